import Verif.Props.DoublePpe
import Verif.Props.RoundingPpeExamples

/-! # Examples in `double`: the solver and the pressures of a step -/

set_option linter.unusedSectionVars false
set_option exponentiation.threshold 2000

namespace OpenMps

/-- Bounds of the rounds, for computation. -/
def dblCalm (n : ℕ) (A : Sparse Double) (b x : ℕ → Double) (eps : Double) (X Λ : ℚ) : Bool :=
  (cgInit n A b x eps).2.isFinite && (List.range (n + 1)).all fun k => let s := cgIterate n A b x eps k
    (List.range n).all (fun i => (s.x i).isFinite && decide (|(s.x i).value| ≤ X)) && (sdot n s.r s.r).isFinite && (s.conv || decide (|(cgAlpha n A s).value| ≤ Λ))

theorem dblCalm_run {n : ℕ} {A : Sparse Double} {b x : ℕ → Double} {eps : Double} {X Λ : ℚ} (h : dblCalm n A b x eps X Λ = true) :
    doubleRounding.CalmRun n A b x eps X Λ := by
  unfold dblCalm at h
  simp only [List.all_eq_true, List.mem_range, Bool.and_eq_true, decide_eq_true_eq, Bool.or_eq_true] at h
  obtain ⟨h0, h⟩ := h
  refine ⟨h0, fun k hk => ⟨fun i hi => ((h k (by omega)).1.1 i hi).1, (h k (by omega)).1.2⟩, fun k hk i hi => ?_, fun k hk hc => ?_⟩
  · have := ((h k (by omega)).1.1 i hi).2
    change |(((cgIterate n A b x eps k).x i).value : ℝ)| ≤ X
    exact_mod_cast this
  · rcases (h k (by omega)).2 with h1 | h1
    · rw [hc] at h1; cases h1
    · change |((cgAlpha n A (cgIterate n A b x eps k)).value : ℝ)| ≤ Λ
      exact_mod_cast h1

/-- Two equations `2 x + y = 1`, `x + 3 y = 1`. -/
def dblA : Sparse Double := fun i j => if i < 2 ∧ j < 2 then some (if i = j then dbl ((i : ℚ) + 2) else dbl 1) else none

theorem dblA_calm : dblCalm 2 dblA (fun _ => dbl 1) (fun _ => dbl 0) (dbl (1 / 1000)) 1 1 = true := by decide +kernel

theorem dblA_conv : (cgSolve 2 dblA (fun _ => dbl 1) (fun _ => dbl 0) (dbl (1 / 1000))).2 = true := by decide +kernel

example : ∃ y : ℕ → Double, cgSolve 2 dblA (fun _ => dbl 1) (fun _ => dbl 0) (dbl (1 / 1000)) = (y, true) ∧
    vecNorm 2 (doubleRounding.trueResidual 2 dblA (fun _ => dbl 1) y) ≤
      (1 + 1 / 2 ^ 26) * |(dbl (1 / 1000)).val| * vecNorm 2 (doubleRounding.trueResidual 2 dblA (fun _ => dbl 1) fun _ => dbl 0) +
      ((2 : ℕ) + 4) * vecNorm 2 (doubleRounding.drift 2 2 dblA (fun _ => dbl 1) ((1 : ℚ) : ℝ) ((1 : ℚ) : ℝ)) + √(5 * ((2 : ℕ) + 1) / 2 ^ 1075) / |(dbl (1 / 1000)).val| := by
  have hrow : ∀ i < 2, rowLength 2 dblA i ≤ 2 := by decide +kernel
  have he : 0 < (dbl (1 / 1000)).value ∧ (dbl (1 / 1000)).value ≤ 1 := by decide +kernel
  have he' : 0 < (dbl (1 / 1000)).val ∧ (dbl (1 / 1000)).val ≤ 1 := by
    unfold Double.val
    exact_mod_cast he
  refine ⟨_, Prod.ext rfl dblA_conv, ?_⟩
  exact C72_solver_in_double (by norm_num) (by norm_num) hrow (by norm_num) (dblCalm_run dblA_calm) (ne_of_gt he'.1)
    (by rw [abs_of_pos he'.1]; exact he'.2) (Prod.ext rfl dblA_conv)

/-! ## A step -/

def dpoolArgs : EnvArgs Double 2 :=
  { maxDt := dbl 0, courant := dbl (1 / 10), g := dbl 10, rho := dbl 1000, nu := dbl 0, surfaceRatio := dbl (3 / 10), reByL0 := dbl 2, c := dbl 1, l0 := dbl 1
    minX := ![dbl 0, dbl 0], maxX := ![dbl 10, dbl 10] }

def dpoolEnv : Env Double 2 := (Env.mk? pourCfg dpoolArgs).get (by decide +kernel)

def dpoolNew : State Double 2 Unit := (State.new? dpoolEnv ()).get (by decide +kernel)

theorem dpoolNew_eq : State.new? dpoolEnv () = some dpoolNew := by unfold dpoolNew; exact (Option.some_get _).symm

/-- A fluid particle falls on a wall particle between two fluid particles. -/
def dpoolParticles : List (Particle Double 2) :=
  [{ x := ![dbl 2, dbl 5], u := ![dbl 0, dbl 0], p := dbl 0, n := dbl 0, ty := .incompressibleNewton },
   { x := ![dbl 3, dbl 5], u := ![dbl 0, dbl 0], p := dbl 0, n := dbl 0, ty := .wall },
   { x := ![dbl 4, dbl 5], u := ![dbl 0, dbl 0], p := dbl 0, n := dbl 0, ty := .incompressibleNewton },
   { x := ![dbl 3, dbl 6], u := ![dbl 0, dbl (-1)], p := dbl 0, n := dbl 0, ty := .incompressibleNewton }]

def dpoolState : State Double 2 Unit := dpoolNew.addParticles dpoolParticles

def dpoolP : Params Double 2 Unit :=
  { cfg := pourCfg, eps := dbl (1 / 1000), walls := { pre := fun w _ _ => w, pos := fun _ _ _ _ => ![dbl 3, dbl 5] } }

theorem dpoolState_hist : Hist dpoolP dpoolNew [] dpoolState := .add _ .start

def dpoolOk (t : State Double 2 Unit) : Bool :=
  (List.range 4).all (fun j => decide ((t.ps j).ty ≠ .disabled) && (List.finRange 2).all (fun a =>
    decide (|((dpoolState.ps j).x a).value - ((t.ps j).x a).value| ≤ 1 / 20) &&
    (((t.ps j).x a).isFinite && decide (|((t.ps j).x a).value| ≤ 10)) && (((t.ps j).u a).isFinite && decide (|((t.ps j).u a).value| ≤ 10)))) &&
  (List.range 4).all (fun i => (List.range 4).all (fun j => decide (j = i) ||
    decide ((dbl (9 / 10)).value ^ 2 ≤ (((t.ps i).x 0).value - ((t.ps j).x 0).value) ^ 2 + (((t.ps i).x 1).value - ((t.ps j).x 1).value) ^ 2))) &&
  !t.fixedRow pourCfg 1 && decide (t.neighbors 1 = [0, 2, 3]) && ((t.ps 1).n.isFinite && decide (|(t.ps 1).n.value| ≤ 10))

theorem dpool_before : ∃ t, dpoolState.beforePressure dpoolP (Schedule.serial 4) (dbl (1 / 100)) = .ok t ∧ dpoolOk t = true :=
  Res.check_ok (f := dpoolOk) (by decide +kernel)

theorem dpool_step : ∃ s', dpoolState.forwardTime dpoolP (Schedule.serial 4) (dbl (1 / 100)) = .ok s' ∧
    (decide (30000 < (s'.ps 1).p.value) && (List.range 4).all (fun i => decide (rowLength 4 s'.ppe.A i ≤ 2)) &&
      dblCalm 4 s'.ppe.A s'.ppe.b (fun _ => 0) (dbl (1 / 1000)) 100000 10) = true :=
  Res.check_ok (f := fun s' : State Double 2 Unit => decide (30000 < (s'.ps 1).p.value) && (List.range 4).all (fun i => decide (rowLength 4 s'.ppe.A i ≤ 2)) &&
      dblCalm 4 s'.ppe.A s'.ppe.b (fun _ => 0) (dbl (1 / 1000)) 100000 10)
    (by decide +kernel)

theorem dpool_env : dpoolEnv.re.value = 2 ∧ 239 / 100 ≤ dpoolEnv.neighborLength.value ∧ dpoolEnv.neighborLength.value ≤ 29 / 10 := by decide +kernel

theorem dpool_n : dpoolState.n = 4 := by decide +kernel

theorem upto_small {x : Double} (h : x.isFinite = true ∧ |x.value| ≤ 10) : x.Upto 60 := by
  refine Double.upto_of ⟨h.1, ?_, ?_⟩
  · have := (abs_le.mp h.2).1
    norm_num; linarith
  · have := (abs_le.mp h.2).2
    norm_num; linarith

theorem addParticles_ppe {F : Type} [Scalar F] {D : ℕ} {ω : Type} (s : State F D ω) (ps : List (Particle F D)) : (s.addParticles ps).ppe = s.ppe := by
  induction ps using List.reverseRecOn with
  | nil => rfl
  | append_singleton l a ih =>
    unfold State.addParticles at ih ⊢
    simp

theorem dpool_guess : dpoolState.ppe.x = fun _ => 0 := by
  have h3 := dpoolNew_eq
  unfold dpoolState
  rw [addParticles_ppe]
  generalize dpoolNew = z at h3
  unfold State.new? at h3
  split at h3
  · cases h3
  · cases h3; rfl

theorem dpool_p : ∀ j, j < 4 → (dpoolState.ps j).p = 0 := by decide +kernel

/-- All hypotheses of C74 hold of a step in `double` that computes a pressure. -/
example : ∃ t s' N, dpoolState.beforePressure dpoolP (Schedule.serial 4) (dbl (1 / 100)) = .ok t ∧
    dpoolState.forwardTime dpoolP (Schedule.serial 4) (dbl (1 / 100)) = .ok s' ∧ 30000 < (s'.ps 1).p.val ∧
    (s'.ps 1).p = (if Scalar.lt (s'.ppe.x 1) 0 then 0 else s'.ppe.x 1) ∧ doubleRounding.Within t 1 N ∧
    |doubleRounding.trueSource dpoolP.cfg t 1 N - doubleRounding.trueLaplacian dpoolP.cfg t 1 N (fun j => (s'.ppe.x j).val)| ≤
      (1 + 1 / 2 ^ 26) * |dpoolP.eps.val| * vecNorm 4 (doubleRounding.trueResidual 4 s'.ppe.A s'.ppe.b fun _ => 0) +
      ((4 : ℕ) + 4) * vecNorm 4 (doubleRounding.drift 4 2 s'.ppe.A s'.ppe.b ((100000 : ℚ) : ℝ) ((10 : ℚ) : ℝ)) +
      √(5 * ((4 : ℕ) + 1) / 2 ^ 1075) / |dpoolP.eps.val| +
      206 / 2 ^ 50 *
        (doubleRounding.laplacianSize dpoolP.cfg t 1 N (fun j => (s'.ppe.x j).val) + doubleRounding.sourceSize dpoolP.cfg t 1 N) := by
  obtain ⟨t, h1, h2⟩ := dpool_before
  obtain ⟨s', g1, g2⟩ := dpool_step
  simp only [Bool.and_eq_true, List.all_eq_true, List.mem_range, decide_eq_true_eq] at g2
  obtain ⟨⟨k1, k2⟩, k3⟩ := g2
  unfold dpoolOk at h2
  simp only [Bool.and_eq_true, List.all_eq_true, List.mem_range, decide_eq_true_eq, Bool.not_eq_true', Bool.or_eq_true, List.mem_finRange, true_implies] at h2
  obtain ⟨⟨⟨⟨f1, f2⟩, f3⟩, f4⟩, f5⟩ := h2
  have he : 0 < dpoolP.eps.value ∧ dpoolP.eps.value ≤ 1 := by decide +kernel
  have he' : 0 < dpoolP.eps.val ∧ dpoolP.eps.val ≤ 1 := by
    unfold Double.val
    exact_mod_cast he
  have hre : dpoolEnv.re.val = 2 := by unfold Double.val; rw [dpool_env.1]; norm_num
  have hL : (239 / 100 : ℝ) ≤ dpoolEnv.neighborLength.val ∧ dpoolEnv.neighborLength.val ≤ 29 / 10 := by
    obtain ⟨-, a1, a2⟩ := dpool_env
    have h1' : ((239 / 100 : ℚ) : ℝ) ≤ ((dpoolEnv.neighborLength.value : ℚ) : ℝ) := by exact_mod_cast a1
    have h2' : ((dpoolEnv.neighborLength.value : ℚ) : ℝ) ≤ ((29 / 10 : ℚ) : ℝ) := by exact_mod_cast a2
    push_cast at h1' h2'
    exact ⟨h1', h2'⟩
  have hℓ : (4 / 5 : ℝ) ≤ (dbl (9 / 10)).val ∧ (dbl (9 / 10)).val ≤ 1 := by
    have : 4 / 5 ≤ (dbl (9 / 10)).value ∧ (dbl (9 / 10)).value ≤ 1 := by decide +kernel
    have h1' : ((4 / 5 : ℚ) : ℝ) ≤ (((dbl (9 / 10)).value : ℚ) : ℝ) := by exact_mod_cast this.1
    have h2' : (((dbl (9 / 10)).value : ℚ) : ℝ) ≤ ((1 : ℚ) : ℝ) := by exact_mod_cast this.2
    push_cast at h1' h2'
    exact ⟨h1', h2'⟩
  have hmove : ∀ j, j < 4 → Double.trueDist (dpoolState.ps j).x (t.ps j).x ≤ 1 / 10 := by
    intro j hj
    unfold Double.trueDist
    rw [Real.sqrt_le_left (by norm_num), Fin.sum_univ_two]
    have hc : ∀ a, (((dpoolState.ps j).x a).val - ((t.ps j).x a).val) ^ 2 ≤ (1 / 20) ^ 2 := by
      intro a
      obtain ⟨⟨q, -⟩, -⟩ := (f1 j hj).2 a
      have : |((dpoolState.ps j).x a).val - ((t.ps j).x a).val| ≤ 1 / 20 := by
        unfold Double.val
        have h2 : ((|((dpoolState.ps j).x a).value - ((t.ps j).x a).value| : ℚ) : ℝ) ≤ ((1 / 20 : ℚ) : ℝ) := by exact_mod_cast q
        push_cast at h2
        exact h2
      exact sq_le_sq' (by linarith [(abs_le.mp this).1]) (abs_le.mp this).2
    have := hc 0
    have := hc 1
    norm_num at *
    linarith
  have key := C74_pressures_of_a_step_in_double (by decide) (by decide) (ℓ := dbl (9 / 10)) (P := dpoolP) (s0 := dpoolNew) (s := dpoolState) (dts := [])
    (Double.sized_of (by decide +kernel)) (Double.sized_of (by decide +kernel)) (Double.sized_of (by decide +kernel))
    (by rw [hre]; linarith [hℓ.2]) (by rw [hre]; norm_num; linarith [hℓ.1]) (by norm_num; linarith [hℓ.1, hL.2])
    (Double.sized_of (by decide +kernel)) (Double.sized_of (by decide +kernel)) (Double.sized_of (by decide +kernel)) (Double.upto_of (by decide +kernel))
    (by
      have : 0 ≤ dpoolEnv.nu.value := by decide +kernel
      unfold Double.val
      exact_mod_cast this)
    (fun a => Double.upto_of (by revert a; decide +kernel)) dpoolNew_eq dpoolState_hist (fun h => absurd h (by decide)) (by decide +kernel)
    (fun a => Double.upto_of (by
      have h : ∀ a, (dpoolEnv.minX a).isFinite = true ∧ -1 ≤ (dpoolEnv.minX a).value ∧ (dpoolEnv.minX a).value ≤ 1 := by decide +kernel
      have b : (1 : ℚ) ≤ 2 ^ 500 := one_le_pow₀ (by norm_num)
      obtain ⟨u1, u2, u3⟩ := h a
      generalize (2 : ℚ) ^ 500 = B at b
      exact ⟨u1, by linarith, by linarith⟩))
    (fun i hi _ a => upto_small (by
      have : ∀ i, i < 4 → ∀ a, ((dpoolState.ps i).x a).isFinite = true ∧ |((dpoolState.ps i).x a).value| ≤ 10 := by decide +kernel
      exact this i (dpool_n ▸ hi) a))
    (Schedule.serial 4) (by rw [dpool_n]; exact Schedule.serial_valid 4) (dbl (1 / 100)) (Double.sized_of (by decide +kernel)) rfl
    (ne_of_gt he'.1) (by rw [abs_of_pos he'.1]; exact he'.2) (by rw [dpool_n]; norm_num) h1 g1 (m := 1 / 10) (by rw [hre]; norm_num; linarith [hL.1])
    (fun j hj _ => ⟨hmove j (dpool_n ▸ hj), fun a => ⟨upto_small ((f1 j (dpool_n ▸ hj)).2 a).1.2, upto_small ((f1 j (dpool_n ▸ hj)).2 a).2⟩⟩)
    (fun i j hi hj hij _ _ => Double.le_trueDist (by
      rcases f2 i (dpool_n ▸ hi) j (dpool_n ▸ hj) with h | h
      · exact absurd h hij
      · rw [Fin.sum_univ_two]; exact h)) 1 (by rw [dpool_n]; decide) f3 (by rw [f4]; decide) (by intro h; cases h) (upto_small f5) (by intro h; cases h)
  obtain ⟨e1, N, e2, -, x₀, e4, e5, e6⟩ := key
  rw [dpool_n] at e4 e5 e6
  have hx0 : x₀ = fun _ => 0 := by
    funext i
    rcases Nat.lt_or_ge i 4 with hi | hi
    · rcases e4 i hi with h | h
      · rw [h, dpool_p i hi]
      · exact h
    · rw [e5 i hi]
      rw [dpool_guess]
  rw [hx0] at e6
  refine ⟨t, s', N, h1, g1, ?_, e1, e2, ?_⟩
  · have : ((30000 : ℚ) : ℝ) < (((s'.ps 1).p.value : ℚ) : ℝ) := by exact_mod_cast k1
    push_cast at this
    exact this
  · have := e6 2 ((100000 : ℚ) : ℝ) ((10 : ℚ) : ℝ) (by norm_num) k2 (by norm_num) (dblCalm_run k3)
    rw [f4] at this
    have e : (2 * ((([0, 2, 3] : List ℕ).length : ℕ) : ℝ) + 200) = 206 := by norm_num
    rw [e] at this
    exact this

end OpenMps
