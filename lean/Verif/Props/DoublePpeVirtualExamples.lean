import Verif.Props.DoublePpeExamples
import Verif.Props.DoublePpeVirtual

/-! # Example in `double`: the pressures of a step at a free surface -/

set_option linter.unusedSectionVars false
set_option exponentiation.threshold 2000

namespace OpenMps

/-- A fluid particle between four others, one of which falls on it. -/
def dsurfParticles : List (Particle Double 2) :=
  [{ x := ![dbl 3, dbl 5], u := ![dbl 0, dbl 0], p := dbl 0, n := dbl 0, ty := .incompressibleNewton },
   { x := ![dbl (11/5), dbl 5], u := ![dbl 0, dbl 0], p := dbl 0, n := dbl 0, ty := .incompressibleNewton },
   { x := ![dbl (19/5), dbl 5], u := ![dbl 0, dbl 0], p := dbl 0, n := dbl 0, ty := .incompressibleNewton },
   { x := ![dbl 3, dbl (21/5)], u := ![dbl 0, dbl 0], p := dbl 0, n := dbl 0, ty := .incompressibleNewton },
   { x := ![dbl 3, dbl (29/5)], u := ![dbl 0, dbl (-1)], p := dbl 0, n := dbl 0, ty := .incompressibleNewton }]

def dsurfState : State Double 2 Unit := dpoolNew.addParticles dsurfParticles

def dsurfP : Params Double 2 Unit :=
  { cfg := { pourCfg with spp := true }, eps := dbl (1 / 1000), walls := { pre := fun w _ _ => w, pos := fun _ _ _ _ => ![dbl 3, dbl 5] } }
theorem dsurfState_hist : Hist dsurfP dpoolNew [] dsurfState := .add _ .start

def dsurfOk (t : State Double 2 Unit) : Bool :=
  (List.range 5).all (fun j => decide ((t.ps j).ty ≠ .disabled) && (List.finRange 2).all (fun a =>
    decide (|((dsurfState.ps j).x a).value - ((t.ps j).x a).value| ≤ 1 / 20) &&
    (((t.ps j).x a).isFinite && decide (|((t.ps j).x a).value| ≤ 10)) && (((t.ps j).u a).isFinite && decide (|((t.ps j).u a).value| ≤ 10)))) &&
  (List.range 5).all (fun i => (List.range 5).all (fun j => decide (j = i) ||
    decide ((dbl (7 / 10)).value ^ 2 ≤ (((t.ps i).x 0).value - ((t.ps j).x 0).value) ^ 2 + (((t.ps i).x 1).value - ((t.ps j).x 1).value) ^ 2))) &&
  !t.fixedRow dsurfP.cfg 4 && decide (t.neighbors 4 = [1, 3, 0, 2]) && ((t.ps 4).n.isFinite && decide (|(t.ps 4).n.value| ≤ 10)) &&
  decide ((t.nNoSpp 4).value < dpoolEnv.n0.value - 2)

theorem dsurf_before : ∃ t, dsurfState.beforePressure dsurfP (Schedule.serial 5) (dbl (1 / 100)) = .ok t ∧ dsurfOk t = true :=
  Res.check_ok (f := dsurfOk) (by decide +kernel)

theorem dsurf_step : ∃ s', dsurfState.forwardTime dsurfP (Schedule.serial 5) (dbl (1 / 100)) = .ok s' ∧
    (decide (2900 < (s'.ps 4).p.value) && (List.range 5).all (fun i => decide (rowLength 5 s'.ppe.A i ≤ 5)) &&
      dblCalm 5 s'.ppe.A s'.ppe.b (fun _ => 0) (dbl (1 / 1000)) 1000000 20) = true :=
  Res.check_ok (f := fun s' : State Double 2 Unit => decide (2900 < (s'.ps 4).p.value) && (List.range 5).all (fun i => decide (rowLength 5 s'.ppe.A i ≤ 5)) &&
      dblCalm 5 s'.ppe.A s'.ppe.b (fun _ => 0) (dbl (1 / 1000)) 1000000 20)
    (by decide +kernel)

theorem dsurf_n : dsurfState.n = 5 := by decide +kernel

theorem dsurf_guess : dsurfState.ppe.x = fun _ => 0 := by
  have h3 := dpoolNew_eq
  unfold dsurfState
  rw [addParticles_ppe]
  generalize dpoolNew = z at h3
  unfold State.new? at h3
  split at h3
  · cases h3
  · cases h3; rfl

theorem dsurf_p : ∀ j, j < 5 → (dsurfState.ps j).p = 0 := by decide +kernel

/-- All hypotheses of C74 hold of a step in `double` with SPP that computes the pressure of a particle with a virtual neighbour: its density is below `n_0`. -/
example : ∃ t s' N v, dsurfState.beforePressure dsurfP (Schedule.serial 5) (dbl (1 / 100)) = .ok t ∧
    dsurfState.forwardTime dsurfP (Schedule.serial 5) (dbl (1 / 100)) = .ok s' ∧ 2900 < (s'.ps 4).p.val ∧ (t.nNoSpp 4).val < dpoolEnv.n0.val - 2 ∧
    (s'.ps 4).p = (if Scalar.lt (s'.ppe.x 4) 0 then 0 else s'.ppe.x 4) ∧ doubleRounding.Within t 4 N ∧ doubleRounding.Beyond dsurfP.cfg t 4 N v ∧
    |doubleRounding.surfaceSource dsurfP.cfg t 4 N - doubleRounding.surfaceLaplacian dsurfP.cfg t 4 N v (fun j => (s'.ppe.x j).val)| ≤
      (1 + 1 / 2 ^ 26) * |dsurfP.eps.val| * vecNorm 5 (doubleRounding.trueResidual 5 s'.ppe.A s'.ppe.b fun _ => 0) +
      ((5 : ℕ) + 4) * vecNorm 5 (doubleRounding.drift 5 5 s'.ppe.A s'.ppe.b ((1000000 : ℚ) : ℝ) ((20 : ℚ) : ℝ)) +
      √(5 * ((5 : ℕ) + 1) / 2 ^ 1075) / |dsurfP.eps.val| +
      208 / 2 ^ 50 *
        (doubleRounding.surfaceLaplacianSize dsurfP.cfg t 4 N v (fun j => (s'.ppe.x j).val) + doubleRounding.sourceSize dsurfP.cfg t 4 N) := by
  obtain ⟨t, h1, h2⟩ := dsurf_before
  obtain ⟨s', g1, g2⟩ := dsurf_step
  simp only [Bool.and_eq_true, List.all_eq_true, List.mem_range, decide_eq_true_eq] at g2
  obtain ⟨⟨k1, k2⟩, k3⟩ := g2
  unfold dsurfOk at h2
  simp only [Bool.and_eq_true, List.all_eq_true, List.mem_range, decide_eq_true_eq, Bool.not_eq_true', Bool.or_eq_true, List.mem_finRange, true_implies] at h2
  obtain ⟨⟨⟨⟨⟨f1, f2⟩, f3⟩, f4⟩, f5⟩, f6⟩ := h2
  have he : 0 < dsurfP.eps.value ∧ dsurfP.eps.value ≤ 1 := by decide +kernel
  have he' : 0 < dsurfP.eps.val ∧ dsurfP.eps.val ≤ 1 := by
    unfold Double.val
    exact_mod_cast he
  have hre : dpoolEnv.re.val = 2 := by unfold Double.val; rw [dpool_env.1]; norm_num
  have hL : (239 / 100 : ℝ) ≤ dpoolEnv.neighborLength.val ∧ dpoolEnv.neighborLength.val ≤ 29 / 10 := by
    obtain ⟨-, a1, a2⟩ := dpool_env
    have h1' : ((239 / 100 : ℚ) : ℝ) ≤ ((dpoolEnv.neighborLength.value : ℚ) : ℝ) := by exact_mod_cast a1
    have h2' : ((dpoolEnv.neighborLength.value : ℚ) : ℝ) ≤ ((29 / 10 : ℚ) : ℝ) := by exact_mod_cast a2
    push_cast at h1' h2'
    exact ⟨h1', h2'⟩
  have hℓ : (3 / 5 : ℝ) ≤ (dbl (7 / 10)).val ∧ (dbl (7 / 10)).val ≤ 1 := by
    have : 3 / 5 ≤ (dbl (7 / 10)).value ∧ (dbl (7 / 10)).value ≤ 1 := by decide +kernel
    have h1' : ((3 / 5 : ℚ) : ℝ) ≤ (((dbl (7 / 10)).value : ℚ) : ℝ) := by exact_mod_cast this.1
    have h2' : (((dbl (7 / 10)).value : ℚ) : ℝ) ≤ ((1 : ℚ) : ℝ) := by exact_mod_cast this.2
    push_cast at h1' h2'
    exact ⟨h1', h2'⟩
  have hmove : ∀ j, j < 5 → Double.trueDist (dsurfState.ps j).x (t.ps j).x ≤ 1 / 10 := by
    intro j hj
    unfold Double.trueDist
    rw [Real.sqrt_le_left (by norm_num), Fin.sum_univ_two]
    have hc : ∀ a, (((dsurfState.ps j).x a).val - ((t.ps j).x a).val) ^ 2 ≤ (1 / 20) ^ 2 := by
      intro a
      obtain ⟨⟨q, -⟩, -⟩ := (f1 j hj).2 a
      have : |((dsurfState.ps j).x a).val - ((t.ps j).x a).val| ≤ 1 / 20 := by
        unfold Double.val
        have h2 : ((|((dsurfState.ps j).x a).value - ((t.ps j).x a).value| : ℚ) : ℝ) ≤ ((1 / 20 : ℚ) : ℝ) := by exact_mod_cast q
        push_cast at h2
        exact h2
      exact sq_le_sq' (by linarith [(abs_le.mp this).1]) (abs_le.mp this).2
    have := hc 0
    have := hc 1
    norm_num at *
    linarith
  have key := C74_free_surface_in_double (by decide) (by decide) (ℓ := dbl (7 / 10)) (P := dsurfP) (s0 := dpoolNew) (s := dsurfState) (dts := [])
    (Double.sized_of (by decide +kernel)) (Double.sized_of (by decide +kernel)) (Double.sized_of (by decide +kernel))
    (by rw [hre]; linarith [hℓ.2]) (by rw [hre]; norm_num; linarith [hℓ.1]) (by norm_num; linarith [hℓ.1, hL.2])
    (Double.sized_of (by decide +kernel)) (Double.sized_of (by decide +kernel)) (Double.sized_of (by decide +kernel)) (Double.upto_of (by decide +kernel))
    (by
      have : 0 ≤ dpoolEnv.nu.value := by decide +kernel
      unfold Double.val
      exact_mod_cast this)
    (fun a => Double.upto_of (by revert a; decide +kernel)) dpoolNew_eq dsurfState_hist (fun h => absurd h (by decide)) (by decide +kernel)
    (fun a => Double.upto_of (by
      have h : ∀ a, (dpoolEnv.minX a).isFinite = true ∧ -1 ≤ (dpoolEnv.minX a).value ∧ (dpoolEnv.minX a).value ≤ 1 := by decide +kernel
      have b : (1 : ℚ) ≤ 2 ^ 500 := one_le_pow₀ (by norm_num)
      obtain ⟨u1, u2, u3⟩ := h a
      generalize (2 : ℚ) ^ 500 = B at b
      exact ⟨u1, by linarith, by linarith⟩))
    (fun i hi _ a => upto_small (by
      have : ∀ i, i < 5 → ∀ a, ((dsurfState.ps i).x a).isFinite = true ∧ |((dsurfState.ps i).x a).value| ≤ 10 := by decide +kernel
      exact this i (dsurf_n ▸ hi) a))
    (Schedule.serial 5) (by rw [dsurf_n]; exact Schedule.serial_valid 5) (dbl (1 / 100)) (Double.sized_of (by decide +kernel)) rfl
    (ne_of_gt he'.1) (by rw [abs_of_pos he'.1]; exact he'.2) (by rw [dsurf_n]; norm_num) h1 g1 (m := 1 / 10) (by rw [hre]; norm_num; linarith [hL.1])
    (fun j hj _ => ⟨hmove j (dsurf_n ▸ hj), fun a => ⟨upto_small ((f1 j (dsurf_n ▸ hj)).2 a).1.2, upto_small ((f1 j (dsurf_n ▸ hj)).2 a).2⟩⟩)
    (fun i j hi hj hij _ _ => Double.le_trueDist (by
      rcases f2 i (dsurf_n ▸ hi) j (dsurf_n ▸ hj) with h | h
      · exact absurd h hij
      · rw [Fin.sum_univ_two]; exact h)) 4 (by rw [dsurf_n]; decide) f3 (by rw [f4]; decide) (fun a => by
      have := ((f1 4 (by decide)).2 a).1.2.2
      have h2 : ((|((t.ps 4).x a).value| : ℚ) : ℝ) ≤ ((10 : ℚ) : ℝ) := by exact_mod_cast this
      push_cast at h2
      rw [hre]
      unfold Double.val
      exact h2.trans (by norm_num)) (upto_small f5) (by intro h; cases h)
  obtain ⟨e1, -, N, v, e2, e3, -, x₀, e4, e5, e6⟩ := key
  rw [dsurf_n] at e4 e5 e6
  have hx0 : x₀ = fun _ => 0 := by
    funext i
    rcases Nat.lt_or_ge i 5 with hi | hi
    · rcases e4 i hi with h | h
      · rw [h, dsurf_p i hi]
      · exact h
    · rw [e5 i hi]
      rw [dsurf_guess]
  rw [hx0] at e6
  refine ⟨t, s', N, v, h1, g1, ?_, ?_, e1, e2, e3, ?_⟩
  · have : ((2900 : ℚ) : ℝ) < (((s'.ps 4).p.value : ℚ) : ℝ) := by exact_mod_cast k1
    push_cast at this
    exact this
  · have : (((t.nNoSpp 4).value : ℚ) : ℝ) < ((dpoolEnv.n0.value - 2 : ℚ) : ℝ) := by exact_mod_cast f6
    push_cast at this
    exact this
  · have := e6 5 ((1000000 : ℚ) : ℝ) ((20 : ℚ) : ℝ) (by norm_num) k2 (by norm_num) (dblCalm_run k3)
    rw [f4] at this
    have e : (2 * ((([1, 3, 0, 2] : List ℕ).length : ℕ) : ℝ) + 200) = 208 := by norm_num
    rw [e] at this
    exact this

end OpenMps
