import Verif.Props.RoundingPpeRun
import Verif.Props.RoundingForcesExamples
import Verif.Props.RoundingSolverExamples

/-! # A computer in rounded arithmetic that meets the hypotheses of C74 -/

set_option linter.unusedSectionVars false
set_option exponentiation.threshold 1000

namespace OpenMps

section
attribute [local instance] instScalarRat

def poolEnv : Env ℚ 2 := (Env.mk? pourCfg pourArgs).get rfl

theorem poolEnv_eq : Env.mk? pourCfg pourArgs = some poolEnv := rfl

def poolNew : State ℚ 2 Unit := (State.new? poolEnv ()).get rfl

theorem poolNew_eq : State.new? poolEnv () = some poolNew := rfl

/-- A fluid particle falls on a wall particle between two fluid particles. -/
def poolParticles : List (Particle ℚ 2) :=
  [{ x := ![2, 5], u := ![0, 0], p := 0, n := 0, ty := .incompressibleNewton },
   { x := ![3, 5], u := ![0, 0], p := 0, n := 0, ty := .wall },
   { x := ![4, 5], u := ![0, 0], p := 0, n := 0, ty := .incompressibleNewton },
   { x := ![3, 6], u := ![0, -1], p := 0, n := 0, ty := .incompressibleNewton }]

def poolState : State ℚ 2 Unit := poolNew.addParticles poolParticles

def poolP : Params ℚ 2 Unit := { cfg := pourCfg, eps := 1 / 1000, walls := { pre := fun w _ _ => w, pos := fun _ _ _ _ => ![3, 5] } }

theorem poolState_hist : Hist poolP poolNew [] poolState := .add _ .start

def poolOk (t : State ℚ 2 Unit) : Bool :=
  (List.range 4).all (fun j => decide ((t.ps j).ty ≠ .disabled) && (List.finRange 2).all (fun a =>
    decide (|(poolState.ps j).x a - (t.ps j).x a| ≤ 1 / 20) && decide (0 ≤ (t.ps j).x a ∧ (t.ps j).x a ≤ 10) && decide (|(t.ps j).u a| ≤ 10))) &&
  (List.range 4).all (fun i => (List.range 4).all (fun j => decide (j = i) ||
    decide ((9 / 10) ^ 2 ≤ ((t.ps i).x 0 - (t.ps j).x 0) ^ 2 + ((t.ps i).x 1 - (t.ps j).x 1) ^ 2))) &&
  !t.fixedRow pourCfg 1 && decide (t.neighbors 1 = [0, 2, 3]) && decide (|(t.ps 1).n| ≤ 10)

theorem pool_before : ∃ t, poolState.beforePressure poolP (Schedule.serial 4) (1 / 100) = .ok t ∧ poolOk t = true :=
  Res.check_ok (f := poolOk) (by decide +kernel)

theorem pool_step : ∃ s', poolState.forwardTime poolP (Schedule.serial 4) (1 / 100) = .ok s' ∧
    (decide (30000 < (s'.ps 1).p) && (List.range 4).all (fun i => decide (rowLength 4 s'.ppe.A i ≤ 2)) &&
      calmCheck 4 s'.ppe.A s'.ppe.b (fun _ => 0) (1 / 1000) 100000 10) = true :=
  Res.check_ok (f := fun s' : State ℚ 2 Unit => decide (30000 < (s'.ps 1).p) && (List.range 4).all (fun i => decide (rowLength 4 s'.ppe.A i ≤ 2)) &&
      calmCheck 4 s'.ppe.A s'.ppe.b (fun _ => 0) (1 / 1000) 100000 10) (by decide +kernel)

theorem pool_v (q : ℚ) : roundedRat.val q = (q : ℝ) := rfl

theorem pool_lengths_rat : poolEnv.re = 2 ∧ 239 / 100 ≤ poolEnv.neighborLength ∧ poolEnv.neighborLength ≤ 29 / 10 := by decide +kernel

theorem pool_re : roundedRat.val poolEnv.re = 2 := by
  rw [pool_v, pool_lengths_rat.1]; norm_num

theorem pool_L : (239 / 100 : ℝ) ≤ roundedRat.val poolEnv.neighborLength ∧ roundedRat.val poolEnv.neighborLength ≤ 29 / 10 := by
  obtain ⟨-, h1, h2⟩ := pool_lengths_rat
  have h1' : ((239 / 100 : ℚ) : ℝ) ≤ ((poolEnv.neighborLength : ℚ) : ℝ) := by exact_mod_cast h1
  have h2' : ((poolEnv.neighborLength : ℚ) : ℝ) ≤ ((29 / 10 : ℚ) : ℝ) := by exact_mod_cast h2
  push_cast at h1' h2'
  exact ⟨h1', h2'⟩

theorem pool_ℓ : roundedRat.val (9 / 10 : ℚ) = 9 / 10 := by
  rw [pool_v]; push_cast; rfl

theorem pool_big : (2 : ℝ) ^ 60 ≤ roundedRat.Ω := by
  change (2 : ℝ) ^ 60 ≤ 2 ^ 1000
  exact pow_le_pow_right₀ (by norm_num) (by norm_num)

theorem pool_lengths : roundedRat.Lengths (9 / 10 : ℚ) poolEnv.re := by
  have r := pool_re
  have hb := pool_big
  have hv := pool_ℓ
  refine ⟨⟨trivial, ?_, ?_, ?_⟩, trivial, ?_, ?_, ?_, ?_⟩
  · rw [hv]; norm_num
  · change (0 : ℝ) ≤ _; positivity
  · rw [hv]; refine le_trans ?_ hb; norm_num
  · rw [hv, r]; norm_num
  · rw [hv, r]; norm_num
  · exact le_trans (by norm_num) hb
  · refine le_trans ?_ hb; rw [r]; norm_num

theorem pool_good : roundedRat.GoodLength poolEnv.neighborLength := by
  obtain ⟨h1, h2⟩ := pool_L
  refine ⟨trivial, by linarith, ?_, ?_⟩
  · change (0 : ℝ) ≤ _; positivity
  · have : roundedRat.val poolEnv.neighborLength ^ 2 ≤ 2 ^ 10 := by nlinarith
    refine le_trans ?_ pool_big
    calc (2 : ℝ) ^ 50 * roundedRat.val poolEnv.neighborLength ^ 2 ≤ 2 ^ 50 * 2 ^ 10 := mul_le_mul_of_nonneg_left this (by positivity)
      _ = 2 ^ 60 := by norm_num

theorem pool_abs {q b : ℚ} (h : |q| ≤ b) : |roundedRat.val q| ≤ (b : ℝ) := by
  rw [pool_v]
  exact_mod_cast h

theorem pool_inRange (x : Vec ℚ 2) (h : ∀ a, |x a| ≤ 10) : roundedRat.InRange poolEnv.neighborLength x := by
  intro a
  obtain ⟨h1, h2⟩ := pool_L
  have h3 : |roundedRat.val (x a)| ≤ 10 := by exact_mod_cast pool_abs (h a)
  have hΩ := pool_big
  generalize roundedRat.Ω = Ω at hΩ
  refine ⟨trivial, ?_, ?_⟩
  · norm_num at hΩ; linarith
  · norm_num at hΩ; nlinarith

theorem pool_plain : roundedRat.Plain (poolState.start (1 / 100)).env := by
  refine ⟨rat_sized ?_, rat_sized ?_, rat_sized ?_, rat_sized ?_, rat_sized ?_, rat_upto ?_, ?_, fun a => rat_upto ?_⟩
  · decide +kernel
  · decide +kernel
  · decide +kernel
  · decide +kernel
  · decide +kernel
  · decide +kernel
  · change (0 : ℝ) ≤ (((0 : ℚ) : ℚ) : ℝ)
    push_cast; norm_num
  · revert a; decide +kernel

theorem pool_x : ∀ j, j < 4 → ∀ a, |(poolState.ps j).x a| ≤ 10 := by decide +kernel

theorem pool_p : ∀ j, j < 4 → (poolState.ps j).p = 0 := by decide +kernel

theorem upto_of_abs {q : ℚ} (h : |q| ≤ 10) : roundedRat.Upto 60 q := by
  have := pool_abs h
  refine ⟨trivial, this.trans ?_⟩
  norm_num

/-- What `poolOk` says, in real numbers. -/
theorem poolOk_real {t : State ℚ 2 Unit} (h : poolOk t = true) :
    (∀ j, j < 4 → (t.ps j).ty ≠ .disabled ∧ roundedRat.trueDist (poolState.ps j).x (t.ps j).x ≤ 1 / 10 ∧
      roundedRat.InRange poolEnv.neighborLength (t.ps j).x ∧ ∀ a, roundedRat.Upto 60 ((t.ps j).x a) ∧ roundedRat.Upto 60 ((t.ps j).u a)) ∧
    (∀ i j, i < 4 → j < 4 → j ≠ i → roundedRat.val (9 / 10 : ℚ) ≤ roundedRat.trueDist (t.ps i).x (t.ps j).x) ∧
    t.fixedRow pourCfg 1 = false ∧ t.neighbors 1 = [0, 2, 3] ∧ roundedRat.Upto 60 (t.ps 1).n := by
  unfold poolOk at h
  simp only [Bool.and_eq_true, List.all_eq_true, List.mem_range, decide_eq_true_eq, Bool.not_eq_true', Bool.or_eq_true, List.mem_finRange, true_implies] at h
  obtain ⟨⟨⟨⟨f1, f2⟩, f3⟩, f4⟩, f5⟩ := h
  have hx : ∀ j, j < 4 → ∀ a, |(t.ps j).x a| ≤ 10 := by
    intro j hj a
    obtain ⟨⟨-, q⟩, -⟩ := (f1 j hj).2 a
    rw [abs_of_nonneg q.1]; exact q.2
  refine ⟨fun j hj => ⟨(f1 j hj).1, ?_, pool_inRange _ (hx j hj), fun a => ⟨upto_of_abs (hx j hj a), upto_of_abs ((f1 j hj).2 a).2⟩⟩, ?_, f3, f4, upto_of_abs f5⟩
  · unfold Rounding.trueDist
    rw [Real.sqrt_le_left (by norm_num), Fin.sum_univ_two]
    have hc : ∀ a, (roundedRat.val ((poolState.ps j).x a) - roundedRat.val ((t.ps j).x a)) ^ 2 ≤ (1 / 20) ^ 2 := by
      intro a
      obtain ⟨⟨q, -⟩, -⟩ := (f1 j hj).2 a
      have : |roundedRat.val ((poolState.ps j).x a) - roundedRat.val ((t.ps j).x a)| ≤ 1 / 20 := by
        rw [pool_v, pool_v]
        have h2 : ((|(poolState.ps j).x a - (t.ps j).x a| : ℚ) : ℝ) ≤ ((1 / 20 : ℚ) : ℝ) := by exact_mod_cast q
        push_cast at h2
        exact h2
      exact sq_le_sq' (by linarith [(abs_le.mp this).1]) (abs_le.mp this).2
    have := hc 0
    have := hc 1
    norm_num at *
    linarith
  · intro i j hi hj hij
    rw [pool_ℓ]
    unfold Rounding.trueDist
    apply Real.le_sqrt_of_sq_le
    rw [Fin.sum_univ_two]
    rcases f2 i hi j hj with h | h
    · exact absurd h hij
    · simp only [pool_v]
      have : (((9 / 10) ^ 2 : ℚ) : ℝ) ≤ ((((t.ps i).x 0 - (t.ps j).x 0) ^ 2 + ((t.ps i).x 1 - (t.ps j).x 1) ^ 2 : ℚ) : ℝ) := by exact_mod_cast h
      push_cast at this
      exact this

/-- All hypotheses of C74 hold in a step that computes a pressure. -/
example : ∃ t s' N, poolState.beforePressure poolP (Schedule.serial 4) (1 / 100) = .ok t ∧
    poolState.forwardTime poolP (Schedule.serial 4) (1 / 100) = .ok s' ∧ 30000 < (s'.ps 1).p ∧
    (s'.ps 1).p = (if Scalar.lt (s'.ppe.x 1) 0 then 0 else s'.ppe.x 1) ∧ roundedRat.Within t 1 N ∧
    |roundedRat.trueSource poolP.cfg t 1 N - roundedRat.trueLaplacian poolP.cfg t 1 N (fun j => roundedRat.val (s'.ppe.x j))| ≤
      (1 + 1 / 2 ^ 26) * |roundedRat.val poolP.eps| * vecNorm 4 (roundedRat.trueResidual 4 s'.ppe.A s'.ppe.b fun _ => 0) +
      ((4 : ℕ) + 4) * vecNorm 4 (roundedRat.drift 4 2 s'.ppe.A s'.ppe.b ((100000 : ℚ) : ℝ) ((10 : ℚ) : ℝ)) +
      √(5 * ((4 : ℕ) + 1) * roundedRat.η) / |roundedRat.val poolP.eps| +
      206 / 2 ^ 50 *
        (roundedRat.laplacianSize poolP.cfg t 1 N (fun j => roundedRat.val (s'.ppe.x j)) + roundedRat.sourceSize poolP.cfg t 1 N) := by
  obtain ⟨t, h1, h2⟩ := pool_before
  obtain ⟨s', g1, g2⟩ := pool_step
  simp only [Bool.and_eq_true, List.all_eq_true, List.mem_range, decide_eq_true_eq] at g2
  obtain ⟨⟨k1, k2⟩, k3⟩ := g2
  obtain ⟨f1, f2, f3, f4, f5⟩ := poolOk_real h2
  obtain ⟨l1, l2⟩ := pool_L
  have hre := pool_re
  have he : roundedRat.val poolP.eps = 1 / 1000 := by
    rw [show poolP.eps = 1 / 1000 from rfl, pool_v]; push_cast; rfl
  have key := C74_pressures_of_a_step_solve_the_poisson_equation roundedRat roundedRat_doubleLike roundedRat_wide roundedRat_exact roundedRat_ordinary
    roundedRat_propagates (by decide) (by decide) pool_lengths (by rw [pool_ℓ]; norm_num) poolNew_eq poolState_hist (fun h => absurd h (by decide)) pool_good
    (by rw [pool_ℓ]; norm_num; linarith) (by decide +kernel) (pool_inRange _ (by decide +kernel))
    (fun i hi _ => pool_inRange _ (pool_x i hi)) (Schedule.serial 4) (Schedule.serial_valid 4) _ pool_plain rfl
    (by rw [he]; norm_num) (by rw [he]; norm_num [abs_le])
    (by decide) h1 g1 (m := 1 / 10) (by rw [hre]; norm_num; linarith)
    (fun j hj _ => (f1 j hj).2)
    (fun i j hi hj hij _ _ => f2 i j hi hj hij) 1 (by decide) f3 (by rw [f4]; decide) (by intro h; cases h) f5 (by intro h; cases h)
  obtain ⟨e1, N, e2, -, x₀, e4, e5, e6⟩ := key
  have hx0 : x₀ = fun _ => 0 := by
    funext i
    rcases Nat.lt_or_ge i 4 with hi | hi
    · rcases e4 i hi with h | h
      · rw [h, pool_p i hi]
      · exact h
    · rw [e5 i hi]; rfl
  rw [hx0] at e6
  refine ⟨t, s', N, h1, g1, k1, e1, e2, ?_⟩
  have := e6 2 ((100000 : ℚ) : ℝ) ((10 : ℚ) : ℝ) (by norm_num) k2 (by norm_num) (calm_of_check k3)
  rw [f4] at this
  have e : (2 * ((([0, 2, 3] : List ℕ).length : ℕ) : ℝ) + 200) = 206 := by norm_num
  rw [e] at this
  exact this

/-- The hypotheses of the theorems about the equation and about solutions hold too. -/
example : ∃ (t : State ℚ 2 Unit) (N : Finset ℕ), poolState.beforePressure poolP (Schedule.serial 4) (1 / 100) = .ok t ∧ 0 ∈ N ∧
    (∃ v, (t.setPpe pourCfg (Schedule.serial 4 0) (Schedule.serial 4 1)).ppe.A 1 1 = some v ∧
      |roundedRat.val v - -∑ j ∈ N.filter (fun j => (t.ps j).ty ≠ .dummy), roundedRat.laplace pourCfg t.env (roundedRat.trueDist (t.ps 1).x (t.ps j).x)| ≤
        156 / 2 ^ 50 * (∑ j ∈ N.filter (fun j => (t.ps j).ty ≠ .dummy),
          roundedRat.laplaceSize pourCfg t.env (roundedRat.trueDist (t.ps 1).x (t.ps j).x) + 1 / 2 ^ 300)) := by
  obtain ⟨t, h1, h2⟩ := pool_before
  obtain ⟨f1, f2, f3, f4, f5⟩ := poolOk_real h2
  obtain ⟨l1, l2⟩ := pool_L
  have hre := pool_re
  obtain ⟨s1, hs, ht⟩ := beforePressure_midC (Schedule.serial_valid 4) h1
  have hn1 : s1.n = 4 := searchNeighbor_n (poolState.start (1 / 100)) s1 _ (Schedule.serial_valid 4 0) hs
  have htn : t.n = 4 := by rw [ht, midC_n]; exact hn1
  have henv : t.env = (poolState.start (1 / 100)).env := by
    rw [ht, midC_env]
    obtain ⟨g0, g, nb, -, -, hs1, -, -⟩ := searchNeighbor_ok_frame (s := poolState.start (1 / 100)) (Schedule.serial_valid 4 0) hs
    rw [hs1]; rfl
  have htre : t.env.re = poolEnv.re := by rw [henv]; rfl
  have row : roundedRat.Row (9 / 10 : ℚ) t 1 := roundedRat.row_after_move roundedRat_doubleLike (by decide) poolNew_eq poolState_hist
    (fun h => absurd h (by decide)) pool_good
    (by rw [pool_ℓ]; norm_num; linarith) (by decide +kernel) (pool_inRange _ (by decide +kernel))
    (fun i hi _ => pool_inRange _ (pool_x i hi)) (Schedule.serial 4) (Schedule.serial_valid 4) _ hs htn
    (by rw [ht]; unfold State.midC; rw [saveX_nbr]; rfl) htre (fun j => by rw [ht, midC_ty]) (m := 1 / 10) (by rw [hre]; norm_num; linarith)
    (fun j hj _ => ⟨(f1 j hj).2.1, (f1 j hj).2.2.1⟩) (fun i j hi hj hij _ _ => f2 i j hi hj hij) (by rw [hre]; norm_num) 1 (by decide)
    (f1 1 (by decide)).1 (by rw [f4]; decide)
  obtain ⟨N, w1, -, ⟨v, w2, -, w3⟩, -⟩ := C74_pressure_equation_is_accurate roundedRat roundedRat_doubleLike roundedRat_wide roundedRat_exact (by decide) (by decide)
    pourCfg t (by rw [htre]; exact pool_lengths) (by rw [pool_ℓ]; norm_num) (by rw [henv]; exact pool_plain) 1 (by rw [htn]; decide) f3 row
    (by intro h; cases h) f5 (by intro h; cases h) (f1 1 (by decide)).2.2.2 (fun j hj => by
      obtain ⟨j1, -, -⟩ := row.entry j hj
      rw [htn] at j1
      exact (f1 j j1).2.2.2) (Schedule.serial 4 0) (Schedule.serial 4 1) (by rw [htn]; exact Schedule.serial_valid 4 0)
    (by rw [htn]; exact Schedule.serial_valid 4 1)
  refine ⟨t, N, h1, ?_, v, w2, ?_⟩
  · apply w1.2 0 (by rw [htn]; decide) (by decide) (f1 0 (by decide)).1
    rw [htre, hre]
    have d1 := roundedRat.trueDist_triangle (t.ps 1).x (poolState.ps 1).x (t.ps 0).x
    have d2 := roundedRat.trueDist_triangle (poolState.ps 1).x (poolState.ps 0).x (t.ps 0).x
    have d3 := roundedRat.trueDist_symm (t.ps 1).x (poolState.ps 1).x
    have d4 := (f1 1 (by decide)).2.1
    have d5 := (f1 0 (by decide)).2.1
    have d6 : roundedRat.trueDist (poolState.ps 1).x (poolState.ps 0).x = 1 := by
      unfold Rounding.trueDist
      have v1 : (poolState.ps 0).x 0 = 2 ∧ (poolState.ps 0).x 1 = 5 ∧ (poolState.ps 1).x 0 = 3 ∧ (poolState.ps 1).x 1 = 5 := by decide +kernel
      rw [Fin.sum_univ_two]
      simp only [pool_v, v1]
      push_cast
      norm_num
    norm_num
    linarith
  · rw [f4] at w3
    norm_num at w3 ⊢
    exact w3

end

end OpenMps
