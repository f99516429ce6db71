import Verif.Props.DoubleStep
import Verif.Props.DoublePpeExamples

/-! # Example: a whole step in `double` -/

set_option linter.unusedSectionVars false
set_option exponentiation.threshold 2000

namespace OpenMps

/-- The same scene without dynamic stabilisation. -/
def dstepP : Params Double 2 Unit := { dpoolP with cfg := { pourCfg with ds := false } }

theorem dstep_hist : Hist dstepP dpoolNew [] dpoolState := .add _ .start

theorem dpoolEnv_eq : Env.mk? pourCfg dpoolArgs = some dpoolEnv := by unfold dpoolEnv; exact (Option.some_get _).symm

theorem dpool_search : ∃ s1, (dpoolState.start (dbl (1 / 100))).searchNeighbor (Schedule.serial 4 0) = .ok s1 ∧
    (decide ((s1.ps 3).ty = .incompressibleNewton) && decide (s1.neighbors 3 = [0, 1, 2])) = true :=
  Res.check_ok (f := fun s1 : State Double 2 Unit => decide ((s1.ps 3).ty = .incompressibleNewton) && decide (s1.neighbors 3 = [0, 1, 2])) (by decide +kernel)

theorem dstep_before : ∃ t, dpoolState.beforePressure dstepP (Schedule.serial 4) (dbl (1 / 100)) = .ok t ∧ dpoolOk t = true :=
  Res.check_ok (f := dpoolOk) (by decide +kernel)

def dpoolEnd (s' : State Double 2 Unit) : Bool :=
  (List.range 4).all (fun j => (s'.ps j).p.isFinite && decide (|(s'.ps j).p.value| ≤ 100000)) && decide (-3 / 4 < ((s'.ps 3).u 1).value)

theorem dpool_end : ∃ s', dpoolState.forwardTime dstepP (Schedule.serial 4) (dbl (1 / 100)) = .ok s' ∧ dpoolEnd s' = true :=
  Res.check_ok (f := dpoolEnd) (by decide +kernel)

theorem upto_pressure {x : Double} (h : x.isFinite = true ∧ |x.value| ≤ 100000) : x.Upto 60 := by
  refine Double.upto_of ⟨h.1, ?_, ?_⟩
  · have := (abs_le.mp h.2).1
    norm_num; linarith
  · have := (abs_le.mp h.2).2
    norm_num; linarith

/-- All hypotheses of C71 for a whole step hold of a step in `double` in which the pressure brakes a falling particle. -/
example : ∃ s1 t s' N N', (dpoolState.start (dbl (1 / 100))).searchNeighbor (Schedule.serial 4 0) = .ok s1 ∧
    dpoolState.beforePressure dstepP (Schedule.serial 4) (dbl (1 / 100)) = .ok t ∧
    dpoolState.forwardTime dstepP (Schedule.serial 4) (dbl (1 / 100)) = .ok s' ∧
    -3 / 4 < ((s'.ps 3).u 1).val ∧ ((dpoolState.ps 3).u 1).val = -1 ∧ doubleRounding.Within s1 3 N ∧ doubleRounding.Within t 3 N' ∧
    |((s'.ps 3).u 1).val - (((dpoolState.ps 3).u 1).val + (dbl (1 / 100)).val * doubleRounding.trueAcceleration dstepP.cfg s1 3 N 1 +
        doubleRounding.truePush (t.withPressures s') 3 N' 1)| ≤
      226 / 2 ^ 50 * (sz ((dpoolState.ps 3).u 1).val + (dbl (1 / 100)).val * doubleRounding.accelerationSize dstepP.cfg s1 3 N 1 +
        sz ((t.ps 3).u 1).val + doubleRounding.pushSize (t.withPressures s') 3 N' 1) := by
  obtain ⟨s1, a1, a2⟩ := dpool_search
  obtain ⟨t, h1, h2⟩ := dstep_before
  obtain ⟨s', g1, g2⟩ := dpool_end
  unfold dpoolEnd at g2
  simp only [Bool.and_eq_true, List.all_eq_true, List.mem_range, decide_eq_true_eq] at a2 g2
  obtain ⟨k1, k2⟩ := g2
  unfold dpoolOk at h2
  simp only [Bool.and_eq_true, List.all_eq_true, List.mem_range, decide_eq_true_eq, Bool.not_eq_true', Bool.or_eq_true, List.mem_finRange, true_implies] at h2
  obtain ⟨⟨⟨⟨f1, f2⟩, f3⟩, f4⟩, f5⟩ := h2
  have hre : dpoolEnv.re.val = 2 := by unfold Double.val; rw [dpool_env.1]; norm_num
  have hL : (239 / 100 : ℝ) ≤ dpoolEnv.neighborLength.val ∧ dpoolEnv.neighborLength.val ≤ 29 / 10 := by
    obtain ⟨-, a1, a2⟩ := dpool_env
    have h1' : ((239 / 100 : ℚ) : ℝ) ≤ ((dpoolEnv.neighborLength.value : ℚ) : ℝ) := by exact_mod_cast a1
    have h2' : ((dpoolEnv.neighborLength.value : ℚ) : ℝ) ≤ ((29 / 10 : ℚ) : ℝ) := by exact_mod_cast a2
    push_cast at h1' h2'
    exact ⟨h1', h2'⟩
  have hℓ : (4 / 5 : ℝ) ≤ (dbl (9 / 10)).val ∧ (dbl (9 / 10)).val ≤ 1 := by
    have : 4 / 5 ≤ (dbl (9 / 10)).value ∧ (dbl (9 / 10)).value ≤ 1 := by decide +kernel
    have h1' : ((4 / 5 : ℚ) : ℝ) ≤ (((dbl (9 / 10)).value : ℚ) : ℝ) := by exact_mod_cast this.1
    have h2' : (((dbl (9 / 10)).value : ℚ) : ℝ) ≤ ((1 : ℚ) : ℝ) := by exact_mod_cast this.2
    push_cast at h1' h2'
    exact ⟨h1', h2'⟩
  have hmove : ∀ j, j < 4 → Double.trueDist (dpoolState.ps j).x (t.ps j).x ≤ 1 / 10 := by
    intro j hj
    unfold Double.trueDist
    rw [Real.sqrt_le_left (by norm_num), Fin.sum_univ_two]
    have hc : ∀ a, (((dpoolState.ps j).x a).val - ((t.ps j).x a).val) ^ 2 ≤ (1 / 20) ^ 2 := by
      intro a
      obtain ⟨⟨q, -⟩, -⟩ := (f1 j hj).2 a
      have : |((dpoolState.ps j).x a).val - ((t.ps j).x a).val| ≤ 1 / 20 := by
        unfold Double.val
        have h2 : ((|((dpoolState.ps j).x a).value - ((t.ps j).x a).value| : ℚ) : ℝ) ≤ ((1 / 20 : ℚ) : ℝ) := by exact_mod_cast q
        push_cast at h2
        exact h2
      exact sq_le_sq' (by linarith [(abs_le.mp this).1]) (abs_le.mp this).2
    have := hc 0
    have := hc 1
    norm_num at *
    linarith
  have hbd : ∀ i, i < 4 → ∀ a, (((dpoolState.ps i).x a).isFinite = true ∧ |((dpoolState.ps i).x a).value| ≤ 10) ∧
      (((dpoolState.ps i).u a).isFinite = true ∧ -2 ^ 30 ≤ ((dpoolState.ps i).u a).value ∧ ((dpoolState.ps i).u a).value ≤ 2 ^ 30) := by decide +kernel
  have hs0 : ∀ i, i < 4 → ∀ j, j < 4 → j ≠ i → (dbl (9 / 10)).value ^ 2 ≤ ∑ a, (((dpoolState.ps i).x a).value - ((dpoolState.ps j).x a).value) ^ 2 := by
    decide +kernel
  have hcour : dpoolArgs.courant.isFinite = true ∧ (1 : ℝ) / 2 ^ 20 ≤ dpoolArgs.courant.val ∧ dpoolArgs.courant.val ≤ 1 := by
    have h : dpoolArgs.courant.isFinite = true ∧ (1 : ℚ) / 2 ^ 20 ≤ dpoolArgs.courant.value ∧ dpoolArgs.courant.value ≤ 1 := by decide +kernel
    refine ⟨h.1, ?_, ?_⟩
    · have : ((1 / 2 ^ 20 : ℚ) : ℝ) ≤ ((dpoolArgs.courant.value : ℚ) : ℝ) := by exact_mod_cast h.2.1
      push_cast at this
      exact this
    · unfold Double.val
      exact_mod_cast h.2.2
  obtain ⟨N, N', w1, w2, key⟩ := C71_step_in_double (by decide) (ℓ := dbl (9 / 10)) (P := dstepP) (s0 := dpoolNew) (s := dpoolState) (dts := []) dpoolEnv_eq hcour
    (Double.sized_of (by decide +kernel)) (Double.sized_of (by decide +kernel)) (Double.sized_of (by decide +kernel))
    (by rw [hre]; linarith [hℓ.2]) (by rw [hre]; norm_num; linarith [hℓ.1]) (by norm_num; linarith [hℓ.1, hL.2])
    (Double.sized_of (by decide +kernel)) (Double.sized_of (by decide +kernel)) (Double.sized_of (by decide +kernel)) (Double.upto_of (by decide +kernel))
    (by
      have : 0 ≤ dpoolEnv.nu.value := by decide +kernel
      unfold Double.val
      exact_mod_cast this)
    (fun a => Double.upto_of (by revert a; decide +kernel)) dpoolNew_eq dstep_hist (fun h => absurd h (by decide)) (by decide +kernel)
    (fun a => Double.upto_of (by
      have h : ∀ a, (dpoolEnv.minX a).isFinite = true ∧ -1 ≤ (dpoolEnv.minX a).value ∧ (dpoolEnv.minX a).value ≤ 1 := by decide +kernel
      have b : (1 : ℚ) ≤ 2 ^ 500 := one_le_pow₀ (by norm_num)
      obtain ⟨u1, u2, u3⟩ := h a
      generalize (2 : ℚ) ^ 500 = B at b
      exact ⟨u1, by linarith, by linarith⟩))
    (fun i hi _ a => ⟨upto_small (hbd i (dpool_n ▸ hi) a).1, Double.upto_of (hbd i (dpool_n ▸ hi) a).2⟩)
    (fun i j hi hj hij _ _ => Double.le_trueDist (hs0 i (dpool_n ▸ hi) j (dpool_n ▸ hj) hij))
    (Schedule.serial 4) (by rw [dpool_n]; exact Schedule.serial_valid 4) (dbl (1 / 100)) (Double.sized_of (by decide +kernel)) rfl rfl rfl
    a1 h1 g1 (m := 1 / 10) (by rw [hre]; norm_num; linarith [hL.1])
    (fun j hj _ => ⟨hmove j (dpool_n ▸ hj), upto_pressure (k1 j (dpool_n ▸ hj)), fun a => ⟨upto_small ((f1 j (dpool_n ▸ hj)).2 a).1.2, upto_small ((f1 j (dpool_n ▸ hj)).2 a).2⟩⟩)
    (fun i j hi hj hij _ _ => Double.le_trueDist (by
      rcases f2 i (dpool_n ▸ hi) j (dpool_n ▸ hj) with h | h
      · exact absurd h hij
      · rw [Fin.sum_univ_two]; exact h)) 3 (by rw [dpool_n]; decide) a2.1 (by rw [a2.2]; decide) (by intro h; cases h)
  refine ⟨s1, t, s', N, N', a1, h1, g1, ?_, ?_, w1, w2, ?_⟩
  · have : ((-3 / 4 : ℚ) : ℝ) < ((((s'.ps 3).u 1).value : ℚ) : ℝ) := by exact_mod_cast k2
    push_cast at this
    exact this
  · have : ((dpoolState.ps 3).u 1).value = -1 := by decide +kernel
    unfold Double.val
    rw [this]
    norm_num
  · have := (key 1).2.2.1
    rw [a2.2] at this
    have e : (2 * ((([0, 1, 2] : List ℕ).length : ℕ) : ℝ) + 220) = 226 := by norm_num
    rw [e] at this
    exact this

end OpenMps
