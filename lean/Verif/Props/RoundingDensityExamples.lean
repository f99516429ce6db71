import Verif.Props.RoundingDensity
import Verif.Props.RoundingExamples

/-! # A computer in rounded arithmetic that meets the hypotheses of C63 -/

set_option linter.unusedSectionVars false

namespace OpenMps

section
attribute [local instance] instScalarRat

theorem rat_big : (2 : ℝ) ^ 60 ≤ roundedRat.Ω := by
  change (2 : ℝ) ^ 60 ≤ 2 ^ 1000
  exact pow_le_pow_right₀ (by norm_num) (by norm_num)

/-- The smallest distance: 0.2. -/
theorem rat_lengths : roundedRat.Lengths (2 / 10 : ℚ) ratEnv.re := by
  obtain ⟨r1, r2⟩ := ratEnv_re'
  have hv : roundedRat.val (2 / 10 : ℚ) = 2 / 10 := by
    change (((2 : ℚ) / 10 : ℚ) : ℝ) = 2 / 10; push_cast; rfl
  have hb := rat_big
  refine ⟨⟨trivial, ?_, ?_, ?_⟩, trivial, ?_, ?_, ?_, ?_⟩
  · rw [hv]; norm_num
  · change (0 : ℝ) ≤ _; positivity
  · rw [hv]; refine le_trans ?_ hb; norm_num
  · rw [hv]; linarith
  · rw [hv]; norm_num; linarith
  · exact le_trans (by norm_num) hb
  · refine le_trans ?_ hb; norm_num; nlinarith

theorem ratState_val : ∀ i a, roundedRat.val ((ratState.ps i).x a) = (((ratState.ps i).x a : ℚ) : ℝ) := fun _ _ => rfl

theorem rat_sep (i j : Nat) (hi : i < 3) (hj : j < 3) (hij : j ≠ i) :
    roundedRat.val (2 / 10 : ℚ) ≤ roundedRat.trueDist (ratState.ps i).x (ratState.ps j).x := by
  have hv : roundedRat.val (2 / 10 : ℚ) = 2 / 10 := by
    change (((2 : ℚ) / 10 : ℚ) : ℝ) = 2 / 10; push_cast; rfl
  rw [hv]
  unfold Rounding.trueDist
  apply Real.le_sqrt_of_sq_le
  rw [Fin.sum_univ_two, ratState_val, ratState_val, ratState_val, ratState_val]
  have v0 : (ratState.ps 0).x 0 = 2 / 10 ∧ (ratState.ps 0).x 1 = 5 / 10 := by decide +kernel
  have v1 : (ratState.ps 1).x 0 = 43 / 100 ∧ (ratState.ps 1).x 1 = 5 / 10 := by decide +kernel
  have v2 : (ratState.ps 2).x 0 = 9 / 10 ∧ (ratState.ps 2).x 1 = 9 / 10 := by decide +kernel
  have hi' : i = 0 ∨ i = 1 ∨ i = 2 := by omega
  have hj' : j = 0 ∨ j = 1 ∨ j = 2 := by omega
  rcases hi' with rfl | rfl | rfl <;> rcases hj' with rfl | rfl | rfl <;> first
    | exact absurd rfl hij
    | (simp only [v0, v1, v2]; push_cast; norm_num)

/-- All hypotheses of C63 hold of this computer. -/
example : ∃ s1, (ratState.start (1 / 1000)).searchNeighbor (Schedule.serial 3 0) = .ok s1 ∧
    |roundedRat.val (((s1.computeDensities { Config.default with spp := false } (Schedule.serial 3 1)).ps 0).n) - roundedRat.trueDensity s1 0|
      ≤ 2 * (roundedRat.trueDensity s1 0 + 1) / 2 ^ 41 := by
  obtain ⟨s1, h1, h2, h3, h4, h5, -⟩ := ratState_search
  refine ⟨s1, h1, ?_⟩
  obtain ⟨r1, r2⟩ := ratEnv_re'
  obtain ⟨l1, l2⟩ := ratEnv_L'
  have hv : roundedRat.val (2 / 10 : ℚ) = 2 / 10 := by
    change (((2 : ℚ) / 10 : ℚ) : ℝ) = 2 / 10; push_cast; rfl
  have hact : (s1.ps 0).ty.active = true := by
    obtain ⟨g0, g, nb, -, -, hs1, -, -⟩ := searchNeighbor_ok_frame (s := ratState.start (1 / 1000)) (Schedule.serial_valid 3 0) h1
    have hty := (marked_ps ({ ratState.start (1 / 1000) with grid := g0 } : State ℚ 2 Unit) (List.range 3) g 0).2.2.2.2
    have e1 : (s1.ps 0).ty = ((State.marked ({ ratState.start (1 / 1000) with grid := g0 } : State ℚ 2 Unit) (List.range 3) g).ps 0).ty := by
      rw [hs1]; rfl
    rw [← e1] at hty
    split at hty
    · exact absurd hty h2
    · rw [hty]; rfl
  have key := C63_density_after_search_is_accurate roundedRat roundedRat_doubleLike (by decide) ratEnv_eq
    (by
      refine ⟨trivial, ?_, ?_⟩
      · change (1 / 2 ^ 20 : ℝ) ≤ (((1 : ℚ) / 10 : ℚ) : ℝ); push_cast; norm_num
      · change (((1 : ℚ) / 10 : ℚ) : ℝ) ≤ 1; push_cast; norm_num)
    rat_lengths (le_trans (by norm_num; linarith) rat_big) trivial ratNew_eq ratState_hist
    (fun h => absurd h (by decide)) ratEnv_good (by rw [hv]; norm_num; linarith) (by decide +kernel) (rat_inRange _ (by decide +kernel))
    (fun i hi _ => rat_inRange _ (ratState_x i hi)) (fun i j hi hj hij _ _ => rat_sep i j hi hj hij)
    _ (Schedule.serial_valid 3) _ h1 0 (by decide) hact (by rw [h5]; decide) _ (Schedule.serial_valid 3 1) { Config.default with spp := false }
  have h6 := key.2
  rw [h5] at h6
  norm_num at h6 ⊢
  exact h6

end

end OpenMps
