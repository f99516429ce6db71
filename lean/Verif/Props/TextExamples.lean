import Verif.Props.Text
import Verif.Props.RestartExamples

/-! # Concrete cases for C53 and C54 -/

namespace OpenMps

set_option linter.unusedSectionVars false

/-- Texts of numbers. -/
example : numChars (1 / 3 : ℚ) = "0.333333".toList ∧ numChars (2 / 3 : ℚ) = "0.666667".toList ∧ numChars (-12345678 : ℚ) = "-1.23457e+07".toList ∧
    numChars (100 : ℚ) = "100".toList ∧ numChars (1 / 100000 : ℚ) = "1e-05".toList ∧ numChars (9999995 / 10 : ℚ) = "1e+06".toList ∧
    numChars (9999985 / 10 : ℚ) = "999998".toList := by decide +kernel

example : readDecimal "-12.5e-1".toList = some (-5 / 4 : ℚ) ∧ readDecimal ".5x".toList = some (1 / 2 : ℚ) ∧ (readDecimal "x".toList : Option ℚ) = none := by
  decide +kernel

/-- A conversion without rounding. -/
def exactStrtod (K : Type) : Strtod K := ⟨id, fun _ => true⟩

theorem exact_error {K : Type} [Field K] [LinearOrder K] [IsStrictOrderedRing K] (x : K) : |(exactStrtod K).rd x - x| ≤ 0 * |x| := by
  simp [exactStrtod]

theorem exact_inRange {K : Type} [Field K] [LinearOrder K] [IsStrictOrderedRing K] {D : Nat} (q : Particle K D) : ParticleInRange (exactStrtod K) q :=
  ⟨fun _ _ _ => rfl, fun _ _ _ => rfl, fun _ _ => rfl, fun _ _ => rfl⟩

/-- A conversion with a relative error of `10^-8` that refuses numbers above `10^200` and numbers other than 0 below `10^-200`. -/
def coarseStrtod : Strtod ℚ := ⟨fun x => x * (1 + 1 / 100000000), fun x => decide (|x| ≤ 10 ^ 200 ∧ (x = 0 ∨ 1 / 10 ^ 200 ≤ |x|))⟩

/-- The hypotheses of `C53_files_keep_six_digits` are met by these particles with this conversion. -/
def thirdPs : List (Particle ℚ 2) := [{ x := ![1 / 3, -1 / 7], u := ![0, 0], p := 12345678, n := 1, ty := .incompressibleNewton }, { x := ![2 / 3, 0], u := ![0, 0], p := 0, n := 1, ty := .dummy }]

example : (1 / 100000000 : ℚ) ≤ 1 / 10000000 ∧ (∀ x, |coarseStrtod.rd x - x| ≤ 1 / 100000000 * |x|) ∧
    (∀ q ∈ thirdPs, ∃ k, q.ty = typeOfNumber k) ∧ ∀ q ∈ thirdPs, ParticleInRange coarseStrtod q := by
  have hr : ∀ v : ℚ, v = 0 ∨ (1 / 10 ≤ |v| ∧ |v| ≤ 100000000) → WellInRange coarseStrtod v := by
    rintro v (rfl | ⟨h1, h2⟩) x hx
    · have : x = 0 := by simpa [RelClose] using hx
      subst this
      simp [coarseStrtod]
    · unfold RelClose at hx
      have k1 : |x| ≤ |x - v| + |v| := by have := abs_add_le (x - v) v; rwa [sub_add_cancel] at this
      have k2 : |v| ≤ |x - v| + |x| := by have := abs_add_le (v - x) x; rwa [sub_add_cancel, abs_sub_comm] at this
      refine decide_eq_true ⟨?_, Or.inr ?_⟩
      · refine le_trans (b := 1000000000) (by linarith) (by norm_num)
      · refine le_trans (b := 1 / 100) (by norm_num) (by linarith)
  refine ⟨by norm_num, fun x => ?_, ?_, ?_⟩
  · have : coarseStrtod.rd x - x = 1 / 100000000 * x := by simp only [coarseStrtod]; ring
    rw [this, abs_mul]; norm_num
  · intro q hq
    simp only [thirdPs, List.mem_cons, List.not_mem_nil, or_false] at hq
    rcases hq with rfl | rfl
    · exact ⟨0, rfl⟩
    · exact ⟨2, rfl⟩
  · intro q hq
    simp only [thirdPs, List.mem_cons, List.not_mem_nil, or_false] at hq
    rcases hq with rfl | rfl
    · refine ⟨fun a => hr _ ?_, fun a => hr _ ?_, hr _ ?_, hr _ ?_⟩
      · right; match a with
        | 0 => norm_num [abs_of_pos]
        | 1 => show 1 / 10 ≤ |(-1 / 7 : ℚ)| ∧ |(-1 / 7 : ℚ)| ≤ 100000000; rw [abs_of_neg (by norm_num)]; norm_num
      · left; match a with
        | 0 => rfl
        | 1 => rfl
      · right; norm_num [abs_of_pos]
      · right; norm_num [abs_of_pos]
    · refine ⟨fun a => hr _ ?_, fun a => hr _ ?_, hr _ ?_, hr _ ?_⟩
      · match a with
        | 0 => right; norm_num [abs_of_pos]
        | 1 => left; rfl
      · left; match a with
        | 0 => rfl
        | 1 => rfl
      · left; rfl
      · right; norm_num [abs_of_pos]

/-- The file changes the numbers. -/
example : outputToCsv libPrinter thirdPs = "Type, x, z, u, w, p, n\n0, 0.333333, -0.142857, 0, 0, 1.23457e+07, 1\n2, 0.666667, 0, 0, 0, 0, 1\n".toList := by decide +kernel

/-- The program with the library's conversions starts from a file that shows the particles at rest. -/
theorem rest_main_lib : mainStart restCfg (libConv (exactStrtod ℝ)) restCond restArgs 10 (outputToCsv libPrinter restPs) restP restStart := by
  have hnum : ∀ k : ℤ, |k| < 1000000 → stod (exactStrtod ℝ) (numChars (k : ℝ)) = some (k : ℝ) := by
    intro k hk
    unfold stod
    rw [C53_decimal_texts_are_read (C53_six_digit_numbers_are_shown_exactly ⟨k, 0, hk, by simp⟩)]
    rfl
  have h0 := hnum 0 (by norm_num)
  have h1 := hnum 1 (by norm_num)
  have h3 := hnum 3 (by norm_num)
  refine ⟨restEnv, restPs, restNew, restEnv_eq, ?_, rest_grid.choose_spec, rfl, rfl⟩
  refine file_read_back (Or.inl rfl) libPrinter_clean stoi_intChars (fun q hq => ?_) ?_
  · simp only [restPs, List.mem_cons, List.not_mem_nil, or_false] at hq
    rcases hq with rfl | rfl <;> exact ⟨1, rfl⟩
  · refine .cons ⟨rfl, fun a => ?_, fun a => ?_, h0, h0⟩ (.cons ⟨rfl, fun a => ?_, fun a => ?_, h0, h0⟩ .nil)
    · match a with
      | 0 => exact h1
      | 1 => exact h1
    · match a with
      | 0 => exact h0
      | 1 => exact h0
    · match a with
      | 0 => exact h3
      | 1 => exact h1
    · match a with
      | 0 => exact h0
      | 1 => exact h0

/-- The hypotheses of `C53_restart_begins_with_the_same_file` (and of `C54_no_file_is_overwritten`) are met by every file of this run; it writes at least one. -/
example : (0 : ℝ) ≤ 1 / 10000000 ∧ (∀ x, |(exactStrtod ℝ).rd x - x| ≤ 0 * |x|) ∧
    mainStart restCfg (libConv (exactStrtod ℝ)) restCond restArgs 10 (outputToCsv libPrinter restPs) restP restStart ∧
    (∀ k : Nat, ((fun _ => Schedule.serial 2 : Nat → Schedule) k).Valid restStart.n) ∧ 0 < restCond.outputInterval ∧ 0 ≤ restCond.startTime ∧
    restCond.startTime ≤ restCond.endTime ∧
    (∃ rec, rec ∈ (mainProgram restCfg (libConv (exactStrtod ℝ)) libPrinter (fun _ => Schedule.serial 2) restCond restArgs 10 (outputToCsv libPrinter restPs) 100).outs) ∧
    ∀ (s : State ℝ 2 Unit), ∀ q ∈ s.particles, ParticleInRange (exactStrtod ℝ) q := by
  refine ⟨by norm_num, exact_error, rest_main_lib, rest_valid, by norm_num [restCond], by norm_num [restCond], by norm_num [restCond], ?_, fun _ q _ => exact_inRange q⟩
  have h1 := toSize_real (v := restCond.startTime / restCond.outputInterval) (by norm_num [restCond])
  rw [mainProgram_start rest_main_lib]
  unfold runLoop
  rw [h1]
  simp only
  split
  · exact ⟨_, List.mem_singleton.2 rfl⟩
  · obtain ⟨l, hl⟩ := outerLoop_prefix restP (fun _ => Schedule.serial 2) libPrinter restCond _ 100 _ 1 (0 : ℝ) restStart 0
      [mkOut libPrinter ⌈restCond.startTime / restCond.outputInterval⌉₊ restCond.startTime 0 restStart]
    rw [hl]
    exact ⟨_, List.mem_append_left _ (List.mem_singleton.2 rfl)⟩

end OpenMps
