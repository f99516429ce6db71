import Verif.Props.CentreOfMass
import Verif.Props.LocalExamples

/-! # C62: two interacting drops, and a third one far away -/

namespace OpenMps

open Ref

/-- Explicit mode without SPP and GC. -/
noncomputable def farP : Params ℝ 2 Unit := { dropP with cfg := { Config.default with explicit := true, spp := false, gc := false } }

example : ∃ s', (farState (9 / 10)).forwardTime farP (Schedule.serial 3) (1 / 100) = .ok s' ∧
    (s'.ps 0).u + (s'.ps 1).u = ((2 : ℝ) * (1 / 100)) • dropEnv.g := by
  have hl : 0 < dropEnv.l0 := by rw [dropEnv_vals.2.2.1]; norm_num
  have hL : 0 < dropEnv.neighborLength := by rw [dropEnv_vals.2.1]; norm_num
  have hist : Hist farP dropNew [] (farState (9 / 10)) := .add _ .start
  have hsp : ∀ i j, i < j → j < (farState (9 / 10)).n → ((farState (9 / 10)).ps i).ty ≠ .disabled → ((farState (9 / 10)).ps j).ty ≠ .disabled →
      ∃ a, dropEnv.l0 ≤ |((farState (9 / 10)).ps i).x a - ((farState (9 / 10)).ps j).x a| := by
    intro i j hij hj _ _
    have hj : j < 3 := hj
    rw [dropEnv_vals.2.2.1]
    refine ⟨0, ?_⟩
    interval_cases j <;> interval_cases i
    · change 1 / 10 ≤ |(1 / 20 : ℝ) - 3 / 20|; norm_num
    · change 1 / 10 ≤ |(1 / 20 : ℝ) - 19 / 20|; norm_num
    · change 1 / 10 ≤ |(3 / 20 : ℝ) - 19 / 20|; norm_num
  obtain ⟨s', h⟩ := C06_explicit_step_succeeds (P := farP) dropNew_eq hist dropNew_ok hl hL hsp rfl _ (Schedule.serial_valid 3) (1 / 100)
  have hty : ∀ i, i < 2 → (s'.ps i).ty = .incompressibleNewton := by
    intro i hi
    have hb := (C11_box dropNew_eq hist hL _ (Schedule.serial_valid 3) _ h i (by change i < 3; omega)
      (by interval_cases i <;> exact PType.noConfusion)).1 (by
        intro a
        rw [dropEnv_vals.2.1, dropEnv_vals.2.2.2.2.2.1, dropEnv_vals.2.2.2.2.2.2.1]
        interval_cases i <;> fin_cases a
        · change (0 : ℝ) ≤ 1 / 20 ∧ (1 / 20 : ℝ) < 1 + 2 * (288 / 1000); norm_num
        · change (0 : ℝ) ≤ 1 / 20 ∧ (1 / 20 : ℝ) < 1 + 2 * (288 / 1000); norm_num
        · change (0 : ℝ) ≤ 3 / 20 ∧ (3 / 20 : ℝ) < 1 + 2 * (288 / 1000); norm_num
        · change (0 : ℝ) ≤ 1 / 20 ∧ (1 / 20 : ℝ) < 1 + 2 * (288 / 1000); norm_num)
    rw [hb]
    interval_cases i <;> rfl
  refine ⟨s', h, ?_⟩
  have key := (C62_centre_of_mass_falls_freely (P := farP) (Or.inl rfl) dropNew_eq dropNew_ok hL dropEnv_positive.re.le rfl rfl
    (fun k => if k = 0 then farState (9 / 10) else s') hist (fun _ => Schedule.serial 3) (fun _ => Schedule.serial_valid 3) (fun _ => 1 / 100)
    (fun _ => by norm_num) 1
    (fun k hk => by have : k = 0 := by omega
                    subst this; exact h)
    (Finset.range 2) (fun i hi => ⟨by have := Finset.mem_range.mp hi; change i < 3; omega, hty i (Finset.mem_range.mp hi)⟩)
    (fun k hk i hi j hj hn _ => by
      have : k = 0 := by omega
      subst this
      have hj : j < 3 := hj
      have : j = 2 := by
        have : ¬ j < 2 := fun q => hn (Finset.mem_range.mpr q)
        omega
      subst this
      have hi := Finset.mem_range.mp hi
      rw [dropEnv_vals.2.1, ← len_sub]
      unfold len
      apply Real.le_sqrt_of_sq_le
      rw [Fin.sum_univ_two]
      interval_cases i
      · change (288 / 1000 : ℝ) ^ 2 ≤ (1 / 20 - 19 / 20 : ℝ) ^ 2 + (1 / 20 - 9 / 10 : ℝ) ^ 2; norm_num
      · change (288 / 1000 : ℝ) ^ 2 ≤ (3 / 20 - 19 / 20 : ℝ) ^ 2 + (1 / 20 - 9 / 10 : ℝ) ^ 2; norm_num)
    (Or.inl rfl)).1
  rw [Finset.sum_range_succ, Finset.sum_range_one, Finset.sum_range_succ, Finset.sum_range_one, Finset.sum_range_one, Finset.card_range] at key
  have e : (s'.ps 0).u + (s'.ps 1).u = ((0 : Vec ℝ 2) + 0) + (((2 : ℕ) : ℝ) * (1 / 100)) • dropEnv.g := key
  rw [e, add_zero, zero_add]
  norm_num

end OpenMps
