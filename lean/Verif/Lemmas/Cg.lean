import Verif.Lemmas.Real
import Mathlib.LinearAlgebra.Matrix.DotProduct
import Mathlib.LinearAlgebra.Dimension.Constructions
import Mathlib.LinearAlgebra.Dimension.StrongRankCondition

/-! # Conjugate gradients: orthogonality and finite termination -/

set_option linter.unusedSectionVars false

namespace OpenMps

open Matrix

/-- Mutually orthogonal non-zero vectors are at most as many as the dimension. -/
theorem orthogonal_card_le {n m : Nat} (R : Fin m → Fin n → ℝ) (h0 : ∀ i, R i ⬝ᵥ R i ≠ 0)
    (h : ∀ i j, i ≠ j → R i ⬝ᵥ R j = 0) : m ≤ n := by
  have hli : LinearIndependent ℝ R := by
    rw [Fintype.linearIndependent_iff]
    intro g hg j
    have := congrArg (fun v => v ⬝ᵥ R j) hg
    simp only [sum_dotProduct, smul_dotProduct, zero_dotProduct] at this
    rw [Finset.sum_eq_single j] at this
    · rcases mul_eq_zero.mp this with k | k
      · exact k
      · exact absurd k (h0 j)
    · intro i _ hij; rw [h i j hij, smul_zero]
    · intro hj; exact absurd (Finset.mem_univ j) hj
  simpa using hli.fintype_card_le_finrank

/-- The recurrences of the conjugate gradient method over `k` iterations. -/
structure CgSeq {n : Nat} (M : Matrix (Fin n) (Fin n) ℝ) (k : Nat) (R P : Nat → Fin n → ℝ) : Prop where
  start : P 0 = R 0
  resid : ∀ j, j < k → R (j + 1) = R j - ((R j ⬝ᵥ R j) / (P j ⬝ᵥ M *ᵥ P j)) • M *ᵥ P j
  dir : ∀ j, j < k → P (j + 1) = R (j + 1) + ((R (j + 1) ⬝ᵥ R (j + 1)) / (R j ⬝ᵥ R j)) • P j

theorem symm_dot {n : Nat} {M : Matrix (Fin n) (Fin n) ℝ} (hM : M.IsSymm) (v w : Fin n → ℝ) :
    v ⬝ᵥ M *ᵥ w = w ⬝ᵥ M *ᵥ v := by
  rw [dotProduct_mulVec, ← mulVec_transpose, hM.eq, dotProduct_comm]

/-- Orthogonality relations up to iteration `k` as long as no residual vanished and no division by zero occurred. -/
theorem CgSeq.orthogonal {n : Nat} {M : Matrix (Fin n) (Fin n) ℝ} (hM : M.IsSymm) {R P : Nat → Fin n → ℝ} :
    ∀ k, CgSeq M k R P → (∀ j, j < k → R j ⬝ᵥ R j ≠ 0) → (∀ j, j < k → P j ⬝ᵥ M *ᵥ P j ≠ 0) →
      (∀ i, i < k → R k ⬝ᵥ P i = 0) ∧ (∀ i, i < k → P k ⬝ᵥ M *ᵥ P i = 0) ∧ R k ⬝ᵥ P k = R k ⬝ᵥ R k ∧
      (∀ i, i < k → R k ⬝ᵥ R i = 0) := by
  intro k
  induction k using Nat.strong_induction_on with
  | _ k ih =>
    intro hs hr hp
    cases k with
    | zero =>
      refine ⟨fun i hi => absurd hi (Nat.not_lt_zero _), fun i hi => absurd hi (Nat.not_lt_zero _), by rw [hs.start],
        fun i hi => absurd hi (Nat.not_lt_zero _)⟩
    | succ k =>
      have hsk : ∀ j, j ≤ k → CgSeq M j R P := fun j hj =>
        ⟨hs.start, fun i hi => hs.resid i (by omega), fun i hi => hs.dir i (by omega)⟩
      have IH := fun j (hj : j ≤ k) => ih j (by omega) (hsk j hj) (fun i hi => hr i (by omega)) (fun i hi => hp i (by omega))
      obtain ⟨a1, a2, a3, a4⟩ := IH k le_rfl
      have e1 := hs.resid k (Nat.lt_succ_self k)
      have e2 := hs.dir k (Nat.lt_succ_self k)
      set α := (R k ⬝ᵥ R k) / (P k ⬝ᵥ M *ᵥ P k) with hα
      set β := (R (k + 1) ⬝ᵥ R (k + 1)) / (R k ⬝ᵥ R k) with hβ
      have hrk := hr k (Nat.lt_succ_self k)
      have hpk := hp k (Nat.lt_succ_self k)
      have b1 : ∀ i, i < k + 1 → R (k + 1) ⬝ᵥ P i = 0 := by
        intro i hi
        rw [e1, sub_dotProduct, smul_dotProduct, smul_eq_mul]
        by_cases hik : i = k
        · subst hik
          rw [a3, dotProduct_comm (M *ᵥ P i), hα]
          field_simp
          ring
        · have hik : i < k := by omega
          rw [a1 i hik, dotProduct_comm (M *ᵥ P k), symm_dot hM, a2 i hik]
          ring
      have b4 : ∀ i, i < k + 1 → R (k + 1) ⬝ᵥ R i = 0 := by
        intro i hi
        cases i with
        | zero => rw [← hs.start]; exact b1 0 hi
        | succ i =>
          have := hs.dir i (by omega)
          have e : R (i + 1) = P (i + 1) - ((R (i + 1) ⬝ᵥ R (i + 1)) / (R i ⬝ᵥ R i)) • P i := by
            rw [eq_sub_iff_add_eq]; exact this.symm
          rw [e, dotProduct_sub, dotProduct_smul, b1 _ hi, b1 i (by omega)]
          simp
      refine ⟨b1, ?_, ?_, b4⟩
      · intro i hi
        have hαi : (R i ⬝ᵥ R i) / (P i ⬝ᵥ M *ᵥ P i) ≠ 0 := div_ne_zero (hr i hi) (hp i hi)
        have hAP : M *ᵥ P i = ((R i ⬝ᵥ R i) / (P i ⬝ᵥ M *ᵥ P i))⁻¹ • (R i - R (i + 1)) := by
          rw [hs.resid i hi, sub_sub_cancel, smul_smul, inv_mul_cancel₀ hαi, one_smul]
        rw [e2, add_dotProduct, smul_dotProduct, smul_eq_mul]
        by_cases hik : i = k
        · subst hik
          have : R (i + 1) ⬝ᵥ M *ᵥ P i = -(α⁻¹ * (R (i + 1) ⬝ᵥ R (i + 1))) := by
            conv_lhs => rw [hAP]
            rw [dotProduct_smul, dotProduct_sub, b4 i hi, smul_eq_mul, ← hα]
            ring
          rw [this, hβ, hα]
          field_simp
          ring
        · have hik : i < k := by omega
          rw [a2 i hik, mul_zero, add_zero, hAP, dotProduct_smul, dotProduct_sub, b4 i hi, b4 (i + 1) (by omega)]
          simp
      · rw [e2, dotProduct_add, dotProduct_smul, b1 k (Nat.lt_succ_self k), smul_zero, add_zero]

/-- There cannot be `n + 1` residuals different from zero. -/
theorem CgSeq.terminates {n : Nat} {M : Matrix (Fin n) (Fin n) ℝ} (hM : M.IsSymm) {R P : Nat → Fin n → ℝ}
    (hs : CgSeq M n R P) (hp : ∀ j, j < n → P j ⬝ᵥ M *ᵥ P j ≠ 0) (hr : ∀ j, j < n → R j ⬝ᵥ R j ≠ 0) : R n ⬝ᵥ R n = 0 := by
  by_contra hn
  have hsk : ∀ j, j ≤ n → CgSeq M j R P := fun j hj =>
    ⟨hs.start, fun i hi => hs.resid i (by omega), fun i hi => hs.dir i (by omega)⟩
  have key : ∀ j, j ≤ n → ∀ i, i < j → R j ⬝ᵥ R i = 0 := fun j hj =>
    (CgSeq.orthogonal hM j (hsk j hj) (fun i hi => hr i (by omega)) (fun i hi => hp i (by omega))).2.2.2
  have := orthogonal_card_le (fun i : Fin (n + 1) => R i) (by
    intro i
    by_cases h : i.val < n
    · exact hr i h
    · have : i.val = n := by omega
      change R i.val ⬝ᵥ R i.val ≠ 0
      rw [this]; exact hn) (by
    intro i j hij
    have hi := i.isLt
    have hj := j.isLt
    rcases Nat.lt_or_gt_of_ne (fun h => hij (Fin.ext h)) with h | h
    · change R i.val ⬝ᵥ R j.val = 0
      rw [dotProduct_comm]; exact key j (by omega) i h
    · exact key i (by omega) j h)
  omega

end OpenMps
