import Verif.Lemmas.Contract

/-! # C75: the fused operation on infinities, NaN and exact zeros -/

set_option exponentiation.threshold 2000

namespace OpenMps

open Double

theorem Double.isNan_nan : nan.isNan = true := by decide +kernel

theorem Double.isInf_inf (b : Bool) : (inf b).isInf = true ∧ (inf b).isNan = false ∧ (inf b).neg = b := by
  cases b <;> decide +kernel

theorem Double.kinds (x : Double) : (x.isFinite = true ∧ x.isInf = false ∧ x.isNan = false) ∨ (x.isFinite = false ∧ x.isInf = true ∧ x.isNan = false) ∨
    (x.isFinite = false ∧ x.isInf = false ∧ x.isNan = true) := by
  unfold isFinite isInf isNan
  rcases lt_trichotomy x.code infCode with h | h | h
  · left; simp [h, h.ne, h.le]
  · right; left; simp [h]
  · right; right; simp [h, h.ne', h.le]

/-- **C75**: the fused operation on special values, as in IEEE 754: NaN propagates; infinity times zero is NaN; an infinite product swallows a finite summand and an infinite
summand a finite product; opposite infinities give NaN; and an exact zero is negative only if product and summand are. -/
theorem C75_fma_special_values (x y z : Double) :
    ((x.isNan = true ∨ y.isNan = true ∨ z.isNan = true) → (fma x y z).isNan = true) ∧
    ((x.isInf = true ∧ y.code = 0 ∨ x.code = 0 ∧ y.isInf = true) → (fma x y z).isNan = true) ∧
    (x.isFinite = true → y.isFinite = true → z.isInf = true → fma x y z = z) ∧
    ((x.isInf = true ∧ y.code ≠ 0 ∨ x.code ≠ 0 ∧ y.isInf = true) → x.isNan = false → y.isNan = false → z.isNan = false →
      (z.isInf = true → z.neg ≠ (x.neg != y.neg) → (fma x y z).isNan = true) ∧
      ((z.isInf = true → z.neg = (x.neg != y.neg)) → fma x y z = inf (x.neg != y.neg))) ∧
    (x.isFinite = true → y.isFinite = true → z.isFinite = true → x.val * y.val + z.val = 0 →
      (fma x y z).val = 0 ∧ (fma x y z).neg = ((x.neg != y.neg) && z.neg)) := by
  have c0 : ∀ {w : Double}, w.code = 0 → w.isFinite = true := fun {w} h => by unfold isFinite; rw [h]; decide
  refine ⟨?_, ?_, ?_, ?_, ?_⟩
  · rcases kinds x with ⟨x1, x2, x3⟩ | ⟨x1, x2, x3⟩ | ⟨x1, x2, x3⟩ <;> rcases kinds y with ⟨y1, y2, y3⟩ | ⟨y1, y2, y3⟩ | ⟨y1, y2, y3⟩ <;>
      rcases kinds z with ⟨z1, z2, z3⟩ | ⟨z1, z2, z3⟩ | ⟨z1, z2, z3⟩ <;>
      simp [fma, mul, add, x1, x2, x3, y1, y2, y3, z1, z2, z3, isNan_nan]
  · rintro (⟨h1, h2⟩ | ⟨h1, h2⟩)
    · have := c0 h2
      rcases kinds x with ⟨x1, x2, x3⟩ | ⟨x1, x2, x3⟩ | ⟨x1, x2, x3⟩ <;> rcases kinds y with ⟨y1, y2, y3⟩ | ⟨y1, y2, y3⟩ | ⟨y1, y2, y3⟩ <;>
        simp_all [fma, mul, add, isNan_nan]
    · have := c0 h1
      rcases kinds x with ⟨x1, x2, x3⟩ | ⟨x1, x2, x3⟩ | ⟨x1, x2, x3⟩ <;> rcases kinds y with ⟨y1, y2, y3⟩ | ⟨y1, y2, y3⟩ | ⟨y1, y2, y3⟩ <;>
        simp_all [fma, mul, add, isNan_nan]
  · intro x1 y1 z2
    rcases kinds z with ⟨-, h, -⟩ | ⟨z1, -, -⟩ | ⟨-, h, -⟩
    · rw [h] at z2; cases z2
    · simp [fma, x1, y1, z1]
    · rw [h] at z2; cases z2
  · intro h x3 y3 z3
    have i0 : ∀ {w : Double}, w.isInf = true → w.code ≠ 0 := fun {w} h => by unfold isInf at h; rw [of_decide_eq_true h]; decide
    have hp : x.mul y = inf (x.neg != y.neg) ∧ (x.isFinite && y.isFinite) = false := by
      rcases h with ⟨h1, h2⟩ | ⟨h1, h2⟩
      · rcases kinds x with ⟨x1, x2, -⟩ | ⟨x1, x2, -⟩ | ⟨x1, x2, -⟩ <;> simp_all [mul]
      · have := i0 h2
        rcases kinds x with ⟨x1, x2, -⟩ | ⟨x1, x2, -⟩ | ⟨x1, x2, -⟩ <;> rcases kinds y with ⟨y1, y2, -⟩ | ⟨y1, y2, -⟩ | ⟨y1, y2, -⟩ <;> simp_all [mul]
    obtain ⟨i1, i2, i3⟩ := isInf_inf (x.neg != y.neg)
    unfold fma
    rw [hp.1, hp.2, if_neg (by simp)]
    unfold add
    rw [i1, i2, i3, z3]
    simp only [Bool.or_self, Bool.false_eq_true, if_false, if_true]
    constructor
    · intro g1 g2
      have : ((x.neg != y.neg) != z.neg) = true := bne_iff_ne.mpr (fun h => g2 h.symm)
      rw [g1, this]
      exact isNan_nan
    · intro g
      rw [if_neg]
      rw [Bool.and_eq_true]
      rintro ⟨g1, g2⟩
      rw [g g1] at g2
      simp at g2
  · intro x1 y1 z1 h0
    have hq : x.value * y.value + z.value = 0 := by
      unfold val at h0
      exact_mod_cast h0
    unfold fma
    rw [x1, y1, z1, hq]
    simp only [Bool.and_true, if_true]
    refine ⟨?_, ?_⟩
    · obtain ⟨e, m, k⟩ := round_rnd 0 ((x.neg != y.neg) && z.neg)
      exact k.zero (by norm_num)
    · simp [Double.round, mk']

end OpenMps
