import Verif.Model.Double
import Verif.Spec.RoundingSolver
import Verif.Spec.RoundingForces

/-! # Specification of IEEE 754 rounding -/

namespace OpenMps

/-- The real number a finite `double` stands for. -/
noncomputable def Double.val (x : Double) : ℝ := (x.value : ℚ)

/-- `r` is the exact result `v` rounded to nearest, ties to even (IEEE 754, 4.3.1): infinite exactly from `2^1024 - 2^970` on; otherwise no `double` is
nearer to `v`, and if another one is as near, the last bit of `r` is 0; the sign is that of `v`. -/
structure Double.RoundsTo (v : ℝ) (r : Double) : Prop where
  overflow : r.isInf = true ↔ 2 ^ 1024 - 2 ^ 970 ≤ |v|
  finite : |v| < 2 ^ 1024 - 2 ^ 970 → r.isFinite = true
  nearest : r.isFinite = true → ∀ z : Double, z.isFinite = true → |r.val - v| ≤ |z.val - v|
  even : r.isFinite = true → ∀ z : Double, z.isFinite = true → |z.val - v| = |r.val - v| → z.val ≠ r.val → r.code % 2 = 0
  neg : v < 0 → r.neg = true
  pos : 0 < v → r.neg = false

/-- Finite and at most `2^b`. -/
def Double.Upto (b : ℕ) (x : Double) : Prop := x.isFinite = true ∧ |x.val| ≤ 2 ^ b

/-- Between `2^-b` and `2^b`. -/
def Double.Sized (b : ℕ) (x : Double) : Prop := x.isFinite = true ∧ 1 / 2 ^ b ≤ x.val ∧ x.val ≤ 2 ^ b

/-- Exact distance. -/
noncomputable def Double.trueDist {D : ℕ} (x y : Vec Double D) : ℝ := Real.sqrt (∑ a, ((x a).val - (y a).val) ^ 2)

/-- Exact length. -/
noncomputable def Double.trueLength {D : ℕ} (u : Vec Double D) : ℝ := Real.sqrt (∑ a, (u a).val ^ 2)

/-- Opposite results: both NaN, or the same absolute value and opposite signs (`0` and `-0` count as opposite to both). -/
def Double.Opposite (x y : Double) : Prop := (x.isNan = true ∧ y.isNan = true) ∨ (x.isNan = false ∧ y.isNan = false ∧ x.key = -y.key)

end OpenMps
