import Mathlib.Data.Real.Basic

/-! # Angular momentum -/

namespace OpenMps.Ref

/-- Component `(a, b)` of the outer product of `x` and `v` (in three dimensions: of the cross product). -/
def wedge {D : Nat} (x v : Fin D → ℝ) (a b : Fin D) : ℝ := x a * v b - x b * v a

end OpenMps.Ref
