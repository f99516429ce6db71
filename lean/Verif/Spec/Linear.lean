import Verif.Model.Cg
import Verif.Model.Instances
import Mathlib.Algebra.BigOperators.Group.Finset.Basic

/-! # Specification vocabulary for the linear system -/

namespace OpenMps

/-- Coefficient `(i, j)`; entries that are not stored are zero. -/
noncomputable def entry (A : Sparse ℝ) (i j : Nat) : ℝ := (A i j).getD 0

/-- The matrix-vector product. -/
noncomputable def applyMat (n : Nat) (A : Sparse ℝ) (v : Nat → ℝ) (i : Nat) : ℝ := ∑ j ∈ Finset.range n, entry A i j * v j

/-- `|b - A x|^2`. -/
noncomputable def residualSq (n : Nat) (A : Sparse ℝ) (b x : Nat → ℝ) : ℝ :=
  ∑ i ∈ Finset.range n, (b i - applyMat n A x i) ^ 2

/-- `v . A v`. -/
noncomputable def quadForm (n : Nat) (A : Sparse ℝ) (v : Nat → ℝ) : ℝ := ∑ i ∈ Finset.range n, v i * applyMat n A v i

end OpenMps
