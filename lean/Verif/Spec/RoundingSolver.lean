import Verif.Spec.RoundingRun
import Verif.Model.Cg

/-! # Specification for the pressure solver in rounded arithmetic -/

namespace OpenMps

variable {F : Type} [Scalar F]

/-- Infinities and NaN do not disappear in additions, subtractions and multiplications: if the result is finite, the operands were finite and the result is accurate. -/
structure Rounding.Propagates (R : Rounding F) : Prop where
  add : ∀ {x y}, R.finite (x + y) → R.finite x ∧ R.finite y ∧ RelErr R.ε (R.val (x + y)) (R.val x + R.val y)
  sub : ∀ {x y}, R.finite (x - y) → R.finite x ∧ R.finite y ∧ RelErr R.ε (R.val (x - y)) (R.val x - R.val y)
  mul : ∀ {x y}, R.finite (x * y) → R.finite x ∧ R.finite y ∧ RelAbsErr R.ε R.η (R.val (x * y)) (R.val x * R.val y)

/-- The number at row `i` and column `j` of the matrix. -/
noncomputable def Rounding.entry (R : Rounding F) (A : Sparse F) (i j : Nat) : ℝ := match A i j with | some a => R.val a | none => 0

/-- What `y` really leaves of the equations `A y = b`: the exact residual. -/
noncomputable def Rounding.trueResidual (R : Rounding F) (n : Nat) (A : Sparse F) (b y : Nat → F) (i : Nat) : ℝ :=
  R.val (b i) - ∑ j ∈ Finset.range n, R.entry A i j * R.val (y j)

/-- Sum of the absolute values of a row. -/
noncomputable def Rounding.rowNorm (R : Rounding F) (n : Nat) (A : Sparse F) (i : Nat) : ℝ := ∑ j ∈ Finset.range n, |R.entry A i j|

/-- Number of stored entries of a row. -/
def rowLength (n : Nat) (A : Sparse F) (i : Nat) : Nat := ∑ j ∈ Finset.range n, (match A i j with | some _ => 1 | none => 0)

/-- Euclidean length of a vector of `n` numbers. -/
noncomputable def vecNorm (n : Nat) (f : Nat → ℝ) : ℝ := Real.sqrt (∑ i ∈ Finset.range n, f i ^ 2)

/-- The variables of the solver after `k` rounds (fewer if it has stopped). -/
def cgIterate (n : Nat) (A : Sparse F) (b x : Nat → F) (eps : F) (k : Nat) : CgState F := cgLoop n A (cgInit n A b x eps).2 k (cgInit n A b x eps).1

/-- Length of the next step along the search direction. -/
def cgAlpha (n : Nat) (A : Sparse F) (s : CgState F) : F := s.rr / sdot n s.p (sprod n A s.p)

/-- No overflow occurred, the approximate solutions did not exceed `X`, and the step lengths did not exceed `Λ`. -/
structure Rounding.CalmRun (R : Rounding F) (n : Nat) (A : Sparse F) (b x : Nat → F) (eps : F) (X Λ : ℝ) : Prop where
  goal : R.finite (cgInit n A b x eps).2
  finite : ∀ k ≤ n, (∀ i < n, R.finite ((cgIterate n A b x eps k).x i)) ∧ R.finite (sdot n (cgIterate n A b x eps k).r (cgIterate n A b x eps k).r)
  x_le : ∀ k ≤ n, ∀ i < n, |R.val ((cgIterate n A b x eps k).x i)| ≤ X
  alpha_le : ∀ k < n, (cgIterate n A b x eps k).conv = false → |R.val (cgAlpha n A (cgIterate n A b x eps k))| ≤ Λ

/-- Rounding error of one round in equation `i`, with `m` stored entries per row: `2^-50 ((9 m + 13) |A| X + 2 |b|)`, and underflow. -/
noncomputable def Rounding.drift (R : Rounding F) (n m : Nat) (A : Sparse F) (b : Nat → F) (X Λ : ℝ) (i : Nat) : ℝ :=
  1 / 2 ^ 50 * ((9 * m + 13) * (R.rowNorm n A i * X) + 2 * |R.val (b i)|) + R.η * (3 * R.rowNorm n A i + 3 * (m * Λ) + 2 * m + 1)

end OpenMps
