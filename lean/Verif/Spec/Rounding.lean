import Verif.Model.Scalar
import Mathlib.Analysis.Real.Sqrt
import Mathlib.Algebra.BigOperators.Fin

/-! # Specification of rounded arithmetic

The standard model of floating-point arithmetic: every operation whose exact result is not too large gives the exact result up to a
relative error `ε` and, for multiplication and division, an absolute error `η` (underflow).  For IEEE 754 `double` in any rounding
mode `ε = 2^-52` (to nearest: `2^-53`), `η = 2^-1074` and `Ω` is the largest finite number; the operations are those the neighbour
search uses. -/

namespace OpenMps

/-- `a` is `b` with relative error at most `ε`. -/
def RelErr (ε a b : ℝ) : Prop := ∃ δ, |δ| ≤ ε ∧ a = b * (1 + δ)

/-- `a` is `b` with relative error at most `ε`, and then absolute error at most `η`. -/
def RelAbsErr (ε η a b : ℝ) : Prop := ∃ δ u, |δ| ≤ ε ∧ |u| ≤ η ∧ a = b * (1 + δ) + u

/-- The arithmetic of `F` is rounded real arithmetic. -/
structure Rounding (F : Type) [Scalar F] where
  /-- neither infinite nor NaN -/
  finite : F → Prop
  /-- the real number a finite scalar stands for -/
  val : F → ℝ
  /-- relative rounding error -/
  ε : ℝ
  /-- absolute error when a product or quotient underflows -/
  η : ℝ
  /-- results up to this size do not overflow -/
  Ω : ℝ
  ε_nonneg : 0 ≤ ε
  η_nonneg : 0 ≤ η
  zero : finite 0 ∧ val 0 = 0
  one : finite 1 ∧ val 1 = 1
  two : finite (Scalar.ofInt 2) ∧ val (Scalar.ofInt 2) = 2
  add : ∀ {x y}, finite x → finite y → |val x + val y| ≤ Ω → finite (x + y) ∧ RelErr ε (val (x + y)) (val x + val y)
  sub : ∀ {x y}, finite x → finite y → |val x - val y| ≤ Ω → finite (x - y) ∧ RelErr ε (val (x - y)) (val x - val y)
  mul : ∀ {x y}, finite x → finite y → |val x * val y| ≤ Ω → finite (x * y) ∧ RelAbsErr ε η (val (x * y)) (val x * val y)
  /-- rounding does not change the sign -/
  mul_nonneg : ∀ {x y}, finite x → finite y → |val x * val y| ≤ Ω → 0 ≤ val x * val y → 0 ≤ val (x * y)
  div : ∀ {x y}, finite x → finite y → val y ≠ 0 → |val x / val y| ≤ Ω → finite (x / y) ∧ RelAbsErr ε η (val (x / y)) (val x / val y)
  sqrt : ∀ {x}, finite x → 0 ≤ val x → finite (Scalar.sqrt x) ∧ RelErr ε (val (Scalar.sqrt x)) (Real.sqrt (val x))
  lt : ∀ {x y}, finite x → finite y → (Scalar.lt x y = true ↔ val x < val y)
  /-- `std::floor` is exact -/
  floor : ∀ {x k}, finite x → Scalar.floorIdx x = some k → k = ⌊val x⌋

variable {F : Type} [Scalar F] {D : Nat}

/-- The exact distance of two positions given by finite scalars. -/
noncomputable def Rounding.trueDist (R : Rounding F) (x y : Vec F D) : ℝ :=
  Real.sqrt (∑ a, (R.val (x a) - R.val (y a)) ^ 2)

/-- The arithmetic is as accurate as `double`, with room to spare: relative error `2^-50`. -/
structure Rounding.DoubleLike (R : Rounding F) : Prop where
  ε_le : R.ε ≤ 1 / 2 ^ 50
  η_le : R.η ≤ 1 / 2 ^ 50

/-- The position is finite and, also in units of the length `L`, far from overflowing. -/
def Rounding.InRange (R : Rounding F) (L : F) (x : Vec F D) : Prop :=
  ∀ a, R.finite (x a) ∧ |R.val (x a)| ≤ R.Ω / 8 ∧ |R.val (x a)| ≤ R.Ω / 8 * R.val L

/-- A search radius `L` for which neither underflow nor overflow matters in a grid of up to `2^20` blocks per axis. -/
structure Rounding.GoodLength (R : Rounding F) (L : F) : Prop where
  finite : R.finite L
  pos : 0 < R.val L
  η_le : R.η ≤ R.val L ^ 2 / 2 ^ 50
  Ω_ge : 2 ^ 50 * R.val L ^ 2 ≤ R.Ω

end OpenMps
