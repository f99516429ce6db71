import Verif.Model.Scalar
import Mathlib.Analysis.Real.Sqrt

/-! # Scalars: exact reals, and integers for concrete examples -/

namespace OpenMps

/-- Exact real arithmetic ("exact arithmetic" in the properties).  `double` rounding is not modelled by
this instance; division by zero is 0 as everywhere in Mathlib, so theorems about reals carry explicit
hypotheses that exclude it or are phrased such that it cannot occur.  `epsilon` is `2^-52`. -/
noncomputable instance instScalarReal : Scalar ℝ where
  toZero := inferInstance
  toOne := inferInstance
  toAdd := inferInstance
  toSub := inferInstance
  toMul := inferInstance
  toDiv := inferInstance
  toNeg := inferInstance
  sqrt := Real.sqrt
  abs := fun x => |x|
  lt := fun x y => decide (x < y)
  le := fun x y => decide (x ≤ y)
  eq := fun x y => decide (x = y)
  ofInt := fun k => (k : ℝ)
  floorIdx := fun v => some ⌊v⌋
  ceilIdx := fun v => some ⌈v⌉
  epsilon := 1 / 2 ^ 52

/-- Real arithmetic with one additional value `bad` that stands for every non-finite double (infinities and NaN). -/
inductive PReal where
  | val (x : ℝ)
  | bad

/-- Lift a binary operation; non-finite operands give a non-finite result. -/
def PReal.lift2 (f : ℝ → ℝ → ℝ) : PReal → PReal → PReal
  | .val a, .val b => .val (f a b)
  | _, _ => .bad

/-- Lift a comparison; comparisons with a non-finite operand are false. -/
def PReal.cmp (f : ℝ → ℝ → Bool) : PReal → PReal → Bool
  | .val a, .val b => f a b
  | _, _ => false

/-- Exact arithmetic in which division by zero and square roots of negative numbers are not totalised but give `bad`, which
propagates.  Used for the linear solver, where a breakdown is a division by zero.  (For the solver the identification of infinities
with NaN is faithful: a division by an infinite number, which could give a finite one, and a comparison `-Inf < x`, which is true, do not occur,
see `Props/Solver.lean`.) -/
noncomputable instance instScalarPReal : Scalar PReal where
  zero := .val 0
  one := .val 1
  add := PReal.lift2 (· + ·)
  sub := PReal.lift2 (· - ·)
  mul := PReal.lift2 (· * ·)
  div := fun a b => match a, b with
    | .val a, .val b => if b = 0 then .bad else .val (a / b)
    | _, _ => .bad
  neg := fun a => match a with
    | .val a => .val (-a)
    | .bad => .bad
  sqrt := fun a => match a with
    | .val a => if a < 0 then .bad else .val (Real.sqrt a)
    | .bad => .bad
  abs := fun a => match a with
    | .val a => .val |a|
    | .bad => .bad
  lt := PReal.cmp (fun x y => decide (x < y))
  le := PReal.cmp (fun x y => decide (x ≤ y))
  eq := PReal.cmp (fun x y => decide (x = y))
  ofInt := fun k => .val k
  floorIdx := fun a => match a with
    | .val a => some ⌊a⌋
    | .bad => none
  ceilIdx := fun a => match a with
    | .val a => some ⌈a⌉
    | .bad => none
  epsilon := .val (1 / 2 ^ 52)

/-- Integer arithmetic with truncation: a deliberately crude scalar, used only in `example`s that must be
evaluated by the kernel.  Theorems about every `Scalar` apply to it. -/
@[reducible] def instScalarInt : Scalar Int where
  toZero := inferInstance
  toOne := inferInstance
  toAdd := inferInstance
  toSub := inferInstance
  toMul := inferInstance
  toDiv := inferInstance
  toNeg := inferInstance
  sqrt := fun x => (Nat.sqrt x.toNat : Int)
  abs := fun x => |x|
  lt := fun x y => decide (x < y)
  le := fun x y => decide (x ≤ y)
  eq := fun x y => decide (x = y)
  ofInt := fun k => k
  floorIdx := fun v => some v
  ceilIdx := fun v => some v
  epsilon := 0

end OpenMps
