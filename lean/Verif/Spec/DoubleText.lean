import Verif.Model.DoubleText
import Verif.Spec.Double
import Verif.Spec.Text

/-! # Specification vocabulary for `double` in files -/

namespace OpenMps

/-- What becomes of a number that is written to a file and read again: same sign; NaN stays NaN, infinity stays infinity, and a finite number changes by at most a fraction of
`5 * 10^-6` (plus the precision of `double`). -/
structure Double.Kept (x y : Double) : Prop where
  neg : y.neg = x.neg
  nan : y.isNan = x.isNan
  inf : y.isInf = x.isInf
  close : x.isFinite = true → |y.val - x.val| ≤ (1 / 200000 + 1 / 2 ^ 51) * |x.val|

/-- The same for all numbers of a particle. -/
structure Double.ParticleKept {D : Nat} (q q' : Particle Double D) : Prop where
  ty : q'.ty = q.ty
  x : ∀ a, Kept (q.x a) (q'.x a)
  u : ∀ a, Kept (q.u a) (q'.u a)
  p : Kept q.p q'.p
  n : Kept q.n q'.n

/-- Not zero, but smaller than `2.225075 * 10^-308` (the smallest normal number is `2.22507385… * 10^-308`). -/
def Double.Lost (x : Double) : Prop := x.isFinite = true ∧ x.val ≠ 0 ∧ |x.val| < 2225075 / 10 ^ 314

/-- No number of the particle is that small. -/
def Double.Keepable {D : Nat} (q : Particle Double D) : Prop :=
  (∀ a, ¬ (q.x a).Lost) ∧ (∀ a, ¬ (q.u a).Lost) ∧ ¬ q.p.Lost ∧ ¬ q.n.Lost

end OpenMps
