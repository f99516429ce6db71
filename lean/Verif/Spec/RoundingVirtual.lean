import Verif.Spec.RoundingForces

/-! # What is needed of the surroundings of a particle with a virtual neighbour -/

namespace OpenMps

variable {F : Type} [Scalar F] {D : Nat} {ω : Type}

/-- The stored number density (without virtual neighbour) is a number that is not negative (up to rounding errors, far more than there are), `n_0` is at most 1000, the domain is at most a million
times as large as the radius of influence, and `std::numeric_limits<double>::epsilon()` is not absurdly small. -/
structure Rounding.Surroundings (R : Rounding F) (t : State F D ω) (i : ℕ) : Prop where
  guard : R.finite (Scalar.epsilon : F) ∧ 1 / 2 ^ 60 ≤ R.val (Scalar.epsilon : F)
  density : R.finite (t.nNoSpp i)
  nonneg : -1 ≤ R.val (t.nNoSpp i)
  n0 : R.val t.env.n0 ≤ 2 ^ 10
  domain : ∀ a, |R.val ((t.ps i).x a)| ≤ 2 ^ 20 * R.val t.env.re

end OpenMps
