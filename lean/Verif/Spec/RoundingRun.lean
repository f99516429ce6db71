import Verif.Spec.Rounding

/-! # Specification for the time step and the run in rounded arithmetic -/

namespace OpenMps

variable {F : Type} [Scalar F] {D : Nat}

/-- Further facts of floating-point arithmetic: `std::abs` is exact, `==` compares the values, and a positive quotient that is too large
for the format comes out (as infinity or as the largest number) larger than every number below `Ω`. -/
structure Rounding.Ordinary (R : Rounding F) : Prop where
  abs : ∀ {x}, R.finite x → R.finite (Scalar.abs x) ∧ R.val (Scalar.abs x) = |R.val x|
  eq : ∀ {x y}, R.finite x → R.finite y → (Scalar.eq x y = true ↔ R.val x = R.val y)
  div_over : ∀ {x y z}, R.finite x → R.finite y → R.finite z → 0 < R.val x → 0 < R.val y → R.Ω < R.val x / R.val y → R.val z < R.Ω →
    Scalar.lt z (x / y) = true

/-- The exact length of a vector given by finite scalars. -/
noncomputable def Rounding.trueLength (R : Rounding F) (u : Vec F D) : ℝ := Real.sqrt (∑ a, R.val (u a) ^ 2)

/-- Speeds up to `V` neither overflow nor suffer from underflow, measured by the limits `maxDx` and `maxDt` of a step. -/
structure Rounding.SpeedScale (R : Rounding F) (V : ℝ) (maxDx maxDt : F) : Prop where
  dx_finite : R.finite maxDx
  dx_pos : 0 < R.val maxDx
  dt_finite : R.finite maxDt
  dt_pos : 0 < R.val maxDt
  dt_lt : R.val maxDt < R.Ω
  V_pos : 0 < V
  V_le : 16 * V ^ 2 ≤ R.Ω
  Ω_ge : 1 ≤ R.Ω
  η_le : R.η ≤ V ^ 2
  η_V : R.η * V ≤ R.val maxDx / 2 ^ 60
  η_dt : R.η * R.val maxDt ^ 2 ≤ R.val maxDx ^ 2 / 2 ^ 120

end OpenMps
