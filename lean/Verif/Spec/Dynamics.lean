import Verif.Spec.Reference

/-! # Specification: the equations of motion of which a step is the discretisation

The right-hand side of `du_i/dt = ...` for particles at given positions with given velocities; no step size occurs. -/

namespace OpenMps.Ref

variable {D : Nat}

namespace Setting

variable (S : Setting D)

open Classical in
/-- Acceleration by the pressure of the equation of state (explicit mode), `P` being the pressures at the positions `b.x`:
`-1/rho D/n0 sum (P_j + P_i) (x_j - x_i) w(r) / r^2`, or its corrected form with GC. -/
noncomputable def pressureAcceleration (b : Scene D) (i : ℕ) : Fin D → ℝ :=
  let N : ℕ → ℝ := S.reported b.x b.dens
  let P : ℕ → ℝ := S.eos N
  let d : ℕ → Fin D → ℝ := fun j => b.x j - b.x i
  if S.cfg.gc then
    (-(N i / (S.env.rho * S.env.n0))) • ∑ j ∈ S.nearSolid b.x i,
      ((if S.cfg.midpoint then P j + P i else P j - P i) / len (d j) ^ 2 * weight S.env.re (len (d j))) •
        (∑ k ∈ S.near b.x i, (weight S.env.re (len (d k)) / len (d k) ^ 2) • Matrix.vecMulVec (d k) (d k))⁻¹.mulVec (d j)
  else
    (-(1 / S.env.rho * (D / S.env.n0))) • ∑ j ∈ S.nearSolid b.x i,
      ((P j + P i) / len (d j) ^ 2 * weight S.env.re (len (d j))) • d j

end Setting

variable {ω : Type}

/-- The acceleration of particle `i` in the state `s`: viscosity, gravity and pressure. -/
noncomputable def dudt (P : Params ℝ D ω) (s : State ℝ D ω) (i : ℕ) : Fin D → ℝ :=
  (setting P s 0).acceleration (scene s).x (scene s).u i + (setting P s 0).pressureAcceleration (scene s) i

/-- The matrix of the gradient correction at the positions of the state. -/
noncomputable def momentMatrix (P : Params ℝ D ω) (s : State ℝ D ω) (i : ℕ) : Matrix (Fin D) (Fin D) ℝ :=
  ∑ k ∈ (setting P s 0).near (scene s).x i,
    (weight s.env.re (len ((s.ps k).x - (s.ps i).x)) / len ((s.ps k).x - (s.ps i).x) ^ 2) •
      Matrix.vecMulVec ((s.ps k).x - (s.ps i).x) ((s.ps k).x - (s.ps i).x)

end OpenMps.Ref
