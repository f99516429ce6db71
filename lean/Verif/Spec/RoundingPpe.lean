import Verif.Spec.RoundingForces
import Verif.Spec.RoundingSolver

/-! # The pressure equation of a time step, in real numbers

The equations that the pressures should satisfy, at the numbers stored in a computer with floating-point arithmetic. -/

namespace OpenMps

variable {F : Type} [Scalar F] {D : Nat} {ω : Type}

/-- Rate of change of the number density of particle `i`: from the velocities (HS) or from the density itself. -/
noncomputable def Rounding.trueSpeed (R : Rounding F) (cfg : Config) (t : State F D ω) (i : ℕ) (N : Finset ℕ) : ℝ :=
  if cfg.hs then -R.val t.env.re * ∑ j ∈ N,
    (∑ a, (R.val ((t.ps j).x a) - R.val ((t.ps i).x a)) * (R.val ((t.ps j).u a) - R.val ((t.ps i).u a))) /
      R.trueDist (t.ps i).x (t.ps j).x ^ 3
  else (R.val (t.ps i).n - R.val t.env.n0) / R.val t.env.dt

/-- The sum of the sizes of the contributions. -/
noncomputable def Rounding.speedSize (R : Rounding F) (cfg : Config) (t : State F D ω) (i : ℕ) (N : Finset ℕ) : ℝ :=
  if cfg.hs then R.val t.env.re * (∑ j ∈ N,
    (∑ a, sz (R.val ((t.ps j).x a) - R.val ((t.ps i).x a)) * sz (R.val ((t.ps j).u a) - R.val ((t.ps i).u a))) /
      R.trueDist (t.ps i).x (t.ps j).x ^ 3 + 1 / 2 ^ 300)
  else sz (R.val (t.ps i).n - R.val t.env.n0) / R.val t.env.dt

/-- The right-hand side `-rho / (n_0 dt)` times the rate of change of the density, corrected by the stored error correction (ECS). -/
noncomputable def Rounding.trueSource (R : Rounding F) (cfg : Config) (t : State F D ω) (i : ℕ) (N : Finset ℕ) : ℝ :=
  -(R.val t.env.rho / (R.val t.env.n0 * R.val t.env.dt)) * (R.trueSpeed cfg t i N + if cfg.ecs then R.val (t.ecs i) else 0)

/-- Its size. -/
noncomputable def Rounding.sourceSize (R : Rounding F) (cfg : Config) (t : State F D ω) (i : ℕ) (N : Finset ℕ) : ℝ :=
  R.val t.env.rho / (R.val t.env.n0 * R.val t.env.dt) * (R.speedSize cfg t i N + if cfg.ecs then sz (R.val (t.ecs i)) else 0)

/-- The pressure a neighbour shows: zero on the free surface. -/
noncomputable def State.shown (cfg : Config) (t : State F D ω) (y : ℕ → ℝ) (j : ℕ) : ℝ := if t.isSurface cfg (t.ps j).n then 0 else y j

/-- The Laplacian of the pressures `y` at particle `i`, the interacting particles being those of `N` except dummies. -/
noncomputable def Rounding.trueLaplacian (R : Rounding F) (cfg : Config) (t : State F D ω) (i : ℕ) (N : Finset ℕ) (y : ℕ → ℝ) : ℝ :=
  ∑ j ∈ N.filter (fun j => (t.ps j).ty ≠ .dummy), R.laplace cfg t.env (R.trueDist (t.ps i).x (t.ps j).x) * (t.shown cfg y j - y i)

/-- The sum of the sizes of the contributions. -/
noncomputable def Rounding.laplacianSize (R : Rounding F) (cfg : Config) (t : State F D ω) (i : ℕ) (N : Finset ℕ) (y : ℕ → ℝ) : ℝ :=
  ∑ j ∈ N.filter (fun j => (t.ps j).ty ≠ .dummy),
    R.laplaceSize cfg t.env (R.trueDist (t.ps i).x (t.ps j).x) * (|t.shown cfg y j| + |y i|) + |y i| / 2 ^ 300

end OpenMps
