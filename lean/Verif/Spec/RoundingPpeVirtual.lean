import Verif.Spec.RoundingPpe
import Verif.Spec.RoundingVirtual

/-! # The pressure equation at a free surface, in real numbers -/

namespace OpenMps

variable {F : Type} [Scalar F] {D : Nat} {ω : Type}

/-- Sum of the weighted displacements of the neighbours: `n_0` times the vector to their centre of gravity. -/
noncomputable def Rounding.trueCentre (R : Rounding F) (t : State F D ω) (i : ℕ) (N : Finset ℕ) (a : Fin D) : ℝ :=
  ∑ j ∈ N, Ref.weight (R.val t.env.re) (R.trueDist (t.ps i).x (t.ps j).x) * (R.val ((t.ps j).x a) - R.val ((t.ps i).x a))

/-- The sum of the sizes of the contributions. -/
noncomputable def Rounding.centreSize (R : Rounding F) (t : State F D ω) (i : ℕ) (N : Finset ℕ) (a : Fin D) : ℝ :=
  ∑ j ∈ N, (Ref.weight (R.val t.env.re) (R.trueDist (t.ps i).x (t.ps j).x) + 2) * sz (R.val ((t.ps j).x a) - R.val ((t.ps i).x a)) + 1 / 2 ^ 300

/-- The virtual neighbour (SPP) of particle `i`: `some r` if it has one, at the distance `r`, which is `r_e / (n_0 - n + 1)`, `n` being the stored number
density, up to rounding; `none` if the option is off, or the density is at least `n_0`, or the centre of gravity of the neighbours is the particle's
position, up to rounding. -/
def Rounding.Beyond (R : Rounding F) (cfg : Config) (t : State F D ω) (i : ℕ) (N : Finset ℕ) : Option ℝ → Prop
  | some r => cfg.spp = true ∧ R.val (t.nNoSpp i) < R.val t.env.n0 ∧
      |r - R.val t.env.re / (R.val t.env.n0 - R.val (t.nNoSpp i) + 1)| ≤ R.val t.env.re / 2 ^ 25
  | none => cfg.spp = true → R.val (t.nNoSpp i) < R.val t.env.n0 → ∀ a,
      |R.trueCentre t i N a| ≤ 2 * R.val Scalar.epsilon * R.val t.env.n0 + (2 * (t.neighbors i).length + 200) / 2 ^ 50 * R.centreSize t i N a

/-- Coefficient of the virtual neighbour in the Laplacian. -/
noncomputable def Rounding.beyond (R : Rounding F) (cfg : Config) (e : Env F D) : Option ℝ → ℝ
  | some r => R.laplace cfg e r
  | none => 0

/-- Its size. -/
noncomputable def Rounding.beyondSize (R : Rounding F) (cfg : Config) (e : Env F D) : Option ℝ → ℝ
  | some r => R.laplaceSize cfg e r
  | none => 0

/-- The Laplacian of the pressures `y` at particle `i` whose virtual neighbour is `v`, where the pressure is zero. -/
noncomputable def Rounding.surfaceLaplacian (R : Rounding F) (cfg : Config) (t : State F D ω) (i : ℕ) (N : Finset ℕ) (v : Option ℝ) (y : ℕ → ℝ) : ℝ :=
  R.trueLaplacian cfg t i N y + R.beyond cfg t.env v * (0 - y i)

/-- The sum of the sizes of the contributions. -/
noncomputable def Rounding.surfaceLaplacianSize (R : Rounding F) (cfg : Config) (t : State F D ω) (i : ℕ) (N : Finset ℕ) (v : Option ℝ) (y : ℕ → ℝ) : ℝ :=
  R.laplacianSize cfg t i N y + R.beyondSize cfg t.env v * |y i|

open Classical in
/-- Rate of change of the number density.  With SPP and HS it is zero where the density is below `n_0`. -/
noncomputable def Rounding.surfaceSpeed (R : Rounding F) (cfg : Config) (t : State F D ω) (i : ℕ) (N : Finset ℕ) : ℝ :=
  if cfg.hs = true ∧ cfg.spp = true ∧ R.val (t.nNoSpp i) < R.val t.env.n0 then 0 else R.trueSpeed cfg t i N

/-- The right-hand side. -/
noncomputable def Rounding.surfaceSource (R : Rounding F) (cfg : Config) (t : State F D ω) (i : ℕ) (N : Finset ℕ) : ℝ :=
  -(R.val t.env.rho / (R.val t.env.n0 * R.val t.env.dt)) * (R.surfaceSpeed cfg t i N + if cfg.ecs then R.val (t.ecs i) else 0)

end OpenMps
