import Verif.Spec.ReferenceStep
import Mathlib.Logic.Relation

/-! # The pressure equation: what is solved, and which particles feel a free surface

On top of `Spec/Reference.lean` (sums over all particles, no matrix, no solver). -/

namespace OpenMps.Ref.Setting

variable {D : Nat} (S : Setting D)

/-- The pressure of particle `i` is determined by an equation. -/
def Equation (s : Scene D) (i : ℕ) : Prop := i < S.n ∧ S.Active i ∧ ¬ S.Surface s.dens i

/-- No two enabled particles are at the same place. -/
def Distinct (s : Scene D) : Prop :=
  ∀ i j, i < S.n → j < S.n → i ≠ j → S.ty i ≠ .disabled → S.ty j ≠ .disabled → s.x i ≠ s.x j

/-- The equations of two particles contain each other's pressure. -/
def Joined (s : Scene D) (i j : ℕ) : Prop := S.Equation s i ∧ S.Equation s j ∧ j ∈ S.nearSolid s.x i

/-- Particle `i` is at the free surface: it has a virtual particle, or a surface particle is near. -/
def Touches (s : Scene D) (i : ℕ) : Prop := S.HasVirtual s.x i ∨ ∃ k ∈ S.nearSolid s.x i, S.Surface s.dens k

/-- Particle `i` is in a body of fluid that has a free surface. -/
def Wet (s : Scene D) (i : ℕ) : Prop :=
  ∃ k, Relation.ReflTransGen (S.Joined s) i k ∧ S.Equation s i ∧ S.Equation s k ∧ S.Touches s k

/-- A single drop: with SPP, and no other enabled particle was within the search radius at the beginning of the step. -/
def Lone (i : ℕ) : Prop :=
  S.cfg.spp = true ∧ ∀ j, j < S.n → j ≠ i → S.ty j ≠ .disabled → S.env.neighborLength ≤ len (S.start j - S.start i)

/-- `p` solves the pressure equation of the step from `b` with first stage `s` exactly. -/
def Solves (b s : Scene D) (p : ℕ → ℝ) : Prop := ∀ i, i < S.n → S.operator s p i = S.source b s i

/-- How fast the fluid is compressed at particle `i` (the right-hand side of the pressure equation is its negative multiple): change of the number
density plus error compensation. -/
noncomputable def compression (b s : Scene D) (i : ℕ) : ℝ :=
  S.rate s.x s.u s.dens i + S.compensation b.x b.u (S.reported b.x b.dens) i

/-- `φ` is the response of the pressure to a unit compression of the fluid bodies with a free surface. -/
def Response (s : Scene D) (φ : ℕ → ℝ) : Prop := ∀ i, S.Wet s i → S.laplacian s φ i = -1

end OpenMps.Ref.Setting
