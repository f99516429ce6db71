import Verif.Spec.Reference

/-! # The reference lattice around a particle

On top of `Spec/Reference.lean`. -/

namespace OpenMps.Ref

variable {D : Nat}

/-- The point `v` of the cubic lattice of pitch `l0`. -/
def node (l0 : ℝ) (v : Fin D → ℤ) : Fin D → ℝ := fun a => l0 * v a

/-- The points of the lattice within `re` of the origin, without the origin. -/
def lattice (D : Nat) (l0 re : ℝ) : Set (Fin D → ℤ) := { v | v ≠ 0 ∧ len (node l0 v) < re }

/-- Particle `i` is inside the fluid, and the particles it interacts with are arranged around it like the lattice of pitch `l_0`: one at every point
of the lattice within `r_e`, and no others. -/
def Setting.InLattice (S : Setting D) (x : ℕ → Fin D → ℝ) (i : ℕ) : Prop :=
  (∀ j ∈ S.near x i, S.ty j ≠ .dummy) ∧
  ∃ place : ℕ → Fin D → ℤ, Set.BijOn place (S.near x i) (lattice D S.env.l0 S.env.re) ∧ ∀ j ∈ S.near x i, x j - x i = node S.env.l0 (place j)

/-- The value at `d` of the polynomial `c + g·d + dᵀHd/2`. -/
noncomputable def quadratic (c : ℝ) (g : Fin D → ℝ) (H : Matrix (Fin D) (Fin D) ℝ) (d : Fin D → ℝ) : ℝ :=
  c + prod g d + 1 / 2 * prod d (H.mulVec d)

end OpenMps.Ref

namespace OpenMps.Ref

variable {D : Nat}

/-- The factor of the discrete Laplacian on the lattice: 1 for the standard one; with HL `(5-D) r_e / (2 D n0)` times the sum of the inverse distances. -/
noncomputable def Setting.laplaceFactor (S : Setting D) : ℝ :=
  if S.cfg.hl then (5 - D) * S.env.re / (2 * D * S.env.n0) * ∑ᶠ v ∈ lattice D S.env.l0 S.env.re, 1 / len (node S.env.l0 v) else 1

end OpenMps.Ref
