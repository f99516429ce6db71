import Verif.Spec.ReferenceStep

/-! # Rotating, mirroring, shifting and boosting a scene -/

namespace OpenMps.Ref

variable {D : Nat} {ω ω' : Type}

/-- A change of the frame: an orthogonal matrix (rotation or mirror image), a shift and a constant velocity. -/
structure Motion (D : Nat) where
  R : Matrix (Fin D) (Fin D) ℝ
  shift : Fin D → ℝ
  boost : Fin D → ℝ
  orth : R.transpose * R = 1

/-- The frame after the time `dt`. -/
def Motion.later (M : Motion D) (dt : ℝ) : Motion D := { M with shift := M.shift + dt • M.boost }

/-- The computer `t` shows the scene of the computer `s` in the frame `M`: same number of particles, same types, pressures and densities;
positions and velocities transformed.  Hidden state (buffers, grid, neighbour lists, world) is not compared. -/
structure SeenFrom (M : Motion D) (s : State ℝ D ω) (t : State ℝ D ω') : Prop where
  n : t.n = s.n
  ty : ∀ i, i < s.n → (t.ps i).ty = (s.ps i).ty
  x : ∀ i, i < s.n → (t.ps i).x = M.R.mulVec (s.ps i).x + M.shift
  u : ∀ i, i < s.n → (t.ps i).u = M.R.mulVec (s.ps i).u + M.boost
  p : ∀ i, i < s.n → (t.ps i).p = (s.ps i).p
  dens : ∀ i, i < s.n → (t.ps i).n = (s.ps i).n

/-- Same constants, except the box, with gravity seen from the frame `M` (`CENTRAL_GRAVITY`: the frame keeps the centre). -/
structure SameConstants (cfg : Config) (M : Motion D) (e e' : Env ℝ D) : Prop where
  n0 : e'.n0 = e.n0
  lambda : e'.lambda = e.lambda
  c : e'.c = e.c
  maxDt : e'.maxDt = e.maxDt
  maxDx : e'.maxDx = e.maxDx
  l0 : e'.l0 = e.l0
  re : e'.re = e.re
  rho : e'.rho = e.rho
  nu : e'.nu = e.nu
  surfaceRatio : e'.surfaceRatio = e.surfaceRatio
  neighborLength : e'.neighborLength = e.neighborLength
  gravity : cfg.centralGravity = false → e'.g = M.R.mulVec e.g
  central : cfg.centralGravity = true → M.shift = 0 ∧ M.boost = 0 ∧ e'.g = e.g

/-- The particles that leave the grid in the next step are the same ones. -/
def SameLeaving (s : State ℝ D ω) (t : State ℝ D ω') : Prop :=
  ∀ i, i < s.n → (s.ps i).ty ≠ .disabled → (Outside s.env (s.ps i).x ↔ Outside t.env (t.ps i).x)

/-- In the next step, of length `dt`, the callback of `t` gives the positions that the callback of `s` gives, seen from the frame `M`. -/
def SameWalls (M : Motion D) (P : Params ℝ D ω) (P' : Params ℝ D ω') (dt : ℝ) (s : State ℝ D ω) (t : State ℝ D ω') : Prop :=
  ∀ i, i < s.n → P'.walls.pos (P'.walls.pre t.world (t.env.t + dt) dt) i (t.env.t + dt) dt =
    M.R.mulVec (P.walls.pos (P.walls.pre s.world (s.env.t + dt) dt) i (s.env.t + dt) dt) + (M.shift + dt • M.boost)

end OpenMps.Ref
