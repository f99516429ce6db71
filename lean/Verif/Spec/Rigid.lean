import Verif.Spec.ReferenceStep
import Verif.Spec.History

/-! # Rotating and mirroring a scene -/

namespace OpenMps.Ref

variable {D : Nat} {ω ω' : Type}

/-- A rotation or reflection followed by a translation. -/
structure Rigid (D : Nat) where
  R : Matrix (Fin D) (Fin D) ℝ
  shift : Fin D → ℝ
  orth : R.transpose * R = 1

/-- What becomes of a direction. -/
def Rigid.turn (M : Rigid D) (v : Fin D → ℝ) : Fin D → ℝ := M.R.mulVec v

/-- What becomes of a point. -/
def Rigid.place (M : Rigid D) (x : Fin D → ℝ) : Fin D → ℝ := M.turn x + M.shift

/-- The vertical direction. -/
def vertical : Fin D → ℝ := fun a => if a.val + 1 = D then 1 else 0

/-- Gravity does not notice the movement: it is central and the centre stays, or there is none, or the vertical direction stays. -/
def Rigid.KeepsGravity (M : Rigid D) (cfg : Config) (e : EnvArgs ℝ D) : Prop :=
  if cfg.centralGravity then M.shift = 0 else e.g = 0 ∨ M.turn vertical = vertical

/-- The computer `t` shows the scene of the computer `s`, moved by `M` and with particle `i` numbered `σ i`.  Hidden state is not compared. -/
structure Turned (M : Rigid D) (σ : Equiv.Perm ℕ) (s : State ℝ D ω) (t : State ℝ D ω') : Prop where
  n : t.n = s.n
  perm : ∀ i, σ i < s.n ↔ i < s.n
  ty : ∀ i, i < s.n → (t.ps (σ i)).ty = (s.ps i).ty
  x : ∀ i, i < s.n → (t.ps (σ i)).x = M.place (s.ps i).x
  u : ∀ i, i < s.n → (t.ps (σ i)).u = M.turn (s.ps i).u
  p : ∀ i, i < s.n → (t.ps (σ i)).p = (s.ps i).p
  dens : ∀ i, i < s.n → (t.ps (σ i)).n = (s.ps i).n
  clock : t.env.t = s.env.t

/-- In the next step the callback of `t` gives the positions that the callback of `s` gives, moved. -/
def WallsTurned (M : Rigid D) (σ : Equiv.Perm ℕ) (P : Params ℝ D ω) (P' : Params ℝ D ω') (dt : ℝ) (s : State ℝ D ω) (t : State ℝ D ω') : Prop :=
  ∀ i, i < s.n → P'.walls.pos (P'.walls.pre t.world (t.env.t + dt) dt) (σ i) (t.env.t + dt) dt =
    M.place (P.walls.pos (P.walls.pre s.world (s.env.t + dt) dt) i (s.env.t + dt) dt)

/-- The same enabled particles are outside the grid. -/
def SameOutside (M : Rigid D) (s : State ℝ D ω) (t : State ℝ D ω') : Prop :=
  ∀ i, i < s.n → (s.ps i).ty ≠ .disabled → (Outside t.env (M.place (s.ps i).x) ↔ Outside s.env (s.ps i).x)

/-- The scene is symmetric: moved by `M`, particle `i` is where particle `σ i` is, with the same properties. -/
def Symmetric (M : Rigid D) (σ : Equiv.Perm ℕ) (s : State ℝ D ω) : Prop := Turned M σ s s

/-- All enabled particles are in the region covered by the grid. -/
def AllInside (s : State ℝ D ω) : Prop := ∀ i, i < s.n → (s.ps i).ty ≠ .disabled → ¬ Outside s.env (s.ps i).x

/-- Steps of `ForwardTime(dt)` (`some dt`) and `ForwardTime()` (`none`) that all return; before every step all enabled particles are inside the grid. -/
inductive InsideRun (P : Params ℝ D ω) : List (Schedule × Option ℝ) → State ℝ D ω → State ℝ D ω → Prop
  | nil (s) : InsideRun P [] s s
  | given {steps s s1 s'} (sch dt) : AllInside s → sch.Valid s.n → s.forwardTime P sch dt = .ok s1 → InsideRun P steps s1 s' →
      InsideRun P ((sch, some dt) :: steps) s s'
  | auto {steps s s1 s'} (sch) : AllInside s → sch.Valid s.n → s.forwardTimeAuto P sch = .ok s1 → InsideRun P steps s1 s' →
      InsideRun P ((sch, none) :: steps) s s'

/-- The callbacks, with any hidden states related by `W`, give moved positions for the first `n` particles. -/
def CallbacksTurned (M : Rigid D) (σ : Equiv.Perm ℕ) (n : ℕ) (W : ω → ω' → Prop) (P : Params ℝ D ω) (P' : Params ℝ D ω') : Prop :=
  ∀ w w', W w w' → ∀ t dt, W (P.walls.pre w t dt) (P'.walls.pre w' t dt) ∧
    ∀ i, i < n → P'.walls.pos (P'.walls.pre w' t dt) (σ i) t dt = M.place (P.walls.pos (P.walls.pre w t dt) i t dt)

end OpenMps.Ref
