import Verif.Spec.History
import Verif.Model.Instances
import Mathlib.Logic.Equiv.Defs

/-! # Renumbering the particles -/

namespace OpenMps

variable {D : Nat} {ω : Type}

/-- `σ` renumbers the particle numbers `0, ..., n-1`. -/
def Renumbers (n : Nat) (σ : Equiv.Perm Nat) : Prop := ∀ i, σ i < n ↔ i < n

/-- The wall callbacks `w'` do for particle `σ i` what `w` does for particle `i`. -/
structure Walls.Renumbered (n : Nat) (σ : Equiv.Perm Nat) (w w' : Walls ℝ D ω) : Prop where
  pre : w'.pre = w.pre
  pos : ∀ c i t dt, i < n → w'.pos c (σ i) t dt = w.pos c i t dt

/-- Computer `t` shows the scene of computer `s`; particle `i` of `s` has the number `σ i` in `t`. -/
structure SameScene (σ : Equiv.Perm Nat) (s t : State ℝ D ω) : Prop where
  count : t.n = s.n
  particle : ∀ i, i < s.n → t.ps (σ i) = s.ps i
  env : t.env = s.env
  world : t.world = s.world

/-- A program that only makes time steps: `some dt` is `ForwardTime(dt)`, `none` is `ForwardTime()`, each with the schedules of its
parallel loops; it ends at the first exception. -/
noncomputable def State.runSteps (P : Params ℝ D ω) : List (Schedule × Option ℝ) → State ℝ D ω → Res (State ℝ D ω)
  | [], s => .ok s
  | (sch, some dt) :: steps, s => (s.forwardTime P sch dt).andThen (State.runSteps P steps)
  | (sch, none) :: steps, s => (s.forwardTimeAuto P sch).andThen (State.runSteps P steps)

end OpenMps
