import Verif.Spec.History
import Verif.Model.Csv

/-! # Specification vocabulary for continuing a computation with another computer -/

namespace OpenMps

variable {F : Type} [Scalar F] {D : Nat} {ω : Type}

/-- The same particles, constants and callback state; only the clock (time and last time step) may show something else. -/
structure SameButClock (s t : State F D ω) : Prop where
  particles : t.particles = s.particles
  env : t.env = { s.env with t := t.env.t, dt := t.env.dt }
  world : t.world = s.world

/-- The same outcome but for the clock. -/
inductive SameOutcomeButClock : Res (State F D ω) → Res (State F D ω) → Prop
  | ok {s t} : SameButClock s t → SameOutcomeButClock (.ok s) (.ok t)
  | exn {e s t} : SameButClock s t → SameOutcomeButClock (.exn e s) (.exn e t)
  | ub : SameOutcomeButClock .ub .ub

/-- Callbacks that do not look at the clock (the size of the step they may use). -/
def Walls.Timeless (w : Walls F D ω) : Prop :=
  (∀ v t t' dt, w.pre v t dt = w.pre v t' dt) ∧ ∀ v i t t' dt, w.pos v i t dt = w.pos v i t' dt

/-- The same call; the schedule of its parallel loops may be another one. -/
inductive Call.Same : Call F D → Call F D → Prop
  | add (src) : Call.Same (.add src) (.add src)
  | forward (sch sch' dt) : Call.Same (.forward sch dt) (.forward sch' dt)
  | auto (sch sch') : Call.Same (.auto sch) (.auto sch')

/-- The numbers of this particle survive being printed and read again. -/
def ShownExactly (pr : Printer F) (cv : Conv F) (q : Particle F D) : Prop :=
  (∀ a, cv.num (pr.num (q.x a)) = some (q.x a)) ∧ (∀ a, cv.num (pr.num (q.u a)) = some (q.u a)) ∧
  cv.num (pr.num q.p) = some q.p ∧ cv.num (pr.num q.n) = some q.n

/-- The types of the particles, in order. -/
def State.types (s : State F D ω) : List PType := s.particles.map (·.ty)

end OpenMps
