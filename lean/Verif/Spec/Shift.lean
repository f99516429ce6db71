import Verif.Spec.History
import Verif.Model.Instances

/-! # Translating a scene -/

namespace OpenMps

variable {D : Nat} {ω : Type}

/-- A particle moved by `v`. -/
def Particle.shift (v : Vec ℝ D) (q : Particle ℝ D) : Particle ℝ D := { q with x := q.x + v }

/-- The same wall motion, moved by `v`. -/
def Walls.shift (v : Vec ℝ D) (w : Walls ℝ D ω) : Walls ℝ D ω :=
  { w with pos := fun c i t dt => w.pos c i t dt + v }

/-- Parameters with the wall motion moved by `v`. -/
def Params.shift (v : Vec ℝ D) (P : Params ℝ D ω) : Params ℝ D ω := { P with walls := P.walls.shift v }

/-- An environment whose box is moved by `v`. -/
def Env.shift (v : Vec ℝ D) (e : Env ℝ D) : Env ℝ D := { e with minX := e.minX + v, maxX := e.maxX + v }

/-- A grid moved by `v`. -/
def Grid.shift (v : Vec ℝ D) (g : Grid ℝ D) : Grid ℝ D := { g with origin := g.origin + v }

/-- A computer in which every position is moved by `v`. -/
def State.shift (v : Vec ℝ D) (s : State ℝ D ω) : State ℝ D ω :=
  { s with
    ps := fun i => (s.ps i).shift v
    origX := fun i => s.origX i + v
    env := s.env.shift v
    grid := s.grid.shift v }

/-- Apply a function to the state in a result. -/
def Res.map {S T : Type} (f : S → T) : Res S → Res T
  | .ok s => .ok (f s)
  | .exn e s => .exn e (f s)
  | .ub => .ub

/-- The same call with the added particles moved by `v`; the schedules may be different ones. -/
inductive Call.Shifted (v : Vec ℝ D) : Call ℝ D → Call ℝ D → Prop
  | add (src) : Call.Shifted v (.add src) (.add (src.map (Particle.shift v)))
  | forward (sch sch' dt) : Call.Shifted v (.forward sch dt) (.forward sch' dt)
  | auto (sch sch') : Call.Shifted v (.auto sch) (.auto sch')

end OpenMps
