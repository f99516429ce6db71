import Verif.Spec.ReferenceStep
import Verif.Spec.History

/-! # Changing the units of measurement -/

namespace OpenMps.Ref

variable {D : Nat} {ω ω' : Type}

/-- New units: a length `1` becomes `length`, a time `1` becomes `time`, a mass density `1` becomes `density`. -/
structure Units where
  length : ℝ
  time : ℝ
  density : ℝ
  length_pos : 0 < length
  time_pos : 0 < time
  density_pos : 0 < density

/-- A speed is a length per time. -/
noncomputable def Units.speed (U : Units) : ℝ := U.length / U.time

/-- A pressure is a density times a squared speed. -/
noncomputable def Units.pressure (U : Units) : ℝ := U.density * U.speed ^ 2

/-- The arguments of the `Environment` constructor in the new units.  Courant number, surface ratio and `r_e / l_0` are pure numbers; `g` is a
speed per time, `nu` a length times a speed. -/
noncomputable def Units.args (U : Units) (e : EnvArgs ℝ D) : EnvArgs ℝ D :=
  { maxDt := U.time * e.maxDt
    courant := e.courant
    g := U.speed / U.time * e.g
    rho := U.density * e.rho
    nu := U.length * U.speed * e.nu
    surfaceRatio := e.surfaceRatio
    reByL0 := e.reByL0
    c := U.speed * e.c
    l0 := U.length * e.l0
    minX := U.length • e.minX
    maxX := U.length • e.maxX }

/-- The computer `t` shows the scene of the computer `s` in the new units.  Number densities are pure numbers.  Hidden state is not compared. -/
structure SameInUnits (U : Units) (s : State ℝ D ω) (t : State ℝ D ω') : Prop where
  n : t.n = s.n
  ty : ∀ i, i < s.n → (t.ps i).ty = (s.ps i).ty
  x : ∀ i, i < s.n → (t.ps i).x = U.length • (s.ps i).x
  u : ∀ i, i < s.n → (t.ps i).u = U.speed • (s.ps i).u
  p : ∀ i, i < s.n → (t.ps i).p = U.pressure * (s.ps i).p
  dens : ∀ i, i < s.n → (t.ps i).n = (s.ps i).n
  clock : t.env.t = U.time * s.env.t

/-- In the next step, of length `dt` in the old units, the callback of `t` gives the positions that the callback of `s` gives, in the new units. -/
def WallsInUnits (U : Units) (P : Params ℝ D ω) (P' : Params ℝ D ω') (dt : ℝ) (s : State ℝ D ω) (t : State ℝ D ω') : Prop :=
  ∀ i, i < s.n → P'.walls.pos (P'.walls.pre t.world (t.env.t + U.time * dt) (U.time * dt)) i (t.env.t + U.time * dt) (U.time * dt) =
    U.length • P.walls.pos (P.walls.pre s.world (s.env.t + dt) dt) i (s.env.t + dt) dt

/-- The code compares a length with the pure number `2^-52` (only with SPP): whether a particle is off the centre of its neighbours
(`Computer.hpp:675`).  This comparison has the same outcome in both units. -/
def SameCentred (U : Units) (P : Params ℝ D ω) (s : State ℝ D ω) (dt : ℝ) : Prop :=
  P.cfg.spp = true → ∀ i, i < s.n →
    let S := setting P s dt
    let d := len (S.offset (S.predict (scene s)).x i)
    (2⁻¹ ^ 52 < d ↔ 2⁻¹ ^ 52 < U.length * d)

/-- A particle in the new units. -/
noncomputable def Units.particle (U : Units) (q : Particle ℝ D) : Particle ℝ D :=
  { q with x := U.length • q.x, u := U.speed • q.u, p := U.pressure * q.p }

/-- The same call in the new units (the schedules may differ). -/
inductive CallInUnits (U : Units) : Call ℝ D → Call ℝ D → Prop
  | add (src) : CallInUnits U (.add src) (.add (src.map U.particle))
  | forward (sch sch' dt) : CallInUnits U (.forward sch dt) (.forward sch' (U.time * dt))
  | auto (sch sch') : CallInUnits U (.auto sch) (.auto sch')

/-- The callbacks, with any hidden states related by `R`, give the same positions in the new units. -/
def CallbacksInUnits (U : Units) (R : ω → ω' → Prop) (P : Params ℝ D ω) (P' : Params ℝ D ω') : Prop :=
  ∀ w w', R w w' → ∀ t dt, R (P.walls.pre w t dt) (P'.walls.pre w' (U.time * t) (U.time * dt)) ∧
    ∀ i, P'.walls.pos (P'.walls.pre w' (U.time * t) (U.time * dt)) i (U.time * t) (U.time * dt) = U.length • P.walls.pos (P.walls.pre w t dt) i t dt

/-- The calls return one after the other, without an exception, and lead from the first state to the second; with SPP, the comparison of a
length with `2^-52` has the same outcome in the new units in every step. -/
inductive Runs (U : Units) (P : Params ℝ D ω) : List (Call ℝ D) → State ℝ D ω → State ℝ D ω → Prop
  | nil (s) : Runs U P [] s s
  | add {cs s s'} (src) : Runs U P cs (s.addParticles src) s' → Runs U P (.add src :: cs) s s'
  | forward {cs s s1 s'} (sch dt) : s.forwardTime P sch dt = .ok s1 → SameCentred U P s dt → Runs U P cs s1 s' →
      Runs U P (.forward sch dt :: cs) s s'
  | auto {cs s s1 s'} (sch dt) : s.determineDt = some dt → s.forwardTime P sch dt = .ok s1 → SameCentred U P s dt → Runs U P cs s1 s' →
      Runs U P (.auto sch :: cs) s s'

end OpenMps.Ref
