import Verif.Model.Computer
import Verif.Spec.Grid

/-! # Specification vocabulary for histories of API calls -/

namespace OpenMps

variable {F : Type} [Scalar F] {D : Nat} {ω : Type}

/-- A call left the object in state `s'`: by returning or by throwing. -/
def Res.leaves {S : Type} (r : Res S) (s' : S) : Prop := r = .ok s' ∨ ∃ e, r = .exn e s'

/-- `Hist P s0 dts s`: some sequence of calls `AddParticles`, `ForwardTime(dt)`, `ForwardTime()` (each under some
schedule of its parallel loops, each returning or throwing) leads from `s0` to `s`; `dts` are the time
steps used by the `ForwardTime` calls, in order. -/
inductive Hist (P : Params F D ω) (s0 : State F D ω) : List F → State F D ω → Prop
  | start : Hist P s0 [] s0
  | add {dts s} (src : List (Particle F D)) : Hist P s0 dts s → Hist P s0 dts (s.addParticles src)
  | forward {dts s s'} (sch : Schedule) (dt : F) : Hist P s0 dts s → sch.Valid s.n →
      (s.forwardTime P sch dt).leaves s' → Hist P s0 (dts ++ [dt]) s'
  | auto {dts s s'} (sch : Schedule) (dt : F) : Hist P s0 dts s → sch.Valid s.n → s.determineDt = some dt →
      (s.forwardTimeAuto P sch).leaves s' → Hist P s0 (dts ++ [dt]) s'

/-- Everything a user can observe: the particles, the environment (with the time) and the state of the callbacks. -/
structure SameVisible (s t : State F D ω) : Prop where
  particles : t.particles = s.particles
  env : t.env = s.env
  world : t.world = s.world

/-- Same outcome with the same observable state. -/
inductive SameOutcome : Res (State F D ω) → Res (State F D ω) → Prop
  | ok {s t} : SameVisible s t → SameOutcome (.ok s) (.ok t)
  | exn {e s t} : SameVisible s t → SameOutcome (.exn e s) (.exn e t)
  | ub : SameOutcome .ub .ub

/-- Grids of the same shape (contents may differ). -/
def SameShape (g h : Grid F D) : Prop :=
  h.blockLength = g.blockLength ∧ h.origin = g.origin ∧ h.size = g.size ∧ h.cap = g.cap

/-- One call of the public interface, with the schedule of its parallel loops. -/
inductive Call (F : Type) (D : Nat) where
  | add (src : List (Particle F D))
  | forward (sch : Schedule) (dt : F)
  | auto (sch : Schedule)

/-- Perform one call. -/
def State.perform (P : Params F D ω) (s : State F D ω) : Call F D → Res (State F D ω)
  | .add src => .ok (s.addParticles src)
  | .forward sch dt => s.forwardTime P sch dt
  | .auto sch => s.forwardTimeAuto P sch

/-- Perform calls one after the other; the caller catches exceptions and goes on.  The result lists what every call threw (if
anything) and the final state; `none`: undefined behaviour. -/
def State.performAll (P : Params F D ω) : List (Call F D) → State F D ω → Option (List (Option Exn) × State F D ω)
  | [], s => some ([], s)
  | c :: cs, s =>
    match s.perform P c with
    | .ok s' => (State.performAll P cs s').map (fun r => (none :: r.1, r.2))
    | .exn e s' => (State.performAll P cs s').map (fun r => (some e :: r.1, r.2))
    | .ub => none

/-- Number of particles added by a call. -/
def Call.added : Call F D → Nat
  | .add src => src.length
  | _ => 0

/-- The schedules of all calls are possible ones when `n` particles exist before the first call. -/
def CallsValid : Nat → List (Call F D) → Prop
  | _, [] => True
  | n, c :: cs =>
    (match c with
      | .add _ => True
      | .forward sch _ => sch.Valid n
      | .auto sch => sch.Valid n) ∧ CallsValid (n + c.added) cs

end OpenMps
