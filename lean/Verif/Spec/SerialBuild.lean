import Verif.Model.SerialBuild
import Verif.Spec.History

/-! # Specification vocabulary for the build without OpenMP -/

namespace OpenMps

variable {F : Type} [Scalar F] {D : Nat} {ω : Type}

/-- Two computers that agree in every data member except the buffer that only the OpenMP build has (`ppe.a_ij`). -/
def SameMembers (s t : State F D ω) : Prop :=
  t.n = s.n ∧ t.ps = s.ps ∧ t.env = s.env ∧ t.grid = s.grid ∧ t.nbr = s.nbr ∧ t.ppe.size = s.ppe.size ∧ t.ppe.x = s.ppe.x ∧
  t.ppe.b = s.ppe.b ∧ t.ppe.A = s.ppe.A ∧ t.du = s.du ∧ t.ecs = s.ecs ∧ t.origX = s.origX ∧ t.nNoSpp = s.nNoSpp ∧
  t.world = s.world ∧ t.ub = s.ub

/-- Same outcome: both return, both throw the same exception, or both run into undefined behaviour; the objects they leave behind
agree in every member. -/
inductive SameResult : Res (State F D ω) → Res (State F D ω) → Prop
  | ok {s t} : SameMembers s t → SameResult (.ok s) (.ok t)
  | exn {e s t} : SameMembers s t → SameResult (.exn e s) (.exn e t)
  | ub : SameResult .ub .ub

/-- Perform one call in the build without OpenMP (which has no schedules). -/
def State.performSerial (P : Params F D ω) (s : State F D ω) : Call F D → Res (State F D ω)
  | .add src => .ok (s.addParticles src)
  | .forward _ dt => s.forwardTimeSerial P dt
  | .auto _ => s.forwardTimeAutoSerial P

/-- Perform calls one after the other in the build without OpenMP (compare `State.performAll`). -/
def State.performAllSerial (P : Params F D ω) : List (Call F D) → State F D ω → Option (List (Option Exn) × State F D ω)
  | [], s => some ([], s)
  | c :: cs, s =>
    match s.performSerial P c with
    | .ok s' => (State.performAllSerial P cs s').map (fun r => (none :: r.1, r.2))
    | .exn e s' => (State.performAllSerial P cs s').map (fun r => (some e :: r.1, r.2))
    | .ub => none

end OpenMps
