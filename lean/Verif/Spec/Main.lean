import Verif.Model.Main
import Verif.Spec.History

/-! # Specification vocabulary for the main program -/

namespace OpenMps

variable {F : Type} [Scalar F] {D : Nat} {ω : Type}

/-- `k` automatic time steps in a row, ending at the first that does not return. -/
def State.afterSteps (P : Params F D ω) (sch : Nat → Schedule) (s0 : State F D ω) : Nat → Res (State F D ω)
  | 0 => .ok s0
  | k + 1 => (s0.afterSteps P sch k).andThen (fun s => s.forwardTimeAuto P (sch k))

/-- `OutputInterval + ... + OutputInterval`. -/
def outTime (interval : F) : Nat → F
  | 0 => 0
  | k + 1 => outTime interval k + interval

end OpenMps
