import Verif.Model.Computer

/-! # The state at the pressure computation of a step -/

namespace OpenMps

variable {F : Type} [Scalar F] {D : Nat} {ω : Type}

/-- The part of `ForwardTime(dt)` before the pressure computation (`/repo/src/OpenMps/Computer.hpp:1700-1731`): the state on which
`ComputeImplicitForces` is called. -/
def State.beforePressure (P : Params F D ω) (sch : Schedule) (dt : F) (s : State F D ω) : Res (State F D ω) :=
  let s := { s with env := { s.env with dt := dt } }
  let s := { s with env := s.env.setNextT }
  (s.searchNeighbor (sch 0)).andThen (fun s =>
    let s := s.computeDensities P.cfg (sch 1)
    let s := s.computeEcs P.cfg (sch 2)
    let s := s.computeExplicit P (sch 3) (sch 4)
    let s := s.computeDensities P.cfg (sch 5)
    .ok (s.saveX P.cfg))

/-- A step is this followed by the pressure computation and the stabilisation. -/
theorem forwardTime_beforePressure (P : Params F D ω) (sch : Schedule) (dt : F) (s : State F D ω) :
    s.forwardTime P sch dt = (s.beforePressure P sch dt).andThen (fun s =>
      (s.computeImplicit P sch).andThen (fun s => .ok (s.dynamicStabilize P.cfg (sch 11) (sch 12)))) := by
  unfold State.forwardTime State.beforePressure
  simp only
  generalize State.searchNeighbor (F := F) (D := D) (ω := ω) (sch 0) _ = r
  cases r <;> rfl

end OpenMps
