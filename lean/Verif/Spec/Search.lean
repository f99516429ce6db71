import Verif.Model.Computer
import Verif.Spec.Grid

/-! # Specification of the neighbour search -/

namespace OpenMps

variable {F : Type} [Scalar F] {D : Nat} {ω : Type}

/-- The neighbours of particle `i`, without grid: for each surrounding block in lexicographic order, the
enabled particles in that block in increasing order that are closer than the search radius. -/
def State.nbrList (s : State F D ω) (i : Nat) : List Nat :=
  match s.grid.block? (s.ps i).x with
  | none => []
  | some b => (offsets D).flatMap (fun o => (List.range s.n).filter (fun j =>
      decide ((s.ps j).ty ≠ .disabled) && decide (s.grid.block? (s.ps j).x = some (b + o))
        && decide (j ≠ i) && Scalar.lt (dist (s.ps i).x (s.ps j).x) s.env.neighborLength))

end OpenMps
