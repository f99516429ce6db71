import Verif.Model.ConcurrentStore

/-! # Sequential calls of `Store` -/

namespace OpenMps

variable {F : Type} [Scalar F] {D : Nat}

/-- One call after the other (also after exceptions): the grid and how each call ended.  Each call is labelled with the thread that makes it. -/
def Grid.storeCalls (g : Grid F D) : List (Nat × Vec F D × Nat) → Option (Grid F D × List (Nat × Outcome))
  | [] => some (g, [])
  | (t, x, pid) :: es =>
    match g.store x pid with
    | .ub => none
    | .outside g' => (g'.storeCalls es).map (fun r => (r.1, (t, .outside) :: r.2))
    | .full g' => (g'.storeCalls es).map (fun r => (r.1, (t, .full) :: r.2))
    | .stored g' => (g'.storeCalls es).map (fun r => (r.1, (t, .stored) :: r.2))

/-- The entries of thread `t`. -/
def ofThread {α : Type} (t : Nat) (l : List (Nat × α)) : List α := (l.filter (fun e => e.1 == t)).map (·.2)

/-- The numbers of the calls whose position is in block `b`. -/
def callsIn (g : Grid F D) (b : Blk D) (calls : List (Vec F D × Nat)) : List Nat :=
  (calls.filter (fun e => decide (g.block? e.1 = some b))).map (·.2)

/-- A cell of shared memory. -/
inductive Cell (D : Nat) where
  | count (b : Blk D)
  | slot (b : Blk D) (l : Nat)

/-- The ordinary (not atomic) access to shared memory that thread `t` makes next: `(cell, true)` for a write, `(cell, false)` for a read. -/
def Conc.access (c : Conc F D) (t : Nat) : Option (Cell D × Bool) :=
  match (c.th t).stage with
  | .idle => none
  | .locked b => some (.count b, false)
  | .loaded b _ => some (.count b, true)
  | .written _ _ => none
  | .counted b l => if l ≥ c.grid.cap then none else some (.slot b l, true)

/-- Two threads are about to make conflicting accesses. -/
def Conc.Race (c : Conc F D) : Prop :=
  ∃ t t' cell w, t ≠ t' ∧ c.access t = some (cell, true) ∧ c.access t' = some (cell, w)

end OpenMps
