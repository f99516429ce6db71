import Verif.Model.Scalar

/-!
# Parallel loops

`OMP_PARALLEL_FOR` (`/repo/src/OpenMps/Computer.hpp:39-51`) distributes the iterations of a `for`
loop over threads.  An iteration of the loops of this code first reads the shared state and computes
a result (`rd i`), then stores its result into the slots belonging to `i` (`wr i`).  A schedule is a
list of such events; the events of different iterations may be interleaved arbitrarily.
Simplification: the read phase of one iteration is one event (a finer-grained semantics in which
every single memory access is an event is in `Model/Fine.lean`).
-/

namespace OpenMps

/-- An event of a parallel loop. -/
inductive Ev where
  | rd (i : Nat)
  | wr (i : Nat)
deriving DecidableEq, Repr

/-- Execute a schedule.  `loc` holds the thread-local result of an iteration between its read phase and
its commit phase. -/
def parRun {S R : Type} (compute : S → Nat → R) (commit : Nat → R → S → S) :
    List Ev → S → (Nat → Option R) → S
  | [], s, _ => s
  | .rd i :: es, s, loc => parRun compute commit es s (upd loc i (some (compute s i)))
  | .wr i :: es, s, loc =>
    match loc i with
    | some r => parRun compute commit es (commit i r s) loc
    | none => parRun compute commit es s loc

/-- A parallel loop run under a schedule. -/
def parLoop {S R : Type} (compute : S → Nat → R) (commit : Nat → R → S → S) (sch : List Ev) (s : S) : S :=
  parRun compute commit sch s (fun _ => none)

/-- The schedule of the serial loop `for (i = 0; i < n; i++)`. -/
def serial (n : Nat) : List Ev := (List.range n).flatMap (fun i => [.rd i, .wr i])

/-- The schedules OpenMP may choose for a loop over `0, ..., n-1`: every iteration is executed exactly
once, its read phase before its commit phase. -/
def ValidSched (n : Nat) (es : List Ev) : Prop :=
  es.Perm (serial n) ∧ ∀ i, i < n → [Ev.rd i, Ev.wr i].Sublist es

/-- A schedule for each parallel loop of a time step (loops are numbered in program order). -/
abbrev Schedule := Nat → List Ev

/-- All loops of the step are scheduled validly. -/
def Schedule.Valid (n : Nat) (sch : Schedule) : Prop := ∀ k, ValidSched n (sch k)

/-- Everything serial. -/
def Schedule.serial (n : Nat) : Schedule := fun _ => OpenMps.serial n

end OpenMps
