import Verif.Model.Grid

/-! # Concurrent calls of `Grid::Store`

`Store` (`/repo/src/OpenMps/Grid.hpp:276-331`) is written to be called from several threads: the counter of a block is incremented by an
`omp atomic capture` (lines 301-303), or under a lock of the block if the OpenMP version is below 3.0 (`ATOMIC_LOCK`, lines 293-312).  Here each
thread makes a list of calls, and one step of a thread is one access to shared memory or one operation on a lock.  Simplifications: memory is
sequentially consistent; a thread that catches the exception of a call goes on with its next call. -/

namespace OpenMps

variable {F : Type} [Scalar F] {D : Nat}

/-- How the counter is incremented: `#pragma omp atomic capture`, or with the lock of the block (`/repo/src/OpenMps/Grid.hpp:11-15`). -/
inductive Counting where
  | atomic
  | lock
deriving DecidableEq

/-- How a call of `Store` ends: `return false`, exception, `return true`. -/
inductive Outcome where
  | outside
  | full
  | stored
deriving DecidableEq

/-- Where a thread is in `Store`; `b` is the block number and `l` the old value of the counter. -/
inductive Stage (D : Nat) where
  /-- between two calls -/
  | idle
  /-- after `omp_set_lock` (line 299) -/
  | locked (b : Blk D)
  /-- after reading `data[..][0]` -/
  | loaded (b : Blk D) (l : Nat)
  /-- after writing `data[..][0]`, before `omp_unset_lock` (line 311) -/
  | written (b : Blk D) (l : Nat)
  /-- after the increment, before line 314 -/
  | counted (b : Blk D) (l : Nat)

/-- A thread: the calls (position, number) still to be made, the first of them perhaps in progress, and how the finished ones ended. -/
structure Thread (F : Type) (D : Nat) where
  todo : List (Vec F D × Nat)
  stage : Stage D
  results : List Outcome

/-- The grid, the locks (`locks`, `/repo/src/OpenMps/Grid.hpp:78-81`; the number of the thread that holds it) and the threads. -/
structure Conc (F : Type) (D : Nat) where
  grid : Grid F D
  owner : Blk D → Option Nat
  th : Nat → Thread F D

/-- All threads before their first call. -/
def Conc.start (g : Grid F D) (progs : Nat → List (Vec F D × Nat)) : Conc F D :=
  { grid := g, owner := fun _ => none, th := fun t => { todo := progs t, stage := .idle, results := [] } }

/-- The call of thread `t` ends. -/
def Conc.finish (c : Conc F D) (t : Nat) (o : Outcome) : Conc F D :=
  { c with th := upd c.th t { todo := (c.th t).todo.tail, stage := .idle, results := (c.th t).results ++ [o] } }

/-- Thread `t` goes to the next stage. -/
def Conc.goto (c : Conc F D) (t : Nat) (st : Stage D) : Conc F D := { c with th := upd c.th t { c.th t with stage := st } }

/-- `data[b][0] = k`. -/
def Conc.setCount (c : Conc F D) (b : Blk D) (k : Nat) : Conc F D :=
  { c with grid := { c.grid with count := fun b' => if b' = b then k else c.grid.count b' } }

/-- `data[b][l + 1] = pid`. -/
def Conc.setSlot (c : Conc F D) (b : Blk D) (l pid : Nat) : Conc F D :=
  { c with grid := { c.grid with slot := fun b' => if b' = b then upd (c.grid.slot b) l pid else c.grid.slot b' } }

/-- `omp_set_lock`, `omp_unset_lock`. -/
def Conc.setOwner (c : Conc F D) (b : Blk D) (o : Option Nat) : Conc F D :=
  { c with owner := fun b' => if b' = b then o else c.owner b' }

/-- One step of thread `t`, `/repo/src/OpenMps/Grid.hpp:276-331`; `none`: it has nothing to do, it waits for a lock, or the conversion to a block
number is undefined. -/
def Conc.step (mode : Counting) (c : Conc F D) (t : Nat) : Option (Conc F D) :=
  match (c.th t).todo with
  | [] => none
  | e :: _ =>
    match (c.th t).stage with
    | .idle =>
      match c.grid.block? e.1 with
      | none => none
      | some b =>
        if c.grid.inRange b then
          match mode with
          | .atomic => some ((c.setCount b (c.grid.count b + 1)).goto t (.counted b (c.grid.count b)))
          | .lock => if c.owner b = none then some ((c.setOwner b (some t)).goto t (.locked b)) else none
        else some (c.finish t .outside)
    | .locked b => some (c.goto t (.loaded b (c.grid.count b)))
    | .loaded b l => some ((c.setCount b (l + 1)).goto t (.written b l))
    | .written b l => some ((c.setOwner b none).goto t (.counted b l))
    | .counted b l => if l ≥ c.grid.cap then some (c.finish t .full) else some ((c.setSlot b l e.2).finish t .stored)

/-- Any interleaving of the threads. -/
inductive Conc.Reach (mode : Counting) : Conc F D → Conc F D → Prop
  | refl (c) : Conc.Reach mode c c
  | step {c c' c''} (t : Nat) : Conc.Reach mode c c' → c'.step mode t = some c'' → Conc.Reach mode c c''

end OpenMps
