import Verif.Model.Machine

/-! # The locks of a grid (`ATOMIC_LOCK`)

`/repo/src/OpenMps/Grid.hpp:78-81,150-215,293-312`: an array with one OpenMP lock for each block, initialised by the constructor and destroyed by the
destructor.  As in `Model/Machine.lean` the array is one row-major buffer; an index that leaves its dimension but stays in the
buffer reaches another lock.  `none` is undefined behaviour: an access outside the buffer, or what OpenMP forbids: initialising a lock that is
initialised, destroying or setting one that is not. -/

namespace OpenMps

/-- State of a lock variable. -/
inductive LockState where
  | uninitialized
  | ready
deriving DecidableEq

variable {F : Type} [Scalar F] {D : Nat}

/-- Address of `locks[i]...[k]`; the extents are those of the blocks (`/repo/src/OpenMps/Grid.hpp:150-156`). -/
def Grid.lockAddr? (g : Grid F D) (is : List Int) : Option Nat := ({ extents := List.ofFn g.size, mem := fun _ => 0 } : MArray).addr? is

/-- `omp_init_lock(&locks[i]...[k])`. -/
def Grid.initLock? (g : Grid F D) (m : Nat → LockState) (is : List Int) : Option (Nat → LockState) :=
  (g.lockAddr? is).bind (fun o => if m o = .uninitialized then some (upd m o .ready) else none)

/-- `omp_destroy_lock(&locks[i]...[k])`. -/
def Grid.destroyLock? (g : Grid F D) (m : Nat → LockState) (is : List Int) : Option (Nat → LockState) :=
  (g.lockAddr? is).bind (fun o => if m o = .ready then some (upd m o .uninitialized) else none)

/-- The loops of the constructor, `/repo/src/OpenMps/Grid.hpp:160-184`.  In 3-D the bound of the second loop is `nx` (line 169), as in `Clear`
(`Grid.clearBound`). -/
def Grid.initLocks? (g : Grid F D) : Option (Nat → LockState) :=
  (loopIdx (List.ofFn g.clearBound)).foldlM g.initLock? (fun _ => .uninitialized)

/-- The loops of the destructor, `/repo/src/OpenMps/Grid.hpp:188-215` (the same bound in line 198). -/
def Grid.destroyLocks? (g : Grid F D) (m : Nat → LockState) : Option (Nat → LockState) :=
  (loopIdx (List.ofFn g.clearBound)).foldlM g.destroyLock? m

/-- The lock which `Store` sets and unsets for the block `b`, `/repo/src/OpenMps/Grid.hpp:294-311`. -/
def Grid.useLock? (g : Grid F D) (m : Nat → LockState) (b : Blk D) : Option Nat :=
  (g.lockAddr? (List.ofFn b)).bind (fun o => if m o = .ready then some o else none)

end OpenMps
