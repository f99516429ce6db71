import Verif.Model.Particle

/-! # Neighbour search grid (`/repo/src/OpenMps/Grid.hpp`) -/

namespace OpenMps

/-- A block number (one index per axis). -/
abbrev Blk (D : Nat) := Fin D → Int

/-- `Grid`, `/repo/src/OpenMps/Grid.hpp:57-83`.  The array `data[i][k][0..cap]` is split into
`count b` (= `data[b][0]`) and `slot b l` (= `data[b][l+1]`); `size a` is `data.shape()[a]` and
`cap` is `data.shape()[DIM] - 1`, i.e. `MaxParticles()` (lines 270-273). -/
structure Grid (F : Type) (D : Nat) where
  blockLength : F
  origin : Vec F D
  size : Fin D → Int
  cap : Nat
  count : Blk D → Nat
  slot : Blk D → Nat → Nat

variable {F : Type} [Scalar F] {D : Nat}

/-- Collect per-axis conversions; `none` if one of them is undefined. -/
def allSome (f : Fin D → Option Int) : Option (Fin D → Int) :=
  if ∀ a, (f a).isSome then some (fun a => (f a).getD 0) else none

/-- The `Grid` constructor, `/repo/src/OpenMps/Grid.hpp:137-149`; `none` if a cast is undefined.
`boost::multi_array` value-initialises its elements: all counts are 0. -/
def Grid.mk? (neighborLength l0 : F) (minX maxX : Vec F D) : Option (Grid F D) :=
  match allSome (fun a => Scalar.ceilIdx ((maxX a - minX a) / neighborLength)),
        Scalar.ceilIdx (neighborLength / l0) with
  | some sz, some c =>
    some { blockLength := neighborLength, origin := minX
           size := fun a => sz a + 2
           cap := ((c + 1) ^ D).toNat
           count := fun _ => 0, slot := fun _ _ => 0 }
  | _, _ => none

/-- Whether a block number is a valid array index (`0 <= i < nx` etc.). -/
def Grid.inRange (g : Grid F D) (b : Blk D) : Bool := decide (∀ a, 0 ≤ b a ∧ b a < g.size a)

/-- `Block<AXIS>(x)` for all axes, `/repo/src/OpenMps/Grid.hpp:250-254`; `none` if the cast is
undefined. -/
def Grid.block? (g : Grid F D) (x : Vec F D) : Option (Blk D) :=
  allSome (fun a => Scalar.floorIdx ((x a - g.origin a) / g.blockLength))

/-- Loop bounds of `Clear`, `/repo/src/OpenMps/Grid.hpp:229-235`.  In 3-D the `y` loop runs to `nx`
(line 232), not to `ny`. -/
def Grid.clearBound (g : Grid F D) (a : Fin D) : Int :=
  if D = 3 ∧ a.val = 1 then g.size ⟨0, a.pos⟩ else g.size a

/-- `Clear()`, `/repo/src/OpenMps/Grid.hpp:222-247`: sets `data[..][0] = 0` for all indices within the
loop bounds.  `none`: a write outside the array (possible in 3-D only, when `nx > ny`). -/
def Grid.clear? (g : Grid F D) : Option (Grid F D) :=
  if (∃ a, g.size a < g.clearBound a) ∧ (∀ a, 0 < g.clearBound a) then none
  else some { g with
    count := fun b => if ∀ a, 0 ≤ b a ∧ b a < g.clearBound a then 0 else g.count b }

/-- `ParticleCount`, `/repo/src/OpenMps/Grid.hpp:257-267`; `none` if the index is outside the array. -/
def Grid.particleCount (g : Grid F D) (b : Blk D) : Option Nat :=
  if g.inRange b then some (g.count b) else none

/-- Result of `Store`. -/
inductive StoreRes (F : Type) (D : Nat) where
  | ub
  | outside (g : Grid F D)
  | full (g : Grid F D)
  | stored (g : Grid F D)

/-- `Store`, `/repo/src/OpenMps/Grid.hpp:276-331`.  The counter is incremented before the capacity check
(line 308), also when the call throws (line 317). -/
def Grid.store (g : Grid F D) (x : Vec F D) (pid : Nat) : StoreRes F D :=
  match g.block? x with
  | none => .ub
  | some b =>
    if g.inRange b then
      let l := g.count b
      let g1 := { g with count := fun b' => if b' = b then l + 1 else g.count b' }
      if l ≥ g.cap then .full g1
      else .stored { g1 with slot := fun b' => if b' = b then upd (g.slot b) l pid else g.slot b' }
    else .outside g

/-- `LAST_NEIGHBOR = MAX_NEIGHBOR_BLOCK = 3^DIM`, `/repo/src/OpenMps/Grid.hpp:63-66,344`. -/
def lastNeighbor (D : Nat) : Nat := 3 ^ D

/-- `MAX_NEIGHBOR`, `/repo/src/OpenMps/Grid.hpp:347`. -/
def maxNeighbor (D : Nat) : Nat := lastNeighbor D + 1

/-- The iterator, `/repo/src/OpenMps/Grid.hpp:334-356`; `base` is the block of the query position, from
which the table `neighbor` is computed. -/
structure Iter (D : Nat) where
  base : Blk D
  index : Nat

/-- Entry `m` of the table `neighbor`, `/repo/src/OpenMps/Grid.hpp:363-403`: the code lists the
offsets `{-1,0,1}^DIM` literally in lexicographic order (first axis most significant); the
literal tables are compared with this formula in `Props/Grid.lean`. -/
def Iter.nbr (it : Iter D) (m : Nat) : Blk D :=
  fun a => it.base a + ((m / 3 ^ (D - 1 - a.val) % 3 : Nat) : Int) - 1

/-- The search loop `/repo/src/OpenMps/Grid.hpp:464-490`:
`for(index = neighborIndex; !isValid && (index + 1 < LAST_NEIGHBOR); index++) isValid = ...`. -/
def Iter.scan (g : Grid F D) (it : Iter D) (index : Nat) (isValid : Bool) : Nat × Bool :=
  if !isValid && decide (index + 1 < lastNeighbor D) then
    let b := it.nbr (index + 1)
    Iter.scan g it (index + 1) (g.inRange b && decide (g.count b > 0))
  else (index, isValid)
termination_by lastNeighbor D - index
decreasing_by simp_all; omega

/-- `Increment()`, `/repo/src/OpenMps/Grid.hpp:433-501`; `none`: access outside an array. -/
def Iter.increment (g : Grid F D) (it : Iter D) : Option (Iter D) :=
  let neighborIndex := it.index % maxNeighbor D
  if neighborIndex ≥ lastNeighbor D then none
  else
    let l := it.index / maxNeighbor D
    match g.particleCount (it.nbr neighborIndex) with
    | none => none
    | some count =>
      if l + 1 ≥ count then
        if neighborIndex = lastNeighbor D - 1 then some { it with index := lastNeighbor D }
        else
          let r := it.scan g neighborIndex false
          if !r.2 then some { it with index := lastNeighbor D } else some { it with index := r.1 }
      else some { it with index := it.index + maxNeighbor D }

/-- Start index computed by `CreateBegin`, `/repo/src/OpenMps/Grid.hpp:508-518`. -/
def startIndex (b : Blk D) : Nat :=
  ((List.finRange D).map (fun a => 3 ^ (D - 1 - a.val) * (if b a = 0 then 1 else 0))).sum

/-- `cbegin(x)`, `/repo/src/OpenMps/Grid.hpp:562-565`, with the constructor at lines 362-424 (skips an
empty first block); `none`: undefined cast or access outside an array. -/
def Grid.cbegin (g : Grid F D) (x : Vec F D) : Option (Iter D) :=
  match g.block? x with
  | none => none
  | some b =>
    let it : Iter D := { base := b, index := startIndex b }
    match g.particleCount (it.nbr (it.index % maxNeighbor D)) with
    | none => none
    | some count => if count = 0 then it.increment g else some it

/-- `operator*`, `/repo/src/OpenMps/Grid.hpp:530-546`; `none`: access outside an array. -/
def Iter.deref (g : Grid F D) (it : Iter D) : Option Nat :=
  let neighborIndex := it.index % maxNeighbor D
  let b := it.nbr neighborIndex
  let l := it.index / maxNeighbor D
  if neighborIndex < lastNeighbor D ∧ g.inRange b ∧ l < g.cap then some (g.slot b l) else none

/-- Result of running the iteration loop. -/
inductive IterRes where
  | done (l : List Nat)
  | ub
  | outOfFuel
deriving DecidableEq

/-- The loop `for(auto it = begin; !(it == end); ++it) { const auto j = *it; ... }`,
`/repo/src/OpenMps/Computer.hpp:734-738`: the list of particle numbers it visits.
Equality with `cend()` compares only the index (`Grid.hpp:554-558`).  `fuel` bounds the number of
iterations so that the function is total. -/
def Iter.collect (g : Grid F D) : Nat → Iter D → IterRes
  | 0, _ => .outOfFuel
  | fuel + 1, it =>
    if it.index = lastNeighbor D then .done []
    else
      match it.deref g with
      | none => .ub
      | some j =>
        match it.increment g with
        | none => .ub
        | some it' =>
          match Iter.collect g fuel it' with
          | .done l => .done (j :: l)
          | .ub => .ub
          | .outOfFuel => .outOfFuel

/-- Enough fuel: every block yields at most `cap` numbers. -/
def Grid.fuel (g : Grid F D) : Nat := lastNeighbor D * g.cap + 1

/-- All particle numbers visited from `cbegin(x)` to `cend()`. -/
def Grid.visit (g : Grid F D) (x : Vec F D) : IterRes :=
  match g.cbegin x with
  | none => .ub
  | some it => it.collect g g.fuel

end OpenMps
