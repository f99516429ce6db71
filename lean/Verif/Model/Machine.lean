import Verif.Model.Computer

/-! # The neighbour search in 64-bit arithmetic on flat memory

The grid (`/repo/src/OpenMps/Grid.hpp`) and the neighbour table (`/repo/src/OpenMps/Computer.hpp:473,594-612,698-756`) once more, now with
`std::size_t` as 64-bit words that wrap around, `Index`/`NeighborIndex` (`boost::multi_array::index`, i.e. `std::ptrdiff_t`) as 64-bit signed
integers whose overflow is undefined behaviour, and `boost::multi_array` as one contiguous row-major buffer.  `none` is
undefined behaviour: signed overflow or an access outside the buffer.  An index that leaves its own dimension but stays in the buffer is *not* an
error here: it silently reaches another element, as in the compiled program (`NDEBUG`). -/

namespace OpenMps

/-- `std::size_t`. -/
abbrev Word := BitVec 64

/-- Representable as `std::ptrdiff_t`. -/
def Fits (z : Int) : Prop := -2 ^ 63 ≤ z ∧ z < 2 ^ 63

instance (z : Int) : Decidable (Fits z) := inferInstanceAs (Decidable (_ ∧ _))

/-- The result of a signed operation; `none`: overflow. -/
def chk (z : Int) : Option Int := if Fits z then some z else none

/-- `boost::multi_array<std::size_t, k>`: extents and contents of the buffer (row-major). -/
structure MArray where
  extents : List Int
  mem : Nat → Word

/-- `num_elements()`. -/
def MArray.len (A : MArray) : Int := A.extents.prod

/-- Strides of a row-major array (`boost/multi_array/base.hpp`, `compute_strides`): the product of the later extents. -/
def strides : List Int → List Int
  | [] => []
  | _ :: es => es.prod :: strides es

/-- `data[i][j]...`: the sum of the products index times stride, in signed 64-bit arithmetic. -/
def offset? (acc : Int) : List Int → List Int → Option Int
  | [], [] => some acc
  | s :: ss, i :: is => (chk (i * s)).bind (fun p => (chk (acc + p)).bind (fun a => offset? a ss is))
  | _, _ => none

/-- Address in the buffer; `none`: overflow, or outside the buffer. -/
def MArray.addr? (A : MArray) (is : List Int) : Option Nat :=
  (offset? 0 (strides A.extents) is).bind (fun o => if 0 ≤ o ∧ o < A.len then some o.toNat else none)

/-- Read an element. -/
def MArray.get? (A : MArray) (is : List Int) : Option Word := (A.addr? is).map A.mem

/-- Write an element. -/
def MArray.set? (A : MArray) (is : List Int) (w : Word) : Option MArray :=
  (A.addr? is).map (fun o => { A with mem := upd A.mem o w })

/-- `Grid`, `/repo/src/OpenMps/Grid.hpp:57-83`; the extents of `data` are the numbers of blocks per axis and one more for the row of a block. -/
structure MGrid (F : Type) (D : Nat) where
  blockLength : F
  origin : Vec F D
  data : MArray

variable {F : Type} [Scalar F] {D : Nat} {ω : Type}

/-- `GridSize<AXIS>()`, `/repo/src/OpenMps/Grid.hpp:94-98`. -/
def MGrid.size (m : MGrid F D) (a : Fin D) : Int := m.data.extents.getD a.val 0

/-- `MaxParticles()`, `/repo/src/OpenMps/Grid.hpp:270-273`. -/
def MGrid.maxParticles (m : MGrid F D) : Word := BitVec.ofInt 64 (m.data.extents.getD D 0) - 1

/-- Loop variables of nested loops `for (i = 0; i < n; i++)` with the given bounds, in order. -/
def loopIdx : List Int → List (List Int)
  | [] => [[]]
  | n :: ns => (List.range n.toNat).flatMap (fun (i : Nat) => (loopIdx ns).map (fun is => (i : Int) :: is))

/-- `Clear()`, `/repo/src/OpenMps/Grid.hpp:222-247`.  In 3-D the bound of the second loop is `nx` (line 232). -/
def MGrid.clear? (m : MGrid F D) : Option (MGrid F D) :=
  let bound : Fin D → Int := fun a => if D = 3 ∧ a.val = 1 then m.size ⟨0, a.pos⟩ else m.size a
  ((loopIdx (List.ofFn bound)).foldlM (fun (A : MArray) is => A.set? (is ++ [0]) 0) m.data).map (fun A => { m with data := A })

/-- `Block<AXIS>(x)` for all axes, `/repo/src/OpenMps/Grid.hpp:84-92,250-254`; the cast is undefined if the number is not representable. -/
def MGrid.block? (m : MGrid F D) (x : Vec F D) : Option (Blk D) :=
  match allSome (fun a => Scalar.floorIdx ((x a - m.origin a) / m.blockLength)) with
  | none => none
  | some b => if ∀ a, Fits (b a) then some b else none

/-- Result of `Store`. -/
inductive MStore (F : Type) (D : Nat) where
  | ub
  | outside (m : MGrid F D)
  | full (m : MGrid F D)
  | stored (m : MGrid F D)

/-- `Store`, `/repo/src/OpenMps/Grid.hpp:276-331` (with `Particle`, lines 100-119). -/
def MGrid.store (m : MGrid F D) (x : Vec F D) (pid : Word) : MStore F D :=
  match m.block? x with
  | none => .ub
  | some b =>
    if ∀ a, 0 ≤ b a ∧ b a < m.size a then
      match m.data.get? (List.ofFn b ++ [0]) with
      | none => .ub
      | some l =>
        match m.data.set? (List.ofFn b ++ [0]) (l + 1) with
        | none => .ub
        | some A =>
          if m.maxParticles ≤ l then .full { m with data := A }
          else
            match (chk (l.toInt + 1)).bind (fun l1 => A.set? (List.ofFn b ++ [l1]) pid) with
            | none => .ub
            | some A' => .stored { m with data := A' }
    else .outside m

/-- `LAST_NEIGHBOR` and `MAX_NEIGHBOR`, `/repo/src/OpenMps/Grid.hpp:344-347`. -/
def lastW (D : Nat) : Word := BitVec.ofNat 64 (lastNeighbor D)

/-- See `lastW`. -/
def maxW (D : Nat) : Word := BitVec.ofNat 64 (lastNeighbor D) + 1

/-- The iterator, `/repo/src/OpenMps/Grid.hpp:334-356`. -/
structure MIter (D : Nat) where
  base : Blk D
  index : Word

/-- The table `neighbor`, `/repo/src/OpenMps/Grid.hpp:363-403`, as in `Iter.nbr`; `none`: index outside the table of `LAST_NEIGHBOR` entries. -/
def MIter.nbr? (it : MIter D) (k : Word) : Option (Blk D) :=
  if k < lastW D then some (({ base := it.base, index := 0 } : Iter D).nbr k.toNat) else none

/-- `ParticleCount`, `/repo/src/OpenMps/Grid.hpp:257-267`. -/
def MGrid.particleCount (m : MGrid F D) (b : Blk D) : Option Word := m.data.get? (List.ofFn b ++ [0])

/-- The loop `/repo/src/OpenMps/Grid.hpp:464-490`.  `none`: undefined behaviour, or not finished after `fuel` iterations. -/
def MIter.scan (m : MGrid F D) (it : MIter D) : Nat → Word → Bool → Option (Word × Bool)
  | 0, _, _ => none
  | fuel + 1, index, isValid =>
    if !isValid && decide (index + 1 < lastW D) then
      match it.nbr? (index + 1) with
      | none => none
      | some b =>
        if ∀ a, 0 ≤ b a ∧ b a < m.size a then
          match m.particleCount b with
          | none => none
          | some c => MIter.scan m it fuel (index + 1) (decide (0 < c))
        else MIter.scan m it fuel (index + 1) false
    else some (index, isValid)

/-- `Increment()`, `/repo/src/OpenMps/Grid.hpp:433-501`. -/
def MIter.increment (m : MGrid F D) (it : MIter D) : Option (MIter D) :=
  let neighborIndex := it.index % maxW D
  match it.nbr? neighborIndex with
  | none => none
  | some b =>
    let l := it.index / maxW D
    match m.particleCount b with
    | none => none
    | some count =>
      if count ≤ l + 1 then
        if neighborIndex = lastW D - 1 then some { it with index := lastW D }
        else
          match it.scan m (lastNeighbor D + 1) neighborIndex false with
          | none => none
          | some r => if !r.2 then some { it with index := lastW D } else some { it with index := r.1 }
      else some { it with index := it.index + maxW D }

/-- `cbegin(x)`, `/repo/src/OpenMps/Grid.hpp:362-424,508-518,562-565`.  The entries of the table, `Block(x) - 1` and `Block(x) + 1`, must be
representable. -/
def MGrid.cbegin (m : MGrid F D) (x : Vec F D) : Option (MIter D) :=
  match m.block? x with
  | none => none
  | some b =>
    if ∀ a, Fits (b a - 1) ∧ Fits (b a + 1) then
      let it : MIter D := { base := b, index := BitVec.ofNat 64 (startIndex b) }
      match it.nbr? (it.index % maxW D) with
      | none => none
      | some b0 =>
        match m.particleCount b0 with
        | none => none
        | some count => if count = 0 then it.increment m else some it
    else none

/-- `operator*`, `/repo/src/OpenMps/Grid.hpp:530-546`. -/
def MIter.deref (m : MGrid F D) (it : MIter D) : Option Word :=
  match it.nbr? (it.index % maxW D) with
  | none => none
  | some b => (chk ((it.index / maxW D).toInt + 1)).bind (fun l1 => m.data.get? (List.ofFn b ++ [l1]))

/-- The inner loop of `SearchNeighbor`, `/repo/src/OpenMps/Computer.hpp:734-752`, for particle `i`: the number `idx` of neighbours written so far and
the table.  `s` gives the particles.  `none`: undefined behaviour (also: a particle number outside `particles`), or not finished after `fuel` steps. -/
def mRowLoop (s : State F D ω) (m : MGrid F D) (i : Word) : Nat → MIter D → Word → MArray → Option (Word × MArray)
  | 0, _, _, _ => none
  | fuel + 1, it, idx, nb =>
    if it.index = lastW D then some (idx, nb)
    else
      match it.deref m with
      | none => none
      | some j =>
        if s.n ≤ j.toNat then none
        else
          if j ≠ i ∧ (s.ps j.toNat).ty ≠ .disabled ∧
              Scalar.lt (dist (s.ps i.toNat).x (s.ps j.toNat).x) s.env.neighborLength then
            match (chk (1 + idx.toInt)).bind (fun c => nb.set? [i.toInt, c] j) with
            | none => none
            | some nb' =>
              match it.increment m with
              | none => none
              | some it' => mRowLoop s m i fuel it' (idx + 1) nb'
          else
            match it.increment m with
            | none => none
            | some it' => mRowLoop s m i fuel it' idx nb

/-- One iteration of the second loop of `SearchNeighbor`, `/repo/src/OpenMps/Computer.hpp:721-755`. -/
def mRow (s : State F D ω) (m : MGrid F D) (nb : MArray) (i : Nat) : Option MArray :=
  if (s.ps i).ty = .disabled then some nb
  else
    match m.cbegin (s.ps i).x with
    | none => none
    | some it =>
      match mRowLoop s m (BitVec.ofNat 64 i) (lastNeighbor D * m.maxParticles.toNat + 1) it 0 nb with
      | none => none
      | some r => r.2.set? [(BitVec.ofNat 64 i).toInt, 0] r.1

/-- Outcome of the search. -/
inductive MSearch (F : Type) (D : Nat) (ω : Type) where
  | ub
  | full
  | done (m : MGrid F D) (nb : MArray) (s : State F D ω)

/-- The storing loop, `/repo/src/OpenMps/Computer.hpp:703-718`. -/
def mStoreAll : List Nat → MGrid F D → State F D ω → Option (Option (MGrid F D × State F D ω))
  | [], m, s => some (some (m, s))
  | i :: is, m, s =>
    if (s.ps i).ty = .disabled then mStoreAll is m s
    else
      match m.store (s.ps i).x (BitVec.ofNat 64 i) with
      | .ub => none
      | .full _ => some none
      | .stored m' => mStoreAll is m' s
      | .outside m' => mStoreAll is m' { s with ps := upd s.ps i (s.ps i).disable }

/-- `SearchNeighbor`, `/repo/src/OpenMps/Computer.hpp:698-756`, with the iterations of the parallel loop in the order `order`.  The grid and the
neighbour table of `s` are not used: `m` and `nb` take their place. -/
def mSearch (s : State F D ω) (m : MGrid F D) (nb : MArray) (order : List Nat) : MSearch F D ω :=
  match m.clear? with
  | none => .ub
  | some m0 =>
    match mStoreAll (List.range s.n) m0 s with
    | none => .ub
    | some none => .full
    | some (some (m1, s1)) =>
      match order.foldlM (fun nb i => mRow s1 m1 nb i) nb with
      | none => .ub
      | some nb' => .done m1 nb' s1

/-- `for (idx = 0; idx < NeighborCount(i); idx++) ... Neighbor(i, idx)`, `/repo/src/OpenMps/Computer.hpp:594-612,634-637`: the numbers read. -/
def mNeighbors (nb : MArray) (i : Nat) : Option (List Word) :=
  match nb.get? [(BitVec.ofNat 64 i).toInt, 0] with
  | none => none
  | some c => (List.range c.toNat).mapM (fun k => (chk (1 + (BitVec.ofNat 64 k).toInt)).bind (fun l => nb.get? [(BitVec.ofNat 64 i).toInt, l]))

/-- The extents given to `data` by the constructor, `/repo/src/OpenMps/Grid.hpp:137-149`; the buffer is value-initialised.  `none`: undefined cast or
signed overflow, a negative extent, or a buffer of more than `2^63 - 1` bytes (which cannot be allocated). -/
def MGrid.mk? (neighborLength l0 : F) (minX maxX : Vec F D) : Option (MGrid F D) :=
  match allSome (fun a => Scalar.ceilIdx ((maxX a - minX a) / neighborLength)), Scalar.ceilIdx (neighborLength / l0) with
  | some sz, some c =>
    if (∀ a, Fits (sz a) ∧ Fits (sz a + 2)) ∧ Fits c ∧ Fits (c + 1) ∧ (∀ k, k ≤ D → Fits ((c + 1) ^ k)) ∧ Fits (1 + (c + 1) ^ D) then
      let es := List.ofFn (fun a => sz a + 2) ++ [1 + (c + 1) ^ D]
      if (∀ e ∈ es, 0 ≤ e) ∧ es.prod * 8 < 2 ^ 63 then
        some { blockLength := neighborLength, origin := minX, data := { extents := es, mem := fun _ => 0 } }
      else none
    else none
  | _, _ => none

/-- `neighbor.resize(...)` in `AddParticles`, `/repo/src/OpenMps/Computer.hpp:1763-1765`: the extents of the neighbour table.  `none` as in
`MGrid.mk?`. -/
def nbrExtents? (m : MGrid F D) (n : Nat) : Option (List Int) :=
  let r := (m.maxParticles * BitVec.ofNat 64 (lastNeighbor D)).toInt
  if n < 2 ^ 63 ∧ Fits (1 + r) ∧ 0 ≤ 1 + r ∧ (n : Int) * (1 + r) * 8 < 2 ^ 63 then some [(n : Int), 1 + r] else none

end OpenMps
