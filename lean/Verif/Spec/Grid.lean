import Verif.Model.Grid

/-! # Specification vocabulary for the grid -/

namespace OpenMps

variable {F : Type} [Scalar F] {D : Nat}

/-- The offsets of the surrounding blocks, `{-1,0,1}^D` in lexicographic order. -/
def offsets : (D : Nat) → List (Blk D)
  | 0 => [Fin.elim0]
  | D + 1 => [-1, 0, 1].flatMap (fun i => (offsets D).map (fun v => Fin.cons i v))

/-- The particle numbers a block holds, in insertion order. -/
def Grid.contents (g : Grid F D) (b : Blk D) : List Nat := (List.range (g.count b)).map (g.slot b)

/-- Storing a list of (position, number) pairs, each call returning `true`; `none` if one of the calls does
not. -/
def Grid.storeSeq (g : Grid F D) : List (Vec F D × Nat) → Option (Grid F D)
  | [] => some g
  | e :: es =>
    match g.store e.1 e.2 with
    | .stored g' => g'.storeSeq es
    | _ => none

/-- Any history of `Store` and `Clear` calls (also throwing ones) with defined behaviour. -/
inductive Grid.Reach (g0 : Grid F D) : Grid F D → Prop
  | start : Grid.Reach g0 g0
  | outside {g g' x pid} : Grid.Reach g0 g → g.store x pid = .outside g' → Grid.Reach g0 g'
  | full {g g' x pid} : Grid.Reach g0 g → g.store x pid = .full g' → Grid.Reach g0 g'
  | stored {g g' x pid} : Grid.Reach g0 g → g.store x pid = .stored g' → Grid.Reach g0 g'
  | clear {g g'} : Grid.Reach g0 g → g.clear? = some g' → Grid.Reach g0 g'

/-- `Clear` covers exactly the array: always in 2-D; in 3-D when the numbers of blocks in `x` and `y`
agree. -/
def Grid.ClearOK (g : Grid F D) : Prop := D = 3 → ∀ a b : Fin D, a.val = 0 → b.val = 1 → g.size a = g.size b

/-- Numbers stored by a log in block `c`, in order. -/
def logBlock (g : Grid F D) (log : List (Vec F D × Nat)) (c : Blk D) : List Nat :=
  (log.filter (fun e => decide (g.block? e.1 = some c))).map (·.2)

end OpenMps
