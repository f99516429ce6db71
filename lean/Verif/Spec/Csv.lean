import Verif.Model.Csv

/-! # What a CSV text says

A table has a header (column names) and rows of cells.  `IsText tbl text`: the text is one of the ways to write the table. -/

namespace OpenMps

/-- Blank or tab. -/
def IsBlank (c : Char) : Prop := c = ' ' ∨ c = '\t'

instance (c : Char) : Decidable (IsBlank c) := inferInstanceAs (Decidable (_ ∨ _))

/-- Pieces written one after the other with a separator character in between. -/
def joinWith (sep : Char) : List (List Char) → List Char
  | [] => []
  | [t] => t
  | t :: ts => t ++ sep :: joinWith sep ts

/-- A table. -/
structure Table where
  header : List (List Char)
  rows : List (List (List Char))

/-- `line` shows the cells separated by commas, with any blanks and tabs anywhere; it shows at least one character that is not blank. -/
def LineOf (cells : List (List Char)) (line : List Char) : Prop :=
  '\n' ∉ line ∧ (∀ t ∈ cells, ',' ∉ t) ∧ cells ≠ [] ∧ (∃ c ∈ line, ¬ IsBlank c) ∧
    line.filter (fun c => decide (¬ IsBlank c)) = joinWith ',' cells

/-- Nothing but blanks and tabs. -/
def BlankLine (line : List Char) : Prop := ∀ c ∈ line, IsBlank c

/-- The lines after the header: one line per row, in order, with any number of blank lines in between. -/
inductive RowLines : List (List (List Char)) → List (List Char) → Prop
  | nil : RowLines [] []
  | blank {rows line lines} : BlankLine line → RowLines rows lines → RowLines rows (line :: lines)
  | row {row rows line lines} : LineOf row line → RowLines rows lines → RowLines (row :: rows) (line :: lines)

/-- `text` consists of empty lines, a header line and the lines of the rows.  (A line of blanks before the header line counts as a
header line without names.) -/
def IsText (tbl : Table) (text : List Char) : Prop :=
  ∃ k line lines, text = joinWith '\n' (List.replicate k [] ++ line :: lines) ∧
    (LineOf tbl.header line ∨ tbl.header = [] ∧ line ≠ [] ∧ BlankLine line) ∧ RowLines tbl.rows lines

/-- The row has the text `t` in the column called `name` (the last one, if several columns have that name). -/
def CellIs (header row : List (List Char)) (name t : List Char) : Prop :=
  ∃ k : Nat, header[k]? = some name ∧ (∀ k', k < k' → header[k']? ≠ some name) ∧ row[k]? = some t

/-- Names of the columns of the position components, axis by axis (the vertical axis is the last one and is called `z`). -/
def posNames : Nat → List String
  | 2 => ["x", "z"]
  | 3 => ["x", "y", "z"]
  | _ => []

/-- Names of the columns of the velocity components. -/
def velNames : Nat → List String
  | 2 => ["u", "w"]
  | 3 => ["u", "v", "w"]
  | _ => []

/-- All column names, in the order in which files are written. -/
def columnNames (D : Nat) : List (List Char) := (["Type"] ++ posNames D ++ velNames D ++ ["p", "n"]).map String.toList

/-- The numbers of the particle types in files. -/
def typeOfNumber : Int → PType
  | 0 => .incompressibleNewton
  | 1 => .wall
  | 2 => .dummy
  | 3 => .disabled
  | k => .other k

/-- `q` is the particle a row describes. -/
structure RowIs {F : Type} {D : Nat} (cv : Conv F) (header row : List (List Char)) (q : Particle F D) : Prop where
  type : ∃ t k, CellIs header row "Type".toList t ∧ cv.int t = some k ∧ q.ty = typeOfNumber k
  x : ∀ a : Fin D, ∃ name t, (posNames D)[a.val]? = some name ∧ CellIs header row name.toList t ∧ cv.num t = some (q.x a)
  u : ∀ a : Fin D, ∃ name t, (velNames D)[a.val]? = some name ∧ CellIs header row name.toList t ∧ cv.num t = some (q.u a)
  p : ∃ t, CellIs header row "p".toList t ∧ cv.num t = some q.p
  n : ∃ t, CellIs header row "n".toList t ∧ cv.num t = some q.n

/-- A row that shows the particle `q`: its type number, its position, velocity, pressure and density as printed. -/
def csvRow {F : Type} {D : Nat} (pr : Printer F) (number : PType → Int) (q : Particle F D) : List (List Char) :=
  [pr.int (number q.ty)] ++ (List.ofFn fun a => pr.num (q.x a)) ++ (List.ofFn fun a => pr.num (q.u a)) ++ [pr.num q.p, pr.num q.n]

end OpenMps
