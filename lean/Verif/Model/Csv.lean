import Verif.Model.Particle

/-! # CSV input and output (`/repo/src/OpenMps/Main.cpp:28-183`)

Texts are lists of characters.  The conversions between numbers and texts are parameters. -/

namespace OpenMps

/-- The underlying `int` of a type, `/repo/src/OpenMps/Particle.hpp:16-29`. -/
def PType.toInt : PType → Int
  | .incompressibleNewton => 0
  | .wall => 1
  | .dummy => 2
  | .disabled => 3
  | .other k => k

/-- `static_cast<Particle::Type>(int)`, `/repo/src/OpenMps/Main.cpp:153`. -/
def PType.ofInt (k : Int) : PType :=
  if k = 0 then .incompressibleNewton else if k = 1 then .wall else if k = 2 then .dummy
  else if k = 3 then .disabled else .other k

/-- `stov<int>` and `stov<double>`, `/repo/src/OpenMps/stov.hpp:9-13, 45-49`; `none`: the conversion throws. -/
structure Conv (F : Type) where
  int : List Char → Option Int
  num : List Char → Option F

/-- `output << int` and `output << double`, `/repo/src/OpenMps/Main.cpp:49-59`. -/
structure Printer (F : Type) where
  int : Int → List Char
  num : F → List Char

/-- Ways in which `InputFromCsv` fails: the two errors it throws itself (`Main.cpp:128, 137`), a conversion that throws, undefined
behaviour (an iterator or index past the end). -/
inductive CsvErr where
  | illegalHeader
  | missingHeader
  | conversion
  | ub
deriving DecidableEq, Repr

/-- `boost::algorithm::split` at one separator character (no compression: `k` separators give `k+1` pieces). -/
def splitChar (sep : Char) : List Char → List (List Char)
  | [] => [[]]
  | c :: cs =>
    if c = sep then [] :: splitChar sep cs
    else
      match splitChar sep cs with
      | t :: ts => (c :: t) :: ts
      | [] => [[c]]

/-- `remove_if` of `GetItems`, `/repo/src/OpenMps/Main.cpp:84-88`. -/
def stripBlanks (l : List Char) : List Char := l.filter (fun c => !(c == ' ' || c == '\t'))

/-- `GetItems`, `/repo/src/OpenMps/Main.cpp:82-96`. -/
def getItems (line : List Char) : List (List Char) :=
  let str := stripBlanks line
  if str.length > 0 then splitChar ',' str else []

/-- Name of the position column of axis `a` (`x, z` in 2-D and `x, y, z` in 3-D; the vertical axis is the last one),
`/repo/src/OpenMps/Main.cpp:102-106`. -/
def colX (D : Nat) (a : Fin D) : List Char :=
  if a.val + 1 = D then ['z'] else if a.val = 0 then ['x'] else ['y']

/-- Name of the velocity column of axis `a`, `/repo/src/OpenMps/Main.cpp:107-111`. -/
def colU (D : Nat) (a : Fin D) : List Char :=
  if a.val + 1 = D then ['w'] else if a.val = 0 then ['u'] else ['v']

/-- `"Type"`. -/
def colType : List Char := ['T', 'y', 'p', 'e']

/-- Keys of the map `header`, `/repo/src/OpenMps/Main.cpp:100-114`; also the order in which `OutputToCsv` writes the columns
(`Main.cpp:36-41`). -/
def columns (D : Nat) : List (List Char) :=
  colType :: ((List.finRange D).map (colX D) ++ (List.finRange D).map (colU D) ++ [['p'], ['n']])

/-- The loop over the header items, `/repo/src/OpenMps/Main.cpp:119-131`; `i` is the position of the first item of the list, `h` the
map (0: not found, else position + 1). -/
def readHeader (D : Nat) : List (List Char) → Nat → (List Char → Nat) → Except CsvErr (List Char → Nat)
  | [], _, h => .ok h
  | t :: ts, i, h =>
    if t ∈ columns D then readHeader D ts (i + 1) (fun m => if m = t then i + 1 else h m)
    else .error .illegalHeader

/-- The header block, `/repo/src/OpenMps/Main.cpp:115-143`. -/
def headerMap (D : Nat) (line : List Char) : Except CsvErr (List Char → Nat) :=
  match readHeader D (getItems line) 0 (fun _ => 0) with
  | .error e => .error e
  | .ok h => if ∃ c ∈ columns D, h c = 0 then .error .missingHeader else .ok (fun c => h c - 1)

/-- `data[header[name]]`; outside the vector: undefined. -/
def cell (data : List (List Char)) (h : List Char → Nat) (name : List Char) : Except CsvErr (List Char) :=
  match data[h name]? with
  | some t => .ok t
  | none => .error .ub

/-- A conversion. -/
def convert {α : Type} (f : List Char → Option α) (t : List Char) : Except CsvErr α :=
  match f t with
  | some v => .ok v
  | none => .error .conversion

/-- Evaluate the components of a vector in order, stopping at the first failure. -/
def vecOf {F : Type} : {D : Nat} → (Fin D → Except CsvErr F) → Except CsvErr (Vec F D)
  | 0, _ => .ok Fin.elim0
  | _ + 1, f => do
    let v ← f 0
    let vs ← vecOf (fun a => f a.succ)
    return Fin.cons v vs

/-- The body of the loop over the lines, `/repo/src/OpenMps/Main.cpp:153-178`. -/
def readParticle {F : Type} {D : Nat} (cv : Conv F) (h : List Char → Nat) (data : List (List Char)) :
    Except CsvErr (Particle F D) := do
  let ty ← cell data h colType >>= convert cv.int
  let x ← vecOf (fun a => cell data h (colX D a) >>= convert cv.num)
  let u ← vecOf (fun a => cell data h (colU D a) >>= convert cv.num)
  let p ← cell data h ['p'] >>= convert cv.num
  let n ← cell data h ['n'] >>= convert cv.num
  return { x := x, u := u, p := p, n := n, ty := PType.ofInt ty }

/-- The loop over the lines after the header, `/repo/src/OpenMps/Main.cpp:146-180`. -/
def readRows {F : Type} {D : Nat} (cv : Conv F) (h : List Char → Nat) : List (List Char) → Except CsvErr (List (Particle F D))
  | [] => .ok []
  | line :: lines =>
    let data := getItems line
    if data.length > 0 then do
      let q ← readParticle cv h data
      let qs ← readRows cv h lines
      return q :: qs
    else readRows cv h lines

/-- Skipping the leading empty lines, `/repo/src/OpenMps/Main.cpp:78-80`; past the last line: undefined. -/
def skipEmpty : List (List Char) → Except CsvErr (List Char × List (List Char))
  | [] => .error .ub
  | l :: ls => if l.length = 0 then skipEmpty ls else .ok (l, ls)

/-- `InputFromCsv`, `/repo/src/OpenMps/Main.cpp:71-187`. -/
def inputFromCsv {F : Type} {D : Nat} (cv : Conv F) (csv : List Char) : Except CsvErr (List (Particle F D)) := do
  let (line, rest) ← skipEmpty (splitChar '\n' csv)
  let h ← headerMap D line
  readRows cv h rest

/-- Items separated by `", "`. -/
def commaSep : List (List Char) → List Char
  | [] => []
  | [t] => t
  | t :: ts => t ++ [',', ' '] ++ commaSep ts

/-- The texts of one line, `/repo/src/OpenMps/Main.cpp:48-59`. -/
def particleFields {F : Type} {D : Nat} (pr : Printer F) (q : Particle F D) : List (List Char) :=
  pr.int q.ty.toInt :: ((List.finRange D).map (fun a => pr.num (q.x a)) ++ (List.finRange D).map (fun a => pr.num (q.u a))
    ++ [pr.num q.p, pr.num q.n])

/-- The text written by `OutputToCsv`, `/repo/src/OpenMps/Main.cpp:36-59`. -/
def outputToCsv {F : Type} {D : Nat} (pr : Printer F) (ps : List (Particle F D)) : List Char :=
  commaSep (columns D) ++ ['\n'] ++ ps.flatMap (fun q => commaSep (particleFields pr q) ++ ['\n'])

/-- The return value of `OutputToCsv`: number of particles that are not disabled, `/repo/src/OpenMps/Main.cpp:44, 61-67`. -/
def enabledCount {F : Type} {D : Nat} (ps : List (Particle F D)) : Nat :=
  (ps.filter (fun q => decide (q.ty ≠ .disabled))).length

end OpenMps
