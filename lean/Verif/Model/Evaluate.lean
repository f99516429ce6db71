import Verif.Model.Benchmark
import Verif.Model.Text

/-! # The evaluation scripts of the benchmarks (`/repo/Benchmark`)

`CentralGravity/check_result.py`, `DamBreak/koshizukaoka1996_edge.py`, `DamBreak/koshizukaoka1996_shape.py` and `DamBreak/zhouetal1999.py` read the files written by the
program and compute the numbers that are compared with experiments.  Modelled: reading the files and the numbers that are plotted from them.  Not modelled: the
plotting itself and the files with the results of other authors.  Texts are lists of characters without quotation marks and carriage returns (Python's `csv` module treats them
specially).  Division by zero and square roots of negative numbers in the scaling of the axes, which would end a script, are not modelled. -/

namespace OpenMps

/-- Ways in which a script ends with an exception. -/
inductive PyErr where
  /-- `KeyError` (no such column) or `TypeError` (the row is too short: the value is `None`). -/
  | noCell
  /-- `ValueError` of `float` or `int`. -/
  | notANumber
  /-- `ValueError` of `max` or `min` of an empty list. -/
  | emptyMax
  /-- `StatisticsError` of `mean` of nothing. -/
  | emptyMean
  /-- `IndexError`: no rows, no files or too few files. -/
  | noIndex
  /-- `math.ceil` or `math.floor` of a number that is not finite, division by zero. -/
  | arithmetic
deriving DecidableEq, Repr

/-- The fields of a line for `csv.reader` with `skipinitialspace`: split at commas, blanks at the beginning of a field are left out; an empty line has no fields. -/
def pyFields (line : List Char) : List (List Char) :=
  if line = [] then [] else (splitChar ',' line).map (fun t => t.dropWhile (· == ' '))

/-- `dict(zip(fieldnames, row))`, with `None` for names without a field; of several columns with the same name the last one counts.  `none`: no value. -/
def dictCell (name : List Char) : List (List Char) → List (List Char) → Option (List Char)
  | [], _ => none
  | h :: hs, row => if name ∈ hs then dictCell name hs row.tail else if h = name then row.head? else none

/-- A line as seen by the scripts: the text in the column with a given name. -/
abbrev PyRow := List Char → Option (List Char)

/-- `csv.DictReader(f, skipinitialspace="True")`: the first line gives the names, empty lines are skipped. -/
def pyRows (text : List Char) : List PyRow :=
  match splitChar '\n' text with
  | [] => []
  | header :: lines =>
    ((lines.map pyFields).filter (fun row => !row.isEmpty)).map (fun row name => dictCell name (pyFields header) row)

section
variable {F : Type} [Scalar F]

/-- `float(line[name])`. -/
def pyFloat (cv : Conv F) (name : List Char) (r : PyRow) : Except PyErr F :=
  match r name with
  | none => .error .noCell
  | some t => match cv.num t with
    | none => .error .notANumber
    | some v => .ok v

/-- `int(line[name])`. -/
def pyInt (cv : Conv F) (name : List Char) (r : PyRow) : Except PyErr Int :=
  match r name with
  | none => .error .noCell
  | some t => match cv.int t with
    | none => .error .notANumber
    | some v => .ok v

/-- A list comprehension whose expression may fail. -/
def pyMap {α β : Type} (f : α → Except PyErr β) : List α → Except PyErr (List β)
  | [] => .ok []
  | a :: l => do
    let b ← f a
    let bs ← pyMap f l
    return b :: bs

/-- `max(l)`: a later element is taken only if it is greater. -/
def maxOf : List F → Except PyErr F
  | [] => .error .emptyMax
  | v :: l => .ok (l.foldl (fun m v => if Scalar.lt m v then v else m) v)

/-- `min(l)`. -/
def minOf : List F → Except PyErr F
  | [] => .error .emptyMax
  | v :: l => .ok (l.foldl (fun m v => if Scalar.lt v m then v else m) v)

/-- `statistics.mean(l)`.  (Python adds without rounding errors; here the sum is accumulated.) -/
def pyMean (l : List F) : Except PyErr F :=
  if l = [] then .error .emptyMean else .ok (l.foldl (· + ·) 0 / Scalar.ofInt (l.length : Int))

/-- `output` of `/repo/Benchmark/DamBreak/koshizukaoka1996_edge.py:14-20`. -/
def edgeOfFile (cv : Conv F) (text : List Char) : Except PyErr F := do
  let data ← pyMap (fun r => do
    let x ← pyFloat cv ['x'] r
    let k ← pyInt cv colType r
    return (x, k)) (pyRows text)
  maxOf ((data.filter (fun d => d.2 == 0)).map Prod.fst)

/-- A line of a file for `zhouetal1999.py`. -/
structure ZhouRow (F : Type) where
  x : F
  z : F
  p : F
  n : F
  number : Int

/-- The number `a / 1000` (written `a e-3`). -/
def thousandths (a : Int) : F := Scalar.ofInt a / Scalar.ofInt 1000

/-- `h1` and `h2`, `/repo/Benchmark/DamBreak/zhouetal1999.py:35-36`. -/
def zhouHeight (l0 minN X : F) (data : List (ZhouRow F)) : Except PyErr F :=
  maxOf (0 :: (data.filter (fun d => Scalar.lt (Scalar.abs (d.x - X)) (l0 / Scalar.ofInt 2) && Scalar.lt minN d.n)).map ZhouRow.z)

/-- `p2`, `/repo/Benchmark/DamBreak/zhouetal1999.py:37`. -/
def zhouPressure (data : List (ZhouRow F)) : Except PyErr F :=
  pyMean ((data.filter (fun d => Scalar.lt d.x 0 && d.number == 1 &&
    Scalar.lt (Scalar.abs (d.z - thousandths 160)) (thousandths 90 / Scalar.ofInt 2))).map ZhouRow.p)

/-- `output` of `/repo/Benchmark/DamBreak/zhouetal1999.py:26-39`: `h1`, `h2`, `p2`. -/
def zhouOfFile (cv : Conv F) (l0 minN : F) (text : List Char) : Except PyErr (F × F × F) := do
  let data ← pyMap (fun r => do
    let x ← pyFloat cv ['x'] r
    let z ← pyFloat cv ['z'] r
    let p ← pyFloat cv ['p'] r
    let n ← pyFloat cv ['n'] r
    let k ← pyInt cv colType r
    return (⟨x, z, p, n, k⟩ : ZhouRow F)) (pyRows text)
  let h1 ← zhouHeight l0 minN (thousandths 2020 - thousandths 1525) data
  let h2 ← zhouHeight l0 minN (thousandths 2020 - thousandths 1028) data
  let p2 ← zhouPressure data
  return (h1, h2, p2)

/-- A line of a file for `check_result.py`: distance to the centre, pressure, density. -/
structure CheckRow (F : Type) where
  r : F
  p : F
  n : F

/-- `data.T[0].argmin()`: the first row with the least distance. -/
def nearestRow : CheckRow F → List (CheckRow F) → CheckRow F
  | d, [] => d
  | d, e :: l => nearestRow (if Scalar.lt e.r d.r then e else d) l

/-- `output` of `/repo/Benchmark/CentralGravity/check_result.py:25-55`: roundness in percent and pressure in the centre.  (The title of the
picture is not modelled, except that the number is taken from the name.) -/
def checkOfFile (cv : Conv F) (re beta R : F) (name text : List Char) : Except PyErr (F × F) := do
  let data ← pyMap (fun r => do
    let x ← pyFloat cv ['x'] r
    let z ← pyFloat cv ['z'] r
    let p ← pyFloat cv ['p'] r
    let n ← pyFloat cv ['n'] r
    return (⟨Scalar.sqrt (x * x + z * z), p, n⟩ : CheckRow F)) (pyRows text)
  let _ ← match cv.int ((name.drop 10).take 5) with
    | none => Except.error PyErr.notANumber
    | some k => Except.ok k
  match data with
  | [] => .error .noIndex
  | d :: l =>
    match calculateN0 re with
    | none => .error .arithmetic
    | some n0 => do
      let surface := ((d :: l).filter (fun d => Scalar.lt d.n (n0 * beta))).map CheckRow.r
      let rMax ← maxOf surface
      let rMin ← minOf surface
      return ((1 - (rMax - rMin) / R) * Scalar.ofInt 100, (nearestRow d l).p)

/-- A file of the directory: name and contents. -/
structure DirFile where
  name : List Char
  text : List Char

/-- `sorted(os.listdir(dirname))`. -/
def sortedFiles (dir : List DirFile) : List DirFile := dir.mergeSort (fun a b => decide (a.name ≤ b.name))

/-- The points of a curve: the value computed from the `k`-th file over `k * dt`. -/
def timeAxis {α : Type} (dt : F) (values : List α) : List (F × α) :=
  values.zipIdx.map (fun v => (Scalar.ofInt (v.2 : Int) * dt, v.1))

/-- All files in order of their names; `n = data.shape[1]` fails without files. -/
def evaluateAll {α : Type} (f : DirFile → Except PyErr α) (dt : F) (dir : List DirFile) : Except PyErr (List (F × α)) := do
  let data ← pyMap f (sortedFiles dir)
  match data with
  | [] => .error .noIndex
  | _ => return timeAxis dt data

/-- The curve of `/repo/Benchmark/DamBreak/koshizukaoka1996_edge.py:53-62`. -/
def edgeCurve (cv : Conv F) (L dt g : F) (dir : List DirFile) : Except PyErr (List (F × F)) := do
  let data ← evaluateAll (fun f => edgeOfFile cv f.text) dt dir
  let tt := Scalar.sqrt (Scalar.ofInt 2 * g / L)
  return data.map (fun d => (d.1 * tt, d.2 / L))

/-- The numbers `0.6` and `9.8` of `/repo/Benchmark/DamBreak/zhouetal1999.py:42-43`. -/
def zhouH : F := thousandths 600

def zhouG : F := thousandths 9800

/-- The curves of `/repo/Benchmark/DamBreak/zhouetal1999.py:41-59, 80, 101`: scaled time, heights and pressure. -/
def zhouCurves (cv : Conv F) (l0 dt re : F) (dir : List DirFile) : Except PyErr (List (F × F × F × F)) :=
  match calculateN0 re with
  | none => .error .arithmetic
  | some n0 => do
    let minN := n0 * thousandths 100
    let data ← evaluateAll (fun f => zhouOfFile cv l0 minN f.text) dt dir
    let tt := Scalar.sqrt (zhouG / zhouH)
    let p0 := Scalar.ofInt 1000 * zhouG * zhouH
    return data.map (fun d => (d.1 * tt, d.2.1 / zhouH, d.2.2.1 / zhouH, d.2.2.2 / p0))

/-- The curves of `/repo/Benchmark/CentralGravity/check_result.py:57-80`: time, roundness, pressure in the centre; `pi` is the number `math.pi`. -/
def checkCurves (cv : Conv F) (pi re beta dt L : F) (dir : List DirFile) : Except PyErr (List (F × F × F)) :=
  evaluateAll (fun f => checkOfFile cv re beta (L / Scalar.sqrt pi) f.name f.text) dt dir

/-- `files[k]` for an integer: from the end, if it is negative. -/
def pyIndex {α : Type} (l : List α) (k : Int) : Except PyErr α :=
  match (if 0 ≤ k then l[k.toNat]? else if -k ≤ l.length then l[l.length - (-k).toNat]? else none) with
  | some a => .ok a
  | none => .error .noIndex

/-- The pictures of `/repo/Benchmark/DamBreak/koshizukaoka1996_shape.py:14-36`: for `i = 1, ..., 10` the positions in the file with the number `i * fileInterval`, with the time shown in
the title. -/
def shapePictures (cv : Conv F) (dt : F) (dir : List DirFile) : Except PyErr (List (F × List (F × F))) :=
  match Scalar.floorIdx (thousandths 100 / dt) with
  | none => .error .arithmetic
  | some fileInterval => pyMap (fun (i : Int) => do
      let f ← pyIndex (sortedFiles dir) (i * fileInterval)
      let data ← pyMap (fun r => do
        let x ← pyFloat cv ['x'] r
        let z ← pyFloat cv ['z'] r
        return (x, z)) (pyRows f.text)
      return (Scalar.ofInt i * thousandths 100, data)) [1, 2, 3, 4, 5, 6, 7, 8, 9, 10]

end

end OpenMps
