import Verif.Model.Xml
import Mathlib.Data.Fin.VecNotation

/-! # The generators of the benchmarks (`/repo/Benchmark/*/generate*.py`)

Python programs that write input files.  Numbers are elements of the scalar type; `str` and `str.format` of numbers are parameters (`Printer`).
Not modelled: writing the file, the XML declaration, the number printed by `generate_koshizukaoka1996.py:166`. -/

namespace OpenMps

/-- One line of `particlesCsv`: the number of the type and the factors of `l_0` in `x` and `z`. -/
structure Site where
  number : Int
  i : Int
  k : Int
deriving DecidableEq, Repr

/-- The dictionary `type`, e.g. `/repo/Benchmark/StaticPressure/generate.py:34-38`. -/
def numNewton : Int := 0
def numWall : Int := 1
def numDummy : Int := 2

/-- `range(a, b)`. -/
def pyRange (a b : Int) : List Int := (List.range (b - a).toNat).map (fun n : Nat => a + (n : Int))

/-- The floor, `/repo/Benchmark/StaticPressure/generate.py:74-106`, `/repo/Benchmark/DamBreak/generate_koshizukaoka1996.py:76-92`,
`/repo/Benchmark/DamBreak/generate_zhouetal1999.py:75-91`: `w` is the inner width. -/
def floorSites (w : Int) : List Site :=
  (pyRange (-1) (w + 1)).flatMap (fun i => [⟨numWall, i, -1⟩, ⟨numDummy, i, -2⟩, ⟨numDummy, i, -3⟩, ⟨numDummy, i, -4⟩])

/-- The left wall, `StaticPressure/generate.py:107-139`, `generate_koshizukaoka1996.py:94-110`, `generate_zhouetal1999.py:93-109`: rows `0, ..., m-1`. -/
def leftSites (m : Int) : List Site :=
  (pyRange 0 m).flatMap (fun j => [⟨numWall, -1, j⟩, ⟨numDummy, -2, j⟩, ⟨numDummy, -3, j⟩, ⟨numDummy, -4, j⟩])

/-- The right wall, `StaticPressure/generate.py:140-172`, `generate_koshizukaoka1996.py:112-128`, `generate_zhouetal1999.py:111-127`. -/
def rightSites (w m : Int) : List Site :=
  (pyRange 0 m).flatMap (fun j => [⟨numWall, w + 0, j⟩, ⟨numDummy, w + 1, j⟩, ⟨numDummy, w + 2, j⟩, ⟨numDummy, w + 3, j⟩])

/-- The tops of the walls, `generate_koshizukaoka1996.py:130-136`, `generate_zhouetal1999.py:129-135`. -/
def topSites (w h : Int) : List Site :=
  (pyRange 0 4).flatMap (fun i => [⟨numWall, -(i + 1), h - 1⟩, ⟨numWall, w + i, h - 1⟩])

/-- The corners below, `StaticPressure/generate.py:173-191`, `generate_koshizukaoka1996.py:139-148`, `generate_zhouetal1999.py:138-147`. -/
def cornerSites (w : Int) : List Site :=
  (pyRange 1 4).flatMap (fun i => (pyRange (-4) 0).flatMap (fun j => [⟨numDummy, -1 - i, j⟩, ⟨numDummy, w + i, j⟩]))

/-- `/repo/Benchmark/StaticPressure/generate.py:64-191`; the entry `wall` of the parameters (line 31) is not used. -/
def staticPressureSites (width height : Int) : List Site :=
  (pyRange 0 width).flatMap (fun i => (pyRange 0 height).map (fun j => ⟨numNewton, i, j⟩)) ++
  floorSites width ++ leftSites (height + 1) ++ rightSites width (height + 1) ++ cornerSites width

/-- `/repo/Benchmark/DamBreak/generate_koshizukaoka1996.py:69-148`; `l`, `h`, `w` are the numbers of lines 65-67. -/
def koshizukaSites (l h w : Int) : List Site :=
  (pyRange 0 l).flatMap (fun i => (pyRange 0 h).map (fun j => ⟨numNewton, i, j⟩)) ++
  floorSites w ++ leftSites (h - 1) ++ rightSites w (h - 1) ++ topSites w h ++ cornerSites w

/-- `/repo/Benchmark/DamBreak/generate_zhouetal1999.py:68-147`; the numbers of lines 63-66. -/
def zhouSites (H W h w : Int) : List Site :=
  (pyRange 0 w).flatMap (fun i => (pyRange 0 h).map (fun j => ⟨numNewton, W - i - 1, j⟩)) ++
  floorSites W ++ leftSites (H - 1) ++ rightSites W (H - 1) ++ topSites W H ++ cornerSites W

/-- `/repo/Benchmark/CentralGravity/generate.py:61-66`. -/
def centralGravitySites (width height : Int) : List Site :=
  (pyRange (-width) (width + 1)).flatMap (fun i => (pyRange (-height) (height + 1)).map (fun j => ⟨numNewton, i, j⟩))

section
variable {F : Type} [Scalar F]

/-- Python's `min(a, b)`. -/
def pyMin (a b : F) : F := if Scalar.lt b a then b else a

/-- Python's `max(a, b)`. -/
def pyMax (a b : F) : F := if Scalar.lt a b then b else a

/-- `x = i * l_0; z = j * l_0`. -/
def Site.pos (l0 : F) (s : Site) : Vec F 2 := ![Scalar.ofInt s.i * l0, Scalar.ofInt s.k * l0]

/-- Smallest coordinates, `/repo/Benchmark/StaticPressure/generate.py:59-60, 70-71, ...`; `huge` is `sys.float_info.max`. -/
def lowest (huge l0 : F) (sites : List Site) : Vec F 2 :=
  fun a => sites.foldl (fun m s => pyMin m (s.pos l0 a)) huge

/-- Largest coordinates, `/repo/Benchmark/StaticPressure/generate.py:61-62, 72-73, ...`; `tiny` is `sys.float_info.min`, which is the smallest
positive number (not the most negative one). -/
def highest (tiny l0 : F) (sites : List Site) : Vec F 2 :=
  fun a => sites.foldl (fun m s => pyMax m (s.pos l0 a)) tiny

/-- What the dictionaries `condition` and `environment` hold, and the range that is added to `environment` at the end; e.g.
`/repo/Benchmark/StaticPressure/generate.py:8-26, 197-201`. -/
structure BenchParams (F : Type) where
  startTime : F
  endTime : F
  outputInterval : F
  eps : F
  l0 : F
  steps : Nat
  courant : F
  g : F
  rho : F
  nu : F
  reByL0 : F
  surfaceRatio : F
  lo : Vec F 2
  hi : Vec F 2

/-- `"{0}, {1}, {2}, 0, 0, 0, 0\n".format(type, x, z)`. -/
def siteLine (pr : Printer F) (l0 : F) (s : Site) : List Char :=
  pr.int s.number ++ ", ".toList ++ pr.num (s.pos l0 0) ++ ", ".toList ++ pr.num (s.pos l0 1) ++ ", 0, 0, 0, 0\n".toList

/-- `"".join(particlesCsv)`. -/
def siteCsv (pr : Printer F) (l0 : F) (sites : List Site) : List Char :=
  "Type, x, z, u, w, p, n\n".toList ++ sites.flatMap (siteLine pr l0)

/-- `item = ET.SubElement(parent, key); item.set("value", text)`. -/
def valueElem (key : String) (text : List Char) : XNode := .elem key [("value", text)] []

/-- White space added by `toprettyxml(indent="	")`: a line break and tabs before every element, a line break and tabs before the end of the parent.
An element that contains only text is not changed. -/
def pretty (depth : Nat) (els : List XNode) : List XNode :=
  els.flatMap (fun e => [.text ('\n' :: List.replicate depth '\t'), e]) ++ [.text ('\n' :: List.replicate (depth - 1) '\t')]

/-- The file, e.g. `/repo/Benchmark/StaticPressure/generate.py:41-54, 193-207`. -/
def benchDoc (pr : Printer F) (b : BenchParams F) (sites : List Site) : List XNode :=
  [.elem "openmps" [] (pretty 1
    [.elem "condition" [] (pretty 2
      [valueElem "startTime" (pr.num b.startTime), valueElem "endTime" (pr.num b.endTime),
       valueElem "outputInterval" (pr.num b.outputInterval), valueElem "eps" (pr.num b.eps)]),
     .elem "environment" [] (pretty 2
      [valueElem "l_0" (pr.num b.l0), valueElem "minStepCountPerOutput" (pr.int b.steps), valueElem "courant" (pr.num b.courant),
       valueElem "g" (pr.num b.g), valueElem "rho" (pr.num b.rho), valueElem "nu" (pr.num b.nu), valueElem "r_eByl_0" (pr.num b.reByL0),
       valueElem "surfaceRatio" (pr.num b.surfaceRatio),
       valueElem "minX" (pr.num (b.lo 0)), valueElem "minZ" (pr.num (b.lo 1)),
       valueElem "maxX" (pr.num (b.hi 0)), valueElem "maxZ" (pr.num (b.hi 1))]),
     .elem "particles" [("type", "csv".toList)] [.text (siteCsv pr b.l0 sites)]])]

/-- The file of `/repo/Benchmark/StaticPressure/generate.py`: the range is that of the particles (lines 59-62, 197-201). -/
def staticPressureDoc (pr : Printer F) (huge tiny : F) (b : BenchParams F) (width height : Int) : List XNode :=
  let sites := staticPressureSites width height
  benchDoc pr { b with lo := lowest huge b.l0 sites, hi := highest tiny b.l0 sites } sites

/-- The file of `/repo/Benchmark/DamBreak/generate_koshizukaoka1996.py` (lines 62-67, 155-158); `width` and `height` are multiples of `L`.
`none`: `math.ceil` fails (not a finite number). -/
def koshizukaDoc (pr : Printer F) (b : BenchParams F) (L : F) (height width : Int) : Option (List XNode) :=
  match Scalar.ceilIdx (L / b.l0), Scalar.ceilIdx (L * Scalar.ofInt height / b.l0), Scalar.ceilIdx (L * Scalar.ofInt width / b.l0) with
  | some l, some h, some w =>
    some (benchDoc pr { b with lo := ![Scalar.ofInt (-4) * b.l0, Scalar.ofInt (-4) * b.l0],
                               hi := ![Scalar.ofInt width * L, Scalar.ofInt (height * 2) * L] } (koshizukaSites l h w))
  | _, _, _ => none

/-- The file of `/repo/Benchmark/DamBreak/generate_zhouetal1999.py` (lines 63-66, 154-157); `c` is the number `1.2`. -/
def zhouDoc (pr : Printer F) (b : BenchParams F) (c H W h w : F) : Option (List XNode) :=
  match Scalar.ceilIdx (H / b.l0), Scalar.ceilIdx (W / b.l0), Scalar.ceilIdx (h / b.l0), Scalar.ceilIdx (w / b.l0) with
  | some kH, some kW, some kh, some kw =>
    some (benchDoc pr { b with lo := ![Scalar.ofInt (-4) * b.l0, Scalar.ofInt (-4) * b.l0],
                               hi := ![Scalar.ofInt (kW + 4) * b.l0, c * Scalar.ofInt kH * b.l0] } (zhouSites kH kW kh kw))
  | _, _, _, _ => none

/-- The file of `/repo/Benchmark/CentralGravity/generate.py` (lines 72-77). -/
def centralGravityDoc (pr : Printer F) (b : BenchParams F) (width height areaSize : Int) : List XNode :=
  benchDoc pr { b with lo := ![Scalar.ofInt (-areaSize) * b.l0 * Scalar.ofInt width, Scalar.ofInt (-areaSize) * b.l0 * Scalar.ofInt height],
                       hi := ![Scalar.ofInt areaSize * b.l0 * Scalar.ofInt width, Scalar.ofInt areaSize * b.l0 * Scalar.ofInt height] }
    (centralGravitySites width height)

/-- The particle of a line: at rest, with pressure and density 0. -/
def Site.particle (l0 : F) (s : Site) : Particle F 2 :=
  { x := s.pos l0, u := fun _ => 0, p := 0, n := 0, ty := PType.ofInt s.number }

/-- `calculate_n0`, `/repo/Benchmark/CentralGravity/check_result.py:14-23`; `r_e` in units of `l_0`.  `none`: `math.ceil` fails. -/
def calculateN0 (re : F) : Option F :=
  match Scalar.ceilIdx re with
  | none => none
  | some size =>
    some ((pyRange (-size) (size + 1)).foldl (fun n y => (pyRange (-size) (size + 1)).foldl (fun n x =>
      let r := Scalar.sqrt (Scalar.ofInt (x * x + y * y))
      if Scalar.lt 0 r && Scalar.lt r re then n + (re / r - Scalar.ofInt 1) else n) n) 0)

end

end OpenMps
