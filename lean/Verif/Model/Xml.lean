import Verif.Model.Main

/-! # Reading the XML file (`/repo/src/OpenMps/Main.cpp:186-276, 290-303`)

The property tree of Boost and its look-up are modelled here; the XML parser (characters to elements) is in `Model/XmlText.lean`.  The conversions of attribute texts
into numbers (`ptree::get<double>`, `get<std::size_t>`) are parameters here and modelled there. -/

namespace OpenMps

/-- `boost::property_tree::ptree`: a text and named children in order. -/
inductive PTree where
  | node (data : List Char) (children : List (String × PTree))

def PTree.data : PTree → List Char
  | .node d _ => d

def PTree.children : PTree → List (String × PTree)
  | .node _ cs => cs

/-- `ptree::find` as used by the walk along a path: the first child of that name. -/
def PTree.child (t : PTree) (name : String) : Option PTree :=
  (t.children.find? (fun p => p.1 == name)).map Prod.snd

/-- `ptree::get_child_optional`: walks along the path; at every step only the first child of the name is considered. -/
def PTree.walk : List String → PTree → Option PTree
  | [], t => some t
  | k :: ks, t => (t.child k).bind (PTree.walk ks)

/-- What the XML parser finds: texts, comments and elements with attributes (in order). -/
inductive XNode where
  | text (s : List Char)
  | comment (s : List Char)
  | elem (name : String) (attrs : List (String × List Char)) (body : List XNode)

/-- The texts directly below an element, one after the other: `pt.data() += text` of Boost's `read_xml_node` (no flags are given at
`Main.cpp:296`). -/
def bodyText : List XNode → List Char
  | [] => []
  | .text s :: rest => s ++ bodyText rest
  | _ :: rest => bodyText rest

/-- The child `<xmlattr>`, which an element with attributes gets first. -/
def attrEntry (attrs : List (String × List Char)) : List (String × PTree) :=
  if attrs.isEmpty then [] else [("<xmlattr>", .node [] (attrs.map (fun p => (p.1, .node p.2 []))))]

mutual
/-- Boost's `read_xml_node`: the children which a node adds to the tree of its parent. -/
def XNode.entries : XNode → List (String × PTree)
  | .text _ => []
  | .comment s => [("<xmlcomment>", .node s [])]
  | .elem name attrs body => [(name, .node (bodyText body) (attrEntry attrs ++ entriesOf body))]

def entriesOf : List XNode → List (String × PTree)
  | [] => []
  | x :: xs => x.entries ++ entriesOf xs
end

/-- `read_xml(filename, *xml)`, `/repo/src/OpenMps/Main.cpp:296`. -/
def readXml (doc : List XNode) : PTree := .node (bodyText doc) (entriesOf doc)

/-- Conversions of `ptree::get<double>` and `ptree::get<std::size_t>`; `none`: it throws. -/
structure XConv (F : Type) where
  num : List Char → Option F
  size : List Char → Option Nat

/-- An exception of Boost or of `LoadParticles` (nobody catches it), or undefined behaviour. -/
inductive LoadErr where
  | thrown
  | undefined
deriving DecidableEq

/-- `xml.get<T>(path)`: throws if the path does not exist or the text is no `T`. -/
def PTree.get {T : Type} (conv : List Char → Option T) (xml : PTree) (path : List String) : Except LoadErr T :=
  match xml.walk path with
  | none => .error .thrown
  | some t =>
    match conv t.data with
    | none => .error .thrown
    | some v => .ok v

/-- A read between `#if` and `#endif`; a parameter that the program does not have is 0 in the model. -/
def readIf {T : Type} [Zero T] (b : Bool) (x : Except LoadErr T) : Except LoadErr T := if b then x else .ok 0

/-- The paths `openmps.<sec>.<name>.<xmlattr>.value`. -/
def valuePath (sec name : String) : List String := ["openmps", sec, name, "<xmlattr>", "value"]

section
variable {F : Type} [Scalar F]

/-- `LoadCondition`, `/repo/src/OpenMps/Main.cpp:260-276`.  With `PRESSURE_EXPLICIT` there is no member `Eps`; the model then holds 0. -/
def loadCondition (cfg : Config) (xc : XConv F) (xml : PTree) : Except LoadErr (Condition F) := do
  let startTime ← xml.get xc.num (valuePath "condition" "startTime")
  let endTime ← xml.get xc.num (valuePath "condition" "endTime")
  let outputInterval ← xml.get xc.num (valuePath "condition" "outputInterval")
  let eps ← readIf (!cfg.explicit) (xml.get xc.num (valuePath "condition" "eps"))
  return { eps := eps, startTime := startTime, endTime := endTime, outputInterval := outputInterval }

/-- `minX`, `minY` (3-D), `minZ`, `/repo/src/OpenMps/Main.cpp:229-233`; the last axis is `Z`. -/
def minName (D : Nat) (a : Fin D) : String :=
  if a.val + 1 = D then "minZ" else if a.val = 0 then "minX" else "minY"

/-- `maxX`, `maxY` (3-D), `maxZ`, `/repo/src/OpenMps/Main.cpp:234-238`. -/
def maxName (D : Nat) (a : Fin D) : String :=
  if a.val + 1 = D then "maxZ" else if a.val = 0 then "maxX" else "maxY"

/-- The reads of the components of a vector, in order. -/
def vecGet {T : Type} : {D : Nat} → (Fin D → Except LoadErr T) → Except LoadErr (Fin D → T)
  | 0, _ => .ok Fin.elim0
  | _ + 1, f => do
    let v ← f 0
    let vs ← vecGet (fun a => f a.succ)
    return Fin.cons v vs

/-- The reads of `LoadEnvironment`, `/repo/src/OpenMps/Main.cpp:211-238`, and the arguments passed to `Environment` (lines 240-257); also
`minStepCountPerOutput`.  The members that do not exist (`SurfaceRatio` with SPP, `C` without `PRESSURE_EXPLICIT`) are 0. -/
def loadArgs {D : Nat} (cfg : Config) (xc : XConv F) (xml : PTree) (outputInterval : F) : Except LoadErr (EnvArgs F D × Nat) := do
  let l0 ← xml.get xc.num (valuePath "environment" "l_0")
  let m ← xml.get xc.size (valuePath "environment" "minStepCountPerOutput")
  let courant ← xml.get xc.num (valuePath "environment" "courant")
  let g ← xml.get xc.num (valuePath "environment" "g")
  let rho ← xml.get xc.num (valuePath "environment" "rho")
  let nu ← xml.get xc.num (valuePath "environment" "nu")
  let reByL0 ← xml.get xc.num (valuePath "environment" "r_eByl_0")
  let surfaceRatio ← readIf (!cfg.spp) (xml.get xc.num (valuePath "environment" "surfaceRatio"))
  let c ← readIf cfg.explicit (xml.get xc.num (valuePath "environment" "c"))
  let minX ← vecGet (fun a : Fin D => xml.get xc.num (valuePath "environment" (minName D a)))
  let maxX ← vecGet (fun a : Fin D => xml.get xc.num (valuePath "environment" (maxName D a)))
  return ({ maxDt := outputInterval / Scalar.ofInt (m : Int), courant := courant, g := g, rho := rho, nu := nu, surfaceRatio := surfaceRatio,
            reByL0 := reByL0, c := c, l0 := l0, minX := minX, maxX := maxX }, m)

/-- The text which `LoadParticles`, `/repo/src/OpenMps/Main.cpp:187-200`, gives to `InputFromCsv`.  `get_optional(..).get()` without a value is
undefined. -/
def loadCsv (xml : PTree) : Except LoadErr (List Char) :=
  match xml.walk ["openmps", "particles", "<xmlattr>", "type"] with
  | none => .error .undefined
  | some t =>
    if t.data = "csv".toList then
      match xml.walk ["openmps", "particles"] with
      | none => .error .thrown
      | some p => .ok p.data
    else .error .thrown

/-- The end of a program whose set-up fails; no file has been written. -/
def LoadErr.result : LoadErr → MainRes F
  | .thrown => { outs := [], ending := .terminated }
  | .undefined => { outs := [], ending := .undefined }

/-- `main` after `read_xml`, `/repo/src/OpenMps/Main.cpp:298-400`.  `LoadEnvironment` constructs the environment before `LoadParticles` runs; `mainProgram`
constructs it from the same arguments. -/
def mainFromXml (D : Nat) (cfg : Config) (xc : XConv F) (cv : Conv F) (pr : Printer F) (sch : Nat → Schedule) (xml : PTree) (fuel : Nat) : MainRes F :=
  match loadCondition cfg xc xml with
  | .error e => e.result
  | .ok cond =>
    match loadArgs (D := D) cfg xc xml cond.outputInterval with
    | .error e => e.result
    | .ok (a, m) =>
      match loadEnvironment cfg a m cond.outputInterval with
      | none => { outs := [], ending := .undefined }
      | some _ =>
        match loadCsv xml with
        | .error e => e.result
        | .ok csv => mainProgram cfg cv pr sch cond a m csv fuel

/-- `argv[1]`, or the sample if there are no arguments, `/repo/src/OpenMps/Main.cpp:293`; `args` are `argv[0], ..., argv[argc-1]`. -/
def inputFile (args : List String) : Option String :=
  if args.length = 1 then some "../../Benchmark/Sample/Sample.xml" else args[1]?

/-- `main`, `/repo/src/OpenMps/Main.cpp:289-400`: `shell` is what `system("mkdir result")` returns, `files` the readable and well-formed XML files
(`read_xml` throws for the others). -/
def programMain (D : Nat) (cfg : Config) (xc : XConv F) (cv : Conv F) (pr : Printer F) (sch : Nat → Schedule) (shell : Int) (args : List String)
    (files : String → Option (List XNode)) (fuel : Nat) : MainRes F :=
  if shell < 0 then LoadErr.thrown.result
  else
    match inputFile args with
    | none => LoadErr.undefined.result
    | some name =>
      match files name with
      | none => LoadErr.thrown.result
      | some doc => mainFromXml D cfg xc cv pr sch (readXml doc) fuel

end

end OpenMps
