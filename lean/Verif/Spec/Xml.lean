import Verif.Model.Xml

/-! # What an XML configuration says -/

namespace OpenMps

/-- The first element of that name: its attributes and what it contains. -/
def firstElem (name : String) : List XNode → Option (List (String × List Char) × List XNode)
  | [] => none
  | .elem n attrs body :: rest => if n = name then some (attrs, body) else firstElem name rest
  | .text _ :: rest => firstElem name rest
  | .comment _ :: rest => firstElem name rest

/-- What is inside `<openmps><sec> ... </sec></openmps>`. -/
def sectionOf (doc : List XNode) (sec : String) : Option (List (String × List Char) × List XNode) :=
  (firstElem "openmps" doc).bind (fun o => firstElem sec o.2)

/-- The text `v` of `<openmps><sec><name value="v" /></sec></openmps>`. -/
def setting (doc : List XNode) (sec name : String) : Option (List Char) :=
  (sectionOf doc sec).bind (fun s => (firstElem name s.2).bind (fun e => e.1.lookup "value"))

mutual
/-- Names of elements do not begin with `<` (XML allows no such name; here only the name that the property tree reserves matters). -/
def XNode.proper : XNode → Prop
  | .elem name _ body => name ≠ "<xmlattr>" ∧ properDoc body
  | _ => True

def properDoc : List XNode → Prop
  | [] => True
  | x :: xs => x.proper ∧ properDoc xs
end

/-- Names of the bounds, axis by axis. -/
def axisNames : Nat → List String
  | 2 => ["X", "Z"]
  | 3 => ["X", "Y", "Z"]
  | _ => []

/-- The settings that a program compiled with these options reads as floating point numbers. -/
def numericSettings (cfg : Config) (D : Nat) : List (String × String) :=
  (["startTime", "endTime", "outputInterval"] ++ (if cfg.explicit then [] else ["eps"])).map (fun n => ("condition", n)) ++
  (["l_0", "courant", "g", "rho", "nu", "r_eByl_0"] ++ (if cfg.spp then [] else ["surfaceRatio"]) ++ (if cfg.explicit then ["c"] else []) ++
    (axisNames D).map (fun n => "min" ++ n) ++ (axisNames D).map (fun n => "max" ++ n)).map (fun n => ("environment", n))

section
variable {F : Type} [Scalar F]

/-- The setting shows the number `v`. -/
def NumIs (xc : XConv F) (doc : List XNode) (sec name : String) (v : F) : Prop := ∃ t, setting doc sec name = some t ∧ xc.num t = some v

/-- The number of steps per output is `m`. -/
def StepsAre (xc : XConv F) (doc : List XNode) (m : Nat) : Prop :=
  ∃ t, setting doc "environment" "minStepCountPerOutput" = some t ∧ xc.size t = some m

/-- Everything that is needed is there and can be read. -/
def Complete (cfg : Config) (D : Nat) (xc : XConv F) (doc : List XNode) : Prop :=
  (∀ p ∈ numericSettings cfg D, ∃ v, NumIs xc doc p.1 p.2 v) ∧ ∃ m, StepsAre xc doc m

/-- The conditions and arguments are those of the file, each from the setting of its own name.  Parameters the program does not have
are 0. -/
structure Configured {D : Nat} (cfg : Config) (xc : XConv F) (doc : List XNode) (cond : Condition F) (a : EnvArgs F D) (m : Nat) : Prop where
  startTime : NumIs xc doc "condition" "startTime" cond.startTime
  endTime : NumIs xc doc "condition" "endTime" cond.endTime
  outputInterval : NumIs xc doc "condition" "outputInterval" cond.outputInterval
  eps : if cfg.explicit then cond.eps = 0 else NumIs xc doc "condition" "eps" cond.eps
  steps : StepsAre xc doc m
  maxDt : a.maxDt = cond.outputInterval / Scalar.ofInt (m : Int)
  l0 : NumIs xc doc "environment" "l_0" a.l0
  courant : NumIs xc doc "environment" "courant" a.courant
  g : NumIs xc doc "environment" "g" a.g
  rho : NumIs xc doc "environment" "rho" a.rho
  nu : NumIs xc doc "environment" "nu" a.nu
  reByL0 : NumIs xc doc "environment" "r_eByl_0" a.reByL0
  surfaceRatio : if cfg.spp then a.surfaceRatio = 0 else NumIs xc doc "environment" "surfaceRatio" a.surfaceRatio
  c : if cfg.explicit then NumIs xc doc "environment" "c" a.c else a.c = 0
  minX : ∀ i : Fin D, ∃ n, (axisNames D)[i.val]? = some n ∧ NumIs xc doc "environment" ("min" ++ n) (a.minX i)
  maxX : ∀ i : Fin D, ∃ n, (axisNames D)[i.val]? = some n ∧ NumIs xc doc "environment" ("max" ++ n) (a.maxX i)

end

/-- The attribute `type` of `<particles>`. -/
def particlesType (doc : List XNode) : Option (List Char) := (sectionOf doc "particles").bind (fun s => s.1.lookup "type")

/-- The characters of a node that is text. -/
def XNode.chars : XNode → List Char
  | .text s => s
  | _ => []

/-- The text inside `<particles>`: all texts directly below it, in order (comments and elements between them are left out). -/
def particlesText (doc : List XNode) : Option (List Char) := (sectionOf doc "particles").map (fun s => s.2.flatMap XNode.chars)

/-- The names of the elements in a list of nodes. -/
def elemNames : List XNode → List String
  | [] => []
  | .elem n _ _ :: rest => n :: elemNames rest
  | _ :: rest => elemNames rest

/-- The sections, or the elements of a section other than `<particles>`, in another order; no name occurs twice among them. -/
inductive Rearranged : List XNode → List XNode → Prop
  | sections (as : List (String × List Char)) (ss ss' : List XNode) : ss.Perm ss' → (elemNames ss).Nodup →
      Rearranged [.elem "openmps" as ss] [.elem "openmps" as ss']
  | inside (as : List (String × List Char)) (sec : String) (as' : List (String × List Char)) (pre post xs ys : List XNode) : sec ≠ "particles" →
      xs.Perm ys → (elemNames xs).Nodup →
      Rearranged [.elem "openmps" as (pre ++ .elem sec as' xs :: post)] [.elem "openmps" as (pre ++ .elem sec as' ys :: post)]

end OpenMps
