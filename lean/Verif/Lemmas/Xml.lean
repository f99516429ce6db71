import Verif.Spec.Xml
import Mathlib.Data.Fin.VecNotation
import Mathlib.Tactic.FinCases

/-! # Look-up in the property tree is look-up in the document -/

namespace OpenMps

set_option linter.unusedSectionVars false

theorem bodyText_chars : ∀ l : List XNode, bodyText l = l.flatMap XNode.chars
  | [] => rfl
  | .text s :: rest => by rw [bodyText, List.flatMap_cons, bodyText_chars rest]; rfl
  | .comment _ :: rest => bodyText_chars rest
  | .elem _ _ _ :: rest => bodyText_chars rest

/-- The tree of an element. -/
def treeOf (e : List (String × List Char) × List XNode) : PTree := .node (bodyText e.2) (attrEntry e.1 ++ entriesOf e.2)

theorem find_attrEntry {name : String} (h : name ≠ "<xmlattr>") (as : List (String × List Char)) :
    (attrEntry as).find? (fun p => p.1 == name) = none := by
  unfold attrEntry
  split
  · rfl
  · simp [Ne.symm h]

theorem find_entriesOf {name : String} (h : name ≠ "<xmlcomment>") : ∀ body : List XNode,
    (entriesOf body).find? (fun p => p.1 == name) = (firstElem name body).map (fun e => (name, treeOf e))
  | [] => by simp [entriesOf, firstElem]
  | .text s :: rest => by simp [entriesOf, XNode.entries, firstElem, find_entriesOf h rest]
  | .comment s :: rest => by simp [entriesOf, XNode.entries, firstElem, find_entriesOf h rest, Ne.symm h]
  | .elem n as b :: rest => by
    simp only [entriesOf, XNode.entries, firstElem, List.cons_append, List.nil_append, List.find?_cons]
    by_cases hn : n = name
    · subst hn
      simp [treeOf]
    · rw [if_neg hn]
      have h3 : (n == name) = false := by simp [hn]
      rw [h3]
      exact find_entriesOf h rest

theorem child_treeOf {name : String} (h1 : name ≠ "<xmlattr>") (h2 : name ≠ "<xmlcomment>") (e : List (String × List Char) × List XNode) :
    (treeOf e).child name = (firstElem name e.2).map treeOf := by
  unfold PTree.child treeOf PTree.children
  simp only [List.find?_append, find_attrEntry h1, Option.none_or]
  rw [find_entriesOf h2]
  simp [Function.comp_def, treeOf]

theorem readXml_treeOf (doc : List XNode) : readXml doc = treeOf ([], doc) := by
  simp [readXml, treeOf, attrEntry]

theorem firstElem_proper {name : String} : ∀ {body : List XNode} {e}, properDoc body → firstElem name body = some e → properDoc e.2
  | [], _, _, h => by simp [firstElem] at h
  | .text s :: rest, e, hp, h => firstElem_proper (by simpa [properDoc, XNode.proper] using hp) (by simpa [firstElem] using h)
  | .comment s :: rest, e, hp, h => firstElem_proper (by simpa [properDoc, XNode.proper] using hp) (by simpa [firstElem] using h)
  | .elem n as b :: rest, e, hp, h => by
    simp only [properDoc, XNode.proper] at hp
    simp only [firstElem] at h
    split at h
    · cases h; exact hp.1.2
    · exact firstElem_proper hp.2 h

theorem firstElem_attr : ∀ {body : List XNode}, properDoc body → firstElem "<xmlattr>" body = none
  | [], _ => rfl
  | .text s :: rest, hp => by simp only [firstElem]; exact firstElem_attr (by simpa [properDoc, XNode.proper] using hp)
  | .comment s :: rest, hp => by simp only [firstElem]; exact firstElem_attr (by simpa [properDoc, XNode.proper] using hp)
  | .elem n as b :: rest, hp => by
    simp only [properDoc, XNode.proper] at hp
    simp only [firstElem, if_neg hp.1.1]
    exact firstElem_attr hp.2

theorem find_attrs (k : String) : ∀ as : List (String × List Char),
    ((as.map (fun p => (p.1, PTree.node p.2 []))).find? (fun p => p.1 == k)).map Prod.snd = (as.lookup k).map (fun v => PTree.node v [])
  | [] => rfl
  | (n, v) :: rest => by
    simp only [List.map_cons, List.find?_cons, List.lookup_cons]
    by_cases h : n = k
    · subst h; simp
    · have h2 : (k == n) = false := by simp [Ne.symm h]
      have h3 : (n == k) = false := by simp [h]
      rw [h2, h3]
      exact find_attrs k rest

/-- An attribute of an element. -/
theorem walk_attr {e : List (String × List Char) × List XNode} (hp : properDoc e.2) (k : String) :
    (treeOf e).walk ["<xmlattr>", k] = (e.1.lookup k).map (fun v => PTree.node v []) := by
  obtain ⟨as, body⟩ := e
  simp only [PTree.walk]
  by_cases ha : as = []
  · subst ha
    have : (treeOf ([], body)).child "<xmlattr>" = none := by
      unfold PTree.child treeOf PTree.children attrEntry
      simp only [List.isEmpty_nil, if_true, List.nil_append]
      rw [find_entriesOf (by decide), firstElem_attr hp]
      rfl
    rw [this]; rfl
  · have : (treeOf (as, body)).child "<xmlattr>" = some (.node [] (as.map (fun p => (p.1, .node p.2 [])))) := by
      unfold PTree.child treeOf PTree.children attrEntry
      rw [if_neg (by simpa using ha)]
      simp
    rw [this]
    simp only [Option.bind_some]
    rw [PTree.child, PTree.children, find_attrs]
    cases List.lookup k as <;> rfl

/-- A name that the property tree does not reserve. -/
def Plain (n : String) : Prop := n ≠ "<xmlattr>" ∧ n ≠ "<xmlcomment>"

theorem walk_plain {k : String} (h : Plain k) (ks : List String) (e : List (String × List Char) × List XNode) :
    (treeOf e).walk (k :: ks) = (firstElem k e.2).bind (fun e' => (treeOf e').walk ks) := by
  simp only [PTree.walk, child_treeOf h.1 h.2]
  cases firstElem k e.2 <;> rfl

theorem walk_setting {doc : List XNode} (hp : properDoc doc) {sec name : String} (hs : Plain sec) (hn : Plain name) :
    (readXml doc).walk (valuePath sec name) = (setting doc sec name).map (fun v => PTree.node v []) := by
  rw [readXml_treeOf, valuePath, walk_plain ⟨by decide, by decide⟩]
  unfold setting sectionOf
  cases h1 : firstElem "openmps" doc with
  | none => rfl
  | some e1 =>
    simp only [Option.bind_some]
    rw [walk_plain hs]
    cases h2 : firstElem sec e1.2 with
    | none => rfl
    | some e2 =>
      simp only [Option.bind_some]
      rw [walk_plain hn]
      cases h3 : firstElem name e2.2 with
      | none => rfl
      | some e3 =>
        simp only [Option.bind_some]
        exact walk_attr (firstElem_proper (firstElem_proper (firstElem_proper hp h1) h2) h3) _

theorem walk_type {doc : List XNode} (hp : properDoc doc) :
    (readXml doc).walk ["openmps", "particles", "<xmlattr>", "type"] = (particlesType doc).map (fun v => PTree.node v []) := by
  rw [readXml_treeOf, walk_plain ⟨by decide, by decide⟩]
  unfold particlesType sectionOf
  cases h1 : firstElem "openmps" doc with
  | none => rfl
  | some e1 =>
    simp only [Option.bind_some]
    rw [walk_plain ⟨by decide, by decide⟩]
    cases h2 : firstElem "particles" e1.2 with
    | none => rfl
    | some e2 =>
      simp only [Option.bind_some]
      exact walk_attr (firstElem_proper (firstElem_proper hp h1) h2) _

theorem walk_particles (doc : List XNode) :
    (readXml doc).walk ["openmps", "particles"] = (sectionOf doc "particles").map treeOf := by
  rw [readXml_treeOf, walk_plain ⟨by decide, by decide⟩]
  unfold sectionOf
  cases h1 : firstElem "openmps" doc with
  | none => rfl
  | some e1 =>
    simp only [Option.bind_some]
    rw [walk_plain ⟨by decide, by decide⟩]
    cases h2 : firstElem "particles" e1.2 <;> rfl

/-- Reading a setting. -/
def readSetting {T : Type} (conv : List Char → Option T) (doc : List XNode) (sec name : String) : Except LoadErr T :=
  match (setting doc sec name).bind conv with
  | none => .error .thrown
  | some v => .ok v

theorem get_setting {T : Type} (conv : List Char → Option T) {doc : List XNode} (hp : properDoc doc) {sec name : String} (hs : Plain sec) (hn : Plain name) :
    (readXml doc).get conv (valuePath sec name) = readSetting conv doc sec name := by
  unfold PTree.get readSetting
  rw [walk_setting hp hs hn]
  cases setting doc sec name with
  | none => rfl
  | some t => simp only [Option.map_some, PTree.data, Option.bind_some]; rfl

/-- The text of the particles. -/
theorem loadCsv_doc {doc : List XNode} (hp : properDoc doc) :
    loadCsv (readXml doc) = match particlesType doc, particlesText doc with
      | none, _ => .error .undefined
      | some t, some s => if t = "csv".toList then .ok s else .error .thrown
      | some _, none => .error .thrown := by
  unfold loadCsv
  rw [walk_type hp, walk_particles]
  unfold particlesType particlesText
  cases sectionOf doc "particles" with
  | none => rfl
  | some s =>
    simp only [Option.bind_some, Option.map_some]
    cases List.lookup "type" s.1 with
    | none => rfl
    | some t => rw [← bodyText_chars]; rfl

section
variable {F : Type} [Scalar F]

theorem readSetting_ok {xc : XConv F} {doc : List XNode} {sec name : String} {v : F} :
    readSetting xc.num doc sec name = .ok v ↔ NumIs xc doc sec name v := by
  unfold readSetting NumIs
  cases setting doc sec name with
  | none => simp
  | some t =>
    simp only [Option.bind_some, Option.some.injEq, exists_eq_left']
    cases xc.num t <;> simp

theorem readSize_ok {xc : XConv F} {doc : List XNode} {m : Nat} :
    readSetting xc.size doc "environment" "minStepCountPerOutput" = .ok m ↔ StepsAre xc doc m := by
  unfold readSetting StepsAre
  cases setting doc "environment" "minStepCountPerOutput" with
  | none => simp
  | some t =>
    simp only [Option.bind_some, Option.some.injEq, exists_eq_left']
    cases xc.size t <;> simp

theorem readSetting_err {T : Type} {conv : List Char → Option T} {doc : List XNode} {sec name : String} {e : LoadErr}
    (h : readSetting conv doc sec name = .error e) : e = .thrown := by
  unfold readSetting at h
  split at h
  · cases h; rfl
  · cases h

/-- The reads of the condition in terms of the document. -/
theorem loadCondition_doc (cfg : Config) (xc : XConv F) {doc : List XNode} (hp : properDoc doc) :
    loadCondition cfg xc (readXml doc) = (do
      let startTime ← readSetting xc.num doc "condition" "startTime"
      let endTime ← readSetting xc.num doc "condition" "endTime"
      let outputInterval ← readSetting xc.num doc "condition" "outputInterval"
      let eps ← readIf (!cfg.explicit) (readSetting xc.num doc "condition" "eps")
      return { eps := eps, startTime := startTime, endTime := endTime, outputInterval := outputInterval }) := by
  have hc : Plain "condition" := ⟨by decide, by decide⟩
  unfold loadCondition
  rw [get_setting _ hp hc ⟨by decide, by decide⟩, get_setting _ hp hc ⟨by decide, by decide⟩, get_setting _ hp hc ⟨by decide, by decide⟩,
    get_setting _ hp hc ⟨by decide, by decide⟩]

theorem Plain.min {D : Nat} (a : Fin D) : Plain (minName D a) := by
  unfold minName Plain
  split
  · decide
  · split <;> decide

theorem Plain.max {D : Nat} (a : Fin D) : Plain (maxName D a) := by
  unfold maxName Plain
  split
  · decide
  · split <;> decide

theorem loadArgs_doc {D : Nat} (cfg : Config) (xc : XConv F) {doc : List XNode} (hp : properDoc doc) (I : F) :
    loadArgs (D := D) cfg xc (readXml doc) I = (do
      let l0 ← readSetting xc.num doc "environment" "l_0"
      let m ← readSetting xc.size doc "environment" "minStepCountPerOutput"
      let courant ← readSetting xc.num doc "environment" "courant"
      let g ← readSetting xc.num doc "environment" "g"
      let rho ← readSetting xc.num doc "environment" "rho"
      let nu ← readSetting xc.num doc "environment" "nu"
      let reByL0 ← readSetting xc.num doc "environment" "r_eByl_0"
      let surfaceRatio ← readIf (!cfg.spp) (readSetting xc.num doc "environment" "surfaceRatio")
      let c ← readIf cfg.explicit (readSetting xc.num doc "environment" "c")
      let minX ← vecGet (fun a : Fin D => readSetting xc.num doc "environment" (minName D a))
      let maxX ← vecGet (fun a : Fin D => readSetting xc.num doc "environment" (maxName D a))
      return ({ maxDt := I / Scalar.ofInt (m : Int), courant := courant, g := g, rho := rho, nu := nu, surfaceRatio := surfaceRatio,
                reByL0 := reByL0, c := c, l0 := l0, minX := minX, maxX := maxX }, m)) := by
  have hc : Plain "environment" := ⟨by decide, by decide⟩
  unfold loadArgs
  simp only [get_setting _ hp hc (Plain.min _), get_setting _ hp hc (Plain.max _)]
  rw [get_setting _ hp hc ⟨by decide, by decide⟩, get_setting _ hp hc ⟨by decide, by decide⟩, get_setting _ hp hc ⟨by decide, by decide⟩,
    get_setting _ hp hc ⟨by decide, by decide⟩, get_setting _ hp hc ⟨by decide, by decide⟩, get_setting _ hp hc ⟨by decide, by decide⟩,
    get_setting _ hp hc ⟨by decide, by decide⟩, get_setting _ hp hc ⟨by decide, by decide⟩, get_setting _ hp hc ⟨by decide, by decide⟩]

/-! ## The monad of the reads -/

theorem bind_ok {A B : Type} {x : Except LoadErr A} {f : A → Except LoadErr B} {b : B} (h : (x >>= f) = .ok b) : ∃ a, x = .ok a ∧ f a = .ok b := by
  cases x with
  | error e => cases h
  | ok a => exact ⟨a, rfl, h⟩

/-- Errors are exceptions. -/
def OnlyThrows {A : Type} (x : Except LoadErr A) : Prop := ∀ e, x = .error e → e = .thrown

theorem OnlyThrows.bind {A B : Type} {x : Except LoadErr A} {f : A → Except LoadErr B} (h1 : OnlyThrows x) (h2 : ∀ a, OnlyThrows (f a)) :
    OnlyThrows (x >>= f) := by
  intro e h
  cases x with
  | error e' => cases h; exact h1 _ rfl
  | ok a => exact h2 a e h

theorem OnlyThrows.ok {A : Type} (a : A) : OnlyThrows (.ok a) := fun _ h => by cases h

theorem OnlyThrows.read {T : Type} (conv : List Char → Option T) (doc : List XNode) (sec name : String) : OnlyThrows (readSetting conv doc sec name) :=
  fun _ h => readSetting_err h

theorem OnlyThrows.vec {T : Type} : ∀ {D : Nat} {f : Fin D → Except LoadErr T}, (∀ a, OnlyThrows (f a)) → OnlyThrows (vecGet f)
  | 0, _, _ => OnlyThrows.ok _
  | _ + 1, _, h => (h 0).bind fun _ => (OnlyThrows.vec fun a => h a.succ).bind fun _ => OnlyThrows.ok _

theorem OnlyThrows.readIf {A : Type} [Zero A] {b : Bool} {x : Except LoadErr A} (hx : OnlyThrows x) : OnlyThrows (readIf b x) := by
  unfold OpenMps.readIf
  split
  · exact hx
  · exact OnlyThrows.ok _

theorem vecGet_ok {T : Type} : ∀ {D : Nat} {f : Fin D → Except LoadErr T} {v : Fin D → T}, vecGet f = .ok v ↔ ∀ a, f a = .ok (v a)
  | 0, f, v => by
    constructor
    · intro _ a; exact a.elim0
    · intro _; simp only [vecGet]; congr 1; funext a; exact a.elim0
  | D + 1, f, v => by
    constructor
    · intro h
      simp only [vecGet] at h
      obtain ⟨x, h1, h2⟩ := bind_ok h
      obtain ⟨xs, h3, h4⟩ := bind_ok h2
      cases h4
      intro a
      refine Fin.cases ?_ (fun b => ?_) a
      · exact h1
      · exact vecGet_ok.1 h3 b
    · intro h
      have h3 : vecGet (fun a => f a.succ) = .ok (fun a => v a.succ) := vecGet_ok.2 (fun a => h a.succ)
      simp only [vecGet, h 0, h3]
      change Except.ok _ = _
      congr 1
      funext a
      refine Fin.cases rfl (fun b => rfl) a

theorem loadCondition_throws (cfg : Config) (xc : XConv F) {doc : List XNode} (hp : properDoc doc) : OnlyThrows (loadCondition cfg xc (readXml doc)) := by
  rw [loadCondition_doc cfg xc hp]
  refine .bind (.read _ _ _ _) fun _ => .bind (.read _ _ _ _) fun _ => .bind (.read _ _ _ _) fun _ => ?_
  exact .bind (.readIf (.read _ _ _ _)) fun _ => .ok _

theorem loadArgs_throws {D : Nat} (cfg : Config) (xc : XConv F) {doc : List XNode} (hp : properDoc doc) (I : F) :
    OnlyThrows (loadArgs (D := D) cfg xc (readXml doc) I) := by
  rw [loadArgs_doc cfg xc hp]
  refine .bind (.read _ _ _ _) fun _ => .bind (.read _ _ _ _) fun _ => .bind (.read _ _ _ _) fun _ => .bind (.read _ _ _ _) fun _ =>
    .bind (.read _ _ _ _) fun _ => .bind (.read _ _ _ _) fun _ => .bind (.read _ _ _ _) fun _ => ?_
  refine .bind (.readIf (.read _ _ _ _)) fun _ => .bind (.readIf (.read _ _ _ _)) fun _ => ?_
  exact .bind (.vec fun _ => .read _ _ _ _) fun _ => .bind (.vec fun _ => .read _ _ _ _) fun _ => .ok _

theorem axis_min {D : Nat} (hD : D = 2 ∨ D = 3) (a : Fin D) : ∃ n, (axisNames D)[a.val]? = some n ∧ minName D a = "min" ++ n ∧ maxName D a = "max" ++ n := by
  rcases hD with rfl | rfl
  · fin_cases a
    · exact ⟨"X", rfl, by decide, by decide⟩
    · exact ⟨"Z", rfl, by decide, by decide⟩
  · fin_cases a
    · exact ⟨"X", rfl, by decide, by decide⟩
    · exact ⟨"Y", rfl, by decide, by decide⟩
    · exact ⟨"Z", rfl, by decide, by decide⟩

/-- The program reads `cond`, `a` and `m` exactly when the file says so. -/
theorem loads_iff {D : Nat} (hD : D = 2 ∨ D = 3) (cfg : Config) (xc : XConv F) {doc : List XNode} (hp : properDoc doc) {cond : Condition F} {a : EnvArgs F D} {m : Nat} :
    (loadCondition cfg xc (readXml doc) = .ok cond ∧ loadArgs cfg xc (readXml doc) cond.outputInterval = .ok (a, m)) ↔ Configured cfg xc doc cond a m := by
  rw [loadCondition_doc cfg xc hp, loadArgs_doc cfg xc hp]
  constructor
  · rintro ⟨h1, h2⟩
    obtain ⟨v1, a1, h1⟩ := bind_ok h1
    obtain ⟨v2, a2, h1⟩ := bind_ok h1
    obtain ⟨v3, a3, h1⟩ := bind_ok h1
    obtain ⟨v4, a4, h1⟩ := bind_ok h1
    obtain ⟨w1, b1, h2⟩ := bind_ok h2
    obtain ⟨w2, b2, h2⟩ := bind_ok h2
    obtain ⟨w3, b3, h2⟩ := bind_ok h2
    obtain ⟨w4, b4, h2⟩ := bind_ok h2
    obtain ⟨w5, b5, h2⟩ := bind_ok h2
    obtain ⟨w6, b6, h2⟩ := bind_ok h2
    obtain ⟨w7, b7, h2⟩ := bind_ok h2
    obtain ⟨w8, b8, h2⟩ := bind_ok h2
    obtain ⟨w9, b9, h2⟩ := bind_ok h2
    obtain ⟨w10, b10, h2⟩ := bind_ok h2
    obtain ⟨w11, b11, h2⟩ := bind_ok h2
    cases h1
    cases h2
    refine { startTime := readSetting_ok.1 a1, endTime := readSetting_ok.1 a2, outputInterval := readSetting_ok.1 a3, eps := ?_, steps := readSize_ok.1 b2, maxDt := rfl, l0 := readSetting_ok.1 b1, courant := readSetting_ok.1 b3, g := readSetting_ok.1 b4, rho := readSetting_ok.1 b5, nu := readSetting_ok.1 b6, reByL0 := readSetting_ok.1 b7, surfaceRatio := ?_, c := ?_, minX := ?_, maxX := ?_ }
    · unfold readIf at a4
      cases he : cfg.explicit with
      | true => rw [he] at a4; cases a4; rfl
      | false => rw [he] at a4; exact readSetting_ok.1 a4
    · unfold readIf at b8
      cases he : cfg.spp with
      | true => rw [he] at b8; cases b8; rfl
      | false => rw [he] at b8; exact readSetting_ok.1 b8
    · unfold readIf at b9
      cases he : cfg.explicit with
      | true => rw [he] at b9; exact readSetting_ok.1 b9
      | false => rw [he] at b9; cases b9; rfl
    · intro i
      obtain ⟨n, hn, e1, e2⟩ := axis_min hD i
      exact ⟨n, hn, e1 ▸ readSetting_ok.1 (vecGet_ok.1 b10 i)⟩
    · intro i
      obtain ⟨n, hn, e1, e2⟩ := axis_min hD i
      exact ⟨n, hn, e2 ▸ readSetting_ok.1 (vecGet_ok.1 b11 i)⟩
  · intro h
    have e4 : readIf (!cfg.explicit) (readSetting xc.num doc "condition" "eps") = Except.ok (ε := LoadErr) cond.eps := by
      have h' := h.eps
      unfold readIf
      cases he : cfg.explicit with
      | true => rw [he] at h'; simp only [if_true] at h'; rw [h']; rfl
      | false => rw [he] at h'; exact readSetting_ok.2 h'
    have e8 : readIf (!cfg.spp) (readSetting xc.num doc "environment" "surfaceRatio") = Except.ok (ε := LoadErr) a.surfaceRatio := by
      have h' := h.surfaceRatio
      unfold readIf
      cases he : cfg.spp with
      | true => rw [he] at h'; simp only [if_true] at h'; rw [h']; rfl
      | false => rw [he] at h'; exact readSetting_ok.2 h'
    have e9 : readIf cfg.explicit (readSetting xc.num doc "environment" "c") = Except.ok (ε := LoadErr) a.c := by
      have h' := h.c
      unfold readIf
      cases he : cfg.explicit with
      | true => rw [he] at h'; exact readSetting_ok.2 h'
      | false => rw [he] at h'; simp only [Bool.false_eq_true, if_false] at h'; rw [h']; rfl
    have e10 : vecGet (fun i : Fin D => readSetting xc.num doc "environment" (minName D i)) = .ok a.minX := by
      refine vecGet_ok.2 fun i => readSetting_ok.2 ?_
      obtain ⟨n, hn, e1, e2⟩ := axis_min hD i
      obtain ⟨n', hn', h'⟩ := h.minX i
      rw [hn] at hn'; cases hn'
      rw [e1]; exact h'
    have e11 : vecGet (fun i : Fin D => readSetting xc.num doc "environment" (maxName D i)) = .ok a.maxX := by
      refine vecGet_ok.2 fun i => readSetting_ok.2 ?_
      obtain ⟨n, hn, e1, e2⟩ := axis_min hD i
      obtain ⟨n', hn', h'⟩ := h.maxX i
      rw [hn] at hn'; cases hn'
      rw [e2]; exact h'
    rw [e4, e8, e9, e10, e11, readSetting_ok.2 h.startTime, readSetting_ok.2 h.endTime, readSetting_ok.2 h.outputInterval, readSetting_ok.2 h.l0, readSize_ok.2 h.steps,
      readSetting_ok.2 h.courant, readSetting_ok.2 h.g, readSetting_ok.2 h.rho, readSetting_ok.2 h.nu, readSetting_ok.2 h.reByL0]
    refine ⟨rfl, ?_⟩
    change Except.ok _ = _
    congr 2
    cases a
    simp only at h ⊢
    congr
    exact h.maxDt.symm

/-- Enough is there exactly when some parameters are described. -/
theorem complete_iff {D : Nat} (hD : D = 2 ∨ D = 3) (cfg : Config) (xc : XConv F) (doc : List XNode) :
    Complete cfg D xc doc ↔ ∃ (cond : Condition F) (a : EnvArgs F D) (m : Nat), Configured cfg xc doc cond a m := by
  constructor
  · rintro ⟨h, m, hm⟩
    have hcond : ∀ n ∈ ["startTime", "endTime", "outputInterval"] ++ (if cfg.explicit then [] else ["eps"]), ∃ v, NumIs xc doc "condition" n v :=
      fun n hn => h ("condition", n) (List.mem_append_left _ (List.mem_map.2 ⟨n, hn, rfl⟩))
    have henv : ∀ n ∈ ["l_0", "courant", "g", "rho", "nu", "r_eByl_0"] ++ (if cfg.spp then [] else ["surfaceRatio"]) ++ (if cfg.explicit then ["c"] else []) ++
        (axisNames D).map (fun n => "min" ++ n) ++ (axisNames D).map (fun n => "max" ++ n), ∃ v, NumIs xc doc "environment" n v :=
      fun n hn => h ("environment", n) (List.mem_append_right _ (List.mem_map.2 ⟨n, hn, rfl⟩))
    obtain ⟨v1, a1⟩ := hcond "startTime" (by simp)
    obtain ⟨v2, a2⟩ := hcond "endTime" (by simp)
    obtain ⟨v3, a3⟩ := hcond "outputInterval" (by simp)
    obtain ⟨w1, b1⟩ := henv "l_0" (by simp)
    obtain ⟨w3, b3⟩ := henv "courant" (by simp)
    obtain ⟨w4, b4⟩ := henv "g" (by simp)
    obtain ⟨w5, b5⟩ := henv "rho" (by simp)
    obtain ⟨w6, b6⟩ := henv "nu" (by simp)
    obtain ⟨w7, b7⟩ := henv "r_eByl_0" (by simp)
    have h4 : ∃ v : F, if cfg.explicit then v = 0 else NumIs xc doc "condition" "eps" v := by
      cases he : cfg.explicit with
      | true => exact ⟨0, by simp⟩
      | false =>
        obtain ⟨v, hv⟩ := hcond "eps" (by simp [he])
        exact ⟨v, by simpa using hv⟩
    have h8 : ∃ v : F, if cfg.spp then v = 0 else NumIs xc doc "environment" "surfaceRatio" v := by
      cases he : cfg.spp with
      | true => exact ⟨0, by simp⟩
      | false =>
        obtain ⟨v, hv⟩ := henv "surfaceRatio" (by simp [he])
        exact ⟨v, by simpa using hv⟩
    have h9 : ∃ v : F, if cfg.explicit then NumIs xc doc "environment" "c" v else v = 0 := by
      cases he : cfg.explicit with
      | false => exact ⟨0, by simp⟩
      | true =>
        obtain ⟨v, hv⟩ := henv "c" (by simp [he])
        exact ⟨v, by simpa using hv⟩
    have hmin : ∀ i : Fin D, ∃ v : F, ∃ n, (axisNames D)[i.val]? = some n ∧ NumIs xc doc "environment" ("min" ++ n) v := by
      intro i
      obtain ⟨n, hn, -, -⟩ := axis_min hD i
      obtain ⟨v, hv⟩ := henv ("min" ++ n) (List.mem_append_left _ (List.mem_append_right _ (List.mem_map.2 ⟨n, List.mem_of_getElem? hn, rfl⟩)))
      exact ⟨v, n, hn, hv⟩
    have hmax : ∀ i : Fin D, ∃ v : F, ∃ n, (axisNames D)[i.val]? = some n ∧ NumIs xc doc "environment" ("max" ++ n) v := by
      intro i
      obtain ⟨n, hn, -, -⟩ := axis_min hD i
      obtain ⟨v, hv⟩ := henv ("max" ++ n) (List.mem_append_right _ (List.mem_map.2 ⟨n, List.mem_of_getElem? hn, rfl⟩))
      exact ⟨v, n, hn, hv⟩
    obtain ⟨v4, a4⟩ := h4
    obtain ⟨w8, b8⟩ := h8
    obtain ⟨w9, b9⟩ := h9
    choose lo hlo using hmin
    choose hi hhi using hmax
    exact ⟨{ eps := v4, startTime := v1, endTime := v2, outputInterval := v3 },
      { maxDt := v3 / Scalar.ofInt (m : Int), courant := w3, g := w4, rho := w5, nu := w6, surfaceRatio := w8, reByL0 := w7, c := w9, l0 := w1, minX := lo, maxX := hi }, m,
      { startTime := a1, endTime := a2, outputInterval := a3, eps := a4, steps := hm, maxDt := rfl, l0 := b1, courant := b3, g := b4, rho := b5, nu := b6, reByL0 := b7,
        surfaceRatio := b8, c := b9, minX := hlo, maxX := hhi }⟩
  · rintro ⟨cond, a, m, h⟩
    refine ⟨?_, m, h.steps⟩
    have hax : ∀ n ∈ axisNames D, ∃ i : Fin D, (axisNames D)[i.val]? = some n := by
      intro n hn
      obtain ⟨k, hk, e⟩ := List.getElem_of_mem hn
      have hl : (axisNames D).length = D := by rcases hD with rfl | rfl <;> rfl
      exact ⟨⟨k, hl ▸ hk⟩, by rw [← e]; exact List.getElem?_eq_getElem hk⟩
    intro p hpm
    unfold numericSettings at hpm
    rcases List.mem_append.1 hpm with h1 | h1
    · obtain ⟨n, hn, rfl⟩ := List.mem_map.1 h1
      simp only [List.mem_append, List.mem_cons, List.not_mem_nil, or_false] at hn
      rcases hn with (rfl | rfl | rfl) | hn
      · exact ⟨_, h.startTime⟩
      · exact ⟨_, h.endTime⟩
      · exact ⟨_, h.outputInterval⟩
      · split at hn
        · simp at hn
        · rename_i he
          have := h.eps
          rw [if_neg he] at this
          simp only [List.mem_cons, List.not_mem_nil, or_false] at hn
          subst hn
          exact ⟨_, this⟩
    · obtain ⟨n, hn, rfl⟩ := List.mem_map.1 h1
      simp only [List.mem_append] at hn
      rcases hn with (((hn | hn) | hn) | hn) | hn
      · simp only [List.mem_cons, List.not_mem_nil, or_false] at hn
        rcases hn with rfl | rfl | rfl | rfl | rfl | rfl
        · exact ⟨_, h.l0⟩
        · exact ⟨_, h.courant⟩
        · exact ⟨_, h.g⟩
        · exact ⟨_, h.rho⟩
        · exact ⟨_, h.nu⟩
        · exact ⟨_, h.reByL0⟩
      · split at hn
        · simp at hn
        · rename_i he
          have := h.surfaceRatio
          rw [if_neg he] at this
          simp only [List.mem_cons, List.not_mem_nil, or_false] at hn
          subst hn
          exact ⟨_, this⟩
      · split at hn
        · rename_i he
          have := h.c
          rw [if_pos he] at this
          simp only [List.mem_cons, List.not_mem_nil, or_false] at hn
          subst hn
          exact ⟨_, this⟩
        · simp at hn
      · obtain ⟨k, hk, rfl⟩ := List.mem_map.1 hn
        obtain ⟨i, hi⟩ := hax k hk
        obtain ⟨n', e, h'⟩ := h.minX i
        rw [hi] at e; cases e
        exact ⟨_, h'⟩
      · obtain ⟨k, hk, rfl⟩ := List.mem_map.1 hn
        obtain ⟨i, hi⟩ := hax k hk
        obtain ⟨n', e, h'⟩ := h.maxX i
        rw [hi] at e; cases e
        exact ⟨_, h'⟩

end

end OpenMps
