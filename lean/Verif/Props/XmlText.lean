import Verif.Lemmas.XmlWrite
import Verif.Lemmas.XmlNumber
import Verif.Props.Benchmark

/-! # Property C70: XML files, character by character -/

set_option linter.unusedSectionVars false

namespace OpenMps

section
variable {F : Type} [Scalar F] {D : Nat}

theorem startedText_read {shell : Int} {args : List String} {files : String → Option (List Char)} {text : List Char} {doc : List XNode}
    (hs : StartedText shell args files text) (h : parseXml text = some doc) : Started shell args (fun name => (files name).bind parseXml) doc := by
  obtain ⟨h1, name, h2, h3⟩ := hs
  exact ⟨h1, name, h2, by simp only [h3, Option.bind_some, h]⟩

theorem started_same {cfg : Config} {xc : XConv F} {cv : Conv F} {pr : Printer F} {sch : Nat → Schedule} {shell shell' : Int} {args args' : List String}
    {docs docs' : String → Option (List XNode)} {doc : List XNode} (h : Started shell args docs doc) (h' : Started shell' args' docs' doc) (fuel : Nat) :
    programMain D cfg xc cv pr sch shell args docs fuel = programMain D cfg xc cv pr sch shell' args' docs' fuel := by
  rw [programMain_started h, programMain_started h']

theorem unreadable_text {cfg : Config} {xc : XConv F} {cv : Conv F} {pr : Printer F} {sch : Nat → Schedule} {shell : Int} {args : List String}
    {files : String → Option (List Char)} {text : List Char} (hs : StartedText shell args files text) (h : parseXml text = none) (fuel : Nat) :
    programFromFiles D cfg xc cv pr sch shell args files fuel = { outs := [], ending := .terminated } := by
  obtain ⟨h1, name, h2, h3⟩ := hs
  unfold programFromFiles programMain
  rw [if_neg (by omega)]
  simp only [h2, h3, Option.bind_some, h]
  rfl

/-- **C70.**  Every way of writing a document as an XML file, with or without byte order mark, gives the run of that document: white space, quotation marks,
references, comments between the elements, declarations and `CDATA` make no difference. -/
theorem C70_files_are_read_as_written {cfg : Config} {xc : XConv F} {cv : Conv F} {pr : Printer F} {sch : Nat → Schedule} {shell : Int} {args : List String}
    {files : String → Option (List Char)} {docs : String → Option (List XNode)} {doc : List XNode} {file text : List Char} (h : XmlFile doc file)
    (ht : text = file ∨ text = '\uFEFF' :: file) (hs : StartedText shell args files text) (hd : Started shell args docs doc) (fuel : Nat) :
    programFromFiles D cfg xc cv pr sch shell args files fuel = programMain D cfg xc cv pr sch shell args docs fuel := by
  obtain ⟨h1, h2⟩ := parseXml_spec h.sloppy
  refine started_same (startedText_read hs ?_) hd fuel
  rcases ht with rfl | rfl
  · exact h1
  · exact h2

/-- **C70.**  (Defect.)  The same holds if the end tags are wrong: their names are not compared with those of the start tags. -/
theorem C70_end_tags_are_not_compared {cfg : Config} {xc : XConv F} {cv : Conv F} {pr : Printer F} {sch : Nat → Schedule} {shell : Int} {args : List String}
    {files : String → Option (List Char)} {docs : String → Option (List XNode)} {doc : List XNode} {file : List Char} (h : SloppyXmlFile doc file)
    (hs : StartedText shell args files file) (hd : Started shell args docs doc) (fuel : Nat) :
    programFromFiles D cfg xc cv pr sch shell args files fuel = programMain D cfg xc cv pr sch shell args docs fuel :=
  started_same (startedText_read hs (parseXml_spec h).1) hd fuel

end

/-- **C70.**  A file is at most one document, even if end tags may be wrong. -/
theorem C70_a_file_is_one_document {doc doc' : List XNode} {file : List Char} (h : SloppyXmlFile doc file) (h' : SloppyXmlFile doc' file) : doc = doc' :=
  Option.some.inj ((parseXml_spec h).1.symm.trans (parseXml_spec h').1)

/-! ## Files that were not written to their end -/

theorem elemNames_append : ∀ (xs ys : List XNode), elemNames (xs ++ ys) = elemNames xs ++ elemNames ys
  | [], ys => rfl
  | .text _ :: xs, ys => by simp only [List.cons_append, elemNames]; exact elemNames_append xs ys
  | .comment _ :: xs, ys => by simp only [List.cons_append, elemNames]; exact elemNames_append xs ys
  | .elem _ _ _ :: xs, ys => by simp only [List.cons_append, elemNames]; rw [elemNames_append xs ys]

theorem firstElem_append_none {name : String} : ∀ (xs : List XNode) {ys : List XNode}, name ∉ elemNames ys → firstElem name (xs ++ ys) = firstElem name xs
  | [], ys, h => by rw [List.nil_append, firstElem_none h]; rfl
  | .text _ :: xs, ys, h => by simp only [List.cons_append, firstElem]; exact firstElem_append_none xs h
  | .comment _ :: xs, ys, h => by simp only [List.cons_append, firstElem]; exact firstElem_append_none xs h
  | .elem n _ _ :: xs, ys, h => by simp only [List.cons_append, firstElem]; rw [firstElem_append_none xs h]

theorem sectionOf_append {xs ys : List XNode} (h : "openmps" ∉ elemNames ys) (sec : String) : sectionOf (xs ++ ys) sec = sectionOf xs sec := by
  unfold sectionOf
  rw [firstElem_append_none xs h]

section
variable {F : Type} [Scalar F] {D : Nat}

/-- A document without `<openmps>` is refused. -/
theorem no_openmps (hD : D = 2 ∨ D = 3) {cfg : Config} {xc : XConv F} {cv : Conv F} {pr : Printer F} {sch : Nat → Schedule} {shell : Int} {args : List String}
    {docs : String → Option (List XNode)} {doc : List XNode} (hs : Started shell args docs doc) (hp : properDoc doc) (h : "openmps" ∉ elemNames doc) (fuel : Nat) :
    programMain D cfg xc cv pr sch shell args docs fuel = { outs := [], ending := .terminated } := by
  refine (C45_incomplete_files_are_refused hD hs hp fuel).1 ?_
  rintro ⟨-, m, t, ht, -⟩
  have : setting doc "environment" "minStepCountPerOutput" = none := by
    unfold setting sectionOf
    rw [firstElem_none h]
    rfl
  rw [this] at ht
  cases ht

/-- **C70.**  If the writing of a file was interrupted anywhere, the program either refuses what is there, before it has written anything, or it runs as with the
whole file.  It never runs with a part of the settings or of the particles. -/
theorem C70_interrupted_files_are_refused_or_complete (hD : D = 2 ∨ D = 3) {cfg : Config} {xc : XConv F} {cv : Conv F} {pr : Printer F} {sch : Nat → Schedule}
    {shell : Int} {args : List String} {files files' : String → Option (List Char)} {doc : List XNode} {file part : List Char} (h : SloppyXmlFile doc file)
    (ho : elemNames doc = ["openmps"]) (hp : part <+: file) (hs : StartedText shell args files file) (hs' : StartedText shell args files' part) (fuel : Nat) :
    programFromFiles D cfg xc cv pr sch shell args files' fuel = { outs := [], ending := .terminated } ∨
    programFromFiles D cfg xc cv pr sch shell args files' fuel = programFromFiles D cfg xc cv pr sch shell args files fuel := by
  have h1 := (parseXml_spec h).1
  cases h2 : parseXml part with
  | none => exact .inl (unreadable_text hs' h2 fuel)
  | some doc' =>
    obtain ⟨ys, rfl⟩ := parseXml_prefix hp h1 h2
    rw [elemNames_append] at ho
    by_cases hy : "openmps" ∈ elemNames ys
    · refine .inl (no_openmps hD (startedText_read hs' h2) (parseXml_proper h2) ?_ fuel)
      intro hx
      have hl := congrArg List.length ho
      rw [List.length_append] at hl
      have := List.length_pos_of_mem hx
      have := List.length_pos_of_mem hy
      simp only [List.length_cons, List.length_nil] at hl
      omega
    · refine .inr (C45_only_the_settings_matter hD (startedText_read hs' h2) (startedText_read hs h1) (parseXml_proper h2) (parseXml_proper h1) ?_ ?_ ?_ ?_ fuel)
      · intro p _
        unfold setting
        rw [sectionOf_append hy]
      · unfold setting
        rw [sectionOf_append hy]
      · unfold particlesType
        rw [sectionOf_append hy]
      · unfold particlesText
        rw [sectionOf_append hy]

theorem top_cut {E : List Char → List Char → Prop} (hE : ∀ n m, E n m → ∀ c ∈ m, isNodeName c = true) {n m t w w' b q u : List Char} {as : List (String × List Char)}
    {body : List XNode} (hn : NameText n) (ht : AttrsText as t) (hw : Blank w) (hb : Writes E true body b) (hm : E n m) (hw' : Blank w')
    (hq : q ++ u = n ++ t ++ w ++ ">".toList ++ b ++ "</".toList ++ m ++ w' ++ ">".toList) (hu : u ≠ []) : parseTop ('<' :: q).length ('<' :: q) = none := by
  set N := (q ++ u).length + 1 with hN
  have hfull : parseNode (parseContents N) (q ++ u) = some (some (.elem (String.ofList n) as body), []) := by
    have e : n ++ t ++ w ++ ">".toList ++ b ++ "</".toList ++ m ++ w' ++ ">".toList = n ++ (t ++ (w ++ '>' :: (b ++ '<' :: '/' :: (m ++ (w' ++ '>' :: []))))) := by simp
    rw [e] at hq
    obtain ⟨-, a2, a3⟩ := name_head (v := t ++ (w ++ '>' :: (b ++ '<' :: '/' :: (m ++ (w' ++ '>' :: []))))) hn
    rw [hq, parseNode_elem _ a2 a3, (element_open hn ht hw _ _).1]
    rw [hN, (writes_contents hE hb [] (hE _ _ hm) hw' (q ++ u).length (by rw [hq]; simp only [List.length_append, List.length_cons, List.length_nil]; omega)).1 rfl]
    rfl
  rw [List.length_cons, parseTop, skipBlank_id (stops_cons (by decide))]
  simp only
  cases h : parseNode (parseContents q.length) q with
  | none => rfl
  | some p =>
    obtain ⟨x, r⟩ := p
    have h' : parseNode (parseContents N) q = some (x, r) := by
      rw [← h]
      exact parseNode_congr (fun v hv => parseContents_fuel (by rw [hN, List.length_append]; omega) (by omega))
    have := parseNode_ext (parseContents_extends u N) h'
    rw [hfull] at this
    simp only [Option.some.injEq, Prod.mk.injEq] at this
    exact absurd (List.append_eq_nil_iff.1 this.2.symm).2 hu

/-- **C70.**  A file that ends with the end tag of its only element: if the last character or more is missing, the program refuses the file before it has
written anything. -/
theorem C70_a_file_without_its_end_is_refused (hD : D = 2 ∨ D = 3) {cfg : Config} {xc : XConv F} {cv : Conv F} {pr : Printer F} {sch : Nat → Schedule}
    {shell : Int} {args : List String} {files : String → Option (List Char)} {misc body : List XNode} {as : List (String × List Char)}
    {file part pre n t w b w' : List Char} (hpre : XmlFile misc pre) (hmisc : elemNames misc = []) (hn : NameText n) (ht : AttrsText as t) (hw : Blank w)
    (hb : Writes (fun n m => m = n) true body b) (hw' : Blank w')
    (hf : file = pre ++ "<".toList ++ n ++ t ++ w ++ ">".toList ++ b ++ "</".toList ++ n ++ w' ++ ">".toList) (h0 : '\x00' ∉ file)
    (hp : part <+: file) (hne : part ≠ file) (hs : StartedText shell args files part) (fuel : Nat) :
    programFromFiles D cfg xc cv pr sch shell args files fuel = { outs := [], ending := .terminated } := by
  have hE : ∀ n m : List Char, (fun n m => NameText n ∧ m = n) n m → ∀ c ∈ m, isNodeName c = true := by
    rintro n m ⟨h, rfl⟩; exact name_isNodeName h
  have hmono : ∀ {xs : List XNode} {t : List Char}, Writes (fun n m => m = n) true xs t → Writes (fun n m => NameText n ∧ m = n) true xs t :=
    fun h => writes_mono (fun n m hn hm => ⟨hn, hm⟩) h
  by_cases hlen : part.length ≤ pre.length
  · have hpp : part <+: pre := by
      refine List.prefix_of_prefix_length_le hp ?_ hlen
      rw [hf]
      simp only [List.append_assoc]
      exact List.prefix_append ..
    cases h2 : parseXml part with
    | none => exact unreadable_text hs h2 fuel
    | some doc' =>
      obtain ⟨ys, hy⟩ := parseXml_prefix hpp (parseXml_spec hpre.sloppy).1 h2
      refine no_openmps hD (startedText_read hs h2) (parseXml_proper h2) ?_ fuel
      rw [← hy, elemNames_append] at hmisc
      rw [(List.append_eq_nil_iff.1 hmisc).1]
      simp
  · refine unreadable_text hs ?_ fuel
    have h0p : '\x00' ∉ part := fun h => h0 (hp.subset h)
    obtain ⟨u, hu⟩ := hp
    have hpre' : pre <+: part := by
      refine List.prefix_of_prefix_length_le (l₃ := file) ?_ ⟨u, hu⟩ (by omega)
      rw [hf]
      simp only [List.append_assoc]
      exact List.prefix_append ..
    obtain ⟨q, hq⟩ := hpre'
    have hune : u ≠ [] := by rintro rfl; exact hne (by rw [← hu, List.append_nil])
    rw [← hq, hf] at hu
    simp only [List.append_assoc] at hu
    have hu2 := List.append_cancel_left hu
    cases q with
    | nil => rw [List.append_nil] at hq; rw [hq] at hlen; omega
    | cons c q =>
      have e1 : c = '<' ∧ q ++ u = n ++ t ++ w ++ ">".toList ++ b ++ "</".toList ++ n ++ w' ++ ">".toList := by
        rw [List.cons_append] at hu2
        change c :: (q ++ u) = '<' :: _ at hu2
        injection hu2 with h1 h2
        exact ⟨h1, by rw [h2]; simp⟩
      obtain ⟨rfl, e2⟩ := e1
      have hbom : part.head? ≠ some '\uFEFF' := by
        rw [← hq]
        cases hpr : pre with
        | nil => rw [List.nil_append, List.head?_cons]; decide
        | cons c' pre' =>
          have := writes_first hpre.1 hpre.2.1
          rw [hpr] at this
          simpa using this
      rw [parseXml_eq h0p hbom, ← hq, writes_top hE (hmono hpre.1) hpre.2.1 _ (stops_cons (by decide)) _ (le_refl _),
        top_cut hE hn ht hw (hmono hb) ⟨hn, rfl⟩ hw' e2 hune]
      rfl


/-! ## Files of the generators -/

/-- **C70.**  What `toprettyxml` writes for a tree is an XML file of that tree, so the program runs with that tree. -/
theorem C70_written_trees_are_read {cfg : Config} {xc : XConv F} {cv : Conv F} {pr : Printer F} {sch : Nat → Schedule} {shell : Int} {args : List String}
    {files : String → Option (List Char)} {docs : String → Option (List XNode)} {x : XNode} (hx : x.plain) (h0 : '\x00' ∉ toPrettyXml x)
    (hs : StartedText shell args files (toPrettyXml x)) (hd : Started shell args docs [x]) (fuel : Nat) :
    XmlFile [x] (toPrettyXml x) ∧
    programFromFiles D cfg xc cv pr sch shell args files fuel = programMain D cfg xc cv pr sch shell args docs fuel :=
  ⟨toPrettyXml_file hx h0, C70_files_are_read_as_written (toPrettyXml_file hx h0) (.inl rfl) hs hd fuel⟩

mutual
/-- The character `z` is nowhere in the node. -/
def XNode.without (z : Char) : XNode → Prop
  | .text s => z ∉ s
  | .comment s => z ∉ s
  | .elem n as body => z ∉ n.toList ∧ (∀ p ∈ as, z ∉ p.1.toList ∧ z ∉ p.2) ∧ withoutAll z body

def withoutAll (z : Char) : List XNode → Prop
  | [] => True
  | x :: xs => x.without z ∧ withoutAll z xs
end

theorem escapeText_without {s : List Char} (h : '\x00' ∉ s) : '\x00' ∉ escapeText s := by
  intro hm
  obtain ⟨c, hc, hz⟩ := List.mem_flatMap.1 hm
  have hcz : c ≠ '\x00' := by rintro rfl; exact h hc
  unfold escapeChar at hz
  split at hz
  · exact absurd hz (by decide)
  split at hz
  · exact absurd hz (by decide)
  split at hz
  · exact absurd hz (by decide)
  split at hz
  · exact absurd hz (by decide)
  · simp only [List.mem_singleton] at hz; exact hcz hz.symm

theorem writeAttrs_without {as : List (String × List Char)} (h : ∀ p ∈ as, '\x00' ∉ p.1.toList ∧ '\x00' ∉ p.2) : '\x00' ∉ writeAttrs as := by
  intro hm
  obtain ⟨p, hp, hz⟩ := List.mem_flatMap.1 hm
  obtain ⟨h1, h2⟩ := h p hp
  simp only [List.mem_append, List.mem_cons, List.cons_append] at hz
  rcases hz with hz | ((hz | hz) | hz) | hz | hz
  · exact absurd hz (by decide)
  · exact h1 hz
  · exact absurd hz (by decide)
  · exact escapeText_without h2 hz
  · exact absurd hz (by decide)
  · cases hz

theorem tabs_without (d : Nat) : '\x00' ∉ List.replicate d '\t' := fun h => absurd (List.eq_of_mem_replicate h) (by decide)

mutual
theorem writeNode_without : ∀ (x : XNode) (d : Nat), x.without '\x00' → '\x00' ∉ writeNode d x
  | .text s, d, h => by
    simp only [XNode.without] at h
    simp only [writeNode, List.mem_append, not_or]
    exact ⟨⟨tabs_without d, escapeText_without h⟩, by decide⟩
  | .comment s, d, h => by
    simp only [XNode.without] at h
    simp only [writeNode, List.mem_append, not_or]
    exact ⟨⟨⟨tabs_without d, by decide⟩, h⟩, by decide⟩
  | .elem name as body, d, h => by
    simp only [XNode.without] at h
    obtain ⟨h1, h2, h3⟩ := h
    by_cases hb : body = []
    · subst hb
      simp only [writeNode, List.mem_append, List.mem_cons, not_or]
      exact ⟨⟨⟨tabs_without d, by decide, h1⟩, writeAttrs_without h2⟩, by decide⟩
    · by_cases ht : ∃ s, body = [.text s]
      · obtain ⟨s, rfl⟩ := ht
        simp only [withoutAll, XNode.without, and_true] at h3
        simp only [writeNode, List.mem_append, List.mem_cons, not_or]
        exact ⟨⟨⟨⟨⟨⟨tabs_without d, by decide, h1⟩, writeAttrs_without h2⟩, by decide, escapeText_without h3⟩, by decide⟩, h1⟩, by decide⟩
      · rw [writeNode_block hb (fun s hs => ht ⟨s, hs⟩)]
        simp only [List.mem_append, List.mem_cons, not_or]
        exact ⟨⟨⟨⟨⟨⟨⟨⟨tabs_without d, by decide, h1⟩, writeAttrs_without h2⟩, by decide⟩, writeNodes_without body (d + 1) h3⟩, tabs_without d⟩, by decide⟩, h1⟩, by decide⟩
theorem writeNodes_without : ∀ (xs : List XNode) (d : Nat), withoutAll '\x00' xs → '\x00' ∉ writeNodes d xs
  | [], d, _ => by simp [writeNodes]
  | x :: xs, d, h => by
    simp only [withoutAll] at h
    simp only [writeNodes, List.mem_append, not_or]
    exact ⟨writeNode_without x d h.1, writeNodes_without xs d h.2⟩
end


theorem benchTree_sections (pr : Printer F) (b : BenchParams F) (sites : List Site) :
    sectionOf [benchTree pr b sites] "condition" = some ([], (condEntries pr b).map (fun p => valueElem p.1 p.2)) ∧
    sectionOf [benchTree pr b sites] "environment" = some ([], (envEntries pr b).map (fun p => valueElem p.1 p.2)) ∧
    sectionOf [benchTree pr b sites] "particles" = some ([("type", "csv".toList)], [.text (siteCsv pr b.l0 sites)]) := by
  refine ⟨rfl, rfl, rfl⟩

theorem firstElem_plainValues (name : String) : ∀ (kv : List (String × List Char)),
    firstElem name (kv.map (fun p => valueElem p.1 p.2)) = (kv.lookup name).map (fun t => ([("value", t)], []))
  | [] => by simp [firstElem]
  | (k, t) :: kv => by
    simp only [List.map_cons, firstElem, valueElem, List.lookup]
    by_cases h : k = name
    · subst h; simp
    · rw [if_neg h, beq_eq_false_iff_ne.mpr (Ne.symm h)]
      exact firstElem_plainValues name kv

/-- The tree has the settings of the document with the white space of `toprettyxml`. -/
theorem benchTree_settings (pr : Printer F) (b : BenchParams F) (sites : List Site) :
    (∀ name, setting [benchTree pr b sites] "condition" name = setting (benchDoc pr b sites) "condition" name) ∧
    (∀ name, setting [benchTree pr b sites] "environment" name = setting (benchDoc pr b sites) "environment" name) ∧
    sectionOf [benchTree pr b sites] "particles" = sectionOf (benchDoc pr b sites) "particles" := by
  obtain ⟨h1, h2, h3⟩ := benchTree_sections pr b sites
  obtain ⟨g1, g2, g3⟩ := bench_sections pr b sites
  refine ⟨fun name => ?_, fun name => ?_, h3.trans g3.symm⟩
  · unfold setting
    rw [h1, g1, Option.bind_some, Option.bind_some, firstElem_values, firstElem_plainValues]
  · unfold setting
    rw [h2, g2, Option.bind_some, Option.bind_some, firstElem_values, firstElem_plainValues]

theorem nameText_check {n : List Char} (h : n ≠ [] ∧ ∀ c ∈ n, c ∉ [' ', '\n', '\r', '\t', '/', '<', '>', '=', '?', '!', '&', '\'', '"']) : NameText n :=
  ⟨h.1, by rw [nameText_chars]; exact h.2⟩

theorem siteCsv_not_blank (pr : Printer F) (l0 : F) (sites : List Site) : ¬ Blank (siteCsv pr l0 sites) := by
  intro h
  have := h 'T' (List.mem_append_left _ (by decide))
  exact absurd this (by decide)

theorem valueElem_plain {k : String} (hk : NameText k.toList) (t : List Char) : (valueElem k t).plain := by
  simp only [valueElem, XNode.plain, plainAll, or_true, and_true]
  refine ⟨hk, ?_⟩
  intro p hp
  simp only [List.mem_singleton] at hp
  subst hp
  show NameText "value".toList
  exact nameText_check (by decide)

theorem benchTree_plain (pr : Printer F) (b : BenchParams F) (sites : List Site) : (benchTree pr b sites).plain := by
  have hv : ∀ (k : String) (t : List Char), (k.toList ≠ [] ∧ ∀ c ∈ k.toList, c ∉ [' ', '\n', '\r', '\t', '/', '<', '>', '=', '?', '!', '&', '\'', '"']) → (valueElem k t).plain :=
    fun k t h => valueElem_plain (nameText_check h) t
  unfold benchTree
  simp only [XNode.plain, plainAll]
  refine ⟨nameText_check (by decide), by simp, .inr ⟨⟨nameText_check (by decide), by simp, .inr ?_⟩, ⟨nameText_check (by decide), by simp, .inr ?_⟩,
    ⟨nameText_check (by decide), ?_, .inl ⟨_, rfl, siteCsv_not_blank pr b.l0 sites⟩⟩, trivial⟩⟩
  · refine ⟨?_, ?_, ?_, ?_, trivial⟩ <;> exact hv _ _ (by decide)
  · refine ⟨?_, ?_, ?_, ?_, ?_, ?_, ?_, ?_, ?_, ?_, ?_, ?_, trivial⟩ <;> exact hv _ _ (by decide)
  · intro p hp
    simp only [List.mem_singleton] at hp
    subst hp
    exact nameText_check (by decide)

theorem benchTree_without {pr : Printer F} (h1 : ∀ v, '\x00' ∉ pr.num v) (h2 : ∀ k, '\x00' ∉ pr.int k) (b : BenchParams F) (sites : List Site) :
    (benchTree pr b sites).without '\x00' := by
  have hv : ∀ (k : String) (t : List Char), '\x00' ∉ k.toList → '\x00' ∉ t → (valueElem k t).without '\x00' := by
    intro k t hk ht
    simp only [valueElem, XNode.without, withoutAll, and_true]
    refine ⟨hk, ?_⟩
    intro p hp
    simp only [List.mem_singleton] at hp
    subst hp
    exact ⟨show '\x00' ∉ "value".toList by decide, ht⟩
  have hcsv : '\x00' ∉ siteCsv pr b.l0 sites := by
    unfold siteCsv
    simp only [List.mem_append, not_or]
    refine ⟨by decide, ?_⟩
    intro hm
    obtain ⟨s, -, hz⟩ := List.mem_flatMap.1 hm
    simp only [siteLine, List.mem_append] at hz
    rcases hz with ((((hz | hz) | hz) | hz) | hz) | hz
    · exact h2 _ hz
    · exact absurd hz (by decide)
    · exact h1 _ hz
    · exact absurd hz (by decide)
    · exact h1 _ hz
    · exact absurd hz (by decide)
  unfold benchTree
  simp only [XNode.without, withoutAll]
  refine ⟨by decide, by simp, ⟨by decide, by simp, ?_⟩, ⟨by decide, by simp, ?_⟩, ⟨by decide, ?_, hcsv, trivial⟩, trivial⟩
  · refine ⟨?_, ?_, ?_, ?_, trivial⟩ <;> exact hv _ _ (by decide) (h1 _)
  · exact ⟨hv _ _ (by decide) (h1 _), hv _ _ (by decide) (h2 _), hv _ _ (by decide) (h1 _), hv _ _ (by decide) (h1 _), hv _ _ (by decide) (h1 _),
      hv _ _ (by decide) (h1 _), hv _ _ (by decide) (h1 _), hv _ _ (by decide) (h1 _), hv _ _ (by decide) (h1 _), hv _ _ (by decide) (h1 _),
      hv _ _ (by decide) (h1 _), hv _ _ (by decide) (h1 _), trivial⟩
  · intro p hp
    simp only [List.mem_singleton] at hp
    subst hp
    exact ⟨by decide, by decide⟩

/-- **C70.**  The file `test.xml` that a generator writes, character by character, is an XML file, and the program runs with the constants of the generator from
exactly the listed particles. -/
theorem C70_generated_files_are_read {pr pr' : Printer F} {xc : XConv F} {cv : Conv F} {b : BenchParams F} {sites : List Site}
    (h : ReadsBack pr xc cv b sites) (h1 : ∀ v, '\x00' ∉ pr.num v) (h2 : ∀ k, '\x00' ∉ pr.int k) (hty : ∀ s ∈ sites, 0 ≤ s.number ∧ s.number ≤ 2) {cfg : Config}
    (hx : cfg.explicit = false) {sch : Nat → Schedule} {shell : Int} {args : List String} {files : String → Option (List Char)}
    (hs : StartedText shell args files (benchFile pr b sites)) (fuel : Nat) {env : Env F 2} {s0 : State F 2 Unit}
    (hmk : Env.mk? cfg (b.args cfg) = some env) (hnew : State.new? env () = some s0) :
    XmlFile [benchTree pr b sites] (benchFile pr b sites) ∧
    programFromFiles 2 cfg xc cv pr' sch shell args files fuel =
      runLoop { cfg := cfg, eps := b.eps, walls := mainWalls (sites.map (Site.particle b.l0)) } sch pr' b.condition fuel
        (s0.addParticles (sites.map (Site.particle b.l0))) := by
  have h0 : '\x00' ∉ toPrettyXml (benchTree pr b sites) := by
    unfold toPrettyXml
    simp only [List.mem_append, not_or]
    exact ⟨by decide, writeNode_without _ 0 (benchTree_without h1 h2 b sites)⟩
  have hfile := toPrettyXml_file (benchTree_plain pr b sites) h0
  refine ⟨hfile, ?_⟩
  have hread := (parseXml_spec hfile.sloppy).1
  obtain ⟨hsh, name, hname, -⟩ := id hs
  let docs : String → Option (List XNode) := fun _ => some (benchDoc pr b sites)
  have hd : Started shell args docs (benchDoc pr b sites) := ⟨hsh, name, hname, rfl⟩
  rw [← C67_benchmark_files_are_read h hty hx hd fuel hmk hnew (pr' := pr')]
  obtain ⟨s1, s2, s3⟩ := benchTree_settings pr b sites
  refine C45_only_the_settings_matter (.inl rfl) (startedText_read hs hread) hd (parseXml_proper hread) (bench_proper pr b sites) ?_ (s2 _) ?_ ?_ fuel
  · intro p hp
    simp only [numericSettings, List.mem_append, List.mem_map] at hp
    rcases hp with ⟨n, -, rfl⟩ | ⟨n, -, rfl⟩
    · exact s1 n
    · exact s2 n
  · unfold particlesType; rw [s3]
  · unfold particlesText; rw [s3]

end

/-! ## Numbers in the settings -/

section
variable {K : Type} [Field K] [LinearOrder K] [IsStrictOrderedRing K] [FloorRing K]

/-- **C70.**  A setting is a number if and only if it is a decimal number with nothing but white space around it (in the particles' table, in contrast, whatever follows
the number is ignored). -/
theorem C70_numbers_in_settings (st : Strtod K) (t : List Char) (v : K) :
    (libXConv st).num t = some v ↔
      ∃ w s w' x, t = w ++ s ++ w' ∧ Spaces w ∧ Spaces w' ∧ NumberText s x ∧ st.inRange x = true ∧ v = st.rd x :=
  ptreeDouble_iff st t v

/-- **C70.**  The number of steps is a whole number with nothing but white space around it and less than 2^64.  (Hazard.)  A minus sign is accepted; the number is then
counted down from 2^64. -/
theorem C70_number_of_steps (st : Strtod K) (t : List Char) (m : Nat) :
    (libXConv st).size t = some m ↔
      ∃ w s w' neg n, t = w ++ s ++ w' ∧ Spaces w ∧ Spaces w' ∧ WholeText s neg n ∧ n < 2 ^ 64 ∧ m = if neg then (2 ^ 64 - n) % 2 ^ 64 else n :=
  ptreeSize_iff t m

end

/-- **C70.**  If the value of a needed setting in the file is not such a number (unit or decimal comma behind it, empty, out of range), the program is terminated before it
has written anything. -/
theorem C70_malformed_settings_stop_the_program {D : Nat} (hD : D = 2 ∨ D = 3) {cfg : Config} (st : Strtod ℝ) {cv : Conv ℝ} {pr : Printer ℝ} {sch : Nat → Schedule}
    {shell : Int} {args : List String} {files : String → Option (List Char)} {doc : List XNode} {file : List Char} (h : XmlFile doc file)
    (hs : StartedText shell args files file) {sec name : String} (hn : (sec, name) ∈ numericSettings cfg D) {t : List Char} (ht : setting doc sec name = some t)
    (hbad : ∀ w s w' x, t = w ++ s ++ w' → Spaces w → Spaces w' → NumberText s x → st.inRange x = false) (fuel : Nat) :
    programFromFiles D cfg (libXConv st) cv pr sch shell args files fuel = { outs := [], ending := .terminated } := by
  have hread := (parseXml_spec h.sloppy).1
  refine (C45_incomplete_files_are_refused hD (startedText_read hs hread) (parseXml_proper hread) fuel).1 ?_
  rintro ⟨hall, -⟩
  obtain ⟨v, t', h1, h2⟩ := hall _ hn
  rw [ht] at h1
  cases h1
  obtain ⟨w, s, w', x, e, hw, hw', hx, hr, -⟩ := (C70_numbers_in_settings st t v).1 h2
  rw [hbad w s w' x e hw hw' hx] at hr
  cases hr

end OpenMps
