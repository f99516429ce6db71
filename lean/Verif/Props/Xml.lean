import Verif.Lemmas.Xml
import Verif.Props.MainExamples

/-! # C45: the XML configuration -/

namespace OpenMps

set_option linter.unusedSectionVars false

section
variable {F : Type} [Scalar F] {D : Nat}

/-- The program has got the document `doc` to read. -/
def Started (shell : Int) (args : List String) (files : String → Option (List XNode)) (doc : List XNode) : Prop :=
  0 ≤ shell ∧ ∃ name, inputFile args = some name ∧ files name = some doc

theorem programMain_started {cfg : Config} {xc : XConv F} {cv : Conv F} {pr : Printer F} {sch : Nat → Schedule} {shell : Int} {args : List String}
    {files : String → Option (List XNode)} {doc : List XNode} (h : Started shell args files doc) (fuel : Nat) :
    programMain D cfg xc cv pr sch shell args files fuel = mainFromXml D cfg xc cv pr sch (readXml doc) fuel := by
  obtain ⟨h1, name, h2, h3⟩ := h
  unfold programMain
  rw [if_neg (by omega)]
  simp only [h2, h3]

/-- **C45.** Which file is read: the sample if no argument is given, otherwise the first argument.  If it cannot be read, or the shell cannot be
started, the program is terminated without having written any file. -/
theorem C45_which_file {cfg : Config} {xc : XConv F} {cv : Conv F} {pr : Printer F} {sch : Nat → Schedule} {shell : Int} (self : String)
    {files : String → Option (List XNode)} (fuel : Nat) :
    (∀ (file : String) (rest : List String) (doc : List XNode), 0 ≤ shell → files file = some doc → Started shell (self :: file :: rest) files doc) ∧
    (∀ doc, 0 ≤ shell → files "../../Benchmark/Sample/Sample.xml" = some doc → Started shell [self] files doc) ∧
    (∀ (file : String) (rest : List String), files file = none ∨ shell < 0 →
      programMain D cfg xc cv pr sch shell (self :: file :: rest) files fuel = { outs := [], ending := .terminated }) := by
  refine ⟨fun file rest doc h1 h2 => ⟨h1, file, by simp [inputFile], h2⟩, fun doc h1 h2 => ⟨h1, _, by simp [inputFile], h2⟩, fun file rest h => ?_⟩
  unfold programMain
  by_cases hs : shell < 0
  · rw [if_pos hs]; rfl
  · rw [if_neg hs]
    have h1 : inputFile (self :: file :: rest) = some file := by simp [inputFile]
    rw [h1]
    simp only [h.resolve_right hs]
    rfl

/-- **C45.** The run is the one of the main program with the parameters that the file gives, each taken from the element of its own name, and
with the particles of the text of `<particles type="csv">`. -/
theorem C45_parameters_come_from_their_elements (hD : D = 2 ∨ D = 3) {cfg : Config} {xc : XConv F} {cv : Conv F} {pr : Printer F} {sch : Nat → Schedule}
    {shell : Int} {args : List String} {files : String → Option (List XNode)} {doc : List XNode} (hs : Started shell args files doc) (hp : properDoc doc)
    {cond : Condition F} {a : EnvArgs F D} {m : Nat} (hc : Configured cfg xc doc cond a m) {csv : List Char}
    (ht : particlesType doc = some "csv".toList) (hx : particlesText doc = some csv) (fuel : Nat) :
    programMain D cfg xc cv pr sch shell args files fuel = mainProgram cfg cv pr sch cond a m csv fuel := by
  rw [programMain_started hs]
  obtain ⟨h1, h2⟩ := (loads_iff hD cfg xc hp).2 hc
  unfold mainFromXml
  simp only [h1, h2]
  rw [loadCsv_doc hp, ht, hx]
  simp only [if_true]
  cases h3 : loadEnvironment cfg a m cond.outputInterval with
  | none => unfold mainProgram; simp only [h3]
  | some env => rfl

/-- **C45.** If a needed element is missing or not a number, the program is terminated without having written any file; otherwise the
parameters exist. -/
theorem C45_incomplete_files_are_refused (hD : D = 2 ∨ D = 3) {cfg : Config} {xc : XConv F} {cv : Conv F} {pr : Printer F} {sch : Nat → Schedule}
    {shell : Int} {args : List String} {files : String → Option (List XNode)} {doc : List XNode} (hs : Started shell args files doc) (hp : properDoc doc)
    (fuel : Nat) :
    (¬ Complete cfg D xc doc → programMain D cfg xc cv pr sch shell args files fuel = { outs := [], ending := .terminated }) ∧
    (Complete cfg D xc doc → ∃ (cond : Condition F) (a : EnvArgs F D) (m : Nat), Configured cfg xc doc cond a m) := by
  refine ⟨fun h => ?_, (complete_iff hD cfg xc doc).1⟩
  rw [programMain_started hs]
  unfold mainFromXml
  cases h1 : loadCondition cfg xc (readXml doc) with
  | error e => rw [loadCondition_throws cfg xc hp e h1]; rfl
  | ok cond =>
    simp only
    cases h2 : loadArgs (D := D) cfg xc (readXml doc) cond.outputInterval with
    | error e => rw [loadArgs_throws cfg xc hp _ e h2]; rfl
    | ok am => exact absurd ((complete_iff hD cfg xc doc).2 ⟨cond, am.1, am.2, (loads_iff hD cfg xc hp).1 ⟨h1, h2⟩⟩) h

/-- **C45.** Particles of another type are refused before any file is written.  A file without `<particles>` or without its attribute `type` makes the
behaviour undefined, although nothing has been written. -/
theorem C45_type_of_particles (hD : D = 2 ∨ D = 3) {cfg : Config} {xc : XConv F} {cv : Conv F} {pr : Printer F} {sch : Nat → Schedule}
    {shell : Int} {args : List String} {files : String → Option (List XNode)} {doc : List XNode} (hs : Started shell args files doc) (hp : properDoc doc)
    {cond : Condition F} {a : EnvArgs F D} {m : Nat} (hc : Configured cfg xc doc cond a m) (fuel : Nat) :
    (∀ t env, particlesType doc = some t → t ≠ "csv".toList → loadEnvironment cfg a m cond.outputInterval = some env →
      programMain D cfg xc cv pr sch shell args files fuel = { outs := [], ending := .terminated }) ∧
    (particlesType doc = none → programMain D cfg xc cv pr sch shell args files fuel = { outs := [], ending := .undefined }) := by
  obtain ⟨h1, h2⟩ := (loads_iff hD cfg xc hp).2 hc
  rw [programMain_started hs]
  unfold mainFromXml
  simp only [h1, h2]
  rw [loadCsv_doc hp]
  constructor
  · intro t env h3 h4 h5
    simp only [h3, h5]
    cases h6 : particlesText doc <;> simp only [h4, if_false] <;> rfl
  · intro h3
    simp only [h3]
    cases loadEnvironment cfg a m cond.outputInterval <;> rfl

/-- **C45.** Two files with the same values of the needed settings and the same particles give the same run, whatever else they contain and however they
are laid out. -/
theorem C45_only_the_settings_matter (hD : D = 2 ∨ D = 3) {cfg : Config} {xc : XConv F} {cv : Conv F} {pr : Printer F} {sch : Nat → Schedule}
    {shell shell' : Int} {args args' : List String} {files files' : String → Option (List XNode)} {doc doc' : List XNode}
    (hs : Started shell args files doc) (hs' : Started shell' args' files' doc') (hp : properDoc doc) (hp' : properDoc doc')
    (hnum : ∀ p ∈ numericSettings cfg D, setting doc p.1 p.2 = setting doc' p.1 p.2)
    (hsteps : setting doc "environment" "minStepCountPerOutput" = setting doc' "environment" "minStepCountPerOutput")
    (ht : particlesType doc = particlesType doc') (hx : particlesText doc = particlesText doc') (fuel : Nat) :
    programMain D cfg xc cv pr sch shell args files fuel = programMain D cfg xc cv pr sch shell' args' files' fuel := by
  have hnumIs : ∀ n ∈ numericSettings cfg D, ∀ v : F, NumIs xc doc n.1 n.2 v ↔ NumIs xc doc' n.1 n.2 v := by
    intro p hpm v
    unfold NumIs
    rw [hnum p hpm]
  have hcompl : Complete cfg D xc doc ↔ Complete cfg D xc doc' := by
    unfold Complete StepsAre
    rw [hsteps]
    refine and_congr ⟨fun h p hpm => ?_, fun h p hpm => ?_⟩ Iff.rfl
    · obtain ⟨v, hv⟩ := h p hpm; exact ⟨v, (hnumIs p hpm v).1 hv⟩
    · obtain ⟨v, hv⟩ := h p hpm; exact ⟨v, (hnumIs p hpm v).2 hv⟩
  by_cases hcm : Complete cfg D xc doc
  · have hcond : ∀ n ∈ ["startTime", "endTime", "outputInterval"] ++ (if cfg.explicit then [] else ["eps"]), ∀ v : F, NumIs xc doc "condition" n v ↔ NumIs xc doc' "condition" n v :=
      fun n hn => hnumIs ("condition", n) (List.mem_append_left _ (List.mem_map.2 ⟨n, hn, rfl⟩))
    have henv : ∀ n ∈ ["l_0", "courant", "g", "rho", "nu", "r_eByl_0"] ++ (if cfg.spp then [] else ["surfaceRatio"]) ++ (if cfg.explicit then ["c"] else []) ++
        (axisNames D).map (fun n => "min" ++ n) ++ (axisNames D).map (fun n => "max" ++ n), ∀ v : F, NumIs xc doc "environment" n v ↔ NumIs xc doc' "environment" n v :=
      fun n hn => hnumIs ("environment", n) (List.mem_append_right _ (List.mem_map.2 ⟨n, hn, rfl⟩))
    obtain ⟨cond, a, m, hc⟩ := (complete_iff hD cfg xc doc).1 hcm
    have hc' : Configured cfg xc doc' cond a m := by
      refine { startTime := (hcond _ (by simp) _).1 hc.startTime, endTime := (hcond _ (by simp) _).1 hc.endTime, outputInterval := (hcond _ (by simp) _).1 hc.outputInterval, eps := ?_, steps := ?_, maxDt := hc.maxDt, l0 := (henv _ (by simp) _).1 hc.l0, courant := (henv _ (by simp) _).1 hc.courant, g := (henv _ (by simp) _).1 hc.g, rho := (henv _ (by simp) _).1 hc.rho, nu := (henv _ (by simp) _).1 hc.nu, reByL0 := (henv _ (by simp) _).1 hc.reByL0, surfaceRatio := ?_, c := ?_, minX := ?_, maxX := ?_ }
      · have h := hc.eps
        split
        · rename_i he; rw [if_pos he] at h; exact h
        · rename_i he; rw [if_neg he] at h; exact (hcond _ (by simp [he]) _).1 h
      · have h := hc.steps
        unfold StepsAre at h ⊢
        rw [← hsteps]; exact h
      · have h := hc.surfaceRatio
        split
        · rename_i he; rw [if_pos he] at h; exact h
        · rename_i he; rw [if_neg he] at h; exact (henv _ (by simp [he]) _).1 h
      · have h := hc.c
        split
        · rename_i he; rw [if_pos he] at h; exact (henv _ (by simp [he]) _).1 h
        · rename_i he; rw [if_neg he] at h; exact h
      · intro i
        obtain ⟨n, hn, h⟩ := hc.minX i
        exact ⟨n, hn, (henv _ (List.mem_append_left _ (List.mem_append_right _ (List.mem_map.2 ⟨n, List.mem_of_getElem? hn, rfl⟩))) _).1 h⟩
      · intro i
        obtain ⟨n, hn, h⟩ := hc.maxX i
        exact ⟨n, hn, (henv _ (List.mem_append_right _ (List.mem_map.2 ⟨n, List.mem_of_getElem? hn, rfl⟩)) _).1 h⟩
    obtain ⟨h1, h2⟩ := (loads_iff hD cfg xc hp).2 hc
    obtain ⟨h1', h2'⟩ := (loads_iff hD cfg xc hp').2 hc'
    rw [programMain_started hs, programMain_started hs']
    unfold mainFromXml
    simp only [h1, h2, h1', h2']
    rw [loadCsv_doc hp, loadCsv_doc hp', ht, hx]
  · rw [(C45_incomplete_files_are_refused hD hs hp fuel).1 hcm, (C45_incomplete_files_are_refused hD hs' hp' fuel).1 (fun h => hcm (hcompl.2 h))]

end

theorem elemNames_perm {xs ys : List XNode} (h : xs.Perm ys) : (elemNames xs).Perm (elemNames ys) := by
  induction h with
  | nil => exact .nil
  | cons x _ ih => cases x <;> simp only [elemNames] <;> first | exact ih | exact ih.cons _
  | swap x y l =>
    cases x <;> cases y <;> simp only [elemNames] <;> first | exact List.Perm.refl _ | exact List.Perm.swap ..
  | trans _ _ ih1 ih2 => exact ih1.trans ih2

theorem firstElem_none {name : String} : ∀ {xs : List XNode}, name ∉ elemNames xs → firstElem name xs = none
  | [], _ => rfl
  | .text _ :: rest, h => by simp only [firstElem]; exact firstElem_none (by simpa [elemNames] using h)
  | .comment _ :: rest, h => by simp only [firstElem]; exact firstElem_none (by simpa [elemNames] using h)
  | .elem n _ _ :: rest, h => by
    simp only [elemNames, List.mem_cons, not_or] at h
    simp only [firstElem, if_neg (Ne.symm h.1)]
    exact firstElem_none h.2

theorem firstElem_perm {xs ys : List XNode} (h : xs.Perm ys) (hn : (elemNames xs).Nodup) (name : String) :
    firstElem name xs = firstElem name ys := by
  induction h with
  | nil => rfl
  | cons x _ ih =>
    cases x with
    | text s => exact ih hn
    | comment s => exact ih hn
    | elem n as b =>
      simp only [firstElem]
      split
      · rfl
      · exact ih (List.nodup_cons.1 hn).2
  | swap x y l =>
    cases x <;> cases y <;> simp only [firstElem]
    rename_i n1 as1 b1 n2 as2 b2
    by_cases h1 : n1 = name <;> by_cases h2 : n2 = name <;> simp only [h1, h2, if_true, if_false]
    simp only [elemNames] at hn
    exact absurd (by simp [h1, h2]) (List.nodup_cons.1 hn).1
  | trans h1 _ ih1 ih2 => exact (ih1 hn).trans (ih2 ((elemNames_perm h1).nodup_iff.1 hn))

theorem firstElem_mid {name sec : String} {as : List (String × List Char)} {xs ys : List XNode} :
    ∀ pre post : List XNode, (name ≠ sec → firstElem name (pre ++ .elem sec as xs :: post) = firstElem name (pre ++ .elem sec as ys :: post)) ∧
      (firstElem sec (pre ++ .elem sec as xs :: post) = firstElem sec (pre ++ .elem sec as ys :: post) ∨
        firstElem sec (pre ++ .elem sec as xs :: post) = some (as, xs) ∧ firstElem sec (pre ++ .elem sec as ys :: post) = some (as, ys))
  | [], post => ⟨fun h => by simp [firstElem, Ne.symm h], .inr (by simp [firstElem])⟩
  | .text _ :: pre, post => firstElem_mid pre post
  | .comment _ :: pre, post => firstElem_mid pre post
  | .elem n _ _ :: pre, post => by
    obtain ⟨h1, h2⟩ := firstElem_mid (name := name) (sec := sec) (as := as) (xs := xs) (ys := ys) pre post
    refine ⟨fun h => ?_, ?_⟩
    · simp only [List.cons_append, firstElem, h1 h]
    · simp only [List.cons_append, firstElem]
      split
      · exact .inl rfl
      · exact h2

theorem rearranged_setting {doc doc' : List XNode} (h : Rearranged doc doc') (sec name : String) :
    setting doc sec name = setting doc' sec name := by
  cases h with
  | sections as ss ss' hp hn =>
    simp only [setting, sectionOf, firstElem, if_true, Option.bind_some]
    rw [firstElem_perm hp hn]
  | inside as sec' as' pre post xs ys hsec hp hn =>
    simp only [setting, sectionOf, firstElem, if_true, Option.bind_some]
    obtain ⟨h1, h2⟩ := firstElem_mid (name := sec) (sec := sec') (as := as') (xs := xs) (ys := ys) pre post
    by_cases he : sec = sec'
    · subst he
      rcases h2 with h2 | ⟨h2, h3⟩
      · rw [h2]
      · rw [h2, h3]
        simp only [Option.bind_some]
        rw [firstElem_perm hp hn]
    · rw [h1 he]

theorem rearranged_particles {doc doc' : List XNode} (h : Rearranged doc doc') : sectionOf doc "particles" = sectionOf doc' "particles" := by
  cases h with
  | sections as ss ss' hp hn =>
    simp only [sectionOf, firstElem, if_true, Option.bind_some]
    exact firstElem_perm hp hn _
  | inside as sec' as' pre post xs ys hsec hp hn =>
    simp only [sectionOf, firstElem, if_true, Option.bind_some]
    exact (firstElem_mid (name := "particles") (sec := sec') (as := as') (xs := xs) (ys := ys) pre post).1 (Ne.symm hsec)

/-- **C45.** The order of the sections, and of the elements in a section, does not matter. -/
theorem C45_order_does_not_matter {F : Type} [Scalar F] {D : Nat} (hD : D = 2 ∨ D = 3) {cfg : Config} {xc : XConv F} {cv : Conv F} {pr : Printer F}
    {sch : Nat → Schedule} {shell : Int} {args : List String} {files files' : String → Option (List XNode)} {doc doc' : List XNode}
    (hs : Started shell args files doc) (hs' : Started shell args files' doc') (hp : properDoc doc) (hp' : properDoc doc') (h : Rearranged doc doc')
    (fuel : Nat) :
    programMain D cfg xc cv pr sch shell args files fuel = programMain D cfg xc cv pr sch shell args files' fuel := by
  refine C45_only_the_settings_matter hD hs hs' hp hp' (fun p _ => rearranged_setting h _ _) (rearranged_setting h _ _) ?_ ?_ fuel
  · unfold particlesType; rw [rearranged_particles h]
  · unfold particlesText; rw [rearranged_particles h]

/-! ## A concrete file -/

section
attribute [local instance] instScalarInt

def exXConv : XConv Int := ⟨unaryParse, fun t => (unaryParse t).map Int.toNat⟩

def exSetting (n v : String) : XNode := .elem n [("value", v.toList)] []

/-- Sections in an unusual order, a comment, unused elements. -/
def exDoc : List XNode :=
  [.comment "test".toList,
   .elem "openmps" []
    [.elem "particles" [("id", "3".toList), ("type", "csv".toList)] [.text exOne],
     .elem "environment" []
      [exSetting "maxZ" "+1111111111", exSetting "l_0" "+1", exSetting "minStepCountPerOutput" "+1", .comment "c".toList, exSetting "courant" "+1",
       exSetting "g" "+1", exSetting "rho" "+11", exSetting "nu" "+1", exSetting "r_eByl_0" "+111", exSetting "tooNearRatio" "half",
       exSetting "minX" "+", exSetting "minZ" "+", exSetting "maxX" "+1111111111"],
     .text "--> ".toList,
     .elem "condition" [] [exSetting "startTime" "+1", exSetting "eps" "+1", exSetting "endTime" "+111", exSetting "outputInterval" "+1", exSetting "outputInterval" "+11"]]]

def exFiles (name : String) : Option (List XNode) := if name = "in.xml" then some exDoc else none

def exXCond : Condition Int := { eps := 1, startTime := 1, endTime := 3, outputInterval := 1 }

def exXArgs : EnvArgs Int 2 :=
  { maxDt := 1, courant := 1, g := 1, rho := 2, nu := 1, surfaceRatio := 0, reByL0 := 3, c := 0, l0 := 1, minX := ![0, 0], maxX := ![10, 10] }

theorem exDoc_started : Started 0 ["openmps", "in.xml"] exFiles exDoc := ⟨by decide, "in.xml", by decide, by simp [exFiles]⟩

theorem exDoc_proper : properDoc exDoc := by
  simp [properDoc, exDoc, XNode.proper, exSetting]

theorem exDoc_configured : Configured Config.default exXConv exDoc exXCond exXArgs 1 where
  startTime := ⟨"+1".toList, by decide, by decide⟩
  endTime := ⟨"+111".toList, by decide, by decide⟩
  outputInterval := ⟨"+1".toList, by decide, by decide⟩
  eps := ⟨"+1".toList, by decide, by decide⟩
  steps := ⟨"+1".toList, by decide, by decide⟩
  maxDt := by decide
  l0 := ⟨"+1".toList, by decide, by decide⟩
  courant := ⟨"+1".toList, by decide, by decide⟩
  g := ⟨"+1".toList, by decide, by decide⟩
  rho := ⟨"+11".toList, by decide, by decide⟩
  nu := ⟨"+1".toList, by decide, by decide⟩
  reByL0 := ⟨"+111".toList, by decide, by decide⟩
  surfaceRatio := rfl
  c := rfl
  minX := by
    intro i
    fin_cases i
    · exact ⟨"X", rfl, "+".toList, by decide, by decide⟩
    · exact ⟨"Z", rfl, "+".toList, by decide, by decide⟩
  maxX := by
    intro i
    fin_cases i
    · exact ⟨"X", rfl, "+1111111111".toList, by decide, by decide⟩
    · exact ⟨"Z", rfl, "+1111111111".toList, by decide, by decide⟩

/-- The run of that file. -/
example (pr : Printer Int) (sch : Nat → Schedule) (fuel : Nat) :
    programMain 2 Config.default exXConv unaryConv pr sch 0 ["openmps", "in.xml"] exFiles fuel =
      mainProgram Config.default unaryConv pr sch exXCond exXArgs 1 exOne fuel :=
  C45_parameters_come_from_their_elements (.inl rfl) exDoc_started exDoc_proper exDoc_configured (by decide) (by decide) fuel

/-- It writes the files 1, 2, 3. -/
example : runIs (programMain 2 Config.default exXConv unaryConv unaryPrinter (fun _ => Schedule.serial 1) 0 ["openmps", "in.xml"] exFiles 3)
    (fun e => match e with | .finished => true | _ => false) [1, 2, 3] = true := by decide +kernel

/-- In 3-D (or without SPP) it is incomplete. -/
example : ¬ Complete Config.default 3 exXConv exDoc := by
  intro h
  obtain ⟨v, t, h1, -⟩ := h.1 ("environment", "minY") (by decide)
  exact absurd h1 (by simp [show setting exDoc "environment" "minY" = none by decide])

/-- `C45_order_does_not_matter` applies: the sections of the file the other way round. -/
example : ∃ doc', Rearranged exDoc.tail doc' ∧ doc' ≠ exDoc.tail ∧ properDoc doc' := by
  refine ⟨_, Rearranged.sections [] _ _ (List.reverse_perm _).symm (by decide), ?_, ?_⟩
  · intro h
    have h2 := congrArg (fun d => (firstElem "openmps" d).map (fun o => elemNames o.2)) h
    simp [exDoc, firstElem, elemNames] at h2
  · simp [properDoc, XNode.proper, exSetting]

end

end OpenMps
