import Verif.Spec.Benchmark
import Verif.Lemmas.Benchmark
import Verif.Props.Xml

/-! # Property C67, files -/

set_option linter.unusedSectionVars false
set_option linter.unusedSimpArgs false

namespace OpenMps

section
variable {F : Type} [Scalar F]

theorem bench_proper (pr : Printer F) (b : BenchParams F) (sites : List Site) : properDoc (benchDoc pr b sites) := by
  simp [properDoc, benchDoc, XNode.proper, pretty, valueElem]

theorem firstElem_values (name : String) : ∀ (kv : List (String × List Char)) (d : Nat),
    firstElem name (pretty d (kv.map (fun p => valueElem p.1 p.2))) = (kv.lookup name).map (fun t => ([("value", t)], []))
  | [], d => by simp [pretty, firstElem]
  | (k, t) :: kv, d => by
    have ih := firstElem_values name kv d
    unfold pretty at ih ⊢
    simp only [List.map_cons, List.flatMap_cons, List.cons_append, List.nil_append, firstElem, valueElem, List.lookup]
    by_cases h : k = name
    · subst h; simp
    · rw [if_neg h, beq_eq_false_iff_ne.mpr (Ne.symm h)]
      exact ih

/-- The entries of `condition`. -/
def condEntries (pr : Printer F) (b : BenchParams F) : List (String × List Char) :=
  [("startTime", pr.num b.startTime), ("endTime", pr.num b.endTime), ("outputInterval", pr.num b.outputInterval), ("eps", pr.num b.eps)]

/-- The entries of `environment`. -/
def envEntries (pr : Printer F) (b : BenchParams F) : List (String × List Char) :=
  [("l_0", pr.num b.l0), ("minStepCountPerOutput", pr.int b.steps), ("courant", pr.num b.courant),
   ("g", pr.num b.g), ("rho", pr.num b.rho), ("nu", pr.num b.nu), ("r_eByl_0", pr.num b.reByL0), ("surfaceRatio", pr.num b.surfaceRatio),
   ("minX", pr.num (b.lo 0)), ("minZ", pr.num (b.lo 1)), ("maxX", pr.num (b.hi 0)), ("maxZ", pr.num (b.hi 1))]

theorem bench_sections (pr : Printer F) (b : BenchParams F) (sites : List Site) :
    sectionOf (benchDoc pr b sites) "condition" = some ([], pretty 2 ((condEntries pr b).map (fun p => valueElem p.1 p.2))) ∧
    sectionOf (benchDoc pr b sites) "environment" = some ([], pretty 2 ((envEntries pr b).map (fun p => valueElem p.1 p.2))) ∧
    sectionOf (benchDoc pr b sites) "particles" = some ([("type", "csv".toList)], [.text (siteCsv pr b.l0 sites)]) := by
  refine ⟨rfl, rfl, rfl⟩

theorem bench_condition (pr : Printer F) (b : BenchParams F) (sites : List Site) (name : String) :
    setting (benchDoc pr b sites) "condition" name = (condEntries pr b).lookup name := by
  unfold setting
  rw [(bench_sections pr b sites).1, Option.bind_some, firstElem_values]
  cases (condEntries pr b).lookup name <;> simp [List.lookup]

theorem bench_environment (pr : Printer F) (b : BenchParams F) (sites : List Site) (name : String) :
    setting (benchDoc pr b sites) "environment" name = (envEntries pr b).lookup name := by
  unfold setting
  rw [(bench_sections pr b sites).2.1, Option.bind_some, firstElem_values]
  cases (envEntries pr b).lookup name <;> simp [List.lookup]

theorem bench_particles (pr : Printer F) (b : BenchParams F) (sites : List Site) :
    particlesType (benchDoc pr b sites) = some "csv".toList ∧ particlesText (benchDoc pr b sites) = some (siteCsv pr b.l0 sites) := by
  unfold particlesType particlesText
  rw [(bench_sections pr b sites).2.2]
  simp [List.lookup, XNode.chars]

theorem bench_configured {pr : Printer F} {xc : XConv F} {cv : Conv F} {b : BenchParams F} {sites : List Site} (h : ReadsBack pr xc cv b sites)
    {cfg : Config} (hx : cfg.explicit = false) : Configured cfg xc (benchDoc pr b sites) b.condition (b.args cfg) b.steps where
  startTime := ⟨_, bench_condition pr b sites _, h.num _ (by simp [BenchParams.numbers, BenchParams.condition])⟩
  endTime := ⟨_, bench_condition pr b sites _, h.num _ (by simp [BenchParams.numbers, BenchParams.condition])⟩
  outputInterval := ⟨_, bench_condition pr b sites _, h.num _ (by simp [BenchParams.numbers, BenchParams.condition])⟩
  eps := by
    rw [if_neg (by rw [hx]; decide)]
    exact ⟨_, bench_condition pr b sites _, h.num _ (by simp [BenchParams.numbers, BenchParams.condition])⟩
  steps := ⟨_, bench_environment pr b sites _, h.size⟩
  maxDt := rfl
  l0 := ⟨_, bench_environment pr b sites _, h.num _ (by simp [BenchParams.numbers, BenchParams.args])⟩
  courant := ⟨_, bench_environment pr b sites _, h.num _ (by simp [BenchParams.numbers, BenchParams.args])⟩
  g := ⟨_, bench_environment pr b sites _, h.num _ (by simp [BenchParams.numbers, BenchParams.args])⟩
  rho := ⟨_, bench_environment pr b sites _, h.num _ (by simp [BenchParams.numbers, BenchParams.args])⟩
  nu := ⟨_, bench_environment pr b sites _, h.num _ (by simp [BenchParams.numbers, BenchParams.args])⟩
  reByL0 := ⟨_, bench_environment pr b sites _, h.num _ (by simp [BenchParams.numbers, BenchParams.args])⟩
  surfaceRatio := by
    unfold BenchParams.args
    split
    · rfl
    · exact ⟨_, bench_environment pr b sites _, h.num _ (by simp [BenchParams.numbers])⟩
  c := by rw [if_neg (by rw [hx]; decide)]; rfl
  minX := fun i => by
    match i with
    | 0 => exact ⟨"X", rfl, _, bench_environment pr b sites "minX", h.num _ (by simp [BenchParams.numbers, BenchParams.args])⟩
    | 1 => exact ⟨"Z", rfl, _, bench_environment pr b sites "minZ", h.num _ (by simp [BenchParams.numbers, BenchParams.args])⟩
  maxX := fun i => by
    match i with
    | 0 => exact ⟨"X", rfl, _, bench_environment pr b sites "maxX", h.num _ (by simp [BenchParams.numbers, BenchParams.args])⟩
    | 1 => exact ⟨"Z", rfl, _, bench_environment pr b sites "maxZ", h.num _ (by simp [BenchParams.numbers, BenchParams.args])⟩

/-! ## The CSV text -/

/-- The cells of a line. -/
def siteCells (pr : Printer F) (l0 : F) (s : Site) : List (List Char) :=
  [pr.int s.number, pr.num (s.pos l0 0), pr.num (s.pos l0 1), ['0'], ['0'], ['0'], ['0']]

theorem siteLine_eq (pr : Printer F) (l0 : F) (s : Site) : siteLine pr l0 s = commaSep (siteCells pr l0 s) ++ ['\n'] := by
  simp [siteLine, siteCells, commaSep]

theorem siteCells_clean {pr : Printer F} (hp : pr.Clean) (l0 : F) (s : Site) :
    ∀ t ∈ siteCells pr l0 s, ∀ c ∈ t, c ≠ ',' ∧ c ≠ ' ' ∧ c ≠ '\t' ∧ c ≠ '\n' := by
  intro t ht
  simp only [siteCells, List.mem_cons, List.not_mem_nil, or_false] at ht
  rcases ht with rfl | rfl | rfl | rfl | rfl | rfl | rfl
  · exact hp.int _
  · exact hp.num _
  · exact hp.num _
  all_goals (intro c hc; simp only [List.mem_singleton] at hc; subst hc; decide)

theorem siteCsv_isText {pr : Printer F} (hp : pr.Clean) (l0 : F) (sites : List Site) :
    IsText ⟨columns 2, sites.map (siteCells pr l0)⟩ (siteCsv pr l0 sites) := by
  refine ⟨0, commaSep (columns 2), sites.map (fun q => commaSep (siteCells pr l0 q)) ++ [[]], ?_, .inl ?_, ?_⟩
  · unfold siteCsv
    simp only [List.replicate_zero, List.nil_append]
    rw [joinWith_cons _ _ (by simp)]
    have e : "Type, x, z, u, w, p, n\n".toList = commaSep (columns 2) ++ ['\n'] := by decide
    rw [e, List.append_assoc]
    congr 1
    show '\n' :: _ = _
    congr 1
    induction sites with
    | nil => rfl
    | cons q ps ih =>
      rw [List.flatMap_cons, List.map_cons, List.cons_append, joinWith_cons _ _ (by simp), ← ih, siteLine_eq]
      simp
  · exact lineOf_commaSep (columns_clean 2) (t := colType) rfl (by decide)
  · show RowLines (sites.map _) _
    induction sites with
    | nil => exact .blank (by intro c hc; cases hc) .nil
    | cons q ps ih => exact .row (lineOf_commaSep (siteCells_clean hp l0 q) rfl (hp.int_ne _)) ih

theorem siteCsv_read {pr : Printer F} {cv : Conv F} (hp : pr.Clean) (l0 : F) (sites : List Site)
    (hint : ∀ s ∈ sites, cv.int (pr.int s.number) = some s.number)
    (hpos : ∀ s ∈ sites, ∀ a, cv.num (pr.num (s.pos l0 a)) = some (s.pos l0 a)) (hz : cv.num ['0'] = some 0) :
    inputFromCsv cv (siteCsv pr l0 sites) = .ok (sites.map (Site.particle l0)) := by
  rw [reads_named_columns cv (siteCsv_isText hp l0 sites) (fun c hc => hc) (fun c hc => hc)]
  simp only
  induction sites with
  | nil => exact .nil
  | cons s ps ih =>
    refine .cons ?_ (ih (fun q' hq' => hint q' (by simp [hq'])) (fun q' hq' => hpos q' (by simp [hq'])))
    refine ⟨⟨_, _, cellIs_columns (.inl rfl) 0 rfl rfl, hint s (by simp), rfl⟩, fun a => ?_, fun a => ?_,
      ⟨_, cellIs_columns (.inl rfl) 5 rfl rfl, hz⟩, ⟨_, cellIs_columns (.inl rfl) 6 rfl rfl, hz⟩⟩
    · match a with
      | 0 => exact ⟨_, cellIs_columns (.inl rfl) 1 rfl rfl, hpos s (by simp) 0⟩
      | 1 => exact ⟨_, cellIs_columns (.inl rfl) 2 rfl rfl, hpos s (by simp) 1⟩
    · match a with
      | 0 => exact ⟨_, cellIs_columns (.inl rfl) 3 rfl rfl, hz⟩
      | 1 => exact ⟨_, cellIs_columns (.inl rfl) 4 rfl rfl, hz⟩

/-- **C67.**  A file written by one of the generators is read completely: in a program without `PRESSURE_EXPLICIT` the run is the one with the constants
of the generator, from exactly the listed particles, at rest and without pressure. -/
theorem C67_benchmark_files_are_read {pr pr' : Printer F} {xc : XConv F} {cv : Conv F} {b : BenchParams F} {sites : List Site}
    (h : ReadsBack pr xc cv b sites) (hty : ∀ s ∈ sites, 0 ≤ s.number ∧ s.number ≤ 2) {cfg : Config} (hx : cfg.explicit = false)
    {sch : Nat → Schedule} {shell : Int} {args : List String} {files : String → Option (List XNode)}
    (hs : Started shell args files (benchDoc pr b sites)) (fuel : Nat) {env : Env F 2} {s0 : State F 2 Unit}
    (hmk : Env.mk? cfg (b.args cfg) = some env) (hnew : State.new? env () = some s0) :
    programMain 2 cfg xc cv pr' sch shell args files fuel =
      runLoop { cfg := cfg, eps := b.eps, walls := mainWalls (sites.map (Site.particle b.l0)) } sch pr' b.condition fuel
        (s0.addParticles (sites.map (Site.particle b.l0))) := by
  rw [C45_parameters_come_from_their_elements (.inl rfl) hs (bench_proper pr b sites) (bench_configured h hx) (bench_particles pr b sites).1
    (bench_particles pr b sites).2]
  unfold mainProgram
  have e : loadEnvironment cfg (b.args cfg) b.steps b.condition.outputInterval = some env := hmk
  rw [e, siteCsv_read h.clean b.l0 sites (fun s hm => h.int _ (hty s hm).1 (hty s hm).2) h.pos h.zero]
  simp only [hnew]
  rfl

/-- **C67**, the defect: a program compiled with `PRESSURE_EXPLICIT` refuses the files of all generators (there is no velocity of sound in them),
before any output. -/
theorem C67_explicit_programs_refuse_the_files {pr pr' : Printer F} {xc : XConv F} {cv : Conv F} (b : BenchParams F) (sites : List Site)
    {cfg : Config} (hx : cfg.explicit = true) {sch : Nat → Schedule} {shell : Int} {args : List String} {files : String → Option (List XNode)}
    (hs : Started shell args files (benchDoc pr b sites)) (fuel : Nat) :
    programMain 2 cfg xc cv pr' sch shell args files fuel = { outs := [], ending := .terminated } := by
  refine (C45_incomplete_files_are_refused (.inl rfl) hs (bench_proper pr b sites) fuel).1 ?_
  rintro ⟨h, -⟩
  obtain ⟨v, t, h1, -⟩ := h ("environment", "c") (by simp [numericSettings, hx])
  rw [bench_environment] at h1
  have : (envEntries pr b).lookup "c" = none := rfl
  rw [this] at h1
  cases h1

end

end OpenMps
