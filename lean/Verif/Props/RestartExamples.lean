import Verif.Props.Restart
import Verif.Props.MainExamples

/-! # Concrete restarts (C52) -/

set_option linter.unusedSectionVars false

namespace OpenMps

section
attribute [local instance] instScalarInt

/-! ## One falling particle (integers) -/

def fallCfg : Config := { Config.default with explicit := true, spp := false }

def fallArgs : EnvArgs Int 2 :=
  { maxDt := 0, courant := 1, g := 1, rho := 1, nu := 1, surfaceRatio := 0, reByL0 := 1, c := 1, l0 := 3, minX := ![0, 0], maxX := ![10, 10] }

/-- From time 0 to time 3, a file at every time unit. -/
def fallCond : Condition Int := { eps := 1, startTime := 0, endTime := 3, outputInterval := 1 }

/-- The same from time 1 on. -/
def fallCond' : Condition Int := { eps := 1, startTime := 1, endTime := 3, outputInterval := 1 }

/-- High above the bottom. -/
def fallCsv : List Char := "Type,x,z,u,w,p,n\n+,+11,+11111111,+,+,+,+\n".toList

/-- At the bottom. -/
def leaveCsv : List Char := "Type,x,z,u,w,p,n\n+,+11,+,+,-1,+,+\n".toList

def fallRun (csv : List Char) : MainRes Int := mainProgram fallCfg unaryConv unaryPrinter (fun _ => Schedule.serial 1) fallCond fallArgs 1 csv 6

/-- The program started again with file 1 of the run. -/
def fallAgain (csv : List Char) : MainRes Int :=
  mainProgram fallCfg unaryConv unaryPrinter (fun _ => Schedule.serial 1) fallCond' fallArgs 1 ((fallRun csv).outs[1]?.elim [] OutRec.text) 6

theorem unaryPrinter_clean : unaryPrinter.Clean := ⟨fun k => (unary_clean k).1, fun k => (unary_clean k).2, fun k => (unary_clean k).2⟩

theorem unary_exact (q : Particle Int 2) : ShownExactly unaryPrinter unaryConv q :=
  ⟨fun _ => unary_roundtrip _, fun _ => unary_roundtrip _, unary_roundtrip _, unary_roundtrip _⟩

/-- The start of these runs. -/
theorem fall_start {csv : List Char} {ps : List (Particle Int 2)} (h : inputFromCsv unaryConv csv = .ok ps) (hn : ps.length = 1) :
    ∃ P s0, mainStart fallCfg unaryConv fallCond fallArgs 1 csv P s0 ∧ s0.grid.ClearOK ∧ ∀ k : Nat, ((fun _ => Schedule.serial 1 : Nat → Schedule) k).Valid s0.n := by
  obtain ⟨env, he⟩ : ∃ env, loadEnvironment fallCfg fallArgs 1 fallCond.outputInterval = some env := ⟨_, rfl⟩
  obtain ⟨s, hs⟩ : ∃ s, State.new? env () = some s := by
    have : env = (loadEnvironment fallCfg fallArgs 1 fallCond.outputInterval).get rfl := by simp [he]
    subst this
    exact Option.isSome_iff_exists.1 (by decide +kernel)
  refine ⟨_, _, ⟨env, ps, s, he, h, hs, rfl, rfl⟩, fun h => absurd h (by decide), fun _ k => ?_⟩
  have : (s.addParticles ps).n = 1 := by
    show s.n + ps.length = 1
    rw [new_n hs, hn]
  rw [this]
  exact validSched_serial 1

/-- The hypotheses of `C52_restart_takes_the_same_steps` and of `C52_files_of_a_restarted_run` are met by a concrete run with a falling particle: a second run is started with file 1 of it;
its files 1, 2, 3 are those of the first run. -/
example : ∃ P s0 rec rec', mainStart fallCfg unaryConv fallCond fallArgs 1 fallCsv P s0 ∧ s0.grid.ClearOK ∧
    (∀ k : Nat, ((fun _ => Schedule.serial 1 : Nat → Schedule) k).Valid s0.n) ∧ (fallRun fallCsv).outs[1]? = some rec ∧
    (∀ s, s0.afterSteps P (fun _ => Schedule.serial 1) rec.iteration = .ok s → ∀ q ∈ s.particles, ShownExactly unaryPrinter unaryConv q) ∧
    (mainProgram fallCfg unaryConv unaryPrinter (fun _ => Schedule.serial 1) fallCond' fallArgs 1 rec.text 6).outs[2]? = some rec' ∧
    rec'.iteration = 2 ∧ rec'.count = rec.count := by
  obtain ⟨P, s0, h1, h2, h3⟩ := fall_start (csv := fallCsv)
    (ps := [{ x := ![2, 8], u := ![0, 0], p := 0, n := 0, ty := .incompressibleNewton }]) (by rfl) rfl
  obtain ⟨rec, hrec⟩ : ∃ rec, (fallRun fallCsv).outs[1]? = some rec := Option.isSome_iff_exists.1 (by decide +kernel)
  have e : fallAgain fallCsv = mainProgram fallCfg unaryConv unaryPrinter (fun _ => Schedule.serial 1) fallCond' fallArgs 1 rec.text 6 := by
    unfold fallAgain; rw [hrec]; rfl
  obtain ⟨rec', hrec'⟩ : ∃ rec', (fallAgain fallCsv).outs[2]? = some rec' := Option.isSome_iff_exists.1 (by decide +kernel)
  have k1 : (fallAgain fallCsv).outs[2]?.map OutRec.iteration = some 2 := by decide +kernel
  have k2 : (fallAgain fallCsv).outs[2]?.map OutRec.count = (fallRun fallCsv).outs[1]?.map OutRec.count := by decide +kernel
  rw [hrec'] at k1 k2
  rw [hrec] at k2
  exact ⟨P, s0, rec, rec', h1, h2, h3, hrec, fun _ _ q _ => unary_exact q, by rw [← e]; exact hrec', Option.some.inj k1, Option.some.inj k2⟩

example : (fallAgain fallCsv).outs.map OutRec.text = ((fallRun fallCsv).outs.map OutRec.text).drop 1 := by decide +kernel

/-- **C52.**  The condition that no further particle is disabled cannot be dropped.  There is a run of the main program, with exact conversions, such that the program started again with one of its files,
the time of this file as start time and otherwise the same parameters writes a file that shows the same number, the same time and the same number of enabled particles as a
file of the first run, but another text: a particle that leaves the region after the restart is put where it was in the restart file, not where it was in the first input. -/
theorem C52_restart_differs_after_a_particle_leaves : ∃ (cfg : Config) (cv : Conv Int) (pr : Printer Int) (sch : Nat → Schedule) (cond cond' : Condition Int) (a : EnvArgs Int 2)
    (m : Nat) (csv : List Char) (fuel : Nat) (rec recO rec' : OutRec Int),
    pr.Clean ∧ (∀ k, cv.int (pr.int k) = some k) ∧ (∀ v, cv.num (pr.num v) = some v) ∧
    cond' = { cond with startTime := rec.time } ∧
    (mainProgram cfg cv pr sch cond a m csv fuel).outs[1]? = some rec ∧ (mainProgram cfg cv pr sch cond a m csv fuel).outs[2]? = some recO ∧
    (mainProgram cfg cv pr sch cond' a m rec.text fuel).outs[1]? = some rec' ∧
    rec'.number = recO.number ∧ rec'.time = recO.time ∧ rec'.count = recO.count ∧ rec'.text ≠ recO.text := by
  obtain ⟨rec, hrec⟩ : ∃ rec, (fallRun leaveCsv).outs[1]? = some rec := Option.isSome_iff_exists.1 (by decide +kernel)
  obtain ⟨recO, hrecO⟩ : ∃ rec, (fallRun leaveCsv).outs[2]? = some rec := Option.isSome_iff_exists.1 (by decide +kernel)
  have e : fallAgain leaveCsv = mainProgram fallCfg unaryConv unaryPrinter (fun _ => Schedule.serial 1) fallCond' fallArgs 1 rec.text 6 := by
    unfold fallAgain; rw [hrec]; rfl
  obtain ⟨rec', hrec'⟩ : ∃ rec', (fallAgain leaveCsv).outs[1]? = some rec' := Option.isSome_iff_exists.1 (by decide +kernel)
  have k1 : (fallRun leaveCsv).outs[1]?.map OutRec.time = some 1 := by decide +kernel
  have k2 : (fallAgain leaveCsv).outs[1]?.map OutRec.number = (fallRun leaveCsv).outs[2]?.map OutRec.number := by decide +kernel
  have k3 : (fallAgain leaveCsv).outs[1]?.map OutRec.time = (fallRun leaveCsv).outs[2]?.map OutRec.time := by decide +kernel
  have k4 : (fallAgain leaveCsv).outs[1]?.map OutRec.count = (fallRun leaveCsv).outs[2]?.map OutRec.count := by decide +kernel
  have k5 : (fallAgain leaveCsv).outs[1]?.map OutRec.text ≠ (fallRun leaveCsv).outs[2]?.map OutRec.text := by decide +kernel
  rw [hrec] at k1
  rw [hrec', hrecO] at k2 k3 k4 k5
  refine ⟨fallCfg, unaryConv, unaryPrinter, _, fallCond, fallCond', fallArgs, 1, leaveCsv, 6, rec, recO, rec', unaryPrinter_clean, unary_roundtrip, unary_roundtrip,
    ?_, hrec, hrecO, by rw [← e]; exact hrec', Option.some.inj k2, Option.some.inj k3, Option.some.inj k4, fun h => k5 (by rw [Option.map_some, Option.map_some, h])⟩
  rw [Option.some.inj k1]; rfl

end

/-! ## Two walls at rest (exact arithmetic) -/

/-- The hypotheses of `C52_new_computer_continues` are met. -/
example : ∃ (s t0 : State ℝ 2 Unit) (dts : List ℝ) (cs cs' : List (Call ℝ 2)), restP.walls.Timeless ∧ State.new? restEnv () = some restNew ∧
    Hist restP restNew dts s ∧ restNew.grid.ClearOK ∧ State.new? restEnv s.world = some t0 ∧ List.Forall₂ Call.Same cs cs' ∧ CallsValid s.n cs ∧ CallsValid s.n cs' ∧
    cs.length = 3 ∧ s.n = 2 ∧ s.env.t ≠ t0.env.t := by
  obtain ⟨s, hs, -⟩ := rest_still 3
  obtain ⟨⟨dts, hist⟩, hn⟩ := afterSteps_hist (s1 := restNew) ⟨[], .add _ .start⟩ rest_valid 3 s hs
  replace hn : s.n = 2 := hn.trans restStart_n
  have hv2 : (Schedule.serial 2).Valid s.n := by rw [hn]; exact fun k => validSched_serial 2
  have hv4 : (Schedule.serial 4).Valid (s.n + 2) := by rw [hn]; exact fun k => validSched_serial 4
  refine ⟨s, restNew, dts, [.forward (Schedule.serial 2) 1, .add restPs, .auto (Schedule.serial 4)], [.forward (Schedule.serial 2) 1, .add restPs, .auto (Schedule.serial 4)],
    mainWalls_timeless _, rest_grid.choose_spec, hist, fun h => absurd h (by decide), rest_grid.choose_spec,
    .cons (.forward _ _ _) (.cons (.add _) (.cons (.auto _ _) .nil)), ⟨hv2, trivial, hv4, trivial⟩, ⟨hv2, trivial, hv4, trivial⟩, rfl, hn, ?_⟩
  obtain ⟨-, -, -, h4, h5⟩ := afterSteps_inv (P := restP) rest_valid (mainStart_env rest_main (by norm_num [restCond]) (by norm_num) (by norm_num [restArgs]) (by norm_num [restArgs])
    (by norm_num [restArgs]) (by norm_num [restArgs])).2.1 (mainStart_env rest_main (by norm_num [restCond]) (by norm_num) (by norm_num [restArgs]) (by norm_num [restArgs])
    (by norm_num [restArgs]) (by norm_num [restArgs])).2.2 3 s hs
  have : restNew.env.t = restStart.env.t := rfl
  rw [this, h4, Finset.sum_range_succ, Finset.sum_range_succ, Finset.sum_range_one]
  have := (h5 0 (by omega)).1
  have := (h5 1 (by omega)).1
  have := (h5 2 (by omega)).1
  linarith

/-- Real numbers are printed by their place in a table (`-`, `-1`, `-11`, ...); integers can also be read. -/
noncomputable def tableConv (L : List ℝ) : Conv ℝ :=
  ⟨unaryParse, fun t => match t with
    | '-' :: t => L[t.length]?
    | t => (unaryParse t).map Int.cast⟩

noncomputable def tablePrinter (L : List ℝ) : Printer ℝ := ⟨unaryPrint, fun v => '-' :: List.replicate (L.idxOf v) '1'⟩

theorem tablePrinter_clean (L : List ℝ) : (tablePrinter L).Clean := by
  refine ⟨fun k => (unary_clean k).1, fun k => (unary_clean k).2, fun v c hc => ?_⟩
  rcases List.mem_cons.1 hc with h | h
  · subst h; decide
  · rw [List.eq_of_mem_replicate h]; decide

theorem table_exact {L : List ℝ} {v : ℝ} (h : v ∈ L) : (tableConv L).num ((tablePrinter L).num v) = some v := by
  show L[(List.replicate (L.idxOf v) '1').length]? = some v
  rw [List.length_replicate, List.getElem?_eq_getElem (List.idxOf_lt_length_of_mem h), List.getElem_idxOf]

/-- All numbers of some particles. -/
def numbersOf (ps : List (Particle ℝ 2)) : List ℝ := ps.flatMap (fun q => [q.x 0, q.x 1, q.u 0, q.u 1, q.p, q.n])

theorem table_shows {ps : List (Particle ℝ 2)} {q : Particle ℝ 2} (h : q ∈ ps) : ShownExactly (tablePrinter (numbersOf ps)) (tableConv (numbersOf ps)) q := by
  have hm : ∀ v ∈ [q.x 0, q.x 1, q.u 0, q.u 1, q.p, q.n], v ∈ numbersOf ps := fun v hv => List.mem_flatMap.2 ⟨q, h, hv⟩
  refine ⟨fun a => ?_, fun a => ?_, table_exact (hm _ (by simp)), table_exact (hm _ (by simp))⟩
  · match a with
    | 0 => exact table_exact (hm _ (by simp))
    | 1 => exact table_exact (hm _ (by simp))
  · match a with
    | 0 => exact table_exact (hm _ (by simp))
    | 1 => exact table_exact (hm _ (by simp))

theorem rest_main_table (L : List ℝ) : mainStart restCfg (tableConv L) restCond restArgs 10 restCsv restP restStart :=
  ⟨restEnv, restPs, restNew, restEnv_eq, by rfl, rest_grid.choose_spec, rfl, rfl⟩

theorem rest_maxDt : restStart.env.maxDt = 1 / 10 := by
  have h1 : restStart.env = restEnv := (new_facts rest_grid.choose_spec).2.2.1
  rw [h1]
  show stdMin (restCond.outputInterval / (((10 : ℤ)) : ℝ)) _ = _
  rw [stdMin_real]
  show min _ (restArgs.courant * restArgs.l0 / restArgs.c) = (1 : ℝ) / 10
  norm_num [restArgs, restCond]

/-- All steps of this run are as large as possible. -/
theorem rest_stepSize (k : Nat) : stepSize restP (fun _ => Schedule.serial 2) restStart k = 1 / 10 := by
  have hpos := mainStart_env rest_main (by norm_num [restCond]) (by norm_num) (by norm_num [restArgs]) (by norm_num [restArgs])
    (by norm_num [restArgs]) (by norm_num [restArgs])
  obtain ⟨s, hs, hu⟩ := rest_still k
  obtain ⟨i1, i2, i3, -⟩ := afterSteps_inv (P := restP) rest_valid hpos.2.1 hpos.2.2 k s hs
  rw [restStart_n] at i1
  obtain ⟨dt, hd, -, hle, -, hbig⟩ := C13_automatic_step_is_largest_cfl_step s (by omega) (by rw [i2]; exact hpos.2.1) (by rw [i3]; exact hpos.2.2)
  have : dt = s.env.maxDt := le_antisymm hle (hbig _ le_rfl (fun i hi => by rw [(hu i hi).1, zero_mul, i3]; exact hpos.2.2.le))
  unfold stepSize
  rw [hs]
  simp only
  rw [hd, Option.getD_some, this, i2, rest_maxDt]

/-- From the second output on. -/
noncomputable def restCond' : Condition ℝ := { restCond with startTime := 3 }

/-- The hypotheses of `C52_restarted_run_writes_the_same_files` are met: two walls at rest; the second run starts with the second output (at time 3) of the first. -/
example : ∃ (pr : Printer ℝ) (cv : Conv ℝ) (fuel fuel' : Nat) (rec recO rec' : OutRec ℝ), pr.Clean ∧ (∀ k, cv.int (pr.int k) = some k) ∧
    mainStart restCfg cv restCond restArgs 10 restCsv restP restStart ∧ restStart.grid.ClearOK ∧
    (mainProgram restCfg cv pr (fun _ => Schedule.serial 2) restCond restArgs 10 restCsv fuel).outs[1]? = some rec ∧
    (∀ s, restStart.afterSteps restP (fun _ => Schedule.serial 2) rec.iteration = .ok s → ∀ q ∈ s.particles, ShownExactly pr cv q) ∧
    (mainProgram restCfg cv pr (fun _ => Schedule.serial 2) restCond restArgs 10 restCsv fuel).outs[1 + 1]? = some recO ∧
    (mainProgram restCfg cv pr (fun _ => Schedule.serial 2) restCond' restArgs 10 rec.text fuel').outs[1]? = some rec' ∧
    rec'.count = rec.count ∧ rec.time = restCond.startTime + 1 * restCond.outputInterval ∧ restCond'.startTime = rec.time := by
  obtain ⟨s, hs, hsp⟩ := rest_still 20
  have hsn : s.n = 2 := (afterSteps_hist (s1 := restNew) ⟨[], .add _ .start⟩ rest_valid 20 s hs).2.trans restStart_n
  set L := numbersOf s.particles with hL
  have hst := rest_main_table L
  obtain ⟨fuel, hfin⟩ := C32_run_finishes (pr := tablePrinter L) hst rest_valid (by norm_num [restCond]) (by norm_num) (by norm_num [restArgs]) (by norm_num [restArgs])
    (by norm_num [restArgs]) (by norm_num [restArgs]) (by norm_num [restCond]) (by norm_num [restCond]) 1 one_pos rest_steps
  obtain ⟨o, e, h1, h2, h3⟩ := C32_number_of_files (hfin fuel (le_refl _))
  have hceil : ∀ (v : ℝ) (z : ℕ), ⌈v⌉₊ = z → 0 ≤ v → toSize v = some z := fun v z hz hv => by rw [toSize_real hv, hz]
  have he : e = 3 := by
    rw [hceil _ 3 (by rw [Nat.ceil_eq_iff (by norm_num)]; norm_num [restCond]) (by norm_num [restCond])] at h2
    exact (Option.some.inj h2).symm
  subst he
  have hlen := congrArg List.length h3
  simp only [List.length_map, List.length_range] at hlen
  have hrec := List.getElem?_eq_getElem (l := (mainProgram restCfg (tableConv L) (tablePrinter L) (fun _ => Schedule.serial 2) restCond restArgs 10 restCsv fuel).outs) (i := 1) (by omega)
  have hrecO := List.getElem?_eq_getElem (l := (mainProgram restCfg (tableConv L) (tablePrinter L) (fun _ => Schedule.serial 2) restCond restArgs 10 restCsv fuel).outs) (i := 2) (by omega)
  generalize (mainProgram restCfg (tableConv L) (tablePrinter L) (fun _ => Schedule.serial 2) restCond restArgs 10 restCsv fuel).outs[1] = rec at hrec
  generalize (mainProgram restCfg (tableConv L) (tablePrinter L) (fun _ => Schedule.serial 2) restCond restArgs 10 restCsv fuel).outs[2] = recO at hrecO
  obtain ⟨b1, b2, b3, b4, b5, b6, b7, -⟩ := output_times (pr := tablePrinter L) hst rest_valid (by norm_num [restCond]) (by norm_num) (by norm_num [restArgs]) (by norm_num [restArgs])
    (by norm_num [restArgs]) (by norm_num [restArgs]) (by norm_num [restCond]) (by norm_num [restCond]) fuel 1 rec hrec
  have hsum : ∀ i : Nat, ∑ j ∈ Finset.range i, stepSize restP (fun _ => Schedule.serial 2) restStart j = i / 10 := by
    intro i
    rw [Finset.sum_congr rfl (fun j _ => rest_stepSize j), Finset.sum_const, Finset.card_range, nsmul_eq_mul]; ring
  rw [hsum] at b4 b5
  have h20 : rec.iteration = 20 := by
    have l1 : 20 ≤ rec.iteration := by
      have : (20 : ℝ) ≤ rec.iteration := by norm_num [restCond] at b5; linarith
      exact_mod_cast this
    by_contra hne
    have := b7 20 (by omega)
    rw [hsum] at this
    norm_num [restCond] at this
  have htime : rec.time = 3 := by rw [b4, h20]; norm_num [restCond]
  obtain ⟨-, -, s', hs', htext, hcnt⟩ := C33_written_files_are_in_place hst h1 h2 fuel hrec
  have hss : s' = s := by rw [h20, hs] at hs'; cases hs'; rfl
  subst hss
  -- the second run
  have hex : ∀ q ∈ s'.particles, ShownExactly (tablePrinter L) (tableConv L) q := fun q hq => table_shows hq
  obtain ⟨P', s0', k1, k2, k3, k4, k5, k6, k7, k8, -⟩ := restart_start (R := fun _ _ => True) (cond' := restCond') (.inl rfl) (tablePrinter_clean L) unary_roundtrip hst
    (fun h => absurd h (by decide)) rest_valid rfl rfl hs hex trivial
  rw [← htext] at k1
  have hv' : ∀ k : Nat, ((fun _ => Schedule.serial 2 : Nat → Schedule) k).Valid s0'.n := by
    intro _ k; rw [k2.same.n, hsn]; exact validSched_serial 2
  have hsteps : ∀ i, ∃ b, s0'.afterSteps P' (fun _ => Schedule.serial 2) i = .ok b ∧ ∀ l, l < b.n → norm2 (b.ps l).u ≤ 1 ∧ (b.ps l).ty = .wall := by
    intro i
    have hc := steps_cinv (fun _ _ _ _ => trivial) k3 k4 k5 k6 k2 (sch := fun _ => Schedule.serial 2) (sch' := fun _ => Schedule.serial 2)
      (fun _ k => by rw [hsn]; exact validSched_serial 2) (fun _ k => by rw [hsn]; exact validSched_serial 2) k7 i (Or.inl (fun i' _ a ha => by
        obtain ⟨a', ha', hty⟩ := rest_still (20 + i')
        rw [afterSteps_add hs i'] at ha'
        have hna : a'.n = 2 := (afterSteps_hist (s1 := restNew) ⟨[], .add _ .start⟩ rest_valid (20 + i') a' (by rw [← ha']; exact afterSteps_add hs i')).2.trans restStart_n
        have : a = a' := by
          rcases ha with ha | ⟨e, ha⟩
          · rw [ha'] at ha; cases ha; rfl
          · rw [ha'] at ha; cases ha
        subst this
        exact types_eq (by rw [hna, hsn]) (fun l hl => by rw [(hty l (by omega)).2, (hsp l hl).2])))
    obtain ⟨a', ha', hty⟩ := rest_still (20 + i)
    rw [afterSteps_add hs i] at ha'
    rw [ha'] at hc
    generalize s0'.afterSteps P' (fun _ => Schedule.serial 2) i = r at hc
    cases hc with
    | @ok _ b hab =>
      refine ⟨b, rfl, fun l hl => ?_⟩
      have hl' : l < a'.n := by rw [← hab.same.n]; exact hl
      rw [hab.same.ps hl', (hty l hl').1]
      exact ⟨zero_le_one, (hty l hl').2⟩
  obtain ⟨fuel', hfin'⟩ := C32_run_finishes (pr := tablePrinter L) k1 hv' (by norm_num [restCond, restCond']) (by norm_num) (by norm_num [restArgs]) (by norm_num [restArgs])
    (by norm_num [restArgs]) (by norm_num [restArgs]) (by norm_num [restCond']) (by norm_num [restCond, restCond']) 1 one_pos
    (fun i => by obtain ⟨b, hb, hb'⟩ := hsteps i; exact ⟨b, hb, fun l hl => (hb' l hl).1⟩)
  obtain ⟨o', e', h1', h2', h3'⟩ := C32_number_of_files (hfin' fuel' (le_refl _))
  have he' : e' = 2 := by
    rw [hceil _ 2 (by rw [Nat.ceil_eq_iff (by norm_num)]; norm_num [restCond, restCond']) (by norm_num [restCond, restCond'])] at h2'
    exact (Option.some.inj h2').symm
  subst he'
  have hlen' := congrArg List.length h3'
  simp only [List.length_map, List.length_range] at hlen'
  have hrec' := List.getElem?_eq_getElem (l := (mainProgram restCfg (tableConv L) (tablePrinter L) (fun _ => Schedule.serial 2) restCond' restArgs 10 rec.text fuel').outs) (i := 1) (by omega)
  refine ⟨tablePrinter L, tableConv L, fuel, fuel', rec, recO, _, tablePrinter_clean L, unary_roundtrip, hst, fun h => absurd h (by decide), hrec, ?_, hrecO, hrec', ?_, ?_, ?_⟩
  · intro s2 hs2
    rw [h20, hs] at hs2
    cases hs2
    exact hex
  · obtain ⟨-, -, t, ht, -, hcnt'⟩ := C33_written_files_are_in_place k1 h1' h2' fuel' hrec'
    rw [hcnt, hcnt']
    obtain ⟨b, hb, hb'⟩ := hsteps _
    rw [ht] at hb
    cases hb
    have hnt : t.n = s'.n := by
      rw [(afterSteps_hist (s1 := s0') ⟨[], .start⟩ hv' _ t ht).2, k2.same.n]
    rw [hnt]
    congr 1
    refine Finset.filter_congr (fun l hl => ?_)
    rw [Finset.mem_range] at hl
    rw [(hb' l (by rw [hnt]; exact hl)).2, (hsp l hl).2]
  · rw [htime]; norm_num [restCond]
  · rw [htime]; rfl

end OpenMps
