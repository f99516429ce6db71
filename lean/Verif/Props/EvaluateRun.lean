import Verif.Props.Evaluate
import Verif.Props.Restart
import Verif.Props.Lattice

/-! # The evaluation scripts on the files of a run: C69 -/

set_option linter.unusedSectionVars false

namespace OpenMps

/-! ## What a step does to the densities in the files -/

section
variable {D : Nat} {ω : Type}

/-- **C69.**  With SPP every fluid and wall particle has at least the reference density after a step; the particles that are dummies or disabled after the step keep the density they had. -/
theorem C69_density_after_step {P : Params ℝ D ω} (hspp : P.cfg.spp = true) {s s' : State ℝ D ω} {sch : Schedule} (hv : sch.Valid s.n) {dt : ℝ}
    (h : s.forwardTime P sch dt = .ok s') {i : Nat} (hi : i < s.n) :
    ((s'.ps i).ty ≠ .dummy → (s'.ps i).ty ≠ .disabled → s.env.n0 ≤ (s'.ps i).n) ∧
    ((s'.ps i).ty = .dummy ∨ (s'.ps i).ty = .disabled → (s'.ps i).n = (s.ps i).n) := by
  obtain ⟨s1, h1, h2⟩ := forwardTime_ok hv h
  obtain ⟨g0, g, nb, k1, k2, k3, k4, -⟩ := searchNeighbor_ok_frame (s := s.start dt) (hv 0) h1
  obtain ⟨s2, h3, rfl⟩ := afterSearch_ok h2
  obtain ⟨f1, f2, -, f4, -, -, -, -, f9, -, f11⟩ := pressureC_frame h3
  have hn1 : s1.n = s.n := by rw [k3]; rfl
  have he1 : s1.env.n0 = s.env.n0 := by rw [k3]; rfl
  have hnn1 : (s1.ps i).n = (s.ps i).n := by rw [k3]; exact (marked_ps { s.start dt with grid := g0 } (List.range s.n) g i).2.2.2.1
  rw [dsC_nn, gradC_nn, (f11 i).2.2.1, dsC_ty, gradC_ty, (f11 i).2.2.2, midC_ty]
  -- the last density computation
  have key : ∀ t : State ℝ D ω, i < t.n → ((t.ps i).ty.active = true → t.env.n0 ≤ ((t.densC P.cfg).ps i).n) ∧
      ((t.ps i).ty.active = false → ((t.densC P.cfg).ps i).n = (t.ps i).n) := by
    intro t hi
    unfold State.densC State.densCompute
    simp only [hi, if_true]
    constructor
    · intro ha
      simp only [ha, if_true, hspp]
      unfold stdMax
      split
      · exact le_refl _
      · rename_i hc
        simpa [Scalar.lt] using hc
    · intro ha
      simp only [ha, Bool.false_eq_true, if_false]
  have hmid : (s1.midC P).ps i = ((((((s1.densC P.cfg).ecsC P.cfg).duC (State.accelCompute P.cfg)).preC P.walls).moveC P.walls).densC P.cfg).ps i := by
    unfold State.midC
    rw [saveX_ps]
  rw [hmid]
  have hty : ((((((s1.densC P.cfg).ecsC P.cfg).duC (State.accelCompute P.cfg)).preC P.walls).moveC P.walls).ps i).ty = (s1.ps i).ty := by
    rw [moveC_ty]; exact densC_ty _ _ _
  have hn0 : ((((((s1.densC P.cfg).ecsC P.cfg).duC (State.accelCompute P.cfg)).preC P.walls).moveC P.walls)).env.n0 = s1.env.n0 := rfl
  have hlt : i < ((((((s1.densC P.cfg).ecsC P.cfg).duC (State.accelCompute P.cfg)).preC P.walls).moveC P.walls)).n := by
    show i < s1.n
    rw [hn1]; exact hi
  obtain ⟨a1, a2⟩ := key _ hlt
  rw [hty, hn0, he1] at a1
  rw [hty] at a2
  constructor
  · intro d1 d2
    exact a1 (by simp [PType.active, d1, d2])
  · intro hd
    have hact : (s1.ps i).ty.active = false := by rcases hd with hd | hd <;> rw [hd] <;> rfl
    rw [a2 hact, moveC_nn]
    show ((s1.densC P.cfg).ps i).n = _
    rw [(key s1 (by rw [hn1]; exact hi)).2 hact, hnn1]

end

section
variable {P : Params ℝ 2 Unit} {sch : Nat → Schedule} {s0 : State ℝ 2 Unit}

theorem afterSteps_n0 (hv : ∀ k, (sch k).Valid s0.n) : ∀ (k : Nat) (s : State ℝ 2 Unit), s0.afterSteps P sch k = .ok s → s.n = s0.n ∧ s.env.n0 = s0.env.n0
  | 0, s, h => by cases h; exact ⟨rfl, rfl⟩
  | k + 1, s, h => by
    obtain ⟨s', h1, h2⟩ := afterSteps_prev h
    obtain ⟨i1, i2⟩ := afterSteps_n0 hv k s' h1
    unfold State.forwardTimeAuto at h2
    cases hd : s'.determineDt with
    | none => rw [hd] at h2; cases h2
    | some dt =>
      rw [hd] at h2
      obtain ⟨f1, f2, -⟩ := step_frame (by rw [i1]; exact hv k) (Or.inl h2)
      rw [f1, f2]
      exact ⟨i1, i2⟩

/-- **C69.**  With SPP: if the first step disables no particle and there are no dummies, every particle in every later state has at least the reference density. -/
theorem C69_densities_after_steps (hspp : P.cfg.spp = true) (hv : ∀ k, (sch k).Valid s0.n) {s1 : State ℝ 2 Unit} (h1 : s0.afterSteps P sch 1 = .ok s1)
    (hact : ∀ i, i < s0.n → (s1.ps i).ty ≠ .dummy ∧ (s1.ps i).ty ≠ .disabled) :
    ∀ (k : Nat) (s : State ℝ 2 Unit), s0.afterSteps P sch (k + 1) = .ok s → ∀ i, i < s0.n → s0.env.n0 ≤ (s.ps i).n := by
  intro k
  induction k with
  | zero =>
    intro s h i hi
    obtain ⟨s', e1, e2⟩ := afterSteps_prev h
    have hs : s = s1 := by rw [h] at h1; cases h1; rfl
    obtain ⟨n1, n2⟩ := afterSteps_n0 hv 0 s' e1
    unfold State.forwardTimeAuto at e2
    cases hd : s'.determineDt with
    | none => rw [hd] at e2; cases e2
    | some dt =>
      rw [hd] at e2
      have := (C69_density_after_step hspp (by rw [n1]; exact hv 0) e2 (i := i) (by rw [n1]; exact hi)).1
      rw [n2, hs] at this
      rw [hs]
      exact this (hact i hi).1 (hact i hi).2
  | succ k ih =>
    intro s h i hi
    obtain ⟨s', e1, e2⟩ := afterSteps_prev h
    obtain ⟨n1, n2⟩ := afterSteps_n0 hv _ s' e1
    unfold State.forwardTimeAuto at e2
    cases hd : s'.determineDt with
    | none => rw [hd] at e2; cases e2
    | some dt =>
      rw [hd] at e2
      obtain ⟨a1, a2⟩ := C69_density_after_step hspp (by rw [n1]; exact hv _) e2 (i := i) (by rw [n1]; exact hi)
      rw [n2] at a1
      by_cases c : (s.ps i).ty = .dummy ∨ (s.ps i).ty = .disabled
      · rw [a2 c]; exact ih s' e1 i hi
      · exact a1 (fun h => c (Or.inl h)) (fun h => c (Or.inr h))

end

/-! ## Runs -/

section
variable {cfg : Config} {cv cv' : Conv ℝ} {pr : Printer ℝ} {rt : ℝ → ℝ} {sch : Nat → Schedule} {cond : Condition ℝ} {a : EnvArgs ℝ 2}
  {m : Nat} {csv : List Char} {P : Params ℝ 2 Unit} {s0 : State ℝ 2 Unit}

/-- The types of the particles of a run are types from files. -/
theorem run_typesFromFiles (h : mainStart cfg cv cond a m csv P s0) (hv : ∀ k, (sch k).Valid s0.n) (k : Nat) (s : State ℝ 2 Unit) (hs : s0.afterSteps P sch k = .ok s) :
    TypesFromFiles s.particles := by
  intro q hq
  obtain ⟨c, hc⟩ := run_types h hv hs q hq
  exact ⟨c, by rw [hc, ofInt_eq]⟩

/-- The hypotheses about a run that the scripts evaluate: `dir` is the directory with the files of the run. -/
structure EvaluatedRun (cfg : Config) (cv : Conv ℝ) (pr : Printer ℝ) (sch : Nat → Schedule) (cond : Condition ℝ) (a : EnvArgs ℝ 2) (m : Nat) (csv : List Char) (P : Params ℝ 2 Unit)
    (s0 : State ℝ 2 Unit) (outs : List (OutRec ℝ)) (dir : List DirFile) : Prop where
  start : mainStart cfg cv cond a m csv P s0
  valid : ∀ k, (sch k).Valid s0.n
  interval : 0 < cond.outputInterval
  steps : 0 < m
  courant : 0 < a.courant
  l0 : 0 < a.l0
  g : 0 < a.g
  c : 0 < a.c
  startTime : 0 ≤ cond.startTime
  endTime : cond.startTime ≤ cond.endTime
  few : ⌈cond.startTime / cond.outputInterval⌉₊ + ⌈(cond.endTime - cond.startTime) / cond.outputInterval⌉₊ < 100000
  run : ∃ fuel, outs = (mainProgram cfg cv pr sch cond a m csv fuel).outs
  files : dir.Perm (resultDir outs)

/-- What file `k` is: particles, time. -/
structure FileOf (P : Params ℝ 2 Unit) (sch : Nat → Schedule) (s0 : State ℝ 2 Unit) (cond : Condition ℝ) (k : Nat) (rec : OutRec ℝ) (s : State ℝ 2 Unit) : Prop where
  /-- the state after the steps shown with the file -/
  state : s0.afterSteps P sch rec.iteration = .ok s
  /-- the time since the start of the run is `k * OutputInterval`, up to `MaxDt` -/
  timeLe : k * cond.outputInterval ≤ rec.time - cond.startTime
  timeLt : rec.time - cond.startTime < k * cond.outputInterval + s0.env.maxDt
  maxDt : s0.env.maxDt ≤ cond.outputInterval

section
variable {outs : List (OutRec ℝ)} {dir : List DirFile}

theorem EvaluatedRun.maxDt_le (h : EvaluatedRun cfg cv pr sch cond a m csv P s0 outs dir) : s0.env.maxDt ≤ cond.outputInterval := by
  obtain ⟨env, ps, s, e1, e2, e3, e4, e5⟩ := id h.start
  have hmR : (0 : ℝ) < m := by exact_mod_cast h.steps
  have hI := h.interval
  have hmd : 0 < cond.outputInterval / Scalar.ofInt (m : Int) := by
    show 0 < cond.outputInterval / (((m : ℤ)) : ℝ)
    push_cast; positivity
  obtain ⟨env', g1, g2, g3, g4, g5, _⟩ := C13_limits_of_constructor cfg
    { a with maxDt := cond.outputInterval / Scalar.ofInt (m : Int) } hmd h.courant h.l0 h.g h.c
  have henv : env' = env := by
    have : loadEnvironment cfg a m cond.outputInterval = some env' := g1
    rw [e1] at this; exact (Option.some.inj this).symm
  subst henv
  have hs0env : s0.env = env' := by
    rw [e5]
    show s.env = env'
    unfold State.new? at e3
    split at e3
    · cases e3
    · cases e3; rfl
  rw [hs0env]
  refine g5.trans ?_
  show cond.outputInterval / (((m : ℤ)) : ℝ) ≤ cond.outputInterval
  push_cast
  have : (1 : ℝ) ≤ m := by exact_mod_cast h.steps
  exact div_le_self hI.le this

theorem EvaluatedRun.sorted (h : EvaluatedRun cfg cv pr sch cond a m csv P s0 outs dir) : sortedFiles dir = resultDir outs := by
  obtain ⟨fuel, hrun⟩ := h.run
  obtain ⟨dt, ht⟩ := C32_output_times (pr := pr) h.start h.valid h.interval h.steps h.courant h.l0 h.g h.c h.startTime h.endTime fuel
  rw [← hrun] at ht
  refine sortedFiles_result (fun k rec hk => (ht k rec hk).2.1) ?_ h.files
  rcases Nat.eq_zero_or_pos outs.length with h0 | h0
  · have := h.few; omega
  · have hl : outs[outs.length - 1]? = some (outs[outs.length - 1]'(by omega)) := List.getElem?_eq_getElem (by omega)
    have := (ht _ _ hl).2.2.1
    have := h.few
    omega

/-- File `k` of the sorted directory. -/
theorem EvaluatedRun.file (h : EvaluatedRun cfg cv pr sch cond a m csv P s0 outs dir) {k : Nat} {rec : OutRec ℝ} (hk : outs[k]? = some rec) :
    ∃ s, FileOf P sch s0 cond k rec s ∧ (sortedFiles dir)[k]? = some ⟨(fileName rec.number).drop "result/".toList.length, outputToCsv pr s.particles⟩ ∧
      rec.number = ⌈cond.startTime / cond.outputInterval⌉₊ + k ∧ TypesFromFiles s.particles := by
  obtain ⟨fuel, hrun⟩ := h.run
  obtain ⟨dt, ht⟩ := C32_output_times (pr := pr) h.start h.valid h.interval h.steps h.courant h.l0 h.g h.c h.startTime h.endTime fuel
  rw [← hrun] at ht
  obtain ⟨t1, t2, t3, t4, t5, t6, -, -⟩ := ht k rec hk
  have hsz : ∀ v : ℝ, 0 ≤ v → toSize v = some ⌈v⌉₊ := by
    intro v hv0
    have hc0 : 0 ≤ ⌈v⌉ := Int.ceil_nonneg hv0
    show (if (0 : ℤ) ≤ ⌈v⌉ then some ⌈v⌉.toNat else none) = _
    rw [if_pos hc0]; rfl
  obtain ⟨-, -, s, c1, c2, -⟩ := C33_written_files_are_in_place (sch := sch) (pr := pr) h.start (hsz _ (div_nonneg h.startTime h.interval.le))
    (hsz _ (div_nonneg (sub_nonneg.2 h.endTime) h.interval.le)) fuel (by rw [← hrun]; exact hk)
  refine ⟨s, ⟨c1, ?_, ?_, h.maxDt_le⟩, ?_, t2, run_typesFromFiles h.start h.valid _ _ c1⟩
  · rw [t4]; linarith
  · rw [t4]; linarith
  · rw [h.sorted]
    unfold resultDir
    rw [List.getElem?_map, hk, Option.map_some, c2]

theorem EvaluatedRun.length (h : EvaluatedRun cfg cv pr sch cond a m csv P s0 outs dir) : (sortedFiles dir).length = outs.length := by
  rw [h.sorted]; simp [resultDir]

theorem EvaluatedRun.few_lt (h : EvaluatedRun cfg cv pr sch cond a m csv P s0 outs dir) {k : Nat} {rec : OutRec ℝ} (hk : outs[k]? = some rec) : rec.number < 100000 := by
  obtain ⟨fuel, hrun⟩ := h.run
  obtain ⟨dt, ht⟩ := C32_output_times (pr := pr) h.start h.valid h.interval h.steps h.courant h.l0 h.g h.c h.startTime h.endTime fuel
  rw [← hrun] at ht
  have := (ht k rec hk).2.1
  have := (ht k rec hk).2.2.1
  have := h.few
  omega

/-- The number in the name of a file. -/
theorem name_number {k : Nat} (hk : k < 100000) : (((fileName k).drop "result/".toList.length).drop 10).take 5 = padZeros 5 (natChars k) := by
  obtain ⟨l, l1, l2, l3, -, l5⟩ := padZeros_spec 5 k
  have hlen : (padZeros 5 (natChars k)).length = 5 := by
    rw [l1, List.length_map]; exact l5 (by omega) (by omega)
  rw [baseName_eq, List.append_assoc, List.drop_append_of_le_length (by decide)]
  have : List.drop 10 "particles_".toList = [] := by decide
  rw [this, List.nil_append, List.take_append_of_le_length (by omega), List.take_of_length_le (by omega)]

/-- **C69.**  The curve of `koshizukaoka1996_edge.py` (called with the output interval): point `k` has the abscissa `k * OutputInterval * √(2 g / L)`, the file it was computed from shows the state at that time since the start
(up to one time step), and its ordinate is the largest `x` coordinate of the fluid in that state, divided by `L`.  In whatever order the system lists the directory. -/
theorem C69_edge_curve (h : EvaluatedRun cfg cv pr sch cond a m csv P s0 outs dir) (hpr : pr.Clean) (hint : ∀ k, cv'.int (pr.int k) = some k) (hnum : ∀ v, cv'.num (pr.num v) = some (rt v))
    {L g : ℝ} {pts : List (ℝ × ℝ)} (hpts : edgeCurve cv' L cond.outputInterval g dir = .ok pts) :
    pts.length = outs.length ∧ ∀ (k : Nat) rec, outs[k]? = some rec → ∃ s e, FileOf P sch s0 cond k rec s ∧ IsGreatest (fluidX rt s.particles) e ∧
      pts[k]? = some (k * cond.outputInterval * Real.sqrt (2 * g / L), e / L) := by
  unfold edgeCurve at hpts
  cases hd : evaluateAll (fun f => edgeOfFile cv' f.text) cond.outputInterval dir with
  | error e => rw [hd] at hpts; cases hpts
  | ok data =>
    rw [hd] at hpts
    cases hpts
    obtain ⟨h1, h2⟩ := evaluateAll_spec hd
    refine ⟨by rw [List.length_map, h1, h.length], ?_⟩
    intro k rec hk
    obtain ⟨s, f1, f2, -, f4⟩ := h.file hk
    obtain ⟨e, e1, e2⟩ := h2 k _ f2
    refine ⟨s, e, f1, (C69_edge_of_file hpr hint hnum _ f4).2.1 e e1, ?_⟩
    rw [List.getElem?_map, e2]
    simp only [Option.map_some, Scalar.sqrt, ofInt_real]
    push_cast
    rfl

/-- **C69.**  The script succeeds if every file shows a fluid particle. -/
theorem C69_edge_curve_succeeds (h : EvaluatedRun cfg cv pr sch cond a m csv P s0 outs dir) (hpr : pr.Clean) (hint : ∀ k, cv'.int (pr.int k) = some k) (hnum : ∀ v, cv'.num (pr.num v) = some (rt v))
    (hne : outs ≠ []) (hfl : ∀ rec ∈ outs, ∀ s, s0.afterSteps P sch rec.iteration = .ok s → ∃ i, i < s.n ∧ (s.ps i).ty = .incompressibleNewton) (L g : ℝ) :
    ∃ pts, edgeCurve cv' L cond.outputInterval g dir = .ok pts := by
  have hp : (sortedFiles dir).Perm dir := List.mergeSort_perm _ _
  have hdne : dir ≠ [] := by
    intro h0
    have := h.length
    rw [hp.length_eq, h0] at this
    exact hne (List.length_eq_zero_iff.1 this.symm)
  obtain ⟨pts, hpts⟩ := evaluateAll_ok (f := fun f => edgeOfFile cv' f.text) (dt := cond.outputInterval) hdne (by
    intro f hf
    rw [← hp.mem_iff] at hf
    obtain ⟨k, hk, rfl⟩ := List.getElem_of_mem hf
    have hk' : k < outs.length := by rw [← h.length]; exact hk
    obtain ⟨s, f1, f2, -, f4⟩ := h.file (List.getElem?_eq_getElem hk')
    rw [List.getElem?_eq_getElem hk, Option.some.injEq] at f2
    rw [f2]
    obtain ⟨i, hi, hf⟩ := hfl _ (List.getElem_mem hk') _ f1.state
    exact (C69_edge_of_file hpr hint hnum _ f4).1 ⟨s.ps i, List.mem_map.2 ⟨i, List.mem_range.2 hi, rfl⟩, hf⟩)
  exact ⟨_, by unfold edgeCurve; rw [hpts]; rfl⟩

/-- **C69.**  The curves of `zhouetal1999.py` (called with the output interval): point `k` has the abscissa `k * OutputInterval * √(9.8 / 0.6)` and shows, for the state at that time since the start, the heights at
the two gauges and the pressure at the sensor, divided by `0.6` and `1000 * 9.8 * 0.6`. -/
theorem C69_zhou_curves (h : EvaluatedRun cfg cv pr sch cond a m csv P s0 outs dir) (hpr : pr.Clean) (hint : ∀ k, cv'.int (pr.int k) = some k) (hnum : ∀ v, cv'.num (pr.num v) = some (rt v))
    {l0 re n0 : ℝ} (hn0 : calculateN0 re = some n0) {pts : List (ℝ × ℝ × ℝ × ℝ)} (hpts : zhouCurves cv' l0 cond.outputInterval re dir = .ok pts) :
    pts.length = outs.length ∧ ∀ (k : Nat) rec, outs[k]? = some rec → ∃ s h1 h2, FileOf P sch s0 cond k rec s ∧
      IsGreatest (columnHeights rt l0 (0.1 * n0) 0.495 s.particles) h1 ∧ IsGreatest (columnHeights rt l0 (0.1 * n0) 0.992 s.particles) h2 ∧ sensorParticles rt s.particles ≠ [] ∧
      pts[k]? = some (k * cond.outputInterval * Real.sqrt (9.8 / 0.6), h1 / 0.6, h2 / 0.6,
        ((sensorParticles rt s.particles).map (fun q => rt q.p)).sum / (sensorParticles rt s.particles).length / 5880) := by
  unfold zhouCurves at hpts
  simp only [hn0] at hpts
  cases hd : evaluateAll (fun f => zhouOfFile cv' l0 (n0 * thousandths 100) f.text) cond.outputInterval dir with
  | error e => rw [hd] at hpts; cases hpts
  | ok data =>
    rw [hd] at hpts
    cases hpts
    obtain ⟨h1, h2⟩ := evaluateAll_spec hd
    refine ⟨by rw [List.length_map, h1, h.length], ?_⟩
    intro k rec hk
    obtain ⟨s, f1, f2, -, f4⟩ := h.file hk
    obtain ⟨v, e1, e2⟩ := h2 k _ f2
    have hmin : n0 * thousandths 100 = 0.1 * n0 := by rw [thousandths_real]; push_cast; ring
    rw [hmin] at e1
    obtain ⟨z1, z2⟩ := C69_zhou_of_file hpr hint hnum _ f4 l0 (0.1 * n0)
    have hne : sensorParticles rt s.particles ≠ [] := by
      intro h0
      rw [z2 h0] at e1; cases e1
    obtain ⟨g1, g2, z3, z4, z5⟩ := z1 hne
    rw [z3] at e1
    cases e1
    refine ⟨s, g1, g2, f1, z4, z5, hne, ?_⟩
    have e3 : (zhouH : ℝ) = 0.6 := by unfold zhouH; rw [thousandths_real]; norm_num
    have e4 : (zhouG : ℝ) = 9.8 := by unfold zhouG; rw [thousandths_real]; norm_num
    rw [List.getElem?_map, e2]
    simp only [Option.map_some, Scalar.sqrt, ofInt_real, e3, e4]
    have e5 : (((1000 : ℤ) : ℝ) * 9.8 * 0.6) = 5880 := by norm_num
    rw [e5]
    push_cast
    rfl

/-- **C69.**  The curves of `check_result.py` (called with the parameters of the scene and the output interval): if the script succeeds, point `k` has the abscissa `k * OutputInterval` and shows, for
the state at that time since the start, the roundness and the pressure in the centre. -/
theorem C69_check_curves (h : EvaluatedRun cfg cv pr sch cond a m csv P s0 outs dir) (hpr : pr.Clean) (hnum : ∀ v, cv'.num (pr.num v) = some (rt v))
    (hname : ∀ k, k < 100000 → cv'.int (padZeros 5 (natChars k)) = some (k : Int))
    {pi re n0 beta L : ℝ} (hn0 : calculateN0 re = some n0) {pts : List (ℝ × ℝ × ℝ)} (hpts : checkCurves cv' pi re beta cond.outputInterval L dir = .ok pts) :
    pts.length = outs.length ∧ ∀ (k : Nat) rec, outs[k]? = some rec → ∃ s rMax rMin, ∃ q ∈ s.particles, FileOf P sch s0 cond k rec s ∧
      IsGreatest (surfaceDists rt (n0 * beta) s.particles) rMax ∧ IsLeast (surfaceDists rt (n0 * beta) s.particles) rMin ∧ (∀ q' ∈ s.particles, centreDist rt q ≤ centreDist rt q') ∧
      pts[k]? = some (k * cond.outputInterval, 100 * (1 - (rMax - rMin) / (L / Real.sqrt pi)), rt q.p) := by
  unfold checkCurves at hpts
  obtain ⟨h1, h2⟩ := evaluateAll_spec hpts
  refine ⟨by rw [h1, h.length], ?_⟩
  intro k rec hk
  obtain ⟨s, f1, f2, f3, f4⟩ := h.file hk
  obtain ⟨v, e1, e2⟩ := h2 k _ f2
  have hne : s.particles ≠ [] := by
    intro h0
    have hrows := checkRows_output (cv := cv') hpr hnum s.particles
    rw [h0] at e1 hrows
    unfold checkOfFile at e1
    rw [hrows] at e1
    simp only [bind, Except.bind, List.map_nil] at e1
    split at e1
    · cases e1
    · cases e1
  have hnm : cv'.int ((((fileName rec.number).drop "result/".toList.length).drop 10).take 5) = some (rec.number : Int) := by
    rw [name_number (h.few_lt hk)]; exact hname _ (h.few_lt hk)
  obtain ⟨c1, c2⟩ := C69_check_of_file (cv := cv') hpr hnum hnm hn0 beta (L / Scalar.sqrt pi) s.particles hne
  have hex : ∃ q ∈ s.particles, rt q.n < n0 * beta := by
    by_contra hc
    push Not at hc
    rw [c2 hc] at e1; cases e1
  obtain ⟨rMax, rMin, q, hq, z1, z2, z3, z4⟩ := c1 hex
  rw [z1] at e1
  cases e1
  refine ⟨s, rMax, rMin, q, hq, f1, z2, z3, z4, ?_⟩
  rw [e2]
  simp only [ofInt_real, Scalar.sqrt]
  push_cast
  rfl

/-- **C69, a defect.**  With SPP, which is switched on by default, `check_result.py` fails for every file but the first, and so it fails as soon as the directory contains two files: after a step no particle (of a scene without dummies, of which the first step disables no
particle) has a density below `beta * n0`, so the script takes the maximum of an empty list.  `ε` bounds the relative change by printing and reading. -/
theorem C69_no_roundness_with_spp (h : EvaluatedRun cfg cv pr sch cond a m csv P s0 outs dir) (hspp : P.cfg.spp = true) (hpr : pr.Clean) (hnum : ∀ v, cv'.num (pr.num v) = some (rt v))
    (hname : ∀ k, k < 100000 → cv'.int (padZeros 5 (natChars k)) = some (k : Int))
    {ε : ℝ} (hε1 : ε ≤ 1) (hε : ∀ v, RelClose ε v (rt v)) (hre : 1 < a.reByL0) {beta : ℝ} (hb : beta ≤ 1 - ε) {s1 : State ℝ 2 Unit} (h1 : s0.afterSteps P sch 1 = .ok s1)
    (hact : ∀ i, i < s0.n → (s1.ps i).ty ≠ .dummy ∧ (s1.ps i).ty ≠ .disabled) (hpos : 0 < s0.n) (L pi : ℝ) :
    (∀ (k : Nat) f, 0 < k → (sortedFiles dir)[k]? = some f → checkOfFile cv' a.reByL0 beta (L / Real.sqrt pi) f.name f.text = .error .emptyMax) ∧
    (2 ≤ outs.length → ∃ e, checkCurves cv' pi a.reByL0 beta cond.outputInterval L dir = .error e) := by
  have main : ∀ (k : Nat) f, 0 < k → (sortedFiles dir)[k]? = some f → checkOfFile cv' a.reByL0 beta (L / Real.sqrt pi) f.name f.text = .error .emptyMax := by
    intro k f hk0 hf
    have hkl : k < outs.length := by
      rw [← h.length]
      by_contra hc
      rw [List.getElem?_eq_none (by omega)] at hf; cases hf
    have hk : outs[k]? = some outs[k] := List.getElem?_eq_getElem hkl
    have hkp : outs[k - 1]? = some outs[k - 1] := List.getElem?_eq_getElem (by omega)
    obtain ⟨s, f1, f2, f3, f4⟩ := h.file hk
    rw [hf, Option.some.injEq] at f2
    subst f2
    -- at least one step
    have hit : ∃ j, (outs[k]).iteration = j + 1 := by
      obtain ⟨fuel, hrun⟩ := h.run
      obtain ⟨dt, ht⟩ := C32_output_times (pr := pr) h.start h.valid h.interval h.steps h.courant h.l0 h.g h.c h.startTime h.endTime fuel
      rw [← hrun] at ht
      have hk' : outs[k - 1 + 1]? = some outs[k] := by rw [Nat.sub_add_cancel hk0]; exact hk
      have := (ht (k - 1) _ hkp).2.2.2.2.2.2.2 _ hk'
      have := h.steps
      exact ⟨(outs[k]).iteration - 1, by omega⟩
    obtain ⟨j, hj⟩ := hit
    have hst := f1.state
    rw [hj] at hst
    have hdens := C69_densities_after_steps hspp h.valid h1 hact j s hst
    have hn := (afterSteps_n0 h.valid _ s hst).1
    obtain ⟨env, ps, sn, e1, e2, e3, e4, e5⟩ := id h.start
    have hs0env : s0.env = env := by
      rw [e5]
      show sn.env = env
      unfold State.new? at e3
      split at e3
      · cases e3
      · cases e3; rfl
    have hn0 : calculateN0 a.reByL0 = some s0.env.n0 := by
      rw [hs0env]
      exact C67_check_uses_the_same_n0 (e := { a with maxDt := cond.outputInterval / Scalar.ofInt (m : Int) }) e1 h.l0
    have hn0pos : 0 < s0.env.n0 := by
      rw [hs0env]
      exact (C28_n0_positive_iff (e := { a with maxDt := cond.outputInterval / Scalar.ofInt (m : Int) }) e1 h.l0 (by norm_num)).1.mpr hre
    have hall : ∀ q ∈ s.particles, s0.env.n0 * beta ≤ rt q.n := by
      intro q hq
      obtain ⟨i, hi, rfl⟩ := List.mem_map.1 hq
      rw [List.mem_range, hn] at hi
      have hni := hdens i hi
      have hr := abs_le.1 (hε (s.ps i).n)
      rw [abs_of_pos (lt_of_lt_of_le hn0pos hni)] at hr
      nlinarith [mul_le_mul_of_nonneg_left hb hn0pos.le, mul_le_mul_of_nonneg_right hni (sub_nonneg.2 hε1)]
    have hne : s.particles ≠ [] := List.ne_nil_of_mem (List.mem_map.2 ⟨0, List.mem_range.2 (by rw [hn]; exact hpos), rfl⟩)
    exact (C69_check_of_file (cv := cv') hpr hnum (num := ((outs[k]).number : Int)) (by rw [name_number (h.few_lt hk)]; exact hname _ (h.few_lt hk)) hn0 beta _ s.particles hne).2 hall
  refine ⟨main, fun htwo => ?_⟩
  have hp : (sortedFiles dir).Perm dir := List.mergeSort_perm _ _
  have hl : 1 < (sortedFiles dir).length := by rw [h.length]; omega
  have hg : (sortedFiles dir)[1]? = some (sortedFiles dir)[1] := List.getElem?_eq_getElem hl
  exact evaluateAll_error ⟨_, hp.mem_iff.1 (List.getElem_mem hl), _, main 1 _ (by omega) hg⟩

/-- **C69, a defect.**  With SPP the condition `n > 0.1 n0`, by which `zhouetal1999.py` leaves out drops that have left the fluid, leaves out no fluid or wall particle, as soon as a step was done. -/
theorem C69_drops_count_with_spp (hspp : P.cfg.spp = true) (hv : ∀ k, (sch k).Valid s0.n) {ε : ℝ} (hε1 : ε < 0.9) (hε : ∀ v, RelClose ε v (rt v)) (hn0 : 0 < s0.env.n0)
    {k : Nat} {s : State ℝ 2 Unit} (hs : s0.afterSteps P sch (k + 1) = .ok s) {i : Nat} (hi : i < s.n) (h1 : (s.ps i).ty ≠ .dummy) (h2 : (s.ps i).ty ≠ .disabled) :
    0.1 * s0.env.n0 < rt (s.ps i).n := by
  obtain ⟨s', e1, e2⟩ := afterSteps_prev hs
  obtain ⟨n1, n2⟩ := afterSteps_n0 hv _ s' e1
  obtain ⟨m1, -⟩ := afterSteps_n0 hv _ s hs
  unfold State.forwardTimeAuto at e2
  cases hd : s'.determineDt with
  | none => rw [hd] at e2; cases e2
  | some dt =>
    rw [hd] at e2
    have hni := (C69_density_after_step hspp (by rw [n1]; exact hv _) e2 (i := i) (by rw [n1, ← m1]; exact hi)).1 h1 h2
    rw [n2] at hni
    have hr := abs_le.1 (hε (s.ps i).n)
    rw [abs_of_pos (lt_of_lt_of_le hn0 hni)] at hr
    nlinarith

/-- **C69.**  The pictures of `koshizukaoka1996_shape.py` (called with the output interval): picture `i`, with the title `0.1 i`, shows the positions of all particles in file `i * ⌊0.1 / OutputInterval⌋`; the time since the start of
that file is at most `i * OutputInterval` less and less than `MaxDt` more than the time in the title (and not less, if `OutputInterval` divides `0.1`). -/
theorem C69_shape_pictures (h : EvaluatedRun cfg cv pr sch cond a m csv P s0 outs dir) (hpr : pr.Clean) (hnum : ∀ v, cv'.num (pr.num v) = some (rt v))
    {pics : List (ℝ × List (ℝ × ℝ))} (hp : shapePictures cv' cond.outputInterval dir = .ok pics) :
    pics.length = 10 ∧ ∀ i : Nat, 1 ≤ i → i ≤ 10 → ∃ rec s, outs[i * ⌊0.1 / cond.outputInterval⌋₊]? = some rec ∧ FileOf P sch s0 cond (i * ⌊0.1 / cond.outputInterval⌋₊) rec s ∧
      pics[i - 1]? = some ((i : ℝ) * 0.1, s.particles.map (fun q => (rt (q.x 0), rt (q.x 1)))) ∧
      i * 0.1 - i * cond.outputInterval < rec.time - cond.startTime ∧ rec.time - cond.startTime < i * 0.1 + s0.env.maxDt ∧
      ((∃ d : ℕ, 0.1 = d * cond.outputInterval) → i * 0.1 ≤ rec.time - cond.startTime) := by
  have hI := h.interval
  have e0 : (thousandths 100 : ℝ) = 0.1 := by rw [thousandths_real]; norm_num
  unfold shapePictures at hp
  simp only [Scalar.floorIdx, e0] at hp
  set fl := ⌊(0.1 : ℝ) / cond.outputInterval⌋ with hfl
  have hfl0 : 0 ≤ fl := Int.floor_nonneg.2 (by positivity)
  have hnat : ((⌊(0.1 : ℝ) / cond.outputInterval⌋₊ : ℕ) : ℤ) = fl := by
    rw [hfl]; exact Int.natCast_floor_eq_floor (by positivity)
  obtain ⟨p1, p2⟩ := pyMap_spec hp
  refine ⟨p1, ?_⟩
  intro i hi1 hi2
  have hget : ([1, 2, 3, 4, 5, 6, 7, 8, 9, 10] : List Int)[i - 1]? = some (i : Int) := by
    interval_cases i <;> rfl
  obtain ⟨b, hb1, hb2⟩ := p2 (i - 1) (i : Int) hget
  set K := i * ⌊(0.1 : ℝ) / cond.outputInterval⌋₊ with hK
  have hidx : ((i : Int) * fl) = (K : Int) := by rw [hK, ← hnat]; push_cast; ring
  cases hf : pyIndex (sortedFiles dir) ((i : Int) * fl) with
  | error e => rw [hf] at hb2; cases hb2
  | ok f =>
    rw [hf] at hb2
    unfold pyIndex at hf
    rw [hidx, if_pos (by positivity), Int.toNat_natCast] at hf
    cases hfk : (sortedFiles dir)[K]? with
    | none => rw [hfk] at hf; cases hf
    | some f' =>
      rw [hfk] at hf
      cases hf
      have hkl : K < outs.length := by
        rw [← h.length]
        by_contra hc
        rw [List.getElem?_eq_none (by omega)] at hfk; cases hfk
      obtain ⟨s, f1, f2, f3, f4⟩ := h.file (List.getElem?_eq_getElem hkl)
      rw [hfk, Option.some.injEq] at f2
      subst f2
      have hrows : pyMap (fun r => do
          let x ← pyFloat cv' ['x'] r
          let z ← pyFloat cv' ['z'] r
          return (x, z)) (pyRows (outputToCsv pr s.particles)) = .ok (s.particles.map (fun q => (rt (q.x 0), rt (q.x 1)))) := by
        rw [pyRows_output hpr]
        generalize s.particles = ps
        induction ps with
        | nil => rfl
        | cons q ps ih =>
          obtain ⟨c1, c2, -, -⟩ := row_floats hnum q
          rw [List.map_cons, pyMap, c1, c2, ih]
          rfl
      simp only [bind, Except.bind] at hb2 hrows
      rw [hrows] at hb2
      cases hb2
      have t1 := f1.timeLe
      have t2 := f1.timeLt
      have hiR : (1 : ℝ) ≤ i := by exact_mod_cast hi1
      have hKR : (K : ℝ) = i * (fl : ℝ) := by
        have : ((K : ℤ) : ℝ) = (((i : ℤ) * fl : ℤ) : ℝ) := by rw [hidx]
        push_cast at this
        exact this
      have hle : (fl : ℝ) * cond.outputInterval ≤ 0.1 := by
        have := Int.floor_le ((0.1 : ℝ) / cond.outputInterval)
        rw [← hfl, le_div_iff₀ hI] at this
        exact this
      have hlt : (0.1 : ℝ) < (fl + 1) * cond.outputInterval := by
        have := Int.lt_floor_add_one ((0.1 : ℝ) / cond.outputInterval)
        rw [← hfl, div_lt_iff₀ hI] at this
        exact this
      rw [hKR] at t1 t2
      refine ⟨_, s, List.getElem?_eq_getElem hkl, f1, ?_, ?_, ?_, ?_⟩
      · rw [hb1]
        simp only [ofInt_real]
        push_cast
        rfl
      · nlinarith
      · nlinarith
      · rintro ⟨d, hd⟩
        have hfd : (fl : ℝ) = d := by
          have : (0.1 : ℝ) / cond.outputInterval = ((d : ℤ) : ℝ) := by
            rw [div_eq_iff hI.ne', hd]; push_cast; rfl
          rw [hfl, this, Int.floor_intCast]; push_cast; rfl
        rw [hfd] at t1
        rw [hd]
        linarith

end

end

end OpenMps
