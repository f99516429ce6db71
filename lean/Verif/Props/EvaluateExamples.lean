import Verif.Props.EvaluateRun
import Verif.Props.TextExamples

/-! # Concrete cases for C69 -/

set_option linter.unusedSectionVars false

namespace OpenMps

/-! ## The conversions of the library -/

theorem stoi_padded (k : Nat) : stoi (padZeros 5 (natChars k)) = some (k : Int) := by
  obtain ⟨l, h1, h2, h3, h4, -⟩ := padZeros_spec 5 k
  have hs := spanDigits_map h2 noDigit_nil
  rw [List.append_nil] at hs
  unfold stoi
  rw [h1]
  have hsign : readSign (l.map digitChar) = (false, l.map digitChar) := by
    cases l with
    | nil => exact absurd rfl h4
    | cons a l =>
      have ha := h2 a (by simp)
      have hne : digitChar a ≠ '-' ∧ digitChar a ≠ '+' := by interval_cases a <;> decide
      rw [List.map_cons]
      unfold readSign
      split
      · rename_i h; injection h with h _; exact absurd h hne.1
      · rename_i h; injection h with h _; exact absurd h hne.2
      · rfl
  simp only
  rw [hsign]
  simp only
  rw [hs, if_neg h4, if_neg (by simp), h3]

theorem stod_shown (v : ℝ) : stod (exactStrtod ℝ) (numChars v) = some (shown v) := by
  unfold stod
  rw [readDecimal_numChars]
  rfl

/-- The hypotheses about printing and reading in C69 are met by the library's functions: what is read is the printed decimal. -/
example : (libPrinter : Printer ℝ).Clean ∧ (∀ k, (libConv (exactStrtod ℝ)).int ((libPrinter : Printer ℝ).int k) = some k) ∧
    (∀ v, (libConv (exactStrtod ℝ)).num ((libPrinter : Printer ℝ).num v) = some (shown v)) ∧
    (∀ k, k < 100000 → (libConv (exactStrtod ℝ)).int (padZeros 5 (natChars k)) = some (k : Int)) ∧ ∀ v : ℝ, RelClose (1 / 200000) v (shown v) :=
  ⟨libPrinter_clean, stoi_intChars, stod_shown, fun k _ => stoi_padded k, shown_error⟩

section
attribute [local instance] instScalarInt

/-- The edge from a literal file: the wall at 9 does not count. -/
example : edgeOfFile unaryConv "Type, x, z, u, w, p, n\n+, +1, +, +, +, +, +\n+1, +111111111, +, +, +, +, +\n\n+, +1111, +, +, +, +, +\n".toList = Except.ok (4 : Int) := by
  decide +kernel

example : edgeOfFile unaryConv "Type, x, z, u, w, p, n\n+1, +111, +, +, +, +, +\n".toList = (Except.error .emptyMax : Except PyErr Int) := by decide +kernel

end

/-! ## Two walls at rest: four files, which the script cannot evaluate -/

theorem rest_evaluated : ∃ outs, outs.map OutRec.number = [1, 2, 3, 4] ∧ EvaluatedRun restCfg (libConv (exactStrtod ℝ)) libPrinter (fun _ => Schedule.serial 2) restCond restArgs 10 (outputToCsv libPrinter restPs) restP restStart outs (resultDir outs).reverse := by
  obtain ⟨fuel, h⟩ := C32_run_finishes (pr := libPrinter) rest_main_lib rest_valid (by norm_num [restCond]) (by norm_num) (by norm_num [restArgs]) (by norm_num [restArgs])
    (by norm_num [restArgs]) (by norm_num [restArgs]) (by norm_num [restCond]) (by norm_num [restCond]) 1 one_pos rest_steps
  have c1 : ⌈restCond.startTime / restCond.outputInterval⌉₊ = 1 := by rw [Nat.ceil_eq_iff (by norm_num)]; norm_num [restCond]
  have c2 : ⌈(restCond.endTime - restCond.startTime) / restCond.outputInterval⌉₊ = 3 := by rw [Nat.ceil_eq_iff (by norm_num)]; norm_num [restCond]
  refine ⟨_, ?_, rest_main_lib, rest_valid, by norm_num [restCond], by norm_num, by norm_num [restArgs], by norm_num [restArgs], by norm_num [restArgs], by norm_num [restArgs], by norm_num [restCond],
    by norm_num [restCond], ?_, ⟨fuel, rfl⟩, List.reverse_perm _⟩
  · obtain ⟨o, e, h1, h2, h3⟩ := C32_number_of_files (h fuel (le_refl _))
    rw [toSize_real (by norm_num [restCond]), c1] at h1
    rw [toSize_real (by norm_num [restCond]), c2] at h2
    cases h1; cases h2
    rw [h3]; rfl
  · rw [c1, c2]; norm_num

/-- The hypotheses of `C69_no_roundness_with_spp` are met (the directory is listed backwards): the script with `beta = 0.97` fails for this run. -/
example : ∃ (outs : List (OutRec ℝ)) (e : PyErr), outs.length = 4 ∧
    EvaluatedRun restCfg (libConv (exactStrtod ℝ)) libPrinter (fun _ => Schedule.serial 2) restCond restArgs 10 (outputToCsv libPrinter restPs) restP restStart outs (resultDir outs).reverse ∧
    checkCurves (libConv (exactStrtod ℝ)) 3 restArgs.reByL0 0.97 restCond.outputInterval 1 (resultDir outs).reverse = .error e := by
  obtain ⟨outs, h1, h2⟩ := rest_evaluated
  have hlen : outs.length = 4 := by have := congrArg List.length h1; simpa using this
  obtain ⟨s1, hs1, hw⟩ := rest_still 1
  have hn : s1.n = 2 := (afterSteps_n0 rest_valid 1 s1 hs1).1.trans restStart_n
  obtain ⟨e, he⟩ := (C69_no_roundness_with_spp (cv' := libConv (exactStrtod ℝ)) h2 rfl libPrinter_clean stod_shown (fun k _ => stoi_padded k) (ε := 1 / 200000) (by norm_num) shown_error
    (by norm_num [restArgs]) (beta := 0.97) (by norm_num) hs1 (fun i hi => by
      rw [(hw i (by rw [hn]; rw [restStart_n] at hi; exact hi)).2]; exact ⟨fun h => (by cases h), fun h => (by cases h)⟩) (by rw [restStart_n]; norm_num) 1 3).2 (by omega)
  exact ⟨outs, e, hlen, h2, he⟩

/-! ## A drop and a wall at the sensor: two files -/

noncomputable def dripCond : Condition ℝ := { eps := 0, startTime := 0, endTime := 1 / 10, outputInterval := 1 / 10 }

noncomputable def dripArgs : EnvArgs ℝ 2 := { restArgs with minX := ![-5, -5] }

/-- A drop at `(0.5, 1)`, a wall at `(-1, 0.16)`. -/
noncomputable def dripPs : List (Particle ℝ 2) :=
  [{ x := ![1 / 2, 1], u := ![0, 0], p := 0, n := 0, ty := .incompressibleNewton }, { x := ![-1, 4 / 25], u := ![0, 0], p := 0, n := 0, ty := .wall }]

noncomputable def dripEnv : Env ℝ 2 := (loadEnvironment restCfg dripArgs 1 dripCond.outputInterval).get rfl

theorem dripEnv_eq : loadEnvironment restCfg dripArgs 1 dripCond.outputInterval = some dripEnv := rfl

noncomputable def dripP : Params ℝ 2 Unit := { cfg := restCfg, eps := dripCond.eps, walls := mainWalls dripPs }

theorem drip_grid : ∃ s, State.new? dripEnv () = some s := by
  unfold State.new? Grid.mk? allSome
  simp only [Scalar.ceilIdx, Option.isSome_some, implies_true, if_true]
  exact ⟨_, rfl⟩

noncomputable def dripNew : State ℝ 2 Unit := drip_grid.choose

noncomputable def dripStart : State ℝ 2 Unit := dripNew.addParticles dripPs

theorem shown_six {v : ℝ} (h : SixDigitDecimal v) : stod (exactStrtod ℝ) (numChars v) = some v := by
  unfold stod
  rw [C53_decimal_texts_are_read (C53_six_digit_numbers_are_shown_exactly h)]
  rfl

theorem shown_eq {v : ℝ} (h : SixDigitDecimal v) : shown v = v := by
  have := stod_shown v
  rw [shown_six h] at this
  exact (Option.some.inj this).symm

theorem six_drip : SixDigitDecimal (0 : ℝ) ∧ SixDigitDecimal (1 : ℝ) ∧ SixDigitDecimal (-1 : ℝ) ∧ SixDigitDecimal (1 / 2 : ℝ) ∧ SixDigitDecimal (4 / 25 : ℝ) := by
  refine ⟨⟨0, 0, by norm_num, by simp⟩, ⟨1, 0, by norm_num, by simp⟩, ⟨-1, 0, by norm_num, by simp⟩, ⟨5, -1, by norm_num, by norm_num⟩, ⟨16, -2, by norm_num, by norm_num⟩⟩

theorem drip_main : mainStart restCfg (libConv (exactStrtod ℝ)) dripCond dripArgs 1 (outputToCsv libPrinter dripPs) dripP dripStart := by
  obtain ⟨h0, h1, hm, hh, hz⟩ := six_drip
  refine ⟨dripEnv, dripPs, dripNew, dripEnv_eq, ?_, drip_grid.choose_spec, rfl, rfl⟩
  refine file_read_back (Or.inl rfl) libPrinter_clean stoi_intChars (fun q hq => ?_) ?_
  · simp only [dripPs, List.mem_cons, List.not_mem_nil, or_false] at hq
    rcases hq with rfl | rfl
    · exact ⟨0, rfl⟩
    · exact ⟨1, rfl⟩
  · refine .cons ⟨rfl, fun a => ?_, fun a => ?_, shown_six h0, shown_six h0⟩ (.cons ⟨rfl, fun a => ?_, fun a => ?_, shown_six h0, shown_six h0⟩ .nil)
    · match a with
      | 0 => exact shown_six hh
      | 1 => exact shown_six h1
    · match a with
      | 0 => exact shown_six h0
      | 1 => exact shown_six h0
    · match a with
      | 0 => exact shown_six hm
      | 1 => exact shown_six hz
    · match a with
      | 0 => exact shown_six h0
      | 1 => exact shown_six h0

theorem dripStart_n : dripStart.n = 2 := by
  show dripNew.n + 2 = 2
  rw [show dripNew.n = 0 from new_n drip_grid.choose_spec]

theorem dripStart_ps (i : Nat) (hi : i < 2) : dripStart.ps i = dripPs.getD i (Particle.new .disabled) := by
  show (if i < dripNew.n then _ else dripPs.getD (i - dripNew.n) _) = _
  rw [show dripNew.n = 0 from new_n drip_grid.choose_spec]
  match i, hi with
  | 0, _ => rfl
  | 1, _ => rfl

theorem drip_valid : ∀ k : Nat, ((fun _ => Schedule.serial 2 : Nat → Schedule) k).Valid dripStart.n := by
  intro _ k
  rw [dripStart_n]
  exact validSched_serial 2

theorem drip_maxDt : dripStart.env.maxDt = 1 / 10 := by
  have h1 : dripStart.env = dripEnv := (new_facts drip_grid.choose_spec).2.2.1
  rw [h1]
  show stdMin (dripCond.outputInterval / (((1 : ℤ)) : ℝ)) _ = _
  rw [stdMin_real]
  show min _ (dripArgs.courant * dripArgs.l0 / dripArgs.c) = (1 : ℝ) / 10
  norm_num [dripArgs, restArgs, dripCond]

/-- The first step: it is as large as possible, and no particle is disabled. -/
theorem drip_step : ∃ s', dripStart.afterSteps dripP (fun _ => Schedule.serial 2) 1 = .ok s' ∧ s'.env.t = 1 / 10 ∧ dripStart.env.t = 0 ∧ s'.n = 2 ∧
    (s'.ps 0).ty = .incompressibleNewton ∧ (s'.ps 1).ty = .wall ∧ (s'.ps 1).x = ![-1, 4 / 25] := by
  have hpos := mainStart_env drip_main (by norm_num [dripCond]) (by norm_num) (by norm_num [dripArgs, restArgs]) (by norm_num [dripArgs, restArgs])
    (by norm_num [dripArgs, restArgs]) (by norm_num [dripArgs, restArgs])
  have hist : Hist dripP dripNew [] dripStart := .add _ .start
  have hnl : 0 < dripEnv.neighborLength := by
    show (0 : ℝ) < dripArgs.reByL0 * dripArgs.l0 * (1 + dripArgs.courant * ((2 : ℤ) : ℝ))
    simp only [dripArgs, restArgs]; norm_num
  have hl0 : dripEnv.l0 = 1 := rfl
  obtain ⟨dt, hd, -, hle, -, hbig⟩ := C13_automatic_step_is_largest_cfl_step dripStart (by rw [dripStart_n]; norm_num) hpos.2.1 hpos.2.2
  have hdt : dt = dripStart.env.maxDt := le_antisymm hle (hbig _ le_rfl (fun i hi => by
    rw [dripStart_n] at hi
    have : norm2 (dripStart.ps i).u = 0 := by
      rw [dripStart_ps i hi, norm2_real]
      match i, hi with
      | 0, _ => simp [dripPs, dot_real]
      | 1, _ => simp [dripPs, dot_real]
    rw [this, zero_mul]
    exact hpos.2.2.le))
  rw [drip_maxDt] at hdt
  have hv := drip_valid 0
  obtain ⟨s', hs'⟩ := C06_explicit_step_succeeds (P := dripP) drip_grid.choose_spec hist (fun h => absurd h (by decide)) (by rw [hl0]; norm_num) hnl
    (by
      intro i j hij hj _ _
      rw [dripStart_n] at hj
      have hi0 : i = 0 := by omega
      have hj0 : j = 1 := by omega
      subst hi0; subst hj0
      refine ⟨0, ?_⟩
      rw [dripStart_ps 0 (by omega), dripStart_ps 1 (by omega), hl0]
      show (1 : ℝ) ≤ |1 / 2 - -1|
      norm_num)
    rfl (Schedule.serial 2) hv dt
  have hafter : dripStart.afterSteps dripP (fun _ => Schedule.serial 2) 1 = .ok s' := by
    show (Res.ok dripStart).andThen _ = _
    show dripStart.forwardTimeAuto dripP (Schedule.serial 2) = _
    unfold State.forwardTimeAuto
    rw [hd]
    exact hs'
  have hn : s'.n = 2 := (afterSteps_n0 drip_valid 1 s' hafter).1.trans dripStart_n
  have hty : ∀ i, i < 2 → (s'.ps i).ty = (dripStart.ps i).ty := by
    intro i hi
    have hmin : dripEnv.minX = ![-5, -5] := rfl
    have hmax : dripEnv.maxX = ![10, 10] := rfl
    refine (C11_box drip_grid.choose_spec hist hnl (Schedule.serial 2) hv dt hs' i (by rw [dripStart_n]; exact hi) ?_).1 ?_
    · rw [dripStart_ps i hi]
      match i, hi with
      | 0, _ => exact fun h => by cases h
      | 1, _ => exact fun h => by cases h
    · intro a
      rw [dripStart_ps i hi, hmin, hmax]
      match i, hi with
      | 0, _ => fin_cases a <;> simp [dripPs] <;> first | linarith | (constructor <;> linarith)
      | 1, _ => fin_cases a <;> simp [dripPs] <;> first | linarith | (constructor <;> linarith)
  have ht0 : dripStart.env.t = 0 := hpos.1
  refine ⟨s', hafter, ?_, ht0, hn, ?_, ?_, ?_⟩
  · rw [(step_frame hv (Or.inl hs')).2.1]
    show dripStart.env.t + dt = 1 / 10
    rw [ht0, hdt, zero_add]
  · rw [hty 0 (by norm_num), dripStart_ps 0 (by norm_num)]; rfl
  · rw [hty 1 (by norm_num), dripStart_ps 1 (by norm_num)]; rfl
  · rw [C15_static_walls_stay (P := dripP) (s0 := dripStart) (.forward (Schedule.serial 2) dt .start hv (Or.inl hs')) 1 (by rw [dripStart_n]; norm_num)
      (by rw [dripStart_ps 1 (by norm_num)]; exact fun h => by cases h) (fun w t dt => by rw [dripStart_ps 1 (by norm_num)]; rfl), dripStart_ps 1 (by norm_num)]
    rfl

/-- Two files. -/
noncomputable def dripRun : MainRes ℝ := mainProgram restCfg (libConv (exactStrtod ℝ)) libPrinter (fun _ => Schedule.serial 2) dripCond dripArgs 1 (outputToCsv libPrinter dripPs) 1

theorem drip_outs : ∃ s', dripStart.afterSteps dripP (fun _ => Schedule.serial 2) 1 = .ok s' ∧
    dripRun.outs = [mkOut libPrinter 0 0 0 dripStart, mkOut libPrinter 1 (1 / 10) 1 s'] ∧ dripRun.ending = .finished := by
  obtain ⟨s', h1, h2, h3, -⟩ := drip_step
  refine ⟨s', h1, ?_⟩
  have c1 : toSize (dripCond.startTime / dripCond.outputInterval) = some 0 := by
    rw [toSize_real (by norm_num [dripCond])]; congr 1; rw [Nat.ceil_eq_zero]; norm_num [dripCond]
  have c2 : toSize ((dripCond.endTime - dripCond.startTime) / dripCond.outputInterval) = some 1 := by
    rw [toSize_real (by norm_num [dripCond])]; congr 1; rw [Nat.ceil_eq_iff (by norm_num)]; norm_num [dripCond]
  have hstep : dripStart.forwardTimeAuto dripP (Schedule.serial 2) = .ok s' := by
    have : (Res.ok dripStart).andThen (fun s => s.forwardTimeAuto dripP (Schedule.serial 2)) = .ok s' := h1
    exact this
  have hin : innerLoop dripP (fun _ => Schedule.serial 2) (0 + dripCond.outputInterval) 1 dripStart 0 = .reached s' 1 := by
    unfold innerLoop
    rw [h3, if_pos (by simp [Scalar.lt, dripCond]), hstep]
    simp only
    unfold innerLoop
    rw [h2, if_neg (by simp [Scalar.lt, dripCond])]
  unfold dripRun
  rw [mainProgram_start drip_main]
  unfold runLoop
  rw [c1, c2]
  simp only [outerLoop]
  rw [hin]
  simp only [h2, List.cons_append, List.nil_append, and_true]
  norm_num [dripCond]

theorem drip_evaluated : EvaluatedRun restCfg (libConv (exactStrtod ℝ)) libPrinter (fun _ => Schedule.serial 2) dripCond dripArgs 1 (outputToCsv libPrinter dripPs) dripP dripStart dripRun.outs
    (resultDir dripRun.outs).reverse := by
  refine ⟨drip_main, drip_valid, by norm_num [dripCond], by norm_num, by norm_num [dripArgs, restArgs], by norm_num [dripArgs, restArgs], by norm_num [dripArgs, restArgs],
    by norm_num [dripArgs, restArgs], by norm_num [dripCond], by norm_num [dripCond], ?_, ⟨1, rfl⟩, List.reverse_perm _⟩
  have c1 : ⌈dripCond.startTime / dripCond.outputInterval⌉₊ = 0 := by rw [Nat.ceil_eq_zero]; norm_num [dripCond]
  have c2 : ⌈(dripCond.endTime - dripCond.startTime) / dripCond.outputInterval⌉₊ = 1 := by rw [Nat.ceil_eq_iff (by norm_num)]; norm_num [dripCond]
  rw [c1, c2]; norm_num

/-- The hypotheses of `C69_edge_curve` and `C69_edge_curve_succeeds` are met: two points of the curve. -/
example : ∃ pts, edgeCurve (libConv (exactStrtod ℝ)) 2 dripCond.outputInterval 10 (resultDir dripRun.outs).reverse = .ok pts ∧ pts.length = 2 := by
  obtain ⟨s', h1, h2, -⟩ := drip_outs
  obtain ⟨s'', g1, -, -, g4, g5, -⟩ := drip_step
  have : s'' = s' := by rw [h1] at g1; cases g1; rfl
  subst this
  obtain ⟨pts, hp⟩ := C69_edge_curve_succeeds (cv' := libConv (exactStrtod ℝ)) (rt := shown) drip_evaluated libPrinter_clean stoi_intChars stod_shown (by rw [h2]; simp)
    (by
      intro rec hrec s hs
      rw [h2] at hrec
      simp only [List.mem_cons, List.not_mem_nil, or_false] at hrec
      rcases hrec with rfl | rfl
      · cases hs
        exact ⟨0, by rw [dripStart_n]; norm_num, by rw [dripStart_ps 0 (by norm_num)]; rfl⟩
      · have hs' : dripStart.afterSteps dripP (fun _ => Schedule.serial 2) 1 = .ok s := hs
        rw [h1] at hs'
        cases hs'
        exact ⟨0, by rw [g4]; norm_num, g5⟩) 2 10
  refine ⟨pts, hp, ?_⟩
  rw [(C69_edge_curve drip_evaluated libPrinter_clean stoi_intChars stod_shown hp).1, h2]
  rfl

/-- The hypotheses of `C69_zhou_curves` are met: two points of the curves; the wall is at the sensor. -/
example : ∃ n0 pts, calculateN0 (2 : ℝ) = some n0 ∧ zhouCurves (libConv (exactStrtod ℝ)) 1 dripCond.outputInterval 2 (resultDir dripRun.outs).reverse = .ok pts ∧ pts.length = 2 := by
  obtain ⟨s', h1, h2, -⟩ := drip_outs
  obtain ⟨s'', g1, -, -, g4, -, g6, g7⟩ := drip_step
  have : s'' = s' := by rw [h1] at g1; cases g1; rfl
  subst this
  obtain ⟨n0, hn0⟩ : ∃ n0, calculateN0 (2 : ℝ) = some n0 := ⟨_, rfl⟩
  obtain ⟨-, -, hm, -, hz⟩ := six_drip
  have hsens : ∀ s : State ℝ 2 Unit, s.n = 2 → (s.ps 1).ty = .wall → (s.ps 1).x = ![-1, 4 / 25] → sensorParticles shown s.particles ≠ [] := by
    intro s k1 k2 k3
    refine List.ne_nil_of_mem (a := s.ps 1) ?_
    unfold sensorParticles
    rw [List.mem_filter]
    refine ⟨List.mem_map.2 ⟨1, List.mem_range.2 (by rw [k1]; norm_num), rfl⟩, ?_⟩
    rw [decide_eq_true_eq, k2, k3]
    show shown (-1 : ℝ) < 0 ∧ _ ∧ |shown (4 / 25 : ℝ) - 0.16| < 0.045
    rw [shown_eq hm, shown_eq hz]
    norm_num
  have hfile : ∀ f ∈ (resultDir dripRun.outs).reverse, ∃ v, zhouOfFile (libConv (exactStrtod ℝ)) 1 (n0 * thousandths 100) f.text = .ok v := by
    intro f hf
    rw [List.mem_reverse, h2] at hf
    simp only [resultDir, List.map_cons, List.map_nil, List.mem_cons, List.not_mem_nil, or_false] at hf
    have key : ∀ (k : Nat) (s : State ℝ 2 Unit), dripStart.afterSteps dripP (fun _ => Schedule.serial 2) k = .ok s → s.n = 2 → (s.ps 1).ty = .wall → (s.ps 1).x = ![-1, 4 / 25] →
        ∃ v, zhouOfFile (libConv (exactStrtod ℝ)) 1 (n0 * thousandths 100) (outputToCsv libPrinter s.particles) = .ok v := by
      intro k s k0 k1 k2 k3
      obtain ⟨a, b, c, -⟩ := (C69_zhou_of_file (cv := libConv (exactStrtod ℝ)) (rt := shown) libPrinter_clean stoi_intChars stod_shown s.particles
        (run_typesFromFiles drip_main drip_valid k s k0) 1 (n0 * thousandths 100)).1 (hsens s k1 k2 k3)
      exact ⟨_, c⟩
    rcases hf with rfl | rfl
    · exact key 0 dripStart rfl dripStart_n (by rw [dripStart_ps 1 (by norm_num)]; rfl) (by rw [dripStart_ps 1 (by norm_num)]; rfl)
    · exact key 1 s'' h1 g4 g6 g7
  obtain ⟨data, hd⟩ := evaluateAll_ok (dt := dripCond.outputInterval) (by rw [h2]; simp [resultDir]) hfile
  have hp : zhouCurves (libConv (exactStrtod ℝ)) 1 dripCond.outputInterval 2 (resultDir dripRun.outs).reverse =
      .ok (data.map (fun d => (d.1 * Scalar.sqrt (zhouG / zhouH), d.2.1 / zhouH, d.2.2.1 / zhouH, d.2.2.2 / (Scalar.ofInt 1000 * zhouG * zhouH)))) := by
    unfold zhouCurves
    simp only [hn0]
    rw [hd]
    rfl
  refine ⟨n0, _, hn0, hp, ?_⟩
  rw [(C69_zhou_curves drip_evaluated libPrinter_clean stoi_intChars stod_shown hn0 hp).1, h2]
  rfl

/-- The hypotheses of `C69_check_curves` are met (with a large `beta`): two points of the curves. -/
example : ∃ n0 beta pts, calculateN0 (2 : ℝ) = some n0 ∧ checkCurves (libConv (exactStrtod ℝ)) 3 2 beta dripCond.outputInterval 1 (resultDir dripRun.outs).reverse = .ok pts ∧ pts.length = 2 := by
  obtain ⟨s', h1, h2, -⟩ := drip_outs
  obtain ⟨s'', g1, -, -, g4, -, -, -⟩ := drip_step
  have : s'' = s' := by rw [h1] at g1; cases g1; rfl
  subst this
  have hn0 : calculateN0 (2 : ℝ) = some dripEnv.n0 :=
    C67_check_uses_the_same_n0 (e := { dripArgs with maxDt := dripCond.outputInterval / Scalar.ofInt ((1 : Nat) : Int) }) dripEnv_eq (by norm_num [dripArgs, restArgs])
  have hn0pos : 0 < dripEnv.n0 :=
    (C28_n0_positive_iff (e := { dripArgs with maxDt := dripCond.outputInterval / Scalar.ofInt ((1 : Nat) : Int) }) dripEnv_eq (by norm_num [dripArgs, restArgs]) (by norm_num)).1.mpr
      (by norm_num [dripArgs, restArgs])
  set M := |shown (dripStart.ps 0).n| + |shown (s''.ps 0).n| + 1 with hM
  have hmul : dripEnv.n0 * (M / dripEnv.n0) = M := by field_simp
  have hfile : ∀ f ∈ (resultDir dripRun.outs).reverse, ∃ v, checkOfFile (libConv (exactStrtod ℝ)) 2 (M / dripEnv.n0) (1 / Scalar.sqrt 3) f.name f.text = .ok v := by
    intro f hf
    rw [List.mem_reverse, h2] at hf
    simp only [resultDir, List.map_cons, List.map_nil, List.mem_cons, List.not_mem_nil, or_false] at hf
    have key : ∀ (k : Nat) (s : State ℝ 2 Unit), k < 100000 → 0 < s.n → shown (s.ps 0).n < M →
        ∃ v, checkOfFile (libConv (exactStrtod ℝ)) 2 (M / dripEnv.n0) (1 / Scalar.sqrt 3) ((fileName k).drop "result/".toList.length) (outputToCsv libPrinter s.particles) = .ok v := by
      intro k s k0 k1 k2
      have hmem : s.ps 0 ∈ s.particles := List.mem_map.2 ⟨0, List.mem_range.2 k1, rfl⟩
      obtain ⟨a, b, q, hq, c, -⟩ := (C69_check_of_file (cv := libConv (exactStrtod ℝ)) (rt := shown) libPrinter_clean stod_shown (num := (k : Int))
        (name := (fileName k).drop "result/".toList.length) (by rw [name_number k0]; exact stoi_padded k) hn0 (M / dripEnv.n0) (1 / Scalar.sqrt 3) s.particles
        (List.ne_nil_of_mem hmem)).1 ⟨s.ps 0, hmem, by rw [hmul]; exact k2⟩
      exact ⟨_, c⟩
    have a1 := abs_nonneg (shown (dripStart.ps 0).n)
    have a2 := abs_nonneg (shown (s''.ps 0).n)
    rcases hf with rfl | rfl
    · exact key 0 dripStart (by norm_num) (by rw [dripStart_n]; norm_num) (by have := le_abs_self (shown (dripStart.ps 0).n); linarith)
    · exact key 1 s'' (by norm_num) (by rw [g4]; norm_num) (by have := le_abs_self (shown (s''.ps 0).n); linarith)
  obtain ⟨pts, hp⟩ := evaluateAll_ok (dt := dripCond.outputInterval) (by rw [h2]; simp [resultDir]) hfile
  have hp' : checkCurves (libConv (exactStrtod ℝ)) 3 2 (M / dripEnv.n0) dripCond.outputInterval 1 (resultDir dripRun.outs).reverse = .ok pts := hp
  refine ⟨_, _, pts, hn0, hp', ?_⟩
  rw [(C69_check_curves drip_evaluated libPrinter_clean stod_shown (fun k _ => stoi_padded k) hn0 hp').1, h2]
  rfl

/-- The hypotheses of `C69_shape_pictures` are met.  The interval between the files is longer than the one between the pictures: all pictures show the first file. -/
example : ∃ outs pics, EvaluatedRun restCfg (libConv (exactStrtod ℝ)) libPrinter (fun _ => Schedule.serial 2) restCond restArgs 10 (outputToCsv libPrinter restPs) restP restStart outs (resultDir outs).reverse ∧
    shapePictures (libConv (exactStrtod ℝ)) restCond.outputInterval (resultDir outs).reverse = .ok pics := by
  obtain ⟨outs, h1, h2⟩ := rest_evaluated
  have hlen : outs.length = 4 := by have := congrArg List.length h1; simpa using this
  obtain ⟨s, f1, f2, -, -⟩ := h2.file (k := 0) (List.getElem?_eq_getElem (by omega))
  have hfl : Scalar.floorIdx ((thousandths 100 : ℝ) / restCond.outputInterval) = some 0 := by
    show some ⌊(thousandths 100 : ℝ) / restCond.outputInterval⌋ = some 0
    congr 1
    rw [Int.floor_eq_zero_iff, thousandths_real]
    norm_num [restCond]
  have hidx : ∀ i : Int, pyIndex (sortedFiles (resultDir outs).reverse) (i * 0) =
      .ok ⟨(fileName outs[0].number).drop "result/".toList.length, outputToCsv libPrinter s.particles⟩ := by
    intro i
    unfold pyIndex
    rw [mul_zero, if_pos le_rfl, Int.toNat_zero, f2]
  obtain ⟨data, hdata⟩ : ∃ data, pyMap (fun r => do
      let x ← pyFloat (libConv (exactStrtod ℝ)) ['x'] r
      let z ← pyFloat (libConv (exactStrtod ℝ)) ['z'] r
      return (x, z)) (pyRows (outputToCsv libPrinter s.particles)) = .ok data := by
    refine pyMap_exists (fun r hr => ?_)
    rw [pyRows_output libPrinter_clean] at hr
    obtain ⟨q, -, rfl⟩ := List.mem_map.1 hr
    obtain ⟨c1, c2, -, -⟩ := row_floats (cv := libConv (exactStrtod ℝ)) (pr := libPrinter) stod_shown q
    exact ⟨_, by rw [c1, c2]; rfl⟩
  obtain ⟨pics, hp⟩ : ∃ pics, shapePictures (libConv (exactStrtod ℝ)) restCond.outputInterval (resultDir outs).reverse = .ok pics := by
    unfold shapePictures
    rw [hfl]
    refine pyMap_exists (fun i _ => ?_)
    refine ⟨(Scalar.ofInt i * thousandths 100, data), ?_⟩
    rw [hidx i]
    simp only [bind, Except.bind] at hdata ⊢
    rw [hdata]
    rfl
  exact ⟨outs, pics, h2, hp⟩

end OpenMps
