import Verif.Props.Main
import Verif.Props.Csv
import Verif.Props.GridReal
import Verif.Spec.Toy
import Mathlib.Tactic.FinCases

/-! # Concrete runs of the main program (C32, C33) -/

set_option linter.unusedSectionVars false

namespace OpenMps

section
attribute [local instance] instScalarInt

/-- Integer runs evaluated by the kernel: `l_0 = 3`, `r_e = 3`, capacity 4. -/
def exArgs : EnvArgs Int 2 :=
  { maxDt := 0, courant := 0, g := 1, rho := 1, nu := 1, surfaceRatio := 0, reByL0 := 1, c := 1, l0 := 3, minX := ![0, 0], maxX := ![10, 10] }

def exArgs2 : EnvArgs Int 2 :=
  { maxDt := 0, courant := 1, g := 1, rho := 100, nu := 1, surfaceRatio := 0, reByL0 := 3, c := 1, l0 := 1, minX := ![0, 0], maxX := ![10, 10] }

def exCond : Condition Int := { eps := 1, startTime := 1, endTime := 3, outputInterval := 1 }

/-- Five particles in one block. -/
def exFull : List Char :=
  "Type,x,z,u,w,p,n\n+,+1,+1,+,+,+,+\n+,+1,+1,+,+,+,+\n+,+1,+1,+,+,+,+\n+,+1,+1,+,+,+,+\n+,+1,+1,+,+,+,+\n".toList

def exThree : List Char := "Type,x,z,u,w,p,n\n+,+1,+111,+,+,+,+\n+1,+11,+111,+,+,+,+\n+,+11,+11,+,+,+,+".toList

def exOne : List Char := "Type,x,z,u,w,p,n\n+1,+1,+1,+,+,+,+\n".toList

/-- No SPP, density error as source. -/
def exCfg : Config := { Config.default with spp := false, hs := false }

/-- Test of ending and numbers of the files. -/
def runIs (r : MainRes Int) (f : MainEnd Int → Bool) (numbers : List Nat) : Bool := f r.ending && r.outs.map OutRec.number == numbers

/-- A run that finishes: files 1, 2, 3. -/
example : runIs (mainProgram Config.default unaryConv unaryPrinter (fun _ => Schedule.serial 1) exCond exArgs2 1 exOne 3)
    (fun e => match e with | .finished => true | _ => false) [1, 2, 3] = true := by decide +kernel

/-- The start states of the following runs. -/
def startOf (cfg : Config) (a : EnvArgs Int 2) (csv : List Char) : Option (Params Int 2 Unit × State Int 2 Unit) :=
  match loadEnvironment cfg a 1 exCond.outputInterval, inputFromCsv (D := 2) unaryConv csv with
  | some env, .ok ps =>
    match State.new? env () with
    | some s => some ({ cfg := cfg, eps := exCond.eps, walls := mainWalls ps }, s.addParticles ps)
    | none => none
  | _, _ => none

theorem startOf_main {cfg : Config} {a : EnvArgs Int 2} {csv : List Char} {P : Params Int 2 Unit} {s0 : State Int 2 Unit}
    (h : startOf cfg a csv = some (P, s0)) : mainStart cfg unaryConv exCond a 1 csv P s0 := by
  unfold startOf at h
  split at h
  · rename_i env ps e1 e2
    split at h
    · rename_i s e3
      cases h
      exact ⟨env, ps, s, e1, e2, e3, rfl, rfl⟩
    · cases h
  · cases h

/-- The first step from a start state throws. -/
def firstThrows (cfg : Config) (a : EnvArgs Int 2) (csv : List Char) (n : Nat) (e : Exn) : Bool :=
  match startOf cfg a csv with
  | some (P, s0) => (s0.forwardTimeAuto P (Schedule.serial n)).check (fun _ => false) (fun e' _ => decide (e' = e))
  | none => false

theorem firstThrows_spec {cfg : Config} {a : EnvArgs Int 2} {csv : List Char} {n : Nat} {e : Exn} (h : firstThrows cfg a csv n e = true) :
    ∃ P s0 s', mainStart cfg unaryConv exCond a 1 csv P s0 ∧ s0.afterSteps P (fun _ => Schedule.serial n) 0 = .ok s0 ∧
      s0.afterSteps P (fun _ => Schedule.serial n) 1 = .exn e s' := by
  unfold firstThrows at h
  split at h
  · rename_i P s0 hs
    obtain ⟨e', s', h1, h2⟩ := Res.check_exn h
    have : e' = e := of_decide_eq_true h2
    subst this
    exact ⟨P, s0, s', startOf_main hs, rfl, h1⟩
  · cases h

/-- The hypotheses of `C33_grid_overflow_terminates` are met by a concrete run (which stops with its first file in place). -/
example : ∃ P s0 s', mainStart Config.default unaryConv exCond exArgs 1 exFull P s0 ∧
    s0.afterSteps P (fun _ => Schedule.serial 5) 0 = .ok s0 ∧ s0.afterSteps P (fun _ => Schedule.serial 5) 1 = .exn .gridFull s' :=
  firstThrows_spec (by decide +kernel)

example : runIs (mainProgram Config.default unaryConv unaryPrinter (fun _ => Schedule.serial 5) exCond exArgs 1 exFull 3)
    (fun e => match e with | .terminated => true | _ => false) [1] = true := by decide +kernel

/-- The hypotheses of `C33_solver_failure_stops_cleanly` are met by a concrete run. -/
example : ∃ P s0 s', mainStart exCfg unaryConv exCond exArgs2 1 exThree P s0 ∧
    s0.afterSteps P (fun _ => Schedule.serial 3) 0 = .ok s0 ∧ s0.afterSteps P (fun _ => Schedule.serial 3) 1 = .exn .solver s' :=
  firstThrows_spec (by decide +kernel)

example : runIs (mainProgram exCfg unaryConv unaryPrinter (fun _ => Schedule.serial 3) exCond exArgs2 1 exThree 3)
    (fun e => match e with | .solverError t it num => t == 0 && it == 0 && num == 2 | _ => false) [1] = true := by decide +kernel

example : toSize (exCond.startTime / exCond.outputInterval) = some 1 ∧
    toSize ((exCond.endTime - exCond.startTime) / exCond.outputInterval) = some 2 := by decide

end

/-! ## A run in exact arithmetic: two walls at rest -/

/-- Conversions into reals. -/
noncomputable def realConv : Conv ℝ := ⟨unaryParse, fun t => (unaryParse t).map Int.cast⟩

/-- Explicit pressure. -/
def restCfg : Config := { Config.default with explicit := true }

noncomputable def restCond : Condition ℝ := { eps := 0, startTime := 1, endTime := 6, outputInterval := 2 }

noncomputable def restArgs : EnvArgs ℝ 2 :=
  { maxDt := 0, courant := 1 / 10, g := 10, rho := 1000, nu := 0, surfaceRatio := 0, reByL0 := 2, c := 1, l0 := 1, minX := ![0, 0], maxX := ![10, 10] }

/-- One wall at `(1,1)`, one at `(3,1)`. -/
def restCsv : List Char := "\nType,z,x,u,w,p,n\n+1,+1,+1,+,+,+,+\n\n+1, +1, +111,+,+,+,+\n".toList

noncomputable def restPs : List (Particle ℝ 2) :=
  [{ x := ![((1 : ℤ) : ℝ), ((1 : ℤ) : ℝ)], u := ![((0 : ℤ) : ℝ), ((0 : ℤ) : ℝ)], p := ((0 : ℤ) : ℝ), n := ((0 : ℤ) : ℝ), ty := .wall },
   { x := ![((3 : ℤ) : ℝ), ((1 : ℤ) : ℝ)], u := ![((0 : ℤ) : ℝ), ((0 : ℤ) : ℝ)], p := ((0 : ℤ) : ℝ), n := ((0 : ℤ) : ℝ), ty := .wall }]

theorem rest_input : inputFromCsv (D := 2) realConv restCsv = .ok restPs := by rfl

noncomputable def restEnv : Env ℝ 2 := (loadEnvironment restCfg restArgs 10 restCond.outputInterval).get rfl

theorem restEnv_eq : loadEnvironment restCfg restArgs 10 restCond.outputInterval = some restEnv := rfl

noncomputable def restP : Params ℝ 2 Unit := { cfg := restCfg, eps := restCond.eps, walls := mainWalls restPs }

theorem rest_grid : ∃ s, State.new? restEnv () = some s := by
  unfold State.new? Grid.mk? allSome
  simp only [Scalar.ceilIdx, Option.isSome_some, implies_true, if_true]
  exact ⟨_, rfl⟩

noncomputable def restNew : State ℝ 2 Unit := rest_grid.choose

noncomputable def restStart : State ℝ 2 Unit := restNew.addParticles restPs

theorem rest_main : mainStart restCfg realConv restCond restArgs 10 restCsv restP restStart :=
  ⟨restEnv, restPs, restNew, restEnv_eq, rest_input, rest_grid.choose_spec, rfl, rfl⟩

theorem new_n {F : Type} [Scalar F] {D : Nat} {ω : Type} {env : Env F D} {w : ω} {s : State F D ω} (h : State.new? env w = some s) : s.n = 0 := by
  unfold State.new? at h
  split at h
  · cases h
  · cases h; rfl

theorem restNew_n : restNew.n = 0 := new_n rest_grid.choose_spec

theorem restStart_n : restStart.n = 2 := by
  show restNew.n + 2 = 2
  rw [restNew_n]

theorem restStart_ps (i : Nat) (hi : i < 2) : restStart.ps i = restPs.getD i (Particle.new .disabled) := by
  show (if i < restNew.n then _ else restPs.getD (i - restNew.n) _) = _
  rw [restNew_n]
  match i, hi with
  | 0, _ => rfl
  | 1, _ => rfl

theorem rest_valid : ∀ k : Nat, ((fun _ => Schedule.serial 2 : Nat → Schedule) k).Valid restStart.n := by
  intro _ k
  rw [restStart_n]
  exact validSched_serial 2

/-- Every step of this run succeeds and nothing moves. -/
theorem rest_still (k : Nat) : ∃ s, restStart.afterSteps restP (fun _ => Schedule.serial 2) k = .ok s ∧
    ∀ i, i < s.n → norm2 (s.ps i).u = 0 ∧ (s.ps i).ty = .wall := by
  have hh : ∃ dts, Hist restP restNew dts restStart := ⟨[], .add _ .start⟩
  have hcb : ∀ i, i < 2 → ∀ (w : Unit) (t dt : ℝ), restP.walls.pos w i t dt = (restStart.ps i).x := by
    intro i hi w t dt
    rw [restStart_ps i hi]; rfl
  have hwall : ∀ i, i < 2 → (restStart.ps i).ty ≠ .incompressibleNewton := by
    intro i hi
    rw [restStart_ps i hi]
    match i, hi with
    | 0, _ => exact fun h => by cases h
    | 1, _ => exact fun h => by cases h
  induction k with
  | zero =>
    refine ⟨restStart, rfl, fun i hi => ?_⟩
    rw [restStart_n] at hi
    rw [restStart_ps i hi, norm2_real]
    match i, hi with
    | 0, _ => exact ⟨by simp [restPs, dot_real], rfl⟩
    | 1, _ => exact ⟨by simp [restPs, dot_real], rfl⟩
  | succ k ih =>
    obtain ⟨s, hs, hty⟩ := ih
    obtain ⟨⟨dts, hist⟩, hn⟩ := afterSteps_hist (s1 := restNew) hh rest_valid k s hs
    rw [restStart_n] at hn
    have hstat : ∃ dts, Hist restP restStart dts s := (afterSteps_hist (s1 := restStart) ⟨[], .start⟩ rest_valid k s hs).1
    obtain ⟨dts', hist'⟩ := hstat
    have hpos : ∀ i, i < 2 → (s.ps i).x = (restStart.ps i).x := by
      intro i hi
      exact C15_static_walls_stay hist' i (by rw [restStart_n]; exact hi) (hwall i hi) (hcb i hi)
    have hl0 : restEnv.l0 = 1 := rfl
    have hnl : 0 < restEnv.neighborLength := by
      show (0 : ℝ) < restArgs.reByL0 * restArgs.l0 * (1 + restArgs.courant * ((2 : ℤ) : ℝ))
      simp only [restArgs]; norm_num
    have hdt : ∃ dt, s.determineDt = some dt := by
      unfold State.determineDt
      rw [if_neg (by omega)]
      exact ⟨_, rfl⟩
    obtain ⟨dt, hdt⟩ := hdt
    obtain ⟨s', hs'⟩ := C06_explicit_step_succeeds (P := restP) rest_grid.choose_spec hist (fun h => absurd h (by decide)) (by rw [hl0]; norm_num) hnl
      (by
        intro i j hij hj _ _
        have hi0 : i = 0 := by omega
        have hj0 : j = 1 := by omega
        subst hi0; subst hj0
        refine ⟨0, ?_⟩
        rw [hpos 0 (by omega), hpos 1 (by omega), restStart_ps 0 (by omega), restStart_ps 1 (by omega), hl0]
        show (1 : ℝ) ≤ |((1 : ℤ) : ℝ) - ((3 : ℤ) : ℝ)|
        rw [abs_of_nonpos (by norm_num)]
        norm_num)
      rfl (Schedule.serial 2) (by rw [hn]; intro k; exact validSched_serial 2) dt
    refine ⟨s', ?_, fun i hi => ?_⟩
    · show (restStart.afterSteps restP _ k).andThen _ = _
      rw [hs]
      show s.forwardTimeAuto restP (Schedule.serial 2) = _
      unfold State.forwardTimeAuto
      rw [hdt]
      exact hs'
    · have hv : (Schedule.serial 2).Valid s.n := by rw [hn]; intro k; exact validSched_serial 2
      have hn' : s'.n = s.n := (step_frame hv (Or.inl hs')).1
      rw [hn', hn] at hi
      constructor
      · rw [C15_static_walls_have_zero_velocity hist' i (by rw [restStart_n]; exact hi) (hwall i hi) (hcb i hi) (Schedule.serial 2) hv dt hs', norm2_real]
        simp [dot_real]
      · have hi2 : i < s.n := by rw [hn]; exact hi
        have ht := (hty i hi2).2
        rw [(C11_box rest_grid.choose_spec hist hnl (Schedule.serial 2) hv dt hs' i hi2 (by rw [ht]; exact fun h => by cases h)).1 ?_, ht]
        intro a
        rw [hpos i hi, restStart_ps i hi]
        have hmin : restEnv.minX = ![0, 0] := rfl
        have hmax : restEnv.maxX = ![10, 10] := rfl
        rw [hmin, hmax]
        match i, hi with
        | 0, _ => fin_cases a <;> simp [restPs] <;> linarith
        | 1, _ => fin_cases a <;> simp [restPs] <;> linarith

theorem rest_steps (k : Nat) : ∃ s, restStart.afterSteps restP (fun _ => Schedule.serial 2) k = .ok s ∧ ∀ i, i < s.n → norm2 (s.ps i).u ≤ 1 := by
  obtain ⟨s, h1, h2⟩ := rest_still k
  exact ⟨s, h1, fun i hi => by rw [(h2 i hi).1]; exact zero_le_one⟩

/-- The hypotheses of `C32_run_finishes` and `C32_output_times` are met: the run finishes and wrote the files 1, 2, 3, 4. -/
example (pr : Printer ℝ) : ∃ fuel, (mainProgram restCfg realConv pr (fun _ => Schedule.serial 2) restCond restArgs 10 restCsv fuel).ending = .finished ∧
    (mainProgram restCfg realConv pr (fun _ => Schedule.serial 2) restCond restArgs 10 restCsv fuel).outs.map OutRec.number = [1, 2, 3, 4] := by
  obtain ⟨fuel, h⟩ := C32_run_finishes (pr := pr) rest_main rest_valid (by norm_num [restCond]) (by norm_num) (by norm_num [restArgs]) (by norm_num [restArgs])
    (by norm_num [restArgs]) (by norm_num [restArgs]) (by norm_num [restCond]) (by norm_num [restCond]) 1 one_pos rest_steps
  refine ⟨fuel, h fuel (le_refl _), ?_⟩
  obtain ⟨o, e, h1, h2, h3⟩ := C32_number_of_files (h fuel (le_refl _))
  have ho : o = 1 := by
    have : toSize (restCond.startTime / restCond.outputInterval) = some 1 := by
      have hc : ⌈restCond.startTime / restCond.outputInterval⌉ = 1 := by
        rw [Int.ceil_eq_iff]; norm_num [restCond]
      show (if (0 : ℤ) ≤ ⌈restCond.startTime / restCond.outputInterval⌉ then some ⌈restCond.startTime / restCond.outputInterval⌉.toNat else none) = _
      rw [hc]; rfl
    rw [this] at h1; exact (Option.some.inj h1).symm
  have he : e = 3 := by
    have : toSize ((restCond.endTime - restCond.startTime) / restCond.outputInterval) = some 3 := by
      have hc : ⌈(restCond.endTime - restCond.startTime) / restCond.outputInterval⌉ = 3 := by
        rw [Int.ceil_eq_iff]; norm_num [restCond]
      show (if (0 : ℤ) ≤ ⌈(restCond.endTime - restCond.startTime) / restCond.outputInterval⌉ then
        some ⌈(restCond.endTime - restCond.startTime) / restCond.outputInterval⌉.toNat else none) = _
      rw [hc]; rfl
    rw [this] at h2; exact (Option.some.inj h2).symm
  rw [h3, ho, he]
  rfl

end OpenMps
