import Verif.Lemmas.Main
import Verif.Props.TimeStep

/-! # The main program: C32, C33 -/

namespace OpenMps

set_option linter.unusedSectionVars false

section
variable {F : Type} [Scalar F] {D : Nat}

/-- The computer with which `main` enters its loop, and the parameters of that computer. -/
def mainStart (cfg : Config) (cv : Conv F) (cond : Condition F) (a : EnvArgs F D) (m : Nat) (csv : List Char) (P : Params F D Unit) (s0 : State F D Unit) :
    Prop :=
  ∃ env ps s, loadEnvironment cfg a m cond.outputInterval = some env ∧ inputFromCsv (D := D) cv csv = .ok ps ∧ State.new? env () = some s ∧
    P = { cfg := cfg, eps := cond.eps, walls := mainWalls ps } ∧ s0 = s.addParticles ps

/-- A run that wrote anything started its loop with some computer. -/
theorem mainProgram_start {cfg : Config} {cv : Conv F} {pr : Printer F} {sch : Nat → Schedule} {cond : Condition F} {a : EnvArgs F D} {m : Nat}
    {csv : List Char} {P : Params F D Unit} {s0 : State F D Unit} (h : mainStart cfg cv cond a m csv P s0) (fuel : Nat) :
    mainProgram cfg cv pr sch cond a m csv fuel = runLoop P sch pr cond fuel s0 := by
  obtain ⟨env, ps, s, h1, h2, h3, rfl, rfl⟩ := h
  unfold mainProgram
  simp only [h1, h2, h3]

theorem mainProgram_outs {cfg : Config} {cv : Conv F} {pr : Printer F} {sch : Nat → Schedule} {cond : Condition F} {a : EnvArgs F D} {m : Nat}
    {csv : List Char} {fuel : Nat} (h : (mainProgram cfg cv pr sch cond a m csv fuel).outs ≠ []) :
    ∃ P s0 offset, mainStart cfg cv cond a m csv P s0 ∧ toSize (cond.startTime / cond.outputInterval) = some offset := by
  unfold mainProgram at h
  cases h1 : loadEnvironment cfg a m cond.outputInterval with
  | none => simp [h1] at h
  | some env =>
    simp only [h1] at h
    cases h2 : inputFromCsv (D := D) cv csv with
    | error e => rw [h2] at h; cases e <;> exact absurd rfl h
    | ok ps =>
      simp only [h2] at h
      cases h3 : State.new? env () with
      | none => simp [h3] at h
      | some s =>
        simp only [h3] at h
        cases h4 : toSize (cond.startTime / cond.outputInterval) with
        | none => unfold runLoop at h; simp [h4] at h
        | some offset => exact ⟨_, _, offset, ⟨env, ps, s, h1, h2, h3, rfl, rfl⟩, rfl⟩

/-- **C33.** If a step throws the solver exception, the run (unless it has finished before or is not there yet) stops with the error
message, which shows time and number of steps before the failing step and the number of the file that was not written; it ends with
exit status 0. -/
theorem C33_solver_failure_stops_cleanly {cfg : Config} {cv : Conv F} {pr : Printer F} {sch : Nat → Schedule} {cond : Condition F} {a : EnvArgs F D}
    {m : Nat} {csv : List Char} {P : Params F D Unit} {s0 : State F D Unit} (h : mainStart cfg cv cond a m csv P s0) {offset endCount : Nat}
    (h1 : toSize (cond.startTime / cond.outputInterval) = some offset)
    (h2 : toSize ((cond.endTime - cond.startTime) / cond.outputInterval) = some endCount)
    {k : Nat} {s s' : State F D Unit} (hk : s0.afterSteps P sch k = .ok s) (hf : s0.afterSteps P sch (k + 1) = .exn .solver s')
    {fuel : Nat} (hfuel : k < fuel) {r : MainRes F} (hr : mainProgram cfg cv pr sch cond a m csv fuel = r)
    (hnf : r.outs.length ≠ endCount + 1) :
    r.ending = .solverError s.env.t k (offset + r.outs.length) ∧ r.ending.exitCode = some 0 ∧ r.outs.length ≤ endCount := by
  subst hr
  rw [mainProgram_start h] at hnf ⊢
  obtain ⟨_, hend, _⟩ := runLoop_spec P sch pr cond fuel s0 h1 h2
  have hst : ∀ t, s0.afterSteps P sch (k + 1) ≠ .ok t := by rw [hf]; intro t ht; cases ht
  unfold EndOK at hend
  cases he : (runLoop P sch pr cond fuel s0).ending with
  | finished => simp only [he] at hend; exact absurd hend hnf
  | solverError t it num =>
    simp only [he] at hend
    obtain ⟨e1, e2, s1, s2, e3, e4, e5⟩ := hend
    have : it = k := afterSteps_unique P sch s0 e3 (by rw [e5]; intro t ht; cases ht) hk hst
    subst this
    rw [hk] at e3
    cases e3
    exact ⟨by rw [e2, ← e4], rfl, e1⟩
  | terminated =>
    simp only [he] at hend
    obtain ⟨_, it, s1, s2, e3, e5⟩ := hend
    have : it = k := afterSteps_unique P sch s0 e3 (by rw [e5]; intro t ht; cases ht) hk hst
    subst this
    rw [hf] at e5; cases e5
  | undefined =>
    simp only [he] at hend
    obtain ⟨_, it, s1, e3, e5⟩ := hend
    have : it = k := afterSteps_unique P sch s0 e3 (by rw [e5]; intro t ht; cases ht) hk hst
    subst this
    rw [hf] at e5; cases e5
  | running =>
    simp only [he] at hend
    obtain ⟨_, it, s1, e1, e3, _⟩ := hend
    rw [afterSteps_stuck P sch s0 hst it (by omega), hf] at e3; cases e3

/-- **C33.** If a step throws "Too many particle in a block", the run is terminated by the uncaught exception. -/
theorem C33_grid_overflow_terminates {cfg : Config} {cv : Conv F} {pr : Printer F} {sch : Nat → Schedule} {cond : Condition F} {a : EnvArgs F D}
    {m : Nat} {csv : List Char} {P : Params F D Unit} {s0 : State F D Unit} (h : mainStart cfg cv cond a m csv P s0) {offset endCount : Nat}
    (h1 : toSize (cond.startTime / cond.outputInterval) = some offset)
    (h2 : toSize ((cond.endTime - cond.startTime) / cond.outputInterval) = some endCount)
    {k : Nat} {s s' : State F D Unit} (hk : s0.afterSteps P sch k = .ok s) (hf : s0.afterSteps P sch (k + 1) = .exn .gridFull s')
    {fuel : Nat} (hfuel : k < fuel) {r : MainRes F} (hr : mainProgram cfg cv pr sch cond a m csv fuel = r)
    (hnf : r.outs.length ≠ endCount + 1) :
    r.ending = .terminated ∧ r.ending.exitCode = none ∧ r.outs.length ≤ endCount := by
  subst hr
  rw [mainProgram_start h] at hnf ⊢
  obtain ⟨_, hend, _⟩ := runLoop_spec P sch pr cond fuel s0 h1 h2
  have hst : ∀ t, s0.afterSteps P sch (k + 1) ≠ .ok t := by rw [hf]; intro t ht; cases ht
  unfold EndOK at hend
  cases he : (runLoop P sch pr cond fuel s0).ending with
  | finished => simp only [he] at hend; exact absurd hend hnf
  | terminated => simp only [he] at hend; exact ⟨rfl, rfl, hend.1⟩
  | solverError t it num =>
    simp only [he] at hend
    obtain ⟨_, _, s1, s2, e3, _, e5⟩ := hend
    have : it = k := afterSteps_unique P sch s0 e3 (by rw [e5]; intro t ht; cases ht) hk hst
    subst this
    rw [hf] at e5; cases e5
  | undefined =>
    simp only [he] at hend
    obtain ⟨_, it, s1, e3, e5⟩ := hend
    have : it = k := afterSteps_unique P sch s0 e3 (by rw [e5]; intro t ht; cases ht) hk hst
    subst this
    rw [hf] at e5; cases e5
  | running =>
    simp only [he] at hend
    obtain ⟨_, it, s1, e1, e3, _⟩ := hend
    rw [afterSteps_stuck P sch s0 hst it (by omega), hf] at e3; cases e3

theorem enabledCount_particles (s : State F D Unit) :
    enabledCount s.particles = ((Finset.range s.n).filter (fun i => (s.ps i).ty ≠ .disabled)).card := by
  unfold enabledCount State.particles
  rw [List.filter_map, List.length_map]
  rfl

/-- **C32/C33.** At every moment of every run (finished, stopped, terminated or still running), the files written so far are numbered consecutively
from `offset`, file `k` holds the particles after the number of steps shown with it, and the count shown with it is the number of enabled particles. -/
theorem C33_written_files_are_in_place {cfg : Config} {cv : Conv F} {pr : Printer F} {sch : Nat → Schedule} {cond : Condition F} {a : EnvArgs F D}
    {m : Nat} {csv : List Char} {P : Params F D Unit} {s0 : State F D Unit} (h : mainStart cfg cv cond a m csv P s0) {offset endCount : Nat}
    (h1 : toSize (cond.startTime / cond.outputInterval) = some offset)
    (h2 : toSize ((cond.endTime - cond.startTime) / cond.outputInterval) = some endCount) (fuel : Nat)
    {k : Nat} {rec : OutRec F} (hrec : (mainProgram cfg cv pr sch cond a m csv fuel).outs[k]? = some rec) :
    rec.number = offset + k ∧ k ≤ endCount ∧ ∃ s, s0.afterSteps P sch rec.iteration = .ok s ∧ rec.text = outputToCsv pr s.particles ∧
      rec.count = ((Finset.range s.n).filter (fun i => (s.ps i).ty ≠ .disabled)).card := by
  rw [mainProgram_start h] at hrec
  obtain ⟨hok, hend, _⟩ := runLoop_spec P sch pr cond fuel s0 h1 h2
  obtain ⟨e1, s, e2, e3, e4, _⟩ := hok.each k rec hrec
  refine ⟨e1, ?_, s, e2, e3, e4.trans (enabledCount_particles s)⟩
  have hlt : k < (runLoop P sch pr cond fuel s0).outs.length := by
    by_contra hc
    rw [List.getElem?_eq_none (by omega)] at hrec; cases hrec
  unfold EndOK at hend
  split at hend
  · omega
  · have := hend.1; omega
  · have := hend.1; omega
  · have := hend.1; omega
  · have := hend.1; omega

/-- **C32.** A run that finishes wrote `endCount + 1` files. -/
theorem C32_number_of_files {cfg : Config} {cv : Conv F} {pr : Printer F} {sch : Nat → Schedule} {cond : Condition F} {a : EnvArgs F D}
    {m : Nat} {csv : List Char} {fuel : Nat} (hfin : (mainProgram cfg cv pr sch cond a m csv fuel).ending = .finished) :
    ∃ offset endCount, toSize (cond.startTime / cond.outputInterval) = some offset ∧
      toSize ((cond.endTime - cond.startTime) / cond.outputInterval) = some endCount ∧
      (mainProgram cfg cv pr sch cond a m csv fuel).outs.map OutRec.number = (List.range (endCount + 1)).map (offset + ·) := by
  have hne : (mainProgram cfg cv pr sch cond a m csv fuel).outs ≠ [] := by
    intro he
    unfold mainProgram at he hfin
    cases h1 : loadEnvironment cfg a m cond.outputInterval with
    | none => simp [h1] at hfin
    | some env =>
      simp only [h1] at he hfin
      cases h2 : inputFromCsv (D := D) cv csv with
      | error e => rw [h2] at hfin; cases e <;> cases hfin
      | ok ps =>
        simp only [h2] at he hfin
        cases h3 : State.new? env () with
        | none => simp [h3] at hfin
        | some s =>
          simp only [h3] at he hfin
          cases h4 : toSize (cond.startTime / cond.outputInterval) with
          | none => unfold runLoop at hfin; simp [h4] at hfin
          | some offset =>
            cases h5 : toSize ((cond.endTime - cond.startTime) / cond.outputInterval) with
            | none => unfold runLoop at hfin; simp [h4, h5] at hfin
            | some endCount =>
              have := (runLoop_spec { cfg := cfg, eps := cond.eps, walls := mainWalls ps } sch pr cond fuel (s.addParticles ps) h4 h5).2.2
              rw [he] at this
              simp at this
  obtain ⟨P, s0, offset, hst, h4⟩ := mainProgram_outs hne
  rw [mainProgram_start hst] at hfin ⊢
  cases h5 : toSize ((cond.endTime - cond.startTime) / cond.outputInterval) with
  | none => unfold runLoop at hfin; simp [h4, h5] at hfin
  | some endCount =>
    refine ⟨offset, endCount, h4, rfl, ?_⟩
    obtain ⟨hok, hend, _⟩ := runLoop_spec P sch pr cond fuel s0 h4 h5
    unfold EndOK at hend
    simp only [hfin] at hend
    apply List.ext_getElem?
    intro k
    rw [List.getElem?_map, List.getElem?_map]
    by_cases hk : k < endCount + 1
    · have hk' : k < (runLoop P sch pr cond fuel s0).outs.length := by omega
      have hg := List.getElem?_eq_getElem hk'
      rw [hg, List.getElem?_range hk]
      simp only [Option.map_some, Option.some.injEq]
      exact (hok.each k _ hg).1
    · rw [List.getElem?_eq_none (by omega), List.getElem?_eq_none (by simp; omega)]
      rfl

theorem afterSteps_prev {P : Params F D Unit} {sch : Nat → Schedule} {s0 s : State F D Unit} {k : Nat} (h : s0.afterSteps P sch (k + 1) = .ok s) :
    ∃ s', s0.afterSteps P sch k = .ok s' ∧ s'.forwardTimeAuto P (sch k) = .ok s := by
  have h' : (s0.afterSteps P sch k).andThen (fun s => s.forwardTimeAuto P (sch k)) = .ok s := h
  cases hk : s0.afterSteps P sch k with
  | ok s' => rw [hk] at h'; exact ⟨s', rfl, h'⟩
  | exn e s' => rw [hk] at h'; cases h'
  | ub => rw [hk] at h'; cases h'

/-- A sequence of steps is a history. -/
theorem afterSteps_hist {P : Params F D Unit} {sch : Nat → Schedule} {s0 s1 : State F D Unit} (h0 : ∃ dts, Hist P s1 dts s0)
    (hv : ∀ k, (sch k).Valid s0.n) : ∀ (k : Nat) (s : State F D Unit), s0.afterSteps P sch k = .ok s → (∃ dts, Hist P s1 dts s) ∧ s.n = s0.n
  | 0, s, h => by cases h; exact ⟨h0, rfl⟩
  | k + 1, s, h => by
    obtain ⟨s', h1, h2⟩ := afterSteps_prev h
    obtain ⟨⟨dts, hh⟩, hn⟩ := afterSteps_hist h0 hv k s' h1
    have h2' := h2
    unfold State.forwardTimeAuto at h2'
    cases hd : s'.determineDt with
    | none => rw [hd] at h2'; cases h2'
    | some dt =>
      rw [hd] at h2'
      refine ⟨⟨_, .auto (sch k) dt hh (by rw [hn]; exact hv k) hd (Or.inl h2)⟩, ?_⟩
      rw [(step_frame (by rw [hn]; exact hv k) (Or.inl h2')).1, hn]

end

/-! ## Times of the outputs (exact arithmetic) -/

variable {D : Nat}

theorem outTime_real (I : ℝ) (k : Nat) : outTime I k = k * I := by
  induction k with
  | zero => show (0 : ℝ) = _; simp
  | succ k ih => show outTime I k + I = _; rw [ih]; push_cast; ring

/-- Size of step `j`. -/
noncomputable def stepSize (P : Params ℝ D Unit) (sch : Nat → Schedule) (s0 : State ℝ D Unit) (j : Nat) : ℝ :=
  match s0.afterSteps P sch j with
  | .ok s => s.determineDt.getD 0
  | _ => 0

/-- Invariants along the steps. -/
theorem afterSteps_inv {P : Params ℝ D Unit} {sch : Nat → Schedule} {s0 : State ℝ D Unit} (hv : ∀ k, (sch k).Valid s0.n)
    (hdt : 0 < s0.env.maxDt) (hdx : 0 < s0.env.maxDx) : ∀ (k : Nat) (s : State ℝ D Unit), s0.afterSteps P sch k = .ok s →
    s.n = s0.n ∧ s.env.maxDt = s0.env.maxDt ∧ s.env.maxDx = s0.env.maxDx ∧
    s.env.t = s0.env.t + ∑ j ∈ Finset.range k, stepSize P sch s0 j ∧
    (∀ j, j < k → 0 < stepSize P sch s0 j ∧ stepSize P sch s0 j ≤ s0.env.maxDt)
  | 0, s, h => by
    cases h
    exact ⟨rfl, rfl, rfl, by simp, fun j hj => by omega⟩
  | k + 1, s, h => by
    obtain ⟨s', h1, h2⟩ := afterSteps_prev h
    obtain ⟨i1, i2, i3, i4, i5⟩ := afterSteps_inv hv hdt hdx k s' h1
    have hn : 0 < s'.n := by
      by_contra hc
      rw [C13_no_particles_is_undefined P (sch k) s' (by omega)] at h2
      cases h2
    obtain ⟨dt, hd, hpos, hle, _⟩ := C13_automatic_step_is_largest_cfl_step s' hn (by rw [i2]; exact hdt) (by rw [i3]; exact hdx)
    have hss : stepSize P sch s0 k = dt := by
      unfold stepSize; rw [h1]; simp only; rw [hd]; rfl
    unfold State.forwardTimeAuto at h2
    rw [hd] at h2
    simp only at h2
    obtain ⟨f1, f2, _⟩ := step_frame (by rw [i1]; exact hv k) (Or.inl h2)
    refine ⟨by rw [f1, i1], by rw [f2]; exact i2, by rw [f2]; exact i3, ?_, fun j hj => ?_⟩
    · rw [f2]
      show s'.env.t + dt = _
      rw [i4, Finset.sum_range_succ, hss]; exact add_assoc _ _ _
    · by_cases hjk : j = k
      · subst hjk; rw [hss]; exact ⟨hpos, by rw [← i2]; exact hle⟩
      · exact i5 j (by omega)

/-- The times of the outputs, in terms of the sizes of the steps. -/
theorem output_times {cfg : Config} {cv : Conv ℝ} {pr : Printer ℝ} {sch : Nat → Schedule} {cond : Condition ℝ} {a : EnvArgs ℝ D}
    {m : Nat} {csv : List Char} {P : Params ℝ D Unit} {s0 : State ℝ D Unit} (h : mainStart cfg cv cond a m csv P s0)
    (hv : ∀ k, (sch k).Valid s0.n) (hI : 0 < cond.outputInterval) (hm : 0 < m) (hc : 0 < a.courant) (hl : 0 < a.l0) (hg : 0 < a.g) (hcs : 0 < a.c)
    (hst : 0 ≤ cond.startTime) (hse : cond.startTime ≤ cond.endTime) (fuel : Nat) :
    let r := mainProgram cfg cv pr sch cond a m csv fuel
    ∀ (k : Nat) rec, r.outs[k]? = some rec →
      (∀ j, j < rec.iteration → 0 < stepSize P sch s0 j ∧ stepSize P sch s0 j ≤ s0.env.maxDt) ∧
      rec.number = ⌈cond.startTime / cond.outputInterval⌉₊ + k ∧
      k ≤ ⌈(cond.endTime - cond.startTime) / cond.outputInterval⌉₊ ∧
      rec.time = cond.startTime + ∑ j ∈ Finset.range rec.iteration, stepSize P sch s0 j ∧
      k * cond.outputInterval ≤ ∑ j ∈ Finset.range rec.iteration, stepSize P sch s0 j ∧
      ∑ j ∈ Finset.range rec.iteration, stepSize P sch s0 j < k * cond.outputInterval + s0.env.maxDt ∧
      (∀ it, it < rec.iteration → ∑ j ∈ Finset.range it, stepSize P sch s0 j < k * cond.outputInterval) ∧
      (∀ rec', r.outs[k + 1]? = some rec' → rec.iteration + m ≤ rec'.iteration) := by
  intro r
  have hsz : ∀ v : ℝ, 0 ≤ v → toSize v = some ⌈v⌉₊ := by
    intro v hv0
    have hc0 : 0 ≤ ⌈v⌉ := Int.ceil_nonneg hv0
    show (if (0 : ℤ) ≤ ⌈v⌉ then some ⌈v⌉.toNat else none) = _
    rw [if_pos hc0]; rfl
  have h1 := hsz _ (div_nonneg hst hI.le)
  have h2 := hsz _ (div_nonneg (sub_nonneg.2 hse) hI.le)
  -- the environment
  have hmR : (0 : ℝ) < m := by exact_mod_cast hm
  obtain ⟨env, ps, s, e1, e2, e3, e4, e5⟩ := id h
  have hmd : 0 < cond.outputInterval / Scalar.ofInt (m : Int) := by
    show 0 < cond.outputInterval / (((m : ℤ)) : ℝ)
    push_cast; positivity
  obtain ⟨env', g1, g2, g3, g4, g5, _⟩ := C13_limits_of_constructor cfg
    { a with maxDt := cond.outputInterval / Scalar.ofInt (m : Int) } hmd hc hl hg hcs
  have henv : env' = env := by
    have : loadEnvironment cfg a m cond.outputInterval = some env' := g1
    rw [e1] at this; exact (Option.some.inj this).symm
  subst henv
  have hs0env : s0.env = env' := by
    rw [e5]
    show s.env = env'
    unfold State.new? at e3
    split at e3
    · cases e3
    · cases e3; rfl
  have hs0t : s0.env.t = 0 := by
    rw [hs0env]
    unfold Env.mk? at g1
    split at g1
    · cases g1
    · cases g1; rfl
  have hmaxm : s0.env.maxDt ≤ cond.outputInterval / m := by
    rw [hs0env]
    refine le_trans g5 (le_of_eq ?_)
    show cond.outputInterval / (((m : ℤ)) : ℝ) = _
    push_cast; rfl
  have hmd0 : 0 < s0.env.maxDt := by rw [hs0env]; exact g2
  have hmx0 : 0 < s0.env.maxDx := by rw [hs0env]; exact g4
  have hmaxI : s0.env.maxDt ≤ cond.outputInterval := by
    refine le_trans hmaxm (div_le_self hI.le ?_)
    exact_mod_cast hm
  have hr : r = runLoop P sch pr cond fuel s0 := mainProgram_start h fuel
  obtain ⟨hok, _, hlen⟩ := runLoop_spec P sch pr cond fuel s0 h1 h2
  rw [← hr] at hok hlen
  set dt := stepSize P sch s0 with hdtdef
  have hinv := fun k s hs => afterSteps_inv (P := P) (s0 := s0) hv hmd0 hmx0 k s hs
  have hsum : ∀ k s, s0.afterSteps P sch k = .ok s → s.env.t = ∑ j ∈ Finset.range k, dt j := by
    intro k s hs
    rw [(hinv k s hs).2.2.2.1, hs0t, zero_add]
  have hlt : ∀ x y : ℝ, Scalar.lt x y = true ↔ x < y := fun x y => by
    show decide (x < y) = true ↔ _
    rw [decide_eq_true_eq]
  have hlt' : ∀ x y : ℝ, Scalar.lt x y = false ↔ y ≤ x := fun x y => by
    show decide (x < y) = false ↔ _
    rw [decide_eq_false_iff_not, not_lt]
  -- induction on the outputs
  have key : ∀ (k : Nat) rec, r.outs[k]? = some rec →
      k * cond.outputInterval ≤ ∑ j ∈ Finset.range rec.iteration, dt j ∧
      ∑ j ∈ Finset.range rec.iteration, dt j < k * cond.outputInterval + s0.env.maxDt ∧
      (∀ it, it < rec.iteration → ∑ j ∈ Finset.range it, dt j < k * cond.outputInterval) := by
    intro k
    induction k with
    | zero =>
      intro rec hrec
      have := hok.first rec hrec
      rw [this]
      simp only [Finset.range_zero, Finset.sum_empty, Nat.cast_zero, zero_mul, zero_add]
      exact ⟨le_refl _, hmd0, fun it hit => by omega⟩
    | succ k ih =>
      intro rec' hrec'
      have hk : k < r.outs.length := by
        by_contra hc
        rw [List.getElem?_eq_none (by omega)] at hrec'; cases hrec'
      have hrec := List.getElem?_eq_getElem hk
      obtain ⟨i1, i2, i3⟩ := ih _ hrec
      obtain ⟨n1, n2⟩ := hok.next k _ rec' hrec hrec'
      obtain ⟨_, s', f1, _, _, _, f2⟩ := hok.each (k + 1) rec' hrec'
      have f3 := (hlt' _ _).1 (f2 (by omega))
      rw [hsum _ _ f1, outTime_real] at f3
      refine ⟨f3, ?_, ?_⟩
      · -- the last step
        have hne : r.outs[k].iteration < rec'.iteration := by
          rcases Nat.lt_or_ge r.outs[k].iteration rec'.iteration with h | h
          · exact h
          · have : r.outs[k].iteration = rec'.iteration := by omega
            rw [this] at i2
            push_cast at f3
            nlinarith
        obtain ⟨sp, p1, p2⟩ := n2 (rec'.iteration - 1) (by omega) (by omega)
        have p3 := (hlt _ _).1 p2
        rw [hsum _ _ p1, outTime_real] at p3
        have hd := ((hinv _ _ f1).2.2.2.2 (rec'.iteration - 1) (by omega)).2
        have : rec'.iteration = rec'.iteration - 1 + 1 := by omega
        rw [this, Finset.sum_range_succ]
        linarith
      · intro it hit
        rcases Nat.lt_or_ge it r.outs[k].iteration with h | h
        · have := i3 it h
          push_cast
          nlinarith
        · obtain ⟨sp, p1, p2⟩ := n2 it h hit
          have p3 := (hlt _ _).1 p2
          rwa [hsum _ _ p1, outTime_real] at p3
  intro k rec hrec
  obtain ⟨k1, k2, k3⟩ := key k rec hrec
  obtain ⟨f0, s', f1, ft, fc, ftime, _⟩ := hok.each k rec hrec
  have hk' := C33_written_files_are_in_place h h1 h2 fuel (k := k) (rec := rec) hrec
  refine ⟨(hinv _ _ f1).2.2.2.2, f0, hk'.2.1, ?_, k1, k2, k3, ?_⟩
  · rw [ftime]
    split
    · rename_i hk0
      subst hk0
      rw [hok.first rec hrec]
      simp
    · rw [hsum _ _ f1, add_comm]
  · intro rec' hrec'
    obtain ⟨k1', _, _⟩ := key (k + 1) rec' hrec'
    obtain ⟨n1, _⟩ := hok.next k rec rec' hrec hrec'
    obtain ⟨_, s'', f1', _⟩ := hok.each (k + 1) rec' hrec'
    obtain ⟨d, hd⟩ : ∃ d, rec'.iteration = rec.iteration + d := ⟨rec'.iteration - rec.iteration, by omega⟩
    have hdiff : ∑ j ∈ Finset.range rec'.iteration, dt j ≤ ∑ j ∈ Finset.range rec.iteration, dt j + d * s0.env.maxDt := by
      rw [hd, Finset.sum_range_add]
      have : ∑ x ∈ Finset.range d, dt (rec.iteration + x) ≤ ∑ x ∈ Finset.range d, s0.env.maxDt := by
        apply Finset.sum_le_sum
        intro x hx
        rw [Finset.mem_range] at hx
        exact ((hinv _ _ f1').2.2.2.2 _ (by omega)).2
      rw [Finset.sum_const, Finset.card_range, nsmul_eq_mul] at this
      linarith
    have hgt : cond.outputInterval < (d + 1) * s0.env.maxDt := by
      push_cast at k1'
      nlinarith
    have hgt2 : cond.outputInterval < (d + 1) * (cond.outputInterval / m) :=
      lt_of_lt_of_le hgt (mul_le_mul_of_nonneg_left hmaxm (by positivity))
    have hgt3 : (m : ℝ) < d + 1 := by
      rw [mul_div_assoc', lt_div_iff₀ hmR] at hgt2
      nlinarith
    have : m < d + 1 := by exact_mod_cast hgt3
    omega

/-- **C32.** The times of the outputs.  Let `dt j` be the size of step `j`.  Output `k` shows the time `StartTime + dt 0 + ... + dt (n_k - 1)` where `n_k`
(the step count shown) is the *least* number of steps after which the elapsed time has reached `k * OutputInterval`; the elapsed time exceeds it by less than
`MaxDt`; and there are at least `minStepCountPerOutput` steps between consecutive outputs.  All of this holds for every run, however it ends. -/
theorem C32_output_times {cfg : Config} {cv : Conv ℝ} {pr : Printer ℝ} {sch : Nat → Schedule} {cond : Condition ℝ} {a : EnvArgs ℝ D}
    {m : Nat} {csv : List Char} {P : Params ℝ D Unit} {s0 : State ℝ D Unit} (h : mainStart cfg cv cond a m csv P s0)
    (hv : ∀ k, (sch k).Valid s0.n) (hI : 0 < cond.outputInterval) (hm : 0 < m) (hc : 0 < a.courant) (hl : 0 < a.l0) (hg : 0 < a.g) (hcs : 0 < a.c)
    (hst : 0 ≤ cond.startTime) (hse : cond.startTime ≤ cond.endTime) (fuel : Nat) :
    let r := mainProgram cfg cv pr sch cond a m csv fuel
    ∃ dt : ℕ → ℝ, ∀ (k : Nat) rec, r.outs[k]? = some rec →
      (∀ j, j < rec.iteration → 0 < dt j ∧ dt j ≤ s0.env.maxDt) ∧
      rec.number = ⌈cond.startTime / cond.outputInterval⌉₊ + k ∧
      k ≤ ⌈(cond.endTime - cond.startTime) / cond.outputInterval⌉₊ ∧
      rec.time = cond.startTime + ∑ j ∈ Finset.range rec.iteration, dt j ∧
      k * cond.outputInterval ≤ ∑ j ∈ Finset.range rec.iteration, dt j ∧
      ∑ j ∈ Finset.range rec.iteration, dt j < k * cond.outputInterval + s0.env.maxDt ∧
      (∀ it, it < rec.iteration → ∑ j ∈ Finset.range it, dt j < k * cond.outputInterval) ∧
      (∀ rec', r.outs[k + 1]? = some rec' → rec.iteration + m ≤ rec'.iteration) :=
  ⟨stepSize P sch s0, output_times h hv hI hm hc hl hg hcs hst hse fuel⟩

/-- The environment with which the loop starts. -/
theorem mainStart_env {cfg : Config} {cv : Conv ℝ} {cond : Condition ℝ} {a : EnvArgs ℝ D} {m : Nat} {csv : List Char} {P : Params ℝ D Unit}
    {s0 : State ℝ D Unit} (h : mainStart cfg cv cond a m csv P s0) (hI : 0 < cond.outputInterval) (hm : 0 < m) (hc : 0 < a.courant) (hl : 0 < a.l0)
    (hg : 0 < a.g) (hcs : 0 < a.c) : s0.env.t = 0 ∧ 0 < s0.env.maxDt ∧ 0 < s0.env.maxDx := by
  have hmR : (0 : ℝ) < m := by exact_mod_cast hm
  obtain ⟨env, ps, s, e1, e2, e3, e4, e5⟩ := id h
  have hmd : 0 < cond.outputInterval / Scalar.ofInt (m : Int) := by
    show 0 < cond.outputInterval / (((m : ℤ)) : ℝ)
    push_cast; positivity
  obtain ⟨env', g1, g2, g3, g4, g5, _⟩ := C13_limits_of_constructor cfg
    { a with maxDt := cond.outputInterval / Scalar.ofInt (m : Int) } hmd hc hl hg hcs
  have henv : env' = env := by
    have : loadEnvironment cfg a m cond.outputInterval = some env' := g1
    rw [e1] at this; exact (Option.some.inj this).symm
  subst henv
  have hs0env : s0.env = env' := by
    rw [e5]
    show s.env = env'
    unfold State.new? at e3
    split at e3
    · cases e3
    · cases e3; rfl
  rw [hs0env]
  refine ⟨?_, g2, g4⟩
  unfold Env.mk? at g1
  split at g1
  · cases g1
  · cases g1; rfl

/-- **C32.** A run in which no step fails and in which the speeds stay bounded finishes (so it writes all its files). -/
theorem C32_run_finishes {cfg : Config} {cv : Conv ℝ} {pr : Printer ℝ} {sch : Nat → Schedule} {cond : Condition ℝ} {a : EnvArgs ℝ D}
    {m : Nat} {csv : List Char} {P : Params ℝ D Unit} {s0 : State ℝ D Unit} (h : mainStart cfg cv cond a m csv P s0)
    (hv : ∀ k, (sch k).Valid s0.n) (hI : 0 < cond.outputInterval) (hm : 0 < m) (hc : 0 < a.courant) (hl : 0 < a.l0) (hg : 0 < a.g) (hcs : 0 < a.c)
    (hst : 0 ≤ cond.startTime) (hse : cond.startTime ≤ cond.endTime)
    (V : ℝ) (hV : 0 < V) (hsteps : ∀ k, ∃ s, s0.afterSteps P sch k = .ok s ∧ ∀ i, i < s.n → norm2 (s.ps i).u ≤ V) :
    ∃ fuel0, ∀ fuel, fuel0 ≤ fuel → (mainProgram cfg cv pr sch cond a m csv fuel).ending = .finished := by
  obtain ⟨ht0, hmd0, hmx0⟩ := mainStart_env h hI hm hc hl hg hcs
  have hsz : ∀ v : ℝ, 0 ≤ v → toSize v = some ⌈v⌉₊ := by
    intro v hv0
    have hc0 : 0 ≤ ⌈v⌉ := Int.ceil_nonneg hv0
    show (if (0 : ℤ) ≤ ⌈v⌉ then some ⌈v⌉.toNat else none) = _
    rw [if_pos hc0]; rfl
  have h1 := hsz _ (div_nonneg hst hI.le)
  have h2 := hsz _ (div_nonneg (sub_nonneg.2 hse) hI.le)
  set N := ⌈(cond.endTime - cond.startTime) / cond.outputInterval⌉₊ with hN
  set δ := min (s0.env.maxDx / V) s0.env.maxDt with hδ
  have hδ0 : 0 < δ := lt_min (div_pos hmx0 hV) hmd0
  obtain ⟨fuel0, hf0⟩ := exists_nat_gt (N * cond.outputInterval / δ)
  refine ⟨fuel0, fun fuel hfuel => ?_⟩
  have hstep : ∀ k, δ ≤ stepSize P sch s0 k := by
    intro k
    obtain ⟨s, hs, hu⟩ := hsteps k
    obtain ⟨i1, i2, i3, _, _⟩ := afterSteps_inv hv hmd0 hmx0 k s hs
    have hn : 0 < s.n := by
      by_contra hcn
      obtain ⟨s', hs', _⟩ := hsteps (k + 1)
      obtain ⟨sp, p1, p2⟩ := afterSteps_prev hs'
      rw [hs] at p1; cases p1
      rw [C13_no_particles_is_undefined P (sch k) s (by omega)] at p2
      cases p2
    obtain ⟨dt, hd, _, _, _, hlargest⟩ := C13_automatic_step_is_largest_cfl_step s hn (by rw [i2]; exact hmd0) (by rw [i3]; exact hmx0)
    have : stepSize P sch s0 k = dt := by
      unfold stepSize; rw [hs]; simp only; rw [hd]; rfl
    rw [this]
    apply hlargest
    · rw [i2]; exact min_le_right _ _
    · intro i hi
      rw [i3]
      calc norm2 (s.ps i).u * δ ≤ V * δ := mul_le_mul_of_nonneg_right (hu i hi) hδ0.le
        _ ≤ V * (s0.env.maxDx / V) := mul_le_mul_of_nonneg_left (min_le_left _ _) hV.le
        _ = s0.env.maxDx := by field_simp
  rw [mainProgram_start h]
  obtain ⟨_, hend, _⟩ := runLoop_spec P sch pr cond fuel s0 h1 h2
  unfold EndOK at hend
  cases he : (runLoop P sch pr cond fuel s0).ending with
  | finished => rfl
  | solverError t it num =>
    simp only [he] at hend
    obtain ⟨_, _, s1, s2, _, _, e⟩ := hend
    obtain ⟨s, hs, _⟩ := hsteps (it + 1)
    rw [hs] at e; cases e
  | terminated =>
    simp only [he] at hend
    obtain ⟨_, it, s1, s2, _, e⟩ := hend
    obtain ⟨s, hs, _⟩ := hsteps (it + 1)
    rw [hs] at e; cases e
  | undefined =>
    simp only [he] at hend
    obtain ⟨_, it, s1, _, e⟩ := hend
    obtain ⟨s, hs, _⟩ := hsteps (it + 1)
    rw [hs] at e; cases e
  | running =>
    exfalso
    simp only [he] at hend
    obtain ⟨hlen, it, s, hit, hs, hlt⟩ := hend
    have hlt' : s.env.t < outTime cond.outputInterval (runLoop P sch pr cond fuel s0).outs.length := by
      simpa [Scalar.lt] using hlt
    rw [(afterSteps_inv hv hmd0 hmx0 it s hs).2.2.2.1, ht0, zero_add, outTime_real] at hlt'
    have hsum : it * δ ≤ ∑ j ∈ Finset.range it, stepSize P sch s0 j := by
      have := Finset.sum_le_sum (s := Finset.range it) (fun j _ => hstep j)
      rwa [Finset.sum_const, Finset.card_range, nsmul_eq_mul] at this
    have hlenR : ((runLoop P sch pr cond fuel s0).outs.length : ℝ) ≤ N := by exact_mod_cast hlen
    have hitR : (fuel0 : ℝ) ≤ it := by exact_mod_cast (le_trans hfuel hit)
    rw [div_lt_iff₀ hδ0] at hf0
    nlinarith

end OpenMps
