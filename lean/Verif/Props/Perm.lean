import Verif.Lemmas.Perm
import Verif.Props.Examples

/-! # C34: the numbering of the particles does not matter (exact arithmetic) -/

set_option linter.unusedSectionVars false

namespace OpenMps

variable {D : Nat} {ω : Type} {σ : Equiv.Perm Nat}

theorem SameScene.particles {s t : State ℝ D ω} (h : SameScene σ s t) (hσ : Renumbers s.n σ) : t.particles.Perm s.particles := by
  unfold State.particles
  rw [h.count]
  refine ((range_map_perm hσ).map t.ps).trans (List.Perm.of_eq ?_)
  rw [List.map_map]
  apply List.map_congr_left
  intro i hi
  exact h.particle i (List.mem_range.mp hi)

theorem PSim.scene {s t : State ℝ D ω} (h : PSim σ s t) : SameScene σ s t := ⟨h.n, h.ps, h.env, h.world⟩

theorem SameScene.determineDt {s t : State ℝ D ω} (h : SameScene σ s t) (hσ : Renumbers s.n σ) : t.determineDt = s.determineDt := by
  unfold State.determineDt
  rw [h.count, h.env]
  by_cases hn : s.n = 0
  · rw [if_pos hn, if_pos hn]
  · rw [if_neg hn, if_neg hn]
    obtain ⟨a1, a2⟩ := fastest_spec s (Nat.pos_of_ne_zero hn)
    obtain ⟨b1, b2⟩ := fastest_spec t (by rw [h.count]; exact Nat.pos_of_ne_zero hn)
    rw [h.count] at b1 b2
    have e : dot (t.ps t.fastest).u (t.ps t.fastest).u = dot (s.ps s.fastest).u (s.ps s.fastest).u := by
      apply le_antisymm
      · have hk : σ.symm t.fastest < s.n := by
          have := hσ (σ.symm t.fastest)
          rw [σ.apply_symm_apply] at this
          exact this.mp b1
        have := h.particle _ hk
        rw [σ.apply_symm_apply] at this
        rw [this]
        exact a2 _ hk
      · rw [← h.particle _ a1]
        exact b2 _ ((hσ _).mpr a1)
    simp only [norm2_real, e]

/-- Two computers built for the same environment. -/
theorem psim_of_hist {P P' : Params ℝ D ω} {env : Env ℝ D} {w w' : ω} {s0 t0 s t : State ℝ D ω} {dts dts' : List ℝ}
    (hs : State.new? env w = some s0) (ht : State.new? env w' = some t0) (hist : Hist P s0 dts s) (hist' : Hist P' t0 dts' t)
    (hσ : Renumbers s.n σ) (h : SameScene σ s t) : PSim σ s t := by
  obtain ⟨a0, a1, a2, a3, a4, -⟩ := hist.built hs
  obtain ⟨b0, b1, b2, b3, b4, -⟩ := hist'.built ht
  refine ⟨h.count, h.env, h.world, ⟨?_, ?_, ?_, ?_⟩, a0, b0, hσ, h.particle⟩
  · rw [a1, b1, h.env]
  · rw [a2, b2, h.env]
  · rw [a3, b3, h.env]
  · rw [a4, b4, h.env]

/-- **C34.**  One step.  Two computers of the same environment that show the same scene with different particle numbers (`σ`), with
wall callbacks that treat corresponding particles alike, have the same outcome of `ForwardTime(dt)` whatever the schedules: both
return, both throw "solver did not converge" — and then still show the same scene — or both throw "too many particles in a block". -/
theorem C34_step_commutes_with_renumbering {P P' : Params ℝ D ω} {env : Env ℝ D} {w w' : ω} {s0 t0 s t : State ℝ D ω} {dts dts' : List ℝ}
    (hs : State.new? env w = some s0) (ht : State.new? env w' = some t0) (hok : s0.grid.ClearOK)
    (hist : Hist P s0 dts s) (hist' : Hist P' t0 dts' t)
    (hcfg : P'.cfg = P.cfg) (heps : P'.eps = P.eps) (hσ : Renumbers s.n σ) (hw : P.walls.Renumbered s.n σ P'.walls)
    (hscene : SameScene σ s t) {sch sch' : Schedule} (hv : sch.Valid s.n) (hv' : sch'.Valid s.n) (dt : ℝ) :
    (∃ a b, s.forwardTime P sch dt = .ok a ∧ t.forwardTime P' sch' dt = .ok b ∧ SameScene σ a b) ∨
    (∃ a b, s.forwardTime P sch dt = .exn .solver a ∧ t.forwardTime P' sch' dt = .exn .solver b ∧ SameScene σ a b) ∨
    (∃ a b, s.forwardTime P sch dt = .exn .gridFull a ∧ t.forwardTime P' sch' dt = .exn .gridFull b) := by
  have hp := psim_of_hist hs ht hist hist' hσ hscene
  have hok' : s.grid.ClearOK := hist.frame.2.1.clearOK.mpr hok
  rcases forwardTime_psim hcfg heps hw hp dt hv hv' hok' with ⟨a, b, h1, h2, h3⟩ | ⟨a, b, h1, h2, h3⟩ | ⟨a, b, h1, h2⟩
  · exact Or.inl ⟨a, b, h1, h2, h3.scene⟩
  · exact Or.inr (Or.inl ⟨a, b, h1, h2, h3.scene⟩)
  · exact Or.inr (Or.inr ⟨a, b, h1, h2⟩)

/-- **C34.**  The automatic time step does not depend on the numbering either. -/
theorem C34_automatic_step_is_independent_of_numbering {s t : State ℝ D ω} (h : SameScene σ s t) (hσ : Renumbers s.n σ) :
    t.determineDt = s.determineDt := h.determineDt hσ

/-- Runs from similar states. -/
theorem runSteps_psim {P P' : Params ℝ D ω} (hcfg : P'.cfg = P.cfg) (heps : P'.eps = P.eps) :
    ∀ (steps steps' : List (Schedule × Option ℝ)) (s t : State ℝ D ω), steps'.map (·.2) = steps.map (·.2) →
    (∀ e ∈ steps, Schedule.Valid s.n e.1) → (∀ e ∈ steps', Schedule.Valid s.n e.1) →
    P.walls.Renumbered s.n σ P'.walls → PSim σ s t → s.grid.ClearOK →
    (∃ a b, State.runSteps P steps s = .ok a ∧ State.runSteps P' steps' t = .ok b ∧ SameScene σ a b ∧ a.n = s.n) ∨
    (∃ a b, State.runSteps P steps s = .exn .solver a ∧ State.runSteps P' steps' t = .exn .solver b ∧ SameScene σ a b ∧ a.n = s.n) ∨
    (∃ a b, State.runSteps P steps s = .exn .gridFull a ∧ State.runSteps P' steps' t = .exn .gridFull b) ∨
    (State.runSteps P steps s = .ub ∧ State.runSteps P' steps' t = .ub ∧ s.n = 0) := by
  intro steps
  induction steps with
  | nil =>
    intro steps' s t hm _ _ _ h _
    cases steps' with
    | nil => exact Or.inl ⟨s, t, rfl, rfl, h.scene, rfl⟩
    | cons e l => cases hm
  | cons e steps ih =>
    intro steps' s t hm hv hv' hw h hok
    cases steps' with
    | nil => cases hm
    | cons e' steps' =>
      obtain ⟨sch, o⟩ := e
      obtain ⟨sch', o'⟩ := e'
      simp only [List.map_cons, List.cons.injEq] at hm
      obtain ⟨rfl, hm⟩ := hm
      have hv1 : sch.Valid s.n := hv _ (List.mem_cons_self ..)
      have hv1' : sch'.Valid s.n := hv' _ (List.mem_cons_self ..)
      have fwd : ∀ dt, State.runSteps P ((sch, o') :: steps) s = (s.forwardTime P sch dt).andThen (State.runSteps P steps) →
          State.runSteps P' ((sch', o') :: steps') t = (t.forwardTime P' sch' dt).andThen (State.runSteps P' steps') →
          (∃ a b, State.runSteps P ((sch, o') :: steps) s = .ok a ∧ State.runSteps P' ((sch', o') :: steps') t = .ok b ∧ SameScene σ a b ∧ a.n = s.n) ∨
          (∃ a b, State.runSteps P ((sch, o') :: steps) s = .exn .solver a ∧ State.runSteps P' ((sch', o') :: steps') t = .exn .solver b ∧ SameScene σ a b ∧ a.n = s.n) ∨
          (∃ a b, State.runSteps P ((sch, o') :: steps) s = .exn .gridFull a ∧ State.runSteps P' ((sch', o') :: steps') t = .exn .gridFull b) ∨
          (State.runSteps P ((sch, o') :: steps) s = .ub ∧ State.runSteps P' ((sch', o') :: steps') t = .ub ∧ s.n = 0) := by
        intro dt e1 e2
        rw [e1, e2]
        rcases forwardTime_psim hcfg heps hw h dt hv1 hv1' hok with ⟨a, b, h1, h2, h3⟩ | ⟨a, b, h1, h2, h3⟩ | ⟨a, b, h1, h2⟩
        · obtain ⟨hn, -, hg, -⟩ := step_frame hv1 (Or.inl h1)
          rw [h1, h2]
          have := ih steps' a b hm (fun e he => by rw [hn]; exact hv e (List.mem_cons_of_mem _ he))
            (fun e he => by rw [hn]; exact hv' e (List.mem_cons_of_mem _ he)) (by rw [hn]; exact hw) h3 (hg.clearOK.mpr hok)
          rw [hn] at this
          exact this
        · rw [h1, h2]
          exact Or.inr (Or.inl ⟨a, b, rfl, rfl, h3.scene, (step_frame hv1 (Or.inr ⟨_, h1⟩)).1⟩)
        · rw [h1, h2]
          exact Or.inr (Or.inr (Or.inl ⟨a, b, rfl, rfl⟩))
      cases o' with
      | some dt => exact fwd dt rfl rfl
      | none =>
        have hd := h.scene.determineDt h.lt
        cases hdt : s.determineDt with
        | some dt =>
          refine fwd dt ?_ ?_
          · simp only [State.runSteps, State.forwardTimeAuto, hdt]
          · simp only [State.runSteps, State.forwardTimeAuto, hd, hdt]
        | none =>
          refine Or.inr (Or.inr (Or.inr ⟨?_, ?_, ?_⟩))
          · simp only [State.runSteps, State.forwardTimeAuto, hdt]; rfl
          · simp only [State.runSteps, State.forwardTimeAuto, hd, hdt]; rfl
          · unfold State.determineDt at hdt
            split at hdt
            · assumption
            · cases hdt

/-- **C34.**  Whole programs.  Two computers are constructed from the same environment; the second receives the particles of the first in
another order (`src'[σ i] = src[i]`) and callbacks that treat corresponding particles alike; then both make the same
sequence of time steps (given or automatic), each under its own schedules.  Then they end alike: both with all steps done or both in
the same step with the solver's exception, and the particle lists at that point are permutations of each other (particle `i` of the
first is particle `σ i` of the second, with equal time and callback state); or both in the same way with a full grid block; or, without any
particles, both with the undefined automatic step. -/
theorem C34_reordered_program_gives_reordered_result {P P' : Params ℝ D ω} (hcfg : P'.cfg = P.cfg) (heps : P'.eps = P.eps)
    {env : Env ℝ D} {w : ω} {s0 t0 : State ℝ D ω} (hs : State.new? env w = some s0) (ht : State.new? env w = some t0)
    (hok : s0.grid.ClearOK) {src src' : List (Particle ℝ D)} (hlen : src'.length = src.length) (hσ : Renumbers src.length σ)
    (hsrc : ∀ i, i < src.length → src'[σ i]? = src[i]?) (hw : P.walls.Renumbered src.length σ P'.walls)
    {steps steps' : List (Schedule × Option ℝ)} (hsteps : steps'.map (·.2) = steps.map (·.2))
    (hv : ∀ e ∈ steps, Schedule.Valid src.length e.1) (hv' : ∀ e ∈ steps', Schedule.Valid src.length e.1) :
    (∃ a b, State.runSteps P steps (s0.addParticles src) = .ok a ∧ State.runSteps P' steps' (t0.addParticles src') = .ok b ∧
      SameScene σ a b ∧ b.particles.Perm a.particles) ∨
    (∃ a b, State.runSteps P steps (s0.addParticles src) = .exn .solver a ∧
      State.runSteps P' steps' (t0.addParticles src') = .exn .solver b ∧ SameScene σ a b ∧ b.particles.Perm a.particles) ∨
    (∃ a b, State.runSteps P steps (s0.addParticles src) = .exn .gridFull a ∧
      State.runSteps P' steps' (t0.addParticles src') = .exn .gridFull b) ∨
    (State.runSteps P steps (s0.addParticles src) = .ub ∧ State.runSteps P' steps' (t0.addParticles src') = .ub ∧ src = []) := by
  have hst : t0 = s0 := by rw [hs] at ht; injection ht with ht; exact ht.symm
  subst hst
  have hn0 : t0.n = 0 := by
    unfold State.new? at hs
    split at hs
    · cases hs
    · injection hs with hs; rw [← hs]
  have hn : (t0.addParticles src).n = src.length := by simp [State.addParticles, hn0]
  have hscene : SameScene σ (t0.addParticles src) (t0.addParticles src') := by
    refine ⟨by simp [State.addParticles, hlen], ?_, rfl, rfl⟩
    intro i hi
    rw [hn] at hi
    have h1 : i < src.length := hi
    have h2 : σ i < src'.length := by rw [hlen]; exact (hσ i).mpr hi
    have e := hsrc i hi
    rw [List.getElem?_eq_getElem h1, List.getElem?_eq_getElem h2] at e
    injection e with e
    simp only [State.addParticles, hn0, Nat.not_lt_zero, if_false, Nat.sub_zero, List.getD_eq_getElem?_getD,
      List.getElem?_eq_getElem h1, List.getElem?_eq_getElem h2, Option.getD_some]
    exact e
  have hp : PSim σ (t0.addParticles src) (t0.addParticles src') :=
    psim_of_hist (P := P) (P' := P') hs hs (.add src .start) (.add src' .start) (by rw [hn]; exact hσ) hscene
  rcases runSteps_psim hcfg heps steps steps' _ _ hsteps (by rw [hn]; exact hv) (by rw [hn]; exact hv') (by rw [hn]; exact hw) hp hok with
    ⟨a, b, h1, h2, h3, h4⟩ | ⟨a, b, h1, h2, h3, h4⟩ | ⟨a, b, h1, h2⟩ | ⟨h1, h2, h3⟩
  · exact Or.inl ⟨a, b, h1, h2, h3, h3.particles (by rw [h4, hn]; exact hσ)⟩
  · exact Or.inr (Or.inl ⟨a, b, h1, h2, h3, h3.particles (by rw [h4, hn]; exact hσ)⟩)
  · exact Or.inr (Or.inr (Or.inl ⟨a, b, h1, h2⟩))
  · refine Or.inr (Or.inr (Or.inr ⟨h1, h2, ?_⟩))
    rw [hn] at h3
    exact List.length_eq_zero_iff.mp h3

/-! ## Non-vacuity: the drop simulation with particles 0 and 3 exchanged, under other schedules, does take its step -/

/-- The drop particles with the first and the last exchanged. -/
noncomputable def dropParticles' : List (Particle ℝ 2) :=
  [dropParticles.getD 3 (Particle.new .disabled), dropParticles.getD 1 (Particle.new .disabled),
   dropParticles.getD 2 (Particle.new .disabled), dropParticles.getD 0 (Particle.new .disabled)]

/-- The walls at rest of the exchanged particles. -/
noncomputable def dropP' : Params ℝ 2 Unit :=
  { dropP with walls := { pre := fun w _ _ => w, pos := fun _ i _ _ => dropX (Equiv.swap 0 3 i) } }

/-- The exchanged list is another list. -/
example : dropParticles' ≠ dropParticles := by
  intro h
  have h0 : (dropParticles'.getD 0 (Particle.new .disabled)).x 0 = (dropParticles.getD 0 (Particle.new .disabled)).x 0 := by rw [h]
  have : (9 / 10 : ℝ) = 1 / 2 := h0
  norm_num at this

example : ∃ a b, State.runSteps dropP [(Schedule.serial 4, some (1 / 1000))] (dropNew.addParticles dropParticles) = .ok a ∧
    State.runSteps dropP' [((fun _ => reversed 4), some (1 / 1000))] (dropNew.addParticles dropParticles') = .ok b ∧
    SameScene (Equiv.swap 0 3) a b ∧ b.particles.Perm a.particles := by
  have hl : dropParticles.length = 4 := rfl
  have hσ : Renumbers dropParticles.length (Equiv.swap 0 3) := by
    intro i
    rw [hl, Equiv.swap_apply_def]
    split
    · omega
    · split <;> omega
  have hstep : ∃ r, dropState.forwardTime dropP (Schedule.serial 4) (1 / 1000) = .ok r :=
    dropState_step (dt := 1 / 1000) (by norm_num) (by norm_num)
  obtain ⟨r, hr⟩ := hstep
  have hrun : State.runSteps dropP [(Schedule.serial 4, some (1 / 1000))] (dropNew.addParticles dropParticles) = .ok r := by
    unfold State.runSteps
    rw [show (dropNew.addParticles dropParticles) = dropState from rfl, hr]
    rfl
  rcases C34_reordered_program_gives_reordered_result (P := dropP) (P' := dropP') rfl rfl dropNew_eq dropNew_eq dropNew_ok
    (src := dropParticles) (src' := dropParticles') (σ := Equiv.swap 0 3) rfl hσ (by
      intro i hi
      rw [hl] at hi
      have : i = 0 ∨ i = 1 ∨ i = 2 ∨ i = 3 := by omega
      rcases this with rfl | rfl | rfl | rfl
      · rfl
      · rfl
      · rfl
      · rfl) ⟨rfl, by
      intro c i t dt _
      change dropX (Equiv.swap 0 3 (Equiv.swap 0 3 i)) = dropX i
      rw [Equiv.swap_apply_self]⟩ (steps := [(Schedule.serial 4, some (1 / 1000))]) (steps' := [((fun _ => reversed 4), some (1 / 1000))]) rfl
      (by intro e he; simp only [List.mem_singleton] at he; subst he; exact Schedule.serial_valid 4)
      (by intro e he; simp only [List.mem_singleton] at he; subst he; exact fun _ => reversed_valid) with
    ⟨a, b, h1, h2, h3, h4⟩ | ⟨a, b, h1, -⟩ | ⟨a, b, h1, -⟩ | ⟨h1, -⟩
  · exact ⟨a, b, h1, h2, h3, h4⟩
  · rw [hrun] at h1; cases h1
  · rw [hrun] at h1; cases h1
  · rw [hrun] at h1; cases h1

end OpenMps
