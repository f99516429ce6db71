import Verif.Lemmas.Shift
import Verif.Props.Examples

/-! # C35: translation of the whole scene (exact arithmetic) -/

set_option linter.unusedSectionVars false

namespace OpenMps

variable {D : Nat} {ω : Type}

/-! ## Observable form -/

/-- Two computers show the same scene, the second one moved by `v` (the contents of the buffers are irrelevant). -/
structure ShiftRel (v : Vec ℝ D) (s t : State ℝ D ω) : Prop where
  particles : t.particles = s.particles.map (Particle.shift v)
  env : t.env = s.env.shift v
  world : t.world = s.world

/-- Everything needed to go on. -/
structure ShiftInv (v : Vec ℝ D) (s t : State ℝ D ω) : Prop extends ShiftRel v s t where
  shape : SameShape (s.grid.shift v) t.grid
  ok : s.grid.ClearOK
  us : s.ub = false
  ut : t.ub = false

theorem shift_particles (v : Vec ℝ D) (s : State ℝ D ω) :
    (s.shift v).particles = s.particles.map (Particle.shift v) := by
  unfold State.particles
  rw [List.map_map]
  rfl

theorem ShiftRel.n {v : Vec ℝ D} {s t : State ℝ D ω} (h : ShiftRel v s t) : t.n = s.n := by
  have := congrArg List.length h.particles
  simpa [State.particles] using this

theorem ShiftInv.visible {v : Vec ℝ D} {s t : State ℝ D ω} (h : ShiftInv v s t) : SameVisible (s.shift v) t :=
  ⟨by rw [shift_particles]; exact h.particles, h.env, h.world⟩

theorem SameVisible.shiftRel {v : Vec ℝ D} {s t : State ℝ D ω} (h : SameVisible (s.shift v) t) : ShiftRel v s t :=
  ⟨by rw [← shift_particles]; exact h.particles, h.env, h.world⟩

theorem forward_shiftInv {v : Vec ℝ D} {P : Params ℝ D ω} (hcg : P.cfg.centralGravity = false) {s t : State ℝ D ω}
    (h : ShiftInv v s t) {sch sch' : Schedule} (dt : ℝ) (hv : sch.Valid s.n) (hv' : sch'.Valid t.n) :
    (∃ a b, s.forwardTime P sch dt = .ok a ∧ t.forwardTime (P.shift v) sch' dt = .ok b ∧ ShiftInv v a b) ∨
    (∃ e a b, s.forwardTime P sch dt = .exn e a ∧ t.forwardTime (P.shift v) sch' dt = .exn e b ∧ ShiftInv v a b) ∨
    (s.forwardTime P sch dt = .ub ∧ t.forwardTime (P.shift v) sch' dt = .ub) := by
  have hok : (s.shift v).grid.ClearOK := h.ok
  have h18 := C18_depends_only_on_visible_state (P := P.shift v) (dt := dt) (sch := sch) (sch' := sch') h.visible h.shape hok
    h.us h.ut hv hv'
  rw [forwardTime_shift v P hcg] at h18
  have hs : ∀ a, (s.forwardTime P sch dt).leaves a → SameGeom s.grid a.grid ∧ a.ub = false := by
    intro a ha
    have := step_frame hv ha
    exact ⟨this.2.2.1, by rw [this.2.2.2.1]; exact h.us⟩
  have ht : ∀ b, (t.forwardTime (P.shift v) sch' dt).leaves b → SameGeom t.grid b.grid ∧ b.ub = false := by
    intro b hb
    have := step_frame hv' hb
    exact ⟨this.2.2.1, by rw [this.2.2.2.1]; exact h.ut⟩
  have mk : ∀ a b, (s.forwardTime P sch dt).leaves a → (t.forwardTime (P.shift v) sch' dt).leaves b →
      SameVisible (a.shift v) b → ShiftInv v a b := by
    intro a b ha hb hab
    obtain ⟨g1, u1⟩ := hs a ha
    obtain ⟨g2, u2⟩ := ht b hb
    refine ⟨hab.shiftRel, ⟨?_, ?_, ?_, ?_⟩, g1.clearOK.mpr h.ok, u1, u2⟩
    · rw [g2.bl, h.shape.1]; exact g1.bl.symm
    · rw [g2.origin, h.shape.2.1]
      show s.grid.origin + v = a.grid.origin + v
      rw [g1.origin]
    · rw [g2.size, h.shape.2.2.1]; exact g1.size.symm
    · rw [g2.cap, h.shape.2.2.2]; exact g1.cap.symm
  generalize s.forwardTime P sch dt = r at h18 mk
  generalize t.forwardTime (P.shift v) sch' dt = r' at h18 mk
  cases r with
  | ok a =>
    cases h18 with
    | ok hab => exact Or.inl ⟨a, _, rfl, rfl, mk a _ (Or.inl rfl) (Or.inl rfl) hab⟩
  | exn e a =>
    cases h18 with
    | exn hab => exact Or.inr (Or.inl ⟨e, a, _, rfl, rfl, mk a _ (Or.inr ⟨_, rfl⟩) (Or.inr ⟨_, rfl⟩) hab⟩)
  | ub =>
    cases h18
    exact Or.inr (Or.inr ⟨rfl, rfl⟩)

theorem determineDt_shiftInv {v : Vec ℝ D} {s t : State ℝ D ω} (h : ShiftRel v s t) : t.determineDt = s.determineDt := by
  have hps : ∀ i, i < s.n → (t.ps i).u = (s.ps i).u := by
    intro i hi
    have h1 := h.particles
    unfold State.particles at h1
    rw [h.n, List.map_map] at h1
    have := List.map_inj_left.mp h1 i (by simpa using hi)
    rw [this]; rfl
  unfold State.determineDt
  rw [h.n, h.env]
  by_cases hn : s.n = 0
  · rw [if_pos hn, if_pos hn]
  · rw [if_neg hn, if_neg hn]
    have hf : ∀ l : List Nat, (∀ k ∈ l, k + 1 < s.n) → ∀ b, b < s.n →
        l.foldl (fun best k => if Scalar.lt (dot (t.ps best).u (t.ps best).u) (dot (t.ps (k + 1)).u (t.ps (k + 1)).u)
          then k + 1 else best) b
        = l.foldl (fun best k => if Scalar.lt (dot (s.ps best).u (s.ps best).u) (dot (s.ps (k + 1)).u (s.ps (k + 1)).u)
          then k + 1 else best) b ∧
        l.foldl (fun best k => if Scalar.lt (dot (s.ps best).u (s.ps best).u) (dot (s.ps (k + 1)).u (s.ps (k + 1)).u)
          then k + 1 else best) b < s.n := by
      intro l
      induction l with
      | nil => intro _ b hb; exact ⟨rfl, hb⟩
      | cons k l ih =>
        intro hl b hb
        simp only [List.foldl_cons]
        rw [hps b hb, hps (k + 1) (hl k (List.mem_cons_self ..))]
        apply ih (fun k' hk' => hl k' (List.mem_cons_of_mem _ hk'))
        split
        · exact hl k (List.mem_cons_self ..)
        · exact hb
    have h2 := hf (List.range (s.n - 1)) (by intro k hk; have := List.mem_range.mp hk; omega) 0 (by omega)
    have e1 : t.fastest = s.fastest := by unfold State.fastest; rw [h.n]; exact h2.1
    have e2 : s.fastest < s.n := h2.2
    rw [e1, hps _ e2]
    rfl

theorem ShiftRel.addParticles {v : Vec ℝ D} {s t : State ℝ D ω} (h : ShiftRel v s t) (src : List (Particle ℝ D)) :
    ShiftRel v (s.addParticles src) (t.addParticles (src.map (Particle.shift v))) :=
  ⟨by rw [C09_add_appends, C09_add_appends, List.map_append, h.particles], h.env, h.world⟩

/-- **C35.**  One step, on the whole state of the computer: `ForwardTime(dt)` commutes with moving everything (particles, box, grid,
wall motion) by `v` — same outcome, same exception, every resulting position moved by `v`, everything else unchanged — under every schedule. -/
theorem C35_step_commutes_with_translation (v : Vec ℝ D) (P : Params ℝ D ω) (hcg : P.cfg.centralGravity = false) (sch : Schedule) (dt : ℝ)
    (s : State ℝ D ω) : (s.shift v).forwardTime (P.shift v) sch dt = (s.forwardTime P sch dt).map (State.shift v) :=
  forwardTime_shift v P hcg sch dt s

/-- **C35.**  The same for `ForwardTime()`. -/
theorem C35_automatic_step_commutes_with_translation (v : Vec ℝ D) (P : Params ℝ D ω) (hcg : P.cfg.centralGravity = false) (sch : Schedule)
    (s : State ℝ D ω) : (s.shift v).forwardTimeAuto (P.shift v) sch = (s.forwardTimeAuto P sch).map (State.shift v) := by
  unfold State.forwardTimeAuto
  rw [determineDt_shift]
  cases s.determineDt with
  | none => rfl
  | some dt => exact forwardTime_shift v P hcg sch dt s

/-- Calls performed by two computers showing the same scene, moved by `v`. -/
theorem performAll_shift {v : Vec ℝ D} {P : Params ℝ D ω} (hcg : P.cfg.centralGravity = false) :
    ∀ {cs cs' : List (Call ℝ D)}, List.Forall₂ (Call.Shifted v) cs cs' → ∀ {s t : State ℝ D ω}, ShiftInv v s t →
      CallsValid s.n cs → CallsValid s.n cs' →
      (State.performAll P cs s = none ∧ State.performAll (P.shift v) cs' t = none) ∨
      ∃ log a b, State.performAll P cs s = some (log, a) ∧ State.performAll (P.shift v) cs' t = some (log, b) ∧ ShiftInv v a b := by
  intro cs cs' hcs
  induction hcs with
  | nil => intro s t h _ _; exact Or.inr ⟨[], s, t, rfl, rfl, h⟩
  | @cons c c' cs cs' hc _ ih =>
    intro s t h hval hval'
    have fwd : ∀ (sch sch' : Schedule) (dt : ℝ), sch.Valid s.n → sch'.Valid s.n →
        s.perform P c = s.forwardTime P sch dt → t.perform (P.shift v) c' = t.forwardTime (P.shift v) sch' dt →
        CallsValid s.n cs → CallsValid s.n cs' →
        (State.performAll P (c :: cs) s = none ∧ State.performAll (P.shift v) (c' :: cs') t = none) ∨
        ∃ log a b, State.performAll P (c :: cs) s = some (log, a) ∧
          State.performAll (P.shift v) (c' :: cs') t = some (log, b) ∧ ShiftInv v a b := by
      intro sch sch' dt hv hv' e1 e2 k1 k2
      unfold State.performAll
      rw [e1, e2]
      rcases forward_shiftInv hcg h dt hv (sch' := sch') (by rw [h.n]; exact hv') with ⟨a, b, q1, q2, q3⟩ | ⟨e, a, b, q1, q2, q3⟩ | ⟨q1, q2⟩
      · have hn := (step_frame hv (Or.inl q1)).1
        rw [q1, q2]
        rcases ih q3 (by rw [hn]; exact k1) (by rw [hn]; exact k2) with ⟨r1, r2⟩ | ⟨log, a', b', r1, r2, r3⟩
        · exact Or.inl ⟨by simp only [r1, Option.map], by simp only [r2, Option.map]⟩
        · exact Or.inr ⟨none :: log, a', b', by simp only [r1, Option.map], by simp only [r2, Option.map], r3⟩
      · have hn := (step_frame hv (Or.inr ⟨e, q1⟩)).1
        rw [q1, q2]
        rcases ih q3 (by rw [hn]; exact k1) (by rw [hn]; exact k2) with ⟨r1, r2⟩ | ⟨log, a', b', r1, r2, r3⟩
        · exact Or.inl ⟨by simp only [r1, Option.map], by simp only [r2, Option.map]⟩
        · exact Or.inr ⟨some e :: log, a', b', by simp only [r1, Option.map], by simp only [r2, Option.map], r3⟩
      · rw [q1, q2]; exact Or.inl ⟨rfl, rfl⟩
    cases hc with
    | add src =>
      have h' : ShiftInv v (s.addParticles src) (t.addParticles (src.map (Particle.shift v))) :=
        ⟨h.toShiftRel.addParticles src, h.shape, h.ok, h.us, h.ut⟩
      have k2 : CallsValid (s.addParticles src).n cs' := by
        have := hval'.2
        simpa [Call.added, State.addParticles] using this
      rcases ih h' hval.2 k2 with ⟨r1, r2⟩ | ⟨log, a, b, r1, r2, r3⟩
      · refine Or.inl ⟨?_, ?_⟩
        · unfold State.performAll; simp only [State.perform, r1, Option.map]
        · unfold State.performAll; simp only [State.perform, r2, Option.map]
      · refine Or.inr ⟨none :: log, a, b, ?_, ?_, r3⟩
        · unfold State.performAll; simp only [State.perform, r1, Option.map]
        · unfold State.performAll; simp only [State.perform, r2, Option.map]
    | forward sch sch' dt => exact fwd sch sch' dt hval.1 hval'.1 rfl rfl hval.2 hval'.2
    | auto sch sch' =>
      cases hd : s.determineDt with
      | some dt =>
        refine fwd sch sch' dt hval.1 hval'.1 ?_ ?_ hval.2 hval'.2
        · simp only [State.perform, State.forwardTimeAuto, hd]
        · simp only [State.perform, State.forwardTimeAuto, determineDt_shiftInv h.toShiftRel, hd]
      | none =>
        refine Or.inl ⟨?_, ?_⟩
        · unfold State.performAll; simp only [State.perform, State.forwardTimeAuto, hd]
        · unfold State.performAll; simp only [State.perform, State.forwardTimeAuto, determineDt_shiftInv h.toShiftRel, hd]

/-- **C35.**  Whole programs: construct the environment and the computer with the box moved by `v`, add the particles moved by
`v`, and let the walls follow the same motion moved by `v`.  Then every sequence of calls (`AddParticles`, `ForwardTime(dt)`,
`ForwardTime()`, exceptions caught) has the same outcomes call by call, and at the end all positions are moved by `v` and
velocities, pressures, densities, types, time and callback state are the same, whatever the schedules. -/
theorem C35_translated_program_gives_translated_result (v : Vec ℝ D) (P : Params ℝ D ω) (hcg : P.cfg.centralGravity = false)
    (args : EnvArgs ℝ D) (w : ω) {e e' : Env ℝ D} {s0 t0 : State ℝ D ω}
    (he : Env.mk? P.cfg args = some e)
    (he' : Env.mk? P.cfg { args with minX := args.minX + v, maxX := args.maxX + v } = some e')
    (hs : State.new? e w = some s0) (ht : State.new? e' w = some t0) (hok : s0.grid.ClearOK)
    {cs cs' : List (Call ℝ D)} (hcs : List.Forall₂ (Call.Shifted v) cs cs') (hv : CallsValid 0 cs) (hv' : CallsValid 0 cs') :
    (State.performAll P cs s0 = none ∧ State.performAll (P.shift v) cs' t0 = none) ∨
    ∃ log s t, State.performAll P cs s0 = some (log, s) ∧ State.performAll (P.shift v) cs' t0 = some (log, t) ∧
      t.particles = s.particles.map (fun q => { q with x := q.x + v }) ∧ t.world = s.world ∧
      t.env = { s.env with minX := s.env.minX + v, maxX := s.env.maxX + v } := by
  have hee : e' = e.shift v := by
    unfold Env.mk? at he he'
    cases hc : (Scalar.ceilIdx args.reByL0 : Option Int) with
    | none => rw [hc] at he; cases he
    | some range =>
      simp only [hc] at he he'
      injection he with he
      injection he' with he'
      rw [← he, ← he']
      rfl
  have hne : ∀ {e : Env ℝ D} {w : ω} {n : State ℝ D ω}, State.new? e w = some n →
      n.n = 0 ∧ n.ub = false ∧ n.env = e ∧ n.world = w ∧
      Grid.mk? e.neighborLength e.l0 e.minX e.maxX = some n.grid := by
    intro e w n hh
    unfold State.new? at hh
    split at hh
    · cases hh
    · rename_i g hg
      injection hh with hh
      subst hh
      exact ⟨rfl, rfl, rfl, rfl, hg⟩
  obtain ⟨a1, a2, a3, a4, a5⟩ := hne hs
  obtain ⟨b1, b2, b3, b4, b5⟩ := hne ht
  have hg : t0.grid = s0.grid.shift v := by
    rw [hee] at b5
    have := mk_shift v e.neighborLength e.l0 e.minX e.maxX
    rw [a5] at this
    have b5' : Grid.mk? e.neighborLength e.l0 (e.minX + v) (e.maxX + v) = some t0.grid := b5
    rw [this] at b5'
    injection b5' with b5'
    exact b5'.symm
  have hinv : ShiftInv v s0 t0 := by
    refine ⟨⟨?_, ?_, ?_⟩, ?_, hok, a2, b2⟩
    · unfold State.particles; rw [a1, b1]; rfl
    · rw [a3, b3, hee]
    · rw [a4, b4]
    · rw [hg]; exact ⟨rfl, rfl, rfl, rfl⟩
  rcases performAll_shift hcg hcs hinv (by rw [a1]; exact hv) (by rw [a1]; exact hv') with h | ⟨log, s, t, h1, h2, h3⟩
  · exact Or.inl h
  · exact Or.inr ⟨log, s, t, h1, h2, h3.particles, h3.world, h3.env⟩

/-- With central gravity (`CENTRAL_GRAVITY`) the scene is not translation invariant: the acceleration of a particle depends on its
position relative to the origin (it is zero at the origin and points along the position elsewhere). -/
theorem C35_central_gravity_is_not_translation_invariant :
    ∃ (s : State ℝ 2 Unit) (v : Vec ℝ 2) (cfg : Config), cfg.centralGravity = true ∧
      (s.shift v).gravity cfg 0 ≠ s.gravity cfg 0 := by
  refine ⟨{ dropState with ps := fun _ => { (Particle.new .incompressibleNewton : Particle ℝ 2) with x := ![1, 0] }
                           env := { dropEnv with g := ![0, 1], l0 := 1 } }, ![-1, 0],
    { Config.default with centralGravity := true }, rfl, ?_⟩
  intro h
  have h0 := congrFun h 0
  have n1 : norm2 (![1, 0] : Vec ℝ 2) = 1 := by rw [norm2_real, dot_real]; simp
  have n2 : norm2 (![1, 0] + ![-1, 0] : Vec ℝ 2) = 0 := by rw [norm2_real, dot_real]; simp
  have c0 : (List.finRange 2).foldl (fun (z : ℝ) (a : Fin 2) => if a.val + 1 = 2 then (![0, 1] : Vec ℝ 2) a else z) 0 = 1 := by
    rw [show List.finRange 2 = [0, 1] from rfl]; simp
  have t1 : ¬ (Scalar.lt (1 : ℝ) (1 * (Scalar.ofInt 1 / Scalar.ofInt 100)) = true) := by
    rw [lt_real_iff, ofInt_real, ofInt_real]; norm_num
  have t2 : Scalar.lt (0 : ℝ) (1 * (Scalar.ofInt 1 / Scalar.ofInt 100)) = true := by
    rw [lt_real_iff, ofInt_real, ofInt_real]; norm_num
  have key : ∀ (q : State ℝ 2 Unit) (x : Vec ℝ 2), (q.ps 0).x = x → q.env.g = ![0, 1] → q.env.l0 = 1 →
      q.gravity { Config.default with centralGravity := true } 0 0
        = (if Scalar.lt (norm2 x) (1 * (Scalar.ofInt 1 / Scalar.ofInt 100)) then (0 : Vec ℝ 2) else vdiv x (norm2 x)) 0 := by
    intro q x hx hg hl
    subst hx
    unfold State.gravity
    simp only [if_true, hg, hl, smul]
    refine Eq.trans (congrArg (fun z : ℝ => z * _) c0) (one_mul _)
  rw [key _ (![1, 0] + ![-1, 0]) rfl rfl rfl, key _ ![1, 0] rfl rfl rfl, n1, n2, if_pos t2, if_neg t1] at h0
  simp [vdiv] at h0

/-! ## Non-vacuity: the drop simulation of `Props/Examples.lean`, moved by (5, -3), takes a step under other schedules -/

example : ∃ log s t, State.performAll dropP [.add dropParticles, .forward (Schedule.serial 4) (1 / 1000)] dropNew = some (log, s) ∧
    (∃ t0, State.new? ((Env.mk? Config.default
        { latticeArgs with minX := latticeArgs.minX + ![5, -3], maxX := latticeArgs.maxX + ![5, -3] }).get rfl) () = some t0 ∧
      State.performAll (dropP.shift ![5, -3])
        [.add (dropParticles.map (Particle.shift ![5, -3])), .forward (fun _ => reversed 4) (1 / 1000)] t0 = some (log, t)) ∧
    t.particles = s.particles.map (fun q => { q with x := q.x + ![5, -3] }) ∧ dropP.cfg.centralGravity = false := by
  obtain ⟨t0, ht0⟩ : ∃ t0 : State ℝ 2 Unit, State.new? ((Env.mk? Config.default
      { latticeArgs with minX := latticeArgs.minX + ![5, -3], maxX := latticeArgs.maxX + ![5, -3] }).get rfl) () = some t0 := by
    unfold State.new?; rw [Env.builtGrid_eq]; exact ⟨_, rfl⟩
  have hrev : Schedule.Valid 4 (fun _ => reversed 4) := fun _ => reversed_valid
  rcases C35_translated_program_gives_translated_result ![5, -3] dropP rfl latticeArgs () (e := dropEnv) dropEnv_eq rfl dropNew_eq ht0 dropNew_ok
    (.cons (.add dropParticles) (.cons (.forward (Schedule.serial 4) (fun _ => reversed 4) (1 / 1000)) .nil))
    (⟨trivial, Schedule.serial_valid 4, trivial⟩) (⟨trivial, hrev, trivial⟩) with ⟨h, -⟩ | ⟨log, s, t, h1, h2, h3, -⟩
  · exfalso
    have hstep : ∃ r, dropState.forwardTime dropP (Schedule.serial 4) (1 / 1000) = .ok r := by
      exact dropState_step (dt := 1 / 1000) (by norm_num) (by norm_num)
    obtain ⟨r, hr⟩ := hstep
    unfold State.performAll at h
    simp only [State.perform] at h
    unfold State.performAll at h
    simp only [State.perform, show (dropNew.addParticles dropParticles) = dropState from rfl, hr, State.performAll, Option.map] at h
    cases h
  · exact ⟨log, s, t, h1, ⟨t0, ht0, h2⟩, h3, rfl⟩

end OpenMps
