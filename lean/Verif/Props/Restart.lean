import Verif.Lemmas.Retime
import Verif.Props.MainWalls

/-! # Continuing with another computer, restarting from an output file: C52 -/

namespace OpenMps

set_option linter.unusedSectionVars false

section
variable {F : Type} [Scalar F] {D : Nat} {ω : Type}

theorem SameButClock.n {s t : State F D ω} (h : SameButClock s t) : t.n = s.n := by
  have := congrArg List.length h.particles
  simpa [State.particles] using this

theorem SameButClock.ps {s t : State F D ω} (h : SameButClock s t) {i : Nat} (hi : i < s.n) : t.ps i = s.ps i := by
  have h1 := h.particles
  unfold State.particles at h1
  rw [h.n] at h1
  exact List.map_inj_left.mp h1 i (by simpa using hi)

/-- The invariant: same but for the clock (the two clocks are related by `R`), grids of the same shape. -/
structure HandInv (R : F → F → Prop) (s t : State F D ω) : Prop where
  same : SameButClock s t
  geom : SameGeom s.grid t.grid
  ok : s.grid.ClearOK
  ubs : s.ub = false
  ubt : t.ub = false
  clock : R s.env.t t.env.t

theorem determineDt_same {s t : State F D ω} (hn : t.n = s.n) (hu : ∀ i, i < s.n → (t.ps i).u = (s.ps i).u)
    (hdx : t.env.maxDx = s.env.maxDx) (hdt : t.env.maxDt = s.env.maxDt) : t.determineDt = s.determineDt := by
  unfold State.determineDt
  rw [hn, hdx, hdt]
  by_cases h0 : s.n = 0
  · rw [if_pos h0, if_pos h0]
  · rw [if_neg h0, if_neg h0]
    have hf : ∀ l : List Nat, (∀ k ∈ l, k + 1 < s.n) → ∀ b, b < s.n →
        l.foldl (fun best k => if Scalar.lt (dot (t.ps best).u (t.ps best).u) (dot (t.ps (k + 1)).u (t.ps (k + 1)).u)
          then k + 1 else best) b
        = l.foldl (fun best k => if Scalar.lt (dot (s.ps best).u (s.ps best).u) (dot (s.ps (k + 1)).u (s.ps (k + 1)).u)
          then k + 1 else best) b ∧
        l.foldl (fun best k => if Scalar.lt (dot (s.ps best).u (s.ps best).u) (dot (s.ps (k + 1)).u (s.ps (k + 1)).u)
          then k + 1 else best) b < s.n := by
      intro l
      induction l with
      | nil => intro _ b hb; exact ⟨rfl, hb⟩
      | cons k l ih =>
        intro hl b hb
        simp only [List.foldl_cons]
        rw [hu b hb, hu (k + 1) (hl k (List.mem_cons_self ..))]
        apply ih (fun k' hk' => hl k' (List.mem_cons_of_mem _ hk'))
        split
        · exact hl k (List.mem_cons_self ..)
        · exact hb
    have h2 := hf (List.range (s.n - 1)) (by intro k hk; have := List.mem_range.mp hk; omega) 0 (by omega)
    have e1 : t.fastest = s.fastest := by unfold State.fastest; rw [hn]; exact h2.1
    have e2 : s.fastest < s.n := h2.2
    rw [e1, hu _ e2]

theorem SameButClock.determineDt {s t : State F D ω} (h : SameButClock s t) : t.determineDt = s.determineDt :=
  determineDt_same h.n (fun i hi => by rw [h.ps hi]) (by rw [h.env]) (by rw [h.env])

/-- The types a step leaves are those after its search. -/
theorem leaves_ty {P : Params F D ω} {s s1 : State F D ω} {sch : Schedule} {dt : F} (hv : sch.Valid s.n)
    (h : (s.start dt).searchNeighbor (sch 0) = .ok s1) :
    ∃ s', (s.forwardTime P sch dt).leaves s' ∧ ∀ i, (s'.ps i).ty = (s1.ps i).ty := by
  rw [forwardTime_eq P sch dt s hv, h]
  change ∃ s', (s1.afterSearch P).leaves s' ∧ _
  cases ha : s1.afterSearch P with
  | ok s' =>
    refine ⟨s', Or.inl rfl, fun i => ?_⟩
    obtain ⟨s2, h3, rfl⟩ := afterSearch_ok ha
    rw [dsC_ty, gradC_ty, ((pressureC_frame h3).2.2.2.2.2.2.2.2.2.2 i).2.2.2, midC_ty]
  | exn e s' =>
    refine ⟨s', Or.inr ⟨e, rfl⟩, fun i => ?_⟩
    rw [(pressureC_exn_frame (afterSearch_exn ha)).2.1, midC_ty]
  | ub => exact absurd ha afterSearch_ub

/-- The second computer with the clock of the first one. -/
def State.withEnv (e : Env F D) (s : State F D ω) : State F D ω := { s with env := e }

theorem forwardTime_withEnv {P P' : Params F D ω} (hcfg : P'.cfg = P.cfg) (heps : P'.eps = P.eps) (hpre : P'.walls.pre = P.walls.pre)
    (hT : P'.walls.Timeless) {s t : State F D ω} (h : SameButClock s t) {sch : Schedule} (hv : sch.Valid t.n) (dt : F)
    (hw : ∀ t1, ((t.withEnv s.env).start dt).searchNeighbor (sch 0) = .ok t1 →
      ∀ i, i < t1.n → (t1.ps i).ty ≠ .incompressibleNewton → ∀ w τ δ, P'.walls.pos w i τ δ = P.walls.pos w i τ δ) :
    t.forwardTime P' sch dt = ((t.withEnv s.env).forwardTime P sch dt).map (State.atTime (t.env.t + dt)) := by
  rw [forwardTime_eq P' sch dt t hv, forwardTime_eq P sch dt (t.withEnv s.env) hv]
  have hst : t.start dt = ((t.withEnv s.env).start dt).atTime (t.env.t + dt) := by
    unfold State.start State.atTime State.withEnv
    simp only
    congr 1
    rw [h.env]
  rw [hst, searchNeighbor_atTime]
  cases hs : ((t.withEnv s.env).start dt).searchNeighbor (sch 0) with
  | ok t1 =>
    change (t1.atTime (t.env.t + dt)).afterSearch P' = (t1.afterSearch P).map _
    rw [afterSearch_atTime _ hT, afterSearch_walls hcfg heps hpre t1 (hw t1 hs)]
  | exn e t1 => rfl
  | ub => rfl

/-- One step of two computers that differ only in the clock. -/
theorem forward_cinv {R : F → F → Prop} (hR : ∀ a b dt, R a b → R (a + dt) (b + dt)) {P P' : Params F D ω} (hcfg : P'.cfg = P.cfg)
    (heps : P'.eps = P.eps) (hpre : P'.walls.pre = P.walls.pre) (hT : P'.walls.Timeless) {s t : State F D ω} (h : HandInv R s t)
    {sch sch' : Schedule} (dt : F) (hv : sch.Valid s.n) (hv' : sch'.Valid t.n)
    (hw : ∀ t1, ((t.withEnv s.env).start dt).searchNeighbor (sch' 0) = .ok t1 →
      ∀ i, i < t1.n → (t1.ps i).ty ≠ .incompressibleNewton → ∀ w τ δ, P'.walls.pos w i τ δ = P.walls.pos w i τ δ) :
    (∃ a b, s.forwardTime P sch dt = .ok a ∧ t.forwardTime P' sch' dt = .ok b ∧ HandInv R a b) ∨
    (∃ e a b, s.forwardTime P sch dt = .exn e a ∧ t.forwardTime P' sch' dt = .exn e b ∧ HandInv R a b) ∨
    (s.forwardTime P sch dt = .ub ∧ t.forwardTime P' sch' dt = .ub) := by
  have hvis : SameVisible s (t.withEnv s.env) := ⟨h.same.particles, rfl, h.same.world⟩
  have h18 := C18_depends_only_on_visible_state (P := P) (sch := sch) (sch' := sch') (dt := dt) hvis
    ⟨h.geom.bl, h.geom.origin, h.geom.size, h.geom.cap⟩ h.ok h.ubs h.ubt hv hv'
  have he := forwardTime_withEnv hcfg heps hpre hT h.same hv' dt hw
  have fs := fun a (ha : (s.forwardTime P sch dt).leaves a) => step_frame hv ha
  have ft := fun b (hb : (t.forwardTime P' sch' dt).leaves b) => step_frame hv' hb
  have mk : ∀ a b, (s.forwardTime P sch dt).leaves a → (t.forwardTime P' sch' dt).leaves (State.atTime (t.env.t + dt) b) →
      SameVisible a b → HandInv R a (b.atTime (t.env.t + dt)) := by
    intro a b ha hb hab
    obtain ⟨f1, f2, f3, f4, -⟩ := fs a ha
    obtain ⟨g1, g2, g3, g4, -⟩ := ft _ hb
    refine ⟨⟨hab.particles, ?_, hab.world⟩, f3.symm.trans (h.geom.trans g3), f3.clearOK.mpr h.ok, by rw [f4]; exact h.ubs,
      by rw [g4]; exact h.ubt, ?_⟩
    · have : b.env = a.env := hab.env
      show ({ b.env with t := t.env.t + dt } : Env F D) = { a.env with t := t.env.t + dt, dt := b.env.dt }
      rw [this]
    · rw [f2, g2]; exact hR _ _ _ h.clock
  rw [he] at mk ⊢
  generalize s.forwardTime P sch dt = r at h18 mk
  generalize (t.withEnv s.env).forwardTime P sch' dt = r' at h18 mk
  cases h18 with
  | @ok a b hab => exact Or.inl ⟨a, _, rfl, rfl, mk a b (Or.inl rfl) (Or.inl rfl) hab⟩
  | @exn e a b hab => exact Or.inr (Or.inl ⟨e, a, _, rfl, rfl, mk a b (Or.inr ⟨_, rfl⟩) (Or.inr ⟨_, rfl⟩) hab⟩)
  | ub => exact Or.inr (Or.inr ⟨rfl, rfl⟩)

theorem auto_cinv {R : F → F → Prop} (hR : ∀ a b dt, R a b → R (a + dt) (b + dt)) {P P' : Params F D ω} (hcfg : P'.cfg = P.cfg)
    (heps : P'.eps = P.eps) (hpre : P'.walls.pre = P.walls.pre) (hT : P'.walls.Timeless) {s t : State F D ω} (h : HandInv R s t)
    {sch sch' : Schedule} (hv : sch.Valid s.n) (hv' : sch'.Valid t.n)
    (hw : ∀ dt, s.determineDt = some dt → ∀ t1, ((t.withEnv s.env).start dt).searchNeighbor (sch' 0) = .ok t1 →
      ∀ i, i < t1.n → (t1.ps i).ty ≠ .incompressibleNewton → ∀ w τ δ, P'.walls.pos w i τ δ = P.walls.pos w i τ δ) :
    (∃ a b, s.forwardTimeAuto P sch = .ok a ∧ t.forwardTimeAuto P' sch' = .ok b ∧ HandInv R a b) ∨
    (∃ e a b, s.forwardTimeAuto P sch = .exn e a ∧ t.forwardTimeAuto P' sch' = .exn e b ∧ HandInv R a b) ∨
    (s.forwardTimeAuto P sch = .ub ∧ t.forwardTimeAuto P' sch' = .ub) := by
  unfold State.forwardTimeAuto
  rw [h.same.determineDt]
  cases hd : s.determineDt with
  | none => exact Or.inr (Or.inr ⟨rfl, rfl⟩)
  | some dt => exact forward_cinv hR hcfg heps hpre hT h dt hv hv' (hw dt hd)

/-! ## Another computer -/

theorem HandInv.add {R : F → F → Prop} {s t : State F D ω} (h : HandInv R s t) (src : List (Particle F D)) :
    HandInv R (s.addParticles src) (t.addParticles src) :=
  ⟨⟨by rw [C09_add_appends, C09_add_appends, h.same.particles], h.same.env, h.same.world⟩, h.geom, h.ok, h.ubs, h.ubt, h.clock⟩

theorem performAll_cinv {P : Params F D ω} (hT : P.walls.Timeless) {cs cs' : List (Call F D)} (hcs : List.Forall₂ Call.Same cs cs') :
    ∀ {s t : State F D ω}, HandInv (fun _ _ => True) s t → CallsValid s.n cs → CallsValid t.n cs' →
      (∃ ex a b, s.performAll P cs = some (ex, a) ∧ t.performAll P cs' = some (ex, b) ∧ HandInv (fun _ _ => True) a b) ∨
      (s.performAll P cs = none ∧ t.performAll P cs' = none) := by
  induction hcs with
  | nil => intro s t h _ _; exact Or.inl ⟨[], s, t, rfl, rfl, h⟩
  | @cons c c' cs cs' hc hcs ih =>
    intro s t h hv hv'
    have key : (∃ a b, s.perform P c = .ok a ∧ t.perform P c' = .ok b ∧ HandInv (fun _ _ => True) a b ∧ a.n = s.n + c.added ∧ b.n = t.n + c'.added) ∨
        (∃ e a b, s.perform P c = .exn e a ∧ t.perform P c' = .exn e b ∧ HandInv (fun _ _ => True) a b ∧ a.n = s.n + c.added ∧
          b.n = t.n + c'.added) ∨
        (s.perform P c = .ub ∧ t.perform P c' = .ub) := by
      cases hc with
      | add src => exact Or.inl ⟨_, _, rfl, rfl, h.add src, rfl, rfl⟩
      | forward sch sch' dt =>
        rcases forward_cinv (fun _ _ _ _ => trivial) rfl rfl rfl hT h dt hv.1 hv'.1 (fun _ _ _ _ _ _ _ _ => rfl) with
          ⟨a, b, e1, e2, hab⟩ | ⟨e, a, b, e1, e2, hab⟩ | ⟨e1, e2⟩
        · exact Or.inl ⟨a, b, e1, e2, hab, (step_frame hv.1 (Or.inl e1)).1, (step_frame hv'.1 (Or.inl e2)).1⟩
        · exact Or.inr (Or.inl ⟨e, a, b, e1, e2, hab, (step_frame hv.1 (Or.inr ⟨e, e1⟩)).1, (step_frame hv'.1 (Or.inr ⟨e, e2⟩)).1⟩)
        · exact Or.inr (Or.inr ⟨e1, e2⟩)
      | auto sch sch' =>
        show (∃ a b, s.forwardTimeAuto P sch = .ok a ∧ t.forwardTimeAuto P sch' = .ok b ∧ _) ∨
          (∃ e a b, s.forwardTimeAuto P sch = .exn e a ∧ t.forwardTimeAuto P sch' = .exn e b ∧ _) ∨
          (s.forwardTimeAuto P sch = .ub ∧ t.forwardTimeAuto P sch' = .ub)
        unfold State.forwardTimeAuto
        rw [h.same.determineDt]
        cases s.determineDt with
        | none => exact Or.inr (Or.inr ⟨rfl, rfl⟩)
        | some dt =>
          simp only
          rcases forward_cinv (fun _ _ _ _ => trivial) rfl rfl rfl hT h dt hv.1 hv'.1 (fun _ _ _ _ _ _ _ _ => rfl) with
            ⟨a, b, e1, e2, hab⟩ | ⟨e, a, b, e1, e2, hab⟩ | ⟨e1, e2⟩
          · exact Or.inl ⟨a, b, e1, e2, hab, (step_frame hv.1 (Or.inl e1)).1, (step_frame hv'.1 (Or.inl e2)).1⟩
          · exact Or.inr (Or.inl ⟨e, a, b, e1, e2, hab, (step_frame hv.1 (Or.inr ⟨e, e1⟩)).1, (step_frame hv'.1 (Or.inr ⟨e, e2⟩)).1⟩)
          · exact Or.inr (Or.inr ⟨e1, e2⟩)
    have hsv := hv.2
    have htv := hv'.2
    unfold State.performAll
    rcases key with ⟨a, b, e1, e2, hab, n1, n2⟩ | ⟨e, a, b, e1, e2, hab, n1, n2⟩ | ⟨e1, e2⟩
    · rw [e1, e2]
      simp only
      rcases ih hab (by rw [n1]; exact hsv) (by rw [n2]; exact htv) with ⟨ex, a', b', p1, p2, hab'⟩ | ⟨p1, p2⟩
      · exact Or.inl ⟨none :: ex, a', b', by rw [p1]; rfl, by rw [p2]; rfl, hab'⟩
      · exact Or.inr ⟨by rw [p1]; rfl, by rw [p2]; rfl⟩
    · rw [e1, e2]
      simp only
      rcases ih hab (by rw [n1]; exact hsv) (by rw [n2]; exact htv) with ⟨ex, a', b', p1, p2, hab'⟩ | ⟨p1, p2⟩
      · exact Or.inl ⟨some e :: ex, a', b', by rw [p1]; rfl, by rw [p2]; rfl, hab'⟩
      · exact Or.inr ⟨by rw [p1]; rfl, by rw [p2]; rfl⟩
    · rw [e1, e2]
      exact Or.inr ⟨rfl, rfl⟩

/-- The constants never change. -/
theorem hist_constants {P : Params F D ω} {s0 s : State F D ω} {dts : List F} (hist : Hist P s0 dts s) :
    s.env = { s0.env with t := s.env.t, dt := s.env.dt } := by
  refine Hist.rec' (Q := fun _ s => s.env = { s0.env with t := s.env.t, dt := s.env.dt }) rfl ?_ ?_ hist
  · intro _ _ _ _ h; exact h
  · intro _ _ _ _ _ _ h hv hl
    rw [(step_frame hv hl).2.1, h]

theorem new_facts {env : Env F D} {w : ω} {s : State F D ω} (h : State.new? env w = some s) :
    s.n = 0 ∧ s.ub = false ∧ s.env = env ∧ s.world = w ∧ Grid.mk? env.neighborLength env.l0 env.minX env.maxX = some s.grid := by
  unfold State.new? at h
  split at h
  · cases h
  · rename_i g hg
    injection h with h
    subst h
    exact ⟨rfl, rfl, rfl, rfl, hg⟩

/-- A new computer with the particles of an old one. -/
theorem fresh_cinv {R : F → F → Prop} {P : Params F D ω} {env : Env F D} {w w' : ω} {s0 s t0 : State F D ω} {dts : List F}
    (hnew : State.new? env w = some s0) (hist : Hist P s0 dts s) (hok : s0.grid.ClearOK) (hnew' : State.new? env w' = some t0)
    (hw : s.world = w') (hR : R s.env.t env.t) : HandInv R s (t0.addParticles s.particles) := by
  obtain ⟨h1, h2, h3⟩ := hist.frame
  obtain ⟨a1, a2, a3, a4, a5⟩ := new_facts hnew
  obtain ⟨b1, b2, b3, b4, b5⟩ := new_facts hnew'
  have hgrid : t0.grid = s0.grid := by rw [a5] at b5; injection b5 with b5; exact b5.symm
  have hc := hist_constants hist
  refine ⟨⟨?_, ?_, ?_⟩, ?_, h2.clearOK.mpr hok, by rw [h3]; exact a2, b2, ?_⟩
  · rw [C09_add_appends]; simp [State.particles, b1]
  · show t0.env = { s.env with t := t0.env.t, dt := t0.env.dt }
    rw [hc, a3, b3]
  · show t0.world = s.world
    rw [b4, hw]
  · show SameGeom s.grid t0.grid
    rw [hgrid]; exact h2.symm
  · show R s.env.t t0.env.t
    rw [b3]; exact hR

/-- **C52.**  A computation can be handed over to another computer: a new computer, built with the same environment, that is given the particles of an old one
(after any history of calls) answers every further sequence of calls like the old one - same exceptions, same particles - although its clock starts again and whatever
the schedules are, if the wall callbacks do not look at the clock. -/
theorem C52_new_computer_continues {P : Params F D ω} (hT : P.walls.Timeless) {env : Env F D} {w : ω} {s0 s t0 : State F D ω} {dts : List F}
    (hnew : State.new? env w = some s0) (hist : Hist P s0 dts s) (hok : s0.grid.ClearOK) (hnew' : State.new? env s.world = some t0)
    {cs cs' : List (Call F D)} (hcs : List.Forall₂ Call.Same cs cs') (hv : CallsValid s.n cs) (hv' : CallsValid s.n cs') :
    (∃ thrown a b, s.performAll P cs = some (thrown, a) ∧ (t0.addParticles s.particles).performAll P cs' = some (thrown, b) ∧ SameButClock a b) ∨
    (s.performAll P cs = none ∧ (t0.addParticles s.particles).performAll P cs' = none) := by
  have h := fresh_cinv (R := fun _ _ => True) hnew hist hok hnew' rfl trivial
  rcases performAll_cinv hT hcs h hv (by rw [h.same.n]; exact hv') with ⟨ex, a, b, e1, e2, hab⟩ | e
  · exact Or.inl ⟨ex, a, b, e1, e2, hab.same⟩
  · exact Or.inr e

/-! ## Steps of a restarted run -/

/-- Corresponding outcomes. -/
inductive HandOut (R : F → F → Prop) : Res (State F D ω) → Res (State F D ω) → Prop
  | ok {s t} : HandInv R s t → HandOut R (.ok s) (.ok t)
  | exn {e s t} : HandInv R s t → HandOut R (.exn e s) (.exn e t)
  | ub : HandOut R .ub .ub

theorem HandOut.same {R : F → F → Prop} {r r' : Res (State F D ω)} (h : HandOut R r r') : SameOutcomeButClock r r' := by
  cases h with
  | ok h => exact .ok h.same
  | exn h => exact .exn h.same
  | ub => exact .ub

theorem types_get {s t : State F D ω} (h : s.types = t.types) {i : Nat} (hi : i < t.n) : (s.ps i).ty = (t.ps i).ty := by
  have hn : s.n = t.n := by simpa [State.types, State.particles] using congrArg List.length h
  have h' := congrArg (fun l => l[i]?) h
  simp only [State.types, State.particles, List.map_map, List.getElem?_map, List.getElem?_range hi,
    List.getElem?_range (show i < s.n by omega), Option.map_some, Option.some.injEq, Function.comp] at h'
  exact h'

theorem types_eq {s t : State F D ω} (hn : s.n = t.n) (h : ∀ i, i < t.n → (s.ps i).ty = (t.ps i).ty) : s.types = t.types := by
  unfold State.types State.particles
  rw [List.map_map, List.map_map, hn]
  exact List.map_congr_left (fun i hi => h i (by simpa using hi))

theorem SameButClock.types {s t : State F D ω} (h : SameButClock s t) : t.types = s.types := by
  unfold State.types; rw [h.particles]

/-- If a step (of either computer) disables nothing, the callbacks are only asked about particles that were not fluid before. -/
theorem step_types {R : F → F → Prop} {P P' : Params F D ω} {s t : State F D ω} (h : HandInv R s t) {sch sch' : Schedule} (dt : F)
    (hv : sch.Valid s.n) (hv' : sch'.Valid t.n)
    (hnd : (∀ a, (s.forwardTime P sch dt).leaves a → a.types = s.types) ∨ (∀ b, (t.forwardTime P' sch' dt).leaves b → b.types = t.types))
    {t1 : State F D ω} (h1 : ((t.withEnv s.env).start dt).searchNeighbor (sch' 0) = .ok t1) (i : Nat) (hi : i < s.n) :
    (t1.ps i).ty = (s.ps i).ty := by
  rcases hnd with hnd | hnd
  · have hvis : SameVisible s (t.withEnv s.env) := ⟨h.same.particles, rfl, h.same.world⟩
    have h18 := C18_depends_only_on_visible_state (P := P) (sch := sch) (sch' := sch') (dt := dt) hvis
      ⟨h.geom.bl, h.geom.origin, h.geom.size, h.geom.cap⟩ h.ok h.ubs h.ubt hv hv'
    obtain ⟨b, hb, hty⟩ := leaves_ty (P := P) (s := t.withEnv s.env) hv' h1
    have fs := fun a (ha : (s.forwardTime P sch dt).leaves a) => (step_frame hv ha).1
    have key : ∃ a, (s.forwardTime P sch dt).leaves a ∧ SameVisible a b := by
      rcases hb with hb | ⟨e, hb⟩
      · rw [hb] at h18
        generalize s.forwardTime P sch dt = r at h18
        cases h18 with
        | ok hab => exact ⟨_, Or.inl rfl, hab⟩
      · rw [hb] at h18
        generalize s.forwardTime P sch dt = r at h18
        cases h18 with
        | exn hab => exact ⟨_, Or.inr ⟨_, rfl⟩, hab⟩
    obtain ⟨a, ha, hab⟩ := key
    rw [← hty i, hab.ps (by rw [fs a ha]; exact hi)]
    exact types_get (hnd a ha) hi
  · have hst : t.start dt = ((t.withEnv s.env).start dt).atTime (t.env.t + dt) := by
      unfold State.start State.atTime State.withEnv
      simp only
      congr 1
      rw [h.same.env]
    have h2 : (t.start dt).searchNeighbor (sch' 0) = .ok (t1.atTime (t.env.t + dt)) := by
      rw [hst, searchNeighbor_atTime, h1]; rfl
    obtain ⟨b, hb, hty⟩ := leaves_ty (P := P') hv' h2
    have e1 : (t1.ps i).ty = (b.ps i).ty := (hty i).symm
    rw [e1, types_get (hnd b hb) (by rw [h.same.n]; exact hi), h.same.ps hi]

theorem steps_cinv {R : F → F → Prop} (hR : ∀ a b dt, R a b → R (a + dt) (b + dt)) {P P' : Params F D ω} (hcfg : P'.cfg = P.cfg)
    (heps : P'.eps = P.eps) (hpre : P'.walls.pre = P.walls.pre) (hT : P'.walls.Timeless) {s t : State F D ω} (h : HandInv R s t)
    {sch sch' : Nat → Schedule} (hv : ∀ k, (sch k).Valid s.n) (hv' : ∀ k, (sch' k).Valid s.n)
    (hw : ∀ i, i < s.n → (s.ps i).ty ≠ .incompressibleNewton → ∀ w τ δ, P'.walls.pos w i τ δ = P.walls.pos w i τ δ) :
    ∀ j : Nat, ((∀ i, i ≤ j → ∀ a, (s.afterSteps P sch i).leaves a → a.types = s.types) ∨
        (∀ i, i ≤ j → ∀ b, (t.afterSteps P' sch' i).leaves b → b.types = t.types)) →
      HandOut R (s.afterSteps P sch j) (t.afterSteps P' sch' j)
  | 0, _ => .ok h
  | j + 1, hnd => by
    have ih := steps_cinv hR hcfg heps hpre hT h hv hv' hw j (hnd.imp (fun k i hi => k i (by omega)) (fun k i hi => k i (by omega)))
    have e1 : s.afterSteps P sch (j + 1) = (s.afterSteps P sch j).andThen (fun s => s.forwardTimeAuto P (sch j)) := rfl
    have e2 : t.afterSteps P' sch' (j + 1) = (t.afterSteps P' sch' j).andThen (fun s => s.forwardTimeAuto P' (sch' j)) := rfl
    cases ha : s.afterSteps P sch j with
    | ub =>
      rw [ha] at ih e1
      cases hb : t.afterSteps P' sch' j with
      | ub => rw [hb] at e2; rw [e1, e2]; exact .ub
      | ok b => rw [hb] at ih; cases ih
      | exn e b => rw [hb] at ih; cases ih
    | exn e a =>
      rw [ha] at ih e1
      cases hb : t.afterSteps P' sch' j with
      | ub => rw [hb] at ih; cases ih
      | ok b => rw [hb] at ih; cases ih
      | exn e' b => rw [hb] at ih e2; rw [e1, e2]; exact ih
    | ok a =>
      rw [ha] at ih e1
      cases hb : t.afterSteps P' sch' j with
      | ub => rw [hb] at ih; cases ih
      | exn e b => rw [hb] at ih; cases ih
      | ok b =>
        rw [hb] at ih e2
        have hab : HandInv R a b := by cases ih; assumption
        have hty : a.types = s.types := by
          rcases hnd with k | k
          · exact k j (by omega) a (Or.inl ha)
          · rw [← hab.same.types, k j (by omega) b (Or.inl hb), h.same.types]
        have hna : a.n = s.n := by simpa [State.types, State.particles] using congrArg List.length hty
        have hnd' : (∀ c, (a.forwardTimeAuto P (sch j)).leaves c → c.types = a.types) ∨
            (∀ c, (b.forwardTimeAuto P' (sch' j)).leaves c → c.types = b.types) := by
          rcases hnd with k | k
          · refine Or.inl (fun c hc => ?_)
            rw [hty]; exact k (j + 1) (by omega) c (by rw [e1]; exact hc)
          · refine Or.inr (fun c hc => ?_)
            rw [k j (by omega) b (Or.inl hb)]; exact k (j + 1) (by omega) c (by rw [e2]; exact hc)
        rw [e1, e2]
        change HandOut R (a.forwardTimeAuto P (sch j)) (b.forwardTimeAuto P' (sch' j))
        have hva : (sch j).Valid a.n := by rw [hna]; exact hv j
        have hvb : (sch' j).Valid b.n := by rw [hab.same.n, hna]; exact hv' j
        have hside : ∀ dt, a.determineDt = some dt → ∀ t1, ((b.withEnv a.env).start dt).searchNeighbor (sch' j 0) = .ok t1 →
            ∀ i, i < t1.n → (t1.ps i).ty ≠ .incompressibleNewton → ∀ w τ δ, P'.walls.pos w i τ δ = P.walls.pos w i τ δ := by
          intro dt hdt t1 ht1 i hi hne
          have hn1 : t1.n = b.n := by
            obtain ⟨g0, g, nb, k1, k2, k3, k4, -⟩ := searchNeighbor_ok_frame (s := (b.withEnv a.env).start dt) (hvb 0) ht1
            rw [k3]; rfl
          have hi' : i < a.n := by rw [hn1, hab.same.n] at hi; exact hi
          have hnd'' : (∀ c, (a.forwardTime P (sch j) dt).leaves c → c.types = a.types) ∨
              (∀ c, (b.forwardTime P' (sch' j) dt).leaves c → c.types = b.types) := by
            unfold State.forwardTimeAuto at hnd'
            rw [hab.same.determineDt, hdt] at hnd'
            exact hnd'
          have := step_types hab dt hva hvb hnd'' ht1 i hi'
          refine hw i (by rw [← hna]; exact hi') ?_
          rw [← types_get hty (by rw [← hna]; exact hi'), ← this]
          exact hne
        rcases auto_cinv hR hcfg heps hpre hT hab hva hvb hside with ⟨a', b', k1, k2, k3⟩ | ⟨e, a', b', k1, k2, k3⟩ | ⟨k1, k2⟩
        · rw [k1, k2]; exact .ok k3
        · rw [k1, k2]; exact .exn k3
        · rw [k1, k2]; exact .ub

/-- Steps after steps. -/
theorem afterSteps_add {P : Params F D ω} {sch : Nat → Schedule} {s0 s : State F D ω} {it : Nat} (h : s0.afterSteps P sch it = .ok s) :
    ∀ j, s0.afterSteps P sch (it + j) = s.afterSteps P (fun k => sch (it + k)) j
  | 0 => h
  | j + 1 => by
    show (s0.afterSteps P sch (it + j)).andThen _ = (s.afterSteps P (fun k => sch (it + k)) j).andThen _
    rw [afterSteps_add h j]
    rfl

end

/-! ## Restarting the main program -/

section
variable {F : Type} [Scalar F] {D : Nat}

theorem readRows_types (cv : Conv F) (h : List Char → Nat) : ∀ (ls : List (List Char)) (ps : List (Particle F D)),
    readRows cv h ls = .ok ps → ∀ q ∈ ps, ∃ k, q.ty = PType.ofInt k
  | [], ps, e, q, hq => by
    unfold readRows at e
    cases e
    cases hq
  | l :: ls, ps, e, q, hq => by
    unfold readRows at e
    simp only at e
    split at e
    · cases h1 : readParticle (F := F) (D := D) cv h (getItems l) with
      | error er => rw [h1] at e; cases e
      | ok q' =>
        cases h2 : readRows (F := F) (D := D) cv h ls with
        | error er => rw [h1, h2] at e; cases e
        | ok qs =>
          rw [h1, h2] at e
          cases e
          rcases List.mem_cons.1 hq with rfl | hq
          · unfold readParticle at h1
            cases k1 : (cell (getItems l) h colType >>= convert cv.int) with
            | error er => rw [k1] at h1; cases h1
            | ok k =>
              rw [k1] at h1
              cases k2 : vecOf (fun a : Fin D => cell (getItems l) h (colX D a) >>= convert cv.num) with
              | error er => rw [k2] at h1; cases h1
              | ok x =>
                rw [k2] at h1
                cases k3 : vecOf (fun a : Fin D => cell (getItems l) h (colU D a) >>= convert cv.num) with
                | error er => rw [k3] at h1; cases h1
                | ok u =>
                  rw [k3] at h1
                  cases k4 : (cell (getItems l) h ['p'] >>= convert cv.num) with
                  | error er => rw [k4] at h1; cases h1
                  | ok p =>
                    rw [k4] at h1
                    cases k5 : (cell (getItems l) h ['n'] >>= convert cv.num) with
                    | error er => rw [k5] at h1; cases h1
                    | ok n =>
                      rw [k5] at h1
                      cases h1
                      exact ⟨k, rfl⟩
          · exact readRows_types cv h ls qs h2 q hq
    · exact readRows_types cv h ls ps e q hq

theorem input_types {cv : Conv F} {csv : List Char} {ps : List (Particle F D)} (h : inputFromCsv cv csv = .ok ps) :
    ∀ q ∈ ps, ∃ k, q.ty = PType.ofInt k := by
  unfold inputFromCsv at h
  cases h1 : skipEmpty (splitChar '\n' csv) with
  | error e => rw [h1] at h; cases h
  | ok lr =>
    obtain ⟨line, rest⟩ := lr
    rw [h1] at h
    change (headerMap D line >>= fun hd => readRows cv hd rest) = .ok ps at h
    cases h2 : headerMap D line with
    | error e => rw [h2] at h; cases h
    | ok hd =>
      rw [h2] at h
      exact readRows_types cv hd rest ps h

theorem mainWalls_timeless (ps : List (Particle F D)) : (mainWalls ps).Timeless := ⟨fun _ _ _ _ => rfl, fun _ _ _ _ _ => rfl⟩

/-- A file whose numbers are printed exactly is read back as it was. -/
theorem exact_file_is_read_back (hD : D = 2 ∨ D = 3) {pr : Printer F} {cv : Conv F} (hpr : pr.Clean) (hint : ∀ k, cv.int (pr.int k) = some k)
    (ps : List (Particle F D)) (hty : ∀ q ∈ ps, ∃ k, q.ty = PType.ofInt k) (hex : ∀ q ∈ ps, ShownExactly pr cv q) :
    inputFromCsv cv (outputToCsv pr ps) = .ok ps := by
  rw [reads_named_columns cv (output_isText hpr ps) (fun c hc => hc) (fun c hc => hc)]
  simp only
  induction ps with
  | nil => exact .nil
  | cons q ps ih =>
    obtain ⟨e1, e2, e3, e4⟩ := hex q (by simp)
    refine .cons ?_ (ih (fun q' hq' => hty q' (by simp [hq'])) (fun q' hq' => hex q' (by simp [hq'])))
    exact rowIs_fields hD hint (hty q (by simp)) rfl e1 e2 e3 e4

/-- What a restarted run starts with. -/
theorem restart_start (hD : D = 2 ∨ D = 3) {pr : Printer F} {cv : Conv F} (hpr : pr.Clean) (hint : ∀ k, cv.int (pr.int k) = some k)
    {cfg : Config} {sch : Nat → Schedule} {cond cond' : Condition F} {a : EnvArgs F D} {m : Nat}
    {csv : List Char} {P : Params F D Unit} {s0 s : State F D Unit} (h : mainStart cfg cv cond a m csv P s0) (hok : s0.grid.ClearOK)
    (hv : ∀ k, (sch k).Valid s0.n) (hI : cond'.outputInterval = cond.outputInterval) (heps : cond'.eps = cond.eps)
    {it : Nat} (hs : s0.afterSteps P sch it = .ok s) (hex : ∀ q ∈ s.particles, ShownExactly pr cv q) {R : F → F → Prop} (hR : R s.env.t s0.env.t) :
    ∃ P' s0', mainStart cfg cv cond' a m (outputToCsv pr s.particles) P' s0' ∧ HandInv R s s0' ∧ P'.cfg = P.cfg ∧ P'.eps = P.eps ∧
      P'.walls.pre = P.walls.pre ∧ P'.walls.Timeless ∧
      (∀ i, i < s.n → (s.ps i).ty ≠ .incompressibleNewton → ∀ w τ δ, P'.walls.pos w i τ δ = P.walls.pos w i τ δ) ∧
      s.n = s0.n ∧ s0'.env.t = s0.env.t := by
  have hst := h
  obtain ⟨env, ps, n0, e1, e2, e3, rfl, rfl⟩ := h
  obtain ⟨hp, -, hn⟩ := mainStart_ps hst e2
  obtain ⟨⟨dts, hist⟩, hsn⟩ := afterSteps_hist (s1 := n0) ⟨[], .add ps .start⟩ hv it s hs
  obtain ⟨⟨dts', hist'⟩, -⟩ := afterSteps_hist (s1 := n0.addParticles ps) ⟨[], .start⟩ hv it s hs
  have hps0 : ∀ i, i < (n0.addParticles ps).n → ∀ d, ps.getD i d = (n0.addParticles ps).ps i := by
    intro i hi d
    have : ps[i]? = some ((n0.addParticles ps).ps i) := by
      have e := congrArg (fun l => l[i]?) hp
      simp only [State.particles, List.getElem?_map, List.getElem?_range hi, Option.map_some] at e
      exact e.symm
    rw [List.getD_eq_getElem?_getD, this]; rfl
  have hty : ∀ q ∈ s.particles, ∃ k, q.ty = PType.ofInt k := by
    intro q hq
    simp only [State.particles, List.mem_map, List.mem_range] at hq
    obtain ⟨i, hi, rfl⟩ := hq
    rcases (C10_type_only_changes_to_disabled hist' i (by omega)).1 with k | k
    · rw [k, ← hps0 i (by omega) (Particle.new .disabled)]
      refine input_types e2 _ ?_
      rw [List.getD_eq_getElem?_getD, List.getElem?_eq_getElem (by omega)]
      exact List.getElem_mem _
    · exact ⟨3, k⟩
  have hread : inputFromCsv cv (outputToCsv pr s.particles) = .ok s.particles := by
    exact exact_file_is_read_back hD hpr hint s.particles hty hex
  refine ⟨{ cfg := cfg, eps := cond'.eps, walls := mainWalls s.particles }, n0.addParticles s.particles,
    ⟨env, s.particles, n0, by rw [hI]; exact e1, hread, e3, rfl, rfl⟩, ?_, rfl, heps, rfl, mainWalls_timeless _, ?_, hsn, rfl⟩
  · refine fresh_cinv (w' := ()) e3 hist hok e3 rfl ?_
    have : (n0.addParticles ps).env = env := (new_facts e3).2.2.1
    rw [← this]; exact hR
  · intro i hi hne w τ δ
    show (s.particles.getD i (Particle.new .disabled)).x = (ps.getD i (Particle.new .disabled)).x
    have e : s.particles.getD i (Particle.new .disabled) = s.ps i := by
      rw [List.getD_eq_getElem?_getD]
      simp only [State.particles, List.getElem?_map, List.getElem?_range hi, Option.map_some, Option.getD_some]
    rw [e]
    cases it with
    | zero =>
      cases hs
      rw [hps0 i hi]
    | succ it =>
      obtain ⟨s', h1, h2⟩ := afterSteps_prev hs
      obtain ⟨-, hsn'⟩ := afterSteps_hist (s1 := n0) ⟨[], .add ps .start⟩ hv it s' h1
      unfold State.forwardTimeAuto at h2
      cases hd : s'.determineDt with
      | none => rw [hd] at h2; cases h2
      | some dt =>
        rw [hd] at h2
        exact ((C14_nonfluid_follows_callback (by rw [hsn']; exact hv it) h2).2 i (by omega) hne).1

/-- Types only ever become `Disabled`: if after some steps as many particles are enabled as before, no type changed in between. -/
theorem types_of_count {P : Params F D Unit} {sch : Nat → Schedule} {s0 s : State F D Unit} {k : Nat} (hv : ∀ k, (sch k).Valid s0.n)
    (h : s0.afterSteps P sch k = .ok s) (hc : enabledCount s.particles = enabledCount s0.particles) :
    ∀ i, i ≤ k → ∀ b, (s0.afterSteps P sch i).leaves b → b.types = s0.types := by
  intro i hik b hb
  have hbi : s0.afterSteps P sch i = .ok b := by
    rcases hb with hb | ⟨e, hb⟩
    · exact hb
    · have := afterSteps_stuck P sch s0 (k := i) (by rw [hb]; intro s h; cases h) k hik
      rw [h, hb] at this; cases this
  obtain ⟨j, rfl⟩ : ∃ j, k = i + j := ⟨k - i, by omega⟩
  obtain ⟨⟨d1, h1⟩, n1⟩ := afterSteps_hist (s1 := s0) ⟨[], .start⟩ hv i b hbi
  rw [afterSteps_add hbi j] at h
  obtain ⟨⟨d2, h2⟩, n2⟩ := afterSteps_hist (s1 := b) ⟨[], .start⟩ (fun k => by rw [n1]; exact hv _) j s h
  rw [enabledCount_particles, enabledCount_particles, n2, n1] at hc
  have hsub1 : (Finset.range s0.n).filter (fun i => (s.ps i).ty ≠ .disabled) ⊆ (Finset.range s0.n).filter (fun i => (b.ps i).ty ≠ .disabled) := by
    intro l hl
    simp only [Finset.mem_filter, Finset.mem_range] at hl ⊢
    exact ⟨hl.1, fun hd => hl.2 ((C10_type_only_changes_to_disabled h2 l (by omega)).2 hd)⟩
  have hsub2 : (Finset.range s0.n).filter (fun i => (b.ps i).ty ≠ .disabled) ⊆ (Finset.range s0.n).filter (fun i => (s0.ps i).ty ≠ .disabled) := by
    intro l hl
    simp only [Finset.mem_filter, Finset.mem_range] at hl ⊢
    exact ⟨hl.1, fun hd => hl.2 ((C10_type_only_changes_to_disabled h1 l (by omega)).2 hd)⟩
  have heq := Finset.eq_of_subset_of_card_le hsub2 (by rw [← hc]; exact Finset.card_le_card hsub1)
  refine types_eq n1 (fun l hl => ?_)
  rcases (C10_type_only_changes_to_disabled h1 l hl).1 with k | k
  · exact k
  · have : l ∉ (Finset.range s0.n).filter (fun i => (s0.ps i).ty ≠ .disabled) := by
      rw [← heq]; simp [k]
    simp only [Finset.mem_filter, Finset.mem_range, hl, true_and, not_not] at this
    rw [k, this]

/-- **C52.**  Restart.  Take any file written by a run of the main program and start the program again with this file as input, the same
XML arguments otherwise (start and end time may be others).  If the numbers in this file are printed exactly, then step for step, as long as neither run disables a further particle (it is enough to
look at one of them), the second run does what the first run does after that file: same particles, same solver failures and grid overflows. -/
theorem C52_restart_takes_the_same_steps (hD : D = 2 ∨ D = 3) {pr : Printer F} {cv : Conv F} (hpr : pr.Clean) (hint : ∀ k, cv.int (pr.int k) = some k)
    {cfg : Config} {sch sch' : Nat → Schedule} {cond cond' : Condition F} {a : EnvArgs F D} {m : Nat}
    {csv : List Char} {P : Params F D Unit} {s0 : State F D Unit} (h : mainStart cfg cv cond a m csv P s0) (hok : s0.grid.ClearOK)
    (hv : ∀ k, (sch k).Valid s0.n) (hv' : ∀ k, (sch' k).Valid s0.n)
    (hI : cond'.outputInterval = cond.outputInterval) (heps : cond'.eps = cond.eps) {endCount : Nat}
    (h2 : toSize ((cond.endTime - cond.startTime) / cond.outputInterval) = some endCount) {fuel : Nat}
    {rec : OutRec F} (hrec : rec ∈ (mainProgram cfg cv pr sch cond a m csv fuel).outs)
    (hex : ∀ s, s0.afterSteps P sch rec.iteration = .ok s → ∀ q ∈ s.particles, ShownExactly pr cv q) :
    ∃ P' s0', mainStart cfg cv cond' a m rec.text P' s0' ∧ ∀ j,
      ((∀ i, i ≤ j → ∀ b, (s0.afterSteps P sch (rec.iteration + i)).leaves b → b.types = s0'.types) ∨
        (∀ i, i ≤ j → ∀ b, (s0'.afterSteps P' sch' i).leaves b → b.types = s0'.types)) →
      SameOutcomeButClock (s0.afterSteps P sch (rec.iteration + j)) (s0'.afterSteps P' sch' j) := by
  obtain ⟨_, _, offset, -, h1⟩ := mainProgram_outs (List.ne_nil_of_mem hrec)
  obtain ⟨k, hk, rfl⟩ := List.getElem_of_mem hrec
  obtain ⟨-, -, s, hs, htext, -⟩ := C33_written_files_are_in_place h h1 h2 fuel (List.getElem?_eq_getElem hk)
  obtain ⟨P', s0', k1, k2, k3, k4, k5, k6, k7, k8, -⟩ := restart_start (R := fun _ _ => True) (cond' := cond') hD hpr hint h hok hv hI heps hs (hex s hs) trivial
  refine ⟨P', s0', by rw [htext]; exact k1, fun j hnd => ?_⟩
  rw [afterSteps_add hs j]
  refine (steps_cinv (fun _ _ _ _ => trivial) k3 k4 k5 k6 k2 (fun k => by rw [k8]; exact hv _) (fun k => by rw [k8]; exact hv' k) k7 j ?_).same
  refine hnd.imp (fun hn i hi b hb => ?_) (fun hn => hn)
  rw [hn i hi b (by rw [afterSteps_add hs i]; exact hb), k2.same.types]

/-- **C52.**  The files of a restarted run, as long as the number of enabled particles shown with them is that of the file used for the restart: file `rec'`
holds what the first run computes (or would compute, had it not ended) in as many steps after that file. -/
theorem C52_files_of_a_restarted_run (hD : D = 2 ∨ D = 3) {pr : Printer F} {cv : Conv F} (hpr : pr.Clean) (hint : ∀ k, cv.int (pr.int k) = some k)
    {cfg : Config} {sch sch' : Nat → Schedule} {cond cond' : Condition F} {a : EnvArgs F D} {m : Nat}
    {csv : List Char} {P : Params F D Unit} {s0 : State F D Unit} (h : mainStart cfg cv cond a m csv P s0) (hok : s0.grid.ClearOK)
    (hv : ∀ k, (sch k).Valid s0.n) (hv' : ∀ k, (sch' k).Valid s0.n)
    (hI : cond'.outputInterval = cond.outputInterval) (heps : cond'.eps = cond.eps) {endCount endCount' : Nat}
    (h2 : toSize ((cond.endTime - cond.startTime) / cond.outputInterval) = some endCount)
    (h2' : toSize ((cond'.endTime - cond'.startTime) / cond'.outputInterval) = some endCount') {fuel fuel' : Nat}
    {rec rec' : OutRec F} (hrec : rec ∈ (mainProgram cfg cv pr sch cond a m csv fuel).outs)
    (hex : ∀ s, s0.afterSteps P sch rec.iteration = .ok s → ∀ q ∈ s.particles, ShownExactly pr cv q)
    (hrec' : rec' ∈ (mainProgram cfg cv pr sch' cond' a m rec.text fuel').outs) (hcount : rec'.count = rec.count) :
    ∃ s, s0.afterSteps P sch (rec.iteration + rec'.iteration) = .ok s ∧ rec'.text = outputToCsv pr s.particles := by
  obtain ⟨_, _, offset, -, h1⟩ := mainProgram_outs (List.ne_nil_of_mem hrec)
  obtain ⟨k, hk, rfl⟩ := List.getElem_of_mem hrec
  obtain ⟨-, -, s, hs, htext, hcnt⟩ := C33_written_files_are_in_place h h1 h2 fuel (List.getElem?_eq_getElem hk)
  obtain ⟨P', s0', k1, k2, k3, k4, k5, k6, k7, k8, -⟩ := restart_start (R := fun _ _ => True) (cond' := cond') hD hpr hint h hok hv hI heps hs (hex s hs) trivial
  rw [← htext] at k1
  obtain ⟨_, _, offset', -, h1'⟩ := mainProgram_outs (List.ne_nil_of_mem hrec')
  obtain ⟨k', hk', rfl⟩ := List.getElem_of_mem hrec'
  obtain ⟨-, -, t, ht, htext', hcnt'⟩ := C33_written_files_are_in_place k1 h1' h2' fuel' (List.getElem?_eq_getElem hk')
  have hvt : ∀ k, (sch' k).Valid s0'.n := fun k => by rw [k2.same.n, k8]; exact hv' k
  have hc : enabledCount t.particles = enabledCount s0'.particles := by
    rw [k2.same.particles, enabledCount_particles, enabledCount_particles, ← hcnt', ← hcnt]; exact hcount
  have key := steps_cinv (fun _ _ _ _ => trivial) k3 k4 k5 k6 k2 (sch := fun l => sch ((mainProgram cfg cv pr sch cond a m csv fuel).outs[k].iteration + l)) (fun l => by rw [k8]; exact hv _)
    (fun k => by rw [k8]; exact hv' k) k7 _ (Or.inr (types_of_count hvt ht hc))
  rw [ht] at key
  rw [afterSteps_add hs]
  generalize s.afterSteps P _ _ = r at key
  cases key with
  | ok hab => exact ⟨_, rfl, by rw [htext', hab.same.particles]⟩

end

/-! ## Exact arithmetic: the same files at the same times -/

section
variable {D : Nat}

theorem toSize_real {v : ℝ} (hv0 : 0 ≤ v) : toSize v = some ⌈v⌉₊ := by
  have hc0 : 0 ≤ ⌈v⌉ := Int.ceil_nonneg hv0
  show (if (0 : ℤ) ≤ ⌈v⌉ then some ⌈v⌉.toNat else none) = _
  rw [if_pos hc0]; rfl

/-- **C52.**  The files of a restarted run compared with those of the first run (exact arithmetic), as long as no further particle is disabled.  Output `j` of the second run, which was started
with output `k` of the first, is never taken after fewer steps than output `k + j` of the first run.  If output `k` was taken exactly at its nominal time `StartTime + k * OutputInterval`, both are taken
after the same number of steps and are the same file; if moreover the second run was given the time of that output as its start time, they also show the same time and have the same number. -/
theorem C52_restarted_run_writes_the_same_files (hD : D = 2 ∨ D = 3) {pr : Printer ℝ} {cv : Conv ℝ} (hpr : pr.Clean)
    (hint : ∀ k, cv.int (pr.int k) = some k) {cfg : Config} {sch sch' : Nat → Schedule} {cond cond' : Condition ℝ} {a : EnvArgs ℝ D} {m : Nat}
    {csv : List Char} {P : Params ℝ D Unit} {s0 : State ℝ D Unit} (h : mainStart cfg cv cond a m csv P s0) (hok : s0.grid.ClearOK)
    (hv : ∀ k, (sch k).Valid s0.n) (hv' : ∀ k, (sch' k).Valid s0.n)
    (hI : cond'.outputInterval = cond.outputInterval) (heps : cond'.eps = cond.eps) (hI0 : 0 < cond.outputInterval) (hm : 0 < m) (hc : 0 < a.courant)
    (hl : 0 < a.l0) (hg : 0 < a.g) (hcs : 0 < a.c) (hst : 0 ≤ cond.startTime) (hse : cond.startTime ≤ cond.endTime) (hst' : 0 ≤ cond'.startTime)
    (hse' : cond'.startTime ≤ cond'.endTime) {fuel fuel' : Nat} {k j : Nat} {rec recO rec' : OutRec ℝ}
    (hrec : (mainProgram cfg cv pr sch cond a m csv fuel).outs[k]? = some rec)
    (hex : ∀ s, s0.afterSteps P sch rec.iteration = .ok s → ∀ q ∈ s.particles, ShownExactly pr cv q)
    (hrecO : (mainProgram cfg cv pr sch cond a m csv fuel).outs[k + j]? = some recO)
    (hrec' : (mainProgram cfg cv pr sch' cond' a m rec.text fuel').outs[j]? = some rec') (hcount : rec'.count = rec.count) :
    recO.iteration ≤ rec.iteration + rec'.iteration ∧
    (rec.time = cond.startTime + k * cond.outputInterval →
      recO.iteration = rec.iteration + rec'.iteration ∧ recO.text = rec'.text ∧ recO.count = rec'.count ∧
      (cond'.startTime = rec.time → recO.time = rec'.time ∧ recO.number = rec'.number)) := by
  have h1 := toSize_real (div_nonneg hst hI0.le)
  have h2 := toSize_real (div_nonneg (sub_nonneg.2 hse) hI0.le)
  have h1' := toSize_real (div_nonneg hst' (le_of_lt (hI ▸ hI0 : 0 < cond'.outputInterval)))
  have h2' := toSize_real (div_nonneg (sub_nonneg.2 hse') (le_of_lt (hI ▸ hI0 : 0 < cond'.outputInterval)))
  obtain ⟨-, -, s, hs, htext, hcnt⟩ := C33_written_files_are_in_place h h1 h2 fuel hrec
  obtain ⟨-, -, sO, hsO, htextO, hcntO⟩ := C33_written_files_are_in_place h h1 h2 fuel hrecO
  obtain ⟨hz, hmd, hmx⟩ := mainStart_env h hI0 hm hc hl hg hcs
  obtain ⟨P', s0', k1, k2, k3, k4, k5, k6, k7, k8, k9⟩ := restart_start (R := fun x y => x = s.env.t + y) (cond' := cond') hD hpr hint h hok hv hI heps hs
    (hex s hs) (by rw [hz, add_zero])
  rw [← htext] at k1
  obtain ⟨-, -, t, ht, htext', hcnt'⟩ := C33_written_files_are_in_place k1 h1' h2' fuel' hrec'
  have hvt : ∀ k, (sch' k).Valid s0'.n := fun k => by rw [k2.same.n, k8]; exact hv' k
  have hcn : enabledCount t.particles = enabledCount s0'.particles := by
    rw [k2.same.particles, enabledCount_particles, enabledCount_particles, ← hcnt', ← hcnt]; exact hcount
  have hty := types_of_count hvt ht hcn
  have key : ∀ i, i ≤ rec'.iteration → HandOut (fun x y => x = s.env.t + y) (s0.afterSteps P sch (rec.iteration + i)) (s0'.afterSteps P' sch' i) := by
    intro i hi
    rw [afterSteps_add hs i]
    exact steps_cinv (fun x y dt hxy => by rw [hxy]; ring) k3 k4 k5 k6 k2 (sch := fun l => sch (rec.iteration + l)) (fun l => by rw [k8]; exact hv _)
      (fun k => by rw [k8]; exact hv' k) k7 i (Or.inr (fun i' hi' => hty i' (by omega)))
  obtain ⟨hz', hmd', hmx'⟩ := mainStart_env k1 (hI ▸ hI0) hm hc hl hg hcs
  have inv := fun i s hs => afterSteps_inv (P := P) (sch := sch) (s0 := s0) hv hmd hmx i s hs
  have inv' := fun i s hs => afterSteps_inv (P := P') (sch := sch') (s0 := s0') hvt hmd' hmx' i s hs
  have hT : s.env.t = ∑ l ∈ Finset.range rec.iteration, stepSize P sch s0 l := by rw [(inv _ _ hs).2.2.2.1, hz, zero_add]
  -- the clocks
  have clocks : ∀ i, i ≤ rec'.iteration → ∑ l ∈ Finset.range (rec.iteration + i), stepSize P sch s0 l =
      s.env.t + ∑ l ∈ Finset.range i, stepSize P' sch' s0' l := by
    intro i hi
    have hti : ∃ b, s0'.afterSteps P' sch' i = .ok b := by
      by_contra hc
      have := afterSteps_stuck P' sch' s0' (k := i) (fun b hb => hc ⟨b, hb⟩) rec'.iteration hi
      rw [ht] at this
      exact hc ⟨t, this.symm⟩
    obtain ⟨b, hb⟩ := hti
    have hk := key i hi
    rw [hb] at hk
    cases ha : s0.afterSteps P sch (rec.iteration + i) with
    | ok a' =>
      rw [ha] at hk
      cases hk with
      | ok hab =>
        have := hab.clock
        rw [(inv _ _ ha).2.2.2.1, (inv' _ _ hb).2.2.2.1, hz, hz', zero_add, zero_add] at this
        exact this
    | exn e a' => rw [ha] at hk; cases hk
    | ub => rw [ha] at hk; cases hk
  obtain ⟨b1, b2, b3, b4, b5, b6, b7, -⟩ := output_times (pr := pr) h hv hI0 hm hc hl hg hcs hst hse fuel k rec hrec
  obtain ⟨o1, o2, o3, o4, o5, o6, o7, -⟩ := output_times (pr := pr) h hv hI0 hm hc hl hg hcs hst hse fuel (k + j) recO hrecO
  obtain ⟨c1, c2, c3, c4, c5, c6, c7, -⟩ := output_times (pr := pr) k1 hvt (hI ▸ hI0) hm hc hl hg hcs hst' hse' fuel' j rec' hrec'
  rw [hI] at c5 c7
  have hle : recO.iteration ≤ rec.iteration + rec'.iteration := by
    by_contra hlt
    have h3 := o7 _ (lt_of_not_ge hlt)
    rw [clocks _ le_rfl, hT] at h3
    push_cast at h3
    linarith [add_mul (k : ℝ) (j : ℝ) cond.outputInterval]
  refine ⟨hle, fun hhit => ?_⟩
  have hTk : s.env.t = k * cond.outputInterval := by rw [b4] at hhit; rw [hT]; linarith
  have hge : rec.iteration + rec'.iteration ≤ recO.iteration := by
    by_contra hlt
    rcases Nat.lt_or_ge recO.iteration rec.iteration with h3 | h3
    · have h4 := b7 _ h3
      push_cast at o5
      linarith [add_mul (k : ℝ) (j : ℝ) cond.outputInterval, mul_nonneg (Nat.cast_nonneg (α := ℝ) j) hI0.le,
        o5, h4]
    · obtain ⟨i, hi⟩ : ∃ i, recO.iteration = rec.iteration + i := ⟨recO.iteration - rec.iteration, by omega⟩
      have h4 := c7 i (by omega)
      rw [hi, clocks i (by omega), hTk] at o5
      push_cast at o5
      linarith [add_mul (k : ℝ) (j : ℝ) cond.outputInterval]
  have heq : recO.iteration = rec.iteration + rec'.iteration := le_antisymm hle hge
  have hfin := key _ le_rfl
  rw [heq] at hsO
  rw [hsO, ht] at hfin
  have hsame : SameButClock sO t := by cases hfin with | ok hab => exact hab.same
  refine ⟨heq, by rw [htextO, htext', hsame.particles], ?_, fun hstart => ⟨?_, ?_⟩⟩
  · rw [hcntO, hcnt', ← enabledCount_particles, ← enabledCount_particles, hsame.particles]
  · rw [o4, c4, hstart, hhit, heq, clocks _ le_rfl, hTk]; ring
  · rw [o2, c2, hstart, hhit, hI, add_div, mul_div_assoc, div_self hI0.ne', mul_one, Nat.ceil_add_natCast (div_nonneg hst hI0.le)]
    ring

end

end OpenMps
