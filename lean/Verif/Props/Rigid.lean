import Verif.Lemmas.Rigid
import Verif.Props.Motion
import Verif.Props.Units

/-! # Property C55: rotated, mirrored and symmetric scenes -/

set_option linter.unusedSectionVars false

namespace OpenMps

open Ref

variable {D : Nat} {ω ω' : Type}

/-- The environments of two constructor calls that differ in the box only. -/
theorem env_other_box {cfg : Config} {e : EnvArgs ℝ D} {env env' : Env ℝ D} {lo hi : Fin D → ℝ} (h : Env.mk? cfg e = some env)
    (h' : Env.mk? cfg { e with minX := lo, maxX := hi } = some env') : { env' with minX := env.minX, maxX := env.maxX } = env := by
  unfold Env.mk? at h h'
  simp only [Scalar.ceilIdx, Option.some.injEq] at h h'
  rw [← h, ← h']

/-- Gravity turns with the scene. -/
theorem gravity_turned {M : Rigid D} {cfg : Config} {e : EnvArgs ℝ D} {env : Env ℝ D} (h : Env.mk? cfg e = some env)
    (hg : M.KeepsGravity cfg e) {S S' : Setting D} (h1 : S.cfg = cfg) (h2 : S'.cfg = cfg) (h3 : S.env.g = env.g) (h4 : S'.env.g = env.g)
    (h5 : S.env.l0 = env.l0) (h6 : S'.env.l0 = env.l0) (x : Fin D → ℝ) : S'.gravity (M.place x) = M.turn (S.gravity x) := by
  have h0 : env.g = (-e.g) • vertical := by
    rw [(envmk_real h).2.2.2.2.1]
    funext a
    simp only [vertical, Pi.smul_apply, smul_eq_mul, ofInt_real]
    split <;> simp
  unfold Rigid.KeepsGravity at hg
  unfold Setting.gravity
  rw [h1, h2, h3, h4, h5, h6]
  split
  · rename_i hc
    rw [if_pos hc] at hg
    have : M.place x = M.turn x := by unfold Rigid.place; rw [hg, add_zero]
    rw [this, turn_len]
    split
    · rw [turn_zero]
    · rw [turn_smul]
  · rename_i hc
    rw [if_neg hc] at hg
    rw [h0, turn_smul]
    rcases hg with hg | hg
    · rw [hg, neg_zero, zero_smul, zero_smul]
    · rw [hg]

open Classical in
/-- The settings of the two steps. -/
theorem setting_turned {M : Rigid D} {σ : Equiv.Perm ℕ} {P : Params ℝ D ω} {P' : Params ℝ D ω'} {e : EnvArgs ℝ D} {env : Env ℝ D}
    (hcfg : P'.cfg = P.cfg) (hmk : Env.mk? P.cfg e = some env) (hg : M.KeepsGravity P.cfg e) {s : State ℝ D ω} {t : State ℝ D ω'}
    (h1 : s.env = { env with t := s.env.t, dt := s.env.dt })
    (h2 : { t.env with minX := env.minX, maxX := env.maxX } = { env with t := t.env.t, dt := t.env.dt })
    (h : Turned M σ s t) {dt : ℝ} (hw : WallsTurned M σ P P' dt s t) (ho : SameOutside M s t) :
    SettingTurned M σ (setting P s dt) (setting P' t dt) := by
  refine ⟨hcfg, h.n, h.perm, ?_, h.x, hw, ?_, ?_⟩
  · intro i hi
    change (if (t.ps (σ i)).ty ≠ .disabled ∧ Outside t.env (t.ps (σ i)).x then PType.disabled else (t.ps (σ i)).ty) =
      if (s.ps i).ty ≠ .disabled ∧ Outside s.env (s.ps i).x then PType.disabled else (s.ps i).ty
    rw [h.ty i hi, h.x i hi]
    by_cases hd : (s.ps i).ty ≠ .disabled ∧ Outside s.env (s.ps i).x
    · rw [if_pos hd, if_pos ⟨hd.1, (ho i hi hd.1).mpr hd.2⟩]
    · rw [if_neg hd, if_neg (fun k => hd ⟨k.1, (ho i hi k.1).mp k.2⟩)]
  · change { t.env with minX := s.env.minX, maxX := s.env.maxX, dt := dt, t := t.env.t + dt } = { s.env with dt := dt, t := s.env.t + dt }
    have k := congrArg (fun z : Env ℝ D => { z with dt := dt, t := t.env.t + dt }) h2
    have k' := congrArg (fun z : Env ℝ D => { z with dt := dt, t := s.env.t + dt }) h1
    have m1 : s.env.minX = env.minX := by rw [h1]
    have m2 : s.env.maxX = env.maxX := by rw [h1]
    simp only at k k'
    rw [k', m1, m2, k, h.clock]
  · refine gravity_turned hmk hg rfl hcfg ?_ ?_ ?_ ?_
    · change s.env.g = _; rw [h1]
    · change t.env.g = _; have := congrArg Env.g h2; exact this
    · change s.env.l0 = _; rw [h1]
    · change t.env.l0 = _; have := congrArg Env.l0 h2; exact this

/-- **C55.**  Two computers, made by the constructors with the same physical arguments (the boxes may differ), each after any history of its own.
The second shows the scene of the first rotated, mirrored, shifted and renumbered, in such a way that gravity does not notice.  Then
`ForwardTime(dt)` of both, under any two schedules: both return and the second shows the new scene of the first, moved in the same way; or the solver
fails for both; or a cell of one of the grids (whose cells need not correspond) is too crowded. -/
theorem C55_step_of_moved_scene {M : Rigid D} {σ : Equiv.Perm ℕ} {P : Params ℝ D ω} {P' : Params ℝ D ω'} {e : EnvArgs ℝ D} {lo hi : Fin D → ℝ}
    {env env' : Env ℝ D} {w : ω} {w' : ω'} {s0 s : State ℝ D ω} {t0 t : State ℝ D ω'} {dts dts' : List ℝ} (hD : D = 2 ∨ D = 3)
    (hcfg : P'.cfg = P.cfg) (heps : P'.eps = P.eps) (hl : 0 < e.l0) (hL : 0 < e.reByL0) (hC : 0 ≤ e.courant)
    (hmk : Env.mk? P.cfg e = some env) (hnew : State.new? env w = some s0) (hist : Hist P s0 dts s) (hok : s0.grid.ClearOK)
    (hmk' : Env.mk? P.cfg { e with minX := lo, maxX := hi } = some env') (hnew' : State.new? env' w' = some t0) (hist' : Hist P' t0 dts' t)
    (hok' : t0.grid.ClearOK) (hg : M.KeepsGravity P.cfg e)
    (h : Turned M σ s t) {dt : ℝ} (hw : WallsTurned M σ P P' dt s t) (ho : SameOutside M s t)
    (sch sch' : Schedule) (hs : sch.Valid s.n) (hs' : sch'.Valid t.n) :
    (∃ s' t', s.forwardTime P sch dt = .ok s' ∧ t.forwardTime P' sch' dt = .ok t' ∧ Turned M σ s' t') ∨
    (∃ s' t', s.forwardTime P sch dt = .exn .solver s' ∧ t.forwardTime P' sch' dt = .exn .solver t') ∨
    (∃ s', s.forwardTime P sch dt = .exn .gridFull s') ∨ (∃ t', t.forwardTime P' sch' dt = .exn .gridFull t') := by
  have hE := env_other_box hmk hmk'
  obtain ⟨a1, a2, -⟩ := envmk_real hmk
  have hLe : 0 < env.neighborLength := by rw [a2]; positivity
  have hre : 0 ≤ env.re := by rw [a1]; positivity
  have hL' : 0 < env'.neighborLength := by have := congrArg Env.neighborLength hE; simp only at this; rw [this]; exact hLe
  have hre' : 0 ≤ env'.re := by have := congrArg Env.re hE; simp only at this; rw [this]; exact hre
  have c1 := hist_consts hnew hist
  have c2 := hist_consts hnew' hist'
  have hS := setting_turned hcfg hmk hg c1 (by rw [c2]; rw [← hE]) h hw ho
  have hsc : SceneTurned (setting P s dt).n M σ (scene s) (scene t) := ⟨h.x, h.u, h.p, h.dens⟩
  obtain ⟨o1, o2, o3, -⟩ := C42_outcome hD hnew hist hok hLe hre sch hs dt
  obtain ⟨p1, p2, p3, -⟩ := C42_outcome hD hnew' hist' hok' hL' hre' sch' hs' dt
  rw [heps] at p2 p3
  by_cases hcr : Crowded s
  · exact Or.inr (Or.inr (Or.inl (o1.mpr hcr)))
  by_cases hcr' : Crowded t
  · exact Or.inr (Or.inr (Or.inr (p1.mpr hcr')))
  rcases step_turned hS hsc P.eps with ⟨k1, k2⟩ | ⟨a, a', k1, k2, k3⟩
  · right; left
    obtain ⟨s', e1⟩ := o2.mpr ⟨hcr, k1⟩
    obtain ⟨t', e2⟩ := p2.mpr ⟨hcr', k2⟩
    exact ⟨s', t', e1, e2⟩
  · left
    obtain ⟨s', e1⟩ := o3.mpr ⟨hcr, a, k1⟩
    obtain ⟨t', e2⟩ := p3.mpr ⟨hcr', a', k2⟩
    refine ⟨s', t', e1, e2, ?_⟩
    obtain ⟨b, q1, q2⟩ := C42_step_is_the_reference_function hD hnew hist hok hLe hre sch hs dt e1
    obtain ⟨b', r1, r2⟩ := C42_step_is_the_reference_function hD hnew' hist' hok' hL' hre' sch' hs' dt e2
    rw [heps] at r1
    rw [k1] at q1
    rw [k2] at r1
    injection q1 with q1
    injection r1 with r1
    subst q1 r1
    obtain ⟨hn, hc, -⟩ := step_frame hs (Or.inl e1)
    obtain ⟨hn', hc', -⟩ := step_frame hs' (Or.inl e2)
    have hi' : ∀ i, i < s'.n → i < s.n ∧ σ i < t.n := fun i hi => by rw [hn] at hi; exact ⟨hi, by rw [h.n]; exact (h.perm i).mpr hi⟩
    refine ⟨by rw [hn, hn', h.n], by rw [hn]; exact h.perm, ?_, ?_, ?_, ?_, ?_, ?_⟩
    case _ => intro i hi; obtain ⟨hi, hit⟩ := hi' i hi; rw [(q2 i hi).1, (r2 _ hit).1]; exact hS.ty i hi
    case _ => intro i hi; obtain ⟨hi, hit⟩ := hi' i hi; rw [(q2 i hi).2.1, (r2 _ hit).2.1]; exact k3.x i hi
    case _ => intro i hi; obtain ⟨hi, hit⟩ := hi' i hi; rw [(q2 i hi).2.2.1, (r2 _ hit).2.2.1]; exact k3.u i hi
    case _ => intro i hi; obtain ⟨hi, hit⟩ := hi' i hi; rw [(q2 i hi).2.2.2.1, (r2 _ hit).2.2.2.1]; exact k3.p i hi
    case _ => intro i hi; obtain ⟨hi, hit⟩ := hi' i hi; rw [(q2 i hi).2.2.2.2, (r2 _ hit).2.2.2.2]; exact k3.dens i hi
    case _ => rw [hc, hc']; change t.env.t + dt = s.env.t + dt; rw [h.clock]

theorem turned_speed {M : Rigid D} {σ : Equiv.Perm ℕ} {s : State ℝ D ω} {t : State ℝ D ω'} (h : Turned M σ s t) {i : ℕ} (hi : i < s.n) :
    dot (F := ℝ) (t.ps (σ i)).u (t.ps (σ i)).u = dot (F := ℝ) (s.ps i).u (s.ps i).u := by
  rw [h.u i hi, ← prod_eq, ← prod_eq, turn_prod]

theorem turned_determineDt {M : Rigid D} {σ : Equiv.Perm ℕ} {s : State ℝ D ω} {t : State ℝ D ω'} (h : Turned M σ s t)
    (h1 : t.env.maxDx = s.env.maxDx) (h2 : t.env.maxDt = s.env.maxDt) : t.determineDt = s.determineDt := by
  unfold State.determineDt
  rw [h.n, h1, h2]
  by_cases hn : s.n = 0
  · rw [if_pos hn, if_pos hn]
  · rw [if_neg hn, if_neg hn]
    obtain ⟨a1, a2⟩ := fastest_spec s (Nat.pos_of_ne_zero hn)
    obtain ⟨b1, b2⟩ := fastest_spec t (by rw [h.n]; exact Nat.pos_of_ne_zero hn)
    rw [h.n] at b1 b2
    have e : dot (t.ps t.fastest).u (t.ps t.fastest).u = dot (s.ps s.fastest).u (s.ps s.fastest).u := by
      apply le_antisymm
      · have hk : σ.symm t.fastest < s.n := by
          have := h.perm (σ.symm t.fastest)
          rw [σ.apply_symm_apply] at this
          exact this.mp b1
        have := turned_speed h hk
        rw [σ.apply_symm_apply] at this
        rw [this]
        exact a2 _ hk
      · rw [← turned_speed h a1]
        exact b2 _ ((h.perm _).mpr a1)
    simp only [norm2_real, e]

/-- **C55.**  The automatic time step does not change when the scene is rotated, mirrored, shifted and renumbered. -/
theorem C55_automatic_step_of_moved_scene {M : Rigid D} {σ : Equiv.Perm ℕ} {P : Params ℝ D ω} {P' : Params ℝ D ω'} {cfg : Config} {e : EnvArgs ℝ D}
    {lo hi : Fin D → ℝ} {env env' : Env ℝ D} {w : ω} {w' : ω'} {s0 s : State ℝ D ω} {t0 t : State ℝ D ω'} {dts dts' : List ℝ}
    (hmk : Env.mk? cfg e = some env) (hnew : State.new? env w = some s0) (hist : Hist P s0 dts s)
    (hmk' : Env.mk? cfg { e with minX := lo, maxX := hi } = some env') (hnew' : State.new? env' w' = some t0) (hist' : Hist P' t0 dts' t)
    (h : Turned M σ s t) : t.determineDt = s.determineDt := by
  have hE := env_other_box hmk hmk'
  refine turned_determineDt h ?_ ?_
  · rw [hist_consts hnew hist, hist_consts hnew' hist']
    have := congrArg Env.maxDx hE; exact this
  · rw [hist_consts hnew hist, hist_consts hnew' hist']
    have := congrArg Env.maxDt hE; exact this

/-- **C55.**  Runs: with the same time steps (given or automatic), the scene of the second computer stays the moved scene of the first. -/
theorem C55_run_of_moved_scene {M : Rigid D} {σ : Equiv.Perm ℕ} {W : ω → ω' → Prop} {P : Params ℝ D ω} {P' : Params ℝ D ω'} {e : EnvArgs ℝ D}
    {lo hi : Fin D → ℝ} {env env' : Env ℝ D} {w : ω} {w' : ω'} {s0 s s' : State ℝ D ω} {t0 t t' : State ℝ D ω'} {dts dts' : List ℝ}
    (hD : D = 2 ∨ D = 3) (hcfg : P'.cfg = P.cfg) (heps : P'.eps = P.eps) (hl : 0 < e.l0) (hL : 0 < e.reByL0) (hC : 0 ≤ e.courant)
    (hmk : Env.mk? P.cfg e = some env) (hnew : State.new? env w = some s0) (hist : Hist P s0 dts s) (hok : s0.grid.ClearOK)
    (hmk' : Env.mk? P.cfg { e with minX := lo, maxX := hi } = some env') (hnew' : State.new? env' w' = some t0) (hist' : Hist P' t0 dts' t)
    (hok' : t0.grid.ClearOK) (hg : M.KeepsGravity P.cfg e) (h : Turned M σ s t) (hcb : CallbacksTurned M σ s.n W P P') (hW : W s.world t.world)
    {steps steps' : List (Schedule × Option ℝ)} (run : InsideRun P steps s s') (run' : InsideRun P' steps' t t')
    (hsteps : steps'.map (·.2) = steps.map (·.2)) : Turned M σ s' t' := by
  have fwd : ∀ {s s1 : State ℝ D ω} {t t1 : State ℝ D ω'} {dts dts' : List ℝ} {sch sch' : Schedule} {dt : ℝ}, Hist P s0 dts s → Hist P' t0 dts' t →
      Turned M σ s t → CallbacksTurned M σ s.n W P P' → W s.world t.world → AllInside s → AllInside t → sch.Valid s.n → sch'.Valid t.n →
      s.forwardTime P sch dt = .ok s1 → t.forwardTime P' sch' dt = .ok t1 →
      Hist P s0 (dts ++ [dt]) s1 ∧ Hist P' t0 (dts' ++ [dt]) t1 ∧ Turned M σ s1 t1 ∧ CallbacksTurned M σ s1.n W P P' ∧ W s1.world t1.world := by
    intro s s1 t t1 dts dts' sch sch' dt h1 h2 h hcb hW hi hi' hv hv' e1 e2
    have hw : WallsTurned M σ P P' dt s t := by
      intro i hi
      rw [h.clock]
      exact (hcb _ _ hW _ _).2 i hi
    have ho : SameOutside M s t := by
      intro i hin hty
      refine iff_of_false ?_ (hi i hin hty)
      rw [← h.x i hin]
      exact hi' _ (by rw [h.n]; exact (h.perm i).mpr hin) (by rw [h.ty i hin]; exact hty)
    refine ⟨.forward sch dt h1 hv (Or.inl e1), .forward sch' _ h2 hv' (Or.inl e2), ?_, ?_, ?_⟩
    · rcases C55_step_of_moved_scene hD hcfg heps hl hL hC hmk hnew h1 hok hmk' hnew' h2 hok' hg h hw ho sch sch' hv hv' with
        ⟨a, b, k1, k2, k3⟩ | ⟨a, b, k1, k2⟩ | ⟨a, k1⟩ | ⟨a, k1⟩
      · rw [e1] at k1; rw [e2] at k2
        injection k1 with k1; injection k2 with k2
        subst k1 k2
        exact k3
      · rw [e1] at k1; cases k1
      · rw [e1] at k1; cases k1
      · rw [e2] at k1; cases k1
    · rw [(step_frame hv (Or.inl e1)).1]; exact hcb
    · rw [(C14_nonfluid_follows_callback hv e1).1, (C14_nonfluid_follows_callback hv' e2).1, h.clock]
      exact (hcb _ _ hW _ _).1
  induction run generalizing t dts dts' steps' with
  | nil s =>
    cases run' with
    | nil => exact h
    | given => cases hsteps
    | auto => cases hsteps
  | given sch dt hin hv hs _ ih =>
    cases run' with
    | nil => cases hsteps
    | given sch' dt' hin' hv' ht run' =>
      simp only [List.map_cons, List.cons.injEq, Option.some.injEq] at hsteps
      obtain ⟨rfl, hm⟩ := hsteps
      obtain ⟨k1, k2, k3, k4, k5⟩ := fwd hist hist' h hcb hW hin hin' hv hv' hs ht
      exact ih k1 k2 k3 k4 k5 run' hm
    | auto => simp at hsteps
  | @auto steps s s1 s' sch hin hv hs _ ih =>
    cases run' with
    | nil => cases hsteps
    | given => simp at hsteps
    | auto sch' hin' hv' ht run' =>
      simp only [List.map_cons, List.cons.injEq, true_and] at hsteps
      have hd := C55_automatic_step_of_moved_scene hmk hnew hist hmk' hnew' hist' h
      cases hdt : s.determineDt with
      | none => unfold State.forwardTimeAuto at hs; rw [hdt] at hs; cases hs
      | some dt =>
        unfold State.forwardTimeAuto at hs ht
        rw [hdt] at hs
        rw [hd, hdt] at ht
        obtain ⟨k1, k2, k3, k4, k5⟩ := fwd hist hist' h hcb hW hin hin' hv hv' hs ht
        exact ih k1 k2 k3 k4 k5 run' hsteps

/-- **C55.**  A symmetric scene stays symmetric: one step. -/
theorem C55_symmetric_scene_stays_symmetric {M : Rigid D} {σ : Equiv.Perm ℕ} {P : Params ℝ D ω} {e : EnvArgs ℝ D} {env : Env ℝ D} {w : ω}
    {s0 s s' : State ℝ D ω} {dts : List ℝ} (hD : D = 2 ∨ D = 3) (hl : 0 < e.l0) (hL : 0 < e.reByL0) (hC : 0 ≤ e.courant)
    (hmk : Env.mk? P.cfg e = some env) (hnew : State.new? env w = some s0) (hist : Hist P s0 dts s) (hok : s0.grid.ClearOK)
    (hg : M.KeepsGravity P.cfg e) (h : Symmetric M σ s) {dt : ℝ} (hw : WallsTurned M σ P P dt s s) (ho : SameOutside M s s)
    {sch : Schedule} (hv : sch.Valid s.n) (hs : s.forwardTime P sch dt = .ok s') : Symmetric M σ s' := by
  rcases C55_step_of_moved_scene (lo := e.minX) (hi := e.maxX) hD rfl rfl hl hL hC hmk hnew hist hok hmk hnew hist hok hg h hw ho sch sch hv hv with
    ⟨a, b, k1, k2, k3⟩ | ⟨a, b, k1, k2⟩ | ⟨a, k1⟩ | ⟨a, k1⟩
  · rw [hs] at k1 k2
    injection k1 with k1; injection k2 with k2
    subst k1 k2
    exact k3
  · rw [hs] at k1; cases k1
  · rw [hs] at k1; cases k1
  · rw [hs] at k1; cases k1

/-- **C55.**  A symmetric scene stays symmetric in any run inside the grid, with any given or automatic time steps. -/
theorem C55_symmetric_scene_stays_symmetric_in_runs {M : Rigid D} {σ : Equiv.Perm ℕ} {W : ω → Prop} {P : Params ℝ D ω} {e : EnvArgs ℝ D}
    {env : Env ℝ D} {w : ω} {s0 s s' : State ℝ D ω} {dts : List ℝ} (hD : D = 2 ∨ D = 3) (hl : 0 < e.l0) (hL : 0 < e.reByL0) (hC : 0 ≤ e.courant)
    (hmk : Env.mk? P.cfg e = some env) (hnew : State.new? env w = some s0) (hist : Hist P s0 dts s) (hok : s0.grid.ClearOK)
    (hg : M.KeepsGravity P.cfg e) (h : Symmetric M σ s) (hcb : CallbacksTurned M σ s.n (fun a b => a = b ∧ W a) P P) (hW : W s.world)
    {steps : List (Schedule × Option ℝ)} (run : InsideRun P steps s s') : Symmetric M σ s' :=
  C55_run_of_moved_scene (lo := e.minX) (hi := e.maxX) hD rfl rfl hl hL hC hmk hnew hist hok hmk hnew hist hok hg h hcb ⟨rfl, hW⟩ run run rfl

/-! ## Examples -/

/-- A position in the box is inside the grid. -/
theorem inside_of_box {e : Env ℝ D} (hL : 0 < e.neighborLength) {x : Fin D → ℝ} (h : ∀ a, e.minX a ≤ x a ∧ x a ≤ e.maxX a) : ¬ Outside e x := by
  rintro ⟨a, h1 | h1⟩
  · exact absurd (h a).1 (not_le.mpr h1)
  · have h2 := Int.le_ceil ((e.maxX a - e.minX a) / e.neighborLength)
    rw [div_le_iff₀ hL] at h2
    have := (h a).2
    nlinarith

/-- The flip image left and right, with the flip at `x = c / 2`. -/
noncomputable def flip (c : ℝ) : Rigid 2 where
  R := !![-1, 0; 0, 1]
  shift := ![c, 0]
  orth := by
    ext i j
    fin_cases i <;> fin_cases j <;> simp [Matrix.mul_apply, Fin.sum_univ_two]

theorem flip_turn (c : ℝ) (v : Fin 2 → ℝ) : (flip c).turn v = ![-v 0, v 1] := by
  funext i
  fin_cases i <;> simp [flip, Rigid.turn, Matrix.mulVec, dotProduct, Fin.sum_univ_two]

theorem flip_place (c : ℝ) (v : Fin 2 → ℝ) : (flip c).place v = ![c - v 0, v 1] := by
  unfold Rigid.place
  rw [flip_turn]
  funext i
  fin_cases i
  · simp [flip]; ring
  · simp [flip]

theorem flip_gravity (c : ℝ) : (flip c).KeepsGravity Config.default latticeArgs := by
  unfold Rigid.KeepsGravity
  rw [if_neg (by decide)]
  right
  rw [flip_turn]
  funext a
  fin_cases a <;> simp [vertical]

/-- With central gravity, every rotation about the origin is allowed; this one has the angle of the triangle with the sides 3, 4, 5. -/
example : ∃ M : Rigid 2, M.R = !![3 / 5, -4 / 5; 4 / 5, 3 / 5] ∧ M.KeepsGravity { Config.default with centralGravity := true } latticeArgs := by
  refine ⟨⟨!![3 / 5, -4 / 5; 4 / 5, 3 / 5], 0, ?_⟩, rfl, ?_⟩
  · ext i j
    fin_cases i <;> fin_cases j <;> simp [Matrix.mul_apply, Fin.sum_univ_two] <;> norm_num
  · unfold Rigid.KeepsGravity
    rw [if_pos rfl]

/-- The box of the mirrored drop. -/
noncomputable def leftArgs : EnvArgs ℝ 2 := { latticeArgs with minX := ![-1, 0], maxX := ![0, 1] }

noncomputable def leftEnv : Env ℝ 2 := (Env.mk? Config.default leftArgs).get rfl

noncomputable def leftP : Params ℝ 2 Unit := { dropP with walls := { pre := fun w _ _ => w, pos := fun _ i _ _ => (flip 0).place (dropX i) } }

noncomputable def leftParticles : List (Particle ℝ 2) := dropParticles.map (fun q => { q with x := (flip 0).place q.x })

theorem leftEnv_vals : leftEnv.neighborLength = 288 / 1000 ∧ leftEnv.minX = ![-1, 0] ∧ leftEnv.maxX = ![0, 1] := by
  obtain ⟨-, v2, -⟩ := envmk_real (cfg := Config.default) (e := leftArgs) (env := leftEnv) rfl
  refine ⟨?_, rfl, rfl⟩
  rw [v2]; simp only [leftArgs, latticeArgs]; norm_num

/-- The hypotheses hold for the drop of the options of `defines.hpp` and its flip image, in a box to the left of the origin; the first step
of the drop returns. -/
example : ∃ s' t0, dropState.forwardTime dropP (Schedule.serial 4) (1 / 100) = .ok s' ∧ State.new? leftEnv () = some t0 ∧
    ((∃ t', (t0.addParticles leftParticles).forwardTime leftP (Schedule.serial 4) (1 / 100) = .ok t' ∧ Turned (flip 0) (Equiv.refl ℕ) s' t') ∨
      ∃ t', (t0.addParticles leftParticles).forwardTime leftP (Schedule.serial 4) (1 / 100) = .exn .gridFull t') := by
  obtain ⟨s', h⟩ := dropState_step (dt := 1 / 100) (by norm_num) (le_refl _)
  obtain ⟨t0, ht0⟩ : ∃ t0, State.new? (ω := Unit) leftEnv () = some t0 := by
    unfold State.new? Grid.mk?
    exact ⟨_, rfl⟩
  refine ⟨s', t0, h, ht0, ?_⟩
  have n0 : t0.n = 0 ∧ t0.env = leftEnv := by
    unfold State.new? at ht0
    split at ht0
    · cases ht0
    · injection ht0 with ht0; rw [← ht0]; exact ⟨rfl, rfl⟩
  have hn : (t0.addParticles leftParticles).n = 4 := by simp only [State.addParticles, n0.1]; rfl
  have hq : ∀ i, i < 4 → (t0.addParticles leftParticles).ps i = { dropState.ps i with x := (flip 0).place (dropX i) } := by
    intro i hi
    simp only [State.addParticles, n0.1]
    interval_cases i <;> rfl
  have hT : Turned (flip 0) (Equiv.refl ℕ) dropState (t0.addParticles leftParticles) := by
    refine ⟨by rw [hn]; rfl, fun _ => Iff.rfl, ?_, ?_, ?_, ?_, ?_, ?_⟩
    · intro i hi; rw [Equiv.refl_apply, hq i hi]
    · intro i hi; rw [Equiv.refl_apply, hq i hi, (dropState_x i hi).1]
    · intro i hi; rw [Equiv.refl_apply, hq i hi]; change (dropState.ps i).u = _; rw [(dropState_x i hi).2.1, turn_zero]
    · intro i hi; rw [Equiv.refl_apply, hq i hi]
    · intro i hi; rw [Equiv.refl_apply, hq i hi]
    · change t0.env.t = _; rw [n0.2]; rfl
  have hO : SameOutside (flip 0) dropState (t0.addParticles leftParticles) := by
    intro i hi _
    have hi : i < 4 := hi
    refine iff_of_false (inside_of_box ?_ ?_) (inside_of_box ?_ ?_)
    · change 0 < t0.env.neighborLength; rw [n0.2, leftEnv_vals.1]; norm_num
    · intro a
      change t0.env.minX a ≤ _ ∧ _ ≤ t0.env.maxX a
      rw [n0.2, leftEnv_vals.2.1, leftEnv_vals.2.2, (dropState_x i hi).1, flip_place]
      interval_cases i <;> fin_cases a <;> simp [dropX] <;> norm_num
    · change 0 < dropEnv.neighborLength; rw [dropEnv_vals.2.1]; norm_num
    · intro a
      change dropEnv.minX a ≤ _ ∧ _ ≤ dropEnv.maxX a
      rw [dropEnv_vals.2.2.2.2.2.1, dropEnv_vals.2.2.2.2.2.2.1, (dropState_x i hi).1]
      interval_cases i <;> fin_cases a <;> simp [dropX] <;> norm_num
  rcases C55_step_of_moved_scene (P := dropP) (P' := leftP) (e := latticeArgs) (lo := ![-1, 0]) (hi := ![0, 1]) (env' := leftEnv) (dt := 1 / 100) (Or.inl rfl) rfl rfl
    (by change (0 : ℝ) < 1 / 10; norm_num) (by change (0 : ℝ) < 24 / 10; norm_num) (by change (0 : ℝ) ≤ 1 / 10; norm_num)
    dropEnv_eq dropNew_eq (dropState_hist dropP) dropNew_ok rfl ht0 (.add leftParticles .start) (fun h => absurd h (by decide))
    (flip_gravity 0) hT (fun _ _ => rfl) hO (Schedule.serial 4) (Schedule.serial 4) (Schedule.serial_valid 4) (by rw [hn]; exact Schedule.serial_valid 4) with
    ⟨a, b, k1, k2, k3⟩ | ⟨a, b, k1, -⟩ | ⟨a, k1⟩ | ⟨b, k1⟩
  · rw [h] at k1; injection k1 with k1; subst k1; exact Or.inl ⟨b, k2, k3⟩
  · rw [h] at k1; cases k1
  · rw [h] at k1; cases k1
  · exact Or.inr ⟨b, k1⟩

/-- Two particles that fly towards each other; particle 1 is the flip image of particle 0 in the middle of the box. -/
noncomputable def pairParticles : List (Particle ℝ 2) :=
  [{ x := ![9 / 20, 1 / 2], u := ![1, 3], p := 0, n := 0, ty := .incompressibleNewton },
   { x := ![11 / 20, 1 / 2], u := ![-1, 3], p := 0, n := 0, ty := .incompressibleNewton }]

noncomputable def pairP : Params ℝ 2 Unit :=
  { cfg := { Config.default with explicit := true }, eps := 1 / 10 ^ 6, walls := { pre := fun w _ _ => w, pos := fun _ i _ _ => if i = 0 then ![9 / 20, 1 / 2] else ![11 / 20, 1 / 2] } }

noncomputable def pairEnv : Env ℝ 2 := (Env.mk? pairP.cfg latticeArgs).get rfl

noncomputable def pairNew : State ℝ 2 Unit := { dropNew with env := pairEnv, grid := pairEnv.builtGrid }

theorem pairNew_eq : State.new? pairEnv () = some pairNew := by
  unfold State.new? Grid.mk?; rfl

/-- The hypotheses hold for the pair (explicit pressure with SPP): after the automatic step the scene is still symmetric. -/
example : ∃ s', InsideRun pairP [(Schedule.serial 2, none)] (pairNew.addParticles pairParticles) s' ∧
    Symmetric (flip 1) (Equiv.swap 0 1) (pairNew.addParticles pairParticles) ∧ Symmetric (flip 1) (Equiv.swap 0 1) s' := by
  have hn : (pairNew.addParticles pairParticles).n = 2 := rfl
  have hl : pairEnv.l0 = 1 / 10 := rfl
  have hLv : pairEnv.neighborLength = 288 / 1000 := dropEnv_vals.2.1
  have hS : Symmetric (flip 1) (Equiv.swap 0 1) (pairNew.addParticles pairParticles) := by
    have hσ : ∀ i, i < 2 → (i = 0 ∧ Equiv.swap 0 1 i = 1) ∨ (i = 1 ∧ Equiv.swap 0 1 i = 0) := by
      intro i hi; interval_cases i <;> simp
    have e0 : (pairNew.addParticles pairParticles).ps 0 = { x := ![9 / 20, 1 / 2], u := ![1, 3], p := 0, n := 0, ty := .incompressibleNewton } := rfl
    have e1 : (pairNew.addParticles pairParticles).ps 1 = { x := ![11 / 20, 1 / 2], u := ![-1, 3], p := 0, n := 0, ty := .incompressibleNewton } := rfl
    refine ⟨rfl, ?_, ?_, ?_, ?_, ?_, ?_, rfl⟩
    · intro i
      rw [hn]
      by_cases h0 : i = 0
      · subst h0; simp
      by_cases h1 : i = 1
      · subst h1; simp
      · rw [Equiv.swap_apply_of_ne_of_ne h0 h1]
    all_goals
      intro i hi
      rcases hσ i hi with ⟨rfl, e⟩ | ⟨rfl, e⟩ <;> rw [e, e0, e1]
    · rw [flip_place]; simp; norm_num
    · rw [flip_place]; simp; norm_num
    · rw [flip_turn]; simp
    · rw [flip_turn]; simp
  obtain ⟨dt, hdt⟩ : ∃ dt, (pairNew.addParticles pairParticles).determineDt = some dt := by
    unfold State.determineDt; rw [if_neg (by rw [hn]; decide)]; exact ⟨_, rfl⟩
  obtain ⟨s', h⟩ := C06_explicit_step_succeeds (P := pairP) pairNew_eq (.add pairParticles .start) (fun h => absurd h (by decide))
    (by rw [hl]; norm_num) (by rw [hLv]; norm_num)
    (by
      intro i j hij hj _ _
      have hj : j < 2 := hj
      obtain ⟨rfl, rfl⟩ : i = 0 ∧ j = 1 := by omega
      refine ⟨0, ?_⟩
      change (1 / 10 : ℝ) ≤ |9 / 20 - 11 / 20|
      norm_num [abs_of_neg])
    rfl (Schedule.serial 2) (Schedule.serial_valid 2) dt
  have hin : AllInside (pairNew.addParticles pairParticles) := by
    intro i hi _
    refine inside_of_box (by change 0 < pairEnv.neighborLength; rw [hLv]; norm_num) ?_
    intro a
    have hi : i < 2 := hi
    change (![0, 0] : Fin 2 → ℝ) a ≤ _ ∧ _ ≤ (![1, 1] : Fin 2 → ℝ) a
    interval_cases i
    · change _ ≤ (![9 / 20, 1 / 2] : Fin 2 → ℝ) a ∧ (![9 / 20, 1 / 2] : Fin 2 → ℝ) a ≤ _
      fin_cases a <;> simp <;> norm_num
    · change _ ≤ (![11 / 20, 1 / 2] : Fin 2 → ℝ) a ∧ (![11 / 20, 1 / 2] : Fin 2 → ℝ) a ≤ _
      fin_cases a <;> simp <;> norm_num
  have run : InsideRun pairP [(Schedule.serial 2, none)] (pairNew.addParticles pairParticles) s' :=
    .auto _ hin (Schedule.serial_valid 2) (by unfold State.forwardTimeAuto; rw [hdt]; exact h) (.nil _)
  refine ⟨s', run, hS, C55_symmetric_scene_stays_symmetric_in_runs (W := fun _ => True) (Or.inl rfl) (e := latticeArgs)
    (by change (0 : ℝ) < 1 / 10; norm_num) (by change (0 : ℝ) < 24 / 10; norm_num) (by change (0 : ℝ) ≤ 1 / 10; norm_num)
    (env := pairEnv) rfl pairNew_eq (.add pairParticles .start) (fun h => absurd h (by decide)) (flip_gravity 1) hS ?_ trivial run⟩
  intro w w' _ t dt
  refine ⟨⟨rfl, trivial⟩, ?_⟩
  intro i hi
  have hi : i < 2 := hi
  rw [flip_place]
  interval_cases i <;> simp [pairP] <;> norm_num

end OpenMps
