import Verif.Lemmas.Units
import Verif.Props.Motion

/-! # Property C48: results do not depend on the units -/

set_option linter.unusedSectionVars false

namespace OpenMps

open Ref

variable {D : Nat} {ω ω' : Type}

/-- The constructor, called with the arguments in the new units, makes the environment in the new units. -/
theorem env_in_units {U : Units} {cfg : Config} {e : EnvArgs ℝ D} {env env' : Env ℝ D} (hl : 0 < e.l0) (h : Env.mk? cfg e = some env)
    (h' : Env.mk? cfg (U.args e) = some env') : EnvInUnits U env env' := by
  have hU := U.length_pos
  have hT := U.time_pos
  have hl' : 0 < (U.args e).l0 := mul_pos hU hl
  obtain ⟨a1, a2, a3, a4, a5, a6, a7, a8⟩ := envmk_real h
  obtain ⟨b1, b2, b3, b4, b5, b6, b7, b8⟩ := envmk_real h'
  obtain ⟨-, -, a9, a10⟩ := C28_n0_is_lattice_density h hl
  obtain ⟨-, -, b9, b10⟩ := C28_n0_is_lattice_density h' hl'
  have rest : env.c = e.c ∧ env.surfaceRatio = e.surfaceRatio ∧ env.minX = e.minX ∧ env.maxX = e.maxX := by
    unfold Env.mk? at h
    simp only [Scalar.ceilIdx, Option.some.injEq] at h
    rw [← h]; exact ⟨rfl, rfl, rfl, rfl⟩
  have rest' : env'.c = (U.args e).c ∧ env'.surfaceRatio = (U.args e).surfaceRatio ∧ env'.minX = (U.args e).minX ∧
      env'.maxX = (U.args e).maxX := by
    unfold Env.mk? at h'
    simp only [Scalar.ceilIdx, Option.some.injEq] at h'
    rw [← h']; exact ⟨rfl, rfl, rfl, rfl⟩
  refine ⟨?_, ?_, ?_, ?_, ?_, ?_, ?_, ?_, ?_, ?_, ?_, ?_, ?_, ?_⟩
  · rw [a9, b9]; rfl
  · rw [a10, b10]
    change (U.length * e.l0) ^ 2 * _ = U.length ^ 2 * (e.l0 ^ 2 * _)
    rw [mul_pow, mul_assoc]; rfl
  · rw [rest'.1, rest.1]; rfl
  · rw [a7, b7]
    change (if cfg.explicit = true then min (U.time * e.maxDt) (e.courant * (U.length * e.l0) / (U.speed * e.c))
      else min (U.time * e.maxDt) (√(2 * (e.courant * (U.length * e.l0)) / (U.speed / U.time * e.g)))) = _
    split
    · rw [mul_min_of_nonneg _ _ hT.le]
      congr 1
      unfold Units.speed
      rw [show e.courant * (U.length * e.l0) = U.length * (e.courant * e.l0) by ring, div_mul_eq_mul_div, div_div_eq_mul_div,
        show U.length * (e.courant * e.l0) * U.time = U.length * (U.time * (e.courant * e.l0)) by ring, mul_div_mul_left _ _ hU.ne', mul_div_assoc]
    · rw [mul_min_of_nonneg _ _ hT.le]
      congr 1
      have : 2 * (e.courant * (U.length * e.l0)) / (U.speed / U.time * e.g) = U.time ^ 2 * (2 * (e.courant * e.l0) / e.g) := by
        unfold Units.speed
        rw [show 2 * (e.courant * (U.length * e.l0)) = U.length * (2 * (e.courant * e.l0)) by ring,
          show U.length / U.time / U.time * e.g = U.length * (e.g / U.time ^ 2) by field_simp, mul_div_mul_left _ _ hU.ne',
          div_div_eq_mul_div]
        ring
      rw [this, Real.sqrt_mul (by positivity), Real.sqrt_sq hT.le]
  · rw [a3, b3]; change e.courant * (U.length * e.l0) = U.length * (e.courant * e.l0); ring
  · rw [a6, b6]; rfl
  · rw [a1, b1]; change e.reByL0 * (U.length * e.l0) = U.length * (e.reByL0 * e.l0); ring
  · rw [a8, b8]; rfl
  · rw [a4, b4]; rfl
  · rw [rest'.2.1, rest.2.1]; rfl
  · rw [a2, b2]
    change e.reByL0 * (U.length * e.l0) * (1 + e.courant * 2) = U.length * (e.reByL0 * e.l0 * (1 + e.courant * 2)); ring
  · rw [a5, b5]
    funext a
    change (if a.val + 1 = D then -(U.speed / U.time * e.g) else Scalar.ofInt 0) = U.speed / U.time * (if a.val + 1 = D then -e.g else Scalar.ofInt 0)
    split
    · ring
    · rw [ofInt_real]; simp
  · rw [rest'.2.2.1, rest.2.2.1]; rfl
  · rw [rest'.2.2.2, rest.2.2.2]; rfl

/-- The same particles are outside the grid. -/
theorem outside_scaled {U : Units} {e e' : Env ℝ D} (h : EnvInUnits U e e') (x : Fin D → ℝ) : Outside e' (U.length • x) ↔ Outside e x := by
  have hU := U.length_pos
  unfold Outside
  apply exists_congr
  intro a
  rw [h.minX, h.maxX, h.neighborLength]
  simp only [Pi.smul_apply, smul_eq_mul]
  rw [mul_lt_mul_iff_right₀ hU, ← mul_sub, mul_div_mul_left _ _ hU.ne', mul_left_comm, ← mul_add, mul_le_mul_iff_right₀ hU]

/-- The same cells are crowded. -/
theorem crowded_scaled {U : Units} {s : State ℝ D ω} {t : State ℝ D ω'} (he : EnvInUnits U s.env t.env) (h : SameInUnits U s t) :
    Crowded t ↔ Crowded s := by
  have hU := U.length_pos
  unfold Crowded
  apply exists_congr
  intro c
  have hcell : Ref.cell t c = Ref.cell s c := by
    unfold Ref.cell
    rw [h.n]
    apply Finset.filter_congr
    intro i hi
    have hi := Finset.mem_range.mp hi
    rw [h.ty i hi, h.x i hi, he.minX, he.neighborLength]
    simp only [Pi.smul_apply, smul_eq_mul]
    refine and_congr_right (fun _ => forall_congr' (fun a => ?_))
    rw [mul_left_comm, ← mul_add, mul_left_comm, ← mul_add, mul_le_mul_iff_right₀ hU, mul_lt_mul_iff_right₀ hU]
  have hcap : t.env.neighborLength / t.env.l0 = s.env.neighborLength / s.env.l0 := by
    rw [he.neighborLength, he.l0, mul_div_mul_left _ _ hU.ne']
  rw [hcell, hcap]
  refine and_congr_left (fun _ => forall_congr' (fun a => ?_))
  rw [he.maxX, he.minX, he.neighborLength]
  simp only [Pi.smul_apply, smul_eq_mul]
  rw [← mul_sub, mul_div_mul_left _ _ hU.ne']

open Classical in
/-- The settings of the two steps. -/
theorem setting_scaled {U : Units} {P : Params ℝ D ω} {P' : Params ℝ D ω'} (hcfg : P'.cfg = P.cfg) {s : State ℝ D ω} {t : State ℝ D ω'}
    (he : EnvInUnits U s.env t.env) (h : SameInUnits U s t) {dt : ℝ} (hw : WallsInUnits U P P' dt s t) :
    Scaled U (setting P s dt) (setting P' t (U.time * dt)) := by
  refine ⟨hcfg, h.n, ?_, h.x, hw, rfl, ⟨he.1, he.2, he.3, he.4, he.5, he.6, he.7, he.8, he.9, he.10, he.11, he.12, he.13, he.14⟩⟩
  intro i hi
  change (if (t.ps i).ty ≠ .disabled ∧ Outside t.env (t.ps i).x then PType.disabled else (t.ps i).ty) =
    if (s.ps i).ty ≠ .disabled ∧ Outside s.env (s.ps i).x then PType.disabled else (s.ps i).ty
  rw [h.ty i hi, h.x i hi]
  by_cases hd : (s.ps i).ty ≠ .disabled ∧ Outside s.env (s.ps i).x
  · rw [if_pos hd, if_pos ⟨hd.1, (outside_scaled he _).mpr hd.2⟩]
  · rw [if_neg hd, if_neg (fun k => hd ⟨k.1, (outside_scaled he _).mp k.2⟩)]

/-- **C48.**  Two computers, each made by the constructors - the second with the arguments of the first in other units of length, time and
density - and each after any history of its own, show the same scene in the two units.  Then `ForwardTime(dt)` of the first and
`ForwardTime(dt in the new units)` of the second, under any two schedules, have the same outcome: both return and show the same scene in the two
units again, or both throw the same exception.  All options and both pressure modes; `hv` is needed with SPP only. -/
theorem C48_step_in_other_units {U : Units} {P : Params ℝ D ω} {P' : Params ℝ D ω'} {e : EnvArgs ℝ D} {env env' : Env ℝ D} {w : ω} {w' : ω'}
    {s0 s : State ℝ D ω} {t0 t : State ℝ D ω'} {dts dts' : List ℝ} (hD : D = 2 ∨ D = 3) (hcfg : P'.cfg = P.cfg) (heps : P'.eps = P.eps)
    (hl : 0 < e.l0) (hL : 0 < e.reByL0) (hC : 0 ≤ e.courant)
    (hmk : Env.mk? P.cfg e = some env) (hnew : State.new? env w = some s0) (hist : Hist P s0 dts s) (hok : s0.grid.ClearOK)
    (hmk' : Env.mk? P.cfg (U.args e) = some env') (hnew' : State.new? env' w' = some t0) (hist' : Hist P' t0 dts' t) (hok' : t0.grid.ClearOK)
    (h : SameInUnits U s t) {dt : ℝ} (hw : WallsInUnits U P P' dt s t) (hv : SameCentred U P s dt)
    (sch sch' : Schedule) (hs : sch.Valid s.n) (hs' : sch'.Valid t.n) :
    (∃ s' t', s.forwardTime P sch dt = .ok s' ∧ t.forwardTime P' sch' (U.time * dt) = .ok t' ∧ SameInUnits U s' t') ∨
    (∃ ex s' t', s.forwardTime P sch dt = .exn ex s' ∧ t.forwardTime P' sch' (U.time * dt) = .exn ex t') := by
  have hE := env_in_units hl hmk hmk'
  obtain ⟨a1, a2, -⟩ := envmk_real hmk
  have hLe : 0 < env.neighborLength := by rw [a2]; positivity
  have hre : 0 ≤ env.re := by rw [a1]; positivity
  have hL' : 0 < env'.neighborLength := by rw [hE.neighborLength]; exact mul_pos U.length_pos hLe
  have hre' : 0 ≤ env'.re := by rw [hE.re]; exact mul_nonneg U.length_pos.le hre
  have he : EnvInUnits U s.env t.env := by
    rw [hist_consts hnew hist, hist_consts hnew' hist']
    exact ⟨hE.1, hE.2, hE.3, hE.4, hE.5, hE.6, hE.7, hE.8, hE.9, hE.10, hE.11, hE.12, hE.13, hE.14⟩
  have hS := setting_scaled hcfg he h hw
  have hsc : SceneScaled (setting P s dt).n U (scene s) (scene t) := ⟨h.x, h.u, h.p, h.dens⟩
  obtain ⟨o1, o2, o3, -⟩ := C42_outcome hD hnew hist hok hLe hre sch hs dt
  obtain ⟨p1, p2, p3, -⟩ := C42_outcome hD hnew' hist' hok' hL' hre' sch' hs' (U.time * dt)
  rw [heps] at p2 p3
  by_cases hcr : Crowded s
  · obtain ⟨s', e1⟩ := o1.mpr hcr
    obtain ⟨t', e2⟩ := p1.mpr ((crowded_scaled he h).mpr hcr)
    exact Or.inr ⟨_, s', t', e1, e2⟩
  have hcr' : ¬ Crowded t := fun k => hcr ((crowded_scaled he h).mp k)
  rcases step_scaled hS hsc hv P.eps with ⟨k1, k2⟩ | ⟨a, a', k1, k2, k3⟩
  · right
    obtain ⟨s', e1⟩ := o2.mpr ⟨hcr, k1⟩
    obtain ⟨t', e2⟩ := p2.mpr ⟨hcr', k2⟩
    exact ⟨_, s', t', e1, e2⟩
  · left
    obtain ⟨s', e1⟩ := o3.mpr ⟨hcr, a, k1⟩
    obtain ⟨t', e2⟩ := p3.mpr ⟨hcr', a', k2⟩
    refine ⟨s', t', e1, e2, ?_⟩
    obtain ⟨b, q1, q2⟩ := C42_step_is_the_reference_function hD hnew hist hok hLe hre sch hs dt e1
    obtain ⟨b', r1, r2⟩ := C42_step_is_the_reference_function hD hnew' hist' hok' hL' hre' sch' hs' (U.time * dt) e2
    rw [heps] at r1
    rw [k1] at q1
    rw [k2] at r1
    injection q1 with q1
    injection r1 with r1
    subst q1 r1
    obtain ⟨hn, hc, -⟩ := step_frame hs (Or.inl e1)
    obtain ⟨hn', hc', -⟩ := step_frame hs' (Or.inl e2)
    have hi' : ∀ i, i < s'.n → i < s.n ∧ i < t.n := fun i hi => by rw [hn] at hi; exact ⟨hi, by rw [h.n]; exact hi⟩
    refine ⟨by rw [hn, hn', h.n], ?_, ?_, ?_, ?_, ?_, ?_⟩
    case _ => intro i hi; obtain ⟨hi, hit⟩ := hi' i hi; rw [(q2 i hi).1, (r2 i hit).1]; exact hS.ty i hi
    case _ => intro i hi; obtain ⟨hi, hit⟩ := hi' i hi; rw [(q2 i hi).2.1, (r2 i hit).2.1]; exact k3.x i hi
    case _ => intro i hi; obtain ⟨hi, hit⟩ := hi' i hi; rw [(q2 i hi).2.2.1, (r2 i hit).2.2.1]; exact k3.u i hi
    case _ => intro i hi; obtain ⟨hi, hit⟩ := hi' i hi; rw [(q2 i hi).2.2.2.1, (r2 i hit).2.2.2.1]; exact k3.p i hi
    case _ => intro i hi; obtain ⟨hi, hit⟩ := hi' i hi; rw [(q2 i hi).2.2.2.2, (r2 i hit).2.2.2.2]; exact k3.dens i hi
    case _ => rw [hc, hc']; change t.env.t + U.time * dt = U.time * (s.env.t + dt); rw [h.clock, mul_add]

theorem speed_in_units {U : Units} {s : State ℝ D ω} {t : State ℝ D ω'} (h : SameInUnits U s t) {i : ℕ} (hi : i < s.n) :
    dot (F := ℝ) (t.ps i).u (t.ps i).u = U.speed ^ 2 * dot (F := ℝ) (s.ps i).u (s.ps i).u := by
  rw [h.u i hi, ← prod_eq, ← prod_eq, prod_smul, sq]

/-- **C48.**  The automatic time step is the same time in both units. -/
theorem C48_automatic_step_in_other_units {U : Units} {P : Params ℝ D ω} {P' : Params ℝ D ω'} {e : EnvArgs ℝ D} {env env' : Env ℝ D} {w : ω} {w' : ω'}
    {s0 s : State ℝ D ω} {t0 t : State ℝ D ω'} {dts dts' : List ℝ} (hl : 0 < e.l0)
    (hmk : Env.mk? P.cfg e = some env) (hnew : State.new? env w = some s0) (hist : Hist P s0 dts s)
    (hmk' : Env.mk? P.cfg (U.args e) = some env') (hnew' : State.new? env' w' = some t0) (hist' : Hist P' t0 dts' t)
    (h : SameInUnits U s t) : t.determineDt = s.determineDt.map (fun dt => U.time * dt) := by
  have hE := env_in_units hl hmk hmk'
  have hdx : t.env.maxDx = U.length * s.env.maxDx := by rw [hist_consts hnew hist, hist_consts hnew' hist']; exact hE.maxDx
  have hdt : t.env.maxDt = U.time * s.env.maxDt := by rw [hist_consts hnew hist, hist_consts hnew' hist']; exact hE.maxDt
  have hsp := U.speed_pos
  unfold State.determineDt
  by_cases h0 : s.n = 0
  · rw [if_pos h0, if_pos (by rw [h.n]; exact h0)]; rfl
  · rw [if_neg h0, if_neg (by rw [h.n]; exact h0)]
    have hf : ∀ (l : List ℕ), (∀ k ∈ l, k + 1 < s.n) → ∀ b, b < s.n →
        (l.foldl (fun best k => if Scalar.lt (dot (F := ℝ) (t.ps best).u (t.ps best).u) (dot (F := ℝ) (t.ps (k + 1)).u (t.ps (k + 1)).u)
          then k + 1 else best) b =
        l.foldl (fun best k => if Scalar.lt (dot (F := ℝ) (s.ps best).u (s.ps best).u) (dot (F := ℝ) (s.ps (k + 1)).u (s.ps (k + 1)).u)
          then k + 1 else best) b) ∧
        l.foldl (fun best k => if Scalar.lt (dot (F := ℝ) (s.ps best).u (s.ps best).u) (dot (F := ℝ) (s.ps (k + 1)).u (s.ps (k + 1)).u)
          then k + 1 else best) b < s.n := by
      intro l
      induction l with
      | nil => intro _ b hb; exact ⟨rfl, hb⟩
      | cons k l ih =>
        intro hl b hbn
        have hk := hl k (by simp)
        simp only [List.foldl_cons]
        have hlt : Scalar.lt (dot (F := ℝ) (t.ps b).u (t.ps b).u) (dot (F := ℝ) (t.ps (k + 1)).u (t.ps (k + 1)).u) =
            Scalar.lt (dot (F := ℝ) (s.ps b).u (s.ps b).u) (dot (F := ℝ) (s.ps (k + 1)).u (s.ps (k + 1)).u) := by
          rw [Bool.eq_iff_iff, lt_real_iff, lt_real_iff, speed_in_units h hbn, speed_in_units h hk, mul_lt_mul_iff_right₀ (by positivity)]
        rw [hlt]
        refine ih (fun k hk => hl k (by simp [hk])) _ ?_
        split
        · exact hk
        · exact hbn
    have hfast := hf (List.range (s.n - 1)) (fun k hk => by have := List.mem_range.mp hk; omega) 0 (by omega)
    have e1 : t.fastest = s.fastest := by
      unfold State.fastest; rw [h.n]; exact hfast.1
    have e2 : s.fastest < s.n := hfast.2
    have e3 : norm2 (F := ℝ) (t.ps t.fastest).u = U.speed * norm2 (F := ℝ) (s.ps s.fastest).u := by
      rw [e1, norm2_real, norm2_real, speed_in_units h e2, Real.sqrt_mul (by positivity), Real.sqrt_sq hsp.le]
    simp only [Option.map_some, Option.some.injEq]
    rw [e3, hdx, hdt]
    by_cases hz : norm2 (F := ℝ) (s.ps s.fastest).u = 0
    · rw [if_pos (by rw [eq_real, decide_eq_true_iff, hz, mul_zero]), if_pos (by rw [eq_real, decide_eq_true_iff, hz])]
    · rw [if_neg (by rw [eq_real, decide_eq_true_iff]; exact mul_ne_zero hsp.ne' hz), if_neg (by rw [eq_real, decide_eq_true_iff]; exact hz), stdMin_real, stdMin_real,
        mul_min_of_nonneg _ _ U.time_pos.le]
      congr 1
      have := U.length_pos
      have := U.time_pos
      unfold Units.speed
      field_simp

/-- **C48.**  `ForwardTime()` has the same outcome in both units. -/
theorem C48_automatic_run_in_other_units {U : Units} {P : Params ℝ D ω} {P' : Params ℝ D ω'} {e : EnvArgs ℝ D} {env env' : Env ℝ D} {w : ω} {w' : ω'}
    {s0 s : State ℝ D ω} {t0 t : State ℝ D ω'} {dts dts' : List ℝ} (hD : D = 2 ∨ D = 3) (hcfg : P'.cfg = P.cfg) (heps : P'.eps = P.eps)
    (hl : 0 < e.l0) (hL : 0 < e.reByL0) (hC : 0 ≤ e.courant)
    (hmk : Env.mk? P.cfg e = some env) (hnew : State.new? env w = some s0) (hist : Hist P s0 dts s) (hok : s0.grid.ClearOK)
    (hmk' : Env.mk? P.cfg (U.args e) = some env') (hnew' : State.new? env' w' = some t0) (hist' : Hist P' t0 dts' t) (hok' : t0.grid.ClearOK)
    (h : SameInUnits U s t) (hn : s.n ≠ 0) (hw : ∀ dt, s.determineDt = some dt → WallsInUnits U P P' dt s t)
    (hv : ∀ dt, s.determineDt = some dt → SameCentred U P s dt)
    (sch sch' : Schedule) (hs : sch.Valid s.n) (hs' : sch'.Valid t.n) :
    (∃ s' t', s.forwardTimeAuto P sch = .ok s' ∧ t.forwardTimeAuto P' sch' = .ok t' ∧ SameInUnits U s' t') ∨
    (∃ ex s' t', s.forwardTimeAuto P sch = .exn ex s' ∧ t.forwardTimeAuto P' sch' = .exn ex t') := by
  have hdt : ∃ dt, s.determineDt = some dt := by
    unfold State.determineDt; rw [if_neg hn]; exact ⟨_, rfl⟩
  obtain ⟨dt, hdt⟩ := hdt
  have hdt' : t.determineDt = some (U.time * dt) := by
    rw [C48_automatic_step_in_other_units hl hmk hnew hist hmk' hnew' hist' h, hdt]; rfl
  unfold State.forwardTimeAuto
  rw [hdt, hdt']
  exact C48_step_in_other_units hD hcfg heps hl hL hC hmk hnew hist hok hmk' hnew' hist' hok' h (hw dt hdt) (hv dt hdt) sch sch' hs hs'

theorem runs_in_units {U : Units} {R : ω → ω' → Prop} {P : Params ℝ D ω} {P' : Params ℝ D ω'} {e : EnvArgs ℝ D} {env env' : Env ℝ D} {w : ω} {w' : ω'}
    {s0 : State ℝ D ω} {t0 : State ℝ D ω'} (hD : D = 2 ∨ D = 3) (hcfg : P'.cfg = P.cfg) (heps : P'.eps = P.eps)
    (hl : 0 < e.l0) (hL : 0 < e.reByL0) (hC : 0 ≤ e.courant)
    (hmk : Env.mk? P.cfg e = some env) (hnew : State.new? env w = some s0) (hok : s0.grid.ClearOK)
    (hmk' : Env.mk? P.cfg (U.args e) = some env') (hnew' : State.new? env' w' = some t0) (hok' : t0.grid.ClearOK)
    (hcb : CallbacksInUnits U R P P') {cs : List (Call ℝ D)} {s s' : State ℝ D ω} (run : Runs U P cs s s') :
    ∀ {cs' : List (Call ℝ D)} {t : State ℝ D ω'} {dts dts' : List ℝ}, List.Forall₂ (CallInUnits U) cs cs' → Hist P s0 dts s → Hist P' t0 dts' t →
      SameInUnits U s t → R s.world t.world → CallsValid s.n cs → CallsValid s.n cs' →
      ∃ t', State.performAll P cs s = some (cs.map (fun _ => none), s') ∧ State.performAll P' cs' t = some (cs.map (fun _ => none), t') ∧
        SameInUnits U s' t' ∧ R s'.world t'.world := by
  have fwd : ∀ {s s1 : State ℝ D ω} {t : State ℝ D ω'} {dts dts' : List ℝ} {sch sch' : Schedule} {dt : ℝ}, Hist P s0 dts s → Hist P' t0 dts' t →
      SameInUnits U s t → R s.world t.world → s.forwardTime P sch dt = .ok s1 → SameCentred U P s dt → sch.Valid s.n → sch'.Valid s.n →
      ∃ t1, t.forwardTime P' sch' (U.time * dt) = .ok t1 ∧ Hist P s0 (dts ++ [dt]) s1 ∧ Hist P' t0 (dts' ++ [U.time * dt]) t1 ∧
        SameInUnits U s1 t1 ∧ R s1.world t1.world ∧ s1.n = s.n := by
    intro s s1 t dts dts' sch sch' dt h1 h2 h hR hs hcen hv hv'
    have hvt : sch'.Valid t.n := by rw [h.n]; exact hv'
    have hw : WallsInUnits U P P' dt s t := by
      intro i _
      rw [h.clock, ← mul_add]
      exact (hcb _ _ hR _ _).2 i
    rcases C48_step_in_other_units hD hcfg heps hl hL hC hmk hnew h1 hok hmk' hnew' h2 hok' h hw hcen sch sch' hv hvt with
      ⟨a, b, e1, e2, e3⟩ | ⟨ex, a, b, e1, -⟩
    · rw [hs] at e1
      injection e1 with e1
      subst e1
      refine ⟨b, e2, .forward sch dt h1 hv (Or.inl hs), .forward sch' _ h2 hvt (Or.inl e2), e3, ?_, (step_frame hv (Or.inl hs)).1⟩
      rw [(C14_nonfluid_follows_callback hv hs).1, (C14_nonfluid_follows_callback hvt e2).1, h.clock, ← mul_add]
      exact (hcb _ _ hR _ _).1
    · rw [hs] at e1; cases e1
  induction run with
  | nil s =>
    intro cs' t dts dts' hcs h1 h2 h hR _ _
    cases hcs
    exact ⟨t, rfl, rfl, h, hR⟩
  | @add cs s s' src _ ih =>
    intro cs' t dts dts' hcs h1 h2 h hR hv hv'
    cases hcs with
    | cons hc hcs =>
      cases hc
      have hget : ∀ i, (src.map U.particle)[i]? = (src[i]?).map U.particle := fun i => List.getElem?_map
      have key : ∀ (Q : Particle ℝ D → Particle ℝ D → Prop), (∀ i, i < s.n → Q (s.ps i) (t.ps i)) → (∀ q, Q q (U.particle q)) →
          ∀ i, i < s.n + src.length → Q ((s.addParticles src).ps i) ((t.addParticles (src.map U.particle)).ps i) := by
        intro Q q1 q2 i hi
        simp only [State.addParticles, h.n]
        split
        · rename_i hlt; exact q1 i hlt
        · rename_i hlt
          have hk : i - s.n < src.length := by omega
          rw [List.getD_eq_getElem?_getD, List.getD_eq_getElem?_getD, hget, List.getElem?_eq_getElem hk]
          exact q2 _
      have h' : SameInUnits U (s.addParticles src) (t.addParticles (src.map U.particle)) := by
        refine ⟨?_, ?_, ?_, ?_, ?_, ?_, h.clock⟩
        · simp only [State.addParticles, h.n, List.length_map]
        · exact key (fun p q => q.ty = p.ty) h.ty (fun _ => rfl)
        · exact key (fun p q => q.x = U.length • p.x) h.x (fun _ => rfl)
        · exact key (fun p q => q.u = U.speed • p.u) h.u (fun _ => rfl)
        · exact key (fun p q => q.p = U.pressure * p.p) h.p (fun _ => rfl)
        · exact key (fun p q => q.n = p.n) h.dens (fun _ => rfl)
      obtain ⟨t', r1, r2, r3⟩ := ih hcs (.add src h1) (.add _ h2) h' hR hv.2 (by
        have := hv'.2
        simpa [Call.added, State.addParticles] using this)
      refine ⟨t', ?_, ?_, r3⟩
      · unfold State.performAll; simp only [State.perform, r1, Option.map, List.map_cons]
      · unfold State.performAll; simp only [State.perform, r2, Option.map, List.map_cons]
  | @forward cs s s1 s' sch dt hs hcen _ ih =>
    intro cs' t dts dts' hcs h1 h2 h hR hv hv'
    cases hcs with
    | cons hc hcs =>
      cases hc with
      | forward _ sch' _ =>
        obtain ⟨t1, f1, f2, f3, f4, f5, f6⟩ := fwd (sch' := sch') h1 h2 h hR hs hcen hv.1 hv'.1
        obtain ⟨t', r1, r2, r3⟩ := ih hcs f2 f3 f4 f5 (by rw [f6]; exact hv.2) (by rw [f6]; exact hv'.2)
        refine ⟨t', ?_, ?_, r3⟩
        · unfold State.performAll; simp only [State.perform, hs, r1, Option.map, List.map_cons]
        · unfold State.performAll; simp only [State.perform, f1, r2, Option.map, List.map_cons]
  | @auto cs s s1 s' sch dt hdt hs hcen _ ih =>
    intro cs' t dts dts' hcs h1 h2 h hR hv hv'
    cases hcs with
    | cons hc hcs =>
      cases hc with
      | auto _ sch' =>
        have hdt' : t.determineDt = some (U.time * dt) := by
          rw [C48_automatic_step_in_other_units hl hmk hnew h1 hmk' hnew' h2 h, hdt]; rfl
        obtain ⟨t1, f1, f2, f3, f4, f5, f6⟩ := fwd (sch' := sch') h1 h2 h hR hs hcen hv.1 hv'.1
        obtain ⟨t', r1, r2, r3⟩ := ih hcs f2 f3 f4 f5 (by rw [f6]; exact hv.2) (by rw [f6]; exact hv'.2)
        refine ⟨t', ?_, ?_, r3⟩
        · unfold State.performAll; simp only [State.perform, State.forwardTimeAuto, hdt, hs, r1, Option.map, List.map_cons]
        · unfold State.performAll; simp only [State.perform, State.forwardTimeAuto, hdt', f1, r2, Option.map, List.map_cons]

/-- **C48.**  Whole programs: construct a computer and perform any calls that all return; construct a second computer with all arguments in other
units, and perform the same calls in these units (under any schedules).  All of its calls return too, and the final scene is the same in the
two units. -/
theorem C48_program_in_other_units {U : Units} {R : ω → ω' → Prop} {P : Params ℝ D ω} {P' : Params ℝ D ω'} {e : EnvArgs ℝ D} {env env' : Env ℝ D}
    {w : ω} {w' : ω'} {s0 s : State ℝ D ω} {t0 : State ℝ D ω'} (hD : D = 2 ∨ D = 3) (hcfg : P'.cfg = P.cfg) (heps : P'.eps = P.eps)
    (hl : 0 < e.l0) (hL : 0 < e.reByL0) (hC : 0 ≤ e.courant)
    (hmk : Env.mk? P.cfg e = some env) (hnew : State.new? env w = some s0) (hok : s0.grid.ClearOK)
    (hmk' : Env.mk? P'.cfg (U.args e) = some env') (hnew' : State.new? env' w' = some t0) (hok' : t0.grid.ClearOK)
    (hcb : CallbacksInUnits U R P P') (hR : R w w') {cs cs' : List (Call ℝ D)} (hcs : List.Forall₂ (CallInUnits U) cs cs') (run : Runs U P cs s0 s)
    (hv : CallsValid 0 cs) (hv' : CallsValid 0 cs') :
    ∃ t, State.performAll P' cs' t0 = some (cs.map (fun _ => none), t) ∧ SameInUnits U s t := by
  rw [hcfg] at hmk'
  have n0 : s0.n = 0 ∧ s0.world = w ∧ s0.env = env := by
    unfold State.new? at hnew
    split at hnew
    · cases hnew
    · injection hnew with hnew; rw [← hnew]; exact ⟨rfl, rfl, rfl⟩
  have n0' : t0.n = 0 ∧ t0.world = w' ∧ t0.env = env' := by
    unfold State.new? at hnew'
    split at hnew'
    · cases hnew'
    · injection hnew' with hnew'; rw [← hnew']; exact ⟨rfl, rfl, rfl⟩
  have ht : env.t = 0 := by
    unfold Env.mk? at hmk; simp only [Scalar.ceilIdx, Option.some.injEq] at hmk; rw [← hmk]
  have ht' : env'.t = 0 := by
    unfold Env.mk? at hmk'; simp only [Scalar.ceilIdx, Option.some.injEq] at hmk'; rw [← hmk']
  have h : SameInUnits U s0 t0 := by
    refine ⟨by rw [n0.1, n0'.1], ?_, ?_, ?_, ?_, ?_, by rw [n0.2.2, n0'.2.2, ht, ht', mul_zero]⟩ <;> intro i hi <;> rw [n0.1] at hi <;> omega
  obtain ⟨t, -, h2, h3, -⟩ := runs_in_units hD hcfg heps hl hL hC hmk hnew hok hmk' hnew' hok' hcb run hcs .start .start h
    (by rw [n0.2.1, n0'.2.1]; exact hR) (by rw [n0.1]; exact hv) (by rw [n0.1]; exact hv')
  exact ⟨t, h2, h3⟩

/-! ## Examples -/

theorem calls_valid {dt : ℝ} {l : List (Particle ℝ 2)} (hl : l.length = 4) : CallsValid 0 [Call.add l, .forward (Schedule.serial 4) dt] := by
  refine ⟨trivial, ?_, trivial⟩
  change (Schedule.serial 4).Valid (0 + l.length)
  rw [hl]; exact Schedule.serial_valid 4

/-- Milliseconds, and tonnes per cubic metre. -/
noncomputable def milli : Units where
  length := 1
  time := 1000
  density := 1 / 1000
  length_pos := by norm_num
  time_pos := by norm_num
  density_pos := by norm_num

noncomputable def milliEnv : Env ℝ 2 := (Env.mk? Config.default (milli.args latticeArgs)).get rfl

/-- The hypotheses hold for the drop with the options of `defines.hpp` (implicit pressure, SPP) in milliseconds. -/
example : ∃ s t0 t, Runs milli dropP [.add dropParticles, .forward (Schedule.serial 4) (1 / 100)] dropNew s ∧
    State.new? milliEnv () = some t0 ∧
    State.performAll dropP [.add (dropParticles.map milli.particle), .forward (Schedule.serial 4) (milli.time * (1 / 100))] t0 =
      some ([none, none], t) ∧ SameInUnits milli s t := by
  obtain ⟨s', h⟩ := dropState_step (dt := 1 / 100) (by norm_num) (le_refl _)
  obtain ⟨t0, ht0⟩ : ∃ t0, State.new? (ω := Unit) milliEnv () = some t0 := by
    unfold State.new? Grid.mk?
    exact ⟨_, rfl⟩
  have run : Runs milli dropP [.add dropParticles, .forward (Schedule.serial 4) (1 / 100)] dropNew s' :=
    .add _ (.forward _ _ h (fun _ i _ => by change _ ↔ _ < (1 : ℝ) * _; rw [one_mul]) (.nil _))
  obtain ⟨t, h1, h2⟩ := C48_program_in_other_units (U := milli) (R := fun _ _ => True) (P := dropP) (P' := dropP) (Or.inl rfl) rfl rfl
    (e := latticeArgs) (by change (0 : ℝ) < 1 / 10; norm_num) (by change (0 : ℝ) < 24 / 10; norm_num) (by change (0 : ℝ) ≤ 1 / 10; norm_num)
    dropEnv_eq dropNew_eq dropNew_ok (env' := milliEnv) rfl ht0 (fun h => absurd h (by decide))
    (fun _ _ _ _ _ => ⟨trivial, fun i => by change dropX i = (1 : ℝ) • dropX i; rw [one_smul]⟩) trivial
    (.cons (.add _) (.cons (.forward _ (Schedule.serial 4) _) .nil)) run (calls_valid rfl) (calls_valid rfl)
  exact ⟨s', t0, t, run, ht0, h1, h2⟩

/-- Centimetres, milliseconds, and tonnes per cubic metre. -/
noncomputable def centi : Units := { milli with length := 100, length_pos := by norm_num }

/-- Explicit pressure, no SPP; walls at rest. -/
noncomputable def plainP : Params ℝ 2 Unit := { dropP with cfg := { Config.default with explicit := true, spp := false } }

noncomputable def plainEnv : Env ℝ 2 := (Env.mk? plainP.cfg latticeArgs).get rfl

noncomputable def plainNew : State ℝ 2 Unit := { dropNew with env := plainEnv, grid := plainEnv.builtGrid }

theorem plainNew_eq : State.new? plainEnv () = some plainNew := by
  unfold State.new? Grid.mk?; rfl

/-- The same in centimetres. -/
noncomputable def centiP : Params ℝ 2 Unit :=
  { plainP with walls := { pre := fun w _ _ => w, pos := fun _ i _ _ => (100 : ℝ) • dropX i } }

noncomputable def centiEnv : Env ℝ 2 := (Env.mk? plainP.cfg (centi.args latticeArgs)).get rfl

/-- The hypotheses hold for the drop in centimetres (explicit pressure, no SPP). -/
example : ∃ s t0 t, Runs centi plainP [.add dropParticles, .forward (Schedule.serial 4) (1 / 100)] plainNew s ∧
    State.new? centiEnv () = some t0 ∧
    State.performAll centiP [.add (dropParticles.map centi.particle), .forward (Schedule.serial 4) (centi.time * (1 / 100))] t0 =
      some ([none, none], t) ∧ SameInUnits centi s t := by
  have hl : plainEnv.l0 = 1 / 10 := rfl
  obtain ⟨s', h⟩ := C06_explicit_step_succeeds (P := plainP) plainNew_eq (.add dropParticles .start) (fun h => absurd h (by decide))
    (by rw [hl]; norm_num) (by change 0 < dropEnv.neighborLength; rw [dropEnv_vals.2.1]; norm_num) dropState_spaced rfl _ (Schedule.serial_valid 4) (1 / 100)
  obtain ⟨t0, ht0⟩ : ∃ t0, State.new? (ω := Unit) centiEnv () = some t0 := by
    unfold State.new? Grid.mk?
    exact ⟨_, rfl⟩
  have run : Runs centi plainP [.add dropParticles, .forward (Schedule.serial 4) (1 / 100)] plainNew s' :=
    .add _ (.forward _ _ h (fun k => by cases k) (.nil _))
  obtain ⟨t, h1, h2⟩ := C48_program_in_other_units (U := centi) (R := fun _ _ => True) (P := plainP) (P' := centiP) (Or.inl rfl) rfl rfl
    (e := latticeArgs) (by change (0 : ℝ) < 1 / 10; norm_num) (by change (0 : ℝ) < 24 / 10; norm_num) (by change (0 : ℝ) ≤ 1 / 10; norm_num)
    (env := plainEnv) rfl plainNew_eq (fun h => absurd h (by decide)) (env' := centiEnv) rfl ht0 (fun h => absurd h (by decide))
    (fun _ _ _ _ _ => ⟨trivial, fun _ => rfl⟩) trivial
    (.cons (.add _) (.cons (.forward _ (Schedule.serial 4) _) .nil)) run (calls_valid rfl) (calls_valid rfl)
  exact ⟨s', t0, t, run, ht0, h1, h2⟩

end OpenMps
