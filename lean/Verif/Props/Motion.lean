import Verif.Lemmas.Motion

/-! # Property C44: rotations, mirror images, shifts and moving frames -/

set_option linter.unusedSectionVars false

namespace OpenMps

open Ref

variable {D : Nat} {ω ω' : Type}

theorem SameConstants.later {cfg : Config} {M : Motion D} {e e' : Env ℝ D} (h : SameConstants cfg M e e') (dt : ℝ) :
    SameConstants cfg (M.later dt) e e' := by
  refine ⟨h.1, h.2, h.3, h.4, h.5, h.6, h.7, h.8, h.9, h.10, h.11, h.12, ?_⟩
  intro hc
  obtain ⟨h1, h2, h3⟩ := h.central hc
  refine ⟨?_, h2, h3⟩
  change M.shift + dt • M.boost = 0
  rw [h1, h2, smul_zero, add_zero]

open Classical in
/-- The settings of the two steps. -/
theorem setting_moved {M : Motion D} {P : Params ℝ D ω} {P' : Params ℝ D ω'} (hcfg : P'.cfg = P.cfg) {s : State ℝ D ω} {t : State ℝ D ω'}
    (he : SameConstants P.cfg M s.env t.env) (h : SeenFrom M s t) {dt : ℝ} (hdt : dt ≠ 0) (hout : SameLeaving s t) (hw : SameWalls M P P' dt s t) :
    Moved M (setting P s dt) (setting P' t dt) := by
  refine ⟨hcfg, h.n, ?_, h.x, fun i hi _ => hw i hi, rfl, hdt, ⟨he.1, he.2, he.3, he.4, he.5, he.6, he.7, he.8, he.9, he.10, he.11, he.12, he.13⟩⟩
  intro i hi
  change (if (t.ps i).ty ≠ .disabled ∧ Outside t.env (t.ps i).x then PType.disabled else (t.ps i).ty) =
    if (s.ps i).ty ≠ .disabled ∧ Outside s.env (s.ps i).x then PType.disabled else (s.ps i).ty
  rw [h.ty i hi]
  by_cases hd : (s.ps i).ty ≠ .disabled
  · by_cases ho : Outside s.env (s.ps i).x
    · rw [if_pos ⟨hd, (hout i hi hd).mp ho⟩, if_pos ⟨hd, ho⟩]
    · rw [if_neg (fun k => ho ((hout i hi hd).mpr k.2)), if_neg (fun k => ho k.2)]
  · rw [if_neg (fun k => hd k.1), if_neg (fun k => hd k.1)]

/-- **C44.**  Two computers, each after any history of its own, show the same scene seen from two frames: rotated, mirrored, shifted, and moving at
a constant velocity (gravity rotated with it, walls moving with it).  Then the next step, under any two schedules, gives the same scene again
seen from these frames - or the solver throws in both.  All options and both pressure modes; `hcr`, `hcr'`: no cell is crowded. -/
theorem C44_step_in_another_frame {M : Motion D} {P : Params ℝ D ω} {P' : Params ℝ D ω'} {env env' : Env ℝ D} {w : ω} {w' : ω'}
    {s0 s : State ℝ D ω} {t0 t : State ℝ D ω'} {dts dts' : List ℝ} (hD : D = 2 ∨ D = 3) (hcfg : P'.cfg = P.cfg) (heps : P'.eps = P.eps)
    (hnew : State.new? env w = some s0) (hist : Hist P s0 dts s) (hok : s0.grid.ClearOK)
    (hnew' : State.new? env' w' = some t0) (hist' : Hist P' t0 dts' t) (hok' : t0.grid.ClearOK)
    (hc : SameConstants P.cfg M env env') (hL : 0 < env.neighborLength) (hre : 0 ≤ env.re) (h : SeenFrom M s t) {dt : ℝ} (hdt : dt ≠ 0)
    (hout : SameLeaving s t) (hw : SameWalls M P P' dt s t) (hcr : ¬ Crowded s) (hcr' : ¬ Crowded t)
    (sch sch' : Schedule) (hv : sch.Valid s.n) (hv' : sch'.Valid t.n) :
    (∃ s' t', s.forwardTime P sch dt = .ok s' ∧ t.forwardTime P' sch' dt = .ok t' ∧ SeenFrom (M.later dt) s' t') ∨
    (∃ s' t', s.forwardTime P sch dt = .exn .solver s' ∧ t.forwardTime P' sch' dt = .exn .solver t') := by
  have hL' : 0 < env'.neighborLength := by rw [hc.neighborLength]; exact hL
  have hre' : 0 ≤ env'.re := by rw [hc.re]; exact hre
  have he : SameConstants P.cfg M s.env t.env := by
    rw [hist_consts hnew hist, hist_consts hnew' hist']
    exact ⟨hc.1, hc.2, hc.3, hc.4, hc.5, hc.6, hc.7, hc.8, hc.9, hc.10, hc.11, hc.12, hc.13⟩
  have hS := setting_moved hcfg he h hdt hout hw
  have hsc : SceneMoved (setting P s dt).n M (scene s) (scene t) := ⟨h.x, h.u, h.p, h.dens⟩
  obtain ⟨-, o2, o3, -⟩ := C42_outcome hD hnew hist hok hL hre sch hv dt
  obtain ⟨-, p2, p3, -⟩ := C42_outcome hD hnew' hist' hok' hL' hre' sch' hv' dt
  rw [heps] at p2 p3
  rcases step_moved hS hsc P.eps with ⟨k1, k2⟩ | ⟨a, a', k1, k2, k3⟩
  · right
    obtain ⟨s', e1⟩ := o2.mpr ⟨hcr, k1⟩
    obtain ⟨t', e2⟩ := p2.mpr ⟨hcr', k2⟩
    exact ⟨s', t', e1, e2⟩
  · left
    obtain ⟨s', e1⟩ := o3.mpr ⟨hcr, a, k1⟩
    obtain ⟨t', e2⟩ := p3.mpr ⟨hcr', a', k2⟩
    refine ⟨s', t', e1, e2, ?_⟩
    obtain ⟨b, q1, q2⟩ := C42_step_is_the_reference_function hD hnew hist hok hL hre sch hv dt e1
    obtain ⟨b', r1, r2⟩ := C42_step_is_the_reference_function hD hnew' hist' hok' hL' hre' sch' hv' dt e2
    rw [heps] at r1
    rw [k1] at q1
    rw [k2] at r1
    injection q1 with q1
    injection r1 with r1
    subst q1 r1
    have hn : s'.n = s.n := (step_frame hv (Or.inl e1)).1
    have hn' : t'.n = t.n := (step_frame hv' (Or.inl e2)).1
    have hi' : ∀ i, i < s'.n → i < s.n ∧ i < t.n := fun i hi => by rw [hn] at hi; exact ⟨hi, by rw [h.n]; exact hi⟩
    refine ⟨by rw [hn, hn', h.n], ?_, ?_, ?_, ?_, ?_⟩ <;> intro i hi <;> obtain ⟨hi, hit⟩ := hi' i hi
    · rw [(q2 i hi).1, (r2 i hit).1]; exact hS.ty i hi
    · rw [(q2 i hi).2.1, (r2 i hit).2.1]; exact k3.x i hi
    · rw [(q2 i hi).2.2.1, (r2 i hit).2.2.1]; exact k3.u i hi
    · rw [(q2 i hi).2.2.2.1, (r2 i hit).2.2.2.1]; exact k3.p i hi
    · rw [(q2 i hi).2.2.2.2, (r2 i hit).2.2.2.2]; exact k3.dens i hi

theorem seenFrom_speed {M : Motion D} {s : State ℝ D ω} {t : State ℝ D ω'} (h : SeenFrom M s t) (hb : M.boost = 0) {i : ℕ} (hi : i < s.n) :
    dot (F := ℝ) (t.ps i).u (t.ps i).u = dot (F := ℝ) (s.ps i).u (s.ps i).u := by
  rw [h.u i hi, hb, add_zero, ← prod_eq, ← prod_eq, M.prod]

/-- **C44.**  The automatic time step is the same in both frames if they do not move relative to each other. -/
theorem C44_automatic_step_in_another_frame {M : Motion D} {s : State ℝ D ω} {t : State ℝ D ω'} (h : SeenFrom M s t) (hb : M.boost = 0)
    (hdx : t.env.maxDx = s.env.maxDx) (hdt : t.env.maxDt = s.env.maxDt) : t.determineDt = s.determineDt := by
  unfold State.determineDt
  by_cases h0 : s.n = 0
  · rw [if_pos h0, if_pos (by rw [h.n]; exact h0)]
  · rw [if_neg h0, if_neg (by rw [h.n]; exact h0)]
    have hf : ∀ (l : List ℕ), (∀ k ∈ l, k + 1 < s.n) → ∀ b, b < s.n →
        (l.foldl (fun best k => if Scalar.lt (dot (F := ℝ) (t.ps best).u (t.ps best).u) (dot (F := ℝ) (t.ps (k + 1)).u (t.ps (k + 1)).u)
          then k + 1 else best) b =
        l.foldl (fun best k => if Scalar.lt (dot (F := ℝ) (s.ps best).u (s.ps best).u) (dot (F := ℝ) (s.ps (k + 1)).u (s.ps (k + 1)).u)
          then k + 1 else best) b) ∧
        l.foldl (fun best k => if Scalar.lt (dot (F := ℝ) (s.ps best).u (s.ps best).u) (dot (F := ℝ) (s.ps (k + 1)).u (s.ps (k + 1)).u)
          then k + 1 else best) b < s.n := by
      intro l
      induction l with
      | nil => intro _ b hb; exact ⟨rfl, hb⟩
      | cons k l ih =>
        intro hl b hbn
        have hk := hl k (by simp)
        simp only [List.foldl_cons]
        rw [seenFrom_speed h hb hbn, seenFrom_speed h hb hk]
        refine ih (fun k hk => hl k (by simp [hk])) _ ?_
        split
        · exact hk
        · exact hbn
    have hfast := hf (List.range (s.n - 1)) (fun k hk => by have := List.mem_range.mp hk; omega) 0 (by omega)
    have e1 : t.fastest = s.fastest := by
      unfold State.fastest; rw [h.n]; exact hfast.1
    have e2 : s.fastest < s.n := hfast.2
    rw [e1, hdx, hdt, norm2_real, norm2_real, seenFrom_speed h hb e2]

/-- **C44.**  Whole runs: two computers after any histories, showing the same scene in two frames, each performing steps of the lengths
`dt 0, ..., dt (m-1)`; as long as the same particles leave the grids and the walls correspond, they show the same scene in these frames at the end. -/
theorem C44_runs_in_another_frame {M : Motion D} {P : Params ℝ D ω} {P' : Params ℝ D ω'} {env env' : Env ℝ D} {w : ω} {w' : ω'}
    {s0 : State ℝ D ω} {t0 : State ℝ D ω'} {dts dts' : List ℝ} (hD : D = 2 ∨ D = 3) (hcfg : P'.cfg = P.cfg) (heps : P'.eps = P.eps)
    (hnew : State.new? env w = some s0) (hok : s0.grid.ClearOK) (hnew' : State.new? env' w' = some t0) (hok' : t0.grid.ClearOK)
    (hc : SameConstants P.cfg M env env') (hL : 0 < env.neighborLength) (hre : 0 ≤ env.re)
    (s : ℕ → State ℝ D ω) (t : ℕ → State ℝ D ω') (hist : Hist P s0 dts (s 0)) (hist' : Hist P' t0 dts' (t 0)) (h : SeenFrom M (s 0) (t 0))
    (m : ℕ) (dt : ℕ → ℝ) (sch sch' : ℕ → Schedule) (hv : ∀ k, k < m → (sch k).Valid (s k).n) (hv' : ∀ k, k < m → (sch' k).Valid (t k).n)
    (hs : ∀ k, k < m → (s k).forwardTime P (sch k) (dt k) = .ok (s (k + 1)))
    (ht : ∀ k, k < m → (t k).forwardTime P' (sch' k) (dt k) = .ok (t (k + 1)))
    (hdt : ∀ k, k < m → dt k ≠ 0) (hout : ∀ k, k < m → SameLeaving (s k) (t k))
    (hw : ∀ k, k < m → SameWalls (M.later (∑ l ∈ Finset.range k, dt l)) P P' (dt k) (s k) (t k)) :
    SeenFrom (M.later (∑ l ∈ Finset.range m, dt l)) (s m) (t m) := by
  have hL' : 0 < env'.neighborLength := by rw [hc.neighborLength]; exact hL
  have hre' : 0 ≤ env'.re := by rw [hc.re]; exact hre
  have key : ∀ k, k ≤ m → (∃ l, Hist P s0 l (s k)) ∧ (∃ l, Hist P' t0 l (t k)) ∧ SeenFrom (M.later (∑ l ∈ Finset.range k, dt l)) (s k) (t k) := by
    intro k
    induction k with
    | zero =>
      intro _
      refine ⟨⟨_, hist⟩, ⟨_, hist'⟩, ?_⟩
      have : M.later (∑ l ∈ Finset.range 0, dt l) = M := by unfold Motion.later; simp
      rw [this]; exact h
    | succ k ih =>
      intro hk
      obtain ⟨⟨l, h1⟩, ⟨l', h2⟩, h3⟩ := ih (by omega)
      have hkm : k < m := by omega
      refine ⟨⟨_, .forward (sch k) (dt k) h1 (hv k hkm) (Or.inl (hs k hkm))⟩, ⟨_, .forward (sch' k) (dt k) h2 (hv' k hkm) (Or.inl (ht k hkm))⟩, ?_⟩
      have c1 := ((C42_outcome hD hnew h1 hok hL hre (sch k) (hv k hkm) (dt k)).2.2.1.mp ⟨_, hs k hkm⟩).1
      have c2 := ((C42_outcome hD hnew' h2 hok' hL' hre' (sch' k) (hv' k hkm) (dt k)).2.2.1.mp ⟨_, ht k hkm⟩).1
      have e : (M.later (∑ l ∈ Finset.range k, dt l)).later (dt k) = M.later (∑ l ∈ Finset.range (k + 1), dt l) := by
        unfold Motion.later
        simp only [Finset.sum_range_succ, add_smul, add_assoc]
      rw [← e]
      rcases C44_step_in_another_frame hD hcfg heps hnew h1 hok hnew' h2 hok' (SameConstants.later hc _) hL hre h3 (hdt k hkm) (hout k hkm)
        (hw k hkm) c1 c2 (sch k) (sch' k) (hv k hkm) (hv' k hkm) with ⟨s', t', e1, e2, e3⟩ | ⟨s', t', e1, -⟩
      · rw [hs k hkm] at e1
        rw [ht k hkm] at e2
        injection e1 with e1
        injection e2 with e2
        subst e1 e2
        exact e3
      · rw [hs k hkm] at e1; cases e1
  exact (key m le_rfl).2.2

/-! ## Example: the drop in a mirror that moves to the right -/

/-- `x -> 1 - x`, moving with the velocity `(1/10, 0)`. -/
noncomputable def mirror : Motion 2 where
  R := !![-1, 0; 0, 1]
  shift := ![1, 0]
  boost := ![1 / 10, 0]
  orth := by ext i j; fin_cases i <;> fin_cases j <;> simp [Matrix.mul_apply]

theorem mirror_apply (v : Fin 2 → ℝ) : mirror.R.mulVec v = ![-v 0, v 1] := by
  funext a; fin_cases a <;> simp [mirror, Matrix.mulVec, dotProduct]

noncomputable def mirrorParticles : List (Particle ℝ 2) :=
  dropParticles.map (fun q => { q with x := mirror.R.mulVec q.x + mirror.shift, u := mirror.R.mulVec q.u + mirror.boost })

noncomputable def mirrorP : Params ℝ 2 Unit :=
  { dropP with walls := { pre := fun w _ _ => w, pos := fun _ i t _ => mirror.R.mulVec (dropX i) + (mirror.shift + t • mirror.boost) } }

noncomputable def mirrorState : State ℝ 2 Unit := dropNew.addParticles mirrorParticles

theorem mirror_seen : SeenFrom mirror dropState mirrorState := by
  refine ⟨rfl, ?_, ?_, ?_, ?_, ?_⟩ <;> intro i hi <;> have hi : i < 4 := hi <;> interval_cases i <;> rfl

theorem mirror_constants : SameConstants dropP.cfg mirror dropEnv dropEnv := by
  refine ⟨rfl, rfl, rfl, rfl, rfl, rfl, rfl, rfl, rfl, rfl, rfl, ?_, fun h => by cases h⟩
  intro _
  rw [mirror_apply, dropEnv_vals.2.2.2.2.1]
  funext a; fin_cases a <;> simp

theorem mirror_outside (x : Fin 2 → ℝ) (h : ∀ a, 0 ≤ x a ∧ x a ≤ 1) : ¬ Outside dropEnv x := by
  rintro ⟨a, k | k⟩
  · rw [dropEnv_vals.2.2.2.2.2.1] at k
    have := (h a).1
    fin_cases a <;> simp at k this <;> linarith
  · rw [dropEnv_vals.2.1, dropEnv_vals.2.2.2.2.2.1, dropEnv_vals.2.2.2.2.2.2.1] at k
    have := (h a).2
    have hc : ((1 : ℝ) - 0) / (288 / 1000) ≤ ⌈((1 : ℝ) - 0) / (288 / 1000)⌉ := Int.le_ceil _
    fin_cases a <;> simp at k this <;> norm_num at hc k <;> linarith

theorem mirror_x (i : ℕ) (hi : i < 4) : (mirrorState.ps i).x = ![1 - dropX i 0, dropX i 1] := by
  have e : (mirrorState.ps i).x = mirror.R.mulVec (dropState.ps i).x + mirror.shift := mirror_seen.x i hi
  rw [e, mirror_apply, (dropState_x i hi).1]
  funext a; fin_cases a
  · change -dropX i 0 + 1 = 1 - dropX i 0; ring
  · change dropX i 1 + 0 = dropX i 1; ring

theorem mirror_crowded : ¬ Crowded dropState ∧ ¬ Crowded mirrorState := by
  have hL : 0 < dropEnv.neighborLength := by rw [dropEnv_vals.2.1]; norm_num
  have hl : 0 < dropEnv.l0 := by rw [dropEnv_vals.2.2.1]; norm_num
  have hr : 0 ≤ dropEnv.re := by rw [dropEnv_vals.1]; norm_num
  constructor
  · intro hc
    obtain ⟨s', h⟩ := (C42_outcome (dt := 1) (Or.inl rfl) dropNew_eq (dropState_hist dropP) dropNew_ok hL hr _ (Schedule.serial_valid 4)).1.mpr hc
    exact C06_step_never_overflows dropNew_eq (dropState_hist dropP) dropNew_ok hl hL dropState_spaced _ (Schedule.serial_valid 4) _ _ h
  · intro hc
    have hh : Hist mirrorP dropNew [] mirrorState := .add _ .start
    obtain ⟨s', h⟩ := (C42_outcome (dt := 1) (Or.inl rfl) dropNew_eq hh dropNew_ok hL hr _ (Schedule.serial_valid 4)).1.mpr hc
    refine C06_step_never_overflows dropNew_eq hh dropNew_ok hl hL ?_ _ (Schedule.serial_valid 4) _ _ h
    intro i j hij hj _ _
    have hj : j < 4 := hj
    obtain ⟨a, ha⟩ := dropState_spaced i j hij hj (by rw [(dropState_x i (by omega)).2.2]; split <;> decide)
      (by rw [(dropState_x j hj).2.2]; split <;> decide)
    rw [(dropState_x i (by omega)).1, (dropState_x j hj).1] at ha
    refine ⟨a, ?_⟩
    rw [mirror_x i (by omega), mirror_x j hj]
    fin_cases a
    · have e : |1 - dropX i 0 - (1 - dropX j 0)| = |dropX i 0 - dropX j 0| := by
        rw [← abs_neg]; congr 1; ring
      change dropEnv.l0 ≤ |1 - dropX i 0 - (1 - dropX j 0)|
      rw [e]; exact ha
    · exact ha

/-- The hypotheses of C44 hold for the drop and its moving mirror image; the step (implicit pressure) succeeds in both frames. -/
example : ∃ s' t', dropState.forwardTime dropP (Schedule.serial 4) (1 / 100) = .ok s' ∧
    mirrorState.forwardTime mirrorP (Schedule.serial 4) (1 / 100) = .ok t' ∧ SeenFrom (mirror.later (1 / 100)) s' t' := by
  have hL : 0 < dropEnv.neighborLength := by rw [dropEnv_vals.2.1]; norm_num
  have hr : 0 ≤ dropEnv.re := by rw [dropEnv_vals.1]; norm_num
  obtain ⟨s', h⟩ := dropState_step (dt := 1 / 100) (by norm_num) (le_refl _)
  have hin : ∀ i, i < 4 → ¬ Outside dropEnv (dropX i) ∧ ¬ Outside dropEnv ![1 - dropX i 0, dropX i 1] := by
    intro i hi
    constructor <;> apply mirror_outside <;> intro a <;> interval_cases i <;> fin_cases a <;> simp [dropX] <;> norm_num
  have key := C44_step_in_another_frame (M := mirror) (P := dropP) (P' := mirrorP) (dts' := []) (t0 := dropNew) (Or.inl rfl) rfl rfl dropNew_eq
    (dropState_hist dropP) dropNew_ok dropNew_eq (.add mirrorParticles .start) dropNew_ok mirror_constants hL hr mirror_seen
    (dt := 1 / 100) (by norm_num)
    (by
      intro i hi _
      have hi : i < 4 := hi
      have e1 : dropState.env = dropEnv := rfl
      have e2 : mirrorState.env = dropEnv := rfl
      change Outside dropState.env (dropState.ps i).x ↔ Outside mirrorState.env (mirrorState.ps i).x
      rw [e1, e2, mirror_x i hi, (dropState_x i hi).1]
      exact ⟨fun k => absurd k (hin i hi).1, fun k => absurd k (hin i hi).2⟩)
    (by
      intro i hi
      have e : dropEnv.t = 0 := rfl
      change mirror.R.mulVec (dropX i) + (mirror.shift + (dropEnv.t + 1 / 100) • mirror.boost)
        = mirror.R.mulVec (dropX i) + (mirror.shift + (1 / 100 : ℝ) • mirror.boost)
      rw [e, zero_add])
    mirror_crowded.1 mirror_crowded.2 _ _ (Schedule.serial_valid 4) (Schedule.serial_valid 4)
  rcases key with ⟨a, t', e1, e2, e3⟩ | ⟨a, t', e1, -⟩
  · rw [h] at e1; injection e1 with e1; subst e1; exact ⟨_, _, h, e2, e3⟩
  · rw [h] at e1; cases e1

end OpenMps
