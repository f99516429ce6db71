import Verif.Spec.ReferenceStep
import Verif.Props.Reference
import Verif.Lemmas.Perm

/-! # C42, second part: the step is one function, and the solver fails exactly when the reference does -/

set_option linter.unusedSectionVars false

namespace OpenMps

open Ref

variable {D : Nat} {ω : Type}

theorem inner_congr {n : ℕ} {v v' w w' : ℕ → ℝ} (h : ∀ i, i < n → v i = v' i) (k : ∀ i, i < n → w i = w' i) :
    inner n v w = inner n v' w' :=
  Finset.sum_congr rfl (fun i hi => by rw [h i (Finset.mem_range.mp hi), k i (Finset.mem_range.mp hi)])

/-- One more iteration of the program. -/
theorem cgLoop_eq {n : ℕ} {A : Sparse ℝ} {L : (ℕ → ℝ) → ℕ → ℝ} (hL : ∀ y z : ℕ → ℝ, (∀ i, i < n → y i = z i) → ∀ i, i < n → applyMat n A y i = L z i)
    (tol : ℝ) : ∀ (k : ℕ) (s : CgState ℝ) (y r d : ℕ → ℝ), s.conv = false → (∀ i, i < n → s.x i = y i) → (∀ i, i < n → s.r i = r i) →
      (∀ i, i < n → s.p i = d i) → s.rr = inner n r r →
      ((cgLoop n A tol k s).conv = true → ∃ z, conjugate n L tol k y r d = some z ∧ ∀ i, i < n → (cgLoop n A tol k s).x i = z i) ∧
      ((cgLoop n A tol k s).conv = false → conjugate n L tol k y r d = none) := by
  intro k
  induction k with
  | zero =>
    intro s y r d hc hx hr hp hrr
    refine ⟨fun h => ?_, fun _ => rfl⟩
    unfold cgLoop at h; rw [hc] at h; cases h
  | succ k ih =>
    intro s y r d hc hx hr hp hrr
    have e0 : cgLoop n A tol (k + 1) s = cgLoop n A tol k (cgStep n A tol s) := by
      rw [cgLoop, if_neg (by rw [hc]; decide)]
    have hAp : ∀ i, i < n → sprod n A s.p i = L d i := fun i hi => by rw [sprod_real]; exact hL _ _ hp i hi
    set alpha := inner n r r / inner n d (L d) with halpha
    have ha : s.rr / sdot n s.p (sprod n A s.p) = alpha := by
      rw [hrr, sdot_real, halpha]
      congr 1
      exact inner_congr hp hAp
    set y' := y + alpha • d with hy'
    set r' := r - alpha • L d with hr'
    have hx1 : ∀ i, i < n → s.x i + alpha * s.p i = y' i := fun i hi => by rw [hx i hi, hp i hi]; rfl
    have hr1 : ∀ i, i < n → s.r i - alpha * sprod n A s.p i = r' i := fun i hi => by rw [hr i hi, hAp i hi]; rfl
    have hrr1 : sdot n (fun i => s.r i - alpha * sprod n A s.p i) (fun i => s.r i - alpha * sprod n A s.p i) = inner n r' r' := by
      rw [sdot_real]; exact inner_congr hr1 hr1
    have eR : conjugate n L tol (k + 1) y r d
        = if inner n r' r' < tol then some y' else conjugate n L tol k y' r' (r' + (inner n r' r' / inner n r r) • d) := rfl
    rw [e0, eR]
    by_cases hlt : inner n r' r' < tol
    · have eS : cgStep n A tol s = ⟨fun i => s.x i + alpha * s.p i, fun i => s.r i - alpha * sprod n A s.p i, s.p, s.rr, true⟩ := by
        unfold cgStep
        simp only
        rw [ha, hrr1, if_pos (lt_real_iff.mpr hlt)]
      have eL : cgLoop n A tol k (cgStep n A tol s) = cgStep n A tol s := by
        cases k with
        | zero => rfl
        | succ k => rw [cgLoop, if_pos (by rw [eS])]
      rw [eL, eS, if_pos hlt]
      exact ⟨fun _ => ⟨y', rfl, hx1⟩, fun h => by cases h⟩
    · have eS : cgStep n A tol s = ⟨fun i => s.x i + alpha * s.p i, fun i => s.r i - alpha * sprod n A s.p i,
          fun i => (s.r i - alpha * sprod n A s.p i) + inner n r' r' / s.rr * s.p i, inner n r' r', false⟩ := by
        unfold cgStep
        simp only
        rw [ha, hrr1, if_neg (by rw [lt_real_iff]; exact hlt)]
      rw [eS, if_neg hlt]
      refine ih _ y' r' _ rfl hx1 hr1 ?_ rfl
      intro i hi
      change (s.r i - alpha * sprod n A s.p i) + inner n r' r' / s.rr * s.p i = _
      rw [hr1 i hi, hp i hi, hrr]
      rfl

theorem cgSolve_eq {n : ℕ} {A : Sparse ℝ} {L : (ℕ → ℝ) → ℕ → ℝ} (hL : ∀ y z : ℕ → ℝ, (∀ i, i < n → y i = z i) → ∀ i, i < n → applyMat n A y i = L z i)
    {b b' x x' : ℕ → ℝ} (hb : ∀ i, i < n → b i = b' i) (hx : ∀ i, i < n → x i = x' i) (eps : ℝ) :
    ((cgSolve n A b x eps).2 = true → ∃ z, solve n L b' x' eps = some z ∧ ∀ i, i < n → (cgSolve n A b x eps).1 i = z i) ∧
    ((cgSolve n A b x eps).2 = false → solve n L b' x' eps = none) := by
  have hr : ∀ i, i < n → b i - sprod n A x i = (b' - L x') i := fun i hi => by
    rw [hb i hi, sprod_real, hL _ _ hx i hi]; rfl
  have hrr : sdot n (fun i => b i - sprod n A x i) (fun i => b i - sprod n A x i) = inner n (b' - L x') (b' - L x') := by
    rw [sdot_real]; exact inner_congr hr hr
  set tol := inner n (b' - L x') (b' - L x') * eps ^ 2 with htol
  have eI : cgInit n A b x eps = (⟨x, fun i => b i - sprod n A x i, fun i => b i - sprod n A x i, inner n (b' - L x') (b' - L x'), Scalar.eq tol 0⟩, tol) := by
    unfold cgInit
    simp only
    rw [hrr, show inner n (b' - L x') (b' - L x') * eps * eps = tol by rw [htol]; ring]
  have eS : solve n L b' x' eps = if tol = 0 then some x' else conjugate n L tol n x' (b' - L x') (b' - L x') := rfl
  unfold cgSolve
  simp only
  rw [eI, eS]
  by_cases h0 : tol = 0
  · rw [if_pos h0]
    have hc : Scalar.eq tol (0 : ℝ) = true := by rw [eq_real, decide_eq_true_eq]; exact h0
    have eL : ∀ s : CgState ℝ, s.conv = true → cgLoop n A tol n s = s := by
      intro s hs
      cases n with
      | zero => rfl
      | succ n => rw [cgLoop, if_pos hs]
    rw [eL _ hc]
    exact ⟨fun _ => ⟨x', rfl, hx⟩, fun h => by rw [hc] at h; cases h⟩
  · rw [if_neg h0]
    have hc : Scalar.eq tol (0 : ℝ) = false := by rw [eq_real, decide_eq_false_iff_not]; exact h0
    exact cgLoop_eq hL tol n _ x' _ _ hc hx hr hr rfl

section
variable {S : Setting D} {t : State ℝ D ω} {c b : Scene D}

theorem laplacian_congr {y z : ℕ → ℝ} (hyz : ∀ i, i < S.n → y i = z i) {i : ℕ} (hi : i < S.n) : S.laplacian c y i = S.laplacian c z i := by
  unfold Setting.laplacian
  rw [hyz i hi]
  congr 1
  apply Finset.sum_congr rfl
  intro j hj
  have hjn : j < S.n := by
    unfold Setting.nearSolid at hj; exact near_lt (Finset.mem_filter.mp hj).1
  rw [hyz j hjn]

theorem operator_eq (h : Tbl S t) (hre : 0 ≤ S.env.re) (hD : D < 5) (ha : Agree S t c) (hb : Buf S t b c) (y z : ℕ → ℝ)
    (hyz : ∀ i, i < S.n → y i = z i) (i : ℕ) (hi : i < S.n) : applyMat S.n (t.ppeC S.cfg).ppe.A y i = S.operator c z i := by
  unfold Setting.operator
  by_cases hf : S.Active i ∧ ¬ S.Surface c.dens i
  · rw [if_pos hf, laplacian_eq h hre hD ha hi (hb.dens i hi hf.1) hf, laplacian_congr hyz hi]
  · have hit : i < t.n := by rw [h.n]; exact hi
    have h1 : t.fixedRow S.cfg i = true := by
      rw [← Bool.not_eq_false]; exact fun hc => hf ((fixed_iff h ha hi).mp hc)
    have hv : ValidSched t.n (serial t.n) := validSched_serial t.n
    have key := applyMat_fixed (cfg := S.cfg) (s := t) hv hv y hit h1
    rw [setPpe_eq _ _ _ _ hv hv, h.n] at key
    rw [if_neg hf, key, hyz i hi]

theorem source_eq (h : Tbl S t) (hre : 0 ≤ S.env.re) (ha : Agree S t c) (hb : Buf S t b c) (i : ℕ) (hi : i < S.n) :
    (t.ppeC S.cfg).ppe.b i = S.source b c i := by
  have hit : i < t.n := by rw [h.n]; exact hi
  have hb1 : (t.ppeC S.cfg).ppe.b i = (t.rhsCompute S.cfg i).1 := if_pos hit
  rw [hb1]
  unfold State.rhsCompute Setting.source
  by_cases hf : S.Active i ∧ ¬ S.Surface c.dens i
  · have h1 := (fixed_iff h ha hi).mpr hf
    rw [if_pos hf, if_neg (by rw [h1]; decide)]
    simp only
    rw [rate_eq h hre ha hi hf.1.2 (hb.dens i hi hf.1), h.env]
    by_cases he : S.cfg.ecs = true
    · rw [if_pos he, hb.ecs i hi hf.1 he]
    · rw [if_neg he]
      unfold Setting.compensation
      rw [if_neg he, add_zero]
  · have h1 : t.fixedRow S.cfg i = true := by
      rw [← Bool.not_eq_false]; exact fun hc => hf ((fixed_iff h ha hi).mp hc)
    rw [if_neg hf, if_pos h1]

theorem pressure_value {P : Params ℝ D ω} {t' : State ℝ D ω} (hP : P.cfg = S.cfg) (h : Tbl S t) (hre : 0 ≤ S.env.re)
    (hD : D < 5) (ha : Agree S t c) (hb : Buf S t b c) (hp : t.pressureC P = .ok t') :
    ∃ p, S.pressure P.eps b c = some p ∧ ∀ i, i < S.n → (t'.ps i).p = p i := by
  unfold Setting.pressure
  rcases pressureC_ok hp with ⟨he, rfl⟩ | ⟨he, s1, hs, rfl⟩
  · have hpr := pressure_eq hP h hre hD ha hb hp
    unfold Setting.IsPressure at hpr
    rw [if_pos (by rw [← hP]; exact he)] at hpr
    rw [if_pos (by rw [← hP]; exact he)]
    exact ⟨_, rfl, hpr⟩
  · rw [if_neg (by rw [← hP, he]; decide)]
    obtain ⟨hs1, hs2⟩ := solvePpe_ok hs
    have hsz : (t.ppeC P.cfg).ppe.size = S.n := h.n
    rw [hsz] at hs1 hs2
    rw [hP] at hs1 hs2
    obtain ⟨z, hz, hzx⟩ := (cgSolve_eq (operator_eq h hre hD ha hb) (source_eq h hre ha hb) (fun i hi => guess_eq h ha hi) P.eps).1 hs2
    rw [hz]
    refine ⟨_, rfl, ?_⟩
    intro i hi
    have hit : i < t.n := by rw [h.n]; exact hi
    simp only
    rw [hs1, hP]
    unfold State.presC
    simp only
    rw [if_pos (show i < (t.ppeC S.cfg).n from hit)]
    simp only
    unfold State.presCompute
    simp only
    rw [show ((t.ppeC S.cfg).ps i) = t.ps i from rfl, hzx i hi]
    by_cases hA : S.Active i
    · rw [if_pos ((active_iff h hi).mpr hA), if_pos hA, Option.getD_some]
      have hsf : State.isSurface S.cfg { t.ppeC S.cfg with ppe := { (t.ppeC S.cfg).ppe with x :=
        (cgSolve S.n (t.ppeC S.cfg).ppe.A (t.ppeC S.cfg).ppe.b (t.ppeC S.cfg).ppe.x P.eps).1 } } (t.ps i).n = true
          ↔ S.Surface c.dens i := by
        rw [← surface_iff h ha hi]; rfl
      by_cases hS : S.Surface c.dens i
      · rw [if_pos hS, if_pos]
        rw [Bool.or_eq_true]; exact Or.inr (hsf.mpr hS)
      · rw [if_neg hS]
        by_cases hy : z i < 0
        · rw [max_eq_right hy.le, if_pos]
          rw [Bool.or_eq_true, lt_real_iff]; exact Or.inl hy
        · rw [max_eq_left (not_lt.mp hy), if_neg]
          rw [Bool.or_eq_true, lt_real_iff]
          rintro (k | k)
          · exact hy k
          · exact hS (hsf.mp k)
    · rw [if_neg (fun hc => hA ((active_iff h hi).mp hc)), if_neg hA]
      exact ha.p i hi

theorem pressure_fails {P : Params ℝ D ω} {t' : State ℝ D ω} {e : Exn} (hP : P.cfg = S.cfg) (h : Tbl S t) (hre : 0 ≤ S.env.re)
    (hD : D < 5) (ha : Agree S t c) (hb : Buf S t b c) (hp : t.pressureC P = .exn e t') : S.pressure P.eps b c = none := by
  obtain ⟨he, hs⟩ := pressureC_exn hp
  obtain ⟨-, -, hs2⟩ := solvePpe_exn hs
  have hsz : (t.ppeC P.cfg).ppe.size = S.n := h.n
  rw [hsz, hP] at hs2
  unfold Setting.pressure
  rw [if_neg (by rw [← hP, he]; decide),
    (cgSolve_eq (operator_eq h hre hD ha hb) (source_eq h hre ha hb) (fun i hi => guess_eq h ha hi) P.eps).2 hs2]
  rfl

/-- `finish` depends only on the scene of the particles that exist. -/
theorem finish_dens (s : Scene D) : (S.finish s).dens = s.dens ∧ (S.finish s).p = s.p := by
  unfold Setting.finish
  simp only
  split <;> exact ⟨rfl, rfl⟩

end

/-- The state after the search, in terms of the reference. -/
theorem step_mid {P : Params ℝ D ω} {env : Env ℝ D} {w : ω} {s0 s s1 : State ℝ D ω} {dts : List ℝ}
    (hD : D = 2 ∨ D = 3) (hnew : State.new? env w = some s0) (hist : Hist P s0 dts s) (hok : s0.grid.ClearOK) (hL : 0 < env.neighborLength)
    (hre : 0 ≤ env.re) (sch : Schedule) (hv : sch.Valid s.n) (dt : ℝ) (h1 : (s.start dt).searchNeighbor (sch 0) = .ok s1) :
    (∀ i, i < s.n → (s1.ps i).ty = (setting P s dt).ty i) ∧ Tbl (setting P s dt) (s1.midC P) ∧
    Agree (setting P s dt) (s1.midC P) ((setting P s dt).predict (scene s)) ∧
    Buf (setting P s dt) (s1.midC P) (scene s) ((setting P s dt).predict (scene s)) ∧
    (P.cfg.ds = true → ∀ j, j < s.n → (setting P s dt).Active j → (s1.midC P).origX j = ((setting P s dt).predict (scene s)).x j) := by
  have hconst := hist_consts hnew hist
  obtain ⟨b0, b1, b2, b3, b4, b5, b6, b7, b8⟩ := hist.built hnew
  obtain ⟨g0, g, nb, k1, k2, k3, -⟩ := searchNeighbor_ok_frame (s := s.start dt) (hv 0) h1
  have hty1 : ∀ i, i < s.n → (s1.ps i).ty = (setting P s dt).ty i := by
    intro i hi
    have e1 : (s1.ps i).ty = if i ∈ List.range s.n ∧ State.leaving { s.start dt with grid := g0 } i = true then PType.disabled
        else (s.ps i).ty := by rw [k3]; exact (marked_ps _ _ g i).2.2.2.2
    unfold setting
    simp only
    by_cases hen : (s.ps i).ty ≠ .disabled
    · have key := search_disabled_iff (s := s.start dt) b1 b2 b3 (by change 0 < s.env.neighborLength; rw [b5]; exact hL) (hv 0) h1 i hi hen
      have hO : (s1.ps i).ty = .disabled ↔ Outside s.env (s.ps i).x := key
      by_cases ho : Outside s.env (s.ps i).x
      · rw [if_pos ⟨hen, ho⟩, hO.mpr ho]
      · rw [if_neg (fun hc => ho hc.2)]
        rw [e1]
        split
        · rename_i hc
          rw [if_pos hc] at e1
          exact absurd (hO.mp e1) ho
        · rfl
    · rw [if_neg (fun hc => hen hc.1), e1]
      have : (s.ps i).ty = .disabled := by
        by_contra hc; exact hen hc
      split
      · exact this.symm
      · rfl
  refine ⟨hty1, ?_⟩
  have T1 := search_tbl hnew hist hok hL sch hv dt h1 hty1
  have hps : ∀ i, (s1.ps i).x = (s.ps i).x ∧ (s1.ps i).u = (s.ps i).u ∧ (s1.ps i).p = (s.ps i).p ∧ (s1.ps i).n = (s.ps i).n := by
    intro i
    obtain ⟨m1, m2, m3, m4, -⟩ := marked_ps ({ s.start dt with grid := g0 } : State ℝ D ω) (List.range (s.start dt).n) g i
    rw [k3]; exact ⟨m1, m2, m3, m4⟩
  have A1 : Agree (setting P s dt) s1 (scene s) :=
    ⟨fun i _ => (hps i).1, fun i _ => (hps i).2.1, fun i _ => (hps i).2.2.1, fun i _ => (hps i).2.2.2⟩
  have hreS : 0 ≤ (setting P s dt).env.re := by
    change 0 ≤ s.env.re; rw [hconst]; exact hre
  have hD5 : D < 5 := by rcases hD with rfl | rfl <;> decide
  exact midC_agree (P := P) rfl T1 hreS hD5 A1 (by intro i; rw [k3]; rfl)

/-- **C42.**  The step is a function: after any history, under any schedule and with all options, a successful `ForwardTime(dt)` leaves exactly
the values of `step` (`Spec/ReferenceStep.lean`) - positions, velocities, pressures and densities of all particles, including the rounds of the
conjugate gradient method. -/
theorem C42_step_is_the_reference_function {P : Params ℝ D ω} {env : Env ℝ D} {w : ω} {s0 s s' : State ℝ D ω} {dts : List ℝ}
    (hD : D = 2 ∨ D = 3) (hnew : State.new? env w = some s0) (hist : Hist P s0 dts s) (hok : s0.grid.ClearOK) (hL : 0 < env.neighborLength)
    (hre : 0 ≤ env.re) (sch : Schedule) (hv : sch.Valid s.n) (dt : ℝ) (h : s.forwardTime P sch dt = .ok s') :
    ∃ a, (setting P s dt).step P.eps (scene s) = some a ∧ ∀ i, i < s.n →
      (s'.ps i).ty = (setting P s dt).ty i ∧ (s'.ps i).x = a.x i ∧ (s'.ps i).u = a.u i ∧ (s'.ps i).p = a.p i ∧ (s'.ps i).n = a.dens i := by
  obtain ⟨s1, h1, h2⟩ := forwardTime_ok hv h
  obtain ⟨s2, h3, h4⟩ := afterSearch_ok h2
  obtain ⟨hty1, T2, A2, B2, O2⟩ := step_mid (P := P) hD hnew hist hok hL hre sch hv dt h1
  have hconst := hist_consts hnew hist
  have hreS : 0 ≤ (setting P s dt).env.re := by
    change 0 ≤ s.env.re; rw [hconst]; exact hre
  have hD5 : D < 5 := by rcases hD with rfl | rfl <;> decide
  obtain ⟨f1, f2, f3, f4, f5, f6, f7, f8, f9, f10, f11⟩ := pressureC_frame h3
  obtain ⟨p, hp, hpv⟩ := pressure_value rfl T2 hreS hD5 A2 B2 h3
  have T3 : Tbl (setting P s dt) s2 := T2.congr f1 f2 f5 (fun i => (f11 i).2.2.2)
  have A3 : Agree (setting P s dt) s2 { (setting P s dt).predict (scene s) with p := p } :=
    ⟨fun i hi => by rw [(f11 i).1]; exact A2.x i hi, fun i hi => by rw [(f11 i).2.1]; exact A2.u i hi, fun i hi => hpv i hi,
      fun i hi => by rw [(f11 i).2.2.1]; exact A2.dens i hi⟩
  have A4 := finish_agree hD T3 hreS A3 (fun i hi hA hs => by rw [f8]; exact B2.dens i hi hA hs)
    (fun hds j hj hA => by rw [f7]; exact O2 hds j hj hA)
  refine ⟨_, by unfold Setting.step; rw [hp]; rfl, ?_⟩
  intro i hi
  refine ⟨?_, ?_, ?_, ?_, ?_⟩
  · rw [h4, dsC_ty, gradC_ty, (f11 i).2.2.2, midC_ty]; exact hty1 i hi
  · rw [h4]; exact A4.x i hi
  · rw [h4]; exact A4.u i hi
  · rw [h4]; exact A4.p i hi
  · rw [h4]; exact A4.dens i hi

/-- The cells of the grid and the particles stored in them. -/
theorem countP_cell {s : State ℝ D ω} (hbl : s.grid.blockLength = s.env.neighborLength) (hor : s.grid.origin = s.env.minX)
    (hL : 0 < s.env.neighborLength) {c : Blk D} (hc : s.grid.inRange c = true) :
    (List.range s.n).countP (s.inBlk c) = (cell s c).card := by
  have key : ∀ i, s.inBlk c i = true ↔ (s.ps i).ty ≠ .disabled ∧ ∀ a,
      s.env.minX a + c a * s.env.neighborLength ≤ (s.ps i).x a ∧ (s.ps i).x a < s.env.minX a + (c a + 1) * s.env.neighborLength := by
    intro i
    have hb : s.grid.block? (s.ps i).x = some c ↔ ∀ a, s.env.minX a + c a * s.env.neighborLength ≤ (s.ps i).x a ∧
        (s.ps i).x a < s.env.minX a + (c a + 1) * s.env.neighborLength := by
      rw [block_real, hbl, hor, Option.some.injEq, funext_iff]
      apply forall_congr'
      intro a
      rw [Int.floor_eq_iff, le_div_iff₀ hL, div_lt_iff₀ hL]
      constructor
      · rintro ⟨h1, h2⟩; exact ⟨by linarith, by linarith⟩
      · rintro ⟨h1, h2⟩; exact ⟨by linarith, by linarith⟩
    unfold State.inBlk State.staying
    rw [Bool.and_eq_true, Bool.and_eq_true, decide_eq_true_eq, decide_eq_true_eq, hb, and_assoc]
    constructor
    · rintro ⟨h1, -, h3⟩; exact ⟨h1, h3⟩
    · rintro ⟨h1, h3⟩; exact ⟨h1, by rw [hb.mpr h3]; exact hc, h3⟩
  unfold cell
  rw [List.countP_eq_length_filter, ← List.toFinset_card_of_nodup (List.nodup_range.filter _)]
  congr 1
  ext i
  simp only [List.mem_toFinset, List.mem_filter, List.mem_range, Finset.mem_filter, Finset.mem_range, key]

/-- The search throws exactly when a cell is crowded; otherwise it succeeds. -/
theorem search_outcome {P : Params ℝ D ω} {env : Env ℝ D} {w : ω} {s0 s : State ℝ D ω} {dts : List ℝ}
    (hnew : State.new? env w = some s0) (hist : Hist P s0 dts s) (hok : s0.grid.ClearOK) (hL : 0 < env.neighborLength)
    (sch : Schedule) (hv : sch.Valid s.n) (dt : ℝ) :
    (Crowded s ∧ ∃ s1, (s.start dt).searchNeighbor (sch 0) = .exn .gridFull s1) ∨
    (¬ Crowded s ∧ ∃ s1, (s.start dt).searchNeighbor (sch 0) = .ok s1) := by
  obtain ⟨b0, b1, b2, b3, b4, b5, b6, b7, b8, -⟩ := hist.built hnew
  obtain ⟨-, h2, -⟩ := hist.frame
  have hLs : 0 < s.env.neighborLength := by rw [b5]; exact hL
  have hin : ∀ c : Blk D, s.grid.inRange c = true ↔
      ∀ a, 0 ≤ c a ∧ c a < ⌈(s.env.maxX a - s.env.minX a) / s.env.neighborLength⌉ + 2 := by
    intro c; unfold Grid.inRange; rw [decide_eq_true_eq, b3]
  have hcell : ∀ c : Blk D, s.grid.inRange c = true →
      (List.range (s.start dt).n).countP ((s.start dt).inBlk c) = (cell s c).card := fun c hc =>
    countP_cell (s := s.start dt) b1 b2 hLs hc
  rcases searchNeighbor_spec (s.start dt) (sch 0) (hv 0) (h2.clearOK.mpr hok) b0 with
    ⟨g, k1, k2, k3⟩ | ⟨j, g, g', k1, k2, k3, k4, k5, k6⟩ | ⟨j, k1, k2, k3, k4⟩
  · right
    refine ⟨?_, _, k3⟩
    rintro ⟨c, hc, hlt⟩
    have hr := (hin c).mpr hc
    have key := count_store (s := s.start dt) (is := List.range (s.start dt).n) (c := c) hr k1
    rw [hcell c hr] at key
    have hcap : (s.start dt).grid.cap = _ := b4
    rw [hcap] at key
    omega
  · left
    refine ⟨?_, _, k6⟩
    obtain ⟨c, hr, hlt⟩ := full_count k1 k2 k4 k5
    refine ⟨c, (hin c).mp hr, ?_⟩
    rw [hcell c hr] at hlt
    have hcap : (s.start dt).grid.cap = _ := b4
    rw [hcap] at hlt
    exact hlt
  · rw [block_real] at k3; cases k3

/-- **C42.**  Complete list of the outcomes of `ForwardTime(dt)` after any history, under any schedule and with all options: "Too many particle in a
block" exactly when a cell of the grid is crowded; otherwise the exception of the solver exactly when the reference has no value, and a normal
return exactly when it has one - which then is the result (`C42_step_is_the_reference_function`). -/
theorem C42_outcome {P : Params ℝ D ω} {env : Env ℝ D} {w : ω} {s0 s : State ℝ D ω} {dts : List ℝ}
    (hD : D = 2 ∨ D = 3) (hnew : State.new? env w = some s0) (hist : Hist P s0 dts s) (hok : s0.grid.ClearOK) (hL : 0 < env.neighborLength)
    (hre : 0 ≤ env.re) (sch : Schedule) (hv : sch.Valid s.n) (dt : ℝ) :
    ((∃ s', s.forwardTime P sch dt = .exn .gridFull s') ↔ Crowded s) ∧
    ((∃ s', s.forwardTime P sch dt = .exn .solver s') ↔ ¬ Crowded s ∧ (setting P s dt).step P.eps (scene s) = none) ∧
    ((∃ s', s.forwardTime P sch dt = .ok s') ↔ ¬ Crowded s ∧ ∃ a, (setting P s dt).step P.eps (scene s) = some a) ∧
    s.forwardTime P sch dt ≠ .ub := by
  have hconst := hist_consts hnew hist
  have hreS : 0 ≤ (setting P s dt).env.re := by
    change 0 ≤ s.env.re; rw [hconst]; exact hre
  have hD5 : D < 5 := by rcases hD with rfl | rfl <;> decide
  have hcases : (Crowded s ∧ ∃ s', s.forwardTime P sch dt = .exn .gridFull s') ∨
      (¬ Crowded s ∧ (setting P s dt).step P.eps (scene s) = none ∧ ∃ s', s.forwardTime P sch dt = .exn .solver s') ∨
      (¬ Crowded s ∧ (∃ a, (setting P s dt).step P.eps (scene s) = some a) ∧ ∃ s', s.forwardTime P sch dt = .ok s') := by
    rcases search_outcome hnew hist hok hL sch hv dt with ⟨hc, s1, h1⟩ | ⟨hc, s1, h1⟩
    · left
      refine ⟨hc, s1, ?_⟩
      rw [forwardTime_eq P sch dt s hv, h1]; rfl
    · right
      have hft : s.forwardTime P sch dt = s1.afterSearch P := by
        rw [forwardTime_eq P sch dt s hv, h1]; rfl
      cases ha : s1.afterSearch P with
      | ub => exact absurd ha afterSearch_ub
      | ok s' =>
        right
        rw [ha] at hft
        obtain ⟨a, h, -⟩ := C42_step_is_the_reference_function hD hnew hist hok hL hre sch hv dt hft
        exact ⟨hc, ⟨a, h⟩, s', hft⟩
      | exn e s' =>
        left
        have hp := afterSearch_exn ha
        obtain ⟨he, -⟩ := pressureC_exn_frame hp
        obtain ⟨-, T2, A2, B2, -⟩ := step_mid (P := P) hD hnew hist hok hL hre sch hv dt h1
        refine ⟨hc, ?_, s', by rw [hft, ha, he]⟩
        unfold Setting.step
        rw [pressure_fails rfl T2 hreS hD5 A2 B2 hp]
        rfl
  rcases hcases with ⟨hc, s', h⟩ | ⟨hc, hn, s', h⟩ | ⟨hc, ⟨a, ha⟩, s', h⟩
  · rw [h]
    refine ⟨⟨fun _ => hc, fun _ => ⟨s', rfl⟩⟩, ⟨?_, fun k => absurd hc k.1⟩, ⟨?_, fun k => absurd hc k.1⟩, by simp⟩
    · rintro ⟨t, ht⟩; cases ht
    · rintro ⟨t, ht⟩; cases ht
  · rw [h]
    refine ⟨⟨?_, fun k => absurd k hc⟩, ⟨fun _ => ⟨hc, hn⟩, fun _ => ⟨s', rfl⟩⟩, ⟨?_, ?_⟩, by simp⟩
    · rintro ⟨t, ht⟩; cases ht
    · rintro ⟨t, ht⟩; cases ht
    · rintro ⟨-, a, ha⟩; rw [hn] at ha; cases ha
  · rw [h]
    refine ⟨⟨?_, fun k => absurd k hc⟩, ⟨?_, ?_⟩, ⟨fun _ => ⟨hc, a, ha⟩, fun _ => ⟨s', rfl⟩⟩, by simp⟩
    · rintro ⟨t, ht⟩; cases ht
    · rintro ⟨t, ht⟩; cases ht
    · rintro ⟨-, hn⟩; rw [ha] at hn; cases hn

/-- The hypotheses of C42, second part: the step of the drop. -/
example : ∃ s' a, dropState.forwardTime dropP (Schedule.serial 4) (1 / 100) = .ok s' ∧
    (setting dropP dropState (1 / 100)).step dropP.eps (scene dropState) = some a ∧ (s'.ps 0).x = a.x 0 ∧ ¬ Crowded dropState := by
  obtain ⟨s', h⟩ := dropState_step (dt := 1 / 100) (by norm_num) (le_refl _)
  have hl : 0 < dropEnv.neighborLength := by rw [dropEnv_vals.2.1]; norm_num
  have hr : 0 ≤ dropEnv.re := by rw [dropEnv_vals.1]; norm_num
  obtain ⟨a, h1, h2⟩ := C42_step_is_the_reference_function (Or.inl rfl) dropNew_eq (dropState_hist dropP) dropNew_ok hl hr _
    (Schedule.serial_valid 4) _ h
  obtain ⟨-, -, h3, -⟩ := C42_outcome (Or.inl rfl) dropNew_eq (dropState_hist dropP) dropNew_ok hl hr _ (Schedule.serial_valid 4) (1 / 100)
  exact ⟨s', a, h, h1, (h2 0 (by decide)).2.1, (h3.mp ⟨s', h⟩).1⟩

end OpenMps
