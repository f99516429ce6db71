import Verif.Lemmas.Reference
import Verif.Props.Examples

/-! # Property C42: a time step computes the reference formulas -/

set_option linter.unusedSectionVars false

namespace OpenMps

open Ref

variable {D : Nat} {ω : Type}

section
variable {S : Setting D} {t : State ℝ D ω} {c b : Scene D}

theorem densC_agree (h : Tbl S t) (hre : 0 ≤ S.env.re) (ha : Agree S t c) :
    Tbl S (t.densC S.cfg) ∧ Agree S (t.densC S.cfg) { c with dens := S.reported c.x c.dens } ∧
    (∀ i, i < S.n → S.Active i → S.cfg.spp = true → (t.densC S.cfg).nNoSpp i = S.density c.x i) := by
  have hT : Tbl S (t.densC S.cfg) := h.congr rfl rfl rfl (fun i => densC_ty _ _ i)
  refine ⟨hT, ⟨?_, ?_, ?_, ?_⟩, ?_⟩
  · intro i hi; rw [densC_x]; exact ha.x i hi
  · intro i hi; rw [densC_u]; exact ha.u i hi
  · intro i hi; rw [densC_p]; exact ha.p i hi
  · intro i hi
    have hit : i < t.n := by rw [h.n]; exact hi
    change _ = S.reported c.x c.dens i
    unfold Setting.reported
    by_cases hA : S.Active i
    · rw [if_pos hA, densC_n_real h.ok (by rw [h.env]; exact hre) i hit ((active_iff h hi).mpr hA), density_eq h ha.x hi hA.2, h.env]
    · rw [if_neg hA, ← ha.dens i hi]
      unfold State.densC
      simp only
      rw [if_pos hit]
      have : (t.densCompute S.cfg i).2 = none := by
        unfold State.densCompute
        simp only
        rw [if_neg (fun hc => hA ((active_iff h hi).mp hc))]
      rw [this]
  · intro i hi hA hs
    have hit : i < t.n := by rw [h.n]; exact hi
    rw [densC_nNoSpp_real h.ok (by rw [h.env]; exact hre) i hit ((active_iff h hi).mpr hA) hs, density_eq h ha.x hi hA.2]

theorem midC_agree {P : Params ℝ D ω} (hP : P.cfg = S.cfg) (h : Tbl S t) (hre : 0 ≤ S.env.re) (hD : D < 5) (ha : Agree S t b)
    (hw : ∀ i, P.walls.pos (P.walls.pre t.world S.env.t S.env.dt) i S.env.t S.env.dt = S.callback i) :
    Tbl S (t.midC P) ∧ Agree S (t.midC P) (S.predict b) ∧ Buf S (t.midC P) b (S.predict b) ∧
    (S.cfg.ds = true → ∀ j, j < S.n → S.Active j → (t.midC P).origX j = (S.predict b).x j) := by
  obtain ⟨T1, A1, B1⟩ := densC_agree h hre ha
  set t1 := t.densC S.cfg with ht1
  set t2 := t1.ecsC S.cfg with ht2
  have T2 : Tbl S t2 := T1.congr rfl rfl rfl (fun _ => rfl)
  have A2 : Agree S t2 { b with dens := S.reported b.x b.dens } := ⟨A1.x, A1.u, A1.p, A1.dens⟩
  have E2 : ∀ i, i < S.n → S.Active i → S.cfg.ecs = true → t2.ecs i = S.compensation b.x b.u (S.reported b.x b.dens) i := by
    intro i hi hA he
    have hit : i < t1.n := by rw [T1.n]; exact hi
    have e : t2.ecs i = (t1.ecsCompute S.cfg i).getD (t1.ecs i) := by
      rw [ht2]; unfold State.ecsC; simp only; rw [if_pos he, if_pos hit]
    rw [e]
    unfold State.ecsCompute Setting.compensation
    rw [if_pos ((active_iff T1 hi).mpr hA), if_pos he, rate_eq T1 hre A1 hi hA.2 (B1 i hi hA), A1.dens i hi, T1.env]
    rfl
  set t3 := t2.duC (State.accelCompute S.cfg) with ht3
  have D3 : ∀ i, i < S.n → S.Fluid i → t3.du i = S.acceleration b.x b.u i := by
    intro i hi hf
    have hit : i < t2.n := by rw [T2.n]; exact hi
    have e : t3.du i = (t2.accelCompute S.cfg i).getD (t2.du i) := by
      rw [ht3]; unfold State.duC; simp only; rw [if_pos hit]
    rw [e, acceleration_eq T2 hre hD A2 hi hf (fun hs => B1 i hi ⟨by rw [hf]; decide, by rw [hf]; decide⟩ hs)]
    rfl
  set t5 := (t3.preC P.walls).moveC P.walls with ht5
  have hty5 : ∀ i, (t5.ps i).ty = (t3.ps i).ty := fun i => moveC_ty _ _ _
  have T5 : Tbl S t5 := (T2.congr (t' := t3) rfl rfl rfl (fun _ => rfl)).congr rfl rfl rfl hty5
  have A5 : Agree S t5 { S.predict b with dens := S.reported b.x b.dens } := by
    have hps : ∀ i, i < S.n → t5.ps i = { t2.ps i with x := ((t3.preC P.walls).moveCompute P.walls i).1
                                                       u := ((t3.preC P.walls).moveCompute P.walls i).2 } := by
      intro i hi
      have hit : i < (t3.preC P.walls).n := by
        change i < t2.n; rw [T2.n]; exact hi
      rw [ht5]; unfold State.moveC; simp only; rw [if_pos hit]; rfl
    have hmv : ∀ i, i < S.n → (t3.preC P.walls).moveCompute P.walls i = ((S.predict b).x i, (S.predict b).u i) := by
      intro i hi
      unfold State.moveCompute Setting.predict
      simp only
      have henv : (t3.preC P.walls).env = S.env := T2.env
      have hps : (t3.preC P.walls).ps i = t2.ps i := rfl
      have hwd : (t3.preC P.walls).world = P.walls.pre t.world S.env.t S.env.dt := by
        change P.walls.pre t.world t2.env.t t2.env.dt = _
        rw [T2.env]
      have hdu : (t3.preC P.walls).du i = t3.du i := rfl
      rw [henv, hps, hwd, hdu, A2.x i hi, A2.u i hi, T2.ty i hi, hw i]
      by_cases hf : S.Fluid i
      · rw [if_pos hf, if_pos hf, if_pos (show S.ty i = .incompressibleNewton from hf), D3 i hi hf, vmul_eq_smul, vmul_eq_smul]
      · rw [if_neg hf, if_neg hf, if_neg (show ¬ S.ty i = .incompressibleNewton from hf)]
        refine Prod.ext rfl ?_
        funext a
        change (S.callback i a - b.x i a) / S.env.dt = 1 / S.env.dt * (S.callback i a - b.x i a)
        ring
    refine ⟨?_, ?_, ?_, ?_⟩
    · intro i hi; rw [hps i hi, hmv i hi]
    · intro i hi; rw [hps i hi, hmv i hi]
    · intro i hi; rw [hps i hi]; exact A2.p i hi
    · intro i hi; rw [hps i hi]; exact A2.dens i hi
  obtain ⟨T6, A6, B6⟩ := densC_agree T5 hre A5
  have hmid : t.midC P = (t5.densC S.cfg).saveX S.cfg := by
    unfold State.midC; rw [hP]
  have T7 : Tbl S (t.midC P) := by
    rw [hmid]; exact T6.congr (saveX_n _ _) (saveX_env _ _) (saveX_nbr _ _) (fun i => by rw [saveX_ps])
  have hdens : S.reported (S.predict b).x (S.reported b.x b.dens) = S.reported (S.predict b).x b.dens := by
    funext i
    unfold Setting.reported
    by_cases hA : S.Active i
    · rw [if_pos hA, if_pos hA]
    · rw [if_neg hA, if_neg hA, if_neg hA]
  refine ⟨T7, ⟨?_, ?_, ?_, ?_⟩, ⟨?_, ?_⟩, ?_⟩
  · intro i hi; rw [hmid, saveX_ps]; exact A6.x i hi
  · intro i hi; rw [hmid, saveX_ps]; exact A6.u i hi
  · intro i hi; rw [hmid, saveX_ps]; exact A6.p i hi
  · intro i hi
    rw [hmid, saveX_ps, A6.dens i hi]
    exact congrFun hdens i
  · intro i hi hA hs; rw [hmid, saveX_nNoSpp]; exact B6 i hi hA hs
  · intro i hi hA he; rw [hmid, saveX_ecs]; exact E2 i hi hA he
  · intro hds j hj hA
    rw [hmid]
    unfold State.saveX
    rw [if_pos hds]
    simp only
    rw [if_pos ⟨by rw [T6.n]; exact hj, (active_iff T6 hj).mpr hA⟩]
    exact A6.x j hj

theorem kick_agree (h : Tbl S t) (ha : Agree S t c) (comp : State ℝ D ω → Nat → Option (Vec ℝ D)) (dv : ℕ → Fin D → ℝ)
    (hc : ∀ i, i < S.n → S.Fluid i → comp t i = some (dv i)) :
    Tbl S (t.duC comp).pushC ∧ Agree S (t.duC comp).pushC (S.kick dv c) ∧ (t.duC comp).pushC.origX = t.origX := by
  have hps : ∀ i, i < S.n → (t.duC comp).pushC.ps i = { t.ps i with x := (S.kick dv c).x i, u := (S.kick dv c).u i } := by
    intro i hi
    have hit : i < t.n := by rw [h.n]; exact hi
    unfold State.pushC Setting.kick
    simp only
    have e1 : (t.duC comp).n = t.n := rfl
    have e2 : (t.duC comp).ps i = t.ps i := rfl
    have e3 : (t.duC comp).env = S.env := h.env
    rw [e1, e2, e3]
    by_cases hf : S.Fluid i
    · have hd : (t.duC comp).du i = dv i := by
        unfold State.duC; simp only; rw [if_pos hit, hc i hi hf]; rfl
      rw [if_pos ⟨hit, by rw [h.ty i hi]; exact hf⟩, if_pos hf, if_pos hf, hd, ha.x i hi, ha.u i hi, vmul_eq_smul]
    · rw [if_neg (fun hc => hf (by unfold Setting.Fluid; rw [← h.ty i hi]; exact hc.2)), if_neg hf, if_neg hf, ← ha.x i hi, ← ha.u i hi]
  refine ⟨h.congr rfl rfl rfl (fun i => pushC_ty _ _), ⟨?_, ?_, ?_, ?_⟩, rfl⟩
  · intro i hi; rw [hps i hi]
  · intro i hi; rw [hps i hi]
  · intro i hi; rw [hps i hi]; exact ha.p i hi
  · intro i hi; rw [hps i hi]; exact ha.dens i hi

theorem finish_agree (hD : D = 2 ∨ D = 3) (h : Tbl S t) (hre : 0 ≤ S.env.re) (ha : Agree S t c)
    (hb : ∀ i, i < S.n → S.Active i → S.cfg.spp = true → t.nNoSpp i = S.density c.x i)
    (ho : S.cfg.ds = true → ∀ j, j < S.n → S.Active j → t.origX j = c.x j) :
    Agree S ((t.gradC S.cfg).dsC S.cfg) (S.finish c) := by
  obtain ⟨T1, A1, O1⟩ := kick_agree h ha (State.gradCompute S.cfg) (S.push c)
    (fun i hi hf => push_eq h hre hD ha hi hf (fun hs => hb i hi ⟨by rw [hf]; decide, by rw [hf]; decide⟩ hs))
  unfold State.gradC State.dsC Setting.finish
  simp only
  by_cases hds : S.cfg.ds = true
  · rw [if_pos hds, if_pos hds]
    obtain ⟨-, A2, -⟩ := kick_agree T1 A1 (State.dsCompute S.cfg) (S.stabilise c.x (S.kick (S.push c) c)) (fun i hi hf =>
      stabilise_eq T1 hre A1 hi hf (fun j hj hA => by rw [O1]; exact ho hds j hj hA))
    exact A2
  · rw [if_neg hds, if_neg hds]; exact A1

end

/-- The table of the neighbour search. -/
theorem search_tbl' {P : Params ℝ D ω} {s s1 : State ℝ D ω} (hub : s.ub = false) (hbl : s.grid.blockLength = s.env.neighborLength)
    (hok : s.grid.ClearOK) (hLs : 0 < s.env.neighborLength) (sch : Schedule) (hv : sch.Valid s.n) (dt : ℝ)
    (h1 : (s.start dt).searchNeighbor (sch 0) = .ok s1)
    (hty : ∀ i, i < s.n → (s1.ps i).ty = (setting P s dt).ty i) : Tbl (setting P s dt) s1 := by
  have hN := nbrOK_of_search (s := s.start dt) (hv 0) hok hub hbl hLs h1
  obtain ⟨g0, g, nb, k1, k2, k3, k4, -⟩ := searchNeighbor_ok_frame (s := s.start dt) (hv 0) h1
  refine ⟨by rw [k3]; rfl, by rw [k3]; rfl, hN, hty, ?_⟩
  intro i hi hd j
  have key := (C07_neighbour_lists_exact (s := s.start dt) (hv 0) hok hub hbl hLs h1 i hi (by rw [hty i hi]; exact hd)).2 j
  rw [key]
  have hlen : len ((setting P s dt).start j - (setting P s dt).start i) = dist ((s.start dt).ps i).x ((s.start dt).ps j).x := by
    rw [len_sub, dist_comm']; rfl
  rw [hlen]
  constructor
  · rintro ⟨a1, a2, a3, a4⟩; exact ⟨a1, by rw [← hty j a1]; exact a2, a3, a4⟩
  · rintro ⟨a1, a2, a3, a4⟩; exact ⟨a1, by rw [hty j a1]; exact a2, a3, a4⟩

theorem search_tbl {P : Params ℝ D ω} {env : Env ℝ D} {w : ω} {s0 s s1 : State ℝ D ω} {dts : List ℝ}
    (hnew : State.new? env w = some s0) (hist : Hist P s0 dts s) (hok : s0.grid.ClearOK) (hL : 0 < env.neighborLength)
    (sch : Schedule) (hv : sch.Valid s.n) (dt : ℝ) (h1 : (s.start dt).searchNeighbor (sch 0) = .ok s1)
    (hty : ∀ i, i < s.n → (s1.ps i).ty = (setting P s dt).ty i) : Tbl (setting P s dt) s1 := by
  obtain ⟨b0, b1, b2, b3, b4, b5, -⟩ := hist.built hnew
  obtain ⟨-, h2, -⟩ := hist.frame
  exact search_tbl' b0 b1 (h2.clearOK.mpr hok) (by rw [b5]; exact hL) sch hv dt h1 hty

/-- **C42.**  After any history of calls, under any schedule and with all options, a successful step leaves exactly what the reference formulas
(`Spec/Reference.lean`) prescribe: types, positions, velocities, pressures and densities of all particles.  Exact arithmetic, in which `x/0 = 0`. -/
theorem C42_step_computes_the_reference_formulas {P : Params ℝ D ω} {env : Env ℝ D} {w : ω} {s0 s s' : State ℝ D ω} {dts : List ℝ}
    (hD : D = 2 ∨ D = 3) (hnew : State.new? env w = some s0) (hist : Hist P s0 dts s) (hok : s0.grid.ClearOK) (hL : 0 < env.neighborLength)
    (hre : 0 ≤ env.re) (sch : Schedule) (hv : sch.Valid s.n) (dt : ℝ) (h : s.forwardTime P sch dt = .ok s') :
    (∀ i, i < s.n → (s'.ps i).ty = (setting P s dt).ty i) ∧ (setting P s dt).IsStep P.eps (scene s) (scene s') := by
  have hconst := hist_consts hnew hist
  have hty : ∀ i, i < s.n → (s'.ps i).ty = (setting P s dt).ty i := by
    intro i hi
    unfold setting
    simp only
    by_cases hen : (s.ps i).ty ≠ .disabled
    · have key := C11_disabled_iff_outside hnew hist hL sch hv dt h i hi hen
      have hO : Outside s.env (s.ps i).x ↔ (s'.ps i).ty = .disabled := by
        rw [key]; unfold Outside; rw [hconst]
      by_cases ho : Outside s.env (s.ps i).x
      · rw [if_pos ⟨hen, ho⟩, hO.mp ho]
      · rw [if_neg (fun hc => ho hc.2)]
        rcases (step_frame hv (Or.inl h)).2.2.2.2 i with k | k
        · exact k
        · exact absurd (hO.mpr k.2.2.1) ho
    · rw [if_neg (fun hc => hen hc.1)]
      rcases (step_frame hv (Or.inl h)).2.2.2.2 i with k | k
      · exact k
      · exact absurd k.2.1 hen
  refine ⟨hty, ?_⟩
  obtain ⟨s1, h1, h2⟩ := forwardTime_ok hv h
  obtain ⟨s2, h3, h4⟩ := afterSearch_ok h2
  obtain ⟨f1, f2, f3, f4, f5, f6, f7, f8, f9, f10, f11⟩ := pressureC_frame h3
  have hty1 : ∀ i, i < s.n → (s1.ps i).ty = (setting P s dt).ty i := by
    intro i hi
    rw [← hty i hi, h4, dsC_ty, gradC_ty, (f11 i).2.2.2, midC_ty]
  have T1 := search_tbl hnew hist hok hL sch hv dt h1 hty1
  obtain ⟨g0, g, nb, k1, k2, k3, -⟩ := searchNeighbor_ok_frame (s := s.start dt) (hv 0) h1
  have hps : ∀ i, (s1.ps i).x = (s.ps i).x ∧ (s1.ps i).u = (s.ps i).u ∧ (s1.ps i).p = (s.ps i).p ∧ (s1.ps i).n = (s.ps i).n := by
    intro i
    obtain ⟨m1, m2, m3, m4, -⟩ := marked_ps ({ s.start dt with grid := g0 } : State ℝ D ω) (List.range (s.start dt).n) g i
    rw [k3]; exact ⟨m1, m2, m3, m4⟩
  have A1 : Agree (setting P s dt) s1 (scene s) :=
    ⟨fun i _ => (hps i).1, fun i _ => (hps i).2.1, fun i _ => (hps i).2.2.1, fun i _ => (hps i).2.2.2⟩
  have hreS : 0 ≤ (setting P s dt).env.re := by
    change 0 ≤ s.env.re; rw [hconst]; exact hre
  have hD5 : D < 5 := by rcases hD with rfl | rfl <;> decide
  obtain ⟨T2, A2, B2, O2⟩ := midC_agree (P := P) rfl T1 hreS hD5 A1 (by intro i; rw [k3]; rfl)
  have hpr := pressure_eq rfl T2 hreS hD5 A2 B2 h3
  have T3 : Tbl (setting P s dt) s2 := T2.congr f1 f2 f5 (fun i => (f11 i).2.2.2)
  have A3 : Agree (setting P s dt) s2 { (setting P s dt).predict (scene s) with p := fun i => (s2.ps i).p } :=
    ⟨fun i hi => by rw [(f11 i).1]; exact A2.x i hi, fun i hi => by rw [(f11 i).2.1]; exact A2.u i hi, fun i hi => rfl,
      fun i hi => by rw [(f11 i).2.2.1]; exact A2.dens i hi⟩
  have A4 := finish_agree hD T3 hreS A3 (fun i hi hA hs => by rw [f8]; exact B2.dens i hi hA hs)
    (fun hds j hj hA => by rw [f7]; exact O2 hds j hj hA)
  refine ⟨fun i => (s2.ps i).p, hpr, ?_⟩
  intro i hi
  refine ⟨?_, ?_, ?_, ?_⟩
  · change (s'.ps i).x = _; rw [h4]; exact A4.x i hi
  · change (s'.ps i).u = _; rw [h4]; exact A4.u i hi
  · change (s'.ps i).p = _; rw [h4, dsC_p, gradC_p]
  · change (s'.ps i).n = _; rw [h4, dsC_nn, gradC_nn]; exact A3.dens i hi

/-- **C25.**  The whole step: if, in the implicit mode and with a tolerance different from 0, a step returns, then the pressures it leaves are those of
a solution `y` of the pressure equation (`Spec/Reference.lean`) whose residual is at most `eps` times the residual of the old pressures, cut off at
zero; a step never returns with pressures of an unconverged solution. -/
theorem C25_step_returns_only_converged_pressures {P : Params ℝ D ω} {env : Env ℝ D} {w : ω} {s0 s s' : State ℝ D ω} {dts : List ℝ}
    (hD : D = 2 ∨ D = 3) (hnew : State.new? env w = some s0) (hist : Hist P s0 dts s) (hok : s0.grid.ClearOK) (hL : 0 < env.neighborLength)
    (hre : 0 ≤ env.re) (himp : P.cfg.explicit = false) (heps : P.eps ≠ 0) (sch : Schedule) (hv : sch.Valid s.n) (dt : ℝ)
    (h : s.forwardTime P sch dt = .ok s') :
    let S := setting P s dt
    let b := scene s
    let m := S.predict b
    ∃ y : ℕ → ℝ, √(S.residual b m y) ≤ |P.eps| * √(S.residual b m (S.guess m)) ∧
      ∀ i, i < s.n → S.Active i → (¬ S.Surface m.dens i → (s'.ps i).p = max (y i) 0) ∧ (S.Surface m.dens i → (s'.ps i).p = 0) := by
  obtain ⟨-, p, hp, ha⟩ := C42_step_computes_the_reference_formulas hD hnew hist hok hL hre sch hv dt h
  unfold Setting.IsPressure at hp
  rw [if_neg (by change ¬ P.cfg.explicit = true; rw [himp]; decide)] at hp
  obtain ⟨y, h1, -, h3⟩ := hp
  refine ⟨y, ?_, ?_⟩
  · calc _ ≤ √(P.eps ^ 2 * _) := Real.sqrt_le_sqrt (h1 heps)
      _ = _ := by rw [Real.sqrt_mul (sq_nonneg _), Real.sqrt_sq_eq_abs]
  · intro i hi hA
    have e : (s'.ps i).p = p i := (ha i hi).2.2.1
    rw [e, h3 i hi, if_pos hA]
    exact ⟨fun k => by rw [if_neg k], fun k => by rw [if_pos k]⟩

/-- **C25.**  The solver call of the step in arithmetic where a division by zero gives a non-finite value: if it returns normally, all
coefficients, the right-hand side and the solution are finite and the solution has the required accuracy. -/
theorem C25_solver_call_returns_only_converged {D : Nat} {ω : Type} {s s' : State PReal D ω} {eps : PReal} (hn : 0 < s.ppe.size)
    (heps : eps ≠ .val 0) (hx : ∀ i, i < s.ppe.size → ∃ v, s.ppe.x i = .val v) (h : s.solvePpe eps = .ok s') :
    ∃ (A' : Sparse ℝ) (b' x' y' : Nat → ℝ) (e : ℝ),
      (∀ i, i < s.ppe.size → ∀ j, j < s.ppe.size → s.ppe.A i j = (A' i j).map .val) ∧
      (∀ i, i < s.ppe.size → s.ppe.b i = .val (b' i) ∧ s.ppe.x i = .val (x' i) ∧ s'.ppe.x i = .val (y' i)) ∧
      eps = .val e ∧ √(residualSq s.ppe.size A' b' y') ≤ |e| * √(residualSq s.ppe.size A' b' x') := by
  unfold State.solvePpe at h
  simp only at h
  split at h
  · rename_i hc
    injection h with h
    subst h
    exact C25_normal_return_is_converged hn heps hx (y := (cgSolve s.ppe.size s.ppe.A s.ppe.b s.ppe.x eps).1) (by rw [← hc])
  · cases h

/-- The hypotheses of C42 (default options, implicit mode): a step with interacting particles of which the first two are fluid. -/
example : ∃ s', dropState.forwardTime dropP (Schedule.serial 4) (1 / 100) = .ok s' ∧
    (setting dropP dropState (1 / 100)).IsStep dropP.eps (scene dropState) (scene s') ∧
    1 ∈ (setting dropP dropState (1 / 100)).near (scene dropState).x 0 ∧
    (setting dropP dropState (1 / 100)).Fluid 0 ∧ (setting dropP dropState (1 / 100)).Fluid 1 := by
  obtain ⟨s', h⟩ := dropState_step (dt := 1 / 100) (by norm_num) (le_refl _)
  have key := C42_step_computes_the_reference_formulas (Or.inl rfl) dropNew_eq (dropState_hist dropP) dropNew_ok
    (by rw [dropEnv_vals.2.1]; norm_num) (by rw [dropEnv_vals.1]; norm_num) _ (Schedule.serial_valid 4) _ h
  have hf : ∀ i, i < 2 → (setting dropP dropState (1 / 100)).Fluid i := by
    intro i hi
    have := key.1 i (by change i < 4; omega)
    unfold Setting.Fluid
    rw [← this, dropState_types h i (by omega)]
    interval_cases i <;> rfl
  refine ⟨s', h, key.2, ?_, hf 0 (by norm_num), hf 1 (by norm_num)⟩
  have hl : len (dropX 1 - dropX 0) = 1 / 10 := by
    unfold len
    rw [Fin.sum_univ_two]
    simp only [dropX, Pi.sub_apply]
    norm_num
    rw [show (100 : ℝ) = 10 ^ 2 by norm_num, Real.sqrt_sq (by norm_num)]
    norm_num
  unfold Setting.near
  rw [Finset.mem_filter]
  refine ⟨Finset.mem_range.mpr (by change 1 < 4; norm_num), by norm_num, by rw [hf 1 (by norm_num)]; decide, ?_, ?_⟩
  · change len (dropX 1 - dropX 0) < dropEnv.neighborLength
    rw [hl, dropEnv_vals.2.1]; norm_num
  · change len (dropX 1 - dropX 0) < dropEnv.re
    rw [hl, dropEnv_vals.1]; norm_num

/-- The hypotheses of the step theorem of C25 hold for the drop. -/
example : ∃ (s' : State ℝ 2 Unit) (y : ℕ → ℝ), dropState.forwardTime dropP (Schedule.serial 4) (1 / 100) = .ok s' ∧ (s'.ps 0).p = max (y 0) 0 := by
  obtain ⟨s', h⟩ := dropState_step (dt := 1 / 100) (by norm_num) (le_refl _)
  have key := C42_step_computes_the_reference_formulas (Or.inl rfl) dropNew_eq (dropState_hist dropP) dropNew_ok
    (by rw [dropEnv_vals.2.1]; norm_num) (by rw [dropEnv_vals.1]; norm_num) _ (Schedule.serial_valid 4) _ h
  obtain ⟨y, -, hy⟩ := C25_step_returns_only_converged_pressures (Or.inl rfl) dropNew_eq (dropState_hist dropP) dropNew_ok
    (by rw [dropEnv_vals.2.1]; norm_num) (by rw [dropEnv_vals.1]; norm_num) rfl (by change (1 / 10 ^ 6 : ℝ) ≠ 0; norm_num) _
    (Schedule.serial_valid 4) _ h
  refine ⟨s', y, h, (hy 0 (by change 0 < 4; norm_num) ?_).1 ?_⟩
  · have := key.1 0 (by change 0 < 4; norm_num)
    unfold Setting.Active
    rw [← this, dropState_types h 0 (by norm_num)]
    decide
  · rintro ⟨k, -⟩; cases k

end OpenMps
