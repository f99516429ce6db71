import Verif.Lemmas.Finite
import Verif.Props.Reference
import Verif.Props.Lattice

/-! # Property C43: no division by zero, no root of a negative number -/

set_option linter.unusedSectionVars false

namespace OpenMps

open Ref

variable {D : Nat} {ω : Type}

/-- What every computer made by the constructor and changed by calls satisfies. -/
structure Built (env : Env ℝ D) (t : State ℝ D ω) : Prop where
  ub : t.ub = false
  bl : t.grid.blockLength = env.neighborLength
  origin : t.grid.origin = env.minX
  size : t.grid.size = (fun a => ⌈(env.maxX a - env.minX a) / env.neighborLength⌉ + 2)
  clear : t.grid.ClearOK
  consts : t.env = { env with t := t.env.t, dt := t.env.dt }

theorem built_of_hist {P : Params ℝ D ω} {env : Env ℝ D} {w : ω} {s0 t : State ℝ D ω} {dts : List ℝ}
    (hnew : State.new? env w = some s0) (hist : Hist P s0 dts t) (hok : s0.grid.ClearOK) : Built env t := by
  obtain ⟨b0, b1, b2, b3, b4, b5, b6, b7, b8, -⟩ := hist.built hnew
  exact ⟨b0, by rw [b1, b5], by rw [b2, b7], by rw [b3, b5, b7, b8], hist.frame.2.1.clearOK.mpr hok, hist_consts hnew hist⟩

theorem regular_start {cfg : Config} {env : Env ℝ D} (hreg : env.Regular cfg) {e : Env ℝ D} (h : e = { env with t := e.t, dt := e.dt }) :
    e.Regular cfg := by
  rw [h]; exact ⟨hreg.re, hreg.n0, hreg.neighborLength, hreg.rho, hreg.lambda, hreg.l0⟩

/-- The three possible outcomes of a step with finite numbers. -/
theorem step_val {P : Params ℝ D ω} {P' : Params PReal D ω} (hP : P.Alike P') {env : Env ℝ D} {t : State ℝ D ω} (hb : Built env t)
    (hreg : env.Regular P.cfg) (hD : D < 5) (hgc : P.cfg.gc = true → D = 2 ∨ D = 3) (pp : Ppe PReal) (sch : Schedule) (hv : sch.Valid t.n) (dt : ℝ)
    (hdt : dt ≠ 0) (hap : (setting P t dt).Apart (scene t)) :
    (∃ t' pp', t.forwardTime P sch dt = .ok t' ∧ (t.val pp).forwardTime P' sch (.val dt) = .ok (t'.val pp')) ∨
    (∃ s1 pp', P.cfg.explicit = false ∧ (t.start dt).searchNeighbor (sch 0) = .ok s1 ∧ (s1.midC P).SolverFails P ∧ (t.val pp).forwardTime P' sch (.val dt) = .exn .solver ((s1.midC P).val pp')) ∨
    (∃ t', t.forwardTime P sch dt = .exn .gridFull t' ∧ (t.val pp).forwardTime P' sch (.val dt) = .exn .gridFull (t'.val pp)) := by
  have hLs : 0 < t.env.neighborLength := by rw [hb.consts]; exact hreg.neighborLength
  have hbl : t.grid.blockLength = t.env.neighborLength := by rw [hb.bl, hb.consts]
  have hbl0 : (t.start dt).grid.blockLength ≠ 0 := by change t.grid.blockLength ≠ 0; rw [hbl]; exact hLs.ne'
  rw [forwardTime_eq P sch dt t hv, forwardTime_eq P' sch (.val dt) (t.val pp) hv,
    show (t.val pp).start (.val dt) = (t.start dt).val pp from rfl, searchNeighbor_val pp (sch 0) (t.start dt) (hv 0) hbl0]
  cases hs : (t.start dt).searchNeighbor (sch 0) with
  | ub =>
    exfalso
    rcases searchNeighbor_spec (t.start dt) (sch 0) (hv 0) hb.clear hb.ub with ⟨_, _, _, h⟩ | ⟨_, _, _, _, _, _, _, _, h⟩ | ⟨j, _, _, h, _⟩
    · rw [hs] at h; cases h
    · rw [hs] at h; cases h
    · rw [block_real] at h; cases h
  | exn e t1 =>
    obtain ⟨_, _, _, -, -, -, rfl, -⟩ := searchNeighbor_exn_frame hs
    exact Or.inr (Or.inr ⟨t1, rfl, rfl⟩)
  | ok s1 =>
    obtain ⟨g0, g, nb, k1, k2, k3, -⟩ := searchNeighbor_ok_frame (s := t.start dt) (hv 0) hs
    have henv : s1.env = (setting P t dt).env := by rw [k3]; rfl
    have hn1 : s1.n = t.n := by rw [k3]; rfl
    have hty : ∀ i, i < t.n → (s1.ps i).ty = (setting P t dt).ty i := by
      intro i hi
      unfold setting
      simp only
      have hsame : (s1.ps i).ty = (t.ps i).ty ∨ (s1.ps i).ty = .disabled := by
        rw [k3]
        have e : ((State.marked { t.start dt with grid := g0 } (List.range (t.start dt).n) g).ps i).ty = _ := (marked_ps _ _ g i).2.2.2.2
        change ((State.marked { t.start dt with grid := g0 } (List.range (t.start dt).n) g).ps i).ty = _ ∨
          ((State.marked { t.start dt with grid := g0 } (List.range (t.start dt).n) g).ps i).ty = _
        rw [e]
        split
        · exact Or.inr rfl
        · exact Or.inl rfl
      by_cases hen : (t.ps i).ty ≠ .disabled
      · have key := search_disabled_iff (s := t.start dt) hbl (by change t.grid.origin = t.env.minX; rw [hb.origin, hb.consts])
          (by change t.grid.size = fun a => ⌈(t.env.maxX a - t.env.minX a) / t.env.neighborLength⌉ + 2; rw [hb.size, hb.consts])
          hLs (hv 0) hs i hi hen
        have hO : (s1.ps i).ty = .disabled ↔ Outside t.env (t.ps i).x := key
        by_cases ho : Outside t.env (t.ps i).x
        · rw [if_pos ⟨hen, ho⟩, hO.mpr ho]
        · rw [if_neg (fun hc => ho hc.2)]
          exact hsame.resolve_right (fun hc => ho (hO.mp hc))
      · rw [if_neg (fun hc => hen hc.1)]
        push Not at hen
        rcases hsame with h | h
        · exact h
        · rw [h, hen]
    have T1 := search_tbl' (P := P) hb.ub hbl hb.clear hLs sch hv dt hs hty
    have hps : ∀ i, (s1.ps i).x = (t.ps i).x ∧ (s1.ps i).u = (t.ps i).u ∧ (s1.ps i).p = (t.ps i).p ∧ (s1.ps i).n = (t.ps i).n := by
      intro i
      obtain ⟨m1, m2, m3, m4, -⟩ := marked_ps ({ t.start dt with grid := g0 } : State ℝ D ω) (List.range (t.start dt).n) g i
      rw [k3]; exact ⟨m1, m2, m3, m4⟩
    have A1 : Agree (setting P t dt) s1 (scene t) :=
      ⟨fun i _ => (hps i).1, fun i _ => (hps i).2.1, fun i _ => (hps i).2.2.1, fun i _ => (hps i).2.2.2⟩
    have hregT : t.env.Regular P.cfg := regular_start hreg hb.consts
    have hregS : s1.env.Regular P.cfg := by
      rw [henv]; exact ⟨hregT.re, hregT.n0, hregT.neighborLength, hregT.rho, hregT.lambda, hregT.l0⟩
    have hdt1 : s1.env.dt ≠ 0 := by rw [henv]; exact hdt
    obtain ⟨T2, A2, -, -⟩ := midC_agree (P := P) rfl T1 hregT.re.le hD A1 (by intro i; rw [k3]; rfl)
    have hact : ∀ i, i < t.n → (s1.ps i).ty.active = true → (setting P t dt).ty i ≠ .disabled := by
      intro i hi ha hc
      rw [hty i hi, hc] at ha
      exact absurd ha (by decide)
    have hne : ∀ i, i < s1.n → (s1.ps i).ty.active = true → ∀ j ∈ s1.neighbors i, j ≠ i → j < t.n ∧ (setting P t dt).ty j ≠ .disabled ∧
        (scene t).x j ≠ (scene t).x i ∧ ((setting P t dt).predict (scene t)).x j ≠ ((setting P t dt).predict (scene t)).x i := by
      intro i hi ha j hj hji
      rw [hn1] at hi
      obtain ⟨j1, j2, -⟩ := (T1.nbr i hi (hact i hi ha) j).mp hj
      obtain ⟨q1, q2⟩ := hap j i j1 hi hji j2 (hact i hi ha)
      exact ⟨j1, j2, q1, q2⟩
    have hsep : ∀ i, i < s1.n → (s1.ps i).ty.active = true → s1.SepAt i := by
      intro i hi ha j hj hji
      obtain ⟨j1, -, q, -⟩ := hne i hi ha j hj hji
      rw [A1.x j j1, A1.x i (by change i < t.n; rw [← hn1]; exact hi)]; exact q
    have hnbm : (s1.midC P).nbr = s1.nbr := by unfold State.midC; rw [saveX_nbr]; rfl
    have hsep' : ∀ i, i < s1.n → (s1.ps i).ty.active = true → (s1.midC P).SepAt i := by
      intro i hi ha j hj hji
      have hj' : j ∈ s1.neighbors i := by unfold State.neighbors at hj ⊢; rw [hnbm] at hj; exact hj
      obtain ⟨j1, -, -, q⟩ := hne i hi ha j hj' hji
      rw [A2.x j j1, A2.x i (by change i < t.n; rw [← hn1]; exact hi)]; exact q
    have hnb : ∀ i, i < s1.n → (s1.ps i).ty.active = true → ∀ j ∈ s1.neighbors i, j < s1.n ∧ (s1.ps j).ty ≠ .disabled := by
      intro i hi ha j hj
      rw [hn1] at hi
      obtain ⟨j1, j2, -⟩ := (T1.nbr i hi (hact i hi ha) j).mp hj
      exact ⟨by rw [hn1]; exact j1, by rw [hty j j1]; exact j2⟩
    rcases afterSearch_val pp hgc hP s1 hregS hdt1 hsep hsep' hnb with ⟨s', pp', h1, h2⟩ | ⟨pp', h1, hf, h2⟩
    · exact Or.inl ⟨s', pp', h1, h2⟩
    · exact Or.inr (Or.inl ⟨_, pp', h1, rfl, hf, h2⟩)

/-- **C43.**  After any history of calls, if the constants a step divides by are not zero and no two enabled particles coincide (at the beginning of
the step and after its first stage), a step with `dt ≠ 0` computed with checked divisions and roots ends, under every schedule, in one of three ways:
it succeeds with finite numbers only, which are the ones of exact arithmetic; the linear solver fails (implicit mode) and all numbers are still
finite; or a block of the grid is full.  It never divides by zero, never takes the root of a negative number and never converts a non-finite
number to a block index. -/
theorem C43_step_never_divides_by_zero {P : Params ℝ D ω} {P' : Params PReal D ω} (hP : P.Alike P') (hD : D = 2 ∨ D = 3) {env : Env ℝ D} {w : ω}
    {s0 t : State ℝ D ω} {dts : List ℝ} (hnew : State.new? env w = some s0) (hist : Hist P s0 dts t) (hok : s0.grid.ClearOK)
    (hreg : env.Regular P.cfg) (pp : Ppe PReal) (sch : Schedule) (hv : sch.Valid t.n) (dt : ℝ) (hdt : dt ≠ 0)
    (hap : (setting P t dt).Apart (scene t)) :
    (∃ t' pp', t.forwardTime P sch dt = .ok t' ∧ (t.val pp).forwardTime P' sch (.val dt) = .ok (t'.val pp')) ∨
    (∃ (t' : State ℝ D ω) (pp' : Ppe PReal), P.cfg.explicit = false ∧ (t.val pp).forwardTime P' sch (.val dt) = .exn .solver (t'.val pp')) ∨
    (∃ t', t.forwardTime P sch dt = .exn .gridFull t' ∧ (t.val pp).forwardTime P' sch (.val dt) = .exn .gridFull (t'.val pp)) :=
  (step_val hP (built_of_hist hnew hist hok) hreg (by rcases hD with rfl | rfl <;> decide) (fun _ => hD) pp sch hv dt hdt hap).imp_right
    (Or.imp_left (fun ⟨_, pp', h1, _, _, h2⟩ => ⟨_, pp', h1, h2⟩))

/-- **C43**, total correctness of a well-posed step: if moreover every body of fluid has a free surface (the condition of C27), the particles do not
crowd (the condition of C06) and the tolerance is not zero, the step succeeds: no exception, no division by zero, finite numbers. -/
theorem C43_well_posed_step_succeeds {P : Params ℝ D ω} {P' : Params PReal D ω} (hP : P.Alike P') (hD : D = 2 ∨ D = 3) {env : Env ℝ D} {w : ω}
    {s0 s t : State ℝ D ω} {dts : List ℝ} (hnew : State.new? env w = some s0) (hist : Hist P s0 dts s) (hok : s0.grid.ClearOK)
    (hreg : env.Regular P.cfg) (hpos : env.Positive) (heps : P.eps ≠ 0) (pp : Ppe PReal) (sch : Schedule) (hv : sch.Valid s.n) (dt : ℝ) (hdt : dt ≠ 0)
    (hap : (setting P s dt).Apart (scene s)) (h : s.beforePressure P sch dt = .ok t) (hsep : Separated t) (hsurf : EveryBodyHasSurface P.cfg t) :
    ∃ s' pp', s.forwardTime P sch dt = .ok s' ∧ (s.val pp).forwardTime P' sch (.val dt) = .ok (s'.val pp') := by
  obtain ⟨⟨s', hs'⟩, hcg⟩ := C27_pressure_equation_solvable hD hnew hist hok hreg.neighborLength hpos sch hv dt h hsep hsurf
  rcases step_val hP (built_of_hist hnew hist hok) hreg (by rcases hD with rfl | rfl <;> decide) (fun _ => hD) pp sch hv dt hdt hap with
    k | ⟨s1, pp', -, k1, k2, -⟩ | ⟨t', k, -⟩
  · exact k
  · exfalso
    obtain ⟨s1', q1, rfl⟩ := beforePressure_midC hv h
    rw [k1] at q1
    injection q1 with q1
    subst q1
    obtain ⟨y, y', q2, -⟩ := hcg heps
    have hn : (s1.midC P).n = s.n := (beforePressure_facts hnew hist hok hreg.neighborLength hv h).2.1
    rw [setPpe_eq P.cfg (s1.midC P) _ _ (by rw [hn]; exact hv 6) (by rw [hn]; exact hv 7)] at q2
    unfold State.SolverFails at k2
    rw [q2] at k2
    cases k2
  · rw [hs'] at k; cases k

/-! ## The constructors -/

theorem latticeStep_val (l0 re : ℝ) (acc : ℝ × ℝ) (v : Fin D → Int) :
    latticeStep (.val l0) (.val re) (PReal.val acc.1, PReal.val acc.2) v
      = (.val (latticeStep l0 re acc v).1, .val (latticeStep l0 re acc v).2) := by
  unfold latticeStep
  split
  · rfl
  · have e : (fun a => Scalar.ofInt (v a) * PReal.val l0) = vval (fun a => Scalar.ofInt (v a) * l0) := rfl
    simp only
    rw [e, norm2_val, pr_lt', W_val]
    split <;> rfl

theorem latticeFold_val (l0 re : ℝ) (l : List (Fin D → Int)) (acc : ℝ × ℝ) :
    l.foldl (latticeStep (.val l0) (.val re)) (PReal.val acc.1, PReal.val acc.2)
      = (.val (l.foldl (latticeStep l0 re) acc).1, .val (l.foldl (latticeStep l0 re) acc).2) := by
  induction l generalizing acc with
  | nil => rfl
  | cons v l ih =>
    rw [List.foldl_cons, List.foldl_cons, latticeStep_val, ih]

/-- **C43**, the constructors: sensible arguments give an environment of finite numbers in which nothing a step divides by is zero, and a computer of
finite numbers.  (With `g = 0` the code divides by zero, but the infinite quotient is not used.) -/
theorem C43_constructor_is_finite {cfg : Config} {e : EnvArgs ℝ D} (he : e.Sensible cfg) (hD : 0 < D) :
    ∃ env : Env ℝ D, Env.mk? cfg e.val = some env.val ∧ env.Regular cfg ∧ 0 < env.maxDt ∧ 0 < env.maxDx ∧ 0 < env.l0 ∧
      ((cfg.explicit = true ∨ 0 < e.g) → Env.mk? cfg e = some env) := by
  have hceil : Scalar.ceilIdx e.val.reByL0 = some ⌈e.reByL0⌉ := rfl
  have hceil' : Scalar.ceilIdx e.reByL0 = some ⌈e.reByL0⌉ := rfl
  obtain ⟨env0, h0⟩ : ∃ env, Env.mk? cfg e = some env := by
    unfold Env.mk?; rw [hceil']; exact ⟨_, rfl⟩
  obtain ⟨hn, -, hlam⟩ := C28_n0_positive_iff h0 he.l0 hD
  have hn0 := hn.mpr he.reByL0
  have hl := hlam he.reByL0
  have h0' := h0
  unfold Env.mk? at h0'
  rw [hceil'] at h0'
  simp only [Option.some.injEq] at h0'
  have hmd : ∃ m : ℝ, 0 < m ∧
      (if cfg.explicit then stdMin e.val.maxDt ((e.val.courant * e.val.l0) / e.val.c)
          else stdMin e.val.maxDt (Scalar.sqrt (Scalar.ofInt 2 * (e.val.courant * e.val.l0) / e.val.g))) = PReal.val m ∧
      ((cfg.explicit = true ∨ 0 < e.g) → env0.maxDt = m) := by
    have hcl := mul_pos he.courant he.l0
    by_cases hx : cfg.explicit = true
    · rw [if_pos hx]
      have hc := he.c hx
      have e1 : (e.val.courant * e.val.l0) / e.val.c = .val ((e.courant * e.l0) / e.c) := pr_div hc.ne'
      rw [e1, show e.val.maxDt = .val e.maxDt from rfl, stdMin_val]
      refine ⟨_, ?_, rfl, fun _ => ?_⟩
      · rw [stdMin_real]; exact lt_min he.maxDt (div_pos hcl hc)
      · rw [← h0']; simp only; rw [if_pos hx]
    · rw [if_neg hx]
      by_cases hg : e.g = 0
      · refine ⟨e.maxDt, he.maxDt, ?_, ?_⟩
        · have e1 : Scalar.ofInt 2 * (e.val.courant * e.val.l0) / e.val.g = .bad := by
            change (if e.g = 0 then PReal.bad else _) = _
            rw [if_pos hg]
          rw [e1]; rfl
        · rintro (h | h)
          · exact absurd h hx
          · exact absurd hg h.ne'
      · have hgp : 0 < e.g := lt_of_le_of_ne he.g (Ne.symm hg)
        have e1 : Scalar.ofInt 2 * (e.val.courant * e.val.l0) / e.val.g = .val (Scalar.ofInt 2 * (e.courant * e.l0) / e.g) := pr_div hg
        have e2 : 0 < Scalar.ofInt 2 * (e.courant * e.l0) / e.g :=
          div_pos (mul_pos (show (0 : ℝ) < ((2 : Int) : ℝ) by norm_num) hcl) hgp
        rw [e1, pr_sqrt e2.le, show e.val.maxDt = .val e.maxDt from rfl, stdMin_val]
        refine ⟨_, ?_, rfl, fun _ => ?_⟩
        · rw [stdMin_real]; exact lt_min he.maxDt (Real.sqrt_pos.mpr e2)
        · rw [← h0']; simp only; rw [if_neg hx]
  obtain ⟨m, hm, hm1, hm2⟩ := hmd
  refine ⟨{ env0 with maxDt := m }, ?_, ?_, hm, ?_, ?_, ?_⟩
  · unfold Env.mk?
    rw [hceil]
    simp only [Option.some.injEq]
    rw [hm1, show e.val.reByL0 * e.val.l0 = .val (e.reByL0 * e.l0) from rfl, show e.val.l0 = .val e.l0 from rfl,
      show ((0 : PReal), (0 : PReal)) = (PReal.val ((0 : ℝ), (0 : ℝ)).1, PReal.val ((0 : ℝ), (0 : ℝ)).2) from rfl, latticeFold_val]
    have en : env0.n0 = ((latticePts D ⌈e.reByL0⌉).foldl (latticeStep e.l0 (e.reByL0 * e.l0)) (0, 0)).1 := by rw [← h0']
    rw [en] at hn0
    rw [pr_div hn0.ne', ← h0']
    unfold Env.val
    congr 1
    funext a
    change (if a.val + 1 = D then _ else _) = PReal.val (if a.val + 1 = D then _ else _)
    split <;> rfl
  · refine ⟨?_, hn0, ?_, ?_, fun _ => ?_, fun _ => ?_⟩
    · change 0 < env0.re; rw [← h0']; exact mul_pos (by linarith [he.reByL0]) he.l0
    · change 0 < env0.neighborLength
      rw [← h0']
      refine mul_pos (mul_pos (by linarith [he.reByL0]) he.l0) ?_
      change 0 < 1 + e.courant * ((2 : Int) : ℝ)
      have := he.courant
      push_cast
      linarith
    · change env0.rho ≠ 0; rw [← h0']; exact he.rho
    · change env0.lambda ≠ 0
      have : 0 < e.l0 ^ 2 := pow_pos he.l0 2
      linarith [hl.1]
    · change 0 < env0.l0; rw [← h0']; exact he.l0
  · change 0 < env0.maxDx; rw [← h0']; exact mul_pos he.courant he.l0
  · change 0 < env0.l0; rw [← h0']; exact he.l0
  · intro h
    rw [← hm2 h, h0]

/-! ## Histories -/

theorem fastest_val (pp : Ppe PReal) (t : State ℝ D ω) : (t.val pp).fastest = t.fastest := by
  unfold State.fastest
  change (List.range (t.n - 1)).foldl _ 0 = _
  congr 1
  funext best k
  have e : ∀ i, dot ((t.val pp).ps i).u ((t.val pp).ps i).u = .val (dot (t.ps i).u (t.ps i).u) := fun i => dot_val _ _
  rw [e, e, pr_lt']

theorem determineDt_val (pp : Ppe PReal) (t : State ℝ D ω) : (t.val pp).determineDt = t.determineDt.map .val := by
  unfold State.determineDt
  rw [show (t.val pp).n = t.n from rfl]
  split
  · rfl
  · simp only [Option.map]
    refine congrArg some ?_
    rw [fastest_val, show ((t.val pp).ps t.fastest).u = vval (t.ps t.fastest).u from rfl, norm2_val,
      show (0 : PReal) = .val 0 from rfl, pr_eq']
    split
    · rfl
    · rename_i h
      have hne : norm2 (t.ps t.fastest).u ≠ 0 := by
        intro hz; apply h
        rw [hz]
        exact decide_eq_true rfl
      rw [show (t.val pp).env.maxDx / PReal.val (norm2 (t.ps t.fastest).u) = .val (t.env.maxDx / norm2 (t.ps t.fastest).u) from pr_div hne,
        show (t.val pp).env.maxDt = .val t.env.maxDt from rfl, stdMin_val]

theorem val_inj {a b : ℝ} (h : PReal.val a = .val b) : a = b := by injection h

theorem vval_inj {v w : Vec ℝ D} (h : vval v = vval w) : v = w := by
  funext a; exact val_inj (congrFun h a)

theorem envVal_inj {e f : Env ℝ D} (h : e.val = f.val) : e = f := by
  obtain ⟨a1, a2, a3, a4, a5, a6, a7, a8, a9, a10, a11, a12, a13, a14, a15, a16⟩ := e
  obtain ⟨b1, b2, b3, b4, b5, b6, b7, b8, b9, b10, b11, b12, b13, b14, b15, b16⟩ := f
  simp only [Env.val, Env.mk.injEq, PReal.val.injEq] at h
  obtain ⟨rfl, rfl, rfl, rfl, rfl, rfl, rfl, rfl, rfl, h10, rfl, rfl, rfl, h14, h15, rfl⟩ := h
  rw [vval_inj h10, vval_inj h14, vval_inj h15]

theorem Built.step {P' : Params PReal D ω} {env : Env ℝ D} {t t' : State ℝ D ω} (hb : Built env t) {pp pp' : Ppe PReal} {sch : Schedule}
    {dt : ℝ} (hv : sch.Valid t.n) (h : ((t.val pp).forwardTime P' sch (.val dt)).leaves (t'.val pp')) : Built env t' := by
  obtain ⟨-, k2, k3, k4, -⟩ := step_frame (s := t.val pp) hv h
  have he : t'.env = { t.env with dt := dt, t := t.env.t + dt } := envVal_inj k2
  have hclear : SameGeom t.grid t'.grid := ⟨val_inj k3.bl, vval_inj k3.origin, k3.size, k3.cap⟩
  refine ⟨by rw [← hb.ub]; exact k4, by rw [← hb.bl]; exact hclear.bl, by rw [← hb.origin]; exact hclear.origin,
    by rw [← hb.size]; exact hclear.size, hclear.clearOK.mpr hb.clear, ?_⟩
  rw [he, hb.consts]

theorem addParticles_val (pp : Ppe PReal) (t : State ℝ D ω) (src : List (Particle ℝ D)) :
    (t.val pp).addParticles (src.map Particle.val) = (t.addParticles src).val pp := by
  unfold State.addParticles State.val
  simp only [List.length_map]
  congr 1
  funext i
  split
  · rfl
  · simp only [List.getD_eq_getElem?_getD, List.getElem?_map]
    cases src[i - t.n]? <;> rfl

theorem calm_invariant {P : Params ℝ D ω} {P' : Params PReal D ω} (hP : P.Alike P') (hD : D < 5) (hgc : P.cfg.gc = true → D = 2 ∨ D = 3)
    {env : Env ℝ D} (hreg : env.Regular P.cfg) (hdt : 0 < env.maxDt) (hdx : 0 < env.maxDx) {s0 s : State PReal D ω}
    (h0 : ∃ t pp, s0 = State.val pp t ∧ Built env t) (h : CalmHist P P' s0 s) : ∃ t pp, s = State.val pp t ∧ Built env t := by
  have key : ∀ (t : State ℝ D ω) (pp : Ppe PReal) (sch : Schedule) (dt : ℝ) (s' : State PReal D ω), Built env t → sch.Valid t.n → dt ≠ 0 →
      (setting P t dt).Apart (scene t) → ((t.val pp).forwardTime P' sch (.val dt)).leaves s' → ∃ t pp, s' = State.val pp t ∧ Built env t := by
    intro t pp sch dt s' hb hv hd hap hl
    have hex : ∃ t' pp', s' = State.val pp' t' := by
      rcases step_val hP hb hreg hD hgc pp sch hv dt hd hap with ⟨t', pp', -, k⟩ | ⟨s1, pp', -, -, -, k⟩ | ⟨t', -, k⟩
      all_goals
        rw [k] at hl
        rcases hl with hl | ⟨e, hl⟩
        all_goals
          cases hl
          try exact ⟨_, _, rfl⟩
    obtain ⟨t', pp', rfl⟩ := hex
    exact ⟨t', pp', rfl, hb.step hv hl⟩
  induction h with
  | start => exact h0
  | add src _ ih =>
    obtain ⟨t, pp, rfl, hb⟩ := ih
    exact ⟨_, pp, addParticles_val pp t src, ⟨hb.ub, hb.bl, hb.origin, hb.size, hb.clear, hb.consts⟩⟩
  | forward sch dt _ hv hd hap hl ih =>
    obtain ⟨t, pp, rfl, hb⟩ := ih
    exact key t pp sch dt _ hb hv hd (hap t pp rfl) hl
  | auto sch _ hv hap hl ih =>
    obtain ⟨t, pp, rfl, hb⟩ := ih
    by_cases hn : t.n = 0
    · have : (t.val pp).forwardTimeAuto P' sch = .ub := by
        unfold State.forwardTimeAuto State.determineDt
        rw [if_pos (by exact hn)]
      rw [this] at hl
      rcases hl with hl | ⟨e, hl⟩ <;> cases hl
    · obtain ⟨dt, d1, d2, -⟩ := C13_automatic_step_is_largest_cfl_step t (Nat.pos_of_ne_zero hn)
        (by rw [hb.consts]; exact hdt) (by rw [hb.consts]; exact hdx)
      have : (t.val pp).forwardTimeAuto P' sch = (t.val pp).forwardTime P' sch (.val dt) := by
        unfold State.forwardTimeAuto
        rw [determineDt_val, d1]; rfl
      rw [this] at hl
      exact key t pp sch dt _ hb hv d2.ne' (hap t pp dt rfl d1) hl

theorem new_val {env : Env ℝ D} {w : ω} (hL : env.neighborLength ≠ 0) (hl : env.l0 ≠ 0) {s0 : State PReal D ω}
    (hnew : State.new? env.val w = some s0) (hok : s0.grid.ClearOK) : ∃ t pp, s0 = State.val pp t ∧ Built env t := by
  have e : Grid.mk? env.val.neighborLength env.val.l0 env.val.minX env.val.maxX = _ := mk_val hL hl env.minX env.maxX
  unfold State.new? at hnew
  rw [e] at hnew
  cases hr : State.new? env w with
  | none =>
    unfold State.new? at hr
    rw [mkGrid_real] at hr
    cases hr
  | some t =>
    have hr' := hr
    unfold State.new? at hr'
    rw [mkGrid_real] at hnew hr'
    simp only [Option.map, Option.some.injEq] at hnew hr'
    have : s0 = t.val s0.ppe := by
      rw [← hnew, ← hr']; rfl
    refine ⟨t, s0.ppe, this, built_of_hist (P := ⟨Config.default, 0, ⟨fun c _ _ => c, fun _ _ _ _ => 0⟩⟩) hr .start ?_⟩
    rw [this] at hok; exact hok

/-- **C43.**  The whole life of a computer: constructed from sensible finite arguments and driven by calls with finite arguments, as long as at each
step no two enabled particles coincide, it holds finite numbers only (in exact arithmetic with checked divisions and roots). -/
theorem C43_histories_stay_finite {P : Params ℝ D ω} {P' : Params PReal D ω} (hP : P.Alike P') (hD : D = 2 ∨ D = 3) {e : EnvArgs ℝ D}
    (he : e.Sensible P.cfg) {env' : Env PReal D} (henv : Env.mk? P'.cfg e.val = some env') {w : ω} {s0 s : State PReal D ω}
    (hnew : State.new? env' w = some s0) (hok : s0.grid.ClearOK) (hist : CalmHist P P' s0 s) : s.Finite := by
  obtain ⟨env, h1, hreg, hdt, hdx, hl0, -⟩ := C43_constructor_is_finite he (by rcases hD with rfl | rfl <;> decide)
  rw [hP.cfg, h1] at henv
  injection henv with henv
  subst henv
  obtain ⟨t, pp, k, -⟩ := calm_invariant hP (by rcases hD with rfl | rfl <;> decide) (fun _ => hD) hreg hdt hdx
    (new_val hreg.neighborLength.ne' hl0.ne' hnew hok) hist
  exact ⟨t, pp, k⟩

/-! ## A concrete case -/

/-- The parameters of `Props/Examples.lean`, with checked arithmetic. -/
noncomputable def dropPC : Params PReal 2 Unit :=
  { cfg := Config.default, eps := .val (1 / 10 ^ 6), walls := { pre := fun w _ _ => w, pos := fun _ i _ _ => vval (dropX i) } }

theorem dropP_alike : dropP.Alike dropPC := ⟨rfl, rfl, fun _ _ _ => rfl, fun _ _ _ _ => rfl⟩

theorem dropArgs_sensible : latticeArgs.Sensible dropP.cfg := by
  refine ⟨?_, ?_, ?_, ?_, ?_, fun h => ?_, ?_⟩
  · change (0 : ℝ) < 1 / 10; norm_num
  · change (1 : ℝ) < 24 / 10; norm_num
  · change (0 : ℝ) < 1 / 10; norm_num
  · change (0 : ℝ) < 1 / 100; norm_num
  · change (1000 : ℝ) ≠ 0; norm_num
  · exact absurd h (by decide)
  · change (0 : ℝ) ≤ 98 / 10; norm_num

theorem dropEnv_regular : dropEnv.Regular dropP.cfg := by
  obtain ⟨env, -, hreg, -, -, -, h⟩ := C43_constructor_is_finite dropArgs_sensible (by norm_num)
  have := h (Or.inr (by change (0 : ℝ) < 98 / 10; norm_num))
  rw [dropEnv_eq] at this
  injection this with this
  rw [this]; exact hreg

theorem dropState_apart {dt : ℝ} (h0 : 0 ≤ dt) (h1 : dt ≤ 1 / 100) : (setting dropP dropState dt).Apart (scene dropState) := by
  have hd : 0 ≤ 98 / 10 * dt ^ 2 ∧ 98 / 10 * dt ^ 2 ≤ 1 / 1000 := by
    have : dt ^ 2 ≤ (1 / 100) ^ 2 := pow_le_pow_left₀ h0 h1 2
    constructor
    · positivity
    · linarith
  have hx : ∀ i, i < 4 → ((setting dropP dropState dt).predict (scene dropState)).x i 0 = dropX i 0 ∧
      ((setting dropP dropState dt).predict (scene dropState)).x i 1 ≤ dropX i 1 ∧
      dropX i 1 - 1 / 1000 ≤ ((setting dropP dropState dt).predict (scene dropState)).x i 1 := by
    intro i hi
    have hacc : (setting dropP dropState dt).acceleration (scene dropState).x (scene dropState).u i = ![0, -98 / 10] := by
      unfold Setting.acceleration
      rw [show (setting dropP dropState dt).env.nu = 0 from dropEnv_vals.2.2.2.1, zero_smul, zero_add]
      unfold Setting.gravity
      rw [if_neg (by change ¬ (Config.default.centralGravity = true); decide)]
      exact dropEnv_vals.2.2.2.2.1
    unfold Setting.predict
    simp only
    by_cases hf : (setting dropP dropState dt).Fluid i
    · rw [if_pos hf, if_pos hf, hacc, show (scene dropState).u i = 0 from (dropState_x i hi).2.1,
        show (scene dropState).x i = dropX i from (dropState_x i hi).1, show (setting dropP dropState dt).env.dt = dt from rfl]
      refine ⟨?_, ?_, ?_⟩
      · simp
      · simp; nlinarith
      · simp; nlinarith
    · rw [if_neg hf]
      rw [show (setting dropP dropState dt).callback i = dropX i from rfl]
      exact ⟨rfl, le_refl _, by linarith⟩
  intro i j hi hj hij _ _
  have hi : i < 4 := hi
  have hj : j < 4 := hj
  rw [show (scene dropState).x i = dropX i from (dropState_x i hi).1, show (scene dropState).x j = dropX j from (dropState_x j hj).1]
  obtain ⟨a1, a2, a3⟩ := hx i hi
  obtain ⟨b1, b2, b3⟩ := hx j hj
  constructor
  · intro h
    have e0 := congrFun h 0
    have e1 := congrFun h 1
    interval_cases i <;> interval_cases j <;> first
      | exact absurd rfl hij
      | (simp only [dropX] at e0; norm_num at e0; done)
      | (simp only [dropX] at e1; norm_num at e1)
  · intro h
    have e0 := congrFun h 0
    have e1 := congrFun h 1
    rw [a1, b1] at e0
    rw [e1] at a2 a3
    interval_cases i <;> interval_cases j <;> first
      | exact absurd rfl hij
      | (exfalso; simp only [dropX] at e0; norm_num at e0; done)
      | (exfalso; simp only [dropX] at a2 a3 b2 b3; norm_num at a2 a3 b2 b3; linarith)

/-- The hypotheses of the step theorems: the step of the drop succeeds with finite numbers only. -/
example (pp : Ppe PReal) : ∃ s' pp', dropState.forwardTime dropP (Schedule.serial 4) (1 / 100) = .ok s' ∧
    (dropState.val pp).forwardTime dropPC (Schedule.serial 4) (.val (1 / 100)) = .ok (s'.val pp') := by
  obtain ⟨t, hb, hsep, hsurf, -⟩ := dropState_solvable (dt := 1 / 100) (by norm_num) (le_refl _)
  exact C43_well_posed_step_succeeds dropP_alike (Or.inl rfl) dropNew_eq (dropState_hist dropP) dropNew_ok dropEnv_regular dropEnv_positive
    (by change (1 / 10 ^ 6 : ℝ) ≠ 0; norm_num) pp _ (Schedule.serial_valid 4) _ (by norm_num) (dropState_apart (by norm_num) (le_refl _)) hb hsep hsurf

theorem particleVal_inj {p q : Particle ℝ D} (h : p.val = q.val) : p = q := by
  obtain ⟨a1, a2, a3, a4, a5⟩ := p
  obtain ⟨b1, b2, b3, b4, b5⟩ := q
  simp only [Particle.val, Particle.mk.injEq, PReal.val.injEq] at h
  obtain ⟨h1, h2, rfl, rfl, rfl⟩ := h
  rw [vval_inj h1, vval_inj h2]

/-- A history for the theorem on histories: construct, add the particles, make a step. -/
example : ∃ (env' : Env PReal 2) (s0 s : State PReal 2 Unit), Env.mk? dropPC.cfg latticeArgs.val = some env' ∧ State.new? env' () = some s0 ∧
    s0.grid.ClearOK ∧ CalmHist dropP dropPC s0 s ∧ s.n = 4 ∧ s.env.t = .val (1 / 100) := by
  obtain ⟨env, h1, hreg, -, -, hl0, h⟩ := C43_constructor_is_finite dropArgs_sensible (by norm_num)
  have he := h (Or.inr (by change (0 : ℝ) < 98 / 10; norm_num))
  rw [dropEnv_eq] at he
  injection he with he
  subst he
  have hnew : State.new? dropEnv.val () = some (dropNew.val { size := 0, x := fun _ => 0, b := fun _ => 0, rows := fun _ => [], A := fun _ _ => none }) := by
    unfold State.new?
    rw [show Grid.mk? dropEnv.val.neighborLength dropEnv.val.l0 dropEnv.val.minX dropEnv.val.maxX = _ from
      mk_val hreg.neighborLength.ne' hl0.ne' dropEnv.minX dropEnv.maxX, Env.builtGrid_eq]
    rfl
  set pp0 : Ppe PReal := { size := 0, x := fun _ => 0, b := fun _ => 0, rows := fun _ => [], A := fun _ _ => none } with hpp
  obtain ⟨t, hb, hsep, hsurf, -⟩ := dropState_solvable (dt := 1 / 100) (by norm_num) (le_refl _)
  obtain ⟨s', pp', k1, k2⟩ := C43_well_posed_step_succeeds dropP_alike (Or.inl rfl) dropNew_eq (dropState_hist dropP) dropNew_ok dropEnv_regular
    dropEnv_positive (by change (1 / 10 ^ 6 : ℝ) ≠ 0; norm_num) pp0 _ (Schedule.serial_valid 4) _ (by norm_num)
    (dropState_apart (by norm_num) (le_refl _)) hb hsep hsurf
  have hst : (dropNew.val pp0).addParticles (dropParticles.map Particle.val) = dropState.val pp0 := addParticles_val _ _ _
  refine ⟨_, _, s'.val pp', h1, hnew, fun h => absurd h (by decide), ?_, ?_, ?_⟩
  · refine CalmHist.forward (s := dropState.val pp0) (Schedule.serial 4) (1 / 100) (hst ▸ CalmHist.add dropParticles .start)
      (Schedule.serial_valid 4) (by norm_num) ?_ (Or.inl k2)
    intro t pp ht
    have e1 : t.n = dropState.n := (congrArg State.n ht).symm
    have e2 : t.ps = dropState.ps := by
      funext i
      exact particleVal_inj (congrFun (congrArg State.ps ht) i).symm
    have e3 : t.env = dropState.env := envVal_inj (congrArg State.env ht).symm
    have hap := dropState_apart (dt := 1 / 100) (by norm_num) (le_refl _)
    have es : setting dropP t (1 / 100) = setting dropP dropState (1 / 100) := by
      unfold setting; rw [e1, e2, e3]
    have ec : scene t = scene dropState := by unfold scene; rw [e2]
    rw [es, ec]; exact hap
  · exact (step_frame (Schedule.serial_valid 4) (Or.inl k1)).1
  · have := (step_frame (Schedule.serial_valid 4) (Or.inl k1)).2.1
    change PReal.val s'.env.t = _
    rw [this]
    change PReal.val ((0 : ℝ) + 1 / 100) = _
    rw [zero_add]

end OpenMps
