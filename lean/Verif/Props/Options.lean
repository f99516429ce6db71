import Verif.Lemmas.Options

/-! # C66: options act only where their condition holds -/

set_option linter.unusedSectionVars false

namespace OpenMps

open Ref

variable {D : Nat} {ω : Type}

/-- The setting with other options. -/
theorem setting_cfg {P P' : Params ℝ D ω} (hw : P'.walls = P.walls) (f : State ℝ D ω) (dt : ℝ) :
    setting P' f dt = { setting P f dt with cfg := P'.cfg } := by
  unfold setting; rw [hw]

theorem predict_alike {S : Setting D} {c' : Config} (h : S.cfg.Alike c') (b : Scene D) :
    ({ S with cfg := c' } : Setting D).predict b = S.predict b := by
  obtain ⟨⟨e, hs, hl, ecs, gc, ds, spp, m, cg⟩, env, n, ty, st, cb⟩ := S
  obtain ⟨e', hs', hl', ecs', gc', ds', spp', m', cg'⟩ := c'
  obtain ⟨h1, h2, h3, h4, h5, h6, -, -, -⟩ := h
  simp only at h1 h2 h3 h4 h5 h6
  subst h1 h2 h3 h4 h5 h6
  rfl

theorem step_alike {S : Setting D} {c' : Config} (h : S.cfg.Alike c') (eps : ℝ) (b : Scene D) :
    ({ S with cfg := c' } : Setting D).step eps b = S.step eps b := by
  have hpred := predict_alike h b
  have hfin : ∀ s : Scene D, ({ S with cfg := c' } : Setting D).finish s = S.finish s := by
    intro s
    obtain ⟨⟨e, hs, hl, ecs, gc, ds, spp, m, cg⟩, env, n, ty, st, cb⟩ := S
    obtain ⟨e', hs', hl', ecs', gc', ds', spp', m', cg'⟩ := c'
    obtain ⟨h1, h2, h3, h4, h5, h6, -, -, h9⟩ := h
    simp only at h1 h2 h3 h4 h5 h6 h9
    subst h1 h2 h3 h4 h5 h6
    cases gc'
    · rfl
    · rw [h9 rfl]; rfl
  have hpr : ∀ s : Scene D, ({ S with cfg := c' } : Setting D).pressure eps b s = S.pressure eps b s := by
    intro s
    obtain ⟨⟨e, hs, hl, ecs, gc, ds, spp, m, cg⟩, env, n, ty, st, cb⟩ := S
    obtain ⟨e', hs', hl', ecs', gc', ds', spp', m', cg'⟩ := c'
    obtain ⟨h1, h2, h3, h4, h5, h6, h7, h8, -⟩ := h
    simp only at h1 h2 h3 h4 h5 h6 h7 h8
    subst h1 h2 h3 h4 h5 h6
    cases e'
    · rw [h7 rfl, h8 rfl]; rfl
    · rfl
  unfold Setting.step
  rw [hpred, hpr]
  congr 1
  funext p
  exact hfin _

/-- The calls after one with the result `r`. -/
noncomputable def Res.goOn (P : Params ℝ D ω) (cs : List (Call ℝ D)) : Res (State ℝ D ω) → Option (List (Option Exn) × State ℝ D ω)
  | .ok s' => (State.performAll P cs s').map (fun r => (none :: r.1, r.2))
  | .exn e s' => (State.performAll P cs s').map (fun r => (some e :: r.1, r.2))
  | .ub => none

theorem performAll_cons (P : Params ℝ D ω) (c : Call ℝ D) (cs : List (Call ℝ D)) (s : State ℝ D ω) :
    s.performAll P (c :: cs) = (s.perform P c).goOn P cs := by
  cases h : s.perform P c <;> simp [State.performAll, Res.goOn, h]

/-- **C66.** Options that are not consulted: two computers with the same parameters, one with HS, ECS (in the explicit mode) or the
midpoint option (without GC) switched differently, do the same whatever is called: the same exceptions and the same visible state. -/
theorem C66_unused_options_do_not_matter {P P' : Params ℝ D ω} {env : Env ℝ D} {w : ω} {s0 : State ℝ D ω}
    (hD : D = 2 ∨ D = 3) (hnew : State.new? env w = some s0) (hok : s0.grid.ClearOK)
    (hL : 0 < env.neighborLength) (hre : 0 ≤ env.re) (hw : P'.walls = P.walls) (heps : P'.eps = P.eps) (hc : P.cfg.Alike P'.cfg)
    (cs : List (Call ℝ D)) (hv : CallsValid 0 cs) :
    (s0.performAll P cs = none ∧ s0.performAll P' cs = none) ∨
    ∃ es s t, s0.performAll P cs = some (es, s) ∧ s0.performAll P' cs = some (es, t) ∧ SameVisible s t := by
  have one : ∀ {s t : State ℝ D ω} {dts dts' : List ℝ}, Hist P s0 dts s → Hist P' s0 dts' t → SameVisible s t → ∀ (sch : Schedule) (dt : ℝ),
      sch.Valid s.n → SameOutcome (s.forwardTime P sch dt) (t.forwardTime P' sch dt) := by
    intro s t dts dts' hs ht hst sch dt hvs
    refine same_outcome hD hnew hs hok hnew ht hok hL hre hw hst sch sch hvs hvs dt (fun f _ _ _ _ => ?_)
    rw [setting_cfg hw f dt, heps, predict_alike (S := setting P f dt) hc, step_alike (S := setting P f dt) hc]
    refine ⟨SceneEq.refl _ _, Iff.rfl, fun a b ha hb => ?_⟩
    rw [ha] at hb; cases hb; exact SceneEq.refl _ _
  have dtEq : ∀ {s t : State ℝ D ω}, SameVisible s t → t.determineDt = s.determineDt := by
    intro s t h
    have hf : 0 < s.n → t.fastest = s.fastest ∧ s.fastest < s.n := by
      intro hn
      unfold State.fastest
      rw [h.n]
      have : ∀ (l : List ℕ) (b : ℕ), b < s.n → (∀ k ∈ l, k + 1 < s.n) →
          l.foldl (fun best k => if Scalar.lt (dot (t.ps best).u (t.ps best).u) (dot (t.ps (k + 1)).u (t.ps (k + 1)).u) then k + 1 else best) b =
          l.foldl (fun best k => if Scalar.lt (dot (s.ps best).u (s.ps best).u) (dot (s.ps (k + 1)).u (s.ps (k + 1)).u) then k + 1 else best) b ∧
          l.foldl (fun best k => if Scalar.lt (dot (s.ps best).u (s.ps best).u) (dot (s.ps (k + 1)).u (s.ps (k + 1)).u) then k + 1 else best) b < s.n := by
        intro l
        induction l with
        | nil => intro b hb _; exact ⟨rfl, hb⟩
        | cons k l ih =>
          intro b hb hl
          have hk := hl k (by simp)
          simp only [List.foldl_cons]
          rw [h.ps hb, h.ps hk]
          refine ih _ ?_ (fun j hj => hl j (by simp [hj]))
          split
          · exact hk
          · exact hb
      exact this _ 0 hn (fun k hk => by simp at hk; omega)
    unfold State.determineDt
    rw [h.n, h.env]
    by_cases hn : s.n = 0
    · rw [if_pos hn, if_pos hn]
    · rw [if_neg hn, if_neg hn, (hf (by omega)).1, h.ps (hf (by omega)).2]
  have all : ∀ (cs : List (Call ℝ D)) (s t : State ℝ D ω) (dts dts' : List ℝ), Hist P s0 dts s → Hist P' s0 dts' t → SameVisible s t →
      CallsValid s.n cs → (s.performAll P cs = none ∧ t.performAll P' cs = none) ∨
      ∃ es a b, s.performAll P cs = some (es, a) ∧ t.performAll P' cs = some (es, b) ∧ SameVisible a b := by
    intro cs
    induction cs with
    | nil => intro s t _ _ _ _ hst _; exact Or.inr ⟨[], s, t, rfl, rfl, hst⟩
    | cons c cs ih =>
      intro s t dts dts' hs ht hst hvc
      obtain ⟨hv1, hv2⟩ := hvc
      have fwd : ∀ (sch : Schedule) (dt : ℝ) (hvs : sch.Valid s.n) (_ : CallsValid s.n cs),
          ∀ r r', r = s.forwardTime P sch dt → r' = t.forwardTime P' sch dt →
          (r.goOn P cs = none ∧ r'.goOn P' cs = none) ∨ ∃ es a b, r.goOn P cs = some (es, a) ∧ r'.goOn P' cs = some (es, b) ∧ SameVisible a b := by
        intro sch dt hvs hcs r r' hr hr'
        have ho := one hs ht hst sch dt hvs
        rw [← hr, ← hr'] at ho
        have hn : t.n = s.n := hst.n
        cases ho with
        | ub => exact Or.inl ⟨rfl, rfl⟩
        | @ok a b hab =>
          have n1 := (step_frame hvs (Or.inl hr.symm)).1
          rcases ih a b _ _ (.forward sch dt hs hvs (Or.inl hr.symm)) (.forward sch dt ht (by rw [hn]; exact hvs) (Or.inl hr'.symm)) hab
            (by rw [n1]; exact hcs) with ⟨q1, q2⟩ | ⟨es, x, y, q1, q2, q3⟩
          · left; simp only [Res.goOn, q1, q2]; exact ⟨rfl, rfl⟩
          · right; simp only [Res.goOn, q1, q2]; exact ⟨_, _, _, rfl, rfl, q3⟩
        | @exn e a b hab =>
          have n1 := (step_frame hvs (Or.inr ⟨e, hr.symm⟩)).1
          rcases ih a b _ _ (.forward sch dt hs hvs (Or.inr ⟨e, hr.symm⟩)) (.forward sch dt ht (by rw [hn]; exact hvs) (Or.inr ⟨e, hr'.symm⟩)) hab
            (by rw [n1]; exact hcs) with ⟨q1, q2⟩ | ⟨es, x, y, q1, q2, q3⟩
          · left; simp only [Res.goOn, q1, q2]; exact ⟨rfl, rfl⟩
          · right; simp only [Res.goOn, q1, q2]; exact ⟨_, _, _, rfl, rfl, q3⟩
      cases c with
      | add src =>
        have hab : SameVisible (s.addParticles src) (t.addParticles src) :=
          ⟨by rw [C09_add_appends, C09_add_appends, hst.particles], hst.env, hst.world⟩
        rcases ih _ _ _ _ (.add src hs) (.add src ht) hab hv2 with ⟨q1, q2⟩ | ⟨es, x, y, q1, q2, q3⟩
        · left
          unfold State.performAll State.perform
          simp only [q1, q2]; exact ⟨rfl, rfl⟩
        · right
          unfold State.performAll State.perform
          simp only [q1, q2]; exact ⟨_, _, _, rfl, rfl, q3⟩
      | forward sch dt =>
        rw [performAll_cons, performAll_cons]
        exact fwd sch dt hv1 hv2 _ _ rfl rfl
      | auto sch =>
        have hd := dtEq hst
        rw [performAll_cons, performAll_cons]
        unfold State.perform State.forwardTimeAuto
        rw [hd]
        cases hdt : s.determineDt with
        | none => exact Or.inl ⟨rfl, rfl⟩
        | some dt => exact fwd sch dt hv1 hv2 _ _ rfl rfl
  have hn0 : s0.n = 0 := by
    unfold State.new? at hnew
    split at hnew
    · cases hnew
    · cases hnew; rfl
  exact all cs s0 s0 [] [] .start .start (SameVisible.refl _) (by rw [hn0]; exact hv)

/-! ## SPP in the explicit mode -/

/-- The number density is the same, or it was raised to `n0`. -/
def Floored (n0 a b : ℝ) : Prop := b = a ∨ b = max a n0

theorem ok_world {P : Params ℝ D ω} {s r : State ℝ D ω} {sch : Schedule} {dt : ℝ} (hv : sch.Valid s.n) (h : s.forwardTime P sch dt = .ok r) :
    r.world = P.walls.pre s.world (s.env.t + dt) dt := by
  obtain ⟨s1, h1, h2⟩ := forwardTime_ok hv h
  obtain ⟨g0, g, nb, -, -, k3, -⟩ := searchNeighbor_ok_frame (s := s.start dt) (hv 0) h1
  obtain ⟨s2, r1, r2⟩ := afterSearch_ok h2
  rw [r2, dsC_world]
  change s2.world = _
  rw [(pressureC_frame r1).2.2.1, midC_world, k3]
  rfl

/-- The setting of a scene in which only the densities and the options differ. -/
theorem setting_densities {P P' : Params ℝ D ω} (hw : P'.walls = P.walls) {f g : State ℝ D ω} (hn : g.n = f.n) (he : g.env = f.env)
    (hwo : g.world = f.world) (hp : ∀ i, (g.ps i).ty = (f.ps i).ty ∧ (g.ps i).x = (f.ps i).x) (dt : ℝ) :
    setting P' g dt = { setting P f dt with cfg := P'.cfg } := by
  unfold setting
  rw [hw, hn, he, hwo]
  congr 1
  · funext i; rw [(hp i).1, (hp i).2]
  · funext i; exact (hp i).2

theorem eos_floored {S : Setting D} (hn0 : 0 < S.env.n0) (hrho : 0 ≤ S.env.rho) {a b : ℕ → ℝ} {i : ℕ} (h : Floored S.env.n0 (a i) (b i)) :
    S.eos b i = S.eos a i := by
  unfold Setting.eos
  rcases h with h | h
  · rw [h]
  · rw [h]
    by_cases hle : a i ≤ S.env.n0
    · rw [max_eq_right hle]
      have e1 : S.env.rho * S.env.n0 / S.env.n0 - S.env.rho = 0 := by field_simp; ring
      have e2 : S.env.rho * a i / S.env.n0 - S.env.rho ≤ 0 := by
        have : S.env.rho * a i / S.env.n0 ≤ S.env.rho := by
          rw [div_le_iff₀ hn0]; exact mul_le_mul_of_nonneg_left hle hrho
        linarith
      rw [e1, max_eq_right e2, max_self]
    · rw [max_eq_left (not_le.mp hle).le]

/-- The reference step in the explicit mode without GC, with and without SPP. -/
theorem step_spp_explicit {S : Setting D} (hex : S.cfg.explicit = true) (hgc : S.cfg.gc = false) (hspp : S.cfg.spp = false)
    (hn0 : 0 < S.env.n0) (hrho : 0 ≤ S.env.rho) {b b' : Scene D} (hx : b'.x = b.x) (hu : b'.u = b.u)
    (hd : ∀ i, Floored S.env.n0 (b.dens i) (b'.dens i)) (eps : ℝ) :
    ∃ a a', S.step eps b = some a ∧ ({ S with cfg := { S.cfg with spp := true } } : Setting D).step eps b' = some a' ∧
      a'.x = a.x ∧ a'.u = a.u ∧ a'.p = a.p ∧ ∀ i, Floored S.env.n0 (a.dens i) (a'.dens i) := by
  classical
  set S' : Setting D := { S with cfg := { S.cfg with spp := true } } with hS'
  set c := S.predict b with hc
  set c' := S'.predict b' with hc'
  have cx : c'.x = c.x := by
    rw [hc, hc']
    unfold Setting.predict
    simp only [hx, hu]
    rfl
  have cu : c'.u = c.u := by
    rw [hc, hc']
    unfold Setting.predict
    simp only [hx, hu]
    rfl
  have cd : ∀ i, Floored S.env.n0 (c.dens i) (c'.dens i) := by
    intro i
    have e1 : c.dens i = S.reported c.x b.dens i := rfl
    have e2 : c'.dens i = S'.reported c'.x b'.dens i := rfl
    rw [e1, e2, cx]
    unfold Setting.reported
    by_cases hA : S.Active i
    · have hA' : S'.Active i := hA
      rw [if_pos hA, if_pos hA', if_neg (by rw [hspp]; decide), if_pos rfl]
      exact Or.inr rfl
    · have hA' : ¬ S'.Active i := hA
      rw [if_neg hA, if_neg hA']
      exact hd i
  have pr : S.pressure eps b c = some (S.eos c.dens) := by unfold Setting.pressure; rw [if_pos hex]
  have pr' : S'.pressure eps b' c' = some (S.eos c.dens) := by
    unfold Setting.pressure
    rw [if_pos (show S'.cfg.explicit = true from hex)]
    congr 1
    funext i
    exact eos_floored (S := S') hn0 hrho (cd i)
  set q := S.eos c.dens with hq
  set m : Scene D := { c with p := q } with hm
  set m' : Scene D := { c' with p := q } with hm'
  have mx : m'.x = m.x := cx
  have mu : m'.u = m.u := cu
  have pushEq : ∀ i, S.Fluid i → S'.push m' i = S.push m i := by
    intro i hi
    have hA : S.Active i := ⟨by rw [show S.ty i = _ from hi]; decide, by rw [show S.ty i = _ from hi]; decide⟩
    unfold Setting.push
    rw [if_neg (by rw [hgc]; decide), if_neg (show ¬ S'.cfg.gc = true by change ¬ S.cfg.gc = true; rw [hgc]; decide)]
    have hf : S'.force m' i = S.force m i := by
      unfold Setting.force
      have h1 : ¬ S.HasVirtual m.x i := fun h => by have h1 := h.1; rw [hspp] at h1; exact absurd h1 (by decide)
      rw [if_neg h1]
      rw [mx]
      have mp : m'.p = m.p := rfl
      rw [mp]
      congr 1
      split
      · rename_i hv
        have hlt : S.density m.x i < S.env.n0 := hv.2.1
        have hz : m.p i = 0 := by
          change S.eos c.dens i = 0
          have e1 : c.dens i = S.density c.x i := by
            have : c.dens i = S.reported c.x b.dens i := rfl
            rw [this]; unfold Setting.reported
            rw [if_pos hA, if_neg (by rw [hspp]; decide)]
          unfold Setting.eos
          rw [e1]
          have : S.env.rho * S.density c.x i / S.env.n0 ≤ S.env.rho := by
            rw [div_le_iff₀ hn0]; exact mul_le_mul_of_nonneg_left hlt.le hrho
          rw [max_eq_right (by linarith), mul_zero]
        rw [hz]; simp
      · rfl
    rw [hf]
  have k1 : (S'.kick (S'.push m') m').x = (S.kick (S.push m) m).x ∧ (S'.kick (S'.push m') m').u = (S.kick (S.push m) m).u := by
    constructor
    · funext i
      change (if S.Fluid i then m'.x i + S.env.dt • S'.push m' i else m'.x i) = if S.Fluid i then m.x i + S.env.dt • S.push m i else m.x i
      rw [mx]
      split
      · rename_i hi; rw [pushEq i hi]
      · rfl
    · funext i
      change (if S.Fluid i then m'.u i + S'.push m' i else m'.u i) = if S.Fluid i then m.u i + S.push m i else m.u i
      rw [mu]
      split
      · rename_i hi; rw [pushEq i hi]
      · rfl
  refine ⟨S.finish m, S'.finish m', by unfold Setting.step; rw [← hc, pr]; rfl, by unfold Setting.step; rw [← hc', pr']; rfl, ?_⟩
  unfold Setting.finish
  by_cases hds : S.cfg.ds = true
  · rw [if_pos hds, if_pos (show S'.cfg.ds = true from hds)]
    have st : S'.stabilise m'.x (S'.kick (S'.push m') m') = S.stabilise m.x (S.kick (S.push m) m) := by
      funext i
      unfold Setting.stabilise
      rw [k1.1, mx]
      rfl
    refine ⟨?_, ?_, rfl, cd⟩
    · funext i
      change (if S.Fluid i then (S'.kick (S'.push m') m').x i + S.env.dt • S'.stabilise m'.x (S'.kick (S'.push m') m') i else (S'.kick (S'.push m') m').x i) =
        if S.Fluid i then (S.kick (S.push m) m).x i + S.env.dt • S.stabilise m.x (S.kick (S.push m) m) i else (S.kick (S.push m) m).x i
      rw [st, k1.1]
    · funext i
      change (if S.Fluid i then (S'.kick (S'.push m') m').u i + S'.stabilise m'.x (S'.kick (S'.push m') m') i else (S'.kick (S'.push m') m').u i) =
        if S.Fluid i then (S.kick (S.push m) m).u i + S.stabilise m.x (S.kick (S.push m) m) i else (S.kick (S.push m) m).u i
      rw [st, k1.2]
  · rw [if_neg hds, if_neg (show ¬ S'.cfg.ds = true from hds)]
    exact ⟨k1.1, k1.2, rfl, cd⟩

/-- The two computers of the next theorem. -/
structure SppPair (P P' : Params ℝ D ω) (n0 : ℝ) (s t : State ℝ D ω) : Prop where
  motion : SameMotion s t
  dens : ∀ i, i < s.n → Floored n0 (s.ps i).n (t.ps i).n

theorem crowded_motion {s t : State ℝ D ω} (h : SameMotion s t) : Crowded t ↔ Crowded s := by
  have hc : ∀ c, cell t c = cell s c := by
    intro c
    unfold cell
    rw [h.n, h.env]
    apply Finset.filter_congr
    intro i hi
    have hi := Finset.mem_range.mp hi
    rw [h.ty i hi, h.x i hi]
  unfold Crowded
  simp only [hc, h.env]

theorem spp_pair_step {P P' : Params ℝ D ω} {env : Env ℝ D} {w : ω} {s0 s t : State ℝ D ω} {dts dts' : List ℝ}
    (hD : D = 2 ∨ D = 3) (hnew : State.new? env w = some s0) (hist : Hist P s0 dts s) (hok : s0.grid.ClearOK)
    (hist' : Hist P' s0 dts' t) (hL : 0 < env.neighborLength) (hre : 0 ≤ env.re) (hn0 : 0 < env.n0) (hrho : 0 ≤ env.rho)
    (hex : P.cfg.explicit = true) (hgc : P.cfg.gc = false) (hspp : P.cfg.spp = false) (hcfg : P'.cfg = { P.cfg with spp := true })
    (hw : P'.walls = P.walls) (h : SppPair P P' env.n0 s t) (sch sch' : Schedule) (hv : sch.Valid s.n) (hv' : sch'.Valid t.n) (dt : ℝ) :
    ((∃ s', s.forwardTime P sch dt = .ok s') ↔ ∃ t', t.forwardTime P' sch' dt = .ok t') ∧
    ∀ s' t', s.forwardTime P sch dt = .ok s' → t.forwardTime P' sch' dt = .ok t' → SppPair P P' env.n0 s' t' := by
  have hconst := hist_consts hnew hist
  have hconst' := hist_consts hnew hist'
  have hex' : P'.cfg.explicit = true := by rw [hcfg]; exact hex
  have anyStep : ∀ (Q : Params ℝ D ω) (r : State ℝ D ω), Q.cfg.explicit = true → ∃ a, (setting Q r dt).step Q.eps (scene r) = some a := by
    intro Q r hQ
    unfold Setting.step Setting.pressure
    rw [if_pos (show (setting Q r dt).cfg.explicit = true from hQ)]
    exact ⟨_, rfl⟩
  constructor
  · obtain ⟨-, -, o, -⟩ := C42_outcome hD hnew hist hok hL hre sch hv dt
    obtain ⟨-, -, o', -⟩ := C42_outcome hD hnew hist' hok hL hre sch' hv' dt
    rw [o, o', crowded_motion h.motion]
    exact ⟨fun k => ⟨k.1, anyStep _ _ hex'⟩, fun k => ⟨k.1, anyStep _ _ hex⟩⟩
  intro s' t' hs' ht'
  obtain ⟨fr, f1, f2, f3, f4, f5, f6⟩ := fresh_like hnew hist hok
  obtain ⟨fr', g1, g2, g3, g4, g5, g6⟩ := fresh_like hnew hist' hok
  set f := fr.addParticles s.particles with hf
  set g := fr'.addParticles t.particles with hg
  have hvf : sch.Valid f.n := by rw [f4.n]; exact hv
  have hvg : sch'.Valid g.n := by rw [g4.n]; exact hv'
  have hLs : 0 < s.env.neighborLength := by rw [hconst]; exact hL
  have hres : 0 ≤ s.env.re := by rw [hconst]; exact hre
  have hLt : 0 < t.env.neighborLength := by rw [hconst']; exact hL
  have hret : 0 ≤ t.env.re := by rw [hconst']; exact hre
  have hgf : g.n = f.n := by rw [g4.n, f4.n, h.motion.n]
  have hpart : ∀ i, f.n ≤ i → g.ps i = f.ps i := by
    intro i hi
    rw [hf, hg, (fresh_ps f1 _ i).1, (fresh_ps g1 _ i).1]
    have l1 : s.particles.length ≤ i := by rw [hf, (fresh_ps f1 s.particles i).2] at hi; exact hi
    have l2 : t.particles.length ≤ i := by
      have : t.particles.length = s.particles.length := by simp [State.particles, h.motion.n]
      omega
    simp [List.getD, List.getElem?_eq_none l1, List.getElem?_eq_none l2]
  have hall : ∀ i, (g.ps i).ty = (f.ps i).ty ∧ (g.ps i).x = (f.ps i).x ∧ (g.ps i).u = (f.ps i).u ∧ Floored env.n0 (f.ps i).n (g.ps i).n := by
    intro i
    by_cases hi : i < f.n
    · have hi' : i < s.n := by rw [f4.n] at hi; exact hi
      rw [f4.ps hi', g4.ps (by rw [h.motion.n]; exact hi')]
      exact ⟨h.motion.ty i hi', h.motion.x i hi', h.motion.u i hi', h.dens i hi'⟩
    · rw [hpart i (not_lt.mp hi)]; exact ⟨rfl, rfl, rfl, Or.inl rfl⟩
  have o1 := f6 sch sch dt hv hv
  have o2 := g6 sch' sch' dt hv' hv'
  rw [hs'] at o1
  rw [ht'] at o2
  obtain ⟨a', ha', va⟩ : ∃ a', f.forwardTime P sch dt = .ok a' ∧ SameVisible s' a' := by
    cases hr : f.forwardTime P sch dt with
    | ok a' => rw [hr] at o1; cases o1 with | ok k => exact ⟨a', rfl, k⟩
    | exn e a' => rw [hr] at o1; cases o1
    | ub => rw [hr] at o1; cases o1
  obtain ⟨b', hb', vb⟩ : ∃ b', g.forwardTime P' sch' dt = .ok b' ∧ SameVisible t' b' := by
    cases hr : g.forwardTime P' sch' dt with
    | ok a' => rw [hr] at o2; cases o2 with | ok k => exact ⟨a', rfl, k⟩
    | exn e a' => rw [hr] at o2; cases o2
    | ub => rw [hr] at o2; cases o2
  obtain ⟨a, ea, ra⟩ := C42_step_is_the_reference_function hD f1 (f5 P) f3 hLs hres sch hvf dt ha'
  obtain ⟨b, eb, rb⟩ := C42_step_is_the_reference_function hD g1 (g5 P') g3 hLt hret sch' hvg dt hb'
  have hset := setting_densities (P := P) (P' := P') hw hgf (by rw [f4.env, g4.env, h.motion.env]) (by rw [f4.world, g4.world, h.motion.world])
    (fun i => ⟨(hall i).1, (hall i).2.1⟩) dt
  have hn0f : (setting P f dt).env.n0 = env.n0 := by change f.env.n0 = _; rw [f4.env, hconst]
  have hrhof : (setting P f dt).env.rho = env.rho := by change f.env.rho = _; rw [f4.env, hconst]
  obtain ⟨a2, b2, q1, q2, q3, q4, q5, q6⟩ := step_spp_explicit (S := setting P f dt) hex hgc hspp (by rw [hn0f]; exact hn0) (by rw [hrhof]; exact hrho)
    (b := scene f) (b' := scene g) (by funext i; exact (hall i).2.1) (by funext i; exact (hall i).2.2.1) (fun i => by rw [hn0f]; exact (hall i).2.2.2) P.eps
  rw [q1] at ea; cases ea
  have hq2 : (setting P' g dt).step P'.eps (scene g) = some b2 := by
    rw [hset, hcfg]
    have indep : ∀ (S : Setting D) (e e' : ℝ) (c : Scene D), S.cfg.explicit = true → S.step e c = S.step e' c := by
      intro S e e' c hS
      unfold Setting.step Setting.pressure
      rw [if_pos hS, if_pos hS]
    rw [indep _ P'.eps P.eps _ hex]
    exact q2
  rw [hq2] at eb; cases eb
  obtain ⟨n1, e1, -⟩ := step_frame hv (Or.inl hs')
  obtain ⟨n2, e2, -⟩ := step_frame hv' (Or.inl ht')
  have key : ∀ i, i < s'.n → ((t'.ps i).ty = (s'.ps i).ty ∧ (t'.ps i).x = (s'.ps i).x ∧ (t'.ps i).u = (s'.ps i).u ∧ (t'.ps i).p = (s'.ps i).p) ∧
      Floored env.n0 (s'.ps i).n (t'.ps i).n := by
    intro i hi
    have hi1 : i < f.n := by rw [f4.n, ← n1]; exact hi
    have hi2 : i < g.n := by rw [hgf]; exact hi1
    have hi3 : i < t'.n := by rw [n2, h.motion.n, ← n1]; exact hi
    rw [← va.ps hi, ← vb.ps hi3]
    obtain ⟨c1, c2, c3, c4, c5⟩ := ra i hi1
    obtain ⟨d1, d2, d3, d4, d5⟩ := rb i hi2
    rw [c1, c2, c3, c4, c5, d1, d2, d3, d4, d5, q3, q4, q5]
    refine ⟨⟨by rw [hset], rfl, rfl, rfl⟩, ?_⟩
    rw [← hn0f]; exact q6 i
  refine ⟨⟨by rw [n1, n2, h.motion.n], by rw [e1, e2, h.motion.env], ?_, fun i hi => (key i hi).1.1, fun i hi => (key i hi).1.2.1,
    fun i hi => (key i hi).1.2.2.1, fun i hi => (key i hi).1.2.2.2⟩, fun i hi => (key i hi).2⟩
  rw [ok_world hv hs', ok_world hv' ht', hw, h.motion.world, h.motion.env]

/-- **C66.** In the explicit mode without GC, switching on SPP changes nothing but the reported number densities, which are raised to `n0` where they
are below: of two runs with the same steps either both succeed or none, and positions, velocities, pressures and types are the same. -/
theorem C66_spp_only_floors_the_density_in_explicit_mode {P P' : Params ℝ D ω} {env : Env ℝ D} {w : ω} {s0 s : State ℝ D ω}
    (hD : D = 2 ∨ D = 3) (hnew : State.new? env w = some s0) (hok : s0.grid.ClearOK) (src : List (Particle ℝ D)) (hs : s = s0.addParticles src)
    (hL : 0 < env.neighborLength) (hre : 0 ≤ env.re) (hn0 : 0 < env.n0) (hrho : 0 ≤ env.rho)
    (hex : P.cfg.explicit = true) (hgc : P.cfg.gc = false) (hspp : P.cfg.spp = false) (hcfg : P'.cfg = { P.cfg with spp := true })
    (hw : P'.walls = P.walls) (dts : List ℝ) :
    ((∃ a, Steps P dts s a) ↔ ∃ b, Steps P' dts s b) ∧
    ∀ a b, Steps P dts s a → Steps P' dts s b → SameMotion a b ∧ ∀ i, i < a.n → (b.ps i).n = (a.ps i).n ∨ (b.ps i).n = max (a.ps i).n env.n0 := by
  have main : ∀ (dts : List ℝ) (s t : State ℝ D ω) (l l' : List ℝ), Hist P s0 l s → Hist P' s0 l' t → SppPair P P' env.n0 s t →
      ((∃ a, Steps P dts s a) ↔ ∃ b, Steps P' dts t b) ∧ ∀ a b, Steps P dts s a → Steps P' dts t b → SppPair P P' env.n0 a b := by
    intro dts
    induction dts with
    | nil =>
      intro s t l l' _ _ h
      refine ⟨⟨fun _ => ⟨t, .done⟩, fun _ => ⟨s, .done⟩⟩, fun a b ha hb => ?_⟩
      cases ha; cases hb; exact h
    | cons dt dts ih =>
      intro s t l l' hs ht h
      have st : ∀ (sch sch' : Schedule), sch.Valid s.n → sch'.Valid t.n → _ := fun sch sch' hv hv' =>
        spp_pair_step hD hnew hs hok ht hL hre hn0 hrho hex hgc hspp hcfg hw h sch sch' hv hv' dt
      constructor
      · constructor
        · rintro ⟨a, ha⟩
          cases ha with
          | step sch _ hv h1 h2 =>
            have hv' : sch.Valid t.n := by rw [h.motion.n]; exact hv
            obtain ⟨k1, k2⟩ := st sch sch hv hv'
            obtain ⟨t', ht'⟩ := k1.mp ⟨_, h1⟩
            obtain ⟨b, hb⟩ := (ih _ t' _ _ (.forward sch dt hs hv (Or.inl h1)) (.forward sch dt ht hv' (Or.inl ht')) (k2 _ _ h1 ht')).1.mp ⟨a, h2⟩
            exact ⟨b, .step sch dt hv' ht' hb⟩
        · rintro ⟨b, hb⟩
          cases hb with
          | step sch _ hv' h1 h2 =>
            have hv : sch.Valid s.n := by rw [← h.motion.n]; exact hv'
            obtain ⟨k1, k2⟩ := st sch sch hv hv'
            obtain ⟨s', hs'⟩ := k1.mpr ⟨_, h1⟩
            obtain ⟨a, ha⟩ := (ih s' _ _ _ (.forward sch dt hs hv (Or.inl hs')) (.forward sch dt ht hv' (Or.inl h1)) (k2 _ _ hs' h1)).1.mpr ⟨b, h2⟩
            exact ⟨a, .step sch dt hv hs' ha⟩
      · intro a b ha hb
        cases ha with
        | step sch _ hv h1 h2 =>
          cases hb with
          | step sch' _ hv' h1' h2' =>
            have k2 := (st sch sch' hv hv').2
            exact (ih _ _ _ _ (.forward sch dt hs hv (Or.inl h1)) (.forward sch' dt ht hv' (Or.inl h1')) (k2 _ _ h1 h1')).2 a b h2 h2'
  subst hs
  obtain ⟨r1, r2⟩ := main dts _ _ [] [] (.add src .start) (.add src .start)
    ⟨⟨rfl, rfl, rfl, fun _ _ => rfl, fun _ _ => rfl, fun _ _ => rfl, fun _ _ => rfl⟩, fun _ _ => Or.inl rfl⟩
  exact ⟨r1, fun a b ha hb => ⟨(r2 a b ha hb).motion, fun i hi => (r2 a b ha hb).dens i hi⟩⟩

/-! ## Options whose condition does not occur -/

theorem beyond {P : Params ℝ D ω} {f : State ℝ D ω} {dt : ℝ} (h : ∀ i, f.n ≤ i → (f.ps i).ty = .disabled) :
    ∀ i, ¬ i < f.n → (setting P f dt).ty i = .disabled := by
  intro i hi
  have := h i (not_lt.mp hi)
  unfold setting
  simp only [this]
  simp

/-- The density depends on the particles only. -/
theorem density_visible {P : Params ℝ D ω} {s f : State ℝ D ω} (h : SameVisible s f) (dt : ℝ) {i : ℕ} (hi : i < s.n) :
    (setting P f dt).ty i = (setting P s dt).ty i ∧ (setting P f dt).density (scene f).x i = (setting P s dt).density (scene s).x i := by
  have hty : ∀ j, j < s.n → (setting P f dt).ty j = (setting P s dt).ty j := by
    intro j hj
    have e := h.ps hj
    unfold setting
    simp only
    rw [e, h.env]
  refine ⟨hty i hi, ?_⟩
  have hnear : (setting P f dt).near (scene f).x i = (setting P s dt).near (scene s).x i := by
    unfold Setting.near
    change Finset.filter _ (Finset.range f.n) = Finset.filter _ (Finset.range s.n)
    rw [h.n]
    apply Finset.filter_congr
    intro j hj
    have hj := Finset.mem_range.mp hj
    rw [hty j hj]
    change (j ≠ i ∧ _ ∧ len ((f.ps j).x - (f.ps i).x) < f.env.neighborLength ∧ len ((f.ps j).x - (f.ps i).x) < f.env.re) ↔
      (j ≠ i ∧ _ ∧ len ((s.ps j).x - (s.ps i).x) < s.env.neighborLength ∧ len ((s.ps j).x - (s.ps i).x) < s.env.re)
    rw [h.ps hi, h.ps hj, h.env]
  unfold Setting.density
  rw [hnear]
  apply Finset.sum_congr rfl
  intro j hj
  have hj : j < s.n := by
    unfold Setting.near at hj
    exact Finset.mem_range.mp (Finset.mem_filter.mp hj).1
  change weight f.env.re (len ((f.ps j).x - (f.ps i).x)) = weight s.env.re (len ((s.ps j).x - (s.ps i).x))
  rw [h.ps hi, h.ps hj, h.env]

theorem fluid_active {S : Setting D} {i : ℕ} (h : S.Fluid i) : S.Active i := by
  unfold Setting.Fluid at h
  unfold Setting.Active
  rw [h]
  exact ⟨by decide, by decide⟩

/-- The reference step with and without SPP when no particle lacks neighbours. -/
theorem step_spp_idle {S : Setting D} (hspp : S.cfg.spp = false) (hn0 : 0 < S.env.n0) (hr : S.env.surfaceRatio ≤ 1) {b : Scene D}
    (hd : ∀ i, S.Active i → S.env.n0 ≤ S.density (S.predict b).x i)
    (hb : S.cfg.explicit = false → S.cfg.ecs = true → ∀ i, S.Active i → S.env.n0 ≤ S.density b.x i) (eps : ℝ) :
    ({ S with cfg := { S.cfg with spp := true } } : Setting D).predict b = S.predict b ∧
    ({ S with cfg := { S.cfg with spp := true } } : Setting D).step eps b = S.step eps b := by
  classical
  set S' : Setting D := { S with cfg := { S.cfg with spp := true } } with hS'
  have hrep : ∀ (x : ℕ → Fin D → ℝ) (old : ℕ → ℝ), (∀ i, S.Active i → S.env.n0 ≤ S.density x i) → S'.reported x old = S.reported x old := by
    intro x old hx
    funext i
    unfold Setting.reported
    by_cases hA : S.Active i
    · have hA' : S'.Active i := hA
      rw [if_pos hA, if_pos hA', if_neg (show ¬ S.cfg.spp = true by rw [hspp]; decide), if_pos (show S'.cfg.spp = true from rfl)]
      exact max_eq_left (hx i hA)
    · have hA' : ¬ S'.Active i := hA
      rw [if_neg hA, if_neg hA']
  have hpred : S'.predict b = S.predict b := by
    have := hrep (S.predict b).x b.dens hd
    unfold Setting.predict at this ⊢
    simp only at this ⊢
    change ({ x := _, u := _, p := _, dens := S'.reported _ b.dens } : Scene D) = _
    rw [← this]
    rfl
  refine ⟨hpred, ?_⟩
  set c := S.predict b with hc
  have hsurf : ∀ i, S.Active i → ¬ S.Surface c.dens i := by
    rintro i hA ⟨-, h⟩
    have e : c.dens i = S.density c.x i := by
      have : c.dens i = S.reported c.x b.dens i := rfl
      rw [this]; unfold Setting.reported
      rw [if_pos hA, if_neg (by rw [hspp]; decide)]
    rw [e] at h
    have : 1 ≤ S.density c.x i / S.env.n0 := by rw [le_div_iff₀ hn0]; linarith [hd i hA]
    linarith
  have hsurf' : ∀ i, ¬ S'.Surface c.dens i := fun i h => absurd (show true = false from h.1) (by decide)
  have hvir : ∀ i, ¬ S.HasVirtual c.x i := fun i h => by have h1 := h.1; rw [hspp] at h1; exact absurd h1 (by decide)
  have hvir' : ∀ i, S.Active i → ¬ S'.HasVirtual c.x i := fun i hA h => absurd h.2.1 (not_lt.mpr (hd i hA))
  have hpr : S'.pressure eps b c = S.pressure eps b c := by
    unfold Setting.pressure
    by_cases hex : S.cfg.explicit = true
    · rw [if_pos hex, if_pos (show S'.cfg.explicit = true from hex)]; rfl
    · rw [if_neg hex, if_neg (show ¬ S'.cfg.explicit = true from hex)]
      have hop : S'.operator c = S.operator c := by
        funext y i
        unfold Setting.operator
        by_cases hA : S.Active i
        · rw [if_pos (show S.Active i ∧ ¬ S.Surface c.dens i from ⟨hA, hsurf i hA⟩), if_pos (show S'.Active i ∧ ¬ S'.Surface c.dens i from ⟨hA, hsurf' i⟩)]
          unfold Setting.laplacian
          rw [if_neg (hvir i), if_neg (hvir' i hA)]
          congr 1
          apply Finset.sum_congr rfl
          intro j hj
          have hjA : S.Active j := by
            have h1 := Finset.mem_filter.mp hj
            exact ⟨h1.2, (Finset.mem_filter.mp h1.1).2.2.1⟩
          rw [if_neg (hsurf j hjA), if_neg (hsurf' j)]
          rfl
        · rw [if_neg (show ¬ (S.Active i ∧ ¬ S.Surface c.dens i) from fun k => hA k.1), if_neg (show ¬ (S'.Active i ∧ ¬ S'.Surface c.dens i) from fun k => hA k.1)]
      have hrate : ∀ (x u : ℕ → Fin D → ℝ) (dens : ℕ → ℝ) (i : ℕ), S.env.n0 ≤ S.density x i → S'.rate x u dens i = S.rate x u dens i := by
        intro x u dens i hx
        unfold Setting.rate
        have h1 : ¬ (S.cfg.spp = true ∧ S.density x i < S.env.n0) := fun k => absurd k.2 (not_lt.mpr hx)
        have h2 : ¬ (S'.cfg.spp = true ∧ S'.density x i < S'.env.n0) := fun k => absurd k.2 (not_lt.mpr hx)
        rw [if_neg h1, if_neg h2]
        rfl
      have hsrc : S'.source b c = S.source b c := by
        funext i
        unfold Setting.source
        by_cases hA : S.Active i
        · rw [if_pos (show S.Active i ∧ ¬ S.Surface c.dens i from ⟨hA, hsurf i hA⟩), if_pos (show S'.Active i ∧ ¬ S'.Surface c.dens i from ⟨hA, hsurf' i⟩), hrate _ _ _ _ (hd i hA)]
          have hcomp : S'.compensation b.x b.u (S'.reported b.x b.dens) i = S.compensation b.x b.u (S.reported b.x b.dens) i := by
            unfold Setting.compensation
            by_cases he : S.cfg.ecs = true
            · have hbb := hb (by simpa using hex) he
              rw [if_pos he, if_pos (show S'.cfg.ecs = true from he), hrep _ _ hbb, hrate _ _ _ _ (hbb i hA)]
            · rw [if_neg he, if_neg (show ¬ S'.cfg.ecs = true from he)]
          rw [hcomp]
        · rw [if_neg (show ¬ (S.Active i ∧ ¬ S.Surface c.dens i) from fun k => hA k.1), if_neg (show ¬ (S'.Active i ∧ ¬ S'.Surface c.dens i) from fun k => hA k.1)]
      have hgue : S'.guess c = S.guess c := by
        funext i
        unfold Setting.guess
        by_cases hA : S.Active i
        · rw [if_pos (show S.Active i ∧ ¬ S.Surface c.dens i from ⟨hA, hsurf i hA⟩), if_pos (show S'.Active i ∧ ¬ S'.Surface c.dens i from ⟨hA, hsurf' i⟩)]
        · rw [if_neg (show ¬ (S.Active i ∧ ¬ S.Surface c.dens i) from fun k => hA k.1), if_neg (show ¬ (S'.Active i ∧ ¬ S'.Surface c.dens i) from fun k => hA k.1)]
      rw [hop, hsrc, hgue]
      congr 1
      funext y i
      by_cases hA : S.Active i
      · rw [if_pos hA, if_pos (show S'.Active i from hA), if_neg (hsurf i hA), if_neg (hsurf' i)]
      · rw [if_neg hA, if_neg (show ¬ S'.Active i from hA)]
  have hfin : ∀ p, S'.finish { c with p := p } = S.finish { c with p := p } := by
    intro p
    have hpush : ∀ i, S.Fluid i → S'.push { c with p := p } i = S.push { c with p := p } i := by
      intro i hi
      have hA := fluid_active hi
      have hf : S'.force { c with p := p } i = S.force { c with p := p } i := by
        unfold Setting.force
        rw [if_neg (hvir i), if_neg (hvir' i hA)]
        rfl
      have hm : S'.moment { c with p := p } i = S.moment { c with p := p } i := by
        unfold Setting.moment
        rw [if_neg (hvir i), if_neg (hvir' i hA)]
        rfl
      have hg : S'.forceGc { c with p := p } i = S.forceGc { c with p := p } i := by
        have hcor : S'.correction { c with p := p } i = S.correction { c with p := p } i := by
          unfold Setting.correction; rw [hm]
        unfold Setting.forceGc
        simp only
        rw [hcor, if_neg (hvir i), if_neg (hvir' i hA)]
        rfl
      unfold Setting.push
      rw [hf, hg]
    have hkick : S'.kick (S'.push { c with p := p }) { c with p := p } = S.kick (S.push { c with p := p }) { c with p := p } := by
      unfold Setting.kick
      congr 1
      · funext i
        change (if S.Fluid i then c.x i + S.env.dt • S'.push { c with p := p } i else c.x i) = if S.Fluid i then c.x i + S.env.dt • S.push { c with p := p } i else c.x i
        split
        · rename_i hi; rw [hpush i hi]
        · rfl
      · funext i
        change (if S.Fluid i then c.u i + S'.push { c with p := p } i else c.u i) = if S.Fluid i then c.u i + S.push { c with p := p } i else c.u i
        split
        · rename_i hi; rw [hpush i hi]
        · rfl
    unfold Setting.finish
    simp only [hkick]
    rfl
  unfold Setting.step
  rw [hpred, hpr]
  congr 1
  funext p
  exact hfin p

/-- From the same outcome and a successful step. -/
theorem same_ok {r r' : Res (State ℝ D ω)} {s' : State ℝ D ω} (h : SameOutcome r r') (hr : r = .ok s') : ∃ t', r' = .ok t' ∧ SameVisible s' t' := by
  subst hr
  cases h with
  | ok k => exact ⟨_, rfl, k⟩

/-- **C66.** SPP is idle where no particle lacks neighbours: if after a step without SPP every enabled non-dummy particle reports at least `n0` (and with ECS in
the implicit mode has had that density before the step), the step with SPP gives the same. -/
theorem C66_spp_is_idle_without_deficiency {P P' : Params ℝ D ω} {env : Env ℝ D} {w : ω} {s0 s s' t : State ℝ D ω} {dts dts' : List ℝ}
    (hD : D = 2 ∨ D = 3) (hnew : State.new? env w = some s0) (hist : Hist P s0 dts s) (hist' : Hist P' s0 dts' t) (hok : s0.grid.ClearOK)
    (hL : 0 < env.neighborLength) (hre : 0 ≤ env.re) (hn0 : 0 < env.n0) (hratio : env.surfaceRatio ≤ 1)
    (hspp : P.cfg.spp = false) (hcfg : P'.cfg = { P.cfg with spp := true }) (hw : P'.walls = P.walls) (heps : P'.eps = P.eps)
    (hst : SameVisible s t) (sch sch' : Schedule) (hv : sch.Valid s.n) (hv' : sch'.Valid s.n) (dt : ℝ) (h : s.forwardTime P sch dt = .ok s')
    (hN : ∀ i, i < s'.n → (s'.ps i).ty ≠ .dummy → (s'.ps i).ty ≠ .disabled → env.n0 ≤ (s'.ps i).n)
    (hstart : P.cfg.explicit = false → P.cfg.ecs = true → ∀ i, i < s.n → (setting P s dt).Active i →
      env.n0 ≤ (setting P s dt).density (scene s).x i) :
    ∃ t', t.forwardTime P' sch' dt = .ok t' ∧ SameVisible s' t' := by
  refine same_ok (same_outcome hD hnew hist hok hnew hist' hok hL hre hw hst sch sch' hv hv' dt (fun f hf hb ho hres => ?_)) h
  have hconst := hist_consts hnew hist
  obtain ⟨f', hf', vf⟩ := same_ok ho h
  obtain ⟨a, ha, hr⟩ := hres f' hf'
  have hsn := (step_frame hv (Or.inl h)).1
  have hn0f : (setting P f dt).env.n0 = env.n0 := by change f.env.n0 = _; rw [hf.env, hconst]
  have hrf : (setting P f dt).env.surfaceRatio = env.surfaceRatio := by change f.env.surfaceRatio = _; rw [hf.env, hconst]
  have inRange : ∀ i, (setting P f dt).Active i → i < f.n := fun i hA => by
    by_contra hi; exact hA.2 (beyond hb i hi)
  have hdens : ∀ i, (setting P f dt).Active i → (setting P f dt).env.n0 ≤ (setting P f dt).density ((setting P f dt).predict (scene f)).x i := by
    intro i hA
    have hi := inRange i hA
    have hi' : i < s'.n := by rw [hsn, ← hf.n]; exact hi
    obtain ⟨r1, -, -, -, r5⟩ := hr i hi
    have k := hN i hi'
    rw [← vf.ps hi', r1, r5] at k
    have k := k hA.1 hA.2
    rw [hn0f]
    refine k.trans (le_of_eq ?_)
    have e1 : a.dens i = ((setting P f dt).predict (scene f)).dens i := by
      unfold Setting.step at ha
      cases hp : (setting P f dt).pressure P.eps (scene f) ((setting P f dt).predict (scene f)) with
      | none => rw [hp] at ha; cases ha
      | some p =>
        rw [hp] at ha
        simp only [Option.map_some, Option.some.injEq] at ha
        rw [← ha]
        unfold Setting.finish
        simp only
        split <;> rfl
    rw [e1]
    have : ((setting P f dt).predict (scene f)).dens i = (setting P f dt).reported ((setting P f dt).predict (scene f)).x (scene f).dens i := rfl
    rw [this]
    unfold Setting.reported
    rw [if_pos hA, if_neg (by rw [show (setting P f dt).cfg = P.cfg from rfl, hspp]; decide)]
  obtain ⟨q1, q2⟩ := step_spp_idle (S := setting P f dt) hspp (by rw [hn0f]; exact hn0) (by rw [hrf]; exact hratio) hdens (fun he hc i hA => by
    have hi := inRange i hA
    have hi' : i < s.n := by rw [← hf.n]; exact hi
    obtain ⟨d1, d2⟩ := density_visible (P := P) hf dt hi'
    rw [hn0f, d2]
    refine hstart he hc i hi' ?_
    unfold Setting.Active at hA ⊢
    rw [← d1]; exact hA) P.eps
  rw [setting_cfg hw f dt, hcfg, heps]
  change SceneEq f.n ((setting P f dt).predict (scene f)) (({ setting P f dt with cfg := { (setting P f dt).cfg with spp := true } } : Setting D).predict (scene f)) ∧
    ((({ setting P f dt with cfg := { (setting P f dt).cfg with spp := true } } : Setting D).step P.eps (scene f)) = none ↔ _) ∧
    ∀ a b, _ → (({ setting P f dt with cfg := { (setting P f dt).cfg with spp := true } } : Setting D).step P.eps (scene f)) = some b → _
  rw [q1, q2]
  refine ⟨SceneEq.refl _ _, Iff.rfl, fun a b ha hb => ?_⟩
  rw [ha] at hb; cases hb; exact SceneEq.refl _ _

/-- **C66.** DS is idle without close pairs: if after a step without DS no fluid particle is closer to an enabled non-dummy particle than `L_0 - MaxDx`, the step
with DS gives the same. -/
theorem C66_ds_is_idle_without_close_pairs {P P' : Params ℝ D ω} {env : Env ℝ D} {w : ω} {s0 s s' t : State ℝ D ω} {dts dts' : List ℝ}
    (hD : D = 2 ∨ D = 3) (hnew : State.new? env w = some s0) (hist : Hist P s0 dts s) (hist' : Hist P' s0 dts' t) (hok : s0.grid.ClearOK)
    (hL : 0 < env.neighborLength) (hre : 0 ≤ env.re)
    (hds : P.cfg.ds = false) (hcfg : P'.cfg = { P.cfg with ds := true }) (hw : P'.walls = P.walls) (heps : P'.eps = P.eps)
    (hst : SameVisible s t) (sch sch' : Schedule) (hv : sch.Valid s.n) (hv' : sch'.Valid s.n) (dt : ℝ) (h : s.forwardTime P sch dt = .ok s')
    (hfar : ∀ i j, i < s'.n → j < s'.n → i ≠ j → (s'.ps i).ty = .incompressibleNewton → (s'.ps j).ty ≠ .dummy → (s'.ps j).ty ≠ .disabled →
      |env.l0 - env.maxDx| ≤ len ((s'.ps j).x - (s'.ps i).x)) :
    ∃ t', t.forwardTime P' sch' dt = .ok t' ∧ SameVisible s' t' := by
  classical
  refine same_ok (same_outcome hD hnew hist hok hnew hist' hok hL hre hw hst sch sch' hv hv' dt (fun f hf hb ho hres => ?_)) h
  have hconst := hist_consts hnew hist
  obtain ⟨f', hf', vf⟩ := same_ok ho h
  obtain ⟨a, ha, hr⟩ := hres f' hf'
  have hsn := (step_frame hv (Or.inl h)).1
  set S := setting P f dt with hS
  set S' := setting P' f dt with hS'
  have hSS : S' = { S with cfg := { S.cfg with ds := true } } := by rw [hS', setting_cfg hw f dt, hcfg]; rfl
  have hpred : S'.predict (scene f) = S.predict (scene f) := by rw [hSS]; rfl
  have hpr : S'.pressure P'.eps (scene f) (S.predict (scene f)) = S.pressure P.eps (scene f) (S.predict (scene f)) := by rw [hSS, heps]; rfl
  have hd : S.env.l0 - S.env.maxDx = env.l0 - env.maxDx := by change f.env.l0 - f.env.maxDx = _; rw [hf.env, hconst]
  rw [hpred]
  cases hp : S.pressure P.eps (scene f) (S.predict (scene f)) with
  | none => unfold Setting.step at ha; rw [hp] at ha; cases ha
  | some p =>
    set m : Scene D := { S.predict (scene f) with p := p } with hm
    have ha1 : S.step P.eps (scene f) = some (S.kick (S.push m) m) := by
      unfold Setting.step; rw [hp]
      simp only [Option.map_some]
      unfold Setting.finish
      rw [if_neg (by rw [show S.cfg = P.cfg from rfl, hds]; decide)]
    rw [ha1] at ha
    simp only [Option.some.injEq] at ha
    set k := S.kick (S.push m) m with hk
    have hk' : S'.kick (S'.push m) m = k := by rw [hSS]; rfl
    have hst0 : ∀ i, S.Fluid i → S'.stabilise m.x k i = 0 := by
      intro i hi
      have hin : i < f.n := by
        by_contra hc
        have := beyond (P := P) (dt := dt) hb i hc
        unfold Setting.Fluid at hi
        rw [← hS, hi] at this; cases this
      unfold Setting.stabilise
      simp only
      rw [Finset.sum_eq_zero, smul_zero]
      intro j hj
      rw [if_neg]
      have h1 := Finset.mem_filter.mp hj
      have h2 := Finset.mem_filter.mp h1.1
      have hjn : j < f.n := Finset.mem_range.mp h2.1
      obtain ⟨ti, xi, -⟩ := hr i hin
      obtain ⟨tj, xj, -⟩ := hr j hjn
      have hi' : i < s'.n := by rw [hsn, ← hf.n]; exact hin
      have hj' : j < s'.n := by rw [hsn, ← hf.n]; exact hjn
      have q := hfar i j hi' hj' (fun e => h2.2.1 e.symm)
      rw [← vf.ps hi', ← vf.ps hj', ti, tj, xi, xj, ← ha] at q
      have q := q hi h1.2 h2.2.2.1
      have e : S'.env.l0 - S'.env.maxDx = env.l0 - env.maxDx := hd
      rw [e]
      have := sq_le_sq' (by linarith [abs_nonneg (env.l0 - env.maxDx)]) q
      rw [sq_abs] at this
      exact not_lt.mpr this
    have hfinal : S'.step P'.eps (scene f) = some k := by
      unfold Setting.step; rw [hpred, hpr, hp]
      simp only [Option.map_some]
      rw [← hm]
      unfold Setting.finish
      rw [if_pos (by rw [hSS]), hk']
      congr 1
      unfold Setting.kick
      change ({ k with x := fun i => if S.Fluid i then k.x i + S.env.dt • S'.stabilise m.x k i else k.x i
                       u := fun i => if S.Fluid i then k.u i + S'.stabilise m.x k i else k.u i } : Scene D) = k
      have e1 : (fun i => if S.Fluid i then k.x i + S.env.dt • S'.stabilise m.x k i else k.x i) = k.x := by
        funext i
        split
        · rename_i hi; rw [hst0 i hi, smul_zero, add_zero]
        · rfl
      have e2 : (fun i => if S.Fluid i then k.u i + S'.stabilise m.x k i else k.u i) = k.u := by
        funext i
        split
        · rename_i hi; rw [hst0 i hi, add_zero]
        · rfl
      rw [e1, e2]
    rw [ha1, hfinal]
    refine ⟨SceneEq.refl _ _, ⟨fun h => (by cases h), fun h => (by cases h)⟩, fun a b ha hb => ?_⟩
    cases ha; cases hb; exact SceneEq.refl _ _

/-- **C66.** ECS is idle at the reference density: if at the beginning of the step the density of every enabled non-dummy particle, raised to `n0` with SPP, is
`n0`, then the step with ECS has the same outcome as that without. -/
theorem C66_ecs_is_idle_at_the_reference_density {P P' : Params ℝ D ω} {env : Env ℝ D} {w : ω} {s0 s t : State ℝ D ω} {dts dts' : List ℝ}
    (hD : D = 2 ∨ D = 3) (hnew : State.new? env w = some s0) (hist : Hist P s0 dts s) (hist' : Hist P' s0 dts' t) (hok : s0.grid.ClearOK)
    (hL : 0 < env.neighborLength) (hre : 0 ≤ env.re)
    (hecs : P.cfg.ecs = false) (hcfg : P'.cfg = { P.cfg with ecs := true }) (hw : P'.walls = P.walls) (heps : P'.eps = P.eps)
    (hst : SameVisible s t) (sch sch' : Schedule) (hv : sch.Valid s.n) (hv' : sch'.Valid s.n) (dt : ℝ)
    (hstart : ∀ i, i < s.n → (setting P s dt).Active i → (setting P s dt).density (scene s).x i = env.n0 ∨
      P.cfg.spp = true ∧ (setting P s dt).density (scene s).x i ≤ env.n0) :
    SameOutcome (s.forwardTime P sch dt) (t.forwardTime P' sch' dt) := by
  classical
  refine same_outcome hD hnew hist hok hnew hist' hok hL hre hw hst sch sch' hv hv' dt (fun f hf hb ho hres => ?_)
  have hconst := hist_consts hnew hist
  set S := setting P f dt with hS
  set S' := setting P' f dt with hS'
  have hSS : S' = { S with cfg := { S.cfg with ecs := true } } := by rw [hS', setting_cfg hw f dt, hcfg]; rfl
  have hpred : S'.predict (scene f) = S.predict (scene f) := by rw [hSS]; rfl
  have hn0f : S.env.n0 = env.n0 := by change f.env.n0 = _; rw [hf.env, hconst]
  have hrep : ∀ i, S.Active i → S.reported (scene f).x (scene f).dens i = S.env.n0 := by
    intro i hA
    have hin : i < f.n := by
      by_contra hc
      exact hA.2 (beyond hb i hc)
    have hi' : i < s.n := by rw [← hf.n]; exact hin
    obtain ⟨d1, d2⟩ := density_visible (P := P) hf dt hi'
    have q := hstart i hi' (by unfold Setting.Active at hA ⊢; rw [← d1]; exact hA)
    rw [← d2, ← hS] at q
    unfold Setting.reported
    rw [if_pos hA, hn0f]
    split
    · rcases q with q | q
      · rw [q, max_self]
      · exact max_eq_right q.2
    · rename_i hno
      rcases q with q | q
      · exact q
      · exact absurd q.1 hno
  have hcomp : ∀ i, S.Active i → S'.compensation (scene f).x (scene f).u (S'.reported (scene f).x (scene f).dens) i =
      S.compensation (scene f).x (scene f).u (S.reported (scene f).x (scene f).dens) i := by
    intro i hA
    have e : S'.reported (scene f).x (scene f).dens = S.reported (scene f).x (scene f).dens := by rw [hSS]; rfl
    rw [e]
    unfold Setting.compensation
    rw [if_neg (show ¬ S.cfg.ecs = true by rw [show S.cfg = P.cfg from rfl, hecs]; decide), if_pos (by rw [hSS])]
    rw [hrep i hA]
    have : S'.env.n0 = S.env.n0 := by rw [hSS]
    rw [this]
    simp
  have hpr : S'.pressure P'.eps (scene f) (S.predict (scene f)) = S.pressure P.eps (scene f) (S.predict (scene f)) := by
    have hsrc : S'.source (scene f) (S.predict (scene f)) = S.source (scene f) (S.predict (scene f)) := by
      funext i
      have key : S'.source (scene f) (S.predict (scene f)) i = if S.Active i ∧ ¬ S.Surface (S.predict (scene f)).dens i then
          -S.env.rho / (S.env.n0 * S.env.dt) * (S.rate (S.predict (scene f)).x (S.predict (scene f)).u (S.predict (scene f)).dens i +
            S'.compensation (scene f).x (scene f).u (S'.reported (scene f).x (scene f).dens) i) else 0 := by
        rw [hSS]; rfl
      rw [key]
      unfold Setting.source
      split
      · rename_i hA; rw [hcomp i hA.1]
      · rfl
    unfold Setting.pressure
    rw [hsrc, heps, hSS]
    rfl
  have hstep : S'.step P'.eps (scene f) = S.step P.eps (scene f) := by
    unfold Setting.step
    rw [hpred, hpr, hSS]
    rfl
  rw [hpred, hstep]
  refine ⟨SceneEq.refl _ _, Iff.rfl, fun a b ha hb => ?_⟩
  rw [ha] at hb; cases hb; exact SceneEq.refl _ _

end OpenMps
