import Verif.Spec.Options
import Verif.Props.ReferenceStep

/-! # Comparing steps with different options -/

set_option linter.unusedSectionVars false

namespace OpenMps

open Ref

section
variable {F : Type} [Scalar F] {D : Nat} {ω : Type}

theorem SameVisible.refl (s : State F D ω) : SameVisible s s := ⟨rfl, rfl, rfl⟩
theorem SameVisible.symm {s t : State F D ω} (h : SameVisible s t) : SameVisible t s := ⟨h.1.symm, h.2.symm, h.3.symm⟩
theorem SameVisible.trans {s t r : State F D ω} (h : SameVisible s t) (k : SameVisible t r) : SameVisible s r :=
  ⟨k.1.trans h.1, k.2.trans h.2, k.3.trans h.3⟩

theorem SameVisible.of {s t : State F D ω} (hn : t.n = s.n) (hp : ∀ i, i < s.n → t.ps i = s.ps i) (he : t.env = s.env)
    (hw : t.world = s.world) : SameVisible s t := by
  refine ⟨?_, he, hw⟩
  unfold State.particles
  rw [hn]
  exact List.map_congr_left (fun i hi => hp i (by simpa using hi))

theorem SameOutcome.symm {a b : Res (State F D ω)} (h : SameOutcome a b) : SameOutcome b a := by
  cases h with
  | ok h => exact .ok h.symm
  | exn h => exact .exn h.symm
  | ub => exact .ub

theorem SameOutcome.trans {a b c : Res (State F D ω)} (h : SameOutcome a b) (k : SameOutcome b c) : SameOutcome a c := by
  cases h with
  | ok h => cases k with | ok k => exact .ok (h.trans k)
  | exn h => cases k with | exn k => exact .exn (h.trans k)
  | ub => exact k

end

variable {D : Nat} {ω : Type}

/-- Two scenes agree on the first `n` particles. -/
structure SceneEq (n : ℕ) (a b : Scene D) : Prop where
  x : ∀ i, i < n → b.x i = a.x i
  u : ∀ i, i < n → b.u i = a.u i
  p : ∀ i, i < n → b.p i = a.p i
  dens : ∀ i, i < n → b.dens i = a.dens i

theorem SceneEq.refl (n : ℕ) (a : Scene D) : SceneEq n a a := ⟨fun _ _ => rfl, fun _ _ => rfl, fun _ _ => rfl, fun _ _ => rfl⟩

/-- One and the same state, advanced with two selections of options whose reference functions agree. -/
theorem same_outcome_core {P P' : Params ℝ D ω} {env : Env ℝ D} {w : ω} {s0 s : State ℝ D ω} {dts dts' : List ℝ}
    (hD : D = 2 ∨ D = 3) (hnew : State.new? env w = some s0) (hist : Hist P s0 dts s) (hist' : Hist P' s0 dts' s) (hok : s0.grid.ClearOK)
    (hL : 0 < env.neighborLength) (hre : 0 ≤ env.re) (hw : P'.walls = P.walls) (sch : Schedule) (hv : sch.Valid s.n) (dt : ℝ)
    (hpred : SceneEq s.n ((setting P s dt).predict (scene s)) ((setting P' s dt).predict (scene s)))
    (hnone : (setting P' s dt).step P'.eps (scene s) = none ↔ (setting P s dt).step P.eps (scene s) = none)
    (hsome : ∀ a b, (setting P s dt).step P.eps (scene s) = some a → (setting P' s dt).step P'.eps (scene s) = some b → SceneEq s.n a b) :
    SameOutcome (s.forwardTime P sch dt) (s.forwardTime P' sch dt) := by
  rcases search_outcome hnew hist hok hL sch hv dt with ⟨hc, s1, h1⟩ | ⟨hc, s1, h1⟩
  · have e : s.forwardTime P sch dt = .exn .gridFull s1 := by rw [forwardTime_eq P sch dt s hv, h1]; rfl
    have e' : s.forwardTime P' sch dt = .exn .gridFull s1 := by rw [forwardTime_eq P' sch dt s hv, h1]; rfl
    rw [e, e']; exact .exn (SameVisible.refl _)
  · have hty : ∀ i, (setting P' s dt).ty i = (setting P s dt).ty i := fun _ => rfl
    obtain ⟨-, o2, o3, -⟩ := C42_outcome hD hnew hist hok hL hre sch hv dt
    obtain ⟨-, q2, q3, -⟩ := C42_outcome hD hnew hist' hok hL hre sch hv dt
    obtain ⟨g0, g, nb, -, -, k3, -⟩ := searchNeighbor_ok_frame (s := s.start dt) (hv 0) h1
    have hn1 : s1.n = s.n := by rw [k3]; rfl
    cases hs : (setting P s dt).step P.eps (scene s) with
    | none =>
      obtain ⟨a, ha⟩ := o2.mpr ⟨hc, hs⟩
      obtain ⟨b, hb⟩ := q2.mpr ⟨hc, hnone.mpr hs⟩
      obtain ⟨f1, f2, -⟩ := step_frame hv (Or.inr ⟨_, ha⟩)
      obtain ⟨f1', f2', -⟩ := step_frame hv (Or.inr ⟨_, hb⟩)
      obtain ⟨hty1, -, A, -, -⟩ := step_mid (P := P) hD hnew hist hok hL hre sch hv dt h1
      obtain ⟨hty1', -, A', -, -⟩ := step_mid (P := P') hD hnew hist' hok hL hre sch hv dt h1
      have ea : s1.afterSearch P = .exn .solver a := by
        have := forwardTime_eq P sch dt s hv; rw [h1, ha] at this; exact this.symm
      have eb : s1.afterSearch P' = .exn .solver b := by
        have := forwardTime_eq P' sch dt s hv; rw [h1, hb] at this; exact this.symm
      obtain ⟨-, pa, -, -, wa, -⟩ := pressureC_exn_frame (afterSearch_exn ea)
      obtain ⟨-, pb, -, -, wb, -⟩ := pressureC_exn_frame (afterSearch_exn eb)
      rw [ha, hb]
      refine .exn (SameVisible.of (by rw [f1, f1']) (fun i hi => ?_) (by rw [f2, f2']) ?_)
      · rw [f1] at hi
        rw [pa, pb]
        have t1 := midC_ty P s1 i
        have t2 := midC_ty P' s1 i
        have x1 := A.x i hi; have x2 := A'.x i hi
        have u1 := A.u i hi; have u2 := A'.u i hi
        have p1 := A.p i hi; have p2 := A'.p i hi
        have d1 := A.dens i hi; have d2 := A'.dens i hi
        rw [hpred.x i hi, ← x1] at x2
        rw [hpred.u i hi, ← u1] at u2
        rw [hpred.p i hi, ← p1] at p2
        rw [hpred.dens i hi, ← d1] at d2
        cases hA : (s1.midC P).ps i; cases hB : (s1.midC P').ps i
        rw [hA] at t1 x2 u2 p2 d2; rw [hB] at t2 x2 u2 p2 d2
        simp only at *
        rw [x2, u2, p2, d2, t1, t2]
      · rw [wa, wb, midC_world, midC_world, hw]
    | some a =>
      obtain ⟨s', hs'⟩ := o3.mpr ⟨hc, a, hs⟩
      have : ∃ b, (setting P' s dt).step P'.eps (scene s) = some b := by
        cases hb : (setting P' s dt).step P'.eps (scene s) with
        | none => rw [hnone.mp hb] at hs; cases hs
        | some b => exact ⟨b, rfl⟩
      obtain ⟨b, hb⟩ := this
      obtain ⟨t', ht'⟩ := q3.mpr ⟨hc, b, hb⟩
      have hab := hsome a b hs hb
      obtain ⟨f1, f2, -⟩ := step_frame hv (Or.inl hs')
      obtain ⟨f1', f2', -⟩ := step_frame hv (Or.inl ht')
      obtain ⟨a', e1, e2⟩ := C42_step_is_the_reference_function hD hnew hist hok hL hre sch hv dt hs'
      obtain ⟨b', g1, g2⟩ := C42_step_is_the_reference_function hD hnew hist' hok hL hre sch hv dt ht'
      rw [hs] at e1; cases e1
      rw [hb] at g1; cases g1
      have wld : ∀ {Q : Params ℝ D ω} {r : State ℝ D ω}, s.forwardTime Q sch dt = .ok r → r.world = Q.walls.pre s1.world s1.env.t s1.env.dt := by
        intro Q r hr
        have := forwardTime_eq Q sch dt s hv
        rw [h1, hr] at this
        obtain ⟨s2, r1, r2⟩ := afterSearch_ok this.symm
        rw [r2, dsC_world]
        change s2.world = _
        rw [(pressureC_frame r1).2.2.1, midC_world]
      rw [hs', ht']
      refine .ok (SameVisible.of (by rw [f1, f1']) (fun i hi => ?_) (by rw [f2, f2']) (by rw [wld hs', wld ht', hw]))
      rw [f1] at hi
      obtain ⟨t1, x1, u1, p1, d1⟩ := e2 i hi
      obtain ⟨t2, x2, u2, p2, d2⟩ := g2 i hi
      rw [hab.x i hi, ← x1] at x2
      rw [hab.u i hi, ← u1] at u2
      rw [hab.p i hi, ← p1] at p2
      rw [hab.dens i hi, ← d1] at d2
      rw [hty, ← t1] at t2
      cases hA : s'.ps i; cases hB : t'.ps i
      rw [hA, hB] at t2 x2 u2 p2 d2
      simp only at *
      rw [x2, u2, p2, d2, t2]

theorem fresh_ps {e : Env ℝ D} {w : ω} {fr : State ℝ D ω} (h : State.new? e w = some fr) (l : List (Particle ℝ D)) (i : ℕ) :
    (fr.addParticles l).ps i = l.getD i (Particle.new .disabled) ∧ (fr.addParticles l).n = l.length := by
  unfold State.new? at h
  split at h
  · cases h
  · cases h
    simp [State.addParticles]

/-- A fresh computer with the same visible state as `s` exists, and steps on both have the same outcome. -/
theorem fresh_like {P : Params ℝ D ω} {env : Env ℝ D} {w : ω} {s0 s : State ℝ D ω} {dts : List ℝ}
    (hnew : State.new? env w = some s0) (hist : Hist P s0 dts s) (hok : s0.grid.ClearOK) :
    ∃ fresh : State ℝ D ω, State.new? s.env s.world = some fresh ∧ fresh.grid = s0.grid ∧ fresh.grid.ClearOK ∧
      SameVisible s (fresh.addParticles s.particles) ∧ (∀ Q : Params ℝ D ω, Hist Q fresh [] (fresh.addParticles s.particles)) ∧
      ∀ (sch sch' : Schedule) (dt : ℝ), sch.Valid s.n → sch'.Valid s.n →
        SameOutcome (s.forwardTime P sch dt) ((fresh.addParticles s.particles).forwardTime P sch' dt) := by
  have hconst := hist_consts hnew hist
  have hg : Grid.mk? s.env.neighborLength s.env.l0 s.env.minX s.env.maxX = some s0.grid := by
    rw [hconst]
    unfold State.new? at hnew
    split at hnew
    · cases hnew
    · rename_i g hg
      injection hnew with hnew
      rw [← hnew]; exact hg
  obtain ⟨fresh, hf, e1, e2, e3, e4⟩ : ∃ fresh, State.new? s.env s.world = some fresh ∧ fresh.grid = s0.grid ∧ fresh.n = 0 ∧ fresh.env = s.env ∧
      fresh.world = s.world := by
    unfold State.new?
    rw [hg]
    exact ⟨_, rfl, rfl, rfl, rfl, rfl⟩
  refine ⟨fresh, hf, e1, by rw [e1]; exact hok, ?_, fun Q => .add _ .start, fun sch sch' dt hv hv' => ?_⟩
  · refine ⟨?_, e3, e4⟩
    rw [C09_add_appends]
    simp [State.particles, e2]
  · exact C40_step_after_failure_like_fresh hnew hist hok hf sch sch' dt hv hv'

/-- Two computers with different options in the same visible state. -/
theorem same_outcome {P P' : Params ℝ D ω} {env : Env ℝ D} {w : ω} {s0 s t0 t : State ℝ D ω} {dts dts' : List ℝ}
    (hD : D = 2 ∨ D = 3) (hnew : State.new? env w = some s0) (hist : Hist P s0 dts s) (hok : s0.grid.ClearOK)
    {env' : Env ℝ D} {w' : ω} (hnew' : State.new? env' w' = some t0) (hist' : Hist P' t0 dts' t) (hok' : t0.grid.ClearOK)
    (hL : 0 < env.neighborLength) (hre : 0 ≤ env.re) (hw : P'.walls = P.walls) (hst : SameVisible s t)
    (sch sch' : Schedule) (hv : sch.Valid s.n) (hv' : sch'.Valid s.n) (dt : ℝ)
    (hyp : ∀ f : State ℝ D ω, SameVisible s f → (∀ i, f.n ≤ i → (f.ps i).ty = .disabled) → SameOutcome (s.forwardTime P sch dt) (f.forwardTime P sch dt) →
      (∀ a, f.forwardTime P sch dt = .ok a → ∃ b, (setting P f dt).step P.eps (scene f) = some b ∧
        ∀ i, i < f.n → (a.ps i).ty = (setting P f dt).ty i ∧ (a.ps i).x = b.x i ∧ (a.ps i).u = b.u i ∧ (a.ps i).p = b.p i ∧ (a.ps i).n = b.dens i) →
      SceneEq f.n ((setting P f dt).predict (scene f)) ((setting P' f dt).predict (scene f)) ∧
      ((setting P' f dt).step P'.eps (scene f) = none ↔ (setting P f dt).step P.eps (scene f) = none) ∧
      ∀ a b, (setting P f dt).step P.eps (scene f) = some a → (setting P' f dt).step P'.eps (scene f) = some b → SceneEq f.n a b) :
    SameOutcome (s.forwardTime P sch dt) (t.forwardTime P' sch' dt) := by
  obtain ⟨fr, h1, h2, h3, h4, h5, h6⟩ := fresh_like hnew hist hok
  obtain ⟨fr', k1, k2, k3, k4, k5, k6⟩ := fresh_like hnew' hist' hok'
  have efr : fr' = fr := by
    rw [hst.env, hst.world, h1] at k1; injection k1 with k1; exact k1.symm
  have hn : t.n = s.n := hst.n
  subst efr
  rw [hst.particles] at k4 k5 k6
  set f := fr'.addParticles s.particles with hf
  have hfn : f.n = s.n := h4.n
  have hvf : sch.Valid f.n := by rw [hfn]; exact hv
  have hconst := hist_consts hnew hist
  have hL' : 0 < s.env.neighborLength := by rw [hconst]; exact hL
  have hre' : 0 ≤ s.env.re := by rw [hconst]; exact hre
  have hbeyond : ∀ i, f.n ≤ i → (f.ps i).ty = .disabled := by
    intro i hi
    rw [hf, (fresh_ps h1 s.particles i).2] at hi
    rw [hf, (fresh_ps h1 s.particles i).1]
    simp [List.getD, List.getElem?_eq_none hi, Particle.new]
  obtain ⟨y1, y2, y3⟩ := hyp f h4 hbeyond (h6 sch sch dt hv hv) (fun a ha =>
    C42_step_is_the_reference_function hD h1 (h5 P) h3 hL' hre' sch hvf dt ha)
  have core := same_outcome_core hD h1 (h5 P) (h5 P') h3 hL' hre' hw sch hvf dt y1 y2 y3
  exact ((h6 sch sch dt hv hv).trans core).trans (k6 sch' sch dt (by rw [hn]; exact hv') (by rw [hn]; exact hv)).symm

end OpenMps
