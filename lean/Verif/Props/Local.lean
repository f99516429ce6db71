import Verif.Lemmas.Local
import Verif.Props.FreeFall
import Verif.Props.Accuracy

set_option linter.unusedSectionVars false

/-! # Property C61: how far influence reaches -/

namespace OpenMps

open Ref

variable {D : Nat} {ω : Type}

theorem setting_env_eq {P : Params ℝ D ω} {env : Env ℝ D} {w w' : ω} {s0 t0 s t : State ℝ D ω} {ds dt' : List ℝ}
    (hnew : State.new? env w = some s0) (hist : Hist P s0 ds s) (hnew' : State.new? env w' = some t0) (hist' : Hist P t0 dt' t)
    (htime : t.env.t = s.env.t) (dt : ℝ) : (setting P t dt).env = (setting P s dt).env := by
  change { t.env with dt := dt, t := t.env.t + dt } = ({ s.env with dt := dt, t := s.env.t + dt } : Env ℝ D)
  rw [htime, hist_consts hnew hist, hist_consts hnew' hist']

theorem setting_enabled {P : Params ℝ D ω} {s : State ℝ D ω} {dt : ℝ} {j : ℕ} (h : (setting P s dt).ty j ≠ .disabled) : (s.ps j).ty ≠ .disabled := by
  classical
  intro hc
  apply h
  change (if _ then _ else _) = _
  split
  · rfl
  · exact hc

/-- Agreement of the settings gives agreement of the particles. -/
theorem local_step {P : Params ℝ D ω} {env : Env ℝ D} {w w' : ω} {s0 t0 s t s' t' : State ℝ D ω} {ds ds' : List ℝ} (hD : D = 2 ∨ D = 3)
    (hnew : State.new? env w = some s0) (hist : Hist P s0 ds s) (hok : s0.grid.ClearOK)
    (hnew' : State.new? env w' = some t0) (hist' : Hist P t0 ds' t) (hok' : t0.grid.ClearOK)
    (hL : 0 < env.neighborLength) (hre : 0 ≤ env.re) (hx : P.cfg.explicit = true)
    (sch sch' : Schedule) (hv : sch.Valid s.n) (hv' : sch'.Valid t.n) (dt : ℝ)
    (h : s.forwardTime P sch dt = .ok s') (h' : t.forwardTime P sch' dt = .ok t') {A : ℕ → ℕ → Prop}
    (hsh : Shared (setting P s dt) (setting P t dt) A 4) (hon : ∀ i, A 4 i → t.ps i = s.ps i) {i : ℕ} (hi : A 0 i) : t'.ps i = s'.ps i := by
  obtain ⟨a, ha, ka⟩ := C42_step_is_the_reference_function hD hnew hist hok hL hre sch hv dt h
  obtain ⟨b, hb, kb⟩ := C42_step_is_the_reference_function hD hnew' hist' hok' hL hre sch' hv' dt h'
  have on4 : Shared.On (A 4) (scene s) (scene t) := by
    refine ⟨fun i hi => ?_, fun i hi => ?_, fun i hi => ?_, fun i hi => ?_⟩
    · change (t.ps i).x = (s.ps i).x; rw [hon i hi]
    · change (t.ps i).u = (s.ps i).u; rw [hon i hi]
    · change (t.ps i).p = (s.ps i).p; rw [hon i hi]
    · change (t.ps i).n = (s.ps i).n; rw [hon i hi]
  have on0 := hsh.explicit_step rfl hx on4 ha hb
  have hm := hsh.mem (hsh.up (Nat.zero_le 4) hi)
  obtain ⟨a1, a2, a3, a4, a5⟩ := ka i hm.1
  obtain ⟨b1, b2, b3, b4, b5⟩ := kb i hm.2.1
  have e : ∀ p q : Particle ℝ D, p.x = q.x → p.u = q.u → p.p = q.p → p.n = q.n → p.ty = q.ty → p = q := by
    rintro ⟨⟩ ⟨⟩ h1 h2 h3 h4 h5; simp only at *; subst h1 h2 h3 h4 h5; rfl
  apply e
  · rw [a2, b2]; exact on0.x i hi
  · rw [a3, b3]; exact on0.u i hi
  · rw [a4, b4]; exact on0.p i hi
  · rw [a5, b5]; exact on0.dens i hi
  · rw [a1, b1]; exact hm.2.2.1

/-- **C61.**  In the explicit mode the result of a step at particle `i` depends only on the particles within four search radii: two scenes at the same
time (with the same callback) that agree there, whatever the other particles are and however many, give the same particle `i`. -/
theorem C61_explicit_step_is_local {P : Params ℝ D ω} {env : Env ℝ D} {w w' : ω} {s0 t0 s t s' t' : State ℝ D ω} {ds ds' : List ℝ} (hD : D = 2 ∨ D = 3)
    (hnew : State.new? env w = some s0) (hist : Hist P s0 ds s) (hok : s0.grid.ClearOK)
    (hnew' : State.new? env w' = some t0) (hist' : Hist P t0 ds' t) (hok' : t0.grid.ClearOK)
    (hL : 0 < env.neighborLength) (hre : 0 ≤ env.re) (hx : P.cfg.explicit = true)
    (sch sch' : Schedule) (hv : sch.Valid s.n) (hv' : sch'.Valid t.n) (dt : ℝ)
    (h : s.forwardTime P sch dt = .ok s') (h' : t.forwardTime P sch' dt = .ok t')
    (htime : t.env.t = s.env.t) (hworld : t.world = s.world)
    {i : ℕ} (hi : i < s.n) (hi' : i < t.n) (hii : t.ps i = s.ps i)
    (hagree : ∀ j, (j < s.n ∧ (s.ps j).ty ≠ .disabled ∧ dist (s.ps i).x (s.ps j).x < 4 * env.neighborLength) ∨
        (j < t.n ∧ (t.ps j).ty ≠ .disabled ∧ dist (s.ps i).x (t.ps j).x < 4 * env.neighborLength) → j < s.n ∧ j < t.n ∧ t.ps j = s.ps j) :
    t'.ps i = s'.ps i := by
  classical
  have hnl : s.env.neighborLength = env.neighborLength := by rw [hist_consts hnew hist]
  have henv := setting_env_eq (P := P) hnew hist hnew' hist' htime dt
  have hnlS : (setting P s dt).env.neighborLength = env.neighborLength := hnl
  have hle : ∀ k : ℕ, k ≤ 4 → (k : ℝ) * env.neighborLength ≤ 4 * env.neighborLength := by
    intro k hk
    apply mul_le_mul_of_nonneg_right _ hL.le
    exact_mod_cast hk
  have hin : ∀ k : ℕ, k ≤ 4 → ∀ j, (j = i ∨ (j < s.n ∧ (s.ps j).ty ≠ .disabled ∧ dist (s.ps i).x (s.ps j).x < k * env.neighborLength)) →
      j < s.n ∧ j < t.n ∧ t.ps j = s.ps j := by
    rintro k hk j (rfl | ⟨h1, h2, h3⟩)
    · exact ⟨hi, hi', hii⟩
    · exact hagree j (Or.inl ⟨h1, h2, lt_of_lt_of_le h3 (hle k hk)⟩)
  have hreach : ∀ (k i' : ℕ) (y : Vec ℝ D), (i' = i ∨ (i' < s.n ∧ (s.ps i').ty ≠ .disabled ∧ dist (s.ps i).x (s.ps i').x < k * env.neighborLength)) →
      dist (s.ps i').x y < env.neighborLength → dist (s.ps i).x y < ((k + 1 : ℕ) : ℝ) * env.neighborLength := by
    rintro k i' y (rfl | ⟨-, -, h3⟩) h4
    · have : (0 : ℝ) ≤ (k : ℝ) * env.neighborLength := by positivity
      push_cast
      linarith
    · have := dist_triangle' (s.ps i).x (s.ps i').x y
      push_cast
      linarith
  refine local_step hD hnew hist hok hnew' hist' hok' hL hre hx sch sch' hv hv' dt h h'
    (A := fun k j => j = i ∨ (j < s.n ∧ (s.ps j).ty ≠ .disabled ∧ dist (s.ps i).x (s.ps j).x < k * env.neighborLength)) ?_
    (fun j hj => (hin 4 le_rfl j hj).2.2) (Or.inl rfl)
  refine ⟨rfl, henv, ?_, ?_, ?_, ?_⟩
  · rintro k j hk (rfl | ⟨h1, h2, h3⟩)
    · exact Or.inl rfl
    · refine Or.inr ⟨h1, h2, lt_of_lt_of_le h3 ?_⟩
      apply mul_le_mul_of_nonneg_right _ hL.le
      push_cast; linarith
  · intro j hj
    obtain ⟨h1, h2, h3⟩ := hin 4 le_rfl j hj
    refine ⟨h1, h2, ?_, ?_, ?_⟩
    · change (if (t.ps j).ty ≠ .disabled ∧ Outside t.env (t.ps j).x then PType.disabled else (t.ps j).ty) =
        if (s.ps j).ty ≠ .disabled ∧ Outside s.env (s.ps j).x then PType.disabled else (s.ps j).ty
      have e : Outside t.env (s.ps j).x ↔ Outside s.env (s.ps j).x := by
        unfold Outside; rw [hist_consts hnew hist, hist_consts hnew' hist']
      rw [h3]
      simp only [e]
    · change (t.ps j).x = (s.ps j).x; rw [h3]
    · change P.walls.pos (P.walls.pre t.world (t.env.t + dt) dt) j (t.env.t + dt) dt = P.walls.pos (P.walls.pre s.world (s.env.t + dt) dt) j (s.env.t + dt) dt
      rw [htime, hworld]
  · intro k i' j hk hA hj hne hd hl
    have h4 : dist (s.ps i').x (s.ps j).x < env.neighborLength := by
      rw [dist_comm', ← len_sub, ← hnlS]; exact hl
    exact Or.inr ⟨hj, setting_enabled hd, hreach k i' _ hA h4⟩
  · intro k i' j hk hA hj hne hd hl
    have hA' := (hin k (by omega) i' hA).2.2
    have h4 : dist (s.ps i').x (t.ps j).x < env.neighborLength := by
      rw [dist_comm', ← len_sub, ← hnlS, ← hA']; exact hl
    have h5 := hreach k i' _ hA h4
    obtain ⟨h6, h7, h8⟩ := hagree j (Or.inr ⟨hj, setting_enabled hd, lt_of_lt_of_le h5 (hle (k + 1) (by omega))⟩)
    exact Or.inr ⟨h6, by rw [← h8]; exact setting_enabled hd, by rw [← h8]; exact h5⟩

/-- **C61.**  In the explicit mode a body that stays more than a search radius away from all other enabled particles evolves as if it were alone: two runs
of any length whose scenes agree on the body `B` at the beginning, in which the rest may be entirely different, agree on it at the end. -/
theorem C61_explicit_body_evolves_alone {P : Params ℝ D ω} {env : Env ℝ D} {w w' : ω} {s0 t0 : State ℝ D ω} {ds ds' : List ℝ} (hD : D = 2 ∨ D = 3)
    (hnew : State.new? env w = some s0) (hok : s0.grid.ClearOK) (hnew' : State.new? env w' = some t0) (hok' : t0.grid.ClearOK)
    (hL : 0 < env.neighborLength) (hre : 0 ≤ env.re) (hx : P.cfg.explicit = true)
    (st tt : ℕ → State ℝ D ω) (hist : Hist P s0 ds (st 0)) (hist' : Hist P t0 ds' (tt 0))
    (sch sch' : ℕ → Schedule) (hv : ∀ k, (sch k).Valid (st 0).n) (hv' : ∀ k, (sch' k).Valid (tt 0).n) (dt : ℕ → ℝ) (N : ℕ)
    (hstep : ∀ k, k < N → (st k).forwardTime P (sch k) (dt k) = .ok (st (k + 1)))
    (hstep' : ∀ k, k < N → (tt k).forwardTime P (sch' k) (dt k) = .ok (tt (k + 1)))
    (htime : (tt 0).env.t = (st 0).env.t) (hworld : (tt 0).world = (st 0).world)
    (B : ℕ → Prop) (hB : ∀ i, B i → i < (st 0).n ∧ i < (tt 0).n ∧ (tt 0).ps i = (st 0).ps i)
    (hapart : ∀ k, k < N → ∀ i j, B i → j < (st 0).n → ¬ B j → ((st (k + 1)).ps i).ty ≠ .disabled → ((st (k + 1)).ps j).ty ≠ .disabled →
      env.neighborLength ≤ dist ((st k).ps i).x ((st k).ps j).x)
    (hapart' : ∀ k, k < N → ∀ i j, B i → j < (tt 0).n → ¬ B j → ((tt (k + 1)).ps i).ty ≠ .disabled → ((tt (k + 1)).ps j).ty ≠ .disabled →
      env.neighborLength ≤ dist ((tt k).ps i).x ((tt k).ps j).x)
    {i : ℕ} (hi : B i) : ((tt N).ps i).ty = ((st N).ps i).ty ∧ (((st N).ps i).ty ≠ .disabled → (tt N).ps i = (st N).ps i) := by
  classical
  have hh : ∀ (P : Params ℝ D ω) (s0 : State ℝ D ω) (ds : List ℝ) (st : ℕ → State ℝ D ω) (sch : ℕ → Schedule), Hist P s0 ds (st 0) → (∀ k, (sch k).Valid (st 0).n) →
      (∀ k, k < N → (st k).forwardTime P (sch k) (dt k) = .ok (st (k + 1))) → ∀ k, k ≤ N → (∃ dts, Hist P s0 dts (st k)) ∧ (st k).n = (st 0).n := by
    intro P s0 ds st sch hist hv hstep k
    induction k with
    | zero => intro _; exact ⟨⟨_, hist⟩, rfl⟩
    | succ k ih =>
      intro hk
      obtain ⟨⟨d, h1⟩, h2⟩ := ih (by omega)
      have hv2 : (sch k).Valid (st k).n := by rw [h2]; exact hv k
      exact ⟨⟨_, .forward (sch k) (dt k) h1 hv2 (Or.inl (hstep k (by omega)))⟩, (step_frame hv2 (Or.inl (hstep k (by omega)))).1.trans h2⟩
  have key : ∀ k, k ≤ N → (tt k).env.t = (st k).env.t ∧ (tt k).world = (st k).world ∧
      ∀ i, B i → ((tt k).ps i).ty = ((st k).ps i).ty ∧ (((st k).ps i).ty ≠ .disabled → (tt k).ps i = (st k).ps i) := by
    intro k
    induction k with
    | zero => intro _; exact ⟨htime, hworld, fun i hi => ⟨by rw [(hB i hi).2.2], fun _ => (hB i hi).2.2⟩⟩
    | succ k ih =>
      intro hk
      obtain ⟨it, iw, ib⟩ := ih (by omega)
      obtain ⟨⟨d, h1⟩, h2⟩ := hh P s0 ds st sch hist hv hstep k (by omega)
      obtain ⟨⟨d', h1'⟩, h2'⟩ := hh P t0 ds' tt sch' hist' hv' hstep' k (by omega)
      have hs := hstep k (by omega)
      have hs' := hstep' k (by omega)
      have hvk : (sch k).Valid (st k).n := by rw [h2]; exact hv k
      have hvk' : (sch' k).Valid (tt k).n := by rw [h2']; exact hv' k
      obtain ⟨a, -, ka⟩ := C42_step_is_the_reference_function hD hnew h1 hok hL hre (sch k) hvk (dt k) hs
      obtain ⟨b, -, kb⟩ := C42_step_is_the_reference_function hD hnew' h1' hok' hL hre (sch' k) hvk' (dt k) hs'
      set S := setting P (st k) (dt k) with hS
      set T := setting P (tt k) (dt k) with hT
      have hty : ∀ i, B i → T.ty i = S.ty i := by
        intro i hi
        obtain ⟨c1, c2⟩ := ib i hi
        change (if ((tt k).ps i).ty ≠ .disabled ∧ Outside (tt k).env ((tt k).ps i).x then PType.disabled else ((tt k).ps i).ty) =
          if ((st k).ps i).ty ≠ .disabled ∧ Outside (st k).env ((st k).ps i).x then PType.disabled else ((st k).ps i).ty
        by_cases hd : ((st k).ps i).ty = .disabled
        · rw [c1, hd]; simp
        · rw [c2 hd]
          have e : Outside (tt k).env ((st k).ps i).x ↔ Outside (st k).env ((st k).ps i).x := by
            unfold Outside; rw [hist_consts hnew h1, hist_consts hnew' h1']
          simp only [e]
      have hlt : ∀ i, B i → i < (st k).n ∧ i < (tt k).n := fun i hi => ⟨by rw [h2]; exact (hB i hi).1, by rw [h2']; exact (hB i hi).2.1⟩
      refine ⟨?_, ?_, fun i hi => ?_⟩
      · rw [(step_frame hvk (Or.inl hs)).2.1, (step_frame hvk' (Or.inl hs')).2.1]
        change (tt k).env.t + dt k = (st k).env.t + dt k
        rw [it]
      · rw [(C14_nonfluid_follows_callback hvk hs).1, (C14_nonfluid_follows_callback hvk' hs').1, it, iw]
      · have hte : ((tt (k + 1)).ps i).ty = ((st (k + 1)).ps i).ty := by
          rw [(ka i (hlt i hi).1).1, (kb i (hlt i hi).2).1, hty i hi]
        refine ⟨hte, fun hd => ?_⟩
        have hnlS : S.env.neighborLength = env.neighborLength := by
          change (st k).env.neighborLength = _; rw [hist_consts hnew h1]
        refine local_step hD hnew h1 hok hnew' h1' hok' hL hre hx (sch k) (sch' k) hvk hvk' (dt k) hs hs'
          (A := fun _ j => B j ∧ S.ty j ≠ .disabled) ?_ (fun j hj => (ib j hj.1).2 (setting_enabled hj.2))
          ⟨hi, by rw [← (ka i (hlt i hi).1).1]; exact hd⟩
        refine ⟨rfl, setting_env_eq hnew h1 hnew' h1' it (dt k), fun _ h => h, ?_, ?_, ?_⟩
        · rintro j ⟨hj, hdj⟩
          refine ⟨(hlt j hj).1, (hlt j hj).2, hty j hj, ?_, ?_⟩
          · change ((tt k).ps j).x = ((st k).ps j).x
            rw [(ib j hj).2 (setting_enabled hdj)]
          · change P.walls.pos (P.walls.pre (tt k).world ((tt k).env.t + dt k) (dt k)) j ((tt k).env.t + dt k) (dt k) =
              P.walls.pos (P.walls.pre (st k).world ((st k).env.t + dt k) (dt k)) j ((st k).env.t + dt k) (dt k)
            rw [it, iw]
        · rintro m i' j - ⟨hi', hdi⟩ hj hne hdj hl
          refine ⟨?_, hdj⟩
          by_contra hc
          have := hapart k (by omega) i' j hi' (by rw [← h2]; exact hj) hc (by rw [(ka i' (hlt i' hi').1).1]; exact hdi)
            (by rw [(ka j hj).1]; exact hdj)
          rw [dist_comm', ← len_sub, ← hnlS] at this
          exact absurd hl (not_lt.mpr this)
        · rintro m i' j - ⟨hi', hdi⟩ hj hne hdj hl
          have hBj : B j := by
            by_contra hc
            have := hapart' k (by omega) i' j hi' (by rw [← h2']; exact hj) hc (by rw [(kb i' (hlt i' hi').2).1, hty i' hi']; exact hdi)
              (by rw [(kb j hj).1]; exact hdj)
            rw [dist_comm', ← len_sub, ← hnlS] at this
            exact absurd hl (not_lt.mpr this)
          exact ⟨hBj, by rw [← hty j hBj]; exact hdj⟩
  exact (key N le_rfl).2.2 i hi

/-- Two scenes that agree on a body apart from the rest. -/
theorem shared_body {P : Params ℝ D ω} {env : Env ℝ D} {w w' : ω} {s0 t0 s t : State ℝ D ω} {ds ds' : List ℝ}
    (hnew : State.new? env w = some s0) (hist : Hist P s0 ds s)
    (hnew' : State.new? env w' = some t0) (hist' : Hist P t0 ds' t) (dt : ℝ)
    (htime : t.env.t = s.env.t) (hworld : t.world = s.world)
    (B : ℕ → Prop) (hB : ∀ i, B i → i < s.n ∧ i < t.n ∧ t.ps i = s.ps i) :
    let S := setting P s dt
    let T := setting P t dt
    (∀ i j, B i → j < s.n → ¬ B j → S.ty i ≠ .disabled → S.ty j ≠ .disabled → env.neighborLength ≤ dist (s.ps i).x (s.ps j).x) →
    (∀ i j, B i → j < t.n → ¬ B j → T.ty i ≠ .disabled → T.ty j ≠ .disabled → env.neighborLength ≤ dist (t.ps i).x (t.ps j).x) →
    (∀ i, B i → T.ty i = S.ty i) ∧ Shared S T (fun _ j => B j ∧ S.ty j ≠ .disabled) 4 ∧
      Shared.On (fun j => B j ∧ S.ty j ≠ .disabled) (scene s) (scene t) ∧
      Shared.On (fun j => B j ∧ S.ty j ≠ .disabled) (S.predict (scene s)) (T.predict (scene t)) := by
  classical
  intro S T hap hap'
  have hc := hist_consts hnew hist
  have hnlS : S.env.neighborLength = env.neighborLength := by change s.env.neighborLength = _; rw [hc]
  have hty : ∀ i, B i → T.ty i = S.ty i := by
    intro i hi
    change (if (t.ps i).ty ≠ .disabled ∧ Outside t.env (t.ps i).x then PType.disabled else (t.ps i).ty) =
      if (s.ps i).ty ≠ .disabled ∧ Outside s.env (s.ps i).x then PType.disabled else (s.ps i).ty
    have e : Outside t.env (s.ps i).x ↔ Outside s.env (s.ps i).x := by
      unfold Outside; rw [hist_consts hnew hist, hist_consts hnew' hist']
    rw [(hB i hi).2.2]
    simp only [e]
  let A : ℕ → ℕ → Prop := fun _ j => B j ∧ S.ty j ≠ .disabled
  have hsh : Shared S T A 4 := by
    refine ⟨rfl, setting_env_eq hnew hist hnew' hist' htime dt, fun _ h => h, ?_, ?_, ?_⟩
    · rintro j ⟨hj, hdj⟩
      refine ⟨(hB j hj).1, (hB j hj).2.1, hty j hj, ?_, ?_⟩
      · change (t.ps j).x = (s.ps j).x
        rw [(hB j hj).2.2]
      · change P.walls.pos (P.walls.pre t.world (t.env.t + dt) dt) j (t.env.t + dt) dt = P.walls.pos (P.walls.pre s.world (s.env.t + dt) dt) j (s.env.t + dt) dt
        rw [htime, hworld]
    · rintro m i' j - ⟨hi', hdi⟩ hj hne hdj hl
      refine ⟨?_, hdj⟩
      by_contra hc
      have := hap i' j hi' hj hc hdi hdj
      rw [dist_comm', ← len_sub, ← hnlS] at this
      exact absurd hl (not_lt.mpr this)
    · rintro m i' j - ⟨hi', hdi⟩ hj hne hdj hl
      have hBj : B j := by
        by_contra hc
        have := hap' i' j hi' hj hc (by rw [hty i' hi']; exact hdi) hdj
        rw [dist_comm', ← len_sub, ← hnlS] at this
        exact absurd hl (not_lt.mpr this)
      exact ⟨hBj, by rw [← hty j hBj]; exact hdj⟩
  have on4 : Shared.On (A 4) (scene s) (scene t) := by
    refine ⟨fun i hi => ?_, fun i hi => ?_, fun i hi => ?_, fun i hi => ?_⟩
    · change (t.ps i).x = (s.ps i).x; rw [(hB i hi.1).2.2]
    · change (t.ps i).u = (s.ps i).u; rw [(hB i hi.1).2.2]
    · change (t.ps i).p = (s.ps i).p; rw [(hB i hi.1).2.2]
    · change (t.ps i).n = (s.ps i).n; rw [(hB i hi.1).2.2]
  have on2 : Shared.On (A 2) (S.predict (scene s)) (T.predict (scene t)) := hsh.predict (k := 2) (by omega) on4
  exact ⟨hty, hsh, on4, on2⟩

/-- **C61.**  In the implicit mode the exact pressures of such a body are its own: in two scenes at the same time that agree on a body `B` more than a search
radius away from all other enabled particles, the exact solutions of the two pressure equations agree on every particle of the body that is in a fluid
body with a free surface, and such particles are the same in both scenes.  (By C57 the computed pressures differ from them by the tolerance of the solver, which is global.) -/
theorem C61_exact_pressures_of_a_body_are_its_own {P : Params ℝ D ω} {env : Env ℝ D} {w w' : ω} {s0 t0 s t : State ℝ D ω} {ds ds' : List ℝ}
    (hD : D = 2 ∨ D = 3) (hnew : State.new? env w = some s0) (hist : Hist P s0 ds s)
    (hnew' : State.new? env w' = some t0) (hist' : Hist P t0 ds' t) (hpos : env.Positive) (dt : ℝ)
    (htime : t.env.t = s.env.t) (hworld : t.world = s.world)
    (B : ℕ → Prop) (hB : ∀ i, B i → i < s.n ∧ i < t.n ∧ t.ps i = s.ps i) :
    let S := setting P s dt
    let T := setting P t dt
    let m := S.predict (scene s)
    let m' := T.predict (scene t)
    (∀ i j, B i → j < s.n → ¬ B j → S.ty i ≠ .disabled → S.ty j ≠ .disabled → env.neighborLength ≤ dist (s.ps i).x (s.ps j).x) →
    (∀ i j, B i → j < t.n → ¬ B j → T.ty i ≠ .disabled → T.ty j ≠ .disabled → env.neighborLength ≤ dist (t.ps i).x (t.ps j).x) →
    S.Distinct m →
    ∀ p p', S.Solves (scene s) m p → T.Solves (scene t) m' p' → ∀ i, B i → (T.Wet m' i ↔ S.Wet m i) ∧ (S.Wet m i → p' i = p i) := by
  classical
  intro S T m m' hap hap' hdis p p' hp hp'
  have hc := hist_consts hnew hist
  have he : S.env.Positive := by
    have e1 : S.env.re = env.re := by change s.env.re = _; rw [hc]
    have e2 : S.env.n0 = env.n0 := by change s.env.n0 = _; rw [hc]
    have e3 : S.env.lambda = env.lambda := by change s.env.lambda = _; rw [hc]
    exact ⟨by rw [e1]; exact hpos.re, by rw [e2]; exact hpos.n0, by rw [e3]; exact hpos.lambda⟩
  obtain ⟨hty, hsh, on4, on2⟩ := shared_body hnew hist hnew' hist' dt htime hworld B hB hap hap'
  have hD' : 0 < D ∧ D < 5 := by rcases hD with rfl | rfl <;> exact ⟨by norm_num, by norm_num⟩
  intro i hi
  by_cases hd : S.ty i = .disabled
  · have n1 : ¬ S.Wet m i := fun hw => hw.eqn.2.1.2 hd
    have n2 : ¬ T.Wet m' i := fun hw => hw.eqn.2.1.2 (by rw [hty i hi]; exact hd)
    exact ⟨⟨fun h => absurd h n2, fun h => absurd h n1⟩, fun h => absurd h n1⟩
  · exact ⟨hsh.wet (Q := fun j => B j ∧ S.ty j ≠ .disabled) ⟨hi, hd⟩ on2,
      hsh.exact_pressures (Q := fun j => B j ∧ S.ty j ≠ .disabled) hD' he hdis on4 on2 hp hp' ⟨hi, hd⟩⟩

end OpenMps
