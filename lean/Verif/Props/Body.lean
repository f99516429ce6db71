import Verif.Lemmas.Body
import Verif.Props.FreeFall

set_option linter.unusedSectionVars false

/-! # Property C60: bodies without pressure keep their shape -/

namespace OpenMps

open Ref

variable {D : Nat} {ω : Type}

/-- One step of a calm body. -/
theorem calm_step {P : Params ℝ D ω} {env : Env ℝ D} {w : ω} {s0 s s' : State ℝ D ω} {dts : List ℝ} (hD : D = 2 ∨ D = 3)
    (hnew : State.new? env w = some s0) (hist : Hist P s0 dts s) (hok : s0.grid.ClearOK) (hL : 0 < env.neighborLength)
    (hre : 0 ≤ env.re) (hn0 : 0 < env.n0) (hrho : 0 ≤ env.rho) (hcg : P.cfg.centralGravity = false) (sch : Schedule) (hv : sch.Valid s.n) {dt : ℝ} (hdt : dt ≠ 0)
    (h : s.forwardTime P sch dt = .ok s') {B : ℕ → Prop} {U : Vec ℝ D}
    (hu : ∀ i, i < s.n → B i → (s'.ps i).ty ≠ .disabled → (s.ps i).u = U)
    (hp : ∀ i, i < s.n → B i → (s'.ps i).ty ≠ .dummy → (s'.ps i).ty ≠ .disabled → (s.ps i).p = 0)
    (hapart : ∀ i j, i < s.n → j < s.n → B i → ¬ B j → (s'.ps i).ty ≠ .disabled → (s'.ps j).ty ≠ .disabled →
      env.neighborLength ≤ dist (s.ps i).x (s.ps j).x)
    (hwall : ∀ i, i < s.n → B i → (s'.ps i).ty ≠ .disabled → (s'.ps i).ty ≠ .incompressibleNewton → (s'.ps i).u = U + dt • env.g)
    (hquiet : if P.cfg.explicit then ∀ i, i < s.n → B i → (s'.ps i).ty ≠ .dummy → (s'.ps i).ty ≠ .disabled → (s'.ps i).n ≤ env.n0
      else P.cfg.hs = true ∨ ∀ i, i < s.n → B i → (s'.ps i).ty ≠ .dummy → (s'.ps i).ty ≠ .disabled → (s'.ps i).n = env.n0)
    (hds : P.cfg.ds = true → ∀ i j, i < s.n → j < s.n → B i → B j → i ≠ j → (s'.ps i).ty = .incompressibleNewton →
      (s'.ps j).ty ≠ .dummy → (s'.ps j).ty ≠ .disabled → |env.l0 - env.maxDx| ≤ dist (s.ps i).x (s.ps j).x)
    {i : ℕ} (hi : i < s.n) (hB : B i) (hd : (s'.ps i).ty ≠ .disabled) :
    (s'.ps i).u = U + dt • env.g ∧ (s'.ps i).x = (s.ps i).x + dt • (s'.ps i).u ∧ ((s'.ps i).ty ≠ .dummy → (s'.ps i).p = 0) := by
  classical
  have hc := hist_consts hnew hist
  obtain ⟨a, ha, hs'⟩ := C42_step_is_the_reference_function hD hnew hist hok hL hre sch hv dt h
  have hnl : s.env.neighborLength = env.neighborLength := by rw [hc]
  have hcg' : s.env.g = env.g := hist_g hnew hist
  have hn0' : s.env.n0 = env.n0 := by rw [hc]
  have hrho' : s.env.rho = env.rho := by rw [hc]
  have hl0' : s.env.l0 = env.l0 := by rw [hc]
  have hmd : s.env.maxDx = env.maxDx := by rw [hc]
  set S := setting P s dt with hS
  unfold Setting.step at ha
  cases hp2 : S.pressure P.eps (scene s) (S.predict (scene s)) with
  | none => rw [hp2] at ha; cases ha
  | some p =>
    rw [hp2] at ha
    have ha : a = S.finish { S.predict (scene s) with p := p } := by cases ha; rfl
    have hty : ∀ k, k < s.n → (s'.ps k).ty = S.ty k := fun k hk => (hs' k hk).1
    have hnf : ∀ k, ¬ S.Fluid k → a.u k = (S.predict (scene s)).u k := by
      intro k hf
      have e : ∀ (dv : ℕ → Fin D → ℝ) (c : Scene D), (S.kick dv c).u k = c.u k := by
        intro dv c
        unfold Setting.kick
        simp only
        rw [if_neg hf]
      rw [ha]
      unfold Setting.finish
      simp only
      split
      · rw [e, e]
      · rw [e]
    have hdens : ∀ k, a.dens k = (S.predict (scene s)).dens k := by
      intro k; rw [ha, (finish_dens _).1]
    have calm : Calm S (scene s) B U (U + dt • env.g) := by
      refine ⟨rfl, ?_, ?_, ?_, hcg, ?_, ?_, ?_, ?_, ?_⟩
      · intro i j hi hj hBi hBj hdi hdj
        change s.env.neighborLength ≤ len ((s.ps j).x - (s.ps i).x)
        rw [hnl, len_sub, dist_comm']
        exact hapart i j hi hj hBi hBj (by rw [hty i hi]; exact hdi) (by rw [hty j hj]; exact hdj)
      · intro i hi hBi hdi
        exact hu i hi hBi (by rw [hty i hi]; exact hdi)
      · intro i hi hBi hA
        exact hp i hi hBi (by rw [hty i hi]; exact hA.1) (by rw [hty i hi]; exact hA.2)
      · change _ = U + dt • s.env.g; rw [hcg']
      · intro i hi hBi hdi hf
        have e1 : (S.predict (scene s)).u i = U + dt • env.g := by
          rw [← hnf i hf, ← (hs' i hi).2.2.1]
          exact hwall i hi hBi (by rw [hty i hi]; exact hdi) (by rw [hty i hi]; exact hf)
        refine ⟨e1, ?_⟩
        rw [← e1]
        unfold Setting.predict
        simp only
        rw [if_neg hf, if_neg hf]
        change _ = (scene s).x i + dt • ((1 / dt) • (S.callback i - (scene s).x i))
        rw [smul_smul, mul_one_div, div_self hdt, one_smul]; abel
      · change 0 < s.env.n0; rw [hn0']; exact hn0
      · intro _; change 0 ≤ s.env.rho; rw [hrho']; exact hrho
      · change if P.cfg.explicit = true then ∀ i, i < s.n → B i → S.Active i → (S.predict (scene s)).dens i ≤ s.env.n0
          else P.cfg.hs = true ∨ ∀ i, i < s.n → B i → S.Active i → (S.predict (scene s)).dens i = s.env.n0
        rw [hn0']
        split at hquiet
        · rename_i he
          rw [if_pos he]
          intro i hi hBi hA
          rw [← hdens, ← (hs' i hi).2.2.2.2]
          exact hquiet i hi hBi (by rw [hty i hi]; exact hA.1) (by rw [hty i hi]; exact hA.2)
        · rename_i he
          rw [if_neg he]
          refine hquiet.imp id (fun hq i hi hBi hA => ?_)
          rw [← hdens, ← (hs' i hi).2.2.2.2]
          exact hq i hi hBi (by rw [hty i hi]; exact hA.1) (by rw [hty i hi]; exact hA.2)
    have hp0 : ∀ i, i < S.n → B i → S.Active i → p i = 0 := fun i hi hBi hA => calm.pressure_zero hp2 hi hBi hA
    have hu' := calm.finish_id (p := p) hp0 (by
      intro hdd i j hi hj hBi hBj hf hA hne
      have k := hds hdd i j hi hj hBi hBj hne (by rw [hty i hi]; exact hf) (by rw [hty j hj]; exact hA.1) (by rw [hty j hj]; exact hA.2)
      change (s.env.l0 - s.env.maxDx) ^ 2 ≤ len ((s.ps j).x - (s.ps i).x) ^ 2
      rw [hl0', hmd, len_sub, dist_comm', ← sq_abs]
      exact pow_le_pow_left₀ (abs_nonneg _) k 2) hi hB (by rw [← hty i hi]; exact hd)
    refine ⟨?_, C41_position_advances_by_new_velocity hv hdt h i hi, ?_⟩
    · rw [(hs' i hi).2.2.1, ha]; exact hu'
    · intro hdm
      rw [(hs' i hi).2.2.2.1, ha, (finish_dens _).2]
      exact hp0 i hi hB ⟨by rw [← hty i hi]; exact hdm, by rw [← hty i hi]; exact hd⟩

/-- **C60.**  A body of particles without pressure that moves uniformly (in particular: rests) keeps its shape and falls freely, over any number of
steps and whatever the rest of the scene does, as long as no other enabled particle comes within the search radius.  `B` is the body; its particles have
the common velocity `U` and no pressure, its wall particles (if any) are moved along by the callback; with dynamic stabilisation no two of its
particles are closer than `l_0 - MaxDx`.  It must not be compressed: in the explicit mode `N()` stays at most `n0`, in the implicit
mode with `HS` there is no condition, without `HS` `N()` stays `n0`.  After `N` steps of size `dt` every enabled particle of the body has the velocity `U + N dt G`, no pressure, and
has moved by `N dt U + N (N + 1) / 2 dt^2 G`. -/
theorem C60_pressureless_body_keeps_its_shape {P : Params ℝ D ω} {env : Env ℝ D} {w : ω} {s0 : State ℝ D ω} {dts : List ℝ} (hD : D = 2 ∨ D = 3)
    (hnew : State.new? env w = some s0) (hok : s0.grid.ClearOK) (hL : 0 < env.neighborLength) (hre : 0 ≤ env.re) (hn0 : 0 < env.n0)
    (hrho : 0 ≤ env.rho) (hcg : P.cfg.centralGravity = false)
    (st : ℕ → State ℝ D ω) (hist : Hist P s0 dts (st 0)) (sch : ℕ → Schedule) (hv : ∀ k, (sch k).Valid (st 0).n) {dt : ℝ} (hdt : dt ≠ 0) (N : ℕ)
    (hstep : ∀ k, k < N → (st k).forwardTime P (sch k) dt = .ok (st (k + 1)))
    (B : ℕ → Prop) (U : Vec ℝ D)
    (hu : ∀ i, i < (st 0).n → B i → ((st 0).ps i).ty ≠ .disabled → ((st 0).ps i).u = U)
    (hp : ∀ i, i < (st 0).n → B i → ((st 0).ps i).ty ≠ .dummy → ((st 0).ps i).ty ≠ .disabled → ((st 0).ps i).p = 0)
    (hds : P.cfg.ds = true → ∀ i j, i < (st 0).n → j < (st 0).n → B i → B j → i ≠ j → ((st 0).ps i).ty = .incompressibleNewton →
      ((st 0).ps j).ty ≠ .dummy → ((st 0).ps j).ty ≠ .disabled → |env.l0 - env.maxDx| ≤ dist ((st 0).ps i).x ((st 0).ps j).x)
    (hapart : ∀ k, k < N → ∀ i j, i < (st 0).n → j < (st 0).n → B i → ¬ B j → ((st (k + 1)).ps i).ty ≠ .disabled → ((st (k + 1)).ps j).ty ≠ .disabled →
      env.neighborLength ≤ dist ((st k).ps i).x ((st k).ps j).x)
    (hwall : ∀ k, k < N → ∀ i, i < (st 0).n → B i → ((st (k + 1)).ps i).ty ≠ .disabled → ((st (k + 1)).ps i).ty ≠ .incompressibleNewton →
      ((st (k + 1)).ps i).u = ((st k).ps i).u + dt • env.g)
    (hquiet : if P.cfg.explicit then
        ∀ k, k < N → ∀ i, i < (st 0).n → B i → ((st (k + 1)).ps i).ty ≠ .dummy → ((st (k + 1)).ps i).ty ≠ .disabled → ((st (k + 1)).ps i).n ≤ env.n0
      else P.cfg.hs = true ∨
        ∀ k, k < N → ∀ i, i < (st 0).n → B i → ((st (k + 1)).ps i).ty ≠ .dummy → ((st (k + 1)).ps i).ty ≠ .disabled → ((st (k + 1)).ps i).n = env.n0)
    {i : ℕ} (hi : i < (st 0).n) (hB : B i) (hd : ((st N).ps i).ty ≠ .disabled) :
    ((st N).ps i).u = U + (N * dt) • env.g ∧
    ((st N).ps i).x = ((st 0).ps i).x + (N * dt) • U + (N * (N + 1) / 2 * dt ^ 2) • env.g ∧
    (((st N).ps i).ty ≠ .dummy → ((st N).ps i).p = 0) := by
  have hh : ∀ k, k ≤ N → (∃ dts, Hist P s0 dts (st k)) ∧ (st k).n = (st 0).n := by
    intro k
    induction k with
    | zero => intro _; exact ⟨⟨_, hist⟩, rfl⟩
    | succ k ih =>
      intro hk
      obtain ⟨⟨d, h1⟩, h2⟩ := ih (by omega)
      have hv' : (sch k).Valid (st k).n := by rw [h2]; exact hv k
      exact ⟨⟨_, .forward (sch k) dt h1 hv' (Or.inl (hstep k (by omega)))⟩,
        (step_frame hv' (Or.inl (hstep k (by omega)))).1.trans h2⟩
  have key : ∀ k, k ≤ N → ∀ i, i < (st 0).n → B i → ((st k).ps i).ty ≠ .disabled →
      ((st k).ps i).ty = ((st 0).ps i).ty ∧
      ((st k).ps i).u = U + (k * dt) • env.g ∧
      ((st k).ps i).x = ((st 0).ps i).x + (k * dt) • U + (k * (k + 1) / 2 * dt ^ 2) • env.g ∧
      (((st k).ps i).ty ≠ .dummy → ((st k).ps i).p = 0) := by
    intro k
    induction k with
    | zero => intro _ i hi hB hd; exact ⟨rfl, by simp [hu i hi hB hd], by simp, fun h => hp i hi hB h hd⟩
    | succ k ih =>
      intro hk
      obtain ⟨⟨d, h1⟩, h2⟩ := hh k (by omega)
      have ih := ih (by omega)
      have hs := hstep k (by omega)
      have hv' : (sch k).Valid (st k).n := by rw [h2]; exact hv k
      have hty : ∀ i, ((st (k + 1)).ps i).ty ≠ .disabled → ((st (k + 1)).ps i).ty = ((st k).ps i).ty ∧ ((st k).ps i).ty ≠ .disabled := by
        intro i hd
        rcases (step_frame hv' (Or.inl hs)).2.2.2.2 i with q | ⟨-, -, q, -⟩
        · exact ⟨q, by rw [← q]; exact hd⟩
        · exact absurd q hd
      intro i hi hB hd
      obtain ⟨c1, c2, c3⟩ := calm_step hD hnew h1 hok hL hre hn0 hrho hcg (sch k) hv' hdt hs (B := B) (U := U + (k * dt) • env.g)
        (fun i hi hB hd => (ih i (by rw [← h2]; exact hi) hB (hty i hd).2).2.1)
        (fun i hi hB hm hd => (ih i (by rw [← h2]; exact hi) hB (hty i hd).2).2.2.2 (by rw [← (hty i hd).1]; exact hm))
        (fun i j hi hj => hapart k (by omega) i j (by rw [← h2]; exact hi) (by rw [← h2]; exact hj))
        (fun i hi hB hd hf => by
          rw [hwall k (by omega) i (by rw [← h2]; exact hi) hB hd hf, (ih i (by rw [← h2]; exact hi) hB (hty i hd).2).2.1])
        (by
          rw [h2]
          split at hquiet
          · rename_i he; rw [if_pos he]; exact hquiet k (by omega)
          · rename_i he; rw [if_neg he]; exact hquiet.imp id (fun q => q k (by omega)))
        (by
          intro hdd i j hi hj hBi hBj hne hf hm hd
          have hdi : ((st (k + 1)).ps i).ty ≠ .disabled := by rw [hf]; decide
          obtain ⟨t1, -, x1, -⟩ := ih i (by rw [← h2]; exact hi) hBi (hty i hdi).2
          obtain ⟨t2, -, x2, -⟩ := ih j (by rw [← h2]; exact hj) hBj (hty j hd).2
          have := hds hdd i j (by rw [← h2]; exact hi) (by rw [← h2]; exact hj) hBi hBj hne (by rw [← t1, ← (hty i hdi).1]; exact hf)
            (by rw [← t2, ← (hty j hd).1]; exact hm) (by rw [← t2]; exact (hty j hd).2)
          rw [← len_sub] at this ⊢
          rw [x1, x2]
          convert this using 2
          abel)
        (i := i) (by rw [h2]; exact hi) hB hd
      obtain ⟨i0, i1, i2, -⟩ := ih i hi hB (hty i hd).2
      refine ⟨(hty i hd).1.trans i0, ?_, ?_, c3⟩
      · rw [c1]; funext a
        simp only [Pi.add_apply, Pi.smul_apply, smul_eq_mul]; push_cast; ring
      · rw [c2, c1, i2]; funext a
        simp only [Pi.add_apply, Pi.smul_apply, smul_eq_mul]; push_cast; ring
  exact (key N (le_refl _) i hi hB hd).2

/-- **C60.**  A scene that is one such body is never stopped by the solver (implicit mode with `HS`): nothing is compressed, and the solver finds the
pressures zero without an iteration. -/
theorem C60_scene_in_uniform_motion_is_solved {P : Params ℝ D ω} {env : Env ℝ D} {w : ω} {s0 s : State ℝ D ω} {dts : List ℝ} (hD : D = 2 ∨ D = 3)
    (hnew : State.new? env w = some s0) (hist : Hist P s0 dts s) (hok : s0.grid.ClearOK) (hL : 0 < env.neighborLength) (hre : 0 ≤ env.re)
    (hn0 : 0 < env.n0) (hcg : P.cfg.centralGravity = false) (hhs : P.cfg.explicit = false ∧ P.cfg.hs = true)
    (sch : Schedule) (hv : sch.Valid s.n) {dt : ℝ} (hdt : dt ≠ 0) {U : Vec ℝ D}
    (hu : ∀ i, i < s.n → (s.ps i).ty ≠ .disabled → (s.ps i).u = U)
    (hp : ∀ i, i < s.n → (s.ps i).ty ≠ .dummy → (s.ps i).ty ≠ .disabled → (s.ps i).p = 0)
    (hwall : ∀ i, i < s.n → (s.ps i).ty ≠ .disabled → (s.ps i).ty ≠ .incompressibleNewton →
      P.walls.pos (P.walls.pre s.world (s.env.t + dt) dt) i (s.env.t + dt) dt = (s.ps i).x + dt • (U + dt • env.g)) :
    ¬ ∃ s', s.forwardTime P sch dt = .exn .solver s' := by
  classical
  have hc := hist_consts hnew hist
  have hcg' : s.env.g = env.g := hist_g hnew hist
  have hn0' : s.env.n0 = env.n0 := by rw [hc]
  rw [(C42_outcome hD hnew hist hok hL hre sch hv dt).2.1]
  rintro ⟨-, hnone⟩
  set S := setting P s dt with hS
  have hty : ∀ i, S.ty i ≠ .disabled → S.ty i = (s.ps i).ty := by
    intro i hd
    change (if _ then _ else _) ≠ _ at hd
    change (if _ then _ else _) = _
    split at hd
    · exact absurd rfl hd
    · rename_i k; rw [if_neg k]
  have calm : Calm S (scene s) (fun _ => True) U (U + dt • env.g) := by
    refine ⟨rfl, ?_, ?_, ?_, hcg, ?_, ?_, ?_, ?_, ?_⟩
    · intro i j _ _ _ hn; exact absurd trivial hn
    · intro i hi _ hd; exact hu i hi (by rw [← hty i hd]; exact hd)
    · intro i hi _ hA; exact hp i hi (by rw [← hty i hA.2]; exact hA.1) (by rw [← hty i hA.2]; exact hA.2)
    · change _ = U + dt • s.env.g; rw [hcg']
    · intro i hi _ hd hf
      have hcb : S.callback i = (s.ps i).x + dt • (U + dt • env.g) :=
        hwall i hi (by rw [← hty i hd]; exact hd) (by rw [← hty i hd]; exact hf)
      unfold Setting.predict
      simp only
      rw [if_neg hf, if_neg hf]
      refine ⟨?_, hcb⟩
      rw [hcb]
      change (1 / dt) • ((s.ps i).x + dt • (U + dt • env.g) - (s.ps i).x) = _
      rw [add_sub_cancel_left, smul_smul, one_div, inv_mul_cancel₀ hdt, one_smul]
    · change 0 < s.env.n0; rw [hn0']; exact hn0
    · intro he; rw [show S.cfg.explicit = false from hhs.1] at he; cases he
    · rw [if_neg (by rw [show S.cfg.explicit = false from hhs.1]; decide)]
      exact Or.inl hhs.2
  obtain ⟨p, hpr⟩ := calm.solved (fun _ _ => trivial) P.eps
  unfold Setting.step at hnone
  rw [hpr] at hnone
  cases hnone

end OpenMps
