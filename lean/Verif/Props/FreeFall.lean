import Verif.Props.Examples

/-! # Free fall in terms of the constructor arguments, over many steps (C36) -/

namespace OpenMps

variable {D : Nat} {ω : Type}

theorem hist_g {P : Params ℝ D ω} {env : Env ℝ D} {w : ω} {s0 s : State ℝ D ω} {dts : List ℝ}
    (hnew : State.new? env w = some s0) (hist : Hist P s0 dts s) : s.env.g = env.g := by
  have h0 : s0.env = env := by
    unfold State.new? at hnew
    split at hnew
    · cases hnew
    · cases hnew; rfl
  refine Hist.rec' (Q := fun _ s => s.env.g = env.g) (by rw [h0]) ?_ ?_ hist
  · intro _ _ _ _ h; exact h
  · intro _ _ _ _ _ _ h hv hl
    rw [(step_frame hv hl).2.1]; exact h

/-- **C36.**  In a computer built from an environment with gravity `g`, influence radius `r_e = r_eByl_0 * l_0` and Courant number `courant`: a fluid particle
that has no other enabled particle closer than `r_e * (1 + 2 * courant)` keeps the horizontal components of its velocity, and the vertical (last) one decreases by
`g dt`; its position changes by the new velocity times `dt`. -/
theorem C36_free_fall_is_downwards {P : Params ℝ D ω} {e : EnvArgs ℝ D} {env : Env ℝ D} {w : ω} {s0 s s' : State ℝ D ω} {dts : List ℝ}
    (hmk : Env.mk? P.cfg e = some env) (hre : 0 < e.reByL0) (hl0 : 0 < e.l0) (hc : 0 ≤ e.courant)
    (hnew : State.new? env w = some s0) (hist : Hist P s0 dts s) (hok : s0.grid.ClearOK) (hcg : P.cfg.centralGravity = false)
    (sch : Schedule) (hv : sch.Valid s.n) (dt : ℝ) (h : s.forwardTime P sch dt = .ok s')
    (i : Nat) (hi : i < s.n) (hf : (s'.ps i).ty = .incompressibleNewton)
    (hiso : ∀ j, j < s.n → j ≠ i → (s'.ps j).ty ≠ .disabled → e.reByL0 * e.l0 * (1 + 2 * e.courant) ≤ dist (s.ps i).x (s.ps j).x) :
    (∀ a : Fin D, a.val + 1 < D → (s'.ps i).u a = (s.ps i).u a) ∧
    (∀ a : Fin D, a.val + 1 = D → (s'.ps i).u a = (s.ps i).u a - e.g * dt) ∧
    ∀ a, (s'.ps i).x a = (s.ps i).x a + (s'.ps i).u a * dt := by
  obtain ⟨v1, v2, v3, v4, v5, v6, v7, v8⟩ := envmk_real hmk
  have hL : env.neighborLength = e.reByL0 * e.l0 * (1 + 2 * e.courant) := by rw [v2]; ring
  have hL0 : 0 < env.neighborLength := by rw [hL]; positivity
  obtain ⟨k1, k2⟩ := C36_isolated_particle_falls_freely hnew hist hok hL0 hcg sch hv dt h i hi hf (by rw [hL]; exact hiso)
  rw [hist_g hnew hist, v5] at k1
  refine ⟨fun a ha => ?_, fun a ha => ?_, fun a => ?_⟩
  · rw [k1]
    show (s.ps i).u a + dt * (if a.val + 1 = D then -e.g else Scalar.ofInt 0) = _
    rw [if_neg (by omega), ofInt_real]; simp
  · rw [k1]
    show (s.ps i).u a + dt * (if a.val + 1 = D then -e.g else Scalar.ofInt 0) = _
    rw [if_pos ha]; ring
  · rw [k2]
    show (s.ps i).x a + dt * (s'.ps i).u a = _
    ring

/-- **C36.**  The trajectory over any number of steps of size `dt`: as long as the particle stays alone, after `N` steps its velocity is `u_0 + N dt G` and its
position `x_0 + N dt u_0 + N (N + 1) / 2 dt^2 G` (the exact parabola up to `N dt^2 G / 2`, i.e. an error of first order in `dt`). -/
theorem C36_trajectory_of_isolated_particle {P : Params ℝ D ω} {env : Env ℝ D} {w : ω} {s0 : State ℝ D ω} {dts : List ℝ}
    (hnew : State.new? env w = some s0) (hok : s0.grid.ClearOK) (hL : 0 < env.neighborLength) (hcg : P.cfg.centralGravity = false)
    (st : Nat → State ℝ D ω) (hist : Hist P s0 dts (st 0)) (sch : Nat → Schedule) (hv : ∀ k, (sch k).Valid (st 0).n) (dt : ℝ) (N : Nat)
    (hstep : ∀ k, k < N → (st k).forwardTime P (sch k) dt = .ok (st (k + 1)))
    (i : Nat) (hi : i < (st 0).n) (hf : ((st N).ps i).ty = .incompressibleNewton)
    (hiso : ∀ k, k < N → ∀ j, j < (st 0).n → j ≠ i → ((st (k + 1)).ps j).ty ≠ .disabled →
      env.neighborLength ≤ dist ((st k).ps i).x ((st k).ps j).x) :
    ((st N).ps i).u = ((st 0).ps i).u + (N * dt) • env.g ∧
    ((st N).ps i).x = ((st 0).ps i).x + (N * dt) • ((st 0).ps i).u + (N * (N + 1) / 2 * dt ^ 2) • env.g := by
  have hh : ∀ k, k ≤ N → (∃ dts, Hist P s0 dts (st k)) ∧ (st k).n = (st 0).n := by
    intro k
    induction k with
    | zero => intro _; exact ⟨⟨_, hist⟩, rfl⟩
    | succ k ih =>
      intro hk
      obtain ⟨⟨d, h1⟩, h2⟩ := ih (by omega)
      have hv' : (sch k).Valid (st k).n := by rw [h2]; exact hv k
      exact ⟨⟨_, .forward (sch k) dt h1 hv' (Or.inl (hstep k (by omega)))⟩,
        (step_frame hv' (Or.inl (hstep k (by omega)))).1.trans h2⟩
  -- a particle that is fluid at the end was fluid all the time
  have hfl : ∀ m, m ≤ N → ((st (N - m)).ps i).ty = .incompressibleNewton := by
    intro m
    induction m with
    | zero => intro _; exact hf
    | succ m ih =>
      intro hm
      have h1 := ih (by omega)
      have e : N - m = N - (m + 1) + 1 := by omega
      rw [e] at h1
      obtain ⟨-, h2⟩ := hh (N - (m + 1)) (by omega)
      rcases (step_frame (by rw [h2]; exact hv _) (Or.inl (hstep (N - (m + 1)) (by omega)))).2.2.2.2 i with k | ⟨-, -, k, -⟩
      · rw [← k]; exact h1
      · rw [k] at h1; cases h1
  have key : ∀ k, k ≤ N → ((st k).ps i).u = ((st 0).ps i).u + (k * dt) • env.g ∧
      ((st k).ps i).x = ((st 0).ps i).x + (k * dt) • ((st 0).ps i).u + (k * (k + 1) / 2 * dt ^ 2) • env.g := by
    intro k
    induction k with
    | zero => intro _; simp
    | succ k ih =>
      intro hk
      obtain ⟨i1, i2⟩ := ih (by omega)
      obtain ⟨⟨d, h1⟩, h2⟩ := hh k (by omega)
      have hfk : ((st (k + 1)).ps i).ty = .incompressibleNewton := by
        have := hfl (N - (k + 1)) (by omega)
        rwa [show N - (N - (k + 1)) = k + 1 by omega] at this
      obtain ⟨k1, k2⟩ := C36_isolated_particle_falls_freely hnew h1 hok hL hcg (sch k) (by rw [h2]; exact hv k) dt (hstep k (by omega)) i
        (by rw [h2]; exact hi) hfk (by rw [h2]; exact hiso k (by omega))
      rw [hist_g hnew h1] at k1
      constructor
      · rw [k1, i1]; funext a
        simp only [Pi.add_apply, Pi.smul_apply, smul_eq_mul]; push_cast; ring
      · rw [k2, k1, i1, i2]; funext a
        simp only [Pi.add_apply, Pi.smul_apply, smul_eq_mul]; push_cast; ring
  exact key N (le_refl _)

/-- The single drop of `Props/Examples.lean`: its horizontal velocity stays 0, the vertical one becomes `-9.8 * dt`. -/
example : ∃ s', dropState.forwardTime dropP (Schedule.serial 4) (1 / 100) = .ok s' ∧
    (s'.ps 3).u 0 = 0 ∧ (s'.ps 3).u 1 = - (98 / 10) * (1 / 100) := by
  obtain ⟨s', h⟩ := dropState_step (dt := 1 / 100) (by norm_num) (le_refl _)
  have hu : (dropState.ps 3).u = 0 := (dropState_x 3 (by norm_num)).2.1
  obtain ⟨k1, k2, -⟩ := C36_free_fall_is_downwards dropEnv_eq (by simp only [latticeArgs]; norm_num) (by simp only [latticeArgs]; norm_num)
    (by simp only [latticeArgs]; norm_num) dropNew_eq (dropState_hist dropP) dropNew_ok rfl _
    (Schedule.serial_valid 4) _ h 3 (by decide) (dropState_types h 3 (by norm_num)) (by
      intro j hj hne _
      have hj : j < 4 := hj
      rw [(dropState_x 3 (by norm_num)).1, (dropState_x j hj).1]
      have e : latticeArgs.reByL0 * latticeArgs.l0 * (1 + 2 * latticeArgs.courant) = 288 / 1000 := by
        simp only [latticeArgs]; norm_num
      rw [e]
      by_contra hc
      exact ((dropX_dist (by norm_num) hj hne.symm).mp (not_le.mp hc)).1 rfl)
  refine ⟨s', h, ?_, ?_⟩
  · rw [k1 0 (by decide), hu]; rfl
  · rw [k2 1 (by decide), hu]
    simp only [latticeArgs, Pi.zero_apply]; norm_num

end OpenMps
