import Verif.Props.Momentum

/-! # Properties C12, C13, C15, C16, C20, C29, C38, C39 in exact arithmetic -/

set_option linter.unusedSectionVars false

namespace OpenMps

variable {D : Nat} {ω : Type}

theorem stdMin_real (a b : ℝ) : stdMin a b = min a b := by
  unfold stdMin
  simp only [lt_real, decide_eq_true_eq]
  split
  · rename_i h; exact (min_eq_right h.le).symm
  · rename_i h; exact (min_eq_left (not_lt.mp h)).symm

/-! ## C12 -/

/-- **C12.**  A `ForwardTime` call with a positive step strictly increases the time, by exactly the step, also when it throws. -/
theorem C12_time_strictly_increases {P : Params ℝ D ω} {s s' : State ℝ D ω} {sch : Schedule} {dt : ℝ} (hv : sch.Valid s.n)
    (hdt : 0 < dt) (h : (s.forwardTime P sch dt).leaves s') : s'.env.t = s.env.t + dt ∧ s.env.t < s'.env.t := by
  have : s'.env.t = s.env.t + dt := by rw [(step_frame hv h).2.1]
  exact ⟨this, by rw [this]; linarith⟩

/-! ## C13 -/

theorem fastest_spec (s : State ℝ D ω) (hn : 0 < s.n) :
    s.fastest < s.n ∧ ∀ i, i < s.n → dot (s.ps i).u (s.ps i).u ≤ dot (s.ps s.fastest).u (s.ps s.fastest).u := by
  have key : ∀ m, (List.range m).foldl (fun best k =>
        if Scalar.lt (dot (s.ps best).u (s.ps best).u) (dot (s.ps (k + 1)).u (s.ps (k + 1)).u) then k + 1 else best) 0 ≤ m ∧
      ∀ i, i ≤ m → dot (s.ps i).u (s.ps i).u ≤
        dot (s.ps ((List.range m).foldl (fun best k =>
          if Scalar.lt (dot (s.ps best).u (s.ps best).u) (dot (s.ps (k + 1)).u (s.ps (k + 1)).u) then k + 1 else best) 0)).u
          (s.ps ((List.range m).foldl (fun best k =>
          if Scalar.lt (dot (s.ps best).u (s.ps best).u) (dot (s.ps (k + 1)).u (s.ps (k + 1)).u) then k + 1 else best) 0)).u := by
    intro m
    induction m with
    | zero =>
      refine ⟨le_refl _, ?_⟩
      intro i hi
      have : i = 0 := by omega
      subst this
      exact le_refl _
    | succ m ih =>
      rw [List.range_succ, List.foldl_append]
      simp only [List.foldl_cons, List.foldl_nil]
      generalize (List.range m).foldl (fun best k =>
          if Scalar.lt (dot (s.ps best).u (s.ps best).u) (dot (s.ps (k + 1)).u (s.ps (k + 1)).u) then k + 1 else best) 0 = b at ih ⊢
      by_cases h : dot (s.ps b).u (s.ps b).u < dot (s.ps (m + 1)).u (s.ps (m + 1)).u
      · rw [if_pos (lt_real_iff.mpr h)]
        refine ⟨le_refl _, ?_⟩
        intro i hi
        rcases Nat.lt_or_ge m i with h1 | h1
        · have : i = m + 1 := by omega
          rw [this]
        · exact (ih.2 i h1).trans h.le
      · rw [if_neg (fun hc => h (lt_real_iff.mp hc))]
        refine ⟨Nat.le_succ_of_le ih.1, ?_⟩
        intro i hi
        rcases Nat.lt_or_ge m i with h1 | h1
        · have : i = m + 1 := by omega
          rw [this]
          exact not_lt.mp h
        · exact ih.2 i h1
  unfold State.fastest
  obtain ⟨h1, h2⟩ := key (s.n - 1)
  exact ⟨by omega, fun i hi => h2 i (by omega)⟩

/-- **C13.**  With at least one particle and positive limits the automatic step is positive, does not exceed `MaxDt`, moves no particle
(at its current speed) by more than `MaxDx`, and is the largest such step. -/
theorem C13_automatic_step_is_largest_cfl_step (s : State ℝ D ω) (hn : 0 < s.n) (hdt : 0 < s.env.maxDt) (hdx : 0 < s.env.maxDx) :
    ∃ dt, s.determineDt = some dt ∧ 0 < dt ∧ dt ≤ s.env.maxDt ∧ (∀ i, i < s.n → norm2 (s.ps i).u * dt ≤ s.env.maxDx) ∧
      ∀ dt', dt' ≤ s.env.maxDt → (∀ i, i < s.n → norm2 (s.ps i).u * dt' ≤ s.env.maxDx) → dt' ≤ dt := by
  obtain ⟨hf, hmax⟩ := fastest_spec s hn
  have hle : ∀ i, i < s.n → norm2 (s.ps i).u ≤ norm2 (s.ps s.fastest).u := by
    intro i hi; rw [norm2_real, norm2_real]; exact Real.sqrt_le_sqrt (hmax i hi)
  have h0 : ∀ v : Vec ℝ D, 0 ≤ norm2 v := fun v => by rw [norm2_real]; exact Real.sqrt_nonneg _
  unfold State.determineDt
  rw [if_neg (by omega)]
  simp only
  by_cases hu : norm2 (s.ps s.fastest).u = 0
  · have : Scalar.eq (norm2 (s.ps s.fastest).u) 0 = true := by rw [eq_real, decide_eq_true_eq]; exact hu
    rw [if_pos this]
    refine ⟨_, rfl, hdt, le_refl _, ?_, fun dt' h _ => h⟩
    intro i hi
    have : norm2 (s.ps i).u = 0 := le_antisymm (by rw [← hu]; exact hle i hi) (h0 _)
    rw [this, zero_mul]; exact hdx.le
  · have hup : 0 < norm2 (s.ps s.fastest).u := lt_of_le_of_ne (h0 _) (Ne.symm hu)
    have : ¬ Scalar.eq (norm2 (s.ps s.fastest).u) 0 = true := by rw [eq_real, decide_eq_true_eq]; exact hu
    rw [if_neg this, stdMin_real]
    refine ⟨_, rfl, lt_min (div_pos hdx hup) hdt, min_le_right _ _, ?_, ?_⟩
    · intro i hi
      have hm : 0 ≤ min (s.env.maxDx / norm2 (s.ps s.fastest).u) s.env.maxDt := (lt_min (div_pos hdx hup) hdt).le
      calc norm2 (s.ps i).u * min (s.env.maxDx / norm2 (s.ps s.fastest).u) s.env.maxDt
          ≤ norm2 (s.ps s.fastest).u * (s.env.maxDx / norm2 (s.ps s.fastest).u) :=
            mul_le_mul (hle i hi) (min_le_left _ _) hm hup.le
        _ = s.env.maxDx := mul_div_cancel₀ _ hu
    · intro dt' h1 h2
      refine le_min ?_ h1
      rw [le_div_iff₀ hup, mul_comm]
      exact h2 _ hf

/-- **C13.**  The limits in terms of the constructor arguments: with positive arguments `MaxDt` and `MaxDx` are positive, `MaxDx` is
`courant * l0` and `MaxDt` does not exceed the given maximum, nor (implicit) the time in which gravity alone covers `courant * l0`,
nor (explicit) the time a sound wave needs for it. -/
theorem C13_limits_of_constructor (cfg : Config) (e : EnvArgs ℝ D) (h1 : 0 < e.maxDt) (h2 : 0 < e.courant) (h3 : 0 < e.l0)
    (h4 : 0 < e.g) (h5 : 0 < e.c) :
    ∃ env, Env.mk? cfg e = some env ∧ 0 < env.maxDt ∧ env.maxDx = e.courant * e.l0 ∧ 0 < env.maxDx ∧ env.maxDt ≤ e.maxDt ∧
      (cfg.explicit = false → 1 / 2 * e.g * env.maxDt * env.maxDt ≤ e.courant * e.l0) ∧
      (cfg.explicit = true → e.c * env.maxDt ≤ e.courant * e.l0) := by
  unfold Env.mk?
  simp only [Scalar.ceilIdx]
  have hcl : 0 < e.courant * e.l0 := mul_pos h2 h3
  refine ⟨_, rfl, ?_, rfl, hcl, ?_, ?_, ?_⟩
  · simp only [stdMin_real]
    split
    · exact lt_min h1 (div_pos hcl h5)
    · refine lt_min h1 ?_
      rw [sqrt_real, ofInt_real]
      apply Real.sqrt_pos.mpr
      positivity
  · simp only [stdMin_real]
    split <;> exact min_le_left _ _
  · intro hex
    simp only [stdMin_real, hex, Bool.false_eq_true, if_false, sqrt_real, ofInt_real]
    have hq : 0 ≤ ((2 : ℤ) : ℝ) * (e.courant * e.l0) / e.g := by positivity
    have hle := min_le_right e.maxDt (Real.sqrt (((2 : ℤ) : ℝ) * (e.courant * e.l0) / e.g))
    have h0 : 0 ≤ min e.maxDt (Real.sqrt (((2 : ℤ) : ℝ) * (e.courant * e.l0) / e.g)) := le_min h1.le (Real.sqrt_nonneg _)
    have hsq := mul_le_mul hle hle h0 (Real.sqrt_nonneg _)
    rw [Real.mul_self_sqrt hq] at hsq
    rw [le_div_iff₀ h4] at hsq
    push_cast at hsq ⊢
    linarith
  · intro hex
    simp only [stdMin_real, hex, if_true]
    have hle := min_le_right e.maxDt (e.courant * e.l0 / e.c)
    rw [le_div_iff₀ h5] at hle
    linarith

/-- **C13.**  Without particles the automatic step is undefined (`*max_element` of an empty range), in any arithmetic. -/
theorem C13_no_particles_is_undefined {F : Type} [Scalar F] (P : Params F D ω) (sch : Schedule) (s : State F D ω) (hn : s.n = 0) :
    s.forwardTimeAuto P sch = .ub := by
  unfold State.forwardTimeAuto State.determineDt
  rw [if_pos hn]

/-! ## C15 -/

/-- **C15.**  With such a callback and `dt != 0`, a static wall has velocity zero after every successful step. -/
theorem C15_static_walls_have_zero_velocity {P : Params ℝ D ω} {s0 s s' : State ℝ D ω} {dts : List ℝ} (h : Hist P s0 dts s)
    (i : Nat) (hi : i < s0.n) (hty : (s0.ps i).ty ≠ .incompressibleNewton)
    (hcb : ∀ (w : ω) (t dt : ℝ), P.walls.pos w i t dt = (s0.ps i).x)
    (sch : Schedule) (hv : sch.Valid s.n) (dt : ℝ) (hstep : s.forwardTime P sch dt = .ok s') : (s'.ps i).u = 0 := by
  have hin : i < s.n := lt_of_lt_of_le hi h.frame.1
  have h1 := C15_static_walls_stay h i hi hty hcb
  have h2 := C15_static_walls_stay (.forward sch dt h hv (Or.inl hstep)) i hi hty hcb
  have ht : (s'.ps i).ty ≠ .incompressibleNewton := by
    have := C10_type_only_changes_to_disabled (.forward sch dt h hv (Or.inl hstep)) i hi
    rcases this.1 with k | k
    · rw [k]; exact hty
    · rw [k]; decide
  rw [((C14_nonfluid_follows_callback hv hstep).2 i hin ht).2, h1, h2, sub_self]
  funext a
  exact zero_div dt

/-! ## C39, C16 -/

/-- **C39.**  With the explicit pressure, after a successful step the pressure of every particle (any type) is `0` if its density is at
most `n0` and `c^2 rho0 (n/n0 - 1)` otherwise. -/
theorem C39_equation_of_state {P : Params ℝ D ω} {s s' : State ℝ D ω} {sch : Schedule} {dt : ℝ} (hex : P.cfg.explicit = true)
    (hv : sch.Valid s.n) (h : s.forwardTime P sch dt = .ok s') (hrho : 0 < s.env.rho) (hn0 : 0 < s.env.n0)
    (i : Nat) (hi : i < s.n) :
    (s'.ps i).p = if (s'.ps i).n ≤ s.env.n0 then 0 else s.env.c ^ 2 * s.env.rho * ((s'.ps i).n / s.env.n0 - 1) := by
  obtain ⟨s1, h1, h2⟩ := forwardTime_ok hv h
  obtain ⟨g0, g, nb, k1, k2, k3, k4, -⟩ := searchNeighbor_ok_frame (s := s.start dt) (hv 0) h1
  obtain ⟨s2, h3, rfl⟩ := afterSearch_ok h2
  rcases pressureC_ok h3 with ⟨-, h6⟩ | ⟨he, -⟩
  · have hin : i < (s1.midC P).n := by rw [midC_n, k3]; exact hi
    have hp : (s2.ps i).p = (State.eosCompute (s1.midC P) i).getD ((s1.midC P).ps i).p := by
      rw [h6]; simp [State.presC, hin]
    have hnn : (s2.ps i).n = ((s1.midC P).ps i).n := by rw [h6]; exact presC_nn _ _ _
    have henv : (s1.midC P).env = (s.start dt).env := by rw [midC_env, k3]; rfl
    rw [dsC_p, gradC_p, dsC_nn, gradC_nn, hp, hnn]
    unfold State.eosCompute
    simp only [Option.getD_some, henv, le_real, decide_eq_true_eq]
    change (if s.env.rho / s.env.n0 * ((s1.midC P).ps i).n ≤ s.env.rho then (0 : ℝ)
      else s.env.c * s.env.c * (s.env.rho / s.env.n0 * ((s1.midC P).ps i).n - s.env.rho)) = _
    have hiff : s.env.rho / s.env.n0 * ((s1.midC P).ps i).n ≤ s.env.rho ↔ ((s1.midC P).ps i).n ≤ s.env.n0 := by
      rw [div_mul_eq_mul_div, div_le_iff₀ hn0]
      exact mul_le_mul_iff_right₀ hrho
    simp only [hiff]
    split
    · rfl
    · field_simp
  · rw [hex] at he; cases he

/-- **C39.**  The equation of state is non-negative and monotone in the density. -/
theorem C39_monotone (c rho n0 : ℝ) (hrho : 0 < rho) (hn0 : 0 < n0) :
    let p := fun n : ℝ => if n ≤ n0 then 0 else c ^ 2 * rho * (n / n0 - 1)
    (∀ n, 0 ≤ p n) ∧ Monotone p := by
  intro p
  have hpos : ∀ n, n0 < n → 0 ≤ c ^ 2 * rho * (n / n0 - 1) := by
    intro n hn
    have : 1 ≤ n / n0 := by rw [le_div_iff₀ hn0]; linarith
    have : 0 ≤ n / n0 - 1 := by linarith
    positivity
  refine ⟨?_, ?_⟩
  · intro n
    simp only [p]
    split
    · exact le_refl _
    · rename_i h; exact hpos n (not_le.mp h)
  · intro n m hnm
    simp only [p]
    split
    · split
      · exact le_refl _
      · rename_i h; exact hpos m (not_le.mp h)
    · rename_i h
      rw [if_neg (by linarith [not_le.mp h])]
      have : n / n0 ≤ m / n0 := div_le_div_of_nonneg_right hnm hn0.le
      exact mul_le_mul_of_nonneg_left (by linarith) (by positivity)

/-- **C16**, explicit pressure in exact arithmetic: no particle has a negative pressure. -/
theorem C16_explicit_pressure_not_negative {P : Params ℝ D ω} {s s' : State ℝ D ω} {sch : Schedule} {dt : ℝ}
    (hex : P.cfg.explicit = true) (hv : sch.Valid s.n) (h : s.forwardTime P sch dt = .ok s') (hrho : 0 < s.env.rho)
    (hn0 : 0 < s.env.n0) (i : Nat) (hi : i < s.n) : 0 ≤ (s'.ps i).p := by
  rw [C39_equation_of_state hex hv h hrho hn0 i hi]
  exact (C39_monotone s.env.c s.env.rho s.env.n0 hrho hn0).1 _

/-- **C16**, implicit pressure in exact arithmetic. -/
theorem C16_implicit_pressure_not_negative {P : Params ℝ D ω} {s s' : State ℝ D ω} {sch : Schedule} {dt : ℝ}
    (hex : P.cfg.explicit = false) (hv : sch.Valid s.n) (h : s.forwardTime P sch dt = .ok s') (i : Nat) (hi : i < s.n)
    (hd1 : (s'.ps i).ty ≠ .dummy) (hd2 : (s'.ps i).ty ≠ .disabled) : 0 ≤ (s'.ps i).p := by
  have := (C16_pressure_not_negative (by simp [lt_real]) hex hv h i hi).1 hd1 hd2
  rw [lt_real, decide_eq_false_iff_not, not_lt] at this
  exact this

/-! ## C20 -/

/-- **C20.**  The automatic step depends on disabled particles: adding one disabled particle with a non-zero velocity `v` limits it to
`MaxDx/|v|`, whatever the other particles do. -/
theorem C20_disabled_particle_limits_automatic_step (s : State ℝ D ω) (hdt : 0 < s.env.maxDt) (hdx : 0 < s.env.maxDx)
    (q : Particle ℝ D) (hv : q.u ≠ 0) :
    ∃ dt, (s.addParticles [{ q with ty := .disabled }]).determineDt = some dt ∧ dt ≤ s.env.maxDx / norm2 q.u := by
  obtain ⟨dt, h1, h2, h3, h4, -⟩ := C13_automatic_step_is_largest_cfl_step (s.addParticles [{ q with ty := .disabled }])
    (Nat.succ_pos _) hdt hdx
  refine ⟨dt, h1, ?_⟩
  have := h4 s.n (Nat.lt_succ_self _)
  have hq : ((s.addParticles [{ q with ty := .disabled }]).ps s.n).u = q.u := by simp [State.addParticles]
  rw [hq] at this
  rw [le_div_iff₀ (norm2_pos hv), mul_comm]
  exact this

/-! ## C29 -/

/-- **C29.**  The weight function: non-negative; positive exactly for `0 < r < r_e`; strictly decreasing there; and it tends to 0 at `r_e`. -/
theorem C29_weight_is_proper_kernel (re : ℝ) :
    (∀ r, 0 ≤ W r re) ∧ (∀ r, W r re ≠ 0 ↔ 0 < r ∧ r < re) ∧
    (∀ r r', 0 < r → r < r' → r' ≤ re → W r' re < W r re) ∧
    (0 < re → Filter.Tendsto (fun r => W r re) (nhds re) (nhds 0)) := by
  refine ⟨fun r => W_nonneg r re, ?_, ?_, ?_⟩
  · intro r
    constructor
    · intro h
      by_contra hc
      exact h (by rw [W_real, if_neg hc])
    · rintro ⟨h1, h2⟩; exact (W_pos h1 h2).ne'
  · intro r r' h0 h1 h2
    have hr : r < re := lt_of_lt_of_le h1 h2
    by_cases hlt : r' < re
    · rw [W_real, W_real, if_pos ⟨by linarith, hlt⟩, if_pos ⟨h0, hr⟩]
      have := div_lt_div_of_pos_left (by linarith : 0 < re) h0 h1
      linarith
    · rw [W_real r', if_neg (fun hc => hlt hc.2)]
      exact W_pos h0 hr
  · intro hre
    have h1 : Filter.Tendsto (fun r : ℝ => max (re / r - 1) 0) (nhds re) (nhds 0) := by
      have : Filter.Tendsto (fun r : ℝ => max (re / r - 1) 0) (nhds re) (nhds (max (re / re - 1) 0)) := by
        apply Filter.Tendsto.max _ tendsto_const_nhds
        apply Filter.Tendsto.sub_const
        exact Filter.Tendsto.div tendsto_const_nhds Filter.tendsto_id hre.ne'
      rw [div_self hre.ne', sub_self, max_self] at this
      exact this
    refine h1.congr' ?_
    filter_upwards [lt_mem_nhds hre] with r hr
    rw [W_real]
    split
    · rename_i h
      have : 1 ≤ re / r := by rw [le_div_iff₀ h.1]; linarith [h.2]
      exact max_eq_left (by linarith)
    · rename_i h
      have hle : re ≤ r := by
        by_contra hc
        exact h ⟨hr, not_le.mp hc⟩
      have : re / r ≤ 1 := by rw [div_le_one hr]; exact hle
      exact max_eq_right (by linarith)

/-! ## C38 -/

/-- **C38.**  2x2: the result is the inverse of every invertible matrix, and the scaled identity for singular ones. -/
theorem C38_invert_2x2 (m : Mat ℝ 2) (val : ℝ) :
    (Matrix.det (Matrix.of m) ≠ 0 → Matrix.of (invertMatrix m val) * Matrix.of m = 1 ∧ Matrix.of m * Matrix.of (invertMatrix m val) = 1) ∧
    (Matrix.det (Matrix.of m) = 0 → Matrix.of (invertMatrix m val) = Matrix.scalar (Fin 2) val) := by
  have hdet : Matrix.det (Matrix.of m) = det2 (m 0 0) (m 0 1) (m 1 0) (m 1 1) := by
    rw [Matrix.det_fin_two]; rfl
  have hinv : invertMatrix m val = invert2 m val := rfl
  constructor
  · intro h
    have h1 : Matrix.of (invertMatrix m val) * Matrix.of m = 1 := by
      rw [hdet] at h
      have hf : ¬ Scalar.eq (det2 (m 0 0) (m 0 1) (m 1 0) (m 1 1)) 0 = true := by rw [eq_real, decide_eq_true_eq]; exact h
      rw [hinv]
      unfold invert2
      simp only [hf]
      obtain ⟨d, hd⟩ : ∃ d, d = det2 (m 0 0) (m 0 1) (m 1 0) (m 1 1) := ⟨_, rfl⟩
      rw [← hd] at h ⊢
      unfold det2 at hd
      ext i j
      rw [Matrix.mul_apply, Fin.sum_univ_two]
      fin_cases i <;> fin_cases j <;> simp <;> field_simp <;> first | ring1 | (rw [hd]; ring1)
    exact ⟨h1, mul_eq_one_comm.mp h1⟩
  · intro h
    rw [hdet] at h
    have hf : Scalar.eq (det2 (m 0 0) (m 0 1) (m 1 0) (m 1 1)) 0 = true := by rw [eq_real, decide_eq_true_eq]; exact h
    rw [hinv]
    unfold invert2
    simp only [hf, if_true]
    ext i j
    fin_cases i <;> fin_cases j <;> simp [identityMatrix, ofInt_real]

/-- **C38.**  3x3: the result is the transposed inverse of every invertible matrix, hence the inverse of every invertible symmetric
one (the correction matrix is symmetric), and the scaled identity for singular ones. -/
theorem C38_invert_3x3 (m : Mat ℝ 3) (val : ℝ) :
    (Matrix.det (Matrix.of m) ≠ 0 → (Matrix.of (invertMatrix m val)).transpose * Matrix.of m = 1) ∧
    (Matrix.det (Matrix.of m) ≠ 0 → (Matrix.of m).IsSymm →
      Matrix.of (invertMatrix m val) * Matrix.of m = 1 ∧ Matrix.of m * Matrix.of (invertMatrix m val) = 1) ∧
    (Matrix.det (Matrix.of m) = 0 → Matrix.of (invertMatrix m val) = Matrix.scalar (Fin 3) val) := by
  have hdet : Matrix.det (Matrix.of m)
      = det3 (m 0 0) (m 0 1) (m 0 2) (m 1 0) (m 1 1) (m 1 2) (m 2 0) (m 2 1) (m 2 2) := by
    rw [Matrix.det_fin_three]; unfold det3; simp only [Matrix.of_apply]; ring
  have hinv : invertMatrix m val = invert3 m val := rfl
  have key : Matrix.det (Matrix.of m) ≠ 0 → (Matrix.of (invertMatrix m val)).transpose * Matrix.of m = 1 := by
    intro h
    rw [hdet] at h
    have hf : ¬ Scalar.eq (det3 (m 0 0) (m 0 1) (m 0 2) (m 1 0) (m 1 1) (m 1 2) (m 2 0) (m 2 1) (m 2 2)) 0 = true := by
      rw [eq_real, decide_eq_true_eq]; exact h
    rw [hinv]
    unfold invert3
    simp only [hf]
    obtain ⟨d, hd⟩ : ∃ d, d = det3 (m 0 0) (m 0 1) (m 0 2) (m 1 0) (m 1 1) (m 1 2) (m 2 0) (m 2 1) (m 2 2) := ⟨_, rfl⟩
    rw [← hd] at h ⊢
    unfold det3 at hd
    unfold det2
    ext i j
    rw [Matrix.mul_apply, Fin.sum_univ_three]
    fin_cases i <;> fin_cases j <;> simp <;> field_simp <;> first | ring1 | (rw [hd]; ring1)
  refine ⟨key, ?_, ?_⟩
  · intro h hsym
    have h1 := key h
    have h2 : Matrix.of m * Matrix.of (invertMatrix m val) = 1 := by
      have := congrArg Matrix.transpose h1
      rw [Matrix.transpose_mul, Matrix.transpose_transpose, Matrix.transpose_one] at this
      rw [Matrix.IsSymm] at hsym
      rw [hsym] at this
      exact this
    exact ⟨mul_eq_one_comm.mp h2, h2⟩
  · intro h
    rw [hdet] at h
    have hf : Scalar.eq (det3 (m 0 0) (m 0 1) (m 0 2) (m 1 0) (m 1 1) (m 1 2) (m 2 0) (m 2 1) (m 2 2)) 0 = true := by
      rw [eq_real, decide_eq_true_eq]; exact h
    rw [hinv]
    unfold invert3
    simp only [hf, if_true]
    ext i j
    fin_cases i <;> fin_cases j <;> simp [identityMatrix, ofInt_real]

/-- **C38.**  For a non-symmetric invertible 3x3 matrix the result can differ from the inverse. -/
theorem C38_nonsymmetric_3x3_is_transposed (val : ℝ) :
    ∃ m : Mat ℝ 3, Matrix.det (Matrix.of m) ≠ 0 ∧ Matrix.of (invertMatrix m val) * Matrix.of m ≠ 1 := by
  refine ⟨fun i j => if i = j then 1 else if i = 0 ∧ j = 1 then 1 else 0, ?_, ?_⟩
  · rw [Matrix.det_fin_three]
    simp
  · intro h
    have hinv : ∀ m : Mat ℝ 3, invertMatrix m val = invert3 m val := fun _ => rfl
    have := congrFun (congrFun h 1) 0
    rw [hinv, Matrix.mul_apply, Fin.sum_univ_three] at this
    simp [invert3, det3, det2, eq_real] at this

/-- A property closed under addition holds for an interaction sum. -/
theorem accumulate_induction {A : Type} [Add A] {F : Type} [Scalar F] (p : A → Prop) (cfg : Config) (s : State F D ω) (i : Nat) (zero : A)
    (func : Int → Particle F D → A) (h0 : p zero) (hadd : ∀ a b, p a → p b → p (a + b)) (hf : ∀ j q, p (func j q)) :
    p (s.accumulate cfg i zero func) := by
  have hl : ∀ (l : List Nat) (acc : A × Vec F D), p acc.1 → p (l.foldl (fun (acc : A × Vec F D) j =>
      if j ≠ i then
        if Scalar.lt (dot ((s.ps j).x - (s.ps i).x) ((s.ps j).x - (s.ps i).x)) (s.env.re * s.env.re) then
          (acc.1 + func (j : Int) (s.ps j), acc.2 +
            smul (W (Scalar.sqrt (dot ((s.ps j).x - (s.ps i).x) ((s.ps j).x - (s.ps i).x))) s.env.re) ((s.ps j).x - (s.ps i).x))
        else acc
      else acc) acc).1 := by
    intro l
    induction l with
    | nil => intro acc h; exact h
    | cons j l ih =>
      intro acc h
      rw [List.foldl_cons]
      apply ih
      split
      · split
        · exact hadd _ _ h (hf _ _)
        · exact h
      · exact h
  have h1 : p (s.accLoop i zero func).1 := hl (s.neighbors i) (zero, 0) h0
  unfold State.accumulate
  simp only
  split
  · cases s.sppParticle i (s.accLoop i zero func).2 with
    | none => exact h1
    | some q => exact hadd _ _ h1 (hf _ _)
  · exact h1

/-- **C38.**  The matrices the time step inverts are symmetric, so with GC the inverse is always the correct one. -/
theorem C38_correction_matrix_is_symmetric (cfg : Config) (s : State ℝ D ω) (i : Nat) :
    (Matrix.of (s.accumulate cfg i (0 : Mat ℝ D) (s.gcMatFunc i))).IsSymm := by
  refine accumulate_induction (fun M : Mat ℝ D => (Matrix.of M).IsSymm) cfg s i 0 (s.gcMatFunc i) ?_ ?_ ?_
  · ext a b; rfl
  · intro M N hM hN
    ext a b
    have h1 := congrFun (congrFun hM a) b
    have h2 := congrFun (congrFun hN a) b
    change M b a + N b a = M a b + N a b
    change M b a = M a b at h1
    change N b a = N a b at h2
    rw [h1, h2]
  · intro j q
    ext a b
    simp only [Matrix.transpose_apply, Matrix.of_apply, State.gcMatFunc, msmul, outer]
    ring

/-! ## Concrete instances -/

/-- C13: a population with different speeds and positive limits. -/
example : 0 < realState.n ∧ 0 < realState.env.maxDt ∧ 0 < realState.env.maxDx ∧ (realState.ps 3).u ≠ (realState.ps 0).u := by
  refine ⟨by decide, by change (0 : ℝ) < 1; norm_num, by change (0 : ℝ) < 1 / 10; norm_num, ?_⟩
  intro h
  have := congrFun h 0
  change (3 : ℝ) = 0 at this
  norm_num at this

/-- C39, C16, C12: an explicit step in exact arithmetic (with positive parameters). -/
example : realP.cfg.explicit = true ∧ 0 < realState.env.rho ∧ 0 < realState.env.n0 ∧
    ∃ s', realState.forwardTime realP (Schedule.serial 4) (1 / 100) = .ok s' :=
  ⟨rfl, by change (0 : ℝ) < 1; norm_num, by change (0 : ℝ) < 4; norm_num, realState_step⟩

/-- C15: the wall of `realState` is static. -/
example : (realState.ps 2).ty ≠ .incompressibleNewton ∧ ∀ w t dt, realP.walls.pos w 2 t dt = (realState.ps 2).x :=
  ⟨by decide, fun _ _ _ => rfl⟩

/-- C38: an invertible symmetric matrix that is not the identity. -/
example : Matrix.det (Matrix.of (fun i j => if i = j then (2 : ℝ) else 1 : Mat ℝ 3)) ≠ 0 ∧
    (Matrix.of (fun i j => if i = j then (2 : ℝ) else 1 : Mat ℝ 3)).IsSymm := by
  constructor
  · rw [Matrix.det_fin_three]; simp; norm_num
  · ext i j; simp [eq_comm]

end OpenMps
