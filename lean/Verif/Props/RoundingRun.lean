import Verif.Lemmas.RoundingRun
import Verif.Lemmas.MainSteps
import Verif.Props.Main

/-! # C65: the time step and the run in rounded arithmetic -/

set_option linter.unusedSectionVars false

namespace OpenMps

variable {F : Type} [Scalar F] {D : Nat} {ω : Type}

/-- **C65.** In floating-point arithmetic the automatic time step is a finite positive number not above `MaxDt`; at their true speeds the particles move by at
most `(1 + 2^-40) MaxDx` in it; and every step that respects both limits with a margin of `2^-40` is at most as long. -/
theorem C65_automatic_step_in_rounded_arithmetic (R : Rounding F) (hR : R.DoubleLike) (hO : R.Ordinary) (hD : D ≤ 3) (s : State F D ω) (hn : 0 < s.n)
    {V : ℝ} (hs : R.SpeedScale V s.env.maxDx s.env.maxDt)
    (hu : ∀ i, i < s.n → (∀ a, R.finite ((s.ps i).u a)) ∧ R.trueLength (s.ps i).u ≤ V) :
    ∃ dt, s.determineDt = some dt ∧ R.finite dt ∧ 0 < R.val dt ∧ R.val dt ≤ R.val s.env.maxDt ∧
      (∀ i, i < s.n → R.trueLength (s.ps i).u * R.val dt ≤ (1 + 1 / 2 ^ 40) * R.val s.env.maxDx) ∧
      ∀ d, d ≤ R.val s.env.maxDt → (∀ i, i < s.n → R.trueLength (s.ps i).u * d ≤ (1 - 1 / 2 ^ 40) * R.val s.env.maxDx) → d ≤ R.val dt := by
  have e0 := e50_pos
  have e1 := e50_small
  have he : e50 = 1 / 2 ^ 50 := rfl
  have hV := hs.V_pos
  have hX := hs.dx_pos
  have hT := hs.dt_pos
  set X := R.val s.env.maxDx with hXd
  set T := R.val s.env.maxDt with hTd
  set h := Real.sqrt R.η with hh
  have h0 : 0 ≤ h := Real.sqrt_nonneg _
  have hsq : h ^ 2 = R.η := Real.sq_sqrt R.η_nonneg
  have hhV : h ≤ V := by rw [hh]; exact Real.sqrt_le_iff.mpr ⟨hV.le, hs.η_le⟩
  have hhT : h * T ≤ X / 2 ^ 60 := by
    refine (abs_le_of_sq_le_sq' (b := X / 2 ^ 60) ?_ (by positivity)).2
    rw [mul_pow, hsq, div_pow]
    refine hs.η_dt.trans (le_of_eq ?_)
    norm_num
    rfl
  have A0 : ∀ u : Vec F D, 0 ≤ R.trueLength u := fun u => Real.sqrt_nonneg _
  have hΩ : ∀ i, i < s.n → R.trueLength (s.ps i).u ^ 2 ≤ R.Ω / 4 := by
    intro i hi
    have := pow_le_pow_left₀ (A0 _) (hu i hi).2 2
    have := hs.V_le
    nlinarith
  obtain ⟨hf, hmax⟩ := R.fastest_spec s hn (fun i hi => (R.dot_self hR hD hs.Ω_ge _ (hu i hi).1 (hΩ i hi)).1)
  set f := s.fastest with hfd
  obtain ⟨fM, M0, M1, M2⟩ := R.norm_bounds hR hO hD hs.Ω_ge (s.ps f).u (hu f hf).1 (hΩ f hf)
  set M := R.val (norm2 (s.ps f).u) with hMd
  set A := R.trueLength (s.ps f).u with hAd
  have hA0 : 0 ≤ A := A0 _
  have hAV : A ≤ V := (hu f hf).2
  rw [← hh] at M1 M2
  -- the speeds in terms of the computed norm of the fastest particle
  have hAi : ∀ i, i < s.n → R.trueLength (s.ps i).u ≤ (1 + 50 * e50) * M + 10 * h := by
    intro i hi
    have d1 := (abs_le.mp (R.dot_self hR hD hs.Ω_ge _ (hu i hi).1 (hΩ i hi)).2.2).1
    have d2 := (abs_le.mp (R.dot_self hR hD hs.Ω_ge _ (hu f hf).1 (hΩ f hf)).2.2).2
    have d3 := hmax i hi
    rw [← hsq] at d1 d2
    have b1 : R.trueLength (s.ps i).u ≤ (1 + 20 * e50) * A + 5 * h := by
      refine le_of_sq_le_add hA0 (by positivity) (by norm_num) h0 ?_
      have k1 : R.trueLength (s.ps i).u ^ 2 * (1 - 9 * e50) ≤ (1 + 9 * e50) * A ^ 2 + 18 * h ^ 2 := by linarith
      have k2 : (1 + 9 * e50) * A ^ 2 + 18 * h ^ 2 ≤ ((1 + 20 * e50) * A ^ 2 + 5 ^ 2 * h ^ 2) * (1 - 9 * e50) := by
        have c1 : 1 + 9 * e50 ≤ (1 + 20 * e50) * (1 - 9 * e50) := by
          have : (1 + 20 * e50) * (1 - 9 * e50) - (1 + 9 * e50) = e50 * (2 - 180 * e50) := by ring
          have h9 : 0 ≤ e50 * (2 - 180 * e50) := by apply _root_.mul_nonneg e0.le; norm_num at e1; linarith
          linarith
        have c2 : 18 ≤ (5 : ℝ) ^ 2 * (1 - 9 * e50) := by norm_num at e1 ⊢; linarith
        have i1 := mul_le_mul_of_nonneg_right c1 (sq_nonneg A)
        have i2 := mul_le_mul_of_nonneg_right c2 (sq_nonneg h)
        nlinarith
      have k3 : 0 < 1 - 9 * e50 := by norm_num at e1; linarith
      exact le_of_mul_le_mul_right (k1.trans k2) k3
    have k1 : (1 + 20 * e50) * A ≤ (1 + 20 * e50) * ((1 + 20 * e50) * M + 4 * h) := mul_le_mul_of_nonneg_left M2 (by linarith)
    have k2 : 0 ≤ e50 * M * (10 - 400 * e50) := by apply _root_.mul_nonneg (by positivity); norm_num at e1; linarith
    have k3 : 0 ≤ h * (1 - 80 * e50) := by apply _root_.mul_nonneg h0; norm_num at e1; linarith
    nlinarith
  have hX60 : 10 * (h * T) ≤ e50 * X := by
    rw [he]; norm_num at hhT ⊢; linarith
  unfold State.determineDt
  rw [if_neg (by omega)]
  simp only
  rw [← hfd]
  have heq := hO.eq fM R.zero.1
  rw [R.zero.2, ← hMd] at heq
  by_cases hM : M = 0
  · rw [if_pos (heq.mpr hM)]
    refine ⟨_, rfl, hs.dt_finite, hT, le_refl _, ?_, fun d hd _ => hd⟩
    intro i hi
    have := mul_le_mul_of_nonneg_right (hAi i hi) hT.le
    rw [hM] at this
    rw [he] at hX60
    norm_num at this hX60 ⊢
    linarith
  · have hMp : 0 < M := lt_of_le_of_ne M0 (Ne.symm hM)
    rw [if_neg (fun hc => hM (heq.mp hc))]
    -- any step not above the quotient and `MaxDt` respects the limit
    have cfl : ∀ d, 0 ≤ d → d ≤ T → M * d ≤ (1 + 2 * e50) * X → ∀ i, i < s.n → R.trueLength (s.ps i).u * d ≤ (1 + 1 / 2 ^ 40) * X := by
      intro d hd0 hdT hMd' i hi
      have k1 := mul_le_mul_of_nonneg_right (hAi i hi) hd0
      have k2 : h * d ≤ h * T := mul_le_mul_of_nonneg_left hdT h0
      have k3 : (1 + 50 * e50) * (M * d) ≤ (1 + 50 * e50) * ((1 + 2 * e50) * X) := mul_le_mul_of_nonneg_left hMd' (by linarith)
      have k4 : ((1 + 50 * e50) * M + 10 * h) * d ≤ ((1 + 50 * e50) * (1 + 2 * e50) + e50) * X := by nlinarith
      refine (k1.trans k4).trans (mul_le_mul_of_nonneg_right ?_ hX.le)
      rw [he]; norm_num
    by_cases hover : R.Ω < X / M
    · have hlt := hO.div_over hs.dx_finite fM hs.dt_finite hX hMp hover hs.dt_lt
      unfold stdMin
      rw [if_pos hlt]
      refine ⟨_, rfl, hs.dt_finite, hT, le_refl _, ?_, fun d hd _ => hd⟩
      apply cfl T hT.le le_rfl
      have k1 : T < X / M := lt_trans hs.dt_lt hover
      rw [lt_div_iff₀ hMp] at k1
      nlinarith
    · obtain ⟨fq, gq⟩ := R.div hs.dx_finite fM hMp.ne' (by
        rw [abs_of_pos (div_pos hX hMp)]; exact not_lt.mp hover)
      have gq := gq.bounds hR.ε_le
      rw [abs_of_pos (div_pos hX hMp)] at gq
      set Q := R.val (s.env.maxDx / norm2 (s.ps f).u) with hQd
      have hM6 : M ≤ 6 * V := by
        have : (1 + 20 * e50) * A ≤ (1 + 20 * e50) * V := mul_le_mul_of_nonneg_left hAV (by linarith)
        have : 20 * e50 * V ≤ V := by
          have : 20 * e50 ≤ 1 := by norm_num at e1; linarith
          nlinarith
        linarith
      have hηM : R.η * M ≤ e50 * X := by
        have := mul_le_mul_of_nonneg_left hM6 R.η_nonneg
        have h9 := hs.η_V
        rw [he]; norm_num at h9 ⊢; linarith
      have hQM : |M * Q - X| ≤ 2 * e50 * X := by
        have e : M * Q - X = M * (Q - X / M) := by field_simp
        rw [e, abs_mul, abs_of_pos hMp]
        have := mul_le_mul_of_nonneg_left gq hMp.le
        have e2 : M * (e50 * (X / M) + R.η) = e50 * X + R.η * M := by field_simp
        linarith
      obtain ⟨q1, q2⟩ := abs_le.mp hQM
      have hQpos : 0 < Q := by
        by_contra hc
        have : M * Q ≤ 0 := mul_nonpos_of_nonneg_of_nonpos M0 (not_lt.mp hc)
        have h9 : 0 < X * (1 - 2 * e50) := by apply _root_.mul_pos hX; norm_num at e1; linarith
        linarith
      have hlt := R.lt hs.dt_finite fq
      rw [← hTd, ← hQd] at hlt
      -- the larger admissible steps
      have big : ∀ d, 0 < d → d ≤ T → R.trueLength (s.ps f).u * d ≤ (1 - 1 / 2 ^ 40) * X → d ≤ Q := by
        intro d hd0 hdT hAd'
        rw [← hAd] at hAd'
        have k1 := mul_le_mul_of_nonneg_right M1 hd0.le
        have k2 : h * d ≤ h * T := mul_le_mul_of_nonneg_left hdT h0
        have k3 : (1 + 20 * e50) * (A * d) ≤ (1 + 20 * e50) * ((1 - 1 / 2 ^ 40) * X) := mul_le_mul_of_nonneg_left hAd' (by linarith)
        have k4 : M * d ≤ ((1 + 20 * e50) * (1 - 1 / 2 ^ 40) + e50) * X := by nlinarith
        have k5 : ((1 + 20 * e50) * (1 - 1 / 2 ^ 40) + e50) * X ≤ (1 - 2 * e50) * X := by
          apply mul_le_mul_of_nonneg_right _ hX.le
          rw [he]; norm_num
        have k6 : M * d ≤ M * Q := by linarith
        exact le_of_mul_le_mul_left k6 hMp
      unfold stdMin
      by_cases hc : T < Q
      · rw [if_pos (hlt.mpr hc)]
        refine ⟨_, rfl, hs.dt_finite, hT, le_refl _, ?_, fun d hd _ => hd⟩
        apply cfl T hT.le le_rfl
        have : M * T ≤ M * Q := mul_le_mul_of_nonneg_left hc.le M0
        linarith
      · rw [if_neg (fun hcc => hc (hlt.mp hcc))]
        refine ⟨_, rfl, fq, hQpos, not_lt.mp hc, ?_, ?_⟩
        · apply cfl Q hQpos.le (not_lt.mp hc)
          linarith
        · intro d hd hall
          rcases le_or_gt d 0 with h9 | h9
          · exact h9.trans hQpos.le
          · exact big d h9 hd (hall f hf)

/-- The output times, computed by repeated addition. -/
theorem Rounding.outTime_bounds (R : Rounding F) (hR : R.DoubleLike) {I : F} (hI : R.finite I) (hI0 : 0 ≤ R.val I) :
    ∀ k : ℕ, k ≤ 2 ^ 40 → 2 * k * R.val I ≤ R.Ω → R.finite (outTime I k) ∧
      (1 - k * e50) * (k * R.val I) ≤ R.val (outTime I k) ∧ R.val (outTime I k) ≤ (1 + 2 * (k * e50)) * (k * R.val I)
  | 0, _, _ => by
    show R.finite 0 ∧ _ ≤ R.val 0 ∧ R.val 0 ≤ _
    rw [R.zero.2]
    exact ⟨R.zero.1, by simp, by simp⟩
  | k + 1, hk, hΩ => by
    have e0 := e50_pos
    have e1 := e50_small
    have he : e50 = 1 / 2 ^ 50 := rfl
    have hk' : (k : ℝ) ≤ 2 ^ 40 := by
      have : k ≤ 2 ^ 40 := by omega
      exact_mod_cast this
    have hk0 : (0 : ℝ) ≤ k := Nat.cast_nonneg k
    push_cast at hΩ
    obtain ⟨f, a, b⟩ := Rounding.outTime_bounds R hR hI hI0 k (by omega) (by nlinarith)
    set T := R.val (outTime I k) with hT
    have hke : k * e50 ≤ 1 / 1000 := by
      rw [he]
      calc (k : ℝ) * (1 / 2 ^ 50) ≤ 2 ^ 40 * (1 / 2 ^ 50) := mul_le_mul_of_nonneg_right hk' (by positivity)
        _ ≤ _ := by norm_num
    have hkI : 0 ≤ k * R.val I := by positivity
    have hT0 : 0 ≤ T := le_trans (_root_.mul_nonneg (by linarith) hkI) a
    have hTle : T ≤ 2 * (k * R.val I) := b.trans (mul_le_mul_of_nonneg_right (by linarith) hkI)
    obtain ⟨f', a', b'⟩ := R.time_step hR f hI hT0 hI0 (by linarith)
    refine ⟨f', ?_, ?_⟩
    · refine le_trans ?_ a'
      rw [← hT]
      have k1 : (1 - e50) * ((1 - k * e50) * (k * R.val I) + R.val I) ≤ (1 - e50) * (T + R.val I) :=
        mul_le_mul_of_nonneg_left (by linarith) (by norm_num at e1; linarith)
      refine le_trans (le_of_sub_nonneg ?_) k1
      push_cast
      have : (1 - e50) * ((1 - k * e50) * (k * R.val I) + R.val I) - (1 - (k + 1) * e50) * ((k + 1) * R.val I) =
          R.val I * (k * e50 * (1 + k * e50)) := by ring
      rw [this]; positivity
    · refine le_trans b' ?_
      rw [← hT]
      have k1 : (1 + e50) * (T + R.val I) ≤ (1 + e50) * ((1 + 2 * (k * e50)) * (k * R.val I) + R.val I) :=
        mul_le_mul_of_nonneg_left (by linarith) (by linarith)
      refine le_trans k1 (le_of_sub_nonneg ?_)
      push_cast
      have : (1 + 2 * ((k + 1) * e50)) * ((k + 1) * R.val I) - (1 + e50) * ((1 + 2 * (k * e50)) * (k * R.val I) + R.val I) =
          R.val I * e50 * (1 + 3 * k - 2 * k * (k * e50)) := by ring
      rw [this]
      apply _root_.mul_nonneg (by positivity)
      nlinarith

/-- The environment is that of the start, except for the time. -/
theorem afterSteps_env {P : Params F D Unit} {sch : Nat → Schedule} {s0 : State F D Unit} (hv : ∀ k, (sch k).Valid s0.n) :
    ∀ (k : Nat) (s : State F D Unit), s0.afterSteps P sch k = .ok s → s.n = s0.n ∧ s.env.maxDt = s0.env.maxDt ∧ s.env.maxDx = s0.env.maxDx
  | 0, s, h => by cases h; exact ⟨rfl, rfl, rfl⟩
  | k + 1, s, h => by
    obtain ⟨s', h1, h2⟩ := afterSteps_prev h
    obtain ⟨i1, i2, i3⟩ := afterSteps_env hv k s' h1
    unfold State.forwardTimeAuto at h2
    cases hd : s'.determineDt with
    | none => rw [hd] at h2; cases h2
    | some dt =>
      rw [hd] at h2
      obtain ⟨f1, f2, _⟩ := step_frame (by rw [i1]; exact hv k) (Or.inl h2)
      exact ⟨by rw [f1, i1], by rw [f2]; exact i2, by rw [f2]; exact i3⟩

/-- The time of the loop starts at zero. -/
theorem mainStart_t {cfg : Config} {cv : Conv F} {cond : Condition F} {a : EnvArgs F D} {m : Nat} {csv : List Char} {P : Params F D Unit}
    {s0 : State F D Unit} (h : mainStart cfg cv cond a m csv P s0) : s0.env.t = 0 := by
  obtain ⟨env, ps, s, e1, e2, e3, e4, e5⟩ := h
  have hs0env : s0.env = env := by
    rw [e5]
    show s.env = env
    unfold State.new? at e3
    split at e3
    · cases e3
    · cases e3; rfl
  rw [hs0env]
  unfold loadEnvironment Env.mk? at e1
  split at e1
  · cases e1
  · cases e1; rfl

/-- One step of the run in rounded arithmetic: the new time is the old one plus a step that respects the limits. -/
theorem auto_time (R : Rounding F) (hR : R.DoubleLike) (hO : R.Ordinary) (hD : D ≤ 3) {P : Params F D Unit} {s s' : State F D Unit} {sch : Schedule}
    (hv : sch.Valid s.n) {V : ℝ} (hs : R.SpeedScale V s.env.maxDx s.env.maxDt)
    (hu : ∀ i, i < s.n → (∀ a, R.finite ((s.ps i).u a)) ∧ R.trueLength (s.ps i).u ≤ V) {δ : ℝ} (hδ1 : δ ≤ R.val s.env.maxDt)
    (hδ2 : V * δ ≤ (1 - 1 / 2 ^ 40) * R.val s.env.maxDx) (hδ : 0 < δ) (h : s.forwardTimeAuto P sch = .ok s') :
    ∃ dt, s'.env.t = s.env.t + dt ∧ R.finite dt ∧ δ ≤ R.val dt ∧ R.val dt ≤ R.val s.env.maxDt := by
  have hn : 0 < s.n := by
    by_contra hc
    rw [C13_no_particles_is_undefined P sch s (by omega)] at h
    cases h
  obtain ⟨dt, d1, d2, d3, d4, _, d6⟩ := C65_automatic_step_in_rounded_arithmetic R hR hO hD s hn hs hu
  unfold State.forwardTimeAuto at h
  rw [d1] at h
  obtain ⟨_, f2, _⟩ := step_frame hv (Or.inl h)
  refine ⟨dt, by rw [f2], d2, d6 δ hδ1 (fun i hi => ?_), d4⟩
  exact (mul_le_mul_of_nonneg_right (hu i hi).2 hδ.le).trans hδ2

/-- **C65.** A run in floating-point arithmetic finishes.  Let `N` be the number of outputs after the first and `δ` a lower bound of the steps the speeds
`≤ V` allow.  If the simulated time `N * OutputInterval` is not more than `2^36 δ`, then the time never stands still: the run ends after at most
`K = 1.001 N * OutputInterval / δ` steps, provided that none of these fails. -/
theorem C65_run_finishes_in_rounded_arithmetic (R : Rounding F) (hR : R.DoubleLike) (hO : R.Ordinary) (hD : D ≤ 3)
    {cfg : Config} {cv : Conv F} {pr : Printer F} {sch : Nat → Schedule} {cond : Condition F} {a : EnvArgs F D}
    {m : Nat} {csv : List Char} {P : Params F D Unit} {s0 : State F D Unit} (h : mainStart cfg cv cond a m csv P s0)
    (hv : ∀ k, (sch k).Valid s0.n) {offset N : Nat} (h1 : toSize (cond.startTime / cond.outputInterval) = some offset)
    (h2 : toSize ((cond.endTime - cond.startTime) / cond.outputInterval) = some N)
    (hI : R.finite cond.outputInterval) (hI0 : 0 < R.val cond.outputInterval)
    {V δ : ℝ} (hs : R.SpeedScale V s0.env.maxDx s0.env.maxDt) (hδ : 0 < δ) (hδ1 : δ ≤ R.val s0.env.maxDt)
    (hδ2 : V * δ ≤ (1 - 1 / 2 ^ 40) * R.val s0.env.maxDx)
    (hN : N ≤ 2 ^ 38) (hlong : N * R.val cond.outputInterval ≤ 2 ^ 36 * δ) (hΩ : 2 * (N * R.val cond.outputInterval) + R.val s0.env.maxDt ≤ R.Ω)
    {K : Nat} (hK : 1001 / 1000 * (N * R.val cond.outputInterval) ≤ K * δ)
    (hsteps : ∀ k, k ≤ K → ∃ s, s0.afterSteps P sch k = .ok s ∧
      ∀ i, i < s.n → (∀ a, R.finite ((s.ps i).u a)) ∧ R.trueLength (s.ps i).u ≤ V) :
    ∀ fuel, K ≤ fuel → (mainProgram cfg cv pr sch cond a m csv fuel).ending = .finished := by
  intro fuel hfuel
  rw [mainProgram_start h]
  rcases runLoop_pending P sch pr cond fuel s0 h1 h2 with hfin | ⟨it, hpend, hend⟩
  · exact hfin
  exfalso
  have e0 := e50_pos
  have e1 := e50_small
  have he : e50 = 1 / 2 ^ 50 := rfl
  set I := R.val cond.outputInterval with hId
  have hNI : 0 ≤ N * I := by positivity
  have hT0 := hs.dt_pos
  -- all output times
  have hout : ∀ k, k ≤ N → R.finite (outTime cond.outputInterval k) ∧ R.val (outTime cond.outputInterval k) ≤ (1 + 1 / 2000) * (N * I) := by
    intro k hk
    have hkN : (k : ℝ) ≤ N := by exact_mod_cast hk
    have hkI : k * I ≤ N * I := mul_le_mul_of_nonneg_right hkN hI0.le
    obtain ⟨f, _, b⟩ := R.outTime_bounds hR hI hI0.le k (by omega) (by linarith)
    refine ⟨f, b.trans ?_⟩
    have hke : k * e50 ≤ 1 / 4000 := by
      rw [he]
      have : (k : ℝ) ≤ 2 ^ 38 := by exact_mod_cast (le_trans hk hN)
      calc (k : ℝ) * (1 / 2 ^ 50) ≤ 2 ^ 38 * (1 / 2 ^ 50) := mul_le_mul_of_nonneg_right this (by positivity)
        _ ≤ _ := by norm_num
    exact mul_le_mul (by linarith) hkI (by positivity) (by norm_num)
  have hpt : ∀ j, j ≤ it → ∀ s, s0.afterSteps P sch j = .ok s → R.finite s.env.t → R.val s.env.t < (1 + 1 / 2000) * (N * I) := by
    intro j hj s hsj hf
    obtain ⟨s', hs', k, _, hk, hlt⟩ := hpend j hj
    rw [hsj] at hs'; cases hs'
    exact lt_of_lt_of_le ((R.lt hf (hout k hk).1).mp hlt) (hout k hk).2
  have key : ∀ j, j ≤ it → j ≤ K → ∃ s, s0.afterSteps P sch j = .ok s ∧ R.finite s.env.t ∧ j * δ * (1 - 1 / 4000) ≤ R.val s.env.t := by
    intro j
    induction j with
    | zero =>
      intro _ _
      refine ⟨s0, rfl, ?_⟩
      rw [mainStart_t h, R.zero.2]
      exact ⟨R.zero.1, by simp⟩
    | succ j ih =>
      intro hj hjK
      obtain ⟨s, hs1, hf, ht⟩ := ih (by omega) (by omega)
      obtain ⟨s', hs', _⟩ := hsteps (j + 1) hjK
      obtain ⟨sp, p1, p2⟩ := afterSteps_prev hs'
      rw [hs1] at p1; cases p1
      obtain ⟨se, q1, q2⟩ := hsteps j (by omega)
      rw [hs1] at q1; cases q1
      obtain ⟨v1, v2, v3⟩ := afterSteps_env hv j s hs1
      obtain ⟨dt, d1, d2, d3, d4⟩ := auto_time R hR hO hD (by rw [v1]; exact hv j) (by rw [v2, v3]; exact hs) q2 (by rw [v2]; exact hδ1)
        (by rw [v3]; exact hδ2) hδ p2
      rw [v2] at d4
      have hlt := hpt j (by omega) s hs1 hf
      have ht0 : 0 ≤ R.val s.env.t := le_trans (_root_.mul_nonneg (by positivity) (by norm_num)) ht
      obtain ⟨w1, w2, _⟩ := R.time_step hR hf d2 ht0 (by linarith) (by linarith)
      refine ⟨s', hs', by rw [d1]; exact w1, ?_⟩
      rw [d1]
      refine le_trans ?_ w2
      push_cast
      have k1 : e50 * R.val s.env.t ≤ 1 / 8000 * δ := by
        have : R.val s.env.t ≤ 2 ^ 37 * δ := by linarith
        have := mul_le_mul_of_nonneg_left this e0.le
        rw [he] at this ⊢
        norm_num at this ⊢
        linarith
      have k2 : (1 - e50) * R.val dt ≥ (1 - 1 / 8000) * δ := by
        have : (1 - e50) * δ ≤ (1 - e50) * R.val dt := mul_le_mul_of_nonneg_left d3 (by norm_num at e1; linarith)
        have : (1 - 1 / 8000) * δ ≤ (1 - e50) * δ := mul_le_mul_of_nonneg_right (by norm_num at e1 ⊢; linarith) hδ.le
        linarith
      nlinarith
  rcases Nat.lt_or_ge it K with hlt | hge
  · rcases hend with hc | hc
    · omega
    · obtain ⟨s, hs', _⟩ := hsteps (it + 1) (by omega)
      exact hc s hs'
  · obtain ⟨s, hs1, hf, ht⟩ := key K hge le_rfl
    have := hpt K hge s hs1 hf
    nlinarith

/-- **C65.** The times of the files in floating-point arithmetic: the elapsed time at output `k` is between `k * OutputInterval` and
`k * OutputInterval + MaxDt`, up to a relative error of `(k + 1) 2^-48`, and the time shown is that plus `StartTime`, rounded. -/
theorem C65_output_times_in_rounded_arithmetic (R : Rounding F) (hR : R.DoubleLike) (hO : R.Ordinary) (hD : D ≤ 3)
    {cfg : Config} {cv : Conv F} {pr : Printer F} {sch : Nat → Schedule} {cond : Condition F} {a : EnvArgs F D}
    {m : Nat} {csv : List Char} {P : Params F D Unit} {s0 : State F D Unit} (h : mainStart cfg cv cond a m csv P s0)
    (hv : ∀ k, (sch k).Valid s0.n) {offset N : Nat} (h1 : toSize (cond.startTime / cond.outputInterval) = some offset)
    (h2 : toSize ((cond.endTime - cond.startTime) / cond.outputInterval) = some N)
    (hI : R.finite cond.outputInterval) (hI0 : 0 < R.val cond.outputInterval)
    {V : ℝ} (hs : R.SpeedScale V s0.env.maxDx s0.env.maxDt)
    (hN : N ≤ 2 ^ 38) (hΩ : 2 * (N * R.val cond.outputInterval) + R.val s0.env.maxDt ≤ R.Ω) (fuel : Nat)
    {k : Nat} {rec : OutRec F} (hrec : (mainProgram cfg cv pr sch cond a m csv fuel).outs[k]? = some rec)
    (hspeed : ∀ j s, j < rec.iteration → s0.afterSteps P sch j = .ok s →
      ∀ i, i < s.n → (∀ a, R.finite ((s.ps i).u a)) ∧ R.trueLength (s.ps i).u ≤ V) :
    ∃ t, R.finite t ∧ rec.time = (if k = 0 then cond.startTime else t + cond.startTime) ∧
      (∃ s, s0.afterSteps P sch rec.iteration = .ok s ∧ s.env.t = t) ∧
      (1 - (k + 1) / 2 ^ 48) * (k * R.val cond.outputInterval) ≤ R.val t ∧
      R.val t ≤ (1 + (k + 1) / 2 ^ 48) * (k * R.val cond.outputInterval + R.val s0.env.maxDt) := by
  have e0 := e50_pos
  have e1 := e50_small
  have he : e50 = 1 / 2 ^ 50 := rfl
  have hT0 := hs.dt_pos
  have hkN := (C33_written_files_are_in_place h h1 h2 fuel hrec).2.1
  rw [mainProgram_start h] at hrec
  obtain ⟨hok, _, _⟩ := runLoop_spec P sch pr cond fuel s0 h1 h2
  set outs := (runLoop P sch pr cond fuel s0).outs with houts
  set I := R.val cond.outputInterval with hId
  set X := R.val s0.env.maxDt with hX
  have hsmall : ∀ j : ℕ, j ≤ N → j * e50 ≤ 1 / 4000 := by
    intro j hj
    rw [he]
    have : (j : ℝ) ≤ 2 ^ 38 := by exact_mod_cast (le_trans hj hN)
    calc (j : ℝ) * (1 / 2 ^ 50) ≤ 2 ^ 38 * (1 / 2 ^ 50) := mul_le_mul_of_nonneg_right this (by positivity)
      _ ≤ _ := by norm_num
  have hjI : ∀ j : ℕ, j ≤ N → (j : ℝ) * I ≤ N * I := fun j hj => mul_le_mul_of_nonneg_right (by exact_mod_cast hj) hI0.le
  have hout : ∀ j, j ≤ N → R.finite (outTime cond.outputInterval j) ∧ (1 - j * e50) * (j * I) ≤ R.val (outTime cond.outputInterval j) ∧
      R.val (outTime cond.outputInterval j) ≤ (1 + 2 * (j * e50)) * (j * I) := fun j hj =>
    R.outTime_bounds hR hI hI0.le j (by omega) (by have := hjI j hj; linarith)
  have hout2 : ∀ j, j ≤ N → 0 ≤ R.val (outTime cond.outputInterval j) ∧ R.val (outTime cond.outputInterval j) ≤ 3 / 2 * (j * I) := by
    intro j hj
    obtain ⟨_, a, b⟩ := hout j hj
    have := hsmall j hj
    have h0 : 0 ≤ (j : ℝ) * I := by positivity
    exact ⟨le_trans (_root_.mul_nonneg (by linarith) h0) a, b.trans (mul_le_mul_of_nonneg_right (by linarith) h0)⟩
  have hmono : ∀ j, j + 1 ≤ N → R.val (outTime cond.outputInterval j) ≤ R.val (outTime cond.outputInterval (j + 1)) := by
    intro j hj
    obtain ⟨p0, p1⟩ := hout2 j (by omega)
    have h9 := hjI (j + 1) hj
    push_cast at h9
    have hNN := hs.dt_pos
    obtain ⟨_, w, _⟩ := R.time_step hR (hout j (by omega)).1 hI p0 hI0.le (by
      have : 0 ≤ (j : ℝ) * I := by positivity
      linarith)
    refine le_trans ?_ w
    have h10 := hsmall j (by omega)
    have : e50 * R.val (outTime cond.outputInterval j) ≤ 3 / 2 * (1 / 4000) * I := by
      have q1 := mul_le_mul_of_nonneg_left p1 e0.le
      have q2 : e50 * (3 / 2 * (j * I)) = 3 / 2 * (j * e50) * I := by ring
      have q3 : 3 / 2 * (j * e50) * I ≤ 3 / 2 * (1 / 4000) * I := mul_le_mul_of_nonneg_right (by linarith) hI0.le
      linarith
    have : e50 * I ≤ 1 / 1000 * I := mul_le_mul_of_nonneg_right (by norm_num at e1 ⊢; linarith) hI0.le
    nlinarith
  have hiter : ∀ (d j : Nat) r r', outs[j]? = some r → outs[j + d]? = some r' → r.iteration ≤ r'.iteration := by
    intro d
    induction d with
    | zero => intro j r r' hr hr'; rw [Nat.add_zero, hr] at hr'; cases hr'; exact le_rfl
    | succ d ih =>
      intro j r r' hr hr'
      have hl : j + d < outs.length := by
        by_contra hc
        rw [List.getElem?_eq_none (by omega)] at hr'; cases hr'
      exact (ih j r _ hr (List.getElem?_eq_getElem hl)).trans (hok.next (j + d) _ r' (List.getElem?_eq_getElem hl) hr').1
  have key : ∀ (j : Nat) r, j ≤ k → outs[j]? = some r → ∃ s, s0.afterSteps P sch r.iteration = .ok s ∧ R.finite s.env.t ∧ 0 ≤ R.val s.env.t ∧
      R.val s.env.t ≤ (1 + e50) * (R.val (outTime cond.outputInterval j) + X) := by
    intro j
    induction j with
    | zero =>
      intro r _ hr
      rw [hok.first r hr]
      refine ⟨s0, rfl, ?_⟩
      rw [mainStart_t h, R.zero.2]
      exact ⟨R.zero.1, le_rfl, _root_.mul_nonneg (by linarith) (add_nonneg (hout2 0 (by omega)).1 hT0.le)⟩
    | succ j ih =>
      intro r' hj hr'
      have hjl : j < outs.length := by
        by_contra hc
        rw [List.getElem?_eq_none (by omega)] at hr'; cases hr'
      have hr := List.getElem?_eq_getElem hjl
      obtain ⟨s, i1, i2, i3, i4⟩ := ih _ (by omega) hr
      obtain ⟨n1, n2⟩ := hok.next j _ r' hr hr'
      have hle' : r'.iteration ≤ rec.iteration := hiter (k - (j + 1)) (j + 1) r' rec hr' (by rw [show j + 1 + (k - (j + 1)) = k by omega]; exact hrec)
      have inner : ∀ d, outs[j].iteration + d ≤ r'.iteration → ∃ s, s0.afterSteps P sch (outs[j].iteration + d) = .ok s ∧ R.finite s.env.t ∧
          0 ≤ R.val s.env.t ∧ R.val s.env.t ≤ (1 + e50) * (R.val (outTime cond.outputInterval (j + 1)) + X) := by
        intro d
        induction d with
        | zero =>
          intro _
          refine ⟨s, i1, i2, i3, i4.trans (mul_le_mul_of_nonneg_left ?_ (by linarith))⟩
          have := hmono j (by omega)
          linarith
        | succ d ihd =>
          intro hd
          obtain ⟨s, j1, j2, j3, _⟩ := ihd (by omega)
          obtain ⟨sx, x1, x2⟩ := n2 (outs[j].iteration + d) (by omega) (by omega)
          rw [j1] at x1; cases x1
          have hlt := (R.lt j2 (hout (j + 1) (by omega)).1).mp x2
          have hnext : ∃ s', s0.afterSteps P sch (outs[j].iteration + d + 1) = .ok s' := by
            rcases Nat.lt_or_ge (outs[j].iteration + d + 1) r'.iteration with q | q
            · obtain ⟨sy, y1, _⟩ := n2 (outs[j].iteration + d + 1) (by omega) q
              exact ⟨sy, y1⟩
            · obtain ⟨_, sy, y1, _⟩ := hok.each (j + 1) r' hr'
              rw [show outs[j].iteration + d + 1 = r'.iteration by omega]
              exact ⟨sy, y1⟩
          obtain ⟨s', hs'⟩ := hnext
          obtain ⟨sp, p1, p2⟩ := afterSteps_prev hs'
          rw [j1] at p1; cases p1
          obtain ⟨v1, v2, v3⟩ := afterSteps_env hv _ s j1
          have hn : 0 < s.n := by
            by_contra hc
            rw [C13_no_particles_is_undefined P _ s (by omega)] at p2
            cases p2
          obtain ⟨dt, d1, d2, d3, d4, _⟩ := C65_automatic_step_in_rounded_arithmetic R hR hO hD s hn (by rw [v2, v3]; exact hs)
            (hspeed _ s (by omega) j1)
          unfold State.forwardTimeAuto at p2
          rw [d1] at p2
          obtain ⟨_, f2, _⟩ := step_frame (by rw [v1]; exact hv _) (Or.inl p2)
          have ht' : s'.env.t = s.env.t + dt := by rw [f2]
          rw [v2] at d4
          have hb := (hout2 (j + 1) (by omega)).2
          have hb2 := hjI (j + 1) (by omega)
          have hNI : 0 ≤ (N : ℝ) * I := by positivity
          obtain ⟨w1, w2, w3⟩ := R.time_step hR j2 d2 j3 d3.le (by linarith)
          refine ⟨s', hs', by rw [ht']; exact w1, ?_, ?_⟩
          · rw [ht']
            refine le_trans (_root_.mul_nonneg ?_ (add_nonneg j3 d3.le)) w2
            norm_num at e1; linarith
          · rw [ht']
            exact w3.trans (mul_le_mul_of_nonneg_left (by linarith) (by linarith))
      obtain ⟨s', q1, q2, q3, q4⟩ := inner (r'.iteration - outs[j].iteration) (by omega)
      rw [show outs[j].iteration + (r'.iteration - outs[j].iteration) = r'.iteration by omega] at q1
      exact ⟨s', q1, q2, q3, q4⟩
  obtain ⟨s, k1, k2, k3, k4⟩ := key k rec le_rfl hrec
  obtain ⟨_, s', f1, _, _, ftime, flt⟩ := hok.each k rec hrec
  rw [k1] at f1; cases f1
  refine ⟨s.env.t, k2, ftime, ⟨s, k1, rfl⟩, ?_, ?_⟩
  · rcases Nat.eq_zero_or_pos k with hk0 | hk0
    · subst hk0; simpa using k3
    · have hge : R.val (outTime cond.outputInterval k) ≤ R.val s.env.t := by
        by_contra hc
        have := (R.lt k2 (hout k hkN).1).mpr (not_le.mp hc)
        rw [flt hk0] at this; cases this
      refine le_trans (le_trans ?_ (hout k hkN).2.1) hge
      apply mul_le_mul_of_nonneg_right _ (by positivity)
      rw [he]
      have : (0 : ℝ) ≤ k := Nat.cast_nonneg k
      norm_num
      linarith
  · refine k4.trans ?_
    have b := (hout k hkN).2.2
    have hk0 : (0 : ℝ) ≤ k := Nat.cast_nonneg k
    have hke := hsmall k hkN
    have q0 : 0 ≤ (k : ℝ) * I := by positivity
    have q1 : (1 + e50) * (R.val (outTime cond.outputInterval k) + X) ≤ (1 + e50) * ((1 + 2 * (k * e50)) * (k * I + X)) := by
      apply mul_le_mul_of_nonneg_left _ (by linarith)
      have : 0 ≤ 2 * (k * e50) * X := by positivity
      nlinarith
    have q2 : (1 + e50) * (1 + 2 * (k * e50)) ≤ 1 + (k + 1) / 2 ^ 48 := by
      have e4 : (1 : ℝ) / 2 ^ 48 = 4 * e50 := by rw [he]; norm_num
      have : (1 : ℝ) + (k + 1) / 2 ^ 48 = 1 + (k + 1) * (4 * e50) := by rw [← e4]; ring
      rw [this]
      have h9 : e50 * (k * e50) ≤ e50 := by nlinarith
      nlinarith
    calc _ ≤ _ := q1
      _ = ((1 + e50) * (1 + 2 * (k * e50))) * (k * I + X) := by ring
      _ ≤ _ := mul_le_mul_of_nonneg_right q2 (by positivity)

end OpenMps
