import Verif.Props.Consistency
import Mathlib.Analysis.Calculus.Deriv.Inv
import Mathlib.Analysis.Calculus.Deriv.Add
import Mathlib.Analysis.Calculus.Deriv.Mul
import Mathlib.Analysis.SpecialFunctions.Sqrt

set_option linter.unusedSectionVars false

/-! # Property C59: HS and GC in arbitrary arrangements -/

namespace OpenMps

open Ref

variable {D : Nat} {ω : Type}

section
variable {S : Setting D} {x u : ℕ → Fin D → ℝ} {i j : ℕ}

open Classical in
/-- The particles that may interact during the step: the candidates. -/
noncomputable def cands (S : Setting D) (i : ℕ) : Finset ℕ :=
  (Finset.range S.n).filter (fun j => j ≠ i ∧ S.ty j ≠ .disabled ∧ len (S.start j - S.start i) < S.env.neighborLength)

theorem density_cands (S : Setting D) (x : ℕ → Fin D → ℝ) (i : ℕ) :
    S.density x i = ∑ j ∈ cands S i, weight S.env.re (len (x j - x i)) := by
  classical
  unfold Setting.density
  apply Finset.sum_subset
  · intro j hj
    rw [mem_near_ref] at hj
    simp only [cands, Finset.mem_filter, Finset.mem_range]
    exact ⟨hj.1, hj.2.1, hj.2.2.1, hj.2.2.2.1⟩
  · intro j hj hn
    simp only [cands, Finset.mem_filter, Finset.mem_range] at hj
    unfold weight
    rw [if_neg]
    rintro ⟨-, h⟩
    exact hn (mem_near_ref.mpr ⟨hj.1, hj.2.1, hj.2.2.1, hj.2.2.2, h⟩)

theorem hasDerivAt_len (d w : Fin D → ℝ) (h : len d ≠ 0) : HasDerivAt (fun t : ℝ => len (d + t • w)) (prod d w / len d) 0 := by
  have h2 : HasDerivAt (fun t : ℝ => ∑ a, (d a + t * w a) ^ 2) (∑ a, 2 * (d a * w a)) 0 := by
    refine HasDerivAt.fun_sum (fun a _ => ?_)
    have h1 : HasDerivAt (fun t : ℝ => d a + t * w a) (w a) 0 := by
      simpa using ((hasDerivAt_id (0 : ℝ)).mul_const (w a)).const_add (d a)
    have := h1.pow 2
    refine this.congr_deriv ?_
    simp; ring
  have e0 : (∑ a, (d a + (0 : ℝ) * w a) ^ 2) ≠ 0 := by
    intro k
    apply h
    unfold len
    simp only [zero_mul, add_zero] at k
    rw [k, Real.sqrt_zero]
  have h3 := h2.sqrt e0
  have ef : (fun t : ℝ => len (d + t • w)) = fun t : ℝ => √(∑ a, (d a + t * w a) ^ 2) := by
    funext t; simp [len]
  rw [ef]
  refine h3.congr_deriv ?_
  unfold prod len
  simp only [zero_mul, add_zero]
  rw [← Finset.mul_sum, mul_div_mul_left _ _ two_ne_zero]

theorem hasDerivAt_weight (re : ℝ) (d w : Fin D → ℝ) (h0 : len d ≠ 0) (hr : len d ≠ re) :
    HasDerivAt (fun t : ℝ => weight re (len (d + t • w))) (if len d < re then -re * (prod d w / len d ^ 3) else 0) 0 := by
  have hl := hasDerivAt_len d w h0
  have hpos : 0 < len d := lt_of_le_of_ne (Real.sqrt_nonneg _) (Ne.symm h0)
  have hc : ContinuousAt (fun t : ℝ => len (d + t • w)) 0 := hl.continuousAt
  have e0 : len (d + (0 : ℝ) • w) = len d := by simp
  split
  · rename_i hlt
    have hev : ∀ᶠ t in nhds (0 : ℝ), 0 < len (d + t • w) ∧ len (d + t • w) < re :=
      (hc.eventually_const_lt (lt_of_lt_of_eq hpos e0.symm)).and (hc.eventually_lt_const (lt_of_eq_of_lt e0 hlt))
    have h2 : HasDerivAt (fun t : ℝ => re / len (d + t • w) - 1) (-re * (prod d w / len d ^ 3)) 0 := by
      have := ((hl.inv (by rw [e0]; exact h0)).const_mul re).sub_const 1
      simp only [e0] at this
      refine (this.congr_of_eventuallyEq (Filter.Eventually.of_forall (fun t => ?_))).congr_deriv ?_
      · simp [div_eq_mul_inv]
      · field_simp
    exact h2.congr_of_eventuallyEq (hev.mono (fun t ht => by simp only [weight]; rw [if_pos ht]))
  · rename_i hlt
    have hgt : re < len d := lt_of_le_of_ne (not_lt.mp hlt) (Ne.symm hr)
    have hev : ∀ᶠ t in nhds (0 : ℝ), re < len (d + t • w) := hc.eventually_const_lt (lt_of_lt_of_eq hgt e0.symm)
    exact (hasDerivAt_const (0 : ℝ) (0 : ℝ)).congr_of_eventuallyEq
      (hev.mono (fun t ht => by simp only [weight]; rw [if_neg (fun k => absurd k.2 (not_lt.mpr ht.le))]))

/-- Time derivative of the density along straight motion. -/
theorem hasDerivAt_density (h : ∀ j ∈ cands S i, len (x j - x i) ≠ 0 ∧ len (x j - x i) ≠ S.env.re) :
    HasDerivAt (fun t : ℝ => S.density (fun j => x j + t • u j) i)
      (-S.env.re * ∑ j ∈ S.near x i, prod (x j - x i) (u j - u i) / len (x j - x i) ^ 3) 0 := by
  classical
  have key : HasDerivAt (fun t : ℝ => ∑ j ∈ cands S i, weight S.env.re (len ((x j - x i) + t • (u j - u i))))
      (∑ j ∈ cands S i, if len (x j - x i) < S.env.re then -S.env.re * (prod (x j - x i) (u j - u i) / len (x j - x i) ^ 3) else 0) 0 :=
    HasDerivAt.fun_sum (fun j hj => hasDerivAt_weight _ _ _ (h j hj).1 (h j hj).2)
  have ef : (fun t : ℝ => S.density (fun j => x j + t • u j) i) = fun t : ℝ => ∑ j ∈ cands S i, weight S.env.re (len ((x j - x i) + t • (u j - u i))) := by
    funext t
    rw [density_cands]
    refine Finset.sum_congr rfl (fun j _ => ?_)
    congr 2
    rw [smul_sub]; abel
  rw [ef]
  refine key.congr_deriv ?_
  rw [← Finset.sum_filter, Finset.mul_sum]
  refine Finset.sum_congr ?_ (fun _ _ => rfl)
  ext j
  simp only [cands, Finset.mem_filter, Finset.mem_range, mem_near_ref]
  tauto

end

/-- **C59.**  With `HS` the right-hand side of the pressure equation contains the exact time derivative, along the current velocities, of the number density
that `N()` reports (with `SPP`: of the filled-up density).  Excluded are only the arrangements in which there is no such derivative: a
candidate at the position of the particle or exactly at the distance `r_e`, and with `SPP` a density of exactly `n0`. -/
theorem C59_rate_is_the_derivative_of_the_density {P : Params ℝ D ω} (s : State ℝ D ω) (dt : ℝ) (hhs : P.cfg.hs = true) {x u : ℕ → Fin D → ℝ}
    {i : ℕ} (old dens : ℕ → ℝ) :
    let S := setting P s dt
    S.Active i →
    (∀ j, j < s.n → j ≠ i → S.ty j ≠ .disabled → len ((s.ps j).x - (s.ps i).x) < s.env.neighborLength → x j ≠ x i ∧ len (x j - x i) ≠ s.env.re) →
    (P.cfg.spp = true → S.density x i ≠ s.env.n0) →
    HasDerivAt (fun t : ℝ => S.reported (fun j => x j + t • u j) old i) (S.rate x u dens i) 0 := by
  classical
  intro S hact hx hs
  have hd : HasDerivAt (fun t : ℝ => S.density (fun j => x j + t • u j) i)
      (-S.env.re * ∑ j ∈ S.near x i, prod (x j - x i) (u j - u i) / len (x j - x i) ^ 3) 0 := by
    apply hasDerivAt_density
    intro j hj
    simp only [cands, Finset.mem_filter, Finset.mem_range] at hj
    obtain ⟨k1, k2⟩ := hx j hj.1 hj.2.1 hj.2.2.1 hj.2.2.2
    refine ⟨fun k => k1 ?_, k2⟩
    have k3 : ∑ a, (x j - x i) a ^ 2 = 0 := (Real.sqrt_eq_zero (Finset.sum_nonneg (fun a _ => sq_nonneg _))).mp k
    funext a
    have k4 := (Finset.sum_eq_zero_iff_of_nonneg (fun a _ => sq_nonneg _)).mp k3 a (Finset.mem_univ a)
    exact sub_eq_zero.mp (pow_eq_zero_iff two_ne_zero |>.mp k4)
  have e0 : S.density (fun j => x j + (0 : ℝ) • u j) i = S.density x i := by simp
  unfold Setting.rate
  rw [if_pos (show S.cfg.hs = true from hhs)]
  have hr : ∀ t : ℝ, S.reported (fun j => x j + t • u j) old i =
      if S.cfg.spp then max (S.density (fun j => x j + t • u j) i) S.env.n0 else S.density (fun j => x j + t • u j) i := by
    intro t; unfold Setting.reported; rw [if_pos hact]
  by_cases hspp : S.cfg.spp = true
  · rcases lt_or_gt_of_ne (hs hspp) with k | k
    · rw [if_pos ⟨hspp, k⟩]
      have hev := hd.continuousAt.eventually_lt_const (lt_of_eq_of_lt e0 k)
      exact (hasDerivAt_const (0 : ℝ) S.env.n0).congr_of_eventuallyEq
        (hev.mono (fun t ht => by simp only [hr, if_pos hspp]; exact max_eq_right ht.le))
    · rw [if_neg (fun q => absurd q.2 (not_lt.mpr k.le))]
      have hev := hd.continuousAt.eventually_const_lt (lt_of_lt_of_eq k e0.symm)
      exact hd.congr_of_eventuallyEq (hev.mono (fun t ht => by simp only [hr, if_pos hspp]; exact max_eq_left ht.le))
  · rw [if_neg (fun q => hspp q.1)]
    exact hd.congr_of_eventuallyEq (Filter.Eventually.of_forall (fun t => by simp only [hr, if_neg hspp]))

/-- **C59.**  With `HS` a rigid motion (translation plus rotation) of the particles around a particle is not compression: the rate is zero. -/
theorem C59_rigid_motion_has_no_rate {P : Params ℝ D ω} (s : State ℝ D ω) (dt : ℝ) (hhs : P.cfg.hs = true) {x u : ℕ → Fin D → ℝ}
    {i : ℕ} (dens : ℕ → ℝ) {A : Matrix (Fin D) (Fin D) ℝ} (hA : A.transpose = -A) :
    let S := setting P s dt
    (∀ j ∈ S.near x i, u j - u i = A.mulVec (x j - x i)) → S.rate x u dens i = 0 := by
  intro S hu
  have hz : ∀ d : Fin D → ℝ, prod d (A.mulVec d) = 0 := by
    intro d
    have e1 : prod d (A.mulVec d) = ∑ a, ∑ b, A a b * (d a * d b) := prod_expand d A
    have e2 : prod d (A.mulVec d) = -∑ a, ∑ b, A a b * (d a * d b) := by
      rw [e1]
      conv_lhs => rw [Finset.sum_comm]
      rw [← Finset.sum_neg_distrib]
      refine Finset.sum_congr rfl (fun a _ => ?_)
      rw [← Finset.sum_neg_distrib]
      refine Finset.sum_congr rfl (fun b _ => ?_)
      have : A b a = -A a b := by
        have := congrFun (congrFun hA a) b
        simpa using this
      rw [this]; ring
    linarith
  unfold Setting.rate
  rw [if_pos (show S.cfg.hs = true from hhs)]
  split
  · rfl
  · rw [Finset.sum_eq_zero, mul_zero]
    intro j hj
    rw [hu j hj, hz, zero_div]

/-- What the pressure stage of a step does to a fluid particle, in terms of the pressures after the step. -/
theorem step_push {P : Params ℝ D ω} {env : Env ℝ D} {w : ω}
    {s0 s s' : State ℝ D ω} {dts : List ℝ} (hD : D = 2 ∨ D = 3) (hre : 0 ≤ env.re)
    (hnew : State.new? env w = some s0) (hist : Hist P s0 dts s) (hok : s0.grid.ClearOK) (hL : 0 < env.neighborLength)
    (sch : Schedule) (hv : sch.Valid s.n) (dt : ℝ) (h : s.forwardTime P sch dt = .ok s') {i : ℕ} (hi : i < s.n)
    (hf : (s'.ps i).ty = .incompressibleNewton) :
    let S := setting P s dt
    let m : Scene D := { S.predict (scene s) with p := fun j => (s'.ps j).p }
    (P.cfg.ds = true → let a := S.kick (S.push m) m
      ∀ j ∈ S.nearSolid a.x i, (env.l0 - env.maxDx) ^ 2 ≤ len (a.x j - a.x i) ^ 2) →
    (s'.ps i).u = m.u i + S.push m i ∧ (s'.ps i).x = m.x i + dt • S.push m i ∧ (s'.ps i).n = m.dens i ∧ S.Fluid i := by
  classical
  intro S m hds
  have hc := hist_consts hnew hist
  have hl0e : S.env.l0 = env.l0 := by change s.env.l0 = _; rw [hc]
  have hmdx : S.env.maxDx = env.maxDx := by change s.env.maxDx = _; rw [hc]
  have hdt : S.env.dt = dt := rfl
  obtain ⟨hty, p, hpr, ha⟩ := C42_step_computes_the_reference_formulas hD hnew hist hok hL hre sch hv dt h
  have hfl : S.Fluid i := by unfold Setting.Fluid; rw [← hty i hi]; exact hf
  have hpe : ∀ j, j < s.n → p j = (s'.ps j).p := fun j hj => (ha j hj).2.2.1.symm
  set q : Scene D := { S.predict (scene s) with p := p } with hq
  have hpm : ∀ j, j < S.n → S.push q j = S.push m j := by
    intro j hj
    have hs : ∀ k ∈ S.nearSolid (S.predict (scene s)).x j, p k = (s'.ps k).p := by
      intro k hk; exact hpe k (near_lt (mem_nearSolid.mp hk).1)
    unfold Setting.push
    have e1 : S.forceGc q j = S.forceGc m j := by
      unfold Setting.forceGc
      simp only
      rw [show q.p j = m.p j from hpe j hj]
      congr 1
      refine Finset.sum_congr rfl (fun k hk => ?_)
      rw [show q.p k = m.p k from hs k hk]
      rfl
    have e2 : S.force q j = S.force m j := by
      unfold Setting.force
      rw [show q.p j = m.p j from hpe j hj]
      congr 1
      refine Finset.sum_congr rfl (fun k hk => ?_)
      rw [show q.p k = m.p k from hs k hk]
    rw [e1, e2]
  have hfin : (S.finish q).u i = q.u i + S.push q i ∧ (S.finish q).x i = q.x i + S.env.dt • S.push q i := by
    have hk : (S.kick (S.push q) q).u i = q.u i + S.push q i ∧ (S.kick (S.push q) q).x i = q.x i + S.env.dt • S.push q i := by
      unfold Setting.kick
      simp only
      rw [if_pos hfl, if_pos hfl]
      exact ⟨rfl, rfl⟩
    unfold Setting.finish
    simp only
    split
    · rename_i hd
      have hz : S.stabilise q.x (S.kick (S.push q) q) i = 0 := by
        unfold Setting.stabilise
        simp only
        have hx : ∀ j, j < S.n → (S.kick (S.push q) q).x j = (S.kick (S.push m) m).x j := by
          intro j hj
          unfold Setting.kick
          simp only
          rw [hpm j hj]
        rw [Finset.sum_eq_zero, smul_zero]
        intro j hj
        have hjn : j < S.n := near_lt (mem_nearSolid.mp hj).1
        have hj' : j ∈ S.nearSolid (S.kick (S.push m) m).x i := by
          rw [mem_nearSolid, mem_near_ref] at hj ⊢
          rw [hx j hjn, hx i hi] at hj
          exact hj
        have := hds hd j hj'
        rw [if_neg]
        rw [hx j hjn, hx i hi, hl0e, hmdx]
        exact not_lt.mpr this
      generalize hk2 : S.kick (S.push q) q = k at hz hk ⊢
      constructor
      · rw [← hk.1]
        unfold Setting.kick
        simp only
        rw [if_pos hfl, hz, add_zero]
      · rw [← hk.2]
        unfold Setting.kick
        simp only
        rw [if_pos hfl, hz, smul_zero, add_zero]
    · exact hk
  obtain ⟨a1, a2, -, a4⟩ := ha i hi
  refine ⟨?_, ?_, ?_, hfl⟩
  · change (scene s').u i = _
    rw [a2, hfin.1, hpm i hi]
  · change (scene s').x i = _
    rw [a1, hfin.2, hpm i hi, hdt]
  · change (scene s').dens i = _
    rw [a4]

theorem vecMulVec_mulVec (d g : Fin D → ℝ) : (Matrix.vecMulVec d d).mulVec g = prod g d • d := by
  ext a
  simp only [Matrix.mulVec, Matrix.vecMulVec_apply, dotProduct, Pi.smul_apply, smul_eq_mul, prod, Finset.sum_mul]
  exact Finset.sum_congr rfl (fun b _ => by ring)

/-- The matrix of the gradient correction is invertible if the near particles do not lie in one line (plane) with particle `i`. -/
theorem moment_det {S : Setting D} {m : Scene D} {i : ℕ} (h : ∀ v : Fin D → ℝ, (∀ j ∈ S.near m.x i, prod v (m.x j - m.x i) = 0) → v = 0) :
    (S.moment m i).det ≠ 0 := by
  classical
  intro hdet
  obtain ⟨v, hv0, hv⟩ := Matrix.exists_mulVec_eq_zero_iff.mpr hdet
  apply hv0
  have hw : ∀ r, 0 ≤ weight S.env.re r := by
    intro r
    unfold weight
    split
    · rename_i k
      have := (one_le_div k.1).mpr k.2.le
      linarith
    · exact le_rfl
  have key : prod v ((S.moment m i).mulVec v) = 0 := by rw [hv]; simp [prod]
  have pv : ∀ (c : ℝ) (d : Fin D → ℝ), prod v ((c • Matrix.vecMulVec d d).mulVec v) = c * prod v d ^ 2 := by
    intro c d
    rw [Matrix.smul_mulVec, vecMulVec_mulVec]
    unfold prod
    simp only [Pi.smul_apply, smul_eq_mul]
    rw [sq, Finset.mul_sum, Finset.mul_sum]
    exact Finset.sum_congr rfl (fun a _ => by ring)
  have padd : ∀ a b : Fin D → ℝ, prod v (a + b) = prod v a + prod v b := by
    intro a b; unfold prod; rw [← Finset.sum_add_distrib]; exact Finset.sum_congr rfl (fun a _ => by simp; ring)
  have psum : ∀ (F : ℕ → Fin D → ℝ), prod v (∑ j ∈ S.near m.x i, F j) = ∑ j ∈ S.near m.x i, prod v (F j) := by
    intro F; unfold prod; rw [Finset.sum_comm]; exact Finset.sum_congr rfl (fun a _ => by rw [Finset.sum_apply, Finset.mul_sum])
  unfold Setting.moment at key
  rw [Matrix.add_mulVec, padd, Matrix.sum_mulVec, psum] at key
  have k2 : 0 ≤ prod v ((if S.HasVirtual m.x i then (weight S.env.re (len (S.virtual m.x i)) / len (S.virtual m.x i) ^ 2) •
      Matrix.vecMulVec (S.virtual m.x i) (S.virtual m.x i) else 0 : Matrix (Fin D) (Fin D) ℝ).mulVec v) := by
    split
    · rw [pv]; exact mul_nonneg (div_nonneg (hw _) (sq_nonneg _)) (sq_nonneg _)
    · simp [prod]
  have k1 : ∀ j ∈ S.near m.x i, 0 ≤ prod v (((weight S.env.re (len (m.x j - m.x i)) / len (m.x j - m.x i) ^ 2) •
      Matrix.vecMulVec (m.x j - m.x i) (m.x j - m.x i)).mulVec v) := by
    intro j _
    rw [pv]; exact mul_nonneg (div_nonneg (hw _) (sq_nonneg _)) (sq_nonneg _)
  have k3 := Finset.sum_nonneg k1
  have k4 := (Finset.sum_eq_zero_iff_of_nonneg k1).mp (le_antisymm (by linarith) k3)
  apply h
  intro j hj
  have k5 := k4 j hj
  rw [pv] at k5
  rcases mul_eq_zero.mp k5 with k | k
  · by_contra hne
    have hl : len (m.x j - m.x i) ≠ 0 := by
      intro hz
      have k6 : ∑ a, (m.x j - m.x i) a ^ 2 = 0 := (Real.sqrt_eq_zero (Finset.sum_nonneg (fun a _ => sq_nonneg _))).mp hz
      apply hne
      unfold prod
      refine Finset.sum_eq_zero (fun a _ => ?_)
      have k7 := (Finset.sum_eq_zero_iff_of_nonneg (fun a _ => sq_nonneg _)).mp k6 a (Finset.mem_univ a)
      rw [pow_eq_zero_iff two_ne_zero |>.mp k7, mul_zero]
    have hpos : 0 < len (m.x j - m.x i) := lt_of_le_of_ne (Real.sqrt_nonneg _) (Ne.symm hl)
    have hlt := (mem_near_ref.mp hj).2.2.2.2
    unfold weight at k
    rw [if_pos ⟨hpos, hlt⟩] at k
    have : 0 < S.env.re / len (m.x j - m.x i) - 1 := by
      have := (one_lt_div hpos).mpr hlt
      linarith
    exact absurd k (div_pos this (by positivity)).ne'
  · exact pow_eq_zero_iff two_ne_zero |>.mp k

/-- **C59.**  With `GC` and without the midpoint option the pressure gradient is exact in every arrangement of the neighbours: if the pressures around a
fluid particle without dummies near it are linear in the position with gradient `g` (zero at the virtual particle, if there is one), and the neighbours
do not lie in one line (in three dimensions: plane) through the particle, then the step changes the velocity by exactly `-(dt N()/n0)/rho g`. -/
theorem C59_gc_is_exact_on_linear_pressure {P : Params ℝ D ω} {env : Env ℝ D} {w : ω}
    {s0 s s' : State ℝ D ω} {dts : List ℝ} (hD : D = 2 ∨ D = 3) (hre : 0 ≤ env.re)
    (hnew : State.new? env w = some s0) (hist : Hist P s0 dts s) (hok : s0.grid.ClearOK) (hL : 0 < env.neighborLength)
    (hgc : P.cfg.gc = true) (hmp : P.cfg.midpoint = false)
    (sch : Schedule) (hv : sch.Valid s.n) (dt : ℝ) (h : s.forwardTime P sch dt = .ok s') {i : ℕ} (hi : i < s.n)
    (hf : (s'.ps i).ty = .incompressibleNewton) {g : Fin D → ℝ} :
    let S := setting P s dt
    let m : Scene D := { S.predict (scene s) with p := fun j => (s'.ps j).p }
    (∀ j ∈ S.near m.x i, S.ty j ≠ .dummy ∧ (s'.ps j).p = (s'.ps i).p + prod g (m.x j - m.x i)) →
    (S.HasVirtual m.x i → (s'.ps i).p + prod g (S.virtual m.x i) = 0) →
    (∀ v : Fin D → ℝ, (∀ j ∈ S.near m.x i, prod v (m.x j - m.x i) = 0) → v = 0) →
    (P.cfg.ds = true → let a := S.kick (S.push m) m
      ∀ j ∈ S.nearSolid a.x i, (env.l0 - env.maxDx) ^ 2 ≤ len (a.x j - a.x i) ^ 2) →
    (s'.ps i).u = m.u i - (dt * (s'.ps i).n / (env.rho * env.n0)) • g ∧
    (s'.ps i).x = m.x i - (dt ^ 2 * (s'.ps i).n / (env.rho * env.n0)) • g := by
  classical
  intro S m hp hV hspan hds
  have hdet : (S.moment m i).det ≠ 0 := moment_det hspan
  have hc := hist_consts hnew hist
  have hrho : S.env.rho = env.rho := by change s.env.rho = _; rw [hc]
  have hn0 : S.env.n0 = env.n0 := by change s.env.n0 = _; rw [hc]
  obtain ⟨e1, e2, e3, hfl⟩ := step_push hD hre hnew hist hok hL sch hv dt h hi hf hds
  have hforce : S.forceGc m i = g := by
    have hns : S.nearSolid m.x i = S.near m.x i := Finset.filter_true_of_mem (fun j hj => (hp j hj).1)
    have hM : S.forceGc m i = (S.correction m i).mulVec ((S.moment m i).mulVec g) := by
      unfold Setting.forceGc Setting.moment
      simp only
      rw [hns, Matrix.add_mulVec, Matrix.mulVec_add]
      congr 1
      · rw [Matrix.sum_mulVec, Matrix.mulVec_sum]
        refine Finset.sum_congr rfl (fun j hj => ?_)
        rw [if_neg (by rw [show S.cfg.midpoint = false from hmp]; decide), Matrix.smul_mulVec, vecMulVec_mulVec, smul_smul, Matrix.mulVec_smul]
        congr 1
        change ((s'.ps j).p - (s'.ps i).p) / _ * _ = _
        rw [(hp j hj).2]
        ring
      · by_cases hh : S.HasVirtual m.x i
        · rw [if_pos hh, if_pos hh, if_neg (by rw [show S.cfg.midpoint = false from hmp]; decide), Matrix.smul_mulVec, vecMulVec_mulVec, smul_smul,
            Matrix.mulVec_smul]
          congr 1
          have k := hV hh
          change (0 - (s'.ps i).p) / _ * _ = _
          have : (0 - (s'.ps i).p) = prod g (S.virtual m.x i) := by linarith
          rw [this]; ring
        · rw [if_neg hh, if_neg hh, Matrix.zero_mulVec, Matrix.mulVec_zero]
    rw [hM]
    unfold Setting.correction
    rw [if_neg hdet, Matrix.mulVec_mulVec, Matrix.nonsing_inv_mul _ (isUnit_iff_ne_zero.mpr hdet), Matrix.one_mulVec]
  have hpush : S.push m i = -((dt * (s'.ps i).n / (env.rho * env.n0)) • g) := by
    unfold Setting.push
    rw [if_pos (show S.cfg.gc = true from hgc), hforce, ← e3, hrho, hn0, neg_smul]
    rfl
  constructor
  · rw [e1, hpush, sub_eq_add_neg]
  · rw [e2, hpush, smul_neg, smul_smul, sub_eq_add_neg]
    congr 3
    ring

end OpenMps
