import Verif.Spec.Units
import Verif.Lemmas.Motion

/-! # Lemmas for C48: the reference formulas in other units -/

set_option linter.unusedSectionVars false

namespace OpenMps.Ref

open Matrix

variable {D : Nat} {ω : Type}

theorem len_smul {c : ℝ} (hc : 0 ≤ c) (v : Fin D → ℝ) : len (c • v) = c * len v := by
  unfold len
  have : ∑ a, (c • v) a ^ 2 = c ^ 2 * ∑ a, v a ^ 2 := by
    rw [Finset.mul_sum]; exact Finset.sum_congr rfl (fun a _ => by simp only [Pi.smul_apply, smul_eq_mul]; ring)
  rw [this, Real.sqrt_mul (sq_nonneg c), Real.sqrt_sq hc]

theorem prod_smul (c d : ℝ) (v w : Fin D → ℝ) : Ref.prod (c • v) (d • w) = c * d * Ref.prod v w := by
  unfold Ref.prod
  rw [Finset.mul_sum]; exact Finset.sum_congr rfl (fun a _ => by simp only [Pi.smul_apply, smul_eq_mul]; ring)

theorem weight_scale {c : ℝ} (hc : 0 < c) (re r : ℝ) : weight (c * re) (c * r) = weight re r := by
  unfold weight
  have h1 : (0 < c * r ∧ c * r < c * re) ↔ (0 < r ∧ r < re) := by
    rw [mul_pos_iff_of_pos_left hc, mul_lt_mul_iff_right₀ hc]
  rw [mul_div_mul_left _ _ hc.ne']
  exact if_congr h1 rfl rfl

/-- The constants in the new units. -/
structure EnvInUnits (U : Units) (e e' : Env ℝ D) : Prop where
  n0 : e'.n0 = e.n0
  lambda : e'.lambda = U.length ^ 2 * e.lambda
  c : e'.c = U.speed * e.c
  maxDt : e'.maxDt = U.time * e.maxDt
  maxDx : e'.maxDx = U.length * e.maxDx
  l0 : e'.l0 = U.length * e.l0
  re : e'.re = U.length * e.re
  rho : e'.rho = U.density * e.rho
  nu : e'.nu = U.length * U.speed * e.nu
  surfaceRatio : e'.surfaceRatio = e.surfaceRatio
  neighborLength : e'.neighborLength = U.length * e.neighborLength
  g : e'.g = (U.speed / U.time) • e.g
  minX : e'.minX = U.length • e.minX
  maxX : e'.maxX = U.length • e.maxX

/-- The setting `S'` is `S` in the new units. -/
structure Scaled (U : Units) (S S' : Setting D) : Prop where
  cfg : S'.cfg = S.cfg
  n : S'.n = S.n
  ty : ∀ i, i < S.n → S'.ty i = S.ty i
  start : ∀ i, i < S.n → S'.start i = U.length • S.start i
  callback : ∀ i, i < S.n → S'.callback i = U.length • S.callback i
  dt : S'.env.dt = U.time * S.env.dt
  env : EnvInUnits U S.env S'.env

/-- Scenes in the new units. -/
structure SceneScaled (n : ℕ) (U : Units) (s s' : Scene D) : Prop where
  x : ∀ i, i < n → s'.x i = U.length • s.x i
  u : ∀ i, i < n → s'.u i = U.speed • s.u i
  p : ∀ i, i < n → s'.p i = U.pressure * s.p i
  dens : ∀ i, i < n → s'.dens i = s.dens i

theorem Units.speed_pos (U : Units) : 0 < U.speed := div_pos U.length_pos U.time_pos

theorem Units.pressure_pos (U : Units) : 0 < U.pressure := mul_pos U.density_pos (pow_pos U.speed_pos 2)

section
open scoped Classical

variable {U : Units} {S S' : Setting D} {x x' u u' : ℕ → Fin D → ℝ} {i j : ℕ} {s s' : Scene D}

theorem diff_scaled {c : ℝ} (hx : ∀ i, i < S.n → x' i = c • x i) (hi : i < S.n) (hj : j < S.n) : x' j - x' i = c • (x j - x i) := by
  rw [hx i hi, hx j hj, smul_sub]

theorem near_scaled (h : Scaled U S S') (hx : ∀ i, i < S.n → x' i = U.length • x i) (hi : i < S.n) : S'.near x' i = S.near x i := by
  have hl := U.length_pos
  unfold Setting.near
  rw [h.n]
  apply Finset.filter_congr
  intro j hj
  have hj := Finset.mem_range.mp hj
  rw [h.ty j hj, diff_scaled h.start hi hj, diff_scaled hx hi hj, len_smul hl.le, len_smul hl.le, h.env.re, h.env.neighborLength,
    mul_lt_mul_iff_right₀ hl, mul_lt_mul_iff_right₀ hl]

theorem nearSolid_scaled (h : Scaled U S S') (hx : ∀ i, i < S.n → x' i = U.length • x i) (hi : i < S.n) :
    S'.nearSolid x' i = S.nearSolid x i := by
  unfold Setting.nearSolid
  rw [near_scaled h hx hi]
  apply Finset.filter_congr
  intro j hj
  rw [h.ty j (near_lt hj)]

theorem weight_scaled (h : Scaled U S S') (hx : ∀ i, i < S.n → x' i = U.length • x i) (hi : i < S.n) (hj : j < S.n) :
    weight S'.env.re (len (x' j - x' i)) = weight S.env.re (len (x j - x i)) := by
  rw [diff_scaled hx hi hj, len_smul U.length_pos.le, h.env.re, weight_scale U.length_pos]

theorem density_scaled (h : Scaled U S S') (hx : ∀ i, i < S.n → x' i = U.length • x i) (hi : i < S.n) :
    S'.density x' i = S.density x i := by
  unfold Setting.density
  rw [near_scaled h hx hi]
  exact Finset.sum_congr rfl (fun j hj => weight_scaled h hx hi (near_lt hj))

theorem active_scaled (h : Scaled U S S') (hi : i < S.n) : S'.Active i ↔ S.Active i := by
  unfold Setting.Active; rw [h.ty i hi]

theorem fluid_scaled (h : Scaled U S S') (hi : i < S.n) : S'.Fluid i ↔ S.Fluid i := by
  unfold Setting.Fluid; rw [h.ty i hi]

theorem reported_scaled {d d' : ℕ → ℝ} (h : Scaled U S S') (hx : ∀ i, i < S.n → x' i = U.length • x i)
    (hd : ∀ i, i < S.n → d' i = d i) (hi : i < S.n) : S'.reported x' d' i = S.reported x d i := by
  unfold Setting.reported
  rw [density_scaled h hx hi, h.cfg, h.env.n0, hd i hi]
  exact if_congr (active_scaled h hi) rfl rfl

theorem offset_scaled (h : Scaled U S S') (hx : ∀ i, i < S.n → x' i = U.length • x i) (hi : i < S.n) :
    S'.offset x' i = U.length • S.offset x i := by
  unfold Setting.offset
  rw [near_scaled h hx hi, h.env.n0, smul_comm U.length, Finset.smul_sum (r := U.length)]
  congr 1
  apply Finset.sum_congr rfl
  intro j hj
  rw [weight_scaled h hx hi (near_lt hj), diff_scaled hx hi (near_lt hj), smul_comm]

/-- The comparison of the code with a pure number has the same outcome. -/
def SameVirtual (U : Units) (S : Setting D) (x : ℕ → Fin D → ℝ) : Prop :=
  S.cfg.spp = true → ∀ i, i < S.n → (2⁻¹ ^ 52 < len (S.offset x i) ↔ 2⁻¹ ^ 52 < U.length * len (S.offset x i))

theorem hasVirtual_scaled (h : Scaled U S S') (hx : ∀ i, i < S.n → x' i = U.length • x i) (hv : SameVirtual U S x) (hi : i < S.n) :
    S'.HasVirtual x' i ↔ S.HasVirtual x i := by
  unfold Setting.HasVirtual
  rw [h.cfg, density_scaled h hx hi, h.env.n0, offset_scaled h hx hi, len_smul U.length_pos.le]
  constructor
  · rintro ⟨a, b, c⟩; exact ⟨a, b, (hv a i hi).mpr c⟩
  · rintro ⟨a, b, c⟩; exact ⟨a, b, (hv a i hi).mp c⟩

theorem virtual_scaled (h : Scaled U S S') (hx : ∀ i, i < S.n → x' i = U.length • x i) (hi : i < S.n) :
    S'.virtual x' i = U.length • S.virtual x i := by
  have hl := U.length_pos
  unfold Setting.virtual
  rw [h.env.re, density_scaled h hx hi, h.env.n0, offset_scaled h hx hi, len_smul hl.le, smul_neg, smul_smul, smul_smul]
  congr 2
  rw [mul_div_assoc, mul_div_mul_left _ _ hl.ne', mul_comm]

theorem laplace_scaled (h : Scaled U S S') (r : ℝ) : S'.laplace (U.length * r) = (U.length ^ 2)⁻¹ * S.laplace r := by
  have hl := U.length_pos
  unfold Setting.laplace
  rw [h.cfg, h.env.re, h.env.n0, h.env.lambda, weight_scale hl]
  split
  · rw [div_eq_mul_inv, div_eq_mul_inv, mul_inv, mul_inv, mul_pow, mul_inv]
    field_simp
  · rw [div_eq_mul_inv, div_eq_mul_inv, mul_inv, mul_inv, mul_inv]
    ring

theorem gravity_scaled (h : Scaled U S S') (v : Fin D → ℝ) : S'.gravity (U.length • v) = (U.speed / U.time) • S.gravity v := by
  have hl := U.length_pos
  unfold Setting.gravity
  rw [h.cfg, h.env.g, h.env.l0, len_smul hl.le]
  have h1 : U.length * len v < U.length * S.env.l0 / 100 ↔ len v < S.env.l0 / 100 := by
    rw [mul_div_assoc, mul_lt_mul_iff_right₀ hl]
  split
  · by_cases h2 : len v < S.env.l0 / 100
    · rw [if_pos h2, if_pos (h1.mpr h2), smul_zero]
    · rw [if_neg h2, if_neg (fun k => h2 (h1.mp k)), smul_smul, smul_smul]
      congr 1
      split
      · simp only [Pi.smul_apply, smul_eq_mul]
        rw [div_eq_mul_inv _ (U.length * len v), mul_inv, div_eq_mul_inv _ (len v)]
        field_simp
      · simp
  · rfl

theorem acceleration_scaled (h : Scaled U S S') (hx : ∀ i, i < S.n → x' i = U.length • x i)
    (hu : ∀ i, i < S.n → u' i = U.speed • u i) (hi : i < S.n) :
    S'.acceleration x' u' i = (U.speed / U.time) • S.acceleration x u i := by
  have hl := U.length_pos
  have ht := U.time_pos
  unfold Setting.acceleration
  rw [nearSolid_scaled h hx hi, h.env.nu, smul_add, hx i hi, gravity_scaled h, smul_smul]
  congr 1
  have : ∑ j ∈ S.nearSolid x i, S'.laplace (len (x' j - U.length • x i)) • (u' j - u' i)
      = (U.speed * (U.length ^ 2)⁻¹) • ∑ j ∈ S.nearSolid x i, S.laplace (len (x j - x i)) • (u j - u i) := by
    rw [Finset.smul_sum]
    apply Finset.sum_congr rfl
    intro j hj
    have hjn := nearSolid_lt hj
    rw [← hx i hi, diff_scaled hx hi hjn, diff_scaled hu hi hjn, len_smul hl.le, laplace_scaled h, smul_smul, smul_smul]
    congr 1; ring
  rw [this, smul_smul]
  congr 1
  unfold Units.speed
  field_simp

theorem rate_scaled {d d' : ℕ → ℝ} (h : Scaled U S S') (hx : ∀ i, i < S.n → x' i = U.length • x i)
    (hu : ∀ i, i < S.n → u' i = U.speed • u i) (hd : ∀ i, i < S.n → d' i = d i) (hi : i < S.n) :
    S'.rate x' u' d' i = U.time⁻¹ * S.rate x u d i := by
  have hl := U.length_pos
  have ht := U.time_pos
  unfold Setting.rate
  rw [h.cfg, density_scaled h hx hi, h.env.n0, h.env.re, h.dt, hd i hi, near_scaled h hx hi]
  have : ∑ j ∈ S.near x i, Ref.prod (x' j - x' i) (u' j - u' i) / Ref.len (x' j - x' i) ^ 3
      = (U.speed * (U.length ^ 2)⁻¹) * ∑ j ∈ S.near x i, Ref.prod (x j - x i) (u j - u i) / Ref.len (x j - x i) ^ 3 := by
    rw [Finset.mul_sum]
    apply Finset.sum_congr rfl
    intro j hj
    rw [diff_scaled hx hi (near_lt hj), diff_scaled hu hi (near_lt hj), len_smul hl.le, prod_smul, mul_pow,
      div_eq_mul_inv, mul_inv, div_eq_mul_inv]
    field_simp
  rw [this]
  split
  · split
    · rw [mul_zero]
    · unfold Units.speed; field_simp
  · rw [div_eq_mul_inv, mul_inv, div_eq_mul_inv]; ring

theorem compensation_scaled {d d' : ℕ → ℝ} (h : Scaled U S S') (hx : ∀ i, i < S.n → x' i = U.length • x i)
    (hu : ∀ i, i < S.n → u' i = U.speed • u i) (hd : ∀ i, i < S.n → d' i = d i) (hi : i < S.n) :
    S'.compensation x' u' d' i = U.time⁻¹ * S.compensation x u d i := by
  unfold Setting.compensation
  rw [h.cfg, h.env.n0, rate_scaled h hx hu hd hi, hd i hi, abs_mul, abs_of_pos (inv_pos.mpr U.time_pos)]
  split
  · ring
  · rw [mul_zero]

/-- First stage. -/
theorem predict_scaled (h : Scaled U S S') (hs : SceneScaled S.n U s s') : SceneScaled S.n U (S.predict s) (S'.predict s') := by
  have ht := U.time_pos
  have hu : ∀ i, i < S.n → (S'.predict s').u i = U.speed • (S.predict s).u i := by
    intro i hi
    change (if S'.Fluid i then s'.u i + S'.env.dt • S'.acceleration s'.x s'.u i else (1 / S'.env.dt) • (S'.callback i - s'.x i)) =
      U.speed • (if S.Fluid i then s.u i + S.env.dt • S.acceleration s.x s.u i else (1 / S.env.dt) • (S.callback i - s.x i))
    by_cases hf : S.Fluid i
    · rw [if_pos hf, if_pos ((fluid_scaled h hi).mpr hf), hs.u i hi, h.dt, acceleration_scaled h hs.x hs.u hi, smul_add, smul_smul, smul_smul]
      congr 2
      field_simp
    · rw [if_neg hf, if_neg (fun k => hf ((fluid_scaled h hi).mp k)), h.callback i hi, hs.x i hi, h.dt, ← smul_sub, smul_smul, smul_smul]
      congr 1
      unfold Units.speed
      rw [one_div, mul_inv, one_div]
      ring
  have hx : ∀ i, i < S.n → (S'.predict s').x i = U.length • (S.predict s).x i := by
    intro i hi
    have hu' := hu i hi
    change (if S'.Fluid i then s'.x i + S'.env.dt • (S'.predict s').u i else S'.callback i) =
      U.length • (if S.Fluid i then s.x i + S.env.dt • (S.predict s).u i else S.callback i)
    by_cases hf : S.Fluid i
    · rw [if_pos hf, if_pos ((fluid_scaled h hi).mpr hf), hu', hs.x i hi, h.dt, smul_add, smul_smul, smul_smul]
      congr 2
      unfold Units.speed
      field_simp
    · rw [if_neg hf, if_neg (fun k => hf ((fluid_scaled h hi).mp k)), h.callback i hi]
  exact ⟨hx, hu, hs.p, fun i hi => reported_scaled h hx hs.dens hi⟩

theorem surface_scaled {d d' : ℕ → ℝ} (h : Scaled U S S') (hd : ∀ i, i < S.n → d' i = d i) (hi : i < S.n) : S'.Surface d' i ↔ S.Surface d i := by
  unfold Setting.Surface
  rw [h.cfg, hd i hi, h.env.n0, h.env.surfaceRatio]

theorem laplacian_scaled {k : ℝ} {y y' : ℕ → ℝ} (h : Scaled U S S') (hs : SceneScaled S.n U s s') (hv : SameVirtual U S s.x)
    (hy : ∀ i, i < S.n → y' i = k * y i) (hi : i < S.n) : S'.laplacian s' y' i = (U.length ^ 2)⁻¹ * k * S.laplacian s y i := by
  have hl := U.length_pos
  unfold Setting.laplacian
  rw [nearSolid_scaled h hs.x hi, virtual_scaled h hs.x hi, len_smul hl.le, laplace_scaled h, hy i hi, mul_add, Finset.mul_sum]
  congr 1
  · apply Finset.sum_congr rfl
    intro j hj
    have hjn := nearSolid_lt hj
    rw [diff_scaled hs.x hi hjn, len_smul hl.le, laplace_scaled h, hy j hjn]
    by_cases hf : S.Surface s.dens j
    · rw [if_pos hf, if_pos ((surface_scaled h hs.dens hjn).mpr hf)]; ring
    · rw [if_neg hf, if_neg (fun k => hf ((surface_scaled h hs.dens hjn).mp k))]; ring
  · by_cases hf : S.HasVirtual s.x i
    · rw [if_pos hf, if_pos ((hasVirtual_scaled h hs.x hv hi).mpr hf)]; ring
    · rw [if_neg hf, if_neg (fun k => hf ((hasVirtual_scaled h hs.x hv hi).mp k)), mul_zero]

theorem free_scaled (h : Scaled U S S') {d d' : ℕ → ℝ} (hd : ∀ i, i < S.n → d' i = d i) (hi : i < S.n) :
    (S'.Active i ∧ ¬ S'.Surface d' i) ↔ (S.Active i ∧ ¬ S.Surface d i) := by
  rw [active_scaled h hi, surface_scaled h hd hi]

theorem inner_scaled {n : ℕ} {v v' w w' : ℕ → ℝ} {k l : ℝ} (h : ∀ i, i < n → v' i = k * v i) (g : ∀ i, i < n → w' i = l * w i) :
    inner n v' w' = k * l * inner n v w := by
  unfold inner
  rw [Finset.mul_sum]
  apply Finset.sum_congr rfl
  intro i hi
  rw [h i (Finset.mem_range.mp hi), g i (Finset.mem_range.mp hi)]; ring

/-- `L'` is `L` in the new units, on vectors that vanish where there is no equation (`F`). -/
structure OpScaled (n : ℕ) (F : ℕ → Prop) (m : ℝ) (L L' : (ℕ → ℝ) → ℕ → ℝ) : Prop where
  scale : ∀ (k : ℝ) (y y' : ℕ → ℝ), (∀ i, i < n → F i → y i = 0) → (∀ i, i < n → y' i = k * y i) → ∀ i, i < n → L' y' i = m * k * L y i
  fixed : ∀ y : ℕ → ℝ, (∀ i, i < n → F i → y i = 0) → ∀ i, i < n → F i → L y i = 0

theorem conjugate_scaled {n : ℕ} {F : ℕ → Prop} {L L' : (ℕ → ℝ) → ℕ → ℝ} {m k : ℝ} (hm : 0 < m) (hk : 0 < k) (hL : OpScaled n F m L L')
    (tol : ℝ) : ∀ (c : ℕ) (y y' r r' d d' : ℕ → ℝ), (∀ i, i < n → y' i = k * y i) → (∀ i, i < n → r' i = m * k * r i) →
      (∀ i, i < n → d' i = m * k * d i) → (∀ i, i < n → F i → r i = 0) → (∀ i, i < n → F i → d i = 0) →
      (conjugate n L tol c y r d = none ∧ conjugate n L' ((m * k) ^ 2 * tol) c y' r' d' = none) ∨
      ∃ z z', conjugate n L tol c y r d = some z ∧ conjugate n L' ((m * k) ^ 2 * tol) c y' r' d' = some z' ∧ ∀ i, i < n → z' i = k * z i := by
  intro c
  induction c with
  | zero => intro y y' r r' d d' _ _ _ _ _; exact Or.inl ⟨rfl, rfl⟩
  | succ c ih =>
    intro y y' r r' d d' hy hr hd fr fd
    unfold conjugate
    simp only
    have hLd := hL.scale (m * k) d d' fd hd
    have hFd := hL.fixed d fd
    have ha : inner n r' r' / inner n d' (L' d') = m⁻¹ * (inner n r r / inner n d (L d)) := by
      rw [inner_scaled hr hr, inner_scaled hd hLd, div_eq_mul_inv, mul_inv, div_eq_mul_inv]
      field_simp
    rw [ha]
    set alpha := inner n r r / inner n d (L d)
    have hy1 : ∀ i, i < n → (y' + (m⁻¹ * alpha) • d') i = k * (y + alpha • d) i := fun i hi => by
      simp only [Pi.add_apply, Pi.smul_apply, smul_eq_mul, hy i hi, hd i hi]
      field_simp
    have hr1 : ∀ i, i < n → (r' - (m⁻¹ * alpha) • L' d') i = m * k * (r - alpha • L d) i := fun i hi => by
      simp only [Pi.sub_apply, Pi.smul_apply, smul_eq_mul, hr i hi, hLd i hi]
      field_simp
    have fr1 : ∀ i, i < n → F i → (r - alpha • L d) i = 0 := fun i hi hf => by
      simp only [Pi.sub_apply, Pi.smul_apply, smul_eq_mul, fr i hi hf, hFd i hi hf, mul_zero, sub_zero]
    rw [inner_scaled hr1 hr1]
    have hc : m * k * (m * k) * inner n (r - alpha • L d) (r - alpha • L d) < (m * k) ^ 2 * tol ↔
        inner n (r - alpha • L d) (r - alpha • L d) < tol := by
      rw [← sq, mul_lt_mul_iff_right₀ (by positivity)]
    by_cases hlt : inner n (r - alpha • L d) (r - alpha • L d) < tol
    · rw [if_pos hlt, if_pos (hc.mpr hlt)]
      exact Or.inr ⟨_, _, rfl, rfl, hy1⟩
    · rw [if_neg hlt, if_neg (fun h => hlt (hc.mp h))]
      refine ih _ _ _ _ _ _ hy1 hr1 ?_ fr1 ?_
      · intro i hi
        have := hr1 i hi
        rw [inner_scaled hr hr, mul_div_mul_left _ _ (by positivity)]
        simp only [Pi.sub_apply, Pi.smul_apply, Pi.add_apply, smul_eq_mul, hd i hi] at this ⊢
        rw [this]; ring
      · intro i hi hf
        have := fr1 i hi hf
        simp only [Pi.sub_apply, Pi.smul_apply, Pi.add_apply, smul_eq_mul, fd i hi hf, mul_zero, add_zero] at this ⊢
        exact this

theorem solve_scaled {n : ℕ} {F : ℕ → Prop} {L L' : (ℕ → ℝ) → ℕ → ℝ} {m k : ℝ} (hm : 0 < m) (hk : 0 < k) (hL : OpScaled n F m L L')
    {b b' y y' : ℕ → ℝ} (hb : ∀ i, i < n → b' i = m * k * b i) (hy : ∀ i, i < n → y' i = k * y i)
    (fb : ∀ i, i < n → F i → b i = 0) (fy : ∀ i, i < n → F i → y i = 0) (eps : ℝ) :
    (solve n L b y eps = none ∧ solve n L' b' y' eps = none) ∨
    ∃ z z', solve n L b y eps = some z ∧ solve n L' b' y' eps = some z' ∧ ∀ i, i < n → z' i = k * z i := by
  have hr : ∀ i, i < n → (b' - L' y') i = m * k * (b - L y) i := fun i hi => by
    simp only [Pi.sub_apply, hb i hi, hL.scale k y y' fy hy i hi]; ring
  have fr : ∀ i, i < n → F i → (b - L y) i = 0 := fun i hi hf => by
    simp only [Pi.sub_apply, fb i hi hf, hL.fixed y fy i hi hf, sub_zero]
  unfold solve
  simp only
  rw [inner_scaled hr hr]
  have e : m * k * (m * k) * inner n (b - L y) (b - L y) * eps ^ 2 = (m * k) ^ 2 * (inner n (b - L y) (b - L y) * eps ^ 2) := by ring
  rw [e]
  have h0 : (m * k) ^ 2 * (inner n (b - L y) (b - L y) * eps ^ 2) = 0 ↔ inner n (b - L y) (b - L y) * eps ^ 2 = 0 := by
    constructor
    · intro h
      rcases mul_eq_zero.mp h with h | h
      · exact absurd h (by positivity)
      · exact h
    · intro h; rw [h, mul_zero]
  by_cases hz : inner n (b - L y) (b - L y) * eps ^ 2 = 0
  · rw [if_pos hz, if_pos (h0.mpr hz)]
    exact Or.inr ⟨_, _, rfl, rfl, hy⟩
  · rw [if_neg hz, if_neg (fun h => hz (h0.mp h))]
    exact conjugate_scaled hm hk hL _ _ _ _ _ _ _ _ hy hr hr fr fr

/-- Pressures. -/
theorem pressure_scaled {b b' : Scene D} (h : Scaled U S S') (hb : SceneScaled S.n U b b')
    (hs : SceneScaled S.n U s s') (hv : SameVirtual U S s.x) (eps : ℝ) :
    (S.pressure eps b s = none ∧ S'.pressure eps b' s' = none) ∨
    ∃ p p', S.pressure eps b s = some p ∧ S'.pressure eps b' s' = some p' ∧ ∀ i, i < S.n → p' i = U.pressure * p i := by
  have hl := U.length_pos
  have ht := U.time_pos
  have hp := U.pressure_pos
  unfold Setting.pressure
  rw [h.cfg]
  split
  · refine Or.inr ⟨_, _, rfl, rfl, ?_⟩
    intro i hi
    unfold Setting.eos
    rw [h.env.c, h.env.rho, h.env.n0, hs.dens i hi]
    have : U.density * S.env.rho * s.dens i / S.env.n0 - U.density * S.env.rho = U.density * (S.env.rho * s.dens i / S.env.n0 - S.env.rho) := by
      ring
    rw [this, ← mul_zero U.density, ← mul_max_of_nonneg _ _ U.density_pos.le, mul_zero]
    unfold Units.pressure
    ring
  · have hop : OpScaled S.n (fun i => ¬ (S.Active i ∧ ¬ S.Surface s.dens i)) (U.length ^ 2)⁻¹ (S.operator s) (S'.operator s') := by
      constructor
      · intro k y y' fy hy i hi
        unfold Setting.operator
        rw [laplacian_scaled h hs hv hy hi, hy i hi]
        by_cases hf : S.Active i ∧ ¬ S.Surface s.dens i
        · rw [if_pos hf, if_pos ((free_scaled h hs.dens hi).mpr hf)]
        · rw [if_neg hf, if_neg (fun k => hf ((free_scaled h hs.dens hi).mp k)), fy i hi hf, mul_zero, mul_zero]
      · intro y fy i hi hf
        unfold Setting.operator
        rw [if_neg hf, fy i hi hf]
    have hso : ∀ i, i < S.n → S'.source b' s' i = (U.length ^ 2)⁻¹ * U.pressure * S.source b s i := by
      intro i hi
      unfold Setting.source
      rw [h.env.rho, h.env.n0, h.dt, rate_scaled h hs.x hs.u hs.dens hi,
        compensation_scaled h hb.x hb.u (d := S.reported b.x b.dens) (fun i hi => reported_scaled h hb.x hb.dens hi) hi]
      by_cases hf : S.Active i ∧ ¬ S.Surface s.dens i
      · rw [if_pos hf, if_pos ((free_scaled h hs.dens hi).mpr hf)]
        unfold Units.pressure Units.speed
        rw [div_eq_mul_inv, mul_inv, mul_inv, div_eq_mul_inv (-S.env.rho), mul_inv]
        field_simp
      · rw [if_neg hf, if_neg (fun k => hf ((free_scaled h hs.dens hi).mp k)), mul_zero]
    have hg : ∀ i, i < S.n → S'.guess s' i = U.pressure * S.guess s i := by
      intro i hi
      unfold Setting.guess
      rw [hs.p i hi]
      by_cases hf : S.Active i ∧ ¬ S.Surface s.dens i
      · rw [if_pos hf, if_pos ((free_scaled h hs.dens hi).mpr hf)]
      · rw [if_neg hf, if_neg (fun k => hf ((free_scaled h hs.dens hi).mp k)), mul_zero]
    rw [h.n]
    rcases solve_scaled (by positivity) hp hop hso hg (fun i _ hf => by unfold Setting.source; rw [if_neg hf])
      (fun i _ hf => by unfold Setting.guess; rw [if_neg hf]) eps with ⟨k1, k2⟩ | ⟨z, z', k1, k2, k3⟩
    · left; rw [k1, k2]; exact ⟨rfl, rfl⟩
    · right
      rw [k1, k2]
      refine ⟨_, _, rfl, rfl, ?_⟩
      intro i hi
      simp only
      rw [k3 i hi, hs.p i hi]
      by_cases ha : S.Active i
      · rw [if_pos ha, if_pos ((active_scaled h hi).mpr ha)]
        by_cases hf : S.Surface s.dens i
        · rw [if_pos hf, if_pos ((surface_scaled h hs.dens hi).mpr hf), mul_zero]
        · rw [if_neg hf, if_neg (fun k => hf ((surface_scaled h hs.dens hi).mp k)), mul_max_of_nonneg _ _ hp.le, mul_zero]
      · rw [if_neg ha, if_neg (fun k => ha ((active_scaled h hi).mp k))]

theorem pair_scaled (c k q w r : ℝ) (hc : 0 < c) (v : Fin D → ℝ) :
    (k * q / (c * r) ^ 2 * w) • (c • v) = (k / c) • ((q / r ^ 2 * w) • v) := by
  rw [smul_smul, smul_smul]
  congr 1
  rw [mul_pow, div_eq_mul_inv, mul_inv, div_eq_mul_inv q]
  field_simp

theorem force_scaled (h : Scaled U S S') (hs : SceneScaled S.n U s s') (hv : SameVirtual U S s.x) (hi : i < S.n) :
    S'.force s' i = (U.pressure / U.length) • S.force s i := by
  have hl := U.length_pos
  unfold Setting.force
  rw [nearSolid_scaled h hs.x hi, virtual_scaled h hs.x hi, len_smul hl.le, hs.p i hi, smul_add, Finset.smul_sum]
  congr 1
  · apply Finset.sum_congr rfl
    intro j hj
    have hjn := nearSolid_lt hj
    rw [weight_scaled h hs.x hi hjn, diff_scaled hs.x hi hjn, len_smul hl.le, hs.p j hjn, ← mul_add, pair_scaled _ _ _ _ _ hl]
  · by_cases hf : S.HasVirtual s.x i
    · rw [if_pos hf, if_pos ((hasVirtual_scaled h hs.x hv hi).mpr hf), h.env.re, weight_scale hl, pair_scaled _ _ _ _ _ hl]
    · rw [if_neg hf, if_neg (fun k => hf ((hasVirtual_scaled h hs.x hv hi).mp k)), smul_zero]

theorem outer_scaled {c : ℝ} (hc : 0 < c) (w r : ℝ) (v : Fin D → ℝ) :
    (w / (c * r) ^ 2) • Matrix.vecMulVec (c • v) (c • v) = (w / r ^ 2) • Matrix.vecMulVec v v := by
  rw [Matrix.smul_vecMulVec, Matrix.vecMulVec_smul, smul_smul, smul_smul]
  congr 1
  rw [mul_pow, div_eq_mul_inv, mul_inv, div_eq_mul_inv]
  field_simp

theorem moment_scaled (h : Scaled U S S') (hs : SceneScaled S.n U s s') (hv : SameVirtual U S s.x) (hi : i < S.n) :
    S'.moment s' i = S.moment s i := by
  have hl := U.length_pos
  unfold Setting.moment
  rw [near_scaled h hs.x hi, virtual_scaled h hs.x hi, len_smul hl.le]
  congr 1
  · apply Finset.sum_congr rfl
    intro j hj
    rw [weight_scaled h hs.x hi (near_lt hj), diff_scaled hs.x hi (near_lt hj), len_smul hl.le, outer_scaled hl]
  · by_cases hf : S.HasVirtual s.x i
    · rw [if_pos hf, if_pos ((hasVirtual_scaled h hs.x hv hi).mpr hf), h.env.re, weight_scale hl, outer_scaled hl]
    · rw [if_neg hf, if_neg (fun k => hf ((hasVirtual_scaled h hs.x hv hi).mp k))]

theorem correction_scaled (h : Scaled U S S') (hs : SceneScaled S.n U s s') (hv : SameVirtual U S s.x) (hi : i < S.n) :
    S'.correction s' i = S.correction s i := by
  unfold Setting.correction
  rw [moment_scaled h hs hv hi, h.env.n0]

theorem forceGc_scaled (h : Scaled U S S') (hs : SceneScaled S.n U s s') (hv : SameVirtual U S s.x) (hi : i < S.n) :
    S'.forceGc s' i = (U.pressure / U.length) • S.forceGc s i := by
  have hl := U.length_pos
  unfold Setting.forceGc
  simp only
  rw [nearSolid_scaled h hs.x hi, virtual_scaled h hs.x hi, len_smul hl.le, hs.p i hi, smul_add, Finset.smul_sum, h.cfg,
    correction_scaled h hs hv hi]
  congr 1
  · apply Finset.sum_congr rfl
    intro j hj
    have hjn := nearSolid_lt hj
    rw [weight_scaled h hs.x hi hjn, diff_scaled hs.x hi hjn, len_smul hl.le, hs.p j hjn, Matrix.mulVec_smul, ← mul_add, ← mul_sub]
    split <;> rw [pair_scaled _ _ _ _ _ hl]
  · by_cases hf : S.HasVirtual s.x i
    · rw [if_pos hf, if_pos ((hasVirtual_scaled h hs.x hv hi).mpr hf), h.env.re, weight_scale hl, Matrix.mulVec_smul]
      have e1 : (0 : ℝ) + U.pressure * s.p i = U.pressure * (0 + s.p i) := by ring
      have e2 : (0 : ℝ) - U.pressure * s.p i = U.pressure * (0 - s.p i) := by ring
      rw [e1, e2]
      split <;> rw [pair_scaled _ _ _ _ _ hl]
    · rw [if_neg hf, if_neg (fun k => hf ((hasVirtual_scaled h hs.x hv hi).mp k)), smul_zero]

theorem push_scaled (h : Scaled U S S') (hs : SceneScaled S.n U s s') (hv : SameVirtual U S s.x) (hi : i < S.n) :
    S'.push s' i = U.speed • S.push s i := by
  have hl := U.length_pos
  have ht := U.time_pos
  have hd := U.density_pos
  unfold Setting.push
  rw [h.cfg, h.dt, h.env.rho, h.env.n0, hs.dens i hi]
  split
  · rw [forceGc_scaled h hs hv hi, smul_smul, smul_smul]
    congr 1
    unfold Units.pressure Units.speed
    rw [div_eq_mul_inv, mul_inv, mul_inv, div_eq_mul_inv (S.env.dt * s.dens i), mul_inv]
    field_simp
  · rw [force_scaled h hs hv hi, smul_smul, smul_smul]
    congr 1
    unfold Units.pressure Units.speed
    rw [div_eq_mul_inv, mul_inv, div_eq_mul_inv S.env.dt]
    field_simp

theorem kick_scaled (h : Scaled U S S') (hs : SceneScaled S.n U s s') {dv dv' : ℕ → Fin D → ℝ}
    (hd : ∀ i, i < S.n → dv' i = U.speed • dv i) : SceneScaled S.n U (S.kick dv s) (S'.kick dv' s') := by
  have ht := U.time_pos
  refine ⟨?_, ?_, hs.p, hs.dens⟩
  · intro i hi
    unfold Setting.kick
    simp only
    by_cases hf : S.Fluid i
    · rw [if_pos hf, if_pos ((fluid_scaled h hi).mpr hf), hs.x i hi, hd i hi, h.dt, smul_add, smul_smul, smul_smul]
      congr 2
      unfold Units.speed
      field_simp
    · rw [if_neg hf, if_neg (fun k => hf ((fluid_scaled h hi).mp k)), hs.x i hi]
  · intro i hi
    unfold Setting.kick
    simp only
    by_cases hf : S.Fluid i
    · rw [if_pos hf, if_pos ((fluid_scaled h hi).mpr hf), hs.u i hi, hd i hi, smul_add]
    · rw [if_neg hf, if_neg (fun k => hf ((fluid_scaled h hi).mp k)), hs.u i hi]

theorem stabilise_scaled {old old' : ℕ → Fin D → ℝ} (h : Scaled U S S') (hs : SceneScaled S.n U s s')
    (ho : ∀ i, i < S.n → old' i = U.length • old i) (hi : i < S.n) : S'.stabilise old' s' i = U.speed • S.stabilise old s i := by
  have hl := U.length_pos
  have ht := U.time_pos
  unfold Setting.stabilise
  simp only
  rw [nearSolid_scaled h hs.x hi, h.dt, h.env.n0, h.env.l0, h.env.maxDx, ← mul_sub]
  set d := S.env.l0 - S.env.maxDx
  have : ∀ j ∈ S.nearSolid s.x i,
      (if len (s'.x j - s'.x i) ^ 2 < (U.length * d) ^ 2 then
        (√((U.length * d) ^ 2 - len (s'.x j - s'.x i - Ref.prod (s'.x j - s'.x i) ((1 / len (old' j - old' i)) • (old' j - old' i)) •
            ((1 / len (old' j - old' i)) • (old' j - old' i))) ^ 2) -
          Ref.prod (s'.x j - s'.x i) ((1 / len (old' j - old' i)) • (old' j - old' i))) • ((1 / len (old' j - old' i)) • (old' j - old' i))
       else 0) = U.length •
      (if len (s.x j - s.x i) ^ 2 < d ^ 2 then
        (√(d ^ 2 - len (s.x j - s.x i - Ref.prod (s.x j - s.x i) ((1 / len (old j - old i)) • (old j - old i)) •
            ((1 / len (old j - old i)) • (old j - old i))) ^ 2) -
          Ref.prod (s.x j - s.x i) ((1 / len (old j - old i)) • (old j - old i))) • ((1 / len (old j - old i)) • (old j - old i))
       else 0) := by
    intro j hj
    have hjn := nearSolid_lt hj
    rw [diff_scaled hs.x hi hjn, diff_scaled ho hi hjn, len_smul hl.le, len_smul hl.le]
    have e1 : (1 / (U.length * len (old j - old i))) • U.length • (old j - old i) = (1 / len (old j - old i)) • (old j - old i) := by
      rw [smul_smul]; congr 1
      rw [one_div, mul_inv, one_div]; field_simp
    rw [e1]
    set e := (1 / len (old j - old i)) • (old j - old i)
    have e2 : Ref.prod (U.length • (s.x j - s.x i)) e = U.length * Ref.prod (s.x j - s.x i) e := by
      have := prod_smul U.length 1 (s.x j - s.x i) e
      rw [one_smul, mul_one] at this; exact this
    rw [e2, mul_smul, ← smul_sub, len_smul hl.le, mul_pow, mul_pow, mul_pow]
    have hq : 0 < U.length ^ 2 := by positivity
    by_cases hc : len (s.x j - s.x i) ^ 2 < d ^ 2
    · rw [if_pos hc, if_pos (mul_lt_mul_of_pos_left hc hq), ← mul_sub, Real.sqrt_mul hq.le, Real.sqrt_sq hl.le, ← mul_sub, mul_smul]
    · rw [if_neg hc, if_neg (fun k => hc (lt_of_mul_lt_mul_left k hq.le)), smul_zero]
  rw [Finset.sum_congr rfl this, ← Finset.smul_sum, smul_smul, smul_smul]
  congr 1
  unfold Units.speed
  rw [one_div, mul_inv, mul_inv, mul_inv, one_div, mul_inv, mul_inv]
  ring

theorem finish_scaled (h : Scaled U S S') (hs : SceneScaled S.n U s s') (hv : SameVirtual U S s.x) :
    SceneScaled S.n U (S.finish s) (S'.finish s') := by
  have h1 := kick_scaled h hs (dv := S.push s) (dv' := S'.push s') (fun i hi => push_scaled h hs hv hi)
  unfold Setting.finish
  simp only
  rw [h.cfg]
  split
  · exact kick_scaled h h1 (fun i hi => stabilise_scaled h h1 hs.x hi)
  · exact h1

/-- The whole step. -/
theorem step_scaled (h : Scaled U S S') (hs : SceneScaled S.n U s s') (hv : SameVirtual U S (S.predict s).x) (eps : ℝ) :
    (S.step eps s = none ∧ S'.step eps s' = none) ∨
    ∃ a a', S.step eps s = some a ∧ S'.step eps s' = some a' ∧ SceneScaled S.n U a a' := by
  have h1 := predict_scaled h hs
  unfold Setting.step
  rcases pressure_scaled h hs h1 hv eps with ⟨k1, k2⟩ | ⟨p, p', k1, k2, k3⟩
  · left; rw [k1, k2]; exact ⟨rfl, rfl⟩
  · right
    rw [k1, k2]
    exact ⟨_, _, rfl, rfl, finish_scaled h ⟨h1.x, h1.u, k3, h1.dens⟩ hv⟩

end

end OpenMps.Ref
