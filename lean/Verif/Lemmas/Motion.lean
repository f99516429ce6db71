import Verif.Spec.Motion
import Verif.Props.ReferenceStep

/-! # Lemmas for C44: the reference formulas in another frame -/

set_option linter.unusedSectionVars false

namespace OpenMps.Ref

open Matrix

variable {D : Nat} {ω : Type}

theorem prod_dot (v w : Fin D → ℝ) : prod v w = v ⬝ᵥ w := rfl

theorem Motion.prod (M : Motion D) (v w : Fin D → ℝ) : Ref.prod (M.R *ᵥ v) (M.R *ᵥ w) = Ref.prod v w := by
  rw [prod_dot, prod_dot, Matrix.dotProduct_mulVec, Matrix.vecMul_mulVec, M.orth, Matrix.vecMul_one]

theorem Motion.len (M : Motion D) (v : Fin D → ℝ) : Ref.len (M.R *ᵥ v) = Ref.len v := by
  have e : ∀ v : Fin D → ℝ, Ref.len v = √(Ref.prod v v) := by
    intro v; unfold Ref.len Ref.prod; congr 1; exact Finset.sum_congr rfl (fun a _ => sq _)
  rw [e, e, M.prod]

/-- The setting `S'` is `S` seen from the frame `M`. -/
structure Moved (M : Motion D) (S S' : Setting D) : Prop where
  cfg : S'.cfg = S.cfg
  n : S'.n = S.n
  ty : ∀ i, i < S.n → S'.ty i = S.ty i
  start : ∀ i, i < S.n → S'.start i = M.R *ᵥ S.start i + M.shift
  callback : ∀ i, i < S.n → ¬ S.Fluid i → S'.callback i = M.R *ᵥ S.callback i + (M.shift + S.env.dt • M.boost)
  dt : S'.env.dt = S.env.dt
  dt0 : S.env.dt ≠ 0
  env : SameConstants S.cfg M S.env S'.env

/-- Scenes seen from the frame `M`. -/
structure SceneMoved (n : ℕ) (M : Motion D) (s s' : Scene D) : Prop where
  x : ∀ i, i < n → s'.x i = M.R *ᵥ s.x i + M.shift
  u : ∀ i, i < n → s'.u i = M.R *ᵥ s.u i + M.boost
  p : ∀ i, i < n → s'.p i = s.p i
  dens : ∀ i, i < n → s'.dens i = s.dens i

section
open scoped Classical

variable {M : Motion D} {S S' : Setting D} {x x' u u' : ℕ → Fin D → ℝ} {i j : ℕ} {s s' : Scene D}

theorem diff_moved {c : Fin D → ℝ} (hx : ∀ i, i < S.n → x' i = M.R *ᵥ x i + c) (hi : i < S.n) (hj : j < S.n) : x' j - x' i = M.R *ᵥ (x j - x i) := by
  rw [hx i hi, hx j hj, Matrix.mulVec_sub, add_sub_add_right_eq_sub]

theorem near_moved {c : Fin D → ℝ} (h : Moved M S S') (hx : ∀ i, i < S.n → x' i = M.R *ᵥ x i + c) (hi : i < S.n) : S'.near x' i = S.near x i := by
  unfold Setting.near
  rw [h.n]
  apply Finset.filter_congr
  intro j hj
  have hj := Finset.mem_range.mp hj
  rw [h.ty j hj, diff_moved h.start hi hj, diff_moved hx hi hj, M.len, M.len, h.env.re, h.env.neighborLength]

theorem nearSolid_moved {c : Fin D → ℝ} (h : Moved M S S') (hx : ∀ i, i < S.n → x' i = M.R *ᵥ x i + c) (hi : i < S.n) :
    S'.nearSolid x' i = S.nearSolid x i := by
  unfold Setting.nearSolid
  rw [near_moved h hx hi]
  apply Finset.filter_congr
  intro j hj
  rw [h.ty j (near_lt hj)]

theorem nearSolid_lt (h : j ∈ S.nearSolid x i) : j < S.n := near_lt (Finset.mem_filter.mp h).1

theorem density_moved {c : Fin D → ℝ} (h : Moved M S S') (hx : ∀ i, i < S.n → x' i = M.R *ᵥ x i + c) (hi : i < S.n) :
    S'.density x' i = S.density x i := by
  unfold Setting.density
  rw [near_moved h hx hi]
  apply Finset.sum_congr rfl
  intro j hj
  rw [diff_moved hx hi (near_lt hj), M.len, h.env.re]

theorem active_moved (h : Moved M S S') (hi : i < S.n) : S'.Active i ↔ S.Active i := by
  unfold Setting.Active; rw [h.ty i hi]

theorem fluid_moved (h : Moved M S S') (hi : i < S.n) : S'.Fluid i ↔ S.Fluid i := by
  unfold Setting.Fluid; rw [h.ty i hi]

theorem reported_moved {c : Fin D → ℝ} {d d' : ℕ → ℝ} (h : Moved M S S') (hx : ∀ i, i < S.n → x' i = M.R *ᵥ x i + c)
    (hd : ∀ i, i < S.n → d' i = d i) (hi : i < S.n) : S'.reported x' d' i = S.reported x d i := by
  unfold Setting.reported
  rw [density_moved h hx hi, h.cfg, h.env.n0, hd i hi]
  exact if_congr (active_moved h hi) rfl rfl

theorem mulVec_sum' {ι : Type} (s : Finset ι) (f : ι → Fin D → ℝ) (A : Matrix (Fin D) (Fin D) ℝ) : A *ᵥ (∑ j ∈ s, f j) = ∑ j ∈ s, A *ᵥ f j :=
  map_sum (Matrix.mulVecLin A) f s

theorem offset_moved {c : Fin D → ℝ} (h : Moved M S S') (hx : ∀ i, i < S.n → x' i = M.R *ᵥ x i + c) (hi : i < S.n) :
    S'.offset x' i = M.R *ᵥ S.offset x i := by
  unfold Setting.offset
  rw [near_moved h hx hi, h.env.n0, Matrix.mulVec_smul, mulVec_sum']
  congr 1
  apply Finset.sum_congr rfl
  intro j hj
  rw [diff_moved hx hi (near_lt hj), M.len, h.env.re, Matrix.mulVec_smul]

theorem hasVirtual_moved {c : Fin D → ℝ} (h : Moved M S S') (hx : ∀ i, i < S.n → x' i = M.R *ᵥ x i + c) (hi : i < S.n) :
    S'.HasVirtual x' i ↔ S.HasVirtual x i := by
  unfold Setting.HasVirtual
  rw [h.cfg, density_moved h hx hi, h.env.n0, offset_moved h hx hi, M.len]

theorem virtual_moved {c : Fin D → ℝ} (h : Moved M S S') (hx : ∀ i, i < S.n → x' i = M.R *ᵥ x i + c) (hi : i < S.n) :
    S'.virtual x' i = M.R *ᵥ S.virtual x i := by
  unfold Setting.virtual
  rw [h.env.re, density_moved h hx hi, h.env.n0, offset_moved h hx hi, M.len, Matrix.mulVec_neg, Matrix.mulVec_smul]

theorem laplace_moved (h : Moved M S S') (r : ℝ) : S'.laplace r = S.laplace r := by
  unfold Setting.laplace
  rw [h.cfg, h.env.re, h.env.n0, h.env.lambda]

theorem gravity_moved (h : Moved M S S') (v : Fin D → ℝ) : S'.gravity (M.R *ᵥ v + M.shift) = M.R *ᵥ S.gravity v := by
  unfold Setting.gravity
  rw [h.cfg]
  cases hc : S.cfg.centralGravity with
  | false => simpa using h.env.gravity hc
  | true =>
    obtain ⟨h1, -, h2⟩ := h.env.central hc
    rw [h1, add_zero, M.len, h2, h.env.l0]
    simp only [if_true]
    split
    · rw [Matrix.mulVec_zero]
    · rw [Matrix.mulVec_smul]

theorem acceleration_moved (h : Moved M S S') (hx : ∀ i, i < S.n → x' i = M.R *ᵥ x i + M.shift)
    (hu : ∀ i, i < S.n → u' i = M.R *ᵥ u i + M.boost) (hi : i < S.n) :
    S'.acceleration x' u' i = M.R *ᵥ S.acceleration x u i := by
  unfold Setting.acceleration
  rw [nearSolid_moved h hx hi, h.env.nu, Matrix.mulVec_add, Matrix.mulVec_smul, mulVec_sum', hx i hi, gravity_moved h]
  congr 2
  apply Finset.sum_congr rfl
  intro j hj
  have hjn := nearSolid_lt hj
  rw [← hx i hi, diff_moved hx hi hjn, diff_moved hu hi hjn, M.len, laplace_moved h, Matrix.mulVec_smul]

theorem rate_moved {c w : Fin D → ℝ} {d d' : ℕ → ℝ} (h : Moved M S S') (hx : ∀ i, i < S.n → x' i = M.R *ᵥ x i + c)
    (hu : ∀ i, i < S.n → u' i = M.R *ᵥ u i + w) (hd : ∀ i, i < S.n → d' i = d i) (hi : i < S.n) :
    S'.rate x' u' d' i = S.rate x u d i := by
  unfold Setting.rate
  rw [h.cfg, density_moved h hx hi, h.env.n0, h.env.re, h.dt, hd i hi, near_moved h hx hi]
  have : ∑ j ∈ S.near x i, Ref.prod (x' j - x' i) (u' j - u' i) / Ref.len (x' j - x' i) ^ 3
      = ∑ j ∈ S.near x i, Ref.prod (x j - x i) (u j - u i) / Ref.len (x j - x i) ^ 3 := by
    apply Finset.sum_congr rfl
    intro j hj
    rw [diff_moved hx hi (near_lt hj), diff_moved hu hi (near_lt hj), M.len, M.prod]
  rw [this]

theorem compensation_moved {c w : Fin D → ℝ} {d d' : ℕ → ℝ} (h : Moved M S S') (hx : ∀ i, i < S.n → x' i = M.R *ᵥ x i + c)
    (hu : ∀ i, i < S.n → u' i = M.R *ᵥ u i + w) (hd : ∀ i, i < S.n → d' i = d i) (hi : i < S.n) :
    S'.compensation x' u' d' i = S.compensation x u d i := by
  unfold Setting.compensation
  rw [h.cfg, h.env.n0, rate_moved h hx hu hd hi, hd i hi]

/-- First stage. -/
theorem predict_moved (h : Moved M S S') (hs : SceneMoved S.n M s s') : SceneMoved S.n (M.later S.env.dt) (S.predict s) (S'.predict s') := by
  have hu : ∀ i, i < S.n → (S'.predict s').u i = M.R *ᵥ (S.predict s).u i + M.boost := by
    intro i hi
    change (if S'.Fluid i then s'.u i + S'.env.dt • S'.acceleration s'.x s'.u i else (1 / S'.env.dt) • (S'.callback i - s'.x i)) =
      M.R *ᵥ (if S.Fluid i then s.u i + S.env.dt • S.acceleration s.x s.u i else (1 / S.env.dt) • (S.callback i - s.x i)) + M.boost
    by_cases hf : S.Fluid i
    · rw [if_pos hf, if_pos ((fluid_moved h hi).mpr hf), hs.u i hi, h.dt, acceleration_moved h hs.x hs.u hi, Matrix.mulVec_add, Matrix.mulVec_smul]
      abel
    · rw [if_neg hf, if_neg (fun k => hf ((fluid_moved h hi).mp k)), h.callback i hi hf, hs.x i hi, h.dt, Matrix.mulVec_smul, Matrix.mulVec_sub]
      have : M.R *ᵥ S.callback i + (M.shift + S.env.dt • M.boost) - (M.R *ᵥ s.x i + M.shift)
          = (M.R *ᵥ S.callback i - M.R *ᵥ s.x i) + S.env.dt • M.boost := by abel
      rw [this, smul_add, smul_smul, one_div_mul_cancel h.dt0, one_smul]
  have hx : ∀ i, i < S.n → (S'.predict s').x i = M.R *ᵥ (S.predict s).x i + (M.shift + S.env.dt • M.boost) := by
    intro i hi
    have hu' := hu i hi
    change (if S'.Fluid i then s'.x i + S'.env.dt • (S'.predict s').u i else S'.callback i) =
      M.R *ᵥ (if S.Fluid i then s.x i + S.env.dt • (S.predict s).u i else S.callback i) + (M.shift + S.env.dt • M.boost)
    by_cases hf : S.Fluid i
    · rw [if_pos hf, if_pos ((fluid_moved h hi).mpr hf), hu', hs.x i hi, h.dt, Matrix.mulVec_add, Matrix.mulVec_smul, smul_add]
      abel
    · rw [if_neg hf, if_neg (fun k => hf ((fluid_moved h hi).mp k)), h.callback i hi hf]
  exact ⟨hx, hu, hs.p, fun i hi => reported_moved h hx hs.dens hi⟩

theorem surface_moved {d d' : ℕ → ℝ} (h : Moved M S S') (hd : ∀ i, i < S.n → d' i = d i) (hi : i < S.n) : S'.Surface d' i ↔ S.Surface d i := by
  unfold Setting.Surface
  rw [h.cfg, hd i hi, h.env.n0, h.env.surfaceRatio]

theorem laplacian_moved {N : Motion D} (hN : N.R = M.R) {y y' : ℕ → ℝ} (h : Moved M S S') (hs : SceneMoved S.n N s s') (hy : ∀ i, i < S.n → y' i = y i)
    (hi : i < S.n) : S'.laplacian s' y' i = S.laplacian s y i := by
  have hx : ∀ i, i < S.n → s'.x i = M.R *ᵥ s.x i + N.shift := fun i hi => by rw [← hN]; exact hs.x i hi
  unfold Setting.laplacian
  rw [nearSolid_moved h hx hi, virtual_moved h hx hi, M.len, laplace_moved h, hy i hi]
  congr 1
  · apply Finset.sum_congr rfl
    intro j hj
    have hjn := nearSolid_lt hj
    rw [diff_moved hx hi hjn, M.len, laplace_moved h, hy j hjn]
    congr 2
    exact if_congr (surface_moved h hs.dens hjn) rfl rfl
  · exact if_congr (hasVirtual_moved h hx hi) rfl rfl

theorem free_moved (h : Moved M S S') {d d' : ℕ → ℝ} (hd : ∀ i, i < S.n → d' i = d i) (hi : i < S.n) :
    (S'.Active i ∧ ¬ S'.Surface d' i) ↔ (S.Active i ∧ ¬ S.Surface d i) := by
  rw [active_moved h hi, surface_moved h hd hi]

theorem inner_moved {n : ℕ} {v v' w w' : ℕ → ℝ} (h : ∀ i, i < n → v' i = v i) (k : ∀ i, i < n → w' i = w i) :
    inner n v' w' = inner n v w := inner_congr h k

theorem conjugate_moved {n : ℕ} {L L' : (ℕ → ℝ) → ℕ → ℝ}
    (hL : ∀ y y' : ℕ → ℝ, (∀ i, i < n → y' i = y i) → ∀ i, i < n → L' y' i = L y i) (tol : ℝ) :
    ∀ (k : ℕ) (y y' r r' d d' : ℕ → ℝ), (∀ i, i < n → y' i = y i) → (∀ i, i < n → r' i = r i) → (∀ i, i < n → d' i = d i) →
      (conjugate n L tol k y r d = none ∧ conjugate n L' tol k y' r' d' = none) ∨
      ∃ z z', conjugate n L tol k y r d = some z ∧ conjugate n L' tol k y' r' d' = some z' ∧ ∀ i, i < n → z' i = z i := by
  intro k
  induction k with
  | zero => intro y y' r r' d d' _ _ _; exact Or.inl ⟨rfl, rfl⟩
  | succ k ih =>
    intro y y' r r' d d' hy hr hd
    unfold conjugate
    simp only
    have hLd := hL d d' hd
    rw [inner_moved hr hr, inner_moved hd hLd]
    set alpha := inner n r r / inner n d (L d)
    have hy1 : ∀ i, i < n → (y' + alpha • d') i = (y + alpha • d) i := fun i hi => by
      simp only [Pi.add_apply, Pi.smul_apply, hy i hi, hd i hi]
    have hr1 : ∀ i, i < n → (r' - alpha • L' d') i = (r - alpha • L d) i := fun i hi => by
      simp only [Pi.sub_apply, Pi.smul_apply, hr i hi, hLd i hi]
    rw [inner_moved hr1 hr1]
    split
    · exact Or.inr ⟨_, _, rfl, rfl, hy1⟩
    · refine ih _ _ _ _ _ _ hy1 hr1 ?_
      intro i hi
      have := hr1 i hi
      simp only [Pi.sub_apply, Pi.smul_apply, Pi.add_apply, hd i hi] at this ⊢
      rw [this]

theorem solve_moved {n : ℕ} {L L' : (ℕ → ℝ) → ℕ → ℝ}
    (hL : ∀ y y' : ℕ → ℝ, (∀ i, i < n → y' i = y i) → ∀ i, i < n → L' y' i = L y i) {b b' y y' : ℕ → ℝ}
    (hb : ∀ i, i < n → b' i = b i) (hy : ∀ i, i < n → y' i = y i) (eps : ℝ) :
    (solve n L b y eps = none ∧ solve n L' b' y' eps = none) ∨
    ∃ z z', solve n L b y eps = some z ∧ solve n L' b' y' eps = some z' ∧ ∀ i, i < n → z' i = z i := by
  have hr : ∀ i, i < n → (b' - L' y') i = (b - L y) i := fun i hi => by
    simp only [Pi.sub_apply, hb i hi, hL y y' hy i hi]
  unfold solve
  simp only
  rw [inner_moved hr hr]
  split
  · exact Or.inr ⟨_, _, rfl, rfl, hy⟩
  · exact conjugate_moved hL _ _ _ _ _ _ _ _ hy hr hr

/-- Pressures. -/
theorem pressure_moved {N : Motion D} (hN : N.R = M.R) {b b' : Scene D} (h : Moved M S S') (hb : SceneMoved S.n M b b')
    (hs : SceneMoved S.n N s s') (eps : ℝ) :
    (S.pressure eps b s = none ∧ S'.pressure eps b' s' = none) ∨
    ∃ p p', S.pressure eps b s = some p ∧ S'.pressure eps b' s' = some p' ∧ ∀ i, i < S.n → p' i = p i := by
  have hx : ∀ i, i < S.n → s'.x i = M.R *ᵥ s.x i + N.shift := fun i hi => by rw [← hN]; exact hs.x i hi
  have hu : ∀ i, i < S.n → s'.u i = M.R *ᵥ s.u i + N.boost := fun i hi => by rw [← hN]; exact hs.u i hi
  unfold Setting.pressure
  rw [h.cfg]
  split
  · refine Or.inr ⟨_, _, rfl, rfl, ?_⟩
    intro i hi
    unfold Setting.eos
    rw [h.env.c, h.env.rho, h.env.n0, hs.dens i hi]
  · have hop : ∀ y y' : ℕ → ℝ, (∀ i, i < S.n → y' i = y i) → ∀ i, i < S.n → S'.operator s' y' i = S.operator s y i := by
      intro y y' hy i hi
      unfold Setting.operator
      rw [laplacian_moved hN h hs hy hi, hy i hi]
      exact if_congr (free_moved h hs.dens hi) rfl rfl
    have hso : ∀ i, i < S.n → S'.source b' s' i = S.source b s i := by
      intro i hi
      unfold Setting.source
      rw [h.env.rho, h.env.n0, h.dt, rate_moved h hx hu hs.dens hi,
        compensation_moved h hb.x hb.u (d := S.reported b.x b.dens) (fun i hi => reported_moved h hb.x hb.dens hi) hi]
      exact if_congr (free_moved h hs.dens hi) rfl rfl
    have hg : ∀ i, i < S.n → S'.guess s' i = S.guess s i := by
      intro i hi
      unfold Setting.guess
      rw [hs.p i hi]
      exact if_congr (free_moved h hs.dens hi) rfl rfl
    rw [h.n]
    rcases solve_moved hop hso hg eps with ⟨k1, k2⟩ | ⟨z, z', k1, k2, k3⟩
    · left; rw [k1, k2]; exact ⟨rfl, rfl⟩
    · right
      rw [k1, k2]
      refine ⟨_, _, rfl, rfl, ?_⟩
      intro i hi
      simp only
      rw [k3 i hi, hs.p i hi]
      exact if_congr (active_moved h hi) (if_congr (surface_moved h hs.dens hi) rfl rfl) rfl

theorem force_moved {N : Motion D} (hN : N.R = M.R) (h : Moved M S S') (hs : SceneMoved S.n N s s') (hi : i < S.n) :
    S'.force s' i = M.R *ᵥ S.force s i := by
  have hx : ∀ i, i < S.n → s'.x i = M.R *ᵥ s.x i + N.shift := fun i hi => by rw [← hN]; exact hs.x i hi
  unfold Setting.force
  rw [nearSolid_moved h hx hi, virtual_moved h hx hi, M.len, h.env.re, hs.p i hi, Matrix.mulVec_add, mulVec_sum']
  congr 1
  · apply Finset.sum_congr rfl
    intro j hj
    have hjn := nearSolid_lt hj
    rw [diff_moved hx hi hjn, M.len, hs.p j hjn, Matrix.mulVec_smul]
  · by_cases hv : S.HasVirtual s.x i
    · rw [if_pos hv, if_pos ((hasVirtual_moved h hx hi).mpr hv), Matrix.mulVec_smul]
    · rw [if_neg hv, if_neg (fun k => hv ((hasVirtual_moved h hx hi).mp k)), Matrix.mulVec_zero]

theorem outer_moved (R : Matrix (Fin D) (Fin D) ℝ) (v w : Fin D → ℝ) :
    Matrix.vecMulVec (R *ᵥ v) (R *ᵥ w) = R * Matrix.vecMulVec v w * R.transpose := by
  rw [Matrix.mul_vecMulVec, Matrix.vecMulVec_mul, Matrix.vecMul_transpose]

theorem moment_moved {N : Motion D} (hN : N.R = M.R) (h : Moved M S S') (hs : SceneMoved S.n N s s') (hi : i < S.n) :
    S'.moment s' i = M.R * S.moment s i * M.R.transpose := by
  have hx : ∀ i, i < S.n → s'.x i = M.R *ᵥ s.x i + N.shift := fun i hi => by rw [← hN]; exact hs.x i hi
  unfold Setting.moment
  rw [near_moved h hx hi, virtual_moved h hx hi, M.len, h.env.re, Matrix.mul_add, Matrix.add_mul, Finset.mul_sum, Finset.sum_mul]
  congr 1
  · apply Finset.sum_congr rfl
    intro j hj
    rw [diff_moved hx hi (near_lt hj), M.len, outer_moved, Matrix.mul_smul, Matrix.smul_mul]
  · by_cases hv : S.HasVirtual s.x i
    · rw [if_pos hv, if_pos ((hasVirtual_moved h hx hi).mpr hv), outer_moved, Matrix.mul_smul, Matrix.smul_mul]
    · rw [if_neg hv, if_neg (fun k => hv ((hasVirtual_moved h hx hi).mp k)), Matrix.mul_zero, Matrix.zero_mul]

theorem Motion.orth' (M : Motion D) : M.R * M.R.transpose = 1 := mul_eq_one_comm.mp M.orth

theorem correction_moved {N : Motion D} (hN : N.R = M.R) (h : Moved M S S') (hs : SceneMoved S.n N s s') (hi : i < S.n) :
    S'.correction s' i = M.R * S.correction s i * M.R.transpose := by
  unfold Setting.correction
  have hm := moment_moved hN h hs hi
  have hR : M.R⁻¹ = M.R.transpose := Matrix.inv_eq_left_inv M.orth
  have hT : M.R.transpose⁻¹ = M.R := Matrix.inv_eq_left_inv M.orth'
  have hdet : (S'.moment s' i).det = (S.moment s i).det := by
    rw [hm, Matrix.det_mul, Matrix.det_mul, mul_comm M.R.det, mul_assoc, ← Matrix.det_mul, M.orth', Matrix.det_one, mul_one]
  rw [hdet, h.env.n0]
  split
  · rw [Matrix.mul_smul, Matrix.mul_one, Matrix.smul_mul, M.orth']
  · rw [hm, Matrix.mul_inv_rev, Matrix.mul_inv_rev, hT, hR, Matrix.mul_assoc]

theorem correction_mulVec {N : Motion D} (hN : N.R = M.R) (h : Moved M S S') (hs : SceneMoved S.n N s s') (hi : i < S.n) (v : Fin D → ℝ) :
    S'.correction s' i *ᵥ (M.R *ᵥ v) = M.R *ᵥ (S.correction s i *ᵥ v) := by
  rw [correction_moved hN h hs hi, Matrix.mulVec_mulVec, Matrix.mulVec_mulVec, Matrix.mul_assoc, M.orth, Matrix.mul_one]

theorem forceGc_moved {N : Motion D} (hN : N.R = M.R) (h : Moved M S S') (hs : SceneMoved S.n N s s') (hi : i < S.n) :
    S'.forceGc s' i = M.R *ᵥ S.forceGc s i := by
  have hx : ∀ i, i < S.n → s'.x i = M.R *ᵥ s.x i + N.shift := fun i hi => by rw [← hN]; exact hs.x i hi
  unfold Setting.forceGc
  simp only
  rw [nearSolid_moved h hx hi, virtual_moved h hx hi, M.len, h.env.re, h.cfg, hs.p i hi, Matrix.mulVec_add, mulVec_sum']
  congr 1
  · apply Finset.sum_congr rfl
    intro j hj
    have hjn := nearSolid_lt hj
    rw [diff_moved hx hi hjn, M.len, hs.p j hjn, Matrix.mulVec_smul, correction_mulVec hN h hs hi]
  · by_cases hv : S.HasVirtual s.x i
    · rw [if_pos hv, if_pos ((hasVirtual_moved h hx hi).mpr hv), Matrix.mulVec_smul, correction_mulVec hN h hs hi]
    · rw [if_neg hv, if_neg (fun k => hv ((hasVirtual_moved h hx hi).mp k)), Matrix.mulVec_zero]

theorem push_moved {N : Motion D} (hN : N.R = M.R) (h : Moved M S S') (hs : SceneMoved S.n N s s') (hi : i < S.n) :
    S'.push s' i = M.R *ᵥ S.push s i := by
  unfold Setting.push
  rw [h.cfg, h.dt, h.env.rho, h.env.n0, hs.dens i hi]
  split
  · rw [forceGc_moved hN h hs hi, Matrix.mulVec_smul]
  · rw [force_moved hN h hs hi, Matrix.mulVec_smul]

theorem kick_moved {N : Motion D} (hN : N.R = M.R) (h : Moved M S S') (hs : SceneMoved S.n N s s') {dv dv' : ℕ → Fin D → ℝ}
    (hd : ∀ i, i < S.n → dv' i = M.R *ᵥ dv i) : SceneMoved S.n N (S.kick dv s) (S'.kick dv' s') := by
  refine ⟨?_, ?_, hs.p, hs.dens⟩
  · intro i hi
    unfold Setting.kick
    simp only
    by_cases hf : S.Fluid i
    · rw [if_pos hf, if_pos ((fluid_moved h hi).mpr hf), hs.x i hi, hd i hi, h.dt, Matrix.mulVec_add, Matrix.mulVec_smul, hN]
      abel
    · rw [if_neg hf, if_neg (fun k => hf ((fluid_moved h hi).mp k)), hs.x i hi]
  · intro i hi
    unfold Setting.kick
    simp only
    by_cases hf : S.Fluid i
    · rw [if_pos hf, if_pos ((fluid_moved h hi).mpr hf), hs.u i hi, hd i hi, Matrix.mulVec_add, hN]
      abel
    · rw [if_neg hf, if_neg (fun k => hf ((fluid_moved h hi).mp k)), hs.u i hi]

theorem stabilise_moved {N : Motion D} (hN : N.R = M.R) {old old' : ℕ → Fin D → ℝ} {c : Fin D → ℝ} (h : Moved M S S') (hs : SceneMoved S.n N s s')
    (ho : ∀ i, i < S.n → old' i = M.R *ᵥ old i + c) (hi : i < S.n) : S'.stabilise old' s' i = M.R *ᵥ S.stabilise old s i := by
  have hx : ∀ i, i < S.n → s'.x i = M.R *ᵥ s.x i + N.shift := fun i hi => by rw [← hN]; exact hs.x i hi
  unfold Setting.stabilise
  simp only
  rw [nearSolid_moved h hx hi, h.dt, h.env.n0, h.env.l0, h.env.maxDx, Matrix.mulVec_smul, mulVec_sum']
  congr 1
  apply Finset.sum_congr rfl
  intro j hj
  have hjn := nearSolid_lt hj
  rw [diff_moved hx hi hjn, diff_moved ho hi hjn, M.len, M.len]
  split
  · rw [← Matrix.mulVec_smul, M.prod]
    set e := (1 / Ref.len (old j - old i)) • (old j - old i)
    rw [← Matrix.mulVec_smul M.R (Ref.prod (s.x j - s.x i) e), ← Matrix.mulVec_sub, M.len, ← Matrix.mulVec_smul]
  · rw [Matrix.mulVec_zero]

theorem finish_moved {N : Motion D} (hN : N.R = M.R) (h : Moved M S S') (hs : SceneMoved S.n N s s') :
    SceneMoved S.n N (S.finish s) (S'.finish s') := by
  have h1 := kick_moved hN h hs (dv := S.push s) (dv' := S'.push s') (fun i hi => push_moved hN h hs hi)
  unfold Setting.finish
  simp only
  rw [h.cfg]
  split
  · exact kick_moved hN h h1 (fun i hi => stabilise_moved hN h h1 (c := N.shift) (fun i hi => by rw [← hN]; exact hs.x i hi) hi)
  · exact h1

/-- The whole step. -/
theorem step_moved (h : Moved M S S') (hs : SceneMoved S.n M s s') (eps : ℝ) :
    (S.step eps s = none ∧ S'.step eps s' = none) ∨
    ∃ a a', S.step eps s = some a ∧ S'.step eps s' = some a' ∧ SceneMoved S.n (M.later S.env.dt) a a' := by
  have h1 := predict_moved h hs
  unfold Setting.step
  rcases pressure_moved (M := M) (N := M.later S.env.dt) rfl h hs h1 eps with ⟨k1, k2⟩ | ⟨p, p', k1, k2, k3⟩
  · left; rw [k1, k2]; exact ⟨rfl, rfl⟩
  · right
    rw [k1, k2]
    exact ⟨_, _, rfl, rfl, finish_moved (M := M) rfl h ⟨h1.x, h1.u, k3, h1.dens⟩⟩

end

end OpenMps.Ref
