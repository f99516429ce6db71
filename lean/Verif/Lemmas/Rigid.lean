import Verif.Spec.Rigid
import Verif.Lemmas.Motion

/-! # Lemmas for C55: the reference formulas in a rotated or mirrored scene -/

set_option linter.unusedSectionVars false

namespace OpenMps.Ref

open Matrix

variable {D : Nat} {ω : Type}

section
variable (M : Rigid D)

theorem turn_add (v w : Fin D → ℝ) : M.turn (v + w) = M.turn v + M.turn w := Matrix.mulVec_add _ _ _

theorem turn_sub (v w : Fin D → ℝ) : M.turn (v - w) = M.turn v - M.turn w := Matrix.mulVec_sub _ _ _

theorem turn_smul (c : ℝ) (v : Fin D → ℝ) : M.turn (c • v) = c • M.turn v := Matrix.mulVec_smul _ _ _

theorem turn_neg (v : Fin D → ℝ) : M.turn (-v) = -M.turn v := Matrix.mulVec_neg _ _

theorem turn_zero : M.turn 0 = 0 := Matrix.mulVec_zero _

theorem turn_sum {ι : Type} (s : Finset ι) (f : ι → Fin D → ℝ) : M.turn (∑ i ∈ s, f i) = ∑ i ∈ s, M.turn (f i) :=
  map_sum (Matrix.mulVecLin M.R) f s

theorem turn_prod (v w : Fin D → ℝ) : Ref.prod (M.turn v) (M.turn w) = Ref.prod v w := by
  have e : ∀ v w : Fin D → ℝ, Ref.prod v w = v ⬝ᵥ w := fun _ _ => rfl
  rw [e, e]
  unfold Rigid.turn
  rw [Matrix.dotProduct_mulVec, ← Matrix.mulVec_transpose, Matrix.mulVec_mulVec, M.orth, Matrix.one_mulVec]

theorem len_prod (v : Fin D → ℝ) : len v = √(Ref.prod v v) := by
  unfold len Ref.prod
  simp only [sq]

theorem turn_len (v : Fin D → ℝ) : len (M.turn v) = len v := by rw [len_prod, turn_prod, ← len_prod]

theorem place_sub (v w : Fin D → ℝ) : M.place v - M.place w = M.turn (v - w) := by
  unfold Rigid.place
  rw [turn_sub, add_sub_add_right_eq_sub]

theorem orth' : M.R * M.R.transpose = 1 := mul_eq_one_comm.1 M.orth

theorem turn_outer (v : Fin D → ℝ) : Matrix.vecMulVec (M.turn v) (M.turn v) = M.R * Matrix.vecMulVec v v * M.R.transpose := by
  unfold Rigid.turn
  rw [Matrix.mul_vecMulVec, Matrix.vecMulVec_mul, Matrix.vecMul_transpose]

theorem turn_det (A : Matrix (Fin D) (Fin D) ℝ) : (M.R * A * M.R.transpose).det = A.det := by
  have : M.R.det * M.R.transpose.det = 1 := by rw [← Matrix.det_mul, orth', Matrix.det_one]
  rw [Matrix.det_mul, Matrix.det_mul, mul_right_comm, this, one_mul]

theorem turn_inv (A : Matrix (Fin D) (Fin D) ℝ) : (M.R * A * M.R.transpose)⁻¹ = M.R * A⁻¹ * M.R.transpose := by
  have h1 : M.R⁻¹ = M.R.transpose := Matrix.inv_eq_left_inv M.orth
  have h2 : M.R.transpose⁻¹ = M.R := Matrix.inv_eq_left_inv (orth' M)
  rw [Matrix.mul_inv_rev, Matrix.mul_inv_rev, h1, h2, Matrix.mul_assoc]

end

/-- The setting `S'` is `S`, moved by `M`, with particle `i` numbered `σ i`. -/
structure SettingTurned (M : Rigid D) (σ : Equiv.Perm ℕ) (S S' : Setting D) : Prop where
  cfg : S'.cfg = S.cfg
  n : S'.n = S.n
  perm : ∀ i, σ i < S.n ↔ i < S.n
  ty : ∀ i, i < S.n → S'.ty (σ i) = S.ty i
  start : ∀ i, i < S.n → S'.start (σ i) = M.place (S.start i)
  callback : ∀ i, i < S.n → S'.callback (σ i) = M.place (S.callback i)
  env : { S'.env with minX := S.env.minX, maxX := S.env.maxX } = S.env
  gravity : ∀ x, S'.gravity (M.place x) = M.turn (S.gravity x)

/-- Scenes. -/
structure SceneTurned (n : ℕ) (M : Rigid D) (σ : Equiv.Perm ℕ) (s s' : Scene D) : Prop where
  x : ∀ i, i < n → s'.x (σ i) = M.place (s.x i)
  u : ∀ i, i < n → s'.u (σ i) = M.turn (s.u i)
  p : ∀ i, i < n → s'.p (σ i) = s.p i
  dens : ∀ i, i < n → s'.dens (σ i) = s.dens i

section
open scoped Classical

variable {M : Rigid D} {σ : Equiv.Perm ℕ} {S S' : Setting D} {x x' u u' : ℕ → Fin D → ℝ} {i j : ℕ} {s s' : Scene D}

namespace SettingTurned

variable (h : SettingTurned M σ S S')
include h

theorem n0 : S'.env.n0 = S.env.n0 := by have e := congrArg Env.n0 h.env; exact e
theorem lambda : S'.env.lambda = S.env.lambda := by have e := congrArg Env.lambda h.env; exact e
theorem c : S'.env.c = S.env.c := by have e := congrArg Env.c h.env; exact e
theorem maxDx : S'.env.maxDx = S.env.maxDx := by have e := congrArg Env.maxDx h.env; exact e
theorem l0 : S'.env.l0 = S.env.l0 := by have e := congrArg Env.l0 h.env; exact e
theorem re : S'.env.re = S.env.re := by have e := congrArg Env.re h.env; exact e
theorem rho : S'.env.rho = S.env.rho := by have e := congrArg Env.rho h.env; exact e
theorem nu : S'.env.nu = S.env.nu := by have e := congrArg Env.nu h.env; exact e
theorem surfaceRatio : S'.env.surfaceRatio = S.env.surfaceRatio := by have e := congrArg Env.surfaceRatio h.env; exact e
theorem neighborLength : S'.env.neighborLength = S.env.neighborLength := by have e := congrArg Env.neighborLength h.env; exact e
theorem dt : S'.env.dt = S.env.dt := by have e := congrArg Env.dt h.env; exact e

end SettingTurned

theorem diff_turned (hx : ∀ i, i < S.n → x' (σ i) = M.place (x i)) (hi : i < S.n) (hj : j < S.n) : x' (σ j) - x' (σ i) = M.turn (x j - x i) := by
  rw [hx i hi, hx j hj, place_sub]

theorem udiff_turned (hu : ∀ i, i < S.n → u' (σ i) = M.turn (u i)) (hi : i < S.n) (hj : j < S.n) : u' (σ j) - u' (σ i) = M.turn (u j - u i) := by
  rw [hu i hi, hu j hj, turn_sub]

theorem dist_turned (hx : ∀ i, i < S.n → x' (σ i) = M.place (x i)) (hi : i < S.n) (hj : j < S.n) : len (x' (σ j) - x' (σ i)) = len (x j - x i) := by
  rw [diff_turned hx hi hj, turn_len]

theorem near_turned (h : SettingTurned M σ S S') (hx : ∀ i, i < S.n → x' (σ i) = M.place (x i)) (hi : i < S.n) :
    S'.near x' (σ i) = (S.near x i).map σ.toEmbedding := by
  ext k
  obtain ⟨j, rfl⟩ := σ.surjective k
  rw [Finset.mem_map' σ.toEmbedding (a := j) (s := S.near x i) |> fun e => (show σ j ∈ (S.near x i).map σ.toEmbedding ↔ j ∈ S.near x i from e)]
  unfold Setting.near
  rw [Finset.mem_filter, Finset.mem_filter, Finset.mem_range, Finset.mem_range, h.n, h.perm j]
  refine and_congr_right (fun hj => ?_)
  rw [h.ty j hj, dist_turned h.start hi hj, dist_turned hx hi hj, h.re, h.neighborLength, σ.injective.ne_iff]

theorem nearSolid_turned (h : SettingTurned M σ S S') (hx : ∀ i, i < S.n → x' (σ i) = M.place (x i)) (hi : i < S.n) :
    S'.nearSolid x' (σ i) = (S.nearSolid x i).map σ.toEmbedding := by
  unfold Setting.nearSolid
  rw [near_turned h hx hi, Finset.filter_map]
  congr 1
  apply Finset.filter_congr
  intro j hj
  show S'.ty (σ j) ≠ _ ↔ _
  rw [h.ty j (near_lt hj)]

/-- Sums over near particles. -/
theorem sum_near {A : Type} [AddCommMonoid A] (h : SettingTurned M σ S S') (hx : ∀ i, i < S.n → x' (σ i) = M.place (x i)) (hi : i < S.n)
    {f g : ℕ → A} (hf : ∀ j, j < S.n → f (σ j) = g j) : ∑ j ∈ S'.near x' (σ i), f j = ∑ j ∈ S.near x i, g j := by
  rw [near_turned h hx hi, Finset.sum_map]
  exact Finset.sum_congr rfl (fun j hj => hf j (near_lt hj))

theorem sum_nearSolid {A : Type} [AddCommMonoid A] (h : SettingTurned M σ S S') (hx : ∀ i, i < S.n → x' (σ i) = M.place (x i)) (hi : i < S.n)
    {f g : ℕ → A} (hf : ∀ j, j < S.n → f (σ j) = g j) : ∑ j ∈ S'.nearSolid x' (σ i), f j = ∑ j ∈ S.nearSolid x i, g j := by
  rw [nearSolid_turned h hx hi, Finset.sum_map]
  exact Finset.sum_congr rfl (fun j hj => hf j (nearSolid_lt hj))

theorem density_turned (h : SettingTurned M σ S S') (hx : ∀ i, i < S.n → x' (σ i) = M.place (x i)) (hi : i < S.n) :
    S'.density x' (σ i) = S.density x i := by
  unfold Setting.density
  exact sum_near h hx hi (fun j hj => by rw [dist_turned hx hi hj, h.re])

theorem active_turned (h : SettingTurned M σ S S') (hi : i < S.n) : S'.Active (σ i) ↔ S.Active i := by
  unfold Setting.Active; rw [h.ty i hi]

theorem fluid_turned (h : SettingTurned M σ S S') (hi : i < S.n) : S'.Fluid (σ i) ↔ S.Fluid i := by
  unfold Setting.Fluid; rw [h.ty i hi]

theorem reported_turned {d d' : ℕ → ℝ} (h : SettingTurned M σ S S') (hx : ∀ i, i < S.n → x' (σ i) = M.place (x i))
    (hd : ∀ i, i < S.n → d' (σ i) = d i) (hi : i < S.n) : S'.reported x' d' (σ i) = S.reported x d i := by
  unfold Setting.reported
  rw [density_turned h hx hi, h.cfg, h.n0, hd i hi]
  exact if_congr (active_turned h hi) rfl rfl

theorem offset_turned (h : SettingTurned M σ S S') (hx : ∀ i, i < S.n → x' (σ i) = M.place (x i)) (hi : i < S.n) :
    S'.offset x' (σ i) = M.turn (S.offset x i) := by
  unfold Setting.offset
  rw [h.n0, turn_smul, turn_sum]
  congr 1
  exact sum_near h hx hi (fun j hj => by rw [diff_turned hx hi hj, turn_len, turn_smul, h.re])

theorem hasVirtual_turned (h : SettingTurned M σ S S') (hx : ∀ i, i < S.n → x' (σ i) = M.place (x i)) (hi : i < S.n) :
    S'.HasVirtual x' (σ i) ↔ S.HasVirtual x i := by
  unfold Setting.HasVirtual
  rw [h.cfg, density_turned h hx hi, h.n0, offset_turned h hx hi, turn_len]

theorem virtual_turned (h : SettingTurned M σ S S') (hx : ∀ i, i < S.n → x' (σ i) = M.place (x i)) (hi : i < S.n) :
    S'.virtual x' (σ i) = M.turn (S.virtual x i) := by
  unfold Setting.virtual
  rw [h.re, density_turned h hx hi, h.n0, offset_turned h hx hi, turn_len, turn_neg, turn_smul]

theorem laplace_turned (h : SettingTurned M σ S S') (r : ℝ) : S'.laplace r = S.laplace r := by
  unfold Setting.laplace
  rw [h.cfg, h.re, h.n0, h.lambda]

theorem acceleration_turned (h : SettingTurned M σ S S') (hx : ∀ i, i < S.n → x' (σ i) = M.place (x i))
    (hu : ∀ i, i < S.n → u' (σ i) = M.turn (u i)) (hi : i < S.n) :
    S'.acceleration x' u' (σ i) = M.turn (S.acceleration x u i) := by
  unfold Setting.acceleration
  rw [h.nu, hx i hi, h.gravity, turn_add, turn_smul, turn_sum]
  congr 2
  exact sum_nearSolid h hx hi (fun j hj => by rw [← hx i hi, dist_turned hx hi hj, udiff_turned hu hi hj, laplace_turned h, turn_smul])

theorem rate_turned {d d' : ℕ → ℝ} (h : SettingTurned M σ S S') (hx : ∀ i, i < S.n → x' (σ i) = M.place (x i))
    (hu : ∀ i, i < S.n → u' (σ i) = M.turn (u i)) (hd : ∀ i, i < S.n → d' (σ i) = d i) (hi : i < S.n) :
    S'.rate x' u' d' (σ i) = S.rate x u d i := by
  unfold Setting.rate
  rw [h.cfg, density_turned h hx hi, h.n0, h.re, h.dt, hd i hi,
    sum_near h hx hi (g := fun j => Ref.prod (x j - x i) (u j - u i) / Ref.len (x j - x i) ^ 3)
      (fun j hj => by rw [dist_turned hx hi hj, diff_turned hx hi hj, udiff_turned hu hi hj, turn_prod])]

theorem compensation_turned {d d' : ℕ → ℝ} (h : SettingTurned M σ S S') (hx : ∀ i, i < S.n → x' (σ i) = M.place (x i))
    (hu : ∀ i, i < S.n → u' (σ i) = M.turn (u i)) (hd : ∀ i, i < S.n → d' (σ i) = d i) (hi : i < S.n) :
    S'.compensation x' u' d' (σ i) = S.compensation x u d i := by
  unfold Setting.compensation
  rw [h.cfg, h.n0, rate_turned h hx hu hd hi, hd i hi]

theorem place_add (M : Rigid D) (v w : Fin D → ℝ) : M.place v + M.turn w = M.place (v + w) := by
  unfold Rigid.place
  rw [turn_add]
  abel

/-- First stage. -/
theorem predict_turned (h : SettingTurned M σ S S') (hs : SceneTurned S.n M σ s s') : SceneTurned S.n M σ (S.predict s) (S'.predict s') := by
  have hu : ∀ i, i < S.n → (S'.predict s').u (σ i) = M.turn ((S.predict s).u i) := by
    intro i hi
    change (if S'.Fluid (σ i) then s'.u (σ i) + S'.env.dt • S'.acceleration s'.x s'.u (σ i) else (1 / S'.env.dt) • (S'.callback (σ i) - s'.x (σ i))) =
      M.turn (if S.Fluid i then s.u i + S.env.dt • S.acceleration s.x s.u i else (1 / S.env.dt) • (S.callback i - s.x i))
    by_cases hf : S.Fluid i
    · rw [if_pos hf, if_pos ((fluid_turned h hi).mpr hf), hs.u i hi, h.dt, acceleration_turned h hs.x hs.u hi, turn_add, turn_smul]
    · rw [if_neg hf, if_neg (fun k => hf ((fluid_turned h hi).mp k)), h.callback i hi, hs.x i hi, h.dt, place_sub, turn_smul]
  have hx : ∀ i, i < S.n → (S'.predict s').x (σ i) = M.place ((S.predict s).x i) := by
    intro i hi
    have hu' := hu i hi
    change (if S'.Fluid (σ i) then s'.x (σ i) + S'.env.dt • (S'.predict s').u (σ i) else S'.callback (σ i)) =
      M.place (if S.Fluid i then s.x i + S.env.dt • (S.predict s).u i else S.callback i)
    by_cases hf : S.Fluid i
    · rw [if_pos hf, if_pos ((fluid_turned h hi).mpr hf), hu', hs.x i hi, h.dt, ← turn_smul, place_add]
    · rw [if_neg hf, if_neg (fun k => hf ((fluid_turned h hi).mp k)), h.callback i hi]
  exact ⟨hx, hu, hs.p, fun i hi => reported_turned h hx hs.dens hi⟩

theorem surface_turned {d d' : ℕ → ℝ} (h : SettingTurned M σ S S') (hd : ∀ i, i < S.n → d' (σ i) = d i) (hi : i < S.n) :
    S'.Surface d' (σ i) ↔ S.Surface d i := by
  unfold Setting.Surface
  rw [h.cfg, hd i hi, h.n0, h.surfaceRatio]

theorem laplacian_turned {y y' : ℕ → ℝ} (h : SettingTurned M σ S S') (hs : SceneTurned S.n M σ s s')
    (hy : ∀ i, i < S.n → y' (σ i) = y i) (hi : i < S.n) : S'.laplacian s' y' (σ i) = S.laplacian s y i := by
  unfold Setting.laplacian
  rw [virtual_turned h hs.x hi, turn_len, laplace_turned h, hy i hi]
  congr 1
  · refine sum_nearSolid h hs.x hi (fun j hj => ?_)
    rw [dist_turned hs.x hi hj, laplace_turned h, hy j hj]
    by_cases hf : S.Surface s.dens j
    · rw [if_pos hf, if_pos ((surface_turned h hs.dens hj).mpr hf)]
    · rw [if_neg hf, if_neg (fun k => hf ((surface_turned h hs.dens hj).mp k))]
  · by_cases hf : S.HasVirtual s.x i
    · rw [if_pos hf, if_pos ((hasVirtual_turned h hs.x hi).mpr hf)]
    · rw [if_neg hf, if_neg (fun k => hf ((hasVirtual_turned h hs.x hi).mp k))]

theorem free_turned (h : SettingTurned M σ S S') {d d' : ℕ → ℝ} (hd : ∀ i, i < S.n → d' (σ i) = d i) (hi : i < S.n) :
    (S'.Active (σ i) ∧ ¬ S'.Surface d' (σ i)) ↔ (S.Active i ∧ ¬ S.Surface d i) := by
  rw [active_turned h hi, surface_turned h hd hi]

theorem inner_perm {n : ℕ} (hσ : ∀ i, σ i < n ↔ i < n) {v v' w w' : ℕ → ℝ} (h : ∀ i, i < n → v' (σ i) = v i) (g : ∀ i, i < n → w' (σ i) = w i) :
    inner n v' w' = inner n v w := by
  unfold inner
  symm
  refine Finset.sum_equiv σ (fun i => by rw [Finset.mem_range, Finset.mem_range, hσ]) (fun i hi => ?_)
  rw [h i (Finset.mem_range.mp hi), g i (Finset.mem_range.mp hi)]

theorem conjugate_perm {n : ℕ} (hσ : ∀ i, σ i < n ↔ i < n) {L L' : (ℕ → ℝ) → ℕ → ℝ}
    (hL : ∀ y y' : ℕ → ℝ, (∀ i, i < n → y' (σ i) = y i) → ∀ i, i < n → L' y' (σ i) = L y i)
    (tol : ℝ) : ∀ (c : ℕ) (y y' r r' d d' : ℕ → ℝ), (∀ i, i < n → y' (σ i) = y i) → (∀ i, i < n → r' (σ i) = r i) →
      (∀ i, i < n → d' (σ i) = d i) →
      (conjugate n L tol c y r d = none ∧ conjugate n L' tol c y' r' d' = none) ∨
      ∃ z z', conjugate n L tol c y r d = some z ∧ conjugate n L' tol c y' r' d' = some z' ∧ ∀ i, i < n → z' (σ i) = z i := by
  intro c
  induction c with
  | zero => intro y y' r r' d d' _ _ _; exact Or.inl ⟨rfl, rfl⟩
  | succ c ih =>
    intro y y' r r' d d' hy hr hd
    unfold conjugate
    simp only
    have hLd := hL d d' hd
    rw [inner_perm hσ hr hr, inner_perm hσ hd hLd]
    set alpha := inner n r r / inner n d (L d)
    have hy1 : ∀ i, i < n → (y' + alpha • d') (σ i) = (y + alpha • d) i := fun i hi => by
      simp only [Pi.add_apply, Pi.smul_apply, smul_eq_mul, hy i hi, hd i hi]
    have hr1 : ∀ i, i < n → (r' - alpha • L' d') (σ i) = (r - alpha • L d) i := fun i hi => by
      simp only [Pi.sub_apply, Pi.smul_apply, smul_eq_mul, hr i hi, hLd i hi]
    rw [inner_perm hσ hr1 hr1]
    split
    · exact Or.inr ⟨_, _, rfl, rfl, hy1⟩
    · refine ih _ _ _ _ _ _ hy1 hr1 ?_
      intro i hi
      have := hr1 i hi
      simp only [Pi.sub_apply, Pi.smul_apply, Pi.add_apply, smul_eq_mul, hd i hi] at this ⊢
      rw [this]

theorem solve_perm {n : ℕ} (hσ : ∀ i, σ i < n ↔ i < n) {L L' : (ℕ → ℝ) → ℕ → ℝ}
    (hL : ∀ y y' : ℕ → ℝ, (∀ i, i < n → y' (σ i) = y i) → ∀ i, i < n → L' y' (σ i) = L y i)
    {b b' y y' : ℕ → ℝ} (hb : ∀ i, i < n → b' (σ i) = b i) (hy : ∀ i, i < n → y' (σ i) = y i) (eps : ℝ) :
    (solve n L b y eps = none ∧ solve n L' b' y' eps = none) ∨
    ∃ z z', solve n L b y eps = some z ∧ solve n L' b' y' eps = some z' ∧ ∀ i, i < n → z' (σ i) = z i := by
  have hr : ∀ i, i < n → (b' - L' y') (σ i) = (b - L y) i := fun i hi => by
    simp only [Pi.sub_apply, hb i hi, hL y y' hy i hi]
  unfold solve
  simp only
  rw [inner_perm hσ hr hr]
  split
  · exact Or.inr ⟨_, _, rfl, rfl, hy⟩
  · exact conjugate_perm hσ hL _ _ _ _ _ _ _ _ hy hr hr

/-- Pressures. -/
theorem pressure_turned {b b' : Scene D} (h : SettingTurned M σ S S') (hb : SceneTurned S.n M σ b b')
    (hs : SceneTurned S.n M σ s s') (eps : ℝ) :
    (S.pressure eps b s = none ∧ S'.pressure eps b' s' = none) ∨
    ∃ p p', S.pressure eps b s = some p ∧ S'.pressure eps b' s' = some p' ∧ ∀ i, i < S.n → p' (σ i) = p i := by
  unfold Setting.pressure
  rw [h.cfg]
  split
  · refine Or.inr ⟨_, _, rfl, rfl, ?_⟩
    intro i hi
    unfold Setting.eos
    rw [h.c, h.rho, h.n0, hs.dens i hi]
  · have hop : ∀ y y' : ℕ → ℝ, (∀ i, i < S.n → y' (σ i) = y i) → ∀ i, i < S.n → S'.operator s' y' (σ i) = S.operator s y i := by
      intro y y' hy i hi
      unfold Setting.operator
      rw [laplacian_turned h hs hy hi, hy i hi]
      exact if_congr (free_turned h hs.dens hi) rfl rfl
    have hso : ∀ i, i < S.n → S'.source b' s' (σ i) = S.source b s i := by
      intro i hi
      unfold Setting.source
      rw [h.rho, h.n0, h.dt, rate_turned h hs.x hs.u hs.dens hi,
        compensation_turned h hb.x hb.u (d := S.reported b.x b.dens) (fun i hi => reported_turned h hb.x hb.dens hi) hi]
      exact if_congr (free_turned h hs.dens hi) rfl rfl
    have hg : ∀ i, i < S.n → S'.guess s' (σ i) = S.guess s i := by
      intro i hi
      unfold Setting.guess
      rw [hs.p i hi]
      exact if_congr (free_turned h hs.dens hi) rfl rfl
    rw [h.n]
    rcases solve_perm h.perm hop hso hg eps with ⟨k1, k2⟩ | ⟨z, z', k1, k2, k3⟩
    · left; rw [k1, k2]; exact ⟨rfl, rfl⟩
    · right
      rw [k1, k2]
      refine ⟨_, _, rfl, rfl, ?_⟩
      intro i hi
      simp only
      rw [k3 i hi, hs.p i hi]
      exact if_congr (active_turned h hi) (if_congr (surface_turned h hs.dens hi) rfl rfl) rfl

theorem force_turned (h : SettingTurned M σ S S') (hs : SceneTurned S.n M σ s s') (hi : i < S.n) :
    S'.force s' (σ i) = M.turn (S.force s i) := by
  unfold Setting.force
  rw [virtual_turned h hs.x hi, turn_len, hs.p i hi, turn_add, turn_sum]
  congr 1
  · refine sum_nearSolid h hs.x hi (fun j hj => ?_)
    rw [diff_turned hs.x hi hj, turn_len, hs.p j hj, turn_smul, h.re]
  · by_cases hf : S.HasVirtual s.x i
    · rw [if_pos hf, if_pos ((hasVirtual_turned h hs.x hi).mpr hf), h.re, turn_smul]
    · rw [if_neg hf, if_neg (fun k => hf ((hasVirtual_turned h hs.x hi).mp k)), turn_zero]

theorem moment_turned (h : SettingTurned M σ S S') (hs : SceneTurned S.n M σ s s') (hi : i < S.n) :
    S'.moment s' (σ i) = M.R * S.moment s i * M.R.transpose := by
  unfold Setting.moment
  rw [virtual_turned h hs.x hi, turn_len, Matrix.mul_add, Matrix.add_mul, Finset.mul_sum, Finset.sum_mul]
  congr 1
  · refine sum_near h hs.x hi (fun j hj => ?_)
    rw [diff_turned hs.x hi hj, turn_len, turn_outer, h.re, Matrix.mul_smul, Matrix.smul_mul]
  · by_cases hf : S.HasVirtual s.x i
    · rw [if_pos hf, if_pos ((hasVirtual_turned h hs.x hi).mpr hf), h.re, turn_outer, Matrix.mul_smul, Matrix.smul_mul]
    · rw [if_neg hf, if_neg (fun k => hf ((hasVirtual_turned h hs.x hi).mp k)), Matrix.mul_zero, Matrix.zero_mul]

theorem correction_turned (h : SettingTurned M σ S S') (hs : SceneTurned S.n M σ s s') (hi : i < S.n) :
    S'.correction s' (σ i) = M.R * S.correction s i * M.R.transpose := by
  unfold Setting.correction
  rw [moment_turned h hs hi, h.n0, turn_det]
  split
  · rw [Matrix.mul_smul, Matrix.smul_mul, Matrix.mul_one, orth']
  · rw [turn_inv]

theorem correction_apply (h : SettingTurned M σ S S') (hs : SceneTurned S.n M σ s s') (hi : i < S.n) (v : Fin D → ℝ) :
    (S'.correction s' (σ i)).mulVec (M.turn v) = M.turn ((S.correction s i).mulVec v) := by
  rw [correction_turned h hs hi]
  unfold Rigid.turn
  rw [Matrix.mulVec_mulVec, Matrix.mulVec_mulVec, Matrix.mul_assoc, M.orth, Matrix.mul_one]

theorem forceGc_turned (h : SettingTurned M σ S S') (hs : SceneTurned S.n M σ s s') (hi : i < S.n) :
    S'.forceGc s' (σ i) = M.turn (S.forceGc s i) := by
  unfold Setting.forceGc
  simp only
  rw [virtual_turned h hs.x hi, turn_len, hs.p i hi, turn_add, turn_sum, h.cfg, correction_apply h hs hi]
  congr 1
  · refine sum_nearSolid h hs.x hi (fun j hj => ?_)
    rw [diff_turned hs.x hi hj, turn_len, hs.p j hj, turn_smul, h.re, correction_apply h hs hi]
  · by_cases hf : S.HasVirtual s.x i
    · rw [if_pos hf, if_pos ((hasVirtual_turned h hs.x hi).mpr hf), h.re, turn_smul]
    · rw [if_neg hf, if_neg (fun k => hf ((hasVirtual_turned h hs.x hi).mp k)), turn_zero]

theorem push_turned (h : SettingTurned M σ S S') (hs : SceneTurned S.n M σ s s') (hi : i < S.n) :
    S'.push s' (σ i) = M.turn (S.push s i) := by
  unfold Setting.push
  rw [h.cfg, h.dt, h.rho, h.n0, hs.dens i hi]
  split
  · rw [forceGc_turned h hs hi, turn_smul]
  · rw [force_turned h hs hi, turn_smul]

theorem kick_turned (h : SettingTurned M σ S S') (hs : SceneTurned S.n M σ s s') {dv dv' : ℕ → Fin D → ℝ}
    (hd : ∀ i, i < S.n → dv' (σ i) = M.turn (dv i)) : SceneTurned S.n M σ (S.kick dv s) (S'.kick dv' s') := by
  refine ⟨?_, ?_, hs.p, hs.dens⟩
  · intro i hi
    unfold Setting.kick
    simp only
    by_cases hf : S.Fluid i
    · rw [if_pos hf, if_pos ((fluid_turned h hi).mpr hf), hs.x i hi, hd i hi, h.dt, ← turn_smul, place_add]
    · rw [if_neg hf, if_neg (fun k => hf ((fluid_turned h hi).mp k)), hs.x i hi]
  · intro i hi
    unfold Setting.kick
    simp only
    by_cases hf : S.Fluid i
    · rw [if_pos hf, if_pos ((fluid_turned h hi).mpr hf), hs.u i hi, hd i hi, turn_add]
    · rw [if_neg hf, if_neg (fun k => hf ((fluid_turned h hi).mp k)), hs.u i hi]

theorem stabilise_turned {old old' : ℕ → Fin D → ℝ} (h : SettingTurned M σ S S') (hs : SceneTurned S.n M σ s s')
    (ho : ∀ i, i < S.n → old' (σ i) = M.place (old i)) (hi : i < S.n) : S'.stabilise old' s' (σ i) = M.turn (S.stabilise old s i) := by
  unfold Setting.stabilise
  simp only
  rw [h.dt, h.n0, h.l0, h.maxDx, turn_smul, turn_sum]
  congr 1
  refine sum_nearSolid h hs.x hi (fun j hj => ?_)
  rw [diff_turned hs.x hi hj, diff_turned ho hi hj, turn_len, turn_len, ← turn_smul, turn_prod, ← turn_smul, ← turn_smul, ← turn_sub, turn_len]
  split
  · rfl
  · rw [turn_zero]

theorem finish_turned (h : SettingTurned M σ S S') (hs : SceneTurned S.n M σ s s') :
    SceneTurned S.n M σ (S.finish s) (S'.finish s') := by
  have h1 := kick_turned h hs (dv := S.push s) (dv' := S'.push s') (fun i hi => push_turned h hs hi)
  unfold Setting.finish
  simp only
  rw [h.cfg]
  split
  · exact kick_turned h h1 (fun i hi => stabilise_turned h h1 hs.x hi)
  · exact h1

/-- The whole step. -/
theorem step_turned (h : SettingTurned M σ S S') (hs : SceneTurned S.n M σ s s') (eps : ℝ) :
    (S.step eps s = none ∧ S'.step eps s' = none) ∨
    ∃ a a', S.step eps s = some a ∧ S'.step eps s' = some a' ∧ SceneTurned S.n M σ a a' := by
  have h1 := predict_turned h hs
  unfold Setting.step
  rcases pressure_turned h hs h1 eps with ⟨k1, k2⟩ | ⟨p, p', k1, k2, k3⟩
  · left; rw [k1, k2]; exact ⟨rfl, rfl⟩
  · right
    rw [k1, k2]
    exact ⟨_, _, rfl, rfl, finish_turned h ⟨h1.x, h1.u, k3, h1.dens⟩⟩

end

end OpenMps.Ref
