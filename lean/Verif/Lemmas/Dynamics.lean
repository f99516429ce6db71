import Verif.Spec.Dynamics
import Verif.Props.Derivative
import Mathlib.Topology.Instances.Matrix
import Mathlib.Topology.Algebra.Order.LiminfLimsup

/-! # Limits of the terms of a step -/

set_option linter.unusedSectionVars false

namespace OpenMps

open Ref Filter Topology

variable {D : Nat} {ω : Type}

/-- The setting with another step size, time and callback. -/
def retimed (T : Setting D) (dt t : ℝ) (cb : ℕ → Fin D → ℝ) : Setting D := { T with env := { T.env with dt := dt, t := t }, callback := cb }

section
variable {l : Filter ℝ} {r : ℝ → ℝ} {r0 re : ℝ} {v w : ℝ → Fin D → ℝ} {v0 w0 : Fin D → ℝ}

theorem weight_tendsto (h0 : 0 < r0) (h : Tendsto r l (𝓝 r0)) : Tendsto (fun t => weight re (r t)) l (𝓝 (weight re r0)) := by
  have e : weight re r0 = max (re / r0 - 1) 0 := by
    unfold weight
    by_cases hc : r0 < re
    · rw [if_pos ⟨h0, hc⟩, max_eq_left]
      have := (one_lt_div h0).mpr hc
      linarith
    · rw [if_neg (fun k => hc k.2), max_eq_right]
      have := (div_le_one h0).mpr (not_lt.mp hc)
      linarith
  rw [e]
  have h1 : Tendsto (fun t => max (re / r t - 1) 0) l (𝓝 (max (re / r0 - 1) 0)) :=
    ((Tendsto.div tendsto_const_nhds h h0.ne').sub tendsto_const_nhds).max tendsto_const_nhds
  refine h1.congr' ?_
  filter_upwards [h.eventually (lt_mem_nhds h0)] with t ht
  unfold weight
  by_cases hc : r t < re
  · rw [if_pos ⟨ht, hc⟩, max_eq_left]
    have := (one_lt_div ht).mpr hc
    linarith
  · rw [if_neg (fun k => hc k.2), max_eq_right]
    have := (div_le_one ht).mpr (not_lt.mp hc)
    linarith

theorem len_tendsto (h : Tendsto v l (𝓝 v0)) : Tendsto (fun t => len (v t)) l (𝓝 (len v0)) := by
  unfold len
  apply (Real.continuous_sqrt.tendsto _).comp
  refine tendsto_finsetSum _ (fun a _ => ?_)
  exact ((tendsto_pi_nhds.mp h) a).pow 2

end

section
variable (T : Setting D) {l : Filter ℝ} {x : ℝ → ℕ → Fin D → ℝ} {x0 : ℕ → Fin D → ℝ} {i : ℕ}

/-- The positions converge to those of distinct particles. -/
structure PosConv (T : Setting D) (l : Filter ℝ) (x : ℝ → ℕ → Fin D → ℝ) (x0 : ℕ → Fin D → ℝ) : Prop where
  lim : ∀ i, i < T.n → T.ty i ≠ .disabled → Tendsto (fun t => x t i) l (𝓝 (x0 i))
  apart : ∀ i j, i < T.n → j < T.n → i ≠ j → T.ty i ≠ .disabled → T.ty j ≠ .disabled → 0 < len (x0 j - x0 i)

theorem mem_cands {j : ℕ} : j ∈ cands T i ↔ j < T.n ∧ j ≠ i ∧ T.ty j ≠ .disabled ∧ len (T.start j - T.start i) < T.env.neighborLength := by
  classical
  unfold cands
  rw [Finset.mem_filter, Finset.mem_range]

/-- Sums of terms with a factor that vanishes beyond `r_e` run over fixed sets. -/
theorem near_sum {A : Type} [AddCommMonoid A] (T : Setting D) (y : ℕ → Fin D → ℝ) (i : ℕ) (f : ℕ → A)
    (h0 : ∀ j, ¬ len (y j - y i) < T.env.re → f j = 0) : ∑ j ∈ T.near y i, f j = ∑ j ∈ cands T i, f j := by
  classical
  apply Finset.sum_subset
  · intro j hj
    rw [mem_near_ref] at hj
    rw [mem_cands]
    exact ⟨hj.1, hj.2.1, hj.2.2.1, hj.2.2.2.1⟩
  · intro j hj hn
    rw [mem_cands] at hj
    apply h0
    intro h
    exact hn (mem_near_ref.mpr ⟨hj.1, hj.2.1, hj.2.2.1, hj.2.2.2, h⟩)

open Classical in
theorem nearSolid_sum {A : Type} [AddCommMonoid A] (T : Setting D) (y : ℕ → Fin D → ℝ) (i : ℕ) (f : ℕ → A)
    (h0 : ∀ j, ¬ len (y j - y i) < T.env.re → f j = 0) :
    ∑ j ∈ T.nearSolid y i, f j = ∑ j ∈ cands T i, if T.ty j ≠ .dummy then f j else 0 := by
  unfold Setting.nearSolid
  rw [Finset.sum_filter, near_sum]
  intro j hj
  split
  · exact h0 j hj
  · rfl

theorem weight_far {re r : ℝ} (h : ¬ r < re) : weight re r = 0 := by
  unfold weight
  rw [if_neg (fun k => h k.2)]

variable {T}

theorem PosConv.diff (h : PosConv T l x x0) {i : ℕ} (hi : i < T.n) (hd : T.ty i ≠ .disabled) {j : ℕ} (hj : j ∈ cands T i) :
    Tendsto (fun t => x t j - x t i) l (𝓝 (x0 j - x0 i)) ∧ 0 < len (x0 j - x0 i) := by
  rw [mem_cands] at hj
  exact ⟨(h.lim j hj.1 hj.2.2.1).sub (h.lim i hi hd), h.apart i j hi hj.1 (Ne.symm hj.2.1) hd hj.2.2.1⟩

theorem PosConv.weight (h : PosConv T l x x0) {i : ℕ} (hi : i < T.n) (hd : T.ty i ≠ .disabled) {j : ℕ} (hj : j ∈ cands T i) :
    Tendsto (fun t => Ref.weight T.env.re (len (x t j - x t i))) l (𝓝 (Ref.weight T.env.re (len (x0 j - x0 i)))) := by
  obtain ⟨h1, h2⟩ := h.diff hi hd hj
  exact weight_tendsto h2 (len_tendsto h1)

theorem PosConv.density (h : PosConv T l x x0) {i : ℕ} (hi : i < T.n) (hd : T.ty i ≠ .disabled) :
    Tendsto (fun t => T.density (x t) i) l (𝓝 (T.density x0 i)) := by
  simp only [density_cands]
  exact tendsto_finsetSum _ (fun j hj => h.weight hi hd hj)

theorem PosConv.reported (h : PosConv T l x x0) (old : ℕ → ℝ) {i : ℕ} (hi : i < T.n) (hd : T.ty i ≠ .disabled) :
    Tendsto (fun t => T.reported (x t) old i) l (𝓝 (T.reported x0 old i)) := by
  classical
  unfold Setting.reported
  by_cases ha : T.Active i
  · simp only [if_pos ha]
    split
    · exact (h.density hi hd).max tendsto_const_nhds
    · exact h.density hi hd
  · simp only [if_neg ha]
    exact tendsto_const_nhds

theorem PosConv.eos (h : PosConv T l x x0) (old : ℕ → ℝ) {i : ℕ} (hi : i < T.n) (hd : T.ty i ≠ .disabled) :
    Tendsto (fun t => T.eos (T.reported (x t) old) i) l (𝓝 (T.eos (T.reported x0 old) i)) := by
  unfold Setting.eos
  exact tendsto_const_nhds.mul (((((h.reported old hi hd).const_mul _).div_const _).sub tendsto_const_nhds).max tendsto_const_nhds)

/-- A factor of the pressure forces. -/
theorem PosConv.coef (h : PosConv T l x x0) {i : ℕ} (hi : i < T.n) (hd : T.ty i ≠ .disabled) {j : ℕ} (hj : j ∈ cands T i) {q : ℝ → ℝ} {q0 : ℝ}
    (hq : Tendsto q l (𝓝 q0)) :
    Tendsto (fun t => q t / len (x t j - x t i) ^ 2 * Ref.weight T.env.re (len (x t j - x t i))) l
      (𝓝 (q0 / len (x0 j - x0 i) ^ 2 * Ref.weight T.env.re (len (x0 j - x0 i)))) := by
  obtain ⟨h1, h2⟩ := h.diff hi hd hj
  exact (hq.div ((len_tendsto h1).pow 2) (pow_pos h2 2).ne').mul (h.weight hi hd hj)

/-- The virtual particle has no effect in the explicit mode. -/
theorem eos_virtual (hn0 : 0 < T.env.n0) {y : ℕ → Fin D → ℝ} {old : ℕ → ℝ} (hA : T.Active i) (h : T.HasVirtual y i) :
    T.eos (T.reported y old) i = 0 := by
  unfold Setting.eos Setting.reported
  rw [if_pos hA, if_pos h.1, max_eq_right h.2.1.le, mul_div_assoc, div_self hn0.ne']
  simp

/-- Pressure forces without GC. -/
theorem PosConv.force (h : PosConv T l x x0) (hn0 : 0 < T.env.n0) (old : ℕ → ℝ) (u : ℝ → ℕ → Fin D → ℝ) {i : ℕ} (hi : i < T.n) (hA : T.Active i) :
    Tendsto (fun t => T.force { x := x t, u := u t, p := T.eos (T.reported (x t) old), dens := T.reported (x t) old } i) l
      (𝓝 (∑ j ∈ T.nearSolid x0 i, ((T.eos (T.reported x0 old) j + T.eos (T.reported x0 old) i) / len (x0 j - x0 i) ^ 2
        * Ref.weight T.env.re (len (x0 j - x0 i))) • (x0 j - x0 i))) := by
  classical
  have key : ∀ t, T.force { x := x t, u := u t, p := T.eos (T.reported (x t) old), dens := T.reported (x t) old } i =
      ∑ j ∈ cands T i, if T.ty j ≠ .dummy then
        ((T.eos (T.reported (x t) old) j + T.eos (T.reported (x t) old) i) / len (x t j - x t i) ^ 2
        * Ref.weight T.env.re (len (x t j - x t i))) • (x t j - x t i) else 0 := by
    intro t
    unfold Setting.force
    simp only
    rw [nearSolid_sum]
    · split
      · rename_i hv
        rw [eos_virtual hn0 hA hv]
        simp
      · rw [add_zero]
    · intro j hj
      rw [weight_far hj]; simp
  simp only [key]
  rw [nearSolid_sum]
  · refine tendsto_finsetSum _ (fun j hj => ?_)
    split
    · have hj' := (mem_cands T).mp hj
      exact (h.coef hi hA.2 hj ((h.eos old hj'.1 hj'.2.2.1).add (h.eos old hi hA.2))).smul (h.diff hi hA.2 hj).1
    · exact tendsto_const_nhds
  · intro j hj
    rw [weight_far hj]; simp

theorem inv_tendsto {M : ℝ → Matrix (Fin D) (Fin D) ℝ} {M0 : Matrix (Fin D) (Fin D) ℝ} (h0 : M0.det ≠ 0) (h : Tendsto M l (𝓝 M0)) :
    Tendsto (fun t => (M t)⁻¹) l (𝓝 M0⁻¹) := by
  have e : ∀ A : Matrix (Fin D) (Fin D) ℝ, A⁻¹ = A.det⁻¹ • A.adjugate := by
    intro A
    rw [Matrix.inv_def, Ring.inverse_eq_inv']
  simp only [e]
  have h1 : Tendsto (fun t => (M t).det) l (𝓝 M0.det) := ((continuous_id.matrix_det).tendsto M0).comp h
  have h2 : Tendsto (fun t => (M t).adjugate) l (𝓝 M0.adjugate) := ((continuous_id.matrix_adjugate).tendsto M0).comp h
  exact (h1.inv₀ h0).smul h2

theorem vecMulVec_tendsto {v : ℝ → Fin D → ℝ} {v0 : Fin D → ℝ} (h : Tendsto v l (𝓝 v0)) :
    Tendsto (fun t => Matrix.vecMulVec (v t) (v t)) l (𝓝 (Matrix.vecMulVec v0 v0)) :=
  ((continuous_id.matrix_vecMulVec continuous_id).tendsto v0).comp h

theorem mulVec_tendsto {M : ℝ → Matrix (Fin D) (Fin D) ℝ} {M0 : Matrix (Fin D) (Fin D) ℝ} {v : ℝ → Fin D → ℝ} {v0 : Fin D → ℝ}
    (hM : Tendsto M l (𝓝 M0)) (h : Tendsto v l (𝓝 v0)) : Tendsto (fun t => (M t).mulVec (v t)) l (𝓝 (M0.mulVec v0)) := by
  have h1 : Tendsto (fun t => (M t, v t)) l (𝓝 (M0, v0)) := hM.prodMk_nhds h
  exact ((Continuous.matrix_mulVec continuous_fst continuous_snd).tendsto (M0, v0)).comp h1

/-- No virtual particle close to the limit. -/
theorem PosConv.noVirtual (h : PosConv T l x x0) {i : ℕ} (hi : i < T.n) (hd : T.ty i ≠ .disabled)
    (hs : T.cfg.spp = false ∨ T.env.n0 < T.density x0 i) : ∀ᶠ t in l, ¬ T.HasVirtual (x t) i := by
  rcases hs with hs | hs
  · exact Eventually.of_forall (fun t hv => by have := hv.1; rw [hs] at this; cases this)
  · filter_upwards [(h.density hi hd).eventually (lt_mem_nhds hs)] with t ht hv
    exact absurd hv.2.1 (not_lt.mpr ht.le)

/-- The matrix of the gradient correction. -/
theorem PosConv.moment (h : PosConv T l x x0) (s : ℝ → Scene D) (hs : ∀ t, (s t).x = x t) {i : ℕ} (hi : i < T.n) (hd : T.ty i ≠ .disabled)
    (hv : T.cfg.spp = false ∨ T.env.n0 < T.density x0 i) :
    Tendsto (fun t => T.moment (s t) i) l (𝓝 (∑ k ∈ T.near x0 i,
      (Ref.weight T.env.re (len (x0 k - x0 i)) / len (x0 k - x0 i) ^ 2) • Matrix.vecMulVec (x0 k - x0 i) (x0 k - x0 i))) := by
  classical
  have hz : ∀ (y : ℕ → Fin D → ℝ) (j : ℕ), ¬ len (y j - y i) < T.env.re →
      (Ref.weight T.env.re (len (y j - y i)) / len (y j - y i) ^ 2) • Matrix.vecMulVec (y j - y i) (y j - y i) = 0 := by
    intro y j hj
    rw [weight_far hj]; simp
  rw [near_sum T x0 i _ (hz x0)]
  have h1 : Tendsto (fun t => ∑ j ∈ cands T i,
      (Ref.weight T.env.re (len (x t j - x t i)) / len (x t j - x t i) ^ 2) • Matrix.vecMulVec (x t j - x t i) (x t j - x t i)) l
      (𝓝 (∑ k ∈ cands T i,
      (Ref.weight T.env.re (len (x0 k - x0 i)) / len (x0 k - x0 i) ^ 2) • Matrix.vecMulVec (x0 k - x0 i) (x0 k - x0 i))) := by
    refine tendsto_finsetSum _ (fun j hj => ?_)
    obtain ⟨h1, h2⟩ := h.diff hi hd hj
    exact ((h.weight hi hd hj).div ((len_tendsto h1).pow 2) (pow_pos h2 2).ne').smul (vecMulVec_tendsto h1)
  refine h1.congr' ?_
  filter_upwards [h.noVirtual hi hd hv] with t ht
  unfold Setting.moment
  rw [hs t, if_neg ht, add_zero, near_sum T (x t) i _ (hz (x t))]

/-- Pressure forces with GC. -/
theorem PosConv.forceGc (h : PosConv T l x x0) (old : ℕ → ℝ) (u : ℝ → ℕ → Fin D → ℝ) {i : ℕ} (hi : i < T.n) (hA : T.Active i)
    (hv : T.cfg.spp = false ∨ T.env.n0 < T.density x0 i)
    (hdet : (∑ k ∈ T.near x0 i, (Ref.weight T.env.re (len (x0 k - x0 i)) / len (x0 k - x0 i) ^ 2) •
      Matrix.vecMulVec (x0 k - x0 i) (x0 k - x0 i)).det ≠ 0) :
    Tendsto (fun t => T.forceGc { x := x t, u := u t, p := T.eos (T.reported (x t) old), dens := T.reported (x t) old } i) l
      (𝓝 (∑ j ∈ T.nearSolid x0 i,
        ((if T.cfg.midpoint then T.eos (T.reported x0 old) j + T.eos (T.reported x0 old) i
          else T.eos (T.reported x0 old) j - T.eos (T.reported x0 old) i) / len (x0 j - x0 i) ^ 2
        * Ref.weight T.env.re (len (x0 j - x0 i))) •
        (∑ k ∈ T.near x0 i, (Ref.weight T.env.re (len (x0 k - x0 i)) / len (x0 k - x0 i) ^ 2) •
          Matrix.vecMulVec (x0 k - x0 i) (x0 k - x0 i))⁻¹.mulVec (x0 j - x0 i))) := by
  classical
  set M0 := ∑ k ∈ T.near x0 i, (Ref.weight T.env.re (len (x0 k - x0 i)) / len (x0 k - x0 i) ^ 2) •
      Matrix.vecMulVec (x0 k - x0 i) (x0 k - x0 i) with hM0
  set s : ℝ → Scene D := fun t => { x := x t, u := u t, p := T.eos (T.reported (x t) old), dens := T.reported (x t) old } with hs
  have hM : Tendsto (fun t => T.moment (s t) i) l (𝓝 M0) := h.moment s (fun t => rfl) hi hA.2 hv
  have hdet' : ∀ᶠ t in l, (T.moment (s t) i).det ≠ 0 := by
    have : Tendsto (fun t => (T.moment (s t) i).det) l (𝓝 M0.det) := ((continuous_id.matrix_det).tendsto M0).comp hM
    exact this.eventually_ne hdet
  have hI := inv_tendsto hdet hM
  have h1 : Tendsto (fun t => ∑ j ∈ cands T i, if T.ty j ≠ .dummy then
      ((if T.cfg.midpoint then T.eos (T.reported (x t) old) j + T.eos (T.reported (x t) old) i
          else T.eos (T.reported (x t) old) j - T.eos (T.reported (x t) old) i) / len (x t j - x t i) ^ 2
        * Ref.weight T.env.re (len (x t j - x t i))) • ((T.moment (s t) i)⁻¹).mulVec (x t j - x t i) else 0) l
      (𝓝 (∑ j ∈ cands T i, if T.ty j ≠ .dummy then
      ((if T.cfg.midpoint then T.eos (T.reported x0 old) j + T.eos (T.reported x0 old) i
          else T.eos (T.reported x0 old) j - T.eos (T.reported x0 old) i) / len (x0 j - x0 i) ^ 2
        * Ref.weight T.env.re (len (x0 j - x0 i))) • M0⁻¹.mulVec (x0 j - x0 i) else 0)) := by
    refine tendsto_finsetSum _ (fun j hj => ?_)
    split
    · have hj' := (mem_cands T).mp hj
      refine (h.coef hi hA.2 hj ?_).smul (mulVec_tendsto hI (h.diff hi hA.2 hj).1)
      split
      · exact (h.eos old hj'.1 hj'.2.2.1).add (h.eos old hi hA.2)
      · exact (h.eos old hj'.1 hj'.2.2.1).sub (h.eos old hi hA.2)
    · exact tendsto_const_nhds
  rw [nearSolid_sum]
  · refine h1.congr' ?_
    filter_upwards [hdet', h.noVirtual hi hA.2 hv] with t k1 k2
    have hc : T.correction (s t) i = (T.moment (s t) i)⁻¹ := by
      unfold Setting.correction
      rw [if_neg k1]
    have hf : T.forceGc (s t) i = ∑ j ∈ T.nearSolid (x t) i,
      ((if T.cfg.midpoint then T.eos (T.reported (x t) old) j + T.eos (T.reported (x t) old) i
          else T.eos (T.reported (x t) old) j - T.eos (T.reported (x t) old) i) / len (x t j - x t i) ^ 2
        * Ref.weight T.env.re (len (x t j - x t i))) • ((T.moment (s t) i)⁻¹).mulVec (x t j - x t i) := by
      unfold Setting.forceGc
      rw [hc]
      have k2' : ¬ T.HasVirtual (s t).x i := k2
      simp only [if_neg k2', add_zero]
      rfl
    rw [hf, nearSolid_sum]
    intro j hj
    rw [weight_far hj]; simp
  · intro j hj
    rw [weight_far hj]; simp

end

section
variable {T : Setting D} {b : Scene D} {tm : ℝ → ℝ} {cb : ℝ → ℕ → Fin D → ℝ}

/-- What is needed of the scene at the beginning of the step. -/
structure Smooth (T : Setting D) (b : Scene D) (cb : ℝ → ℕ → Fin D → ℝ) : Prop where
  n0 : 0 < T.env.n0
  walls : ∀ i, i < T.n → T.ty i ≠ .disabled → ¬ T.Fluid i → Tendsto (fun dt => cb dt i) (𝓝[>] 0) (𝓝 (b.x i))
  apart : ∀ i j, i < T.n → j < T.n → i ≠ j → T.ty i ≠ .disabled → T.ty j ≠ .disabled → 0 < len (b.x j - b.x i)
  gc : T.cfg.gc = true → ∀ i, i < T.n → T.Fluid i → (T.cfg.spp = false ∨ T.env.n0 < T.density b.x i) ∧
    (∑ k ∈ T.near b.x i, (Ref.weight T.env.re (len (b.x k - b.x i)) / len (b.x k - b.x i) ^ 2) •
      Matrix.vecMulVec (b.x k - b.x i) (b.x k - b.x i)).det ≠ 0
  ds : T.cfg.ds = true → ∀ i j, i < T.n → j < T.n → i ≠ j → T.Fluid i → T.ty j ≠ .disabled →
    (T.env.l0 - T.env.maxDx) ^ 2 < len (b.x j - b.x i) ^ 2

theorem tendsto_dt : Tendsto (fun dt : ℝ => dt) (𝓝[>] 0) (𝓝 0) := tendsto_id.mono_left nhdsWithin_le_nhds

theorem dt_smul {g : ℝ → Fin D → ℝ} {g0 : Fin D → ℝ} (h : Tendsto g (𝓝[>] 0) (𝓝 g0)) : Tendsto (fun dt => dt • g dt) (𝓝[>] 0) (𝓝 0) := by
  have := tendsto_dt.smul h
  rwa [zero_smul] at this

/-- The first stage, with the pressures of the equation of state. -/
noncomputable def stage (T : Setting D) (b : Scene D) (tm : ℝ → ℝ) (cb : ℝ → ℕ → Fin D → ℝ) (dt : ℝ) : Scene D :=
  { (retimed T dt (tm dt) (cb dt)).predict b with
    p := (retimed T dt (tm dt) (cb dt)).eos ((retimed T dt (tm dt) (cb dt)).predict b).dens }

variable (tm) in
theorem Smooth.conv (h : Smooth T b cb) : PosConv T (𝓝[>] 0) (fun dt => (stage T b tm cb dt).x) b.x := by
  classical
  refine ⟨fun i hi hd => ?_, h.apart⟩
  by_cases hf : T.Fluid i
  · have e : ∀ dt, (stage T b tm cb dt).x i = b.x i + dt • (b.u i + dt • T.acceleration b.x b.u i) := by
      intro dt
      change (if T.Fluid i then b.x i + dt • (if T.Fluid i then b.u i + dt • T.acceleration b.x b.u i else _) else _) = _
      rw [if_pos hf, if_pos hf]
    simp only [e]
    have h1 : Tendsto (fun dt : ℝ => b.u i + dt • T.acceleration b.x b.u i) (𝓝[>] 0) (𝓝 (b.u i + 0)) :=
      tendsto_const_nhds.add (dt_smul tendsto_const_nhds)
    have h2 := (tendsto_const_nhds (x := b.x i)).add (dt_smul h1)
    rwa [add_zero] at h2
  · have e : ∀ dt, (stage T b tm cb dt).x i = cb dt i := by
      intro dt
      change (if T.Fluid i then _ else cb dt i) = _
      rw [if_neg hf]
    simp only [e]
    exact h.walls i hi hd hf

variable (tm) in
/-- The change of the velocity by the pressure, divided by the step size. -/
theorem Smooth.push (h : Smooth T b cb) {i : ℕ} (hi : i < T.n) (hf : T.Fluid i) :
    ∃ g : ℝ → Fin D → ℝ, (∀ dt, (retimed T dt (tm dt) (cb dt)).push (stage T b tm cb dt) i = dt • g dt) ∧
      Tendsto g (𝓝[>] 0) (𝓝 (T.pressureAcceleration b i)) := by
  have hA : T.Active i := by
    have hf' : T.ty i = .incompressibleNewton := hf
    exact ⟨by rw [hf']; decide, by rw [hf']; decide⟩
  have hc := h.conv tm
  cases hg : T.cfg.gc with
  | false =>
    refine ⟨fun dt => (-(1 / T.env.rho * (D / T.env.n0))) • T.force { x := (stage T b tm cb dt).x, u := (stage T b tm cb dt).u, p := T.eos (T.reported (stage T b tm cb dt).x b.dens), dens := T.reported (stage T b tm cb dt).x b.dens } i, fun dt => ?_, ?_⟩
    · unfold Setting.push
      have : (retimed T dt (tm dt) (cb dt)).cfg.gc = false := hg
      rw [this]
      change (-(dt / T.env.rho * (D / T.env.n0))) • T.force (stage T b tm cb dt) i = dt • _
      rw [smul_smul]
      congr 1
      ring
    · unfold Setting.pressureAcceleration
      simp only [hg, Bool.false_eq_true, if_false]
      exact (hc.force h.n0 b.dens _ hi hA).const_smul _
  | true =>
    obtain ⟨g1, g2⟩ := h.gc hg i hi hf
    refine ⟨fun dt => (-(T.reported (stage T b tm cb dt).x b.dens i / (T.env.rho * T.env.n0))) • T.forceGc { x := (stage T b tm cb dt).x, u := (stage T b tm cb dt).u, p := T.eos (T.reported (stage T b tm cb dt).x b.dens), dens := T.reported (stage T b tm cb dt).x b.dens } i, fun dt => ?_, ?_⟩
    · unfold Setting.push
      have : (retimed T dt (tm dt) (cb dt)).cfg.gc = true := hg
      rw [this]
      change (-(dt * T.reported (stage T b tm cb dt).x b.dens i / (T.env.rho * T.env.n0))) • T.forceGc (stage T b tm cb dt) i = dt • _
      rw [smul_smul]
      congr 1
      ring
    · unfold Setting.pressureAcceleration
      simp only [hg, if_true]
      exact (((hc.reported b.dens hi hA.2).div_const _).neg).smul (hc.forceGc b.dens _ hi hA g1 g2)

variable (tm) in
/-- After the pressure. -/
theorem Smooth.conv' (h : Smooth T b cb) :
    PosConv T (𝓝[>] 0) (fun dt => ((retimed T dt (tm dt) (cb dt)).kick ((retimed T dt (tm dt) (cb dt)).push (stage T b tm cb dt)) (stage T b tm cb dt)).x) b.x := by
  classical
  refine ⟨fun i hi hd => ?_, h.apart⟩
  have hc := (h.conv tm).lim i hi hd
  by_cases hf : T.Fluid i
  · obtain ⟨g, g1, g2⟩ := h.push tm hi hf
    have e : ∀ dt, ((retimed T dt (tm dt) (cb dt)).kick ((retimed T dt (tm dt) (cb dt)).push (stage T b tm cb dt)) (stage T b tm cb dt)).x i =
        (stage T b tm cb dt).x i + dt • (dt • g dt) := by
      intro dt
      change (if T.Fluid i then (stage T b tm cb dt).x i + dt • (retimed T dt (tm dt) (cb dt)).push (stage T b tm cb dt) i else _) = _
      rw [if_pos hf, g1 dt]
    simp only [e]
    have := hc.add (dt_smul (dt_smul g2))
    rwa [add_zero] at this
  · have e : ∀ dt, ((retimed T dt (tm dt) (cb dt)).kick ((retimed T dt (tm dt) (cb dt)).push (stage T b tm cb dt)) (stage T b tm cb dt)).x i =
        (stage T b tm cb dt).x i := by
      intro dt
      change (if T.Fluid i then _ else (stage T b tm cb dt).x i) = _
      rw [if_neg hf]
    simp only [e]
    exact hc

variable (tm) in
/-- Dynamic stabilisation does nothing for short steps. -/
theorem Smooth.still (h : Smooth T b cb) (hds : T.cfg.ds = true) {i : ℕ} (hi : i < T.n) (hf : T.Fluid i) :
    ∀ᶠ dt in 𝓝[>] 0, (retimed T dt (tm dt) (cb dt)).stabilise (stage T b tm cb dt).x
      ((retimed T dt (tm dt) (cb dt)).kick ((retimed T dt (tm dt) (cb dt)).push (stage T b tm cb dt)) (stage T b tm cb dt)) i = 0 := by
  classical
  have hd : T.ty i ≠ .disabled := by
    have hf' : T.ty i = .incompressibleNewton := hf
    rw [hf']; decide
  have hc := h.conv' tm
  have h1 : ∀ᶠ dt in 𝓝[>] 0, ∀ j ∈ cands T i, (T.env.l0 - T.env.maxDx) ^ 2 <
      len (((retimed T dt (tm dt) (cb dt)).kick ((retimed T dt (tm dt) (cb dt)).push (stage T b tm cb dt)) (stage T b tm cb dt)).x j -
        ((retimed T dt (tm dt) (cb dt)).kick ((retimed T dt (tm dt) (cb dt)).push (stage T b tm cb dt)) (stage T b tm cb dt)).x i) ^ 2 := by
    rw [Filter.eventually_all_finset]
    intro j hj
    obtain ⟨k1, -⟩ := hc.diff hi hd hj
    have hj' := (mem_cands T).mp hj
    exact ((len_tendsto k1).pow 2).eventually (lt_mem_nhds (h.ds hds i j hi hj'.1 (Ne.symm hj'.2.1) hf hj'.2.2.1))
  filter_upwards [h1] with dt hdt
  unfold Setting.stabilise
  simp only
  rw [Finset.sum_eq_zero, smul_zero]
  intro j hj
  have hj' : j ∈ cands T i := by
    obtain ⟨k1, -⟩ := mem_nearSolid.mp hj
    obtain ⟨k1, k2, k3, k4, -⟩ := mem_near_ref.mp k1
    exact (mem_cands T).mpr ⟨k1, k2, k3, k4⟩
  exact if_neg (not_lt.mpr (hdt j hj').le)

variable (tm) in
/-- The step, divided by its size. -/
theorem Smooth.rates (h : Smooth T b cb) {i : ℕ} (hi : i < T.n) (hf : T.Fluid i) :
    Tendsto (fun dt => (1 / dt) • (((retimed T dt (tm dt) (cb dt)).finish (stage T b tm cb dt)).u i - b.u i)) (𝓝[>] 0)
      (𝓝 (T.acceleration b.x b.u i + T.pressureAcceleration b i)) ∧
    Tendsto (fun dt => (1 / dt) • (((retimed T dt (tm dt) (cb dt)).finish (stage T b tm cb dt)).x i - b.x i)) (𝓝[>] 0) (𝓝 (b.u i)) := by
  classical
  obtain ⟨g, g1, g2⟩ := h.push tm hi hf
  have hu : ∀ dt, (stage T b tm cb dt).u i = b.u i + dt • T.acceleration b.x b.u i := by
    intro dt
    change (if T.Fluid i then b.u i + dt • T.acceleration b.x b.u i else _) = _
    rw [if_pos hf]
  have hx : ∀ dt, (stage T b tm cb dt).x i = b.x i + dt • (b.u i + dt • T.acceleration b.x b.u i) := by
    intro dt
    change (if T.Fluid i then b.x i + dt • (if T.Fluid i then b.u i + dt • T.acceleration b.x b.u i else _) else _) = _
    rw [if_pos hf, if_pos hf]
  have hfin : ∀ᶠ dt in 𝓝[>] 0, ((retimed T dt (tm dt) (cb dt)).finish (stage T b tm cb dt)).u i = b.u i + dt • T.acceleration b.x b.u i + dt • g dt ∧
      ((retimed T dt (tm dt) (cb dt)).finish (stage T b tm cb dt)).x i = b.x i + dt • (b.u i + dt • T.acceleration b.x b.u i) + dt • (dt • g dt) := by
    have hk : ∀ dt, ((retimed T dt (tm dt) (cb dt)).kick ((retimed T dt (tm dt) (cb dt)).push (stage T b tm cb dt)) (stage T b tm cb dt)).u i =
          b.u i + dt • T.acceleration b.x b.u i + dt • g dt ∧
        ((retimed T dt (tm dt) (cb dt)).kick ((retimed T dt (tm dt) (cb dt)).push (stage T b tm cb dt)) (stage T b tm cb dt)).x i =
          b.x i + dt • (b.u i + dt • T.acceleration b.x b.u i) + dt • (dt • g dt) := by
      intro dt
      constructor
      · change (if T.Fluid i then (stage T b tm cb dt).u i + (retimed T dt (tm dt) (cb dt)).push (stage T b tm cb dt) i else _) = _
        rw [if_pos hf, g1, hu]
      · change (if T.Fluid i then (stage T b tm cb dt).x i + dt • (retimed T dt (tm dt) (cb dt)).push (stage T b tm cb dt) i else _) = _
        rw [if_pos hf, g1, hx]
    cases hds : T.cfg.ds with
    | false =>
      refine Eventually.of_forall (fun dt => ?_)
      have e : (retimed T dt (tm dt) (cb dt)).cfg.ds = false := hds
      unfold Setting.finish
      rw [e]
      exact hk dt
    | true =>
      filter_upwards [h.still tm hds hi hf] with dt hdt
      have e : (retimed T dt (tm dt) (cb dt)).cfg.ds = true := hds
      unfold Setting.finish
      rw [e]
      refine ⟨?_, ?_⟩
      · change (if T.Fluid i then ((retimed T dt (tm dt) (cb dt)).kick ((retimed T dt (tm dt) (cb dt)).push (stage T b tm cb dt)) (stage T b tm cb dt)).u i +
          (retimed T dt (tm dt) (cb dt)).stabilise (stage T b tm cb dt).x _ i else _) = _
        rw [if_pos hf, hdt, add_zero]
        exact (hk dt).1
      · change (if T.Fluid i then ((retimed T dt (tm dt) (cb dt)).kick ((retimed T dt (tm dt) (cb dt)).push (stage T b tm cb dt)) (stage T b tm cb dt)).x i +
          dt • (retimed T dt (tm dt) (cb dt)).stabilise (stage T b tm cb dt).x _ i else _) = _
        rw [if_pos hf, hdt, smul_zero, add_zero]
        exact (hk dt).2
  have hpos : ∀ᶠ dt : ℝ in 𝓝[>] 0, 0 < dt := eventually_mem_nhdsWithin
  constructor
  · have h1 : Tendsto (fun dt => T.acceleration b.x b.u i + g dt) (𝓝[>] 0) (𝓝 (T.acceleration b.x b.u i + T.pressureAcceleration b i)) :=
      tendsto_const_nhds.add g2
    refine h1.congr' ?_
    filter_upwards [hfin, hpos] with dt k1 k2
    rw [k1.1]
    have : b.u i + dt • T.acceleration b.x b.u i + dt • g dt - b.u i = dt • (T.acceleration b.x b.u i + g dt) := by module
    rw [this, smul_smul, one_div_mul_cancel k2.ne', one_smul]
  · have h1 : Tendsto (fun dt => b.u i + dt • (T.acceleration b.x b.u i + g dt)) (𝓝[>] 0) (𝓝 (b.u i + 0)) :=
      tendsto_const_nhds.add (dt_smul (tendsto_const_nhds.add g2))
    rw [add_zero] at h1
    refine h1.congr' ?_
    filter_upwards [hfin, hpos] with dt k1 k2
    rw [k1.2]
    have : b.x i + dt • (b.u i + dt • T.acceleration b.x b.u i) + dt • (dt • g dt) - b.x i =
        dt • (b.u i + dt • (T.acceleration b.x b.u i + g dt)) := by module
    rw [this, smul_smul, one_div_mul_cancel k2.ne', one_smul]

end

end OpenMps
