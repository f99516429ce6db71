import Verif.Spec.Consistency
import Verif.Lemmas.Reference
import Verif.Props.Lattice
import Mathlib.LinearAlgebra.Matrix.Trace

set_option linter.unusedSectionVars false

/-! Sums over the reference lattice. -/

namespace OpenMps.Ref

variable {D : Nat} {S : Setting D} {x : ℕ → Fin D → ℝ} {i : ℕ} {l0 re : ℝ}

theorem len_node (h : 0 < l0) (v : Fin D → ℤ) : len (node l0 v) = l0 * intNorm v := by
  unfold len node intNorm
  have : ∑ a, (l0 * (v a : ℝ)) ^ 2 = l0 ^ 2 * ∑ a, (v a : ℝ) ^ 2 := by
    rw [Finset.mul_sum]; exact Finset.sum_congr rfl (fun a _ => by ring)
  rw [this, Real.sqrt_mul (sq_nonneg _), Real.sqrt_sq h.le]

theorem intNorm_pos {v : Fin D → ℤ} (h : v ≠ 0) : 0 < intNorm v := lt_of_lt_of_le one_pos (one_le_intNorm h)

theorem lattice_finite (h : 0 < l0) : (lattice D l0 re).Finite := by
  refine Set.Finite.subset (W_lattice_finite (D := D) (re / l0)) ?_
  rintro v ⟨h0, h1⟩
  rw [len_node h] at h1
  have : 0 < W (intNorm v) (re / l0) := W_pos (intNorm_pos h0) (by rw [lt_div_iff₀ h]; linarith)
  exact this.ne'

/-- The lattice as a finite set. -/
noncomputable def lat (D : Nat) (re : ℝ) (h : 0 < l0) : Finset (Fin D → ℤ) := (lattice_finite (D := D) (re := re) h).toFinset

theorem mem_lat (h : 0 < l0) {v : Fin D → ℤ} : v ∈ lat D re h ↔ v ≠ 0 ∧ len (node l0 v) < re := by
  unfold lat; rw [Set.Finite.mem_toFinset]; rfl

theorem len_congr {v w : Fin D → ℝ} (e : Equiv.Perm (Fin D)) (h : ∀ a, w a ^ 2 = v (e a) ^ 2) : len w = len v := by
  unfold len
  congr 1
  rw [← Equiv.sum_comp e (fun a => v a ^ 2)]
  exact Finset.sum_congr rfl (fun a _ => h a)

/-- A signed permutation of the coordinates permutes the lattice. -/
theorem lat_sum_symm (h : 0 < l0) (e : Equiv.Perm (Fin D)) (sg : Fin D → ℤ) (hs : ∀ a, sg a ^ 2 = 1) (F : (Fin D → ℝ) → ℝ) :
    ∑ v ∈ lat D re h, F (node l0 v) = ∑ v ∈ lat D re h, F (fun a => sg a * node l0 v (e a)) := by
  have hnode : ∀ v : Fin D → ℤ, node l0 (fun a => sg a * v (e a)) = fun a => sg a * node l0 v (e a) := by
    intro v; funext a; unfold node; push_cast; ring
  have hlen : ∀ v : Fin D → ℤ, len (node l0 (fun a => sg a * v (e a))) = len (node l0 v) := by
    intro v
    refine len_congr e (fun a => ?_)
    rw [hnode]
    have : ((sg a : ℝ)) ^ 2 = 1 := by exact_mod_cast hs a
    rw [mul_pow, this, one_mul]
  have hne : ∀ a, sg a ≠ 0 := by intro a ha; have := hs a; rw [ha] at this; simp at this
  have hsq : ∀ a, sg a * sg a = 1 := by intro a; rw [← sq]; exact hs a
  symm
  refine Finset.sum_bij' (fun v _ => fun a => sg a * v (e a)) (fun w _ => fun a => sg (e.symm a) * w (e.symm a)) ?_ ?_ ?_ ?_ ?_
  · intro v hv
    rw [mem_lat] at hv ⊢
    refine ⟨?_, by rw [hlen]; exact hv.2⟩
    intro hc
    apply hv.1
    funext a
    have := congrFun hc (e.symm a)
    simp only [Equiv.apply_symm_apply, Pi.zero_apply, mul_eq_zero] at this
    exact this.resolve_left (hne _)
  · intro w hw
    rw [mem_lat] at hw ⊢
    constructor
    · intro hc
      apply hw.1
      funext a
      have := congrFun hc (e a)
      simp only [Equiv.symm_apply_apply, Pi.zero_apply, mul_eq_zero] at this
      exact this.resolve_left (hne _)
    · have e1 : len (node l0 (fun a => sg (e.symm a) * w (e.symm a))) = len (node l0 w) := by
        refine len_congr e.symm (fun a => ?_)
        unfold node
        have : ((sg (e.symm a) : ℝ)) ^ 2 = 1 := by exact_mod_cast hs (e.symm a)
        push_cast
        rw [mul_pow, mul_pow, this, one_mul, mul_pow]
      rw [e1]; exact hw.2
  · intro v _
    funext a
    simp only [Equiv.apply_symm_apply]
    rw [← mul_assoc, hsq, one_mul]
  · intro w _
    funext a
    simp only [Equiv.symm_apply_apply]
    rw [← mul_assoc, hsq, one_mul]
  · intro v _
    rw [hnode]

theorem len_symm (e : Equiv.Perm (Fin D)) (sg : Fin D → ℤ) (hs : ∀ a, sg a ^ 2 = 1) (d : Fin D → ℝ) : len (fun a => sg a * d (e a)) = len d := by
  refine len_congr e (fun a => ?_)
  have : ((sg a : ℝ)) ^ 2 = 1 := by exact_mod_cast hs a
  rw [mul_pow, this, one_mul]

/-- Odd moments vanish. -/
theorem lat_odd (h : 0 < l0) (f : ℝ → ℝ) (a : Fin D) : ∑ v ∈ lat D re h, f (len (node l0 v)) * node l0 v a = 0 := by
  have key := lat_sum_symm (re := re) h (Equiv.refl (Fin D)) (fun _ => -1) (fun _ => by norm_num) (fun d => f (len d) * d a)
  have hl := fun d : Fin D → ℝ => len_symm (Equiv.refl (Fin D)) (fun _ => -1) (fun _ => by norm_num) d
  have e : ∑ v ∈ lat D re h, (fun d : Fin D → ℝ => f (len d) * d a) (fun a => ((-1 : ℤ) : ℝ) * node l0 v ((Equiv.refl (Fin D)) a))
      = -∑ v ∈ lat D re h, f (len (node l0 v)) * node l0 v a := by
    rw [← Finset.sum_neg_distrib]
    refine Finset.sum_congr rfl (fun v _ => ?_)
    simp only
    rw [hl]
    simp
  rw [e] at key
  linarith

/-- Mixed second moments vanish. -/
theorem lat_mixed (h : 0 < l0) (f : ℝ → ℝ) {a b : Fin D} (hab : a ≠ b) :
    ∑ v ∈ lat D re h, f (len (node l0 v)) * (node l0 v a * node l0 v b) = 0 := by
  have hs : ∀ c, (if c = a then (-1 : ℤ) else 1) ^ 2 = 1 := by intro c; split <;> norm_num
  have key := lat_sum_symm (re := re) h (Equiv.refl (Fin D)) (fun c => if c = a then -1 else 1) hs (fun d => f (len d) * (d a * d b))
  have hl := fun d : Fin D → ℝ => len_symm (Equiv.refl (Fin D)) (fun c => if c = a then -1 else 1) hs d
  have e : ∑ v ∈ lat D re h, (fun d : Fin D → ℝ => f (len d) * (d a * d b))
        (fun c => ((if c = a then -1 else 1 : ℤ) : ℝ) * node l0 v ((Equiv.refl (Fin D)) c))
      = -∑ v ∈ lat D re h, f (len (node l0 v)) * (node l0 v a * node l0 v b) := by
    rw [← Finset.sum_neg_distrib]
    refine Finset.sum_congr rfl (fun v _ => ?_)
    simp only
    rw [hl]
    simp [hab.symm]
  rw [e] at key
  linarith

theorem lat_swap (h : 0 < l0) (f : ℝ → ℝ) (a b : Fin D) :
    ∑ v ∈ lat D re h, f (len (node l0 v)) * (node l0 v a * node l0 v a) = ∑ v ∈ lat D re h, f (len (node l0 v)) * (node l0 v b * node l0 v b) := by
  have key := lat_sum_symm (re := re) h (Equiv.swap a b) (fun _ => 1) (fun _ => by norm_num) (fun d => f (len d) * (d a * d a))
  have hl := fun d : Fin D → ℝ => len_symm (Equiv.swap a b) (fun _ => 1) (fun _ => by norm_num) d
  simp only at key
  rw [key]
  refine Finset.sum_congr rfl (fun v _ => ?_)
  rw [hl]
  simp [Equiv.swap_apply_left]

/-- Second moments are isotropic. -/
theorem lat_second (h : 0 < l0) (hD : 0 < D) (f : ℝ → ℝ) (a b : Fin D) :
    ∑ v ∈ lat D re h, f (len (node l0 v)) * (node l0 v a * node l0 v b) =
      if a = b then (∑ v ∈ lat D re h, f (len (node l0 v)) * len (node l0 v) ^ 2) / D else 0 := by
  by_cases hab : a = b
  · subst hab
    rw [if_pos rfl]
    have e : ∑ v ∈ lat D re h, f (len (node l0 v)) * len (node l0 v) ^ 2 = ∑ c : Fin D, ∑ v ∈ lat D re h, f (len (node l0 v)) * (node l0 v c * node l0 v c) := by
      rw [Finset.sum_comm]
      refine Finset.sum_congr rfl (fun v _ => ?_)
      rw [← Finset.mul_sum]
      congr 1
      unfold len
      rw [Real.sq_sqrt (Finset.sum_nonneg (fun _ _ => sq_nonneg _))]
      exact Finset.sum_congr rfl (fun c _ => by ring)
    rw [e, Finset.sum_congr rfl (fun c _ => lat_swap (re := re) h f c a), Finset.sum_const, Finset.card_univ, Fintype.card_fin, nsmul_eq_mul]
    have : (D : ℝ) ≠ 0 := by exact_mod_cast hD.ne'
    field_simp
  · rw [if_neg hab]; exact lat_mixed h f hab

/-- Sums over the particles around a particle in the lattice are sums over the lattice. -/
theorem near_lattice (h : 0 < S.env.l0) (hi : S.InLattice x i) {A : Type} [AddCommMonoid A] (F : (Fin D → ℝ) → A) :
    ∑ j ∈ S.near x i, F (x j - x i) = ∑ v ∈ lat D S.env.re h, F (node S.env.l0 v) := by
  obtain ⟨-, place, hb, hx⟩ := hi
  refine Finset.sum_bij (fun j _ => place j) ?_ ?_ ?_ ?_
  · intro j hj; exact (mem_lat h).mpr (hb.mapsTo hj)
  · intro j hj k hk he; exact hb.injOn hj hk he
  · intro v hv
    obtain ⟨j, hj, e⟩ := hb.surjOn ((mem_lat h).mp hv)
    exact ⟨j, hj, e⟩
  · intro j hj; rw [hx j hj]

theorem nearSolid_lattice (hi : S.InLattice x i) : S.nearSolid x i = S.near x i := by
  unfold Setting.nearSolid
  exact Finset.filter_true_of_mem hi.1

theorem lat_len_pos (h : 0 < l0) {v : Fin D → ℤ} (hv : v ∈ lat D re h) : 0 < len (node l0 v) := by
  rw [len_node h]; exact mul_pos h (intNorm_pos ((mem_lat h).mp hv).1)

theorem prod_expand (d : Fin D → ℝ) (H : Matrix (Fin D) (Fin D) ℝ) : prod d (H.mulVec d) = ∑ a, ∑ b, H a b * (d a * d b) := by
  unfold prod Matrix.mulVec dotProduct
  refine Finset.sum_congr rfl (fun a _ => ?_)
  rw [Finset.mul_sum]
  exact Finset.sum_congr rfl (fun b _ => by ring)

/-- Radial sums of linear and quadratic functions. -/
theorem lat_linear (h : 0 < l0) (f : ℝ → ℝ) (g : Fin D → ℝ) : ∑ v ∈ lat D re h, f (len (node l0 v)) * prod g (node l0 v) = 0 := by
  unfold prod
  simp only [Finset.mul_sum]
  rw [Finset.sum_comm]
  refine Finset.sum_eq_zero (fun a _ => ?_)
  have := lat_odd (re := re) h f a
  rw [Finset.sum_congr rfl (fun v _ => show f (len (node l0 v)) * (g a * node l0 v a) = g a * (f (len (node l0 v)) * node l0 v a) by ring),
    ← Finset.mul_sum, this, mul_zero]

theorem lat_quadratic (h : 0 < l0) (hD : 0 < D) (f : ℝ → ℝ) (H : Matrix (Fin D) (Fin D) ℝ) :
    ∑ v ∈ lat D re h, f (len (node l0 v)) * prod (node l0 v) (H.mulVec (node l0 v)) =
      H.trace * ((∑ v ∈ lat D re h, f (len (node l0 v)) * len (node l0 v) ^ 2) / D) := by
  simp only [prod_expand, Finset.mul_sum]
  rw [Finset.sum_comm]
  unfold Matrix.trace
  rw [Finset.sum_mul]
  refine Finset.sum_congr rfl (fun a _ => ?_)
  rw [Finset.sum_comm]
  have e : ∀ b, ∑ v ∈ lat D re h, f (len (node l0 v)) * (H a b * (node l0 v a * node l0 v b)) =
      if a = b then H a b * ((∑ v ∈ lat D re h, f (len (node l0 v)) * len (node l0 v) ^ 2) / D) else 0 := by
    intro b
    rw [Finset.sum_congr rfl (fun v _ => show f (len (node l0 v)) * (H a b * (node l0 v a * node l0 v b)) =
      H a b * (f (len (node l0 v)) * (node l0 v a * node l0 v b)) by ring), ← Finset.mul_sum, lat_second h hD f a b]
    split <;> simp
  rw [Finset.sum_congr rfl (fun b _ => e b), Finset.sum_ite_eq Finset.univ a]
  simp only [Finset.mem_univ, if_true, Matrix.diag_apply]

/-- Radial sums of an affine function times the direction. -/
theorem lat_gradient (h : 0 < l0) (hD : 0 < D) (f : ℝ → ℝ) (c : ℝ) (g : Fin D → ℝ) :
    ∑ v ∈ lat D re h, (f (len (node l0 v)) * (c + prod g (node l0 v))) • node l0 v =
      ((∑ v ∈ lat D re h, f (len (node l0 v)) * len (node l0 v) ^ 2) / D) • g := by
  funext b
  rw [Finset.sum_apply]
  simp only [Pi.smul_apply, smul_eq_mul]
  have e : ∀ v : Fin D → ℤ, f (len (node l0 v)) * (c + prod g (node l0 v)) * node l0 v b =
      c * (f (len (node l0 v)) * node l0 v b) + ∑ a, g a * (f (len (node l0 v)) * (node l0 v a * node l0 v b)) := by
    intro v
    unfold prod
    rw [mul_add, add_mul, Finset.mul_sum, Finset.sum_mul]
    congr 1
    · ring
    · exact Finset.sum_congr rfl (fun a _ => by ring)
  simp only [e]
  rw [Finset.sum_add_distrib, ← Finset.mul_sum, lat_odd h f b, mul_zero, zero_add, Finset.sum_comm]
  simp only [← Finset.mul_sum, lat_second h hD f]
  rw [Finset.sum_congr rfl (fun a _ => show g a * (if a = b then (∑ v ∈ lat D re h, f (len (node l0 v)) * len (node l0 v) ^ 2) / D else 0) =
    if a = b then (∑ v ∈ lat D re h, f (len (node l0 v)) * len (node l0 v) ^ 2) / D * g a else 0 by split <;> ring)]
  rw [Finset.sum_ite_eq' Finset.univ b]
  simp

/-- Constants of the constructor. -/
theorem mk_lattice {cfg : Config} {e : EnvArgs ℝ D} {env : Env ℝ D} (he : Env.mk? cfg e = some env) (h : 0 < env.l0) :
    env.n0 = ∑ v ∈ lat D env.re h, weight env.re (len (node env.l0 v)) ∧
    env.lambda = (∑ v ∈ lat D env.re h, weight env.re (len (node env.l0 v)) * len (node env.l0 v) ^ 2) / env.n0 := by
  obtain ⟨v1, -, -, -, -, v6, -, -⟩ := envmk_real he
  have hl : 0 < e.l0 := by rw [← v6]; exact h
  obtain ⟨h1, h2, -, -⟩ := C28_n0_is_lattice_density he hl
  have hsup : ∀ g : (Fin D → ℤ) → ℝ, (∀ v, v ≠ 0 → W (e.l0 * intNorm v) (e.reByL0 * e.l0) = 0 → g v = 0) →
      (∑ᶠ v : Fin D → ℤ, if v = 0 then 0 else g v) = ∑ v ∈ lat D env.re h, g v := by
    intro g hg
    rw [finsum_eq_sum_of_support_subset (s := lat D env.re h)]
    · refine Finset.sum_congr rfl (fun v hv => ?_)
      rw [if_neg ((mem_lat h).mp hv).1]
    · intro v hv
      rw [Finset.mem_coe, mem_lat]
      rw [Function.mem_support] at hv
      have h0 : v ≠ 0 := by intro hc; rw [if_pos hc] at hv; exact hv rfl
      refine ⟨h0, ?_⟩
      by_contra hc
      apply hv
      rw [if_neg h0]
      apply hg v h0
      rw [W_real, if_neg]
      rintro ⟨-, k⟩
      rw [len_node h, v6, v1] at hc
      exact hc k
  constructor
  · rw [h1, hsup _ (fun v _ hv => hv)]
    refine Finset.sum_congr rfl (fun v _ => ?_)
    rw [weight_eq, len_node h, v6, v1]
  · rw [h2, hsup _ (fun v _ hv => by rw [hv, mul_zero])]
    congr 1
    refine Finset.sum_congr rfl (fun v _ => ?_)
    rw [weight_eq, len_node h, v6, v1]
    ring

end OpenMps.Ref
