import Verif.Lemmas.Real
import Verif.Props.Density
import Mathlib.Algebra.BigOperators.Finprod

/-! # Property C28 (the reference density) -/

set_option linter.unusedSectionVars false

namespace OpenMps

variable {D : Nat}

/-- Euclidean length of an integer vector. -/
noncomputable def intNorm (v : Fin D → ℤ) : ℝ := Real.sqrt (∑ a, (v a : ℝ) ^ 2)

theorem mem_latticeRange (r k : Int) : k ∈ latticeRange r ↔ -r ≤ k ∧ k < r := by
  unfold latticeRange
  rw [List.mem_map]
  constructor
  · rintro ⟨n, hn, rfl⟩
    rw [List.mem_range] at hn
    omega
  · rintro ⟨h1, h2⟩
    exact ⟨(k + r).toNat, by rw [List.mem_range]; omega, by omega⟩

theorem nodup_latticeRange (r : Int) : (latticeRange r).Nodup := by
  unfold latticeRange
  refine List.Nodup.map ?_ List.nodup_range
  intro a b h
  simp only at h
  omega

theorem mem_latticePts (r : Int) : ∀ {D : Nat} (v : Fin D → Int), v ∈ latticePts D r ↔ ∀ a, -r ≤ v a ∧ v a < r
  | 0, v => by
    unfold latticePts
    rw [List.mem_singleton]
    exact ⟨fun _ a => a.elim0, fun _ => funext fun a => a.elim0⟩
  | D + 1, v => by
    unfold latticePts
    rw [List.mem_flatMap]
    constructor
    · rintro ⟨i, hi, hv⟩
      rw [List.mem_map] at hv
      obtain ⟨u, hu, rfl⟩ := hv
      rw [mem_latticeRange] at hi
      rw [mem_latticePts] at hu
      intro a
      refine Fin.cases ?_ ?_ a
      · simpa using hi
      · intro b; simpa using hu b
    · intro h
      refine ⟨v 0, (mem_latticeRange _ _).mpr (h 0), List.mem_map.mpr ⟨fun b => v b.succ, (mem_latticePts _ _).mpr (fun b => h b.succ), ?_⟩⟩
      exact Fin.cons_self_tail v

theorem nodup_latticePts (r : Int) : ∀ D : Nat, (latticePts D r).Nodup
  | 0 => List.nodup_singleton _
  | D + 1 => by
    unfold latticePts
    rw [List.nodup_flatMap]
    constructor
    · intro i _
      refine (nodup_latticePts r D).map ?_
      intro u v h
      exact (Fin.cons_inj.mp h).2
    · refine List.Pairwise.imp ?_ (nodup_latticeRange r)
      intro a b hab
      rw [Function.onFun, List.disjoint_left]
      intro x hx hy
      rw [List.mem_map] at hx hy
      obtain ⟨u, -, rfl⟩ := hx
      obtain ⟨v, -, h⟩ := hy
      exact hab (Fin.cons_inj.mp h).1.symm

theorem norm2_lattice (l0 : ℝ) (hl : 0 < l0) (v : Fin D → Int) :
    norm2 (fun a => Scalar.ofInt (v a) * l0 : Vec ℝ D) = l0 * intNorm v := by
  rw [norm2_real, dot_real]
  unfold intNorm
  have : ∑ a, ((fun a => Scalar.ofInt (v a) * l0 : Vec ℝ D) a * (fun a => Scalar.ofInt (v a) * l0 : Vec ℝ D) a) = l0 ^ 2 * ∑ a, (v a : ℝ) ^ 2 := by
    rw [Finset.mul_sum]
    apply Finset.sum_congr rfl
    intro a _
    simp only [ofInt_real]
    ring
  rw [this, Real.sqrt_mul (sq_nonneg _), Real.sqrt_sq hl.le]

theorem latticeStep_eq (l0 re : ℝ) (hl : 0 < l0) (acc : ℝ × ℝ) (v : Fin D → Int) :
    latticeStep l0 re acc v = (acc.1 + W (l0 * intNorm v) re, acc.2 + (l0 * intNorm v) ^ 2 * W (l0 * intNorm v) re) := by
  unfold latticeStep
  split
  · rename_i h
    have : intNorm v = 0 := by unfold intNorm; simp [h]
    rw [this, mul_zero, W_real, if_neg (by simp)]
    simp
  · simp only
    rw [norm2_lattice l0 hl v]
    split
    · congr 1; congr 1; ring
    · rename_i h
      rw [lt_real_iff] at h
      rw [W_real, if_neg (fun hc => h hc.2)]
      simp

theorem latticeFold (l0 re : ℝ) (hl : 0 < l0) (l : List (Fin D → Int)) (z : ℝ × ℝ) :
    l.foldl (latticeStep l0 re) z = (z.1 + (l.map (fun v => W (l0 * intNorm v) re)).sum,
      z.2 + (l.map (fun v => (l0 * intNorm v) ^ 2 * W (l0 * intNorm v) re)).sum) := by
  induction l generalizing z with
  | nil => simp
  | cons a l ih => rw [List.foldl_cons, ih, latticeStep_eq l0 re hl]; simp [add_assoc]

theorem intNorm_nonneg (v : Fin D → ℤ) : 0 ≤ intNorm v := Real.sqrt_nonneg _

theorem abs_le_intNorm (v : Fin D → ℤ) (a : Fin D) : |(v a : ℝ)| ≤ intNorm v := by
  unfold intNorm
  rw [← Real.sqrt_sq_eq_abs]
  exact Real.sqrt_le_sqrt (Finset.single_le_sum (f := fun a => (v a : ℝ) ^ 2) (fun _ _ => sq_nonneg _) (Finset.mem_univ a))

theorem W_scale {l0 : ℝ} (hl : 0 < l0) (r R : ℝ) : W (l0 * r) (R * l0) = W r R := by
  rw [W_real, W_real]
  by_cases h : 0 < r ∧ r < R
  · rw [if_pos h, if_pos ⟨mul_pos hl h.1, by rw [mul_comm]; exact mul_lt_mul_of_pos_right h.2 hl⟩]
    rw [mul_comm l0, mul_div_mul_right _ _ hl.ne']
  · rw [if_neg h, if_neg]
    rintro ⟨h1, h2⟩
    refine h ⟨(mul_pos_iff_of_pos_left hl).mp h1, ?_⟩
    rw [mul_comm] at h2
    exact lt_of_mul_lt_mul_right h2 hl.le

/-- A lattice point with a non-zero weight is among the visited ones. -/
theorem visited_of_weight {R : ℝ} {range : Int} (hr : R ≤ range) (v : Fin D → ℤ) (h : W (intNorm v) R ≠ 0) :
    v ∈ latticePts D range := by
  rw [mem_latticePts]
  intro a
  rw [W_real] at h
  have hlt : 0 < intNorm v ∧ intNorm v < R := by
    by_contra hc; rw [if_neg hc] at h; exact h rfl
  have h1 := abs_le_intNorm v a
  have h2 : |(v a : ℝ)| < range := lt_of_le_of_lt h1 (lt_of_lt_of_le hlt.2 hr)
  rw [abs_lt] at h2
  constructor
  · have : (-range : ℝ) < v a := h2.1
    have : -range < v a := by exact_mod_cast this
    omega
  · exact_mod_cast h2.2

theorem list_sum_eq_finsum {R : ℝ} {range : Int} (hr : R ≤ range) (f : (Fin D → ℤ) → ℝ)
    (hf : ∀ v, f v ≠ 0 → W (intNorm v) R ≠ 0) : ((latticePts D range).map f).sum = ∑ᶠ v : Fin D → ℤ, f v := by
  classical
  rw [finsum_eq_sum_of_support_subset (s := (latticePts D range).toFinset)]
  · rw [List.sum_toFinset _ (nodup_latticePts range D)]
  · intro v hv
    rw [Function.mem_support] at hv
    rw [Finset.mem_coe, List.mem_toFinset]
    exact visited_of_weight hr v (hf v hv)

/-- **C28.**  The constructor computes `N0()` as the weight sum over *all* other points of the infinite lattice of pitch `l_0`
and `Lambda()` as their weighted mean square distance (the loops that leave out the index `+range` and the test `r < r_e` lose nothing);
`N0()` depends on `r_e / l_0` only, and `Lambda()` is `l_0^2` times a number that depends on `r_e / l_0` only. -/
theorem C28_n0_is_lattice_density {cfg : Config} {e : EnvArgs ℝ D} {env : Env ℝ D} (h : Env.mk? cfg e = some env) (hl : 0 < e.l0) :
    env.n0 = (∑ᶠ v : Fin D → ℤ, if v = 0 then 0 else W (e.l0 * intNorm v) (e.reByL0 * e.l0)) ∧
    env.lambda = (∑ᶠ v : Fin D → ℤ, if v = 0 then 0 else (e.l0 * intNorm v) ^ 2 * W (e.l0 * intNorm v) (e.reByL0 * e.l0)) / env.n0 ∧
    env.n0 = (∑ᶠ v : Fin D → ℤ, W (intNorm v) e.reByL0) ∧
    env.lambda = e.l0 ^ 2 * ((∑ᶠ v : Fin D → ℤ, intNorm v ^ 2 * W (intNorm v) e.reByL0) / ∑ᶠ v : Fin D → ℤ, W (intNorm v) e.reByL0) := by
  have hz : ∀ R : ℝ, W (intNorm (0 : Fin D → ℤ)) R = 0 := by
    intro R
    have : intNorm (0 : Fin D → ℤ) = 0 := by unfold intNorm; simp
    rw [this, W_real, if_neg (by simp)]
  unfold Env.mk? at h
  have hceil : Scalar.ceilIdx e.reByL0 = some ⌈e.reByL0⌉ := rfl
  rw [hceil] at h
  simp only [Option.some.injEq] at h
  have hr : e.reByL0 ≤ (⌈e.reByL0⌉ : ℤ) := Int.le_ceil _
  have e1 : env.n0 = ∑ᶠ v : Fin D → ℤ, W (intNorm v) e.reByL0 := by
    rw [← h, latticeFold _ _ hl]
    simp only
    rw [← list_sum_eq_finsum hr _ (fun v hv => hv)]
    rw [zero_add]
    congr 2
    funext v
    exact W_scale hl _ _
  have e2 : env.lambda = e.l0 ^ 2 * ((∑ᶠ v : Fin D → ℤ, intNorm v ^ 2 * W (intNorm v) e.reByL0) / ∑ᶠ v : Fin D → ℤ, W (intNorm v) e.reByL0) := by
    rw [← e1]
    have e3 : env.lambda = ((latticePts D ⌈e.reByL0⌉).map (fun v => (e.l0 * intNorm v) ^ 2 * W (e.l0 * intNorm v) (e.reByL0 * e.l0))).sum / env.n0 := by
      rw [← h]
      simp only
      rw [latticeFold _ _ hl]
      change (0 + _) / _ = _
      rw [zero_add]
    rw [e3, ← list_sum_eq_finsum hr (fun v => intNorm v ^ 2 * W (intNorm v) e.reByL0) (fun v hv => right_ne_zero_of_mul hv), ← mul_div_assoc]
    congr 1
    rw [← List.sum_map_mul_left]
    congr 2
    funext v
    rw [W_scale hl, mul_pow, mul_assoc]
  have h1 : ∀ v : Fin D → ℤ, (if v = 0 then 0 else W (e.l0 * intNorm v) (e.reByL0 * e.l0)) = W (intNorm v) e.reByL0 := by
    intro v
    split
    · rename_i hv; rw [hv, hz]
    · exact W_scale hl _ _
  have h2 : ∀ v : Fin D → ℤ, (if v = 0 then 0 else (e.l0 * intNorm v) ^ 2 * W (e.l0 * intNorm v) (e.reByL0 * e.l0))
      = e.l0 ^ 2 * (intNorm v ^ 2 * W (intNorm v) e.reByL0) := by
    intro v
    split
    · rename_i hv; rw [hv, hz]; simp
    · rw [W_scale hl]; ring
  refine ⟨?_, ?_, e1, e2⟩
  · simp only [h1]; exact e1
  · simp only [h2]
    rw [e2, ← e1, ← mul_div_assoc]
    congr 1
    rw [mul_finsum]

theorem W_lattice_finite (R : ℝ) : (Function.support (fun v : Fin D → ℤ => W (intNorm v) R)).Finite := by
  refine Set.Finite.subset ((latticePts D ⌈R⌉).toFinset.finite_toSet) ?_
  intro v hv
  rw [Finset.mem_coe, List.mem_toFinset]
  exact visited_of_weight (Int.le_ceil _) v hv

theorem one_le_intNorm {v : Fin D → ℤ} (h : v ≠ 0) : 1 ≤ intNorm v := by
  obtain ⟨a, ha⟩ := Function.ne_iff.mp h
  refine le_trans ?_ (abs_le_intNorm v a)
  have : (1 : ℤ) ≤ |v a| := Int.one_le_abs ha
  have h2 : ((1 : ℤ) : ℝ) ≤ ((|v a| : ℤ) : ℝ) := by exact_mod_cast this
  rw [Int.cast_abs, Int.cast_one] at h2
  exact h2

/-- **C28**, positivity: `N0()` is positive exactly when `r_e > l_0`; then `Lambda()` is positive, too (at least `l_0^2` and less than `r_e^2`). -/
theorem C28_n0_positive_iff {cfg : Config} {e : EnvArgs ℝ D} {env : Env ℝ D} (h : Env.mk? cfg e = some env) (hl : 0 < e.l0) (hD : 0 < D) :
    (0 < env.n0 ↔ 1 < e.reByL0) ∧ 0 ≤ env.n0 ∧
    (1 < e.reByL0 → e.l0 ^ 2 ≤ env.lambda ∧ env.lambda < (e.reByL0 * e.l0) ^ 2) := by
  obtain ⟨-, -, h1, h2⟩ := C28_n0_is_lattice_density h hl
  have hfin := W_lattice_finite (D := D) e.reByL0
  have hn0 : 0 ≤ env.n0 := by rw [h1]; exact finsum_nonneg (fun v => W_nonneg _ _)
  -- the unit vector
  let v0 : Fin D → ℤ := fun a => if a = ⟨0, hD⟩ then 1 else 0
  have hv0 : intNorm v0 = 1 := by
    unfold intNorm
    have : ∑ a, (v0 a : ℝ) ^ 2 = 1 := by
      rw [Finset.sum_eq_single (⟨0, hD⟩ : Fin D)]
      · simp [v0]
      · intro b _ hb; simp [v0, hb]
      · intro hb; exact absurd (Finset.mem_univ _) hb
    rw [this, Real.sqrt_one]
  have hpos : 1 < e.reByL0 → 0 < env.n0 := by
    intro hR
    rw [h1]
    refine finsum_pos (fun v => W_nonneg _ _) ⟨v0, ?_⟩ hfin
    rw [hv0]
    exact W_pos one_pos hR
  refine ⟨⟨fun hp => ?_, hpos⟩, hn0, fun hR => ?_⟩
  · by_contra hc
    have hc : e.reByL0 ≤ 1 := not_lt.mp hc
    have : env.n0 = 0 := by
      rw [h1]
      have hz : (fun v : Fin D → ℤ => W (intNorm v) e.reByL0) = fun _ => 0 := by
        funext v
        rw [W_real, if_neg]
        rintro ⟨k1, k2⟩
        have : v ≠ 0 := by
          intro hv
          rw [hv] at k1
          unfold intNorm at k1
          simp at k1
        have := one_le_intNorm this
        linarith
      rw [hz, finsum_zero]
    linarith
  · have hp := hpos hR
    have hsq : ∀ v : Fin D → ℤ, W (intNorm v) e.reByL0 ≤ intNorm v ^ 2 * W (intNorm v) e.reByL0 ∧
        intNorm v ^ 2 * W (intNorm v) e.reByL0 ≤ e.reByL0 ^ 2 * W (intNorm v) e.reByL0 ∧
        (W (intNorm v) e.reByL0 ≠ 0 → intNorm v ^ 2 * W (intNorm v) e.reByL0 < e.reByL0 ^ 2 * W (intNorm v) e.reByL0) := by
      intro v
      by_cases hw : W (intNorm v) e.reByL0 = 0
      · rw [hw]; simp
      · have hlt : 0 < intNorm v ∧ intNorm v < e.reByL0 := by
          rw [W_real] at hw
          by_contra hc; rw [if_neg hc] at hw; exact hw rfl
        have hv : v ≠ 0 := by
          rintro rfl
          have := hlt.1
          unfold intNorm at this
          simp at this
        have h1 := one_le_intNorm hv
        have hwp := W_pos hlt.1 hlt.2
        have hss : intNorm v ^ 2 < e.reByL0 ^ 2 := pow_lt_pow_left₀ hlt.2 hlt.1.le (by norm_num)
        have h1s : 1 ≤ intNorm v ^ 2 := one_le_pow₀ h1
        exact ⟨by nlinarith, by nlinarith, fun _ => by nlinarith⟩
    have hf2 : (Function.support (fun v : Fin D → ℤ => intNorm v ^ 2 * W (intNorm v) e.reByL0)).Finite :=
      hfin.subset (fun v hv => right_ne_zero_of_mul hv)
    have hf3 : (Function.support (fun v : Fin D → ℤ => e.reByL0 ^ 2 * W (intNorm v) e.reByL0)).Finite :=
      hfin.subset (fun v hv => right_ne_zero_of_mul hv)
    have a1 : (∑ᶠ v : Fin D → ℤ, W (intNorm v) e.reByL0) ≤ ∑ᶠ v : Fin D → ℤ, intNorm v ^ 2 * W (intNorm v) e.reByL0 :=
by
      have hz := finsum_nonneg (fun v : Fin D → ℤ => sub_nonneg.mpr (hsq v).1)
      rw [finsum_sub_distrib hf2 hfin] at hz
      linarith
    have a2 : (∑ᶠ v : Fin D → ℤ, intNorm v ^ 2 * W (intNorm v) e.reByL0) < e.reByL0 ^ 2 * ∑ᶠ v : Fin D → ℤ, W (intNorm v) e.reByL0 := by
      rw [mul_finsum]
      have hz := finsum_pos (f := fun v : Fin D → ℤ => e.reByL0 ^ 2 * W (intNorm v) e.reByL0 - intNorm v ^ 2 * W (intNorm v) e.reByL0)
        (fun v => sub_nonneg.mpr (hsq v).2.1) ⟨v0, sub_pos.mpr ((hsq v0).2.2 (by rw [hv0]; exact (W_pos one_pos hR).ne'))⟩
        (hfin.subset (fun v hv => by
          intro hw
          apply hv
          simp only at hw ⊢
          rw [hw]; simp))
      rw [finsum_sub_distrib hf3 hf2] at hz
      linarith
    rw [h1] at hp
    rw [h2]
    have hl2 : 0 < e.l0 ^ 2 := by positivity
    constructor
    · refine le_mul_of_one_le_right hl2.le ?_
      rw [le_div_iff₀ hp]; linarith
    · rw [mul_pow, mul_comm]
      refine mul_lt_mul_of_pos_right ?_ hl2
      rw [div_lt_iff₀ hp]; exact a2

/-- A concrete case: pitch 1/10 and `r_e = 2.4 l_0` in two dimensions. -/
noncomputable def latticeArgs : EnvArgs ℝ 2 :=
  { maxDt := 1 / 100, courant := 1 / 10, g := 98 / 10, rho := 1000, nu := 0, surfaceRatio := 95 / 100, reByL0 := 24 / 10, c := 1500, l0 := 1 / 10,
    minX := ![0, 0], maxX := ![1, 1] }

example : ∃ env, Env.mk? Config.default latticeArgs = some env ∧ 0 < env.n0 := by
  have h : ∃ env, Env.mk? Config.default latticeArgs = some env := ⟨_, rfl⟩
  obtain ⟨env, h⟩ := h
  refine ⟨env, h, (C28_n0_positive_iff h ?_ (by norm_num)).1.mpr ?_⟩
  · change (0 : ℝ) < 1 / 10; norm_num
  · change (1 : ℝ) < 24 / 10; norm_num

end OpenMps
