import Verif.Lemmas.BenchmarkStep

/-! # The first step of the benchmarks: a particle at the surface of the water -/

set_option linter.unusedSectionVars false

namespace OpenMps

open Ref

/-- Less than three quarters of the neighbours on a lattice are not above. -/
theorem quarter_above {l0 re : ℝ} (hl : 0 < l0) :
    ∑ v ∈ lat 2 re hl, weight re (len (node l0 v)) ≤ 4 * ∑ v ∈ lat 2 re hl, (if 0 < v 1 then weight re (len (node l0 v)) else 0) := by
  classical
  have hw : ∀ r, 0 ≤ weight re r := fun r => by rw [weight_eq]; exact W_nonneg _ _
  have hs : ∀ (v : Fin 2 → ℤ) (a : Fin 2), (0 < node l0 v a ↔ 0 < v a) := fun v a => by
    unfold node; rw [mul_pos_iff_of_pos_left hl]; norm_cast
  have hn : ∀ (v : Fin 2 → ℤ) (a : Fin 2), (0 < -node l0 v a ↔ v a < 0) := fun v a => by
    unfold node; rw [← mul_neg, mul_pos_iff_of_pos_left hl, neg_pos]; norm_cast
  let F : (Fin 2 → ℝ) → ℝ := fun d => if 0 < d 1 then weight re (len d) else 0
  have h0 : ∑ v ∈ lat 2 re hl, F (node l0 v) = ∑ v ∈ lat 2 re hl, (if 0 < v 1 then weight re (len (node l0 v)) else 0) := by
    refine Finset.sum_congr rfl (fun v _ => ?_)
    simp only [F, hs]
  have hone : ∀ a : Fin 2, (![1, 1] : Fin 2 → ℤ) a ^ 2 = 1 := by intro a; fin_cases a <;> rfl
  have hneg : ∀ a : Fin 2, (![1, -1] : Fin 2 → ℤ) a ^ 2 = 1 := by intro a; fin_cases a <;> rfl
  have h1 : ∑ v ∈ lat 2 re hl, F (node l0 v) = ∑ v ∈ lat 2 re hl, (if v 1 < 0 then weight re (len (node l0 v)) else 0) := by
    rw [lat_sum_symm hl (Equiv.refl _) ![1, -1] hneg F]
    refine Finset.sum_congr rfl (fun v _ => ?_)
    simp only [F]
    rw [len_symm (Equiv.refl (Fin 2)) ![1, -1] hneg]
    simp [hn]
  have h2 : ∑ v ∈ lat 2 re hl, F (node l0 v) = ∑ v ∈ lat 2 re hl, (if 0 < v 0 then weight re (len (node l0 v)) else 0) := by
    rw [lat_sum_symm hl (Equiv.swap 0 1) ![1, 1] hone F]
    refine Finset.sum_congr rfl (fun v _ => ?_)
    simp only [F]
    rw [len_symm (Equiv.swap (0 : Fin 2) 1) ![1, 1] hone]
    simp [hs]
  have h3 : ∑ v ∈ lat 2 re hl, F (node l0 v) = ∑ v ∈ lat 2 re hl, (if v 0 < 0 then weight re (len (node l0 v)) else 0) := by
    rw [lat_sum_symm hl (Equiv.swap 0 1) ![1, -1] hneg F]
    refine Finset.sum_congr rfl (fun v _ => ?_)
    simp only [F]
    rw [len_symm (Equiv.swap (0 : Fin 2) 1) ![1, -1] hneg]
    simp [hn]
  rw [← h0]
  have e4 : 4 * ∑ v ∈ lat 2 re hl, F (node l0 v) = ∑ v ∈ lat 2 re hl, ((if 0 < v 1 then weight re (len (node l0 v)) else 0) + (if v 1 < 0 then weight re (len (node l0 v)) else 0) +
      (if 0 < v 0 then weight re (len (node l0 v)) else 0) + (if v 0 < 0 then weight re (len (node l0 v)) else 0)) := by
    rw [Finset.sum_add_distrib, Finset.sum_add_distrib, Finset.sum_add_distrib, ← h0, ← h1, ← h2, ← h3]; ring
  rw [e4]
  refine Finset.sum_le_sum (fun v hv => ?_)
  have hv0 := ((mem_lat hl).mp hv).1
  have := hw (len (node l0 v))
  have hne : v 0 ≠ 0 ∨ v 1 ≠ 0 := by
    by_contra hc
    rw [not_or, not_not, not_not] at hc
    apply hv0
    funext a
    revert a
    exact Fin.forall_fin_two.mpr hc
  have i1 : ∀ p : Prop, ∀ [Decidable p], 0 ≤ (if p then weight re (len (node l0 v)) else 0) := by intro p _; split <;> linarith
  rcases hne with h | h
  · rcases lt_or_gt_of_ne h with h | h
    · rw [if_pos h]; linarith [i1 (0 < v 1), i1 (v 1 < 0), i1 (0 < v 0)]
    · rw [if_pos h]; linarith [i1 (0 < v 1), i1 (v 1 < 0), i1 (v 0 < 0)]
  · rcases lt_or_gt_of_ne h with h | h
    · rw [if_pos h]; linarith [i1 (0 < v 1), i1 (v 0 < 0), i1 (0 < v 0)]
    · rw [if_pos h]; linarith [i1 (v 0 < 0), i1 (v 1 < 0), i1 (0 < v 0)]

/-- The reference density is at most the number of places times the largest weight. -/
theorem lat_bound {l0 R : ℝ} (hl : 0 < l0) (hR : 1 < R) :
    ∑ v ∈ lat 2 (R * l0) hl, weight (R * l0) (len (node l0 v)) ≤ (2 * ⌈R⌉ + 1) ^ 2 * (R - 1) := by
  classical
  have hcard : (lat 2 (R * l0) hl).card ≤ (Finset.Icc (-⌈R⌉) ⌈R⌉ ×ˢ Finset.Icc (-⌈R⌉) ⌈R⌉).card := by
    refine Finset.card_le_card_of_injOn (fun v => (v 0, v 1)) ?_ ?_
    · intro v hv
      obtain ⟨-, h1⟩ := (mem_lat hl).mp hv
      rw [len_node hl, mul_comm, mul_lt_mul_iff_left₀ hl] at h1
      have hb : ∀ a, -⌈R⌉ ≤ v a ∧ v a ≤ ⌈R⌉ := by
        intro a
        have h2 := abs_le_intNorm v a
        have h3 : |(v a : ℝ)| < ⌈R⌉ := lt_of_le_of_lt h2 (lt_of_lt_of_le h1 (Int.le_ceil _))
        rw [← Int.cast_abs] at h3
        have h4 : |v a| < ⌈R⌉ := by exact_mod_cast h3
        have := abs_lt.mp h4
        omega
      simp only [Finset.coe_product, Set.mem_prod, Finset.coe_Icc, Set.mem_Icc]
      exact ⟨hb 0, hb 1⟩
    · intro v _ w _ h
      injection h with h0 h1
      funext a
      revert a
      exact Fin.forall_fin_two.mpr ⟨h0, h1⟩
  have hC : 0 ≤ ⌈R⌉ := Int.ceil_nonneg (by linarith)
  have hbox : ((Finset.Icc (-⌈R⌉) ⌈R⌉ ×ˢ Finset.Icc (-⌈R⌉) ⌈R⌉).card : ℝ) = (2 * ⌈R⌉ + 1) ^ 2 := by
    rw [Finset.card_product, Int.card_Icc]
    have : ((⌈R⌉ + 1 - -⌈R⌉).toNat : ℝ) = 2 * ⌈R⌉ + 1 := by
      have h5 : ((⌈R⌉ + 1 - -⌈R⌉).toNat : ℤ) = 2 * ⌈R⌉ + 1 := by omega
      exact_mod_cast h5
    push_cast
    rw [this]; ring
  have hw : ∀ v ∈ lat 2 (R * l0) hl, weight (R * l0) (len (node l0 v)) ≤ R - 1 := by
    intro v hv
    obtain ⟨h0, h1⟩ := (mem_lat hl).mp hv
    rw [len_node hl] at h1 ⊢
    have h2 : 1 ≤ intNorm v := one_le_intNorm h0
    have h3 : 0 < l0 * intNorm v := by nlinarith
    unfold weight
    rw [if_pos ⟨h3, h1⟩]
    have : R * l0 / (l0 * intNorm v) ≤ R := by
      rw [div_le_iff₀ h3]
      nlinarith [mul_nonneg (mul_pos (by linarith : 0 < R) hl).le (by linarith : 0 ≤ intNorm v - 1)]
    linarith
  calc _ ≤ ((lat 2 (R * l0) hl).card : ℝ) * (R - 1) := by
        rw [← nsmul_eq_mul]; exact Finset.sum_le_card_nsmul _ _ _ hw
    _ ≤ _ := by
      rw [← hbox]
      exact mul_le_mul_of_nonneg_right (by exact_mod_cast hcard) (by linarith)

/-- A water particle at the top, far from everything that does not fall, with water below. -/
structure Anchor (sites : List Site) (R : ℝ) (I Z : ℤ) : Prop where
  top : ∀ t ∈ sites, t.number = 0 → t.k ≤ Z
  away : ∀ t ∈ sites, t.number ≠ 0 → R ≤ |((t.i - I : ℤ) : ℝ)| ∨ R + 1 ≤ ((Z - t.k : ℤ) : ℝ)
  here : (⟨0, I, Z⟩ : Site) ∈ sites
  below : (⟨0, I, Z - 1⟩ : Site) ∈ sites

section
variable {cfg : Config} {b : BenchParams ℝ} {sites : List Site} {env : Env ℝ 2} {s0 s : State ℝ 2 Unit} {dt : ℝ} {I Z : ℤ}

/-- The particles near the anchor. -/
theorem anchor_near (hcg : cfg.centralGravity = false) (hl : 0 < b.l0) (hB : 0 < b.block) (h : BenchStart cfg b sites env s0 s)
    (hg : GoodStart b.l0 b.block b.lo b.hi sites) (hA : Anchor sites b.reByL0 I Z) (_hd0 : 0 ≤ b.g * dt ^ 2) (hd1 : b.g * dt ^ 2 < b.l0) {K : ℕ} (hK : K < sites.length)
    (hKs : sites[K] = ⟨0, I, Z⟩) {j : ℕ} (hj : j ∈ (setting (benchParams cfg b sites) s dt).near ((setting (benchParams cfg b sites) s dt).predict (scene s)).x K) :
    ∃ hj' : j < sites.length, ((setting (benchParams cfg b sites) s dt).predict (scene s)).x j - ((setting (benchParams cfg b sites) s dt).predict (scene s)).x K =
        node b.l0 ![sites[j].i - I, sites[j].k - Z] ∧ sites[j].k ≤ Z ∧ j ≠ K ∧ len (node b.l0 ![sites[j].i - I, sites[j].k - Z]) < env.re := by
  unfold Setting.near at hj
  rw [Finset.mem_filter, Finset.mem_range, bs_n h] at hj
  obtain ⟨hj', hne, -, -, h4⟩ := hj
  rw [bs_predict hcg hB h hg hj', bs_predict hcg hB h hg hK] at h4 ⊢
  change _ < s.env.re at h4
  rw [(start_env h).1] at h4
  have hre := (start_vals h).2.1
  have hn : sites[j].number = 0 := by
    by_contra hc
    obtain ⟨a0, a1⟩ := abs_le_len (fallen b.l0 (b.g * dt ^ 2) sites[j] - fallen b.l0 (b.g * dt ^ 2) sites[K])
    replace a0 := lt_of_le_of_lt a0 h4
    replace a1 := lt_of_le_of_lt a1 h4
    rw [hKs] at a0 a1
    simp only [Pi.sub_apply, fallen, Matrix.cons_val_zero, Matrix.cons_val_one, Matrix.cons_val_fin_one, if_neg hc, if_true] at a0 a1
    rcases hA.away _ (List.getElem_mem hj') hc with ha | ha
    · rw [← sub_mul, abs_mul, abs_of_pos hl] at a0
      push_cast at ha
      have := mul_le_mul_of_nonneg_right ha hl.le
      linarith
    · have h5 := neg_abs_le ((sites[j].k : ℝ) * b.l0 - 0 - (Z * b.l0 - b.g * dt ^ 2))
      push_cast at ha
      have := mul_le_mul_of_nonneg_right ha hl.le
      nlinarith
  have e : fallen b.l0 (b.g * dt ^ 2) sites[j] - fallen b.l0 (b.g * dt ^ 2) sites[K] = node b.l0 ![sites[j].i - I, sites[j].k - Z] := by
    rw [hKs]
    funext a
    match a with
    | 0 => simp only [Pi.sub_apply, fallen, node, Matrix.cons_val_zero]; push_cast; ring
    | 1 => simp only [Pi.sub_apply, fallen, node, Matrix.cons_val_one, hn, if_true]; push_cast; ring
  exact ⟨hj', e, hA.top _ (List.getElem_mem hj') hn, hne, by rw [← e]; exact h4⟩

theorem anchor_density (hcg : cfg.centralGravity = false) (hl : 0 < b.l0) (hB : 0 < b.block) (h : BenchStart cfg b sites env s0 s)
    (hg : GoodStart b.l0 b.block b.lo b.hi sites) (hA : Anchor sites b.reByL0 I Z) (hd0 : 0 ≤ b.g * dt ^ 2) (hd1 : b.g * dt ^ 2 < b.l0) {K : ℕ} (hK : K < sites.length)
    (hKs : sites[K] = ⟨0, I, Z⟩) :
    4 * (setting (benchParams cfg b sites) s dt).density ((setting (benchParams cfg b sites) s dt).predict (scene s)).x K ≤ 3 * env.n0 := by
  classical
  set S := setting (benchParams cfg b sites) s dt with hS
  have hl' : 0 < env.l0 := by rw [(start_vals h).1]; exact hl
  have hel := (start_vals h).1
  have hw : ∀ r, 0 ≤ weight env.re r := fun r => by rw [weight_eq]; exact W_nonneg _ _
  have hn0 := (mk_lattice h.1 hl').1
  have hq := quarter_above (re := env.re) hl'
  rw [← hn0] at hq
  let place : ℕ → Fin 2 → ℤ := fun j => ![(sites.getD j ⟨0, 0, 0⟩).i - I, (sites.getD j ⟨0, 0, 0⟩).k - Z]
  have hpl : ∀ j (hj : j < sites.length), place j = ![sites[j].i - I, sites[j].k - Z] := by
    intro j hj
    simp only [place, getD_site hj]
  have hden : S.density (S.predict (scene s)).x K ≤ ∑ v ∈ (lat 2 env.re hl').filter (fun v => ¬ 0 < v 1), weight env.re (len (node env.l0 v)) := by
    unfold Setting.density
    have he : S.env.re = env.re := by change s.env.re = _; rw [(start_env h).1]
    rw [he]
    have : ∀ j ∈ S.near (S.predict (scene s)).x K, weight env.re (len ((S.predict (scene s)).x j - (S.predict (scene s)).x K)) = weight env.re (len (node env.l0 (place j))) := by
      intro j hj
      obtain ⟨hj', e, -⟩ := anchor_near hcg hl hB h hg hA hd0 hd1 hK hKs hj
      rw [e, hpl j hj', hel]
    rw [Finset.sum_congr rfl this]
    rw [← Finset.sum_image (s := S.near (S.predict (scene s)).x K) (g := place) (f := fun v => weight env.re (len (node env.l0 v)))]
    · refine Finset.sum_le_sum_of_subset_of_nonneg ?_ (fun _ _ _ => hw _)
      intro v hv
      obtain ⟨j, hj, rfl⟩ := Finset.mem_image.mp hv
      obtain ⟨hj', e, e1, e2, e3⟩ := anchor_near hcg hl hB h hg hA hd0 hd1 hK hKs hj
      rw [Finset.mem_filter, mem_lat hl', hpl j hj', hel]
      refine ⟨⟨?_, e3⟩, by simp only [Matrix.cons_val_one, Matrix.cons_val_fin_one]; omega⟩
      intro h0
      have q0 := congrFun h0 0
      have q1 := congrFun h0 1
      simp only [Matrix.cons_val_zero, Matrix.cons_val_one, Pi.zero_apply] at q0 q1
      refine e2 (site_apart hg.apart hj' hK ?_ ?_)
      · rw [hKs]; simp only; omega
      · rw [hKs]; simp only; omega
    · intro j hj k hk hjk
      obtain ⟨hj', -⟩ := anchor_near hcg hl hB h hg hA hd0 hd1 hK hKs hj
      obtain ⟨hk', -⟩ := anchor_near hcg hl hB h hg hA hd0 hd1 hK hKs hk
      rw [hpl j hj', hpl k hk'] at hjk
      have q0 := congrFun hjk 0
      have q1 := congrFun hjk 1
      simp only [Matrix.cons_val_zero, Matrix.cons_val_one] at q0 q1
      exact site_apart hg.apart hj' hk' (by omega) (by omega)
  have hsplit := Finset.sum_filter_add_sum_filter_not (lat 2 env.re hl') (fun v => 0 < v 1) (fun v => weight env.re (len (node env.l0 v)))
  rw [← hn0, Finset.sum_filter] at hsplit
  linarith

theorem anchor_offset (hcg : cfg.centralGravity = false) (hl : 0 < b.l0) (hR : 2 ≤ b.reByL0) (hC : 0 ≤ b.courant) (h : BenchStart cfg b sites env s0 s)
    (hg : GoodStart b.l0 b.block b.lo b.hi sites) (hA : Anchor sites b.reByL0 I Z) (hd0 : 0 ≤ b.g * dt ^ 2) (hd1 : b.g * dt ^ 2 < b.l0) {K : ℕ} (hK : K < sites.length)
    (hKs : sites[K] = ⟨0, I, Z⟩) (hn : 0 < env.n0) (hfine : 2⁻¹ ^ 52 * (2 * ⌈b.reByL0⌉ + 1) ^ 2 < b.l0) :
    2⁻¹ ^ 52 < len ((setting (benchParams cfg b sites) s dt).offset ((setting (benchParams cfg b sites) s dt).predict (scene s)).x K) := by
  classical
  set S := setting (benchParams cfg b sites) s dt with hS
  have hl' : 0 < env.l0 := by rw [(start_vals h).1]; exact hl
  have hel := (start_vals h).1
  have hre := (start_vals h).2.1
  have hBl : b.reByL0 * b.l0 ≤ b.block := by
    unfold BenchParams.block
    nlinarith [mul_nonneg (mul_nonneg (by linarith : (0:ℝ) ≤ b.reByL0) hl.le) hC]
  have hB : 0 < b.block := lt_of_lt_of_le (by nlinarith) hBl
  have hw : ∀ r, 0 ≤ weight env.re r := fun r => by rw [weight_eq]; exact W_nonneg _ _
  have hSre : S.env.re = env.re := by change s.env.re = _; rw [(start_env h).1]
  have hSn : S.env.n0 = env.n0 := by change s.env.n0 = _; rw [(start_env h).1]
  refine lt_of_lt_of_le ?_ (abs_le_len _).2
  obtain ⟨k, hk, hks⟩ := List.getElem_of_mem hA.below
  have hadj : k ∈ S.near (S.predict (scene s)).x K := by
    have := bs_adjacent (dt := dt) hcg hl hR hC h hg hd0 hd1 hK hk (by rw [hks]; norm_num) (by rw [hks, hKs]; simp)
    unfold Setting.nearSolid at this
    exact (Finset.mem_filter.mp this).1
  have hsum : ∑ j ∈ S.near (S.predict (scene s)).x K, weight env.re (len ((S.predict (scene s)).x j - (S.predict (scene s)).x K)) * ((S.predict (scene s)).x j 1 - (S.predict (scene s)).x K 1) ≤
      -((b.reByL0 - 1) * b.l0) := by
    have hk0 : weight env.re (len ((S.predict (scene s)).x k - (S.predict (scene s)).x K)) * ((S.predict (scene s)).x k 1 - (S.predict (scene s)).x K 1) = -((b.reByL0 - 1) * b.l0) := by
      obtain ⟨hk', e, -⟩ := anchor_near hcg hl hB h hg hA hd0 hd1 hK hKs hadj
      have e1 : (S.predict (scene s)).x k 1 - (S.predict (scene s)).x K 1 = -b.l0 := by
        have := congrFun e 1
        rw [Pi.sub_apply] at this
        rw [this, hks]
        simp [node]
      have e2 : len ((S.predict (scene s)).x k - (S.predict (scene s)).x K) = b.l0 := by
        rw [e, len_two, hks]
        simp only [node, Matrix.cons_val_zero, Matrix.cons_val_one]
        rw [show (b.l0 * ((I - I : ℤ) : ℝ)) ^ 2 + (b.l0 * ((Z - 1 - Z : ℤ) : ℝ)) ^ 2 = b.l0 ^ 2 by push_cast; ring]
        exact Real.sqrt_sq hl.le
      rw [e1, e2]
      unfold weight
      rw [if_pos ⟨hl, by rw [hre]; nlinarith⟩, hre, mul_div_assoc, div_self hl.ne']
      ring
    rw [← hk0]
    rw [← Finset.add_sum_erase _ _ hadj]
    refine add_le_of_nonpos_right (Finset.sum_nonpos (fun j hj => ?_))
    obtain ⟨hj', e, e1, -⟩ := anchor_near hcg hl hB h hg hA hd0 hd1 hK hKs (Finset.mem_of_mem_erase hj)
    refine mul_nonpos_of_nonneg_of_nonpos (hw _) ?_
    have := congrFun e 1
    rw [Pi.sub_apply] at this
    rw [this]
    simp only [node, Matrix.cons_val_one, Matrix.cons_val_fin_one]
    have : ((sites[j].k - Z : ℤ) : ℝ) ≤ 0 := by exact_mod_cast (by omega : sites[j].k - Z ≤ 0)
    nlinarith
  have hval : S.offset (S.predict (scene s)).x K 1 = 1 / env.n0 *
      ∑ j ∈ S.near (S.predict (scene s)).x K, weight env.re (len ((S.predict (scene s)).x j - (S.predict (scene s)).x K)) * ((S.predict (scene s)).x j 1 - (S.predict (scene s)).x K 1) := by
    unfold Setting.offset
    rw [hSn, hSre, Pi.smul_apply, Finset.sum_apply, smul_eq_mul]
    rfl
  rw [hval]
  have hn1 : env.n0 ≤ (2 * ⌈b.reByL0⌉ + 1) ^ 2 * (b.reByL0 - 1) := by
    have h9 := lat_bound (R := b.reByL0) hl' (by linarith)
    rw [show b.reByL0 * env.l0 = env.re by rw [hel, hre], ← (mk_lattice h.1 hl').1] at h9
    exact h9
  have h10 : 2⁻¹ ^ 52 * env.n0 < (b.reByL0 - 1) * b.l0 := by
    have h11 : (2⁻¹ : ℝ) ^ 52 * env.n0 ≤ 2⁻¹ ^ 52 * ((2 * ⌈b.reByL0⌉ + 1) ^ 2 * (b.reByL0 - 1)) := mul_le_mul_of_nonneg_left hn1 (by positivity)
    have h12 := mul_lt_mul_of_pos_right hfine (by linarith : (0:ℝ) < b.reByL0 - 1)
    linarith
  rw [abs_mul, abs_of_pos (by positivity : 0 < 1 / env.n0), one_div, inv_mul_eq_div, lt_div_iff₀ hn]
  refine lt_of_lt_of_le h10 ?_
  rw [le_abs]
  right
  linarith

/-- The anchor is a surface particle or, with SPP, has a virtual particle. -/
theorem anchor_touch (hcg : cfg.centralGravity = false) (hl : 0 < b.l0) (hR : 2 ≤ b.reByL0) (hC : 0 ≤ b.courant) (h : BenchStart cfg b sites env s0 s)
    (hg : GoodStart b.l0 b.block b.lo b.hi sites) (hA : Anchor sites b.reByL0 I Z) (hd0 : 0 ≤ b.g * dt ^ 2) (hd1 : b.g * dt ^ 2 < b.l0) {K : ℕ} (hK : K < sites.length)
    (hKs : sites[K] = ⟨0, I, Z⟩) (hfine : cfg.spp = true → 2⁻¹ ^ 52 * (2 * ⌈b.reByL0⌉ + 1) ^ 2 < b.l0) (hsurf : cfg.spp = false → 3 / 4 < b.surfaceRatio) :
    (setting (benchParams cfg b sites) s dt).Surface ((setting (benchParams cfg b sites) s dt).predict (scene s)).dens K ∨
    ((setting (benchParams cfg b sites) s dt).Equation ((setting (benchParams cfg b sites) s dt).predict (scene s)) K ∧
      (setting (benchParams cfg b sites) s dt).HasVirtual ((setting (benchParams cfg b sites) s dt).predict (scene s)).x K) := by
  classical
  have hBl : b.reByL0 * b.l0 ≤ b.block := by
    unfold BenchParams.block
    nlinarith [mul_nonneg (mul_nonneg (by linarith : (0:ℝ) ≤ b.reByL0) hl.le) hC]
  have hB : 0 < b.block := lt_of_lt_of_le (by nlinarith) hBl
  have hn0 : 0 < env.n0 := (C28_n0_positive_iff h.1 (by change 0 < b.l0; exact hl) (by norm_num)).1.mpr (by change 1 < b.reByL0; linarith)
  have hd := anchor_density (dt := dt) hcg hl hB h hg hA hd0 hd1 hK hKs
  have hact := (bs_active (dt := dt) hB h hg hK).mpr (by rw [hKs]; norm_num)
  have henv : s.env = env := (start_env h).1
  cases hspp : cfg.spp with
  | false =>
    left
    refine ⟨hspp, ?_⟩
    change (setting (benchParams cfg b sites) s dt).reported _ _ K / s.env.n0 < s.env.surfaceRatio
    unfold Setting.reported
    rw [if_pos hact, if_neg (by change ¬ cfg.spp = true; rw [hspp]; decide), henv]
    have hsr : env.surfaceRatio = b.surfaceRatio := by
      have := h.1
      unfold Env.mk? at this
      simp only [Scalar.ceilIdx, Option.some.injEq] at this
      rw [← this]
      simp [BenchParams.args, hspp]
    rw [hsr, div_lt_iff₀ hn0]
    change (setting (benchParams cfg b sites) s dt).density ((setting (benchParams cfg b sites) s dt).predict (scene s)).x K < _
    nlinarith [mul_lt_mul_of_pos_right (hsurf hspp) hn0]
  | true =>
    right
    refine ⟨⟨?_, hact, ?_⟩, hspp, ?_, ?_⟩
    · rw [bs_n h]; exact hK
    · rintro ⟨h1, -⟩
      change cfg.spp = false at h1
      rw [hspp] at h1
      cases h1
    · change _ < s.env.n0
      rw [henv]
      linarith
    · exact anchor_offset hcg hl hR hC h hg hA hd0 hd1 hK hKs hn0 (hfine hspp)

end

end OpenMps
