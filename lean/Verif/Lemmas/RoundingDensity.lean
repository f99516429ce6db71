import Verif.Lemmas.Rounding
import Verif.Lemmas.Step
import Verif.Spec.Reference

/-! # Rounding errors of distances, weights and number densities -/

set_option linter.unusedSectionVars false

namespace OpenMps

variable {F : Type} [Scalar F] {D : Nat} {ω : Type}

theorem sqrt_rel {v S c : ℝ} (hv : 0 ≤ v) (hS : 0 < S) (h : |v - S| ≤ c * S) : |√v - √S| ≤ c * √S := by
  have h1 := Real.sqrt_pos.mpr hS
  have h2 := Real.sqrt_nonneg v
  have e : (√v - √S) * (√v + √S) = v - S := by
    have e1 := Real.mul_self_sqrt hv
    have e2 := Real.mul_self_sqrt hS.le
    ring_nf
    rw [Real.sq_sqrt hv, Real.sq_sqrt hS.le]
  have h3 : |√v - √S| * (√v + √S) ≤ c * √S * √S := by
    rw [← abs_of_nonneg (add_nonneg h2 h1.le), ← abs_mul, e, mul_assoc, Real.mul_self_sqrt hS.le]
    exact h
  have h4 : |√v - √S| * √S ≤ |√v - √S| * (√v + √S) := mul_le_mul_of_nonneg_left (by linarith) (abs_nonneg _)
  exact le_of_mul_le_mul_right (h4.trans h3) h1

/-- The squared distance and the distance have a small relative error. -/
theorem Rounding.dist_accurate (R : Rounding F) (hR : R.DoubleLike) {ℓ : F} (hL : R.GoodLength ℓ) (hD : D ≤ 3) (x y : Vec F D)
    (hx : ∀ a, R.finite (x a)) (hy : ∀ a, R.finite (y a)) (hΩ' : ∀ a, |R.val (x a) - R.val (y a)| ≤ R.Ω)
    (hd : ∀ a, |R.val (x a) - R.val (y a)| ≤ 2 ^ 22 * R.val ℓ) (hr : R.val ℓ ≤ R.trueDist x y) :
    (R.finite (dot (x - y) (x - y)) ∧ |R.val (dot (x - y) (x - y)) - R.trueDist x y ^ 2| ≤ 36 * e50 * R.trueDist x y ^ 2) ∧
    R.finite (dist x y) ∧ |R.val (dist x y) - R.trueDist x y| ≤ 38 * e50 * R.trueDist x y := by
  have hp := hL.pos
  have he : e50 = 1 / 2 ^ 50 := rfl
  have hlen : (List.finRange D).length = D := List.length_finRange
  have hS : ((List.finRange D).map (fun a => (R.val (x a) - R.val (y a)) ^ 2)).sum = ∑ a, (R.val (x a) - R.val (y a)) ^ 2 := by
    rw [← List.ofFn_eq_map, List.sum_ofFn]
  set S := ∑ a, (R.val (x a) - R.val (y a)) ^ 2 with hSdef
  have S0 : 0 ≤ S := Finset.sum_nonneg (fun a _ => sq_nonneg _)
  have hSle : S ≤ 2 ^ 47 * R.val ℓ ^ 2 := by
    have : S ≤ ∑ a : Fin D, (2 ^ 44 * R.val ℓ ^ 2) := by
      apply Finset.sum_le_sum
      intro a _
      have := pow_le_pow_left₀ (abs_nonneg _) (hd a) 2
      rw [sq_abs] at this
      calc _ ≤ _ := this
        _ = _ := by ring
    rw [Finset.sum_const, Finset.card_univ, Fintype.card_fin, nsmul_eq_mul] at this
    have hD' : (D : ℝ) ≤ 3 := by exact_mod_cast hD
    have hLL : 0 < R.val ℓ ^ 2 := by positivity
    nlinarith
  obtain ⟨f1, p1, g1⟩ := R.fold hR hL x y hx hy hΩ' hd (List.finRange D) 0 0 0 R.zero.1 (by rw [R.zero.2]) le_rfl
    (by rw [R.zero.2]; simp) (by rw [hlen]; omega) (by rw [hS, zero_add]; exact hSle)
  rw [hS, zero_add, zero_add, hlen] at g1
  change R.finite (dot (x - y) (x - y)) at f1
  change 0 ≤ R.val (dot (x - y) (x - y)) at p1
  change |R.val (dot (x - y) (x - y)) - S| ≤ _ at g1
  have hT : R.trueDist x y = √S := rfl
  have hSq : R.trueDist x y ^ 2 = S := by rw [hT, Real.sq_sqrt S0]
  have hSℓ : R.val ℓ ^ 2 ≤ S := by rw [← hSq]; exact pow_le_pow_left₀ hp.le hr 2
  have Spos : 0 < S := lt_of_lt_of_le (by positivity) hSℓ
  rw [hSq]
  set v := R.val (dot (x - y) (x - y)) with hv
  have g1 : |v - S| ≤ 36 * e50 * S := by
    refine g1.trans ?_
    have : ((6 * D : ℕ) : ℝ) ≤ 18 := by
      have : 6 * D ≤ 18 := by omega
      exact_mod_cast this
    have h0 : 0 ≤ e50 * (S + R.val ℓ ^ 2) := by rw [he]; positivity
    have h1 : e50 * R.val ℓ ^ 2 ≤ e50 * S := mul_le_mul_of_nonneg_left hSℓ (by rw [he]; positivity)
    nlinarith
  refine ⟨⟨f1, g1⟩, ?_⟩
  obtain ⟨f2, δ, hδ, g2⟩ := R.sqrt f1 p1
  refine ⟨f2, ?_⟩
  have hδ' : |δ| ≤ e50 := hδ.trans hR.ε_le
  have h3 := sqrt_rel p1 Spos g1
  have s1 := Real.sqrt_pos.mpr Spos
  have e : R.val (dist x y) - √S = (√v - √S) * (1 + δ) + δ * √S := by
    unfold dist; rw [g2, ← hv]; ring
  rw [hT, e]
  refine (abs_add_le _ _).trans ?_
  rw [abs_mul, abs_mul, abs_of_pos s1]
  have h4 : |1 + δ| ≤ 1 + e50 := (abs_add_le _ _).trans (by rw [abs_one]; linarith)
  have h5 : |√v - √S| * |1 + δ| ≤ 36 * e50 * √S * (1 + e50) := mul_le_mul h3 h4 (abs_nonneg _) (by rw [he]; positivity)
  have h6 : |δ| * √S ≤ e50 * √S := mul_le_mul_of_nonneg_right hδ' s1.le
  have h7 : 36 * e50 * √S * (1 + e50) ≤ 37 * e50 * √S := by
    rw [he]
    norm_num
    linarith
  linarith

theorem weight_eq_max {re r : ℝ} (hr : 0 < r) : Ref.weight re r = max (re / r - 1) 0 := by
  unfold Ref.weight
  by_cases h : r < re
  · rw [if_pos ⟨hr, h⟩, max_eq_left]
    have := (one_lt_div hr).mpr h
    linarith
  · rw [if_neg (fun k => h k.2), max_eq_right]
    have := (div_le_one hr).mpr (not_lt.mp h)
    linarith

/-- What is needed of the lengths: `ℓ` is a lower bound of the distances, `r_e` is at most a million times larger. -/
structure Rounding.Lengths (R : Rounding F) (ℓ re : F) : Prop where
  good : R.GoodLength ℓ
  finite : R.finite re
  le : R.val ℓ ≤ R.val re
  ge : R.val re ≤ 2 ^ 20 * R.val ℓ
  Ω : 2 ^ 50 ≤ R.Ω
  Ωre : 2 * R.val re ^ 2 ≤ R.Ω

/-- The quotient `r_e / r`, with a relative error `38 e50` of `r`. -/
theorem quotient_accurate {ε re r r' : ℝ} (h0 : 0 < r) (hre : 0 < re) (hε : 0 ≤ ε) (hε1 : ε ≤ 1 / 4) (h : |r' - r| ≤ ε * r) :
    0 < r' ∧ |re / r' - re / r| ≤ 4 / 3 * ε * (re / r) := by
  rw [abs_le] at h
  have h1 : 3 / 4 * r ≤ r' := by nlinarith
  have h2 : 0 < r' := by linarith
  refine ⟨h2, ?_⟩
  have e : re / r' - re / r = (re / r) * ((r - r') / r') := by field_simp
  rw [e, abs_mul, abs_of_pos (div_pos hre h0), mul_comm]
  apply mul_le_mul_of_nonneg_right _ (div_pos hre h0).le
  rw [abs_div, abs_of_pos h2, div_le_iff₀ h2, abs_le]
  constructor <;> nlinarith

/-- The computed weight. -/
theorem Rounding.weight_accurate (R : Rounding F) (hR : R.DoubleLike) {ℓ re : F} (hl : R.Lengths ℓ re) {d : F} {r : ℝ}
    (hr : R.val ℓ ≤ r) (hf : R.finite d) (hd : |R.val d - r| ≤ 38 * e50 * r) :
    R.finite (W d re) ∧ |R.val (W d re) - Ref.weight (R.val re) r| ≤ 128 * e50 * (R.val re / r + 1) := by
  have he : e50 = 1 / 2 ^ 50 := rfl
  have hp := hl.good.pos
  have hre : 0 < R.val re := lt_of_lt_of_le hp hl.le
  have r0 : 0 < r := lt_of_lt_of_le hp hr
  obtain ⟨d0, hq⟩ := quotient_accurate r0 hre (ε := 38 * e50) (by rw [he]; norm_num) (by rw [he]; norm_num) hd
  rw [weight_eq_max r0]
  set q := R.val re / r with hqd
  have q0 : 0 < q := div_pos hre r0
  have q1 : q ≤ 2 ^ 20 := by
    rw [hqd, div_le_iff₀ r0]
    have := hl.ge
    nlinarith
  rw [abs_le] at hq
  by_cases hlt : R.val d < R.val re
  · have hW : W d re = re / d - 1 := by
      unfold W
      rw [if_pos]
      rw [Bool.and_eq_true, R.lt R.zero.1 hf, R.lt hf hl.finite, R.zero.2]
      exact ⟨d0, hlt⟩
    rw [hW]
    have Q1 : 1 < R.val re / R.val d := (one_lt_div d0).mpr hlt
    have Qle : R.val re / R.val d ≤ 2 ^ 21 := by
      have : R.val re / R.val d ≤ q + 4 / 3 * (38 * e50) * q := by linarith [hq.2]
      rw [he] at this
      norm_num at this q1 ⊢
      linarith
    have hΩ := hl.Ω
    obtain ⟨f1, g1⟩ := R.div hl.finite hf d0.ne' (by rw [abs_of_pos (by linarith)]; norm_num at Qle hΩ ⊢; linarith)
    have g1 := g1.bounds hR.ε_le
    rw [abs_of_pos (show 0 < R.val re / R.val d by linarith), abs_le] at g1
    have hη : R.η ≤ e50 := hR.η_le
    have b1 : |R.val (re / d) - R.val 1| ≤ 2 ^ 22 := by
      rw [R.one.2, abs_le]
      rw [he] at g1 hη
      norm_num at g1 Qle hη ⊢
      constructor <;> linarith
    obtain ⟨f2, g2⟩ := R.sub f1 R.one.1 (b1.trans (by norm_num at hΩ ⊢; linarith))
    refine ⟨f2, ?_⟩
    have g2 := g2.bounds hR.ε_le
    rw [R.one.2] at g2 b1
    have b2 : |R.val (re / d) - 1| ≤ 2 * (q + 1) := by
      rw [abs_le]
      rw [he] at g1 hη hq
      norm_num at g1 hη hq ⊢
      constructor <;> linarith
    have b3 : e50 * |R.val (re / d) - 1| ≤ 2 * e50 * (q + 1) := by
      have := mul_le_mul_of_nonneg_left b2 (show 0 ≤ e50 by rw [he]; norm_num)
      linarith
    have g3 : |R.val (re / d - 1) - (R.val (re / d) - 1)| ≤ 2 * e50 * (q + 1) := g2.trans b3
    -- the exact weight is nearly `q - 1`
    have w1 : |max (q - 1) 0 - (q - 1)| ≤ 52 * e50 * q := by
      rcases le_total (q - 1) 0 with h | h
      · rw [max_eq_right h, zero_sub, abs_neg, abs_of_nonpos h]
        rw [he] at hq ⊢
        norm_num at hq ⊢
        linarith [hq.2]
      · rw [max_eq_left h, sub_self, abs_zero]
        rw [he]; positivity
    have k1 : R.val re / R.val d ≤ 2 * q := by
      rw [he] at hq; norm_num at hq ⊢; linarith [hq.2]
    generalize max (q - 1) 0 = m at w1 ⊢
    rw [abs_le] at g3 w1 ⊢
    rw [he] at g3 w1 g1 hq hη ⊢
    norm_num at g3 w1 g1 hq hη ⊢
    constructor <;> linarith [g3.1, g3.2, w1.1, w1.2, g1.1, g1.2, hq.1, hq.2]
  · have hW : W d re = 0 := by
      unfold W
      rw [if_neg]
      rw [Bool.and_eq_true, R.lt hf hl.finite]
      exact fun k => hlt k.2
    rw [hW, R.zero.2, zero_sub, abs_neg]
    refine ⟨R.zero.1, ?_⟩
    have Q1 : R.val re / R.val d ≤ 1 := (div_le_one d0).mpr (not_lt.mp hlt)
    rw [abs_of_nonneg (le_max_right _ _)]
    rw [he] at hq ⊢
    apply max_le
    · norm_num at hq ⊢; linarith [hq.1]
    · positivity

/-- A pair that is taken to be out of reach has nearly no weight. -/
theorem Rounding.far_weight (R : Rounding F) (hR : R.DoubleLike) {ℓ re : F} (hl : R.Lengths ℓ re) {d2 : F} {r : ℝ}
    (hr : R.val ℓ ≤ r) (hf : R.finite d2) (hd : |R.val d2 - r ^ 2| ≤ 36 * e50 * r ^ 2) (h : Scalar.lt d2 (re * re) = false) :
    Ref.weight (R.val re) r ≤ 128 * e50 * (R.val re / r + 1) := by
  have he : e50 = 1 / 2 ^ 50 := rfl
  have hp := hl.good.pos
  have hre : 0 < R.val re := lt_of_lt_of_le hp hl.le
  have r0 : 0 < r := lt_of_lt_of_le hp hr
  rw [weight_eq_max r0]
  have hre2 : R.val re * R.val re = R.val re ^ 2 := by ring
  obtain ⟨f1, g1⟩ := R.mul hl.finite hl.finite (by
    rw [hre2, abs_of_pos (by positivity)]; have := hl.Ωre; nlinarith [sq_nonneg (R.val re)])
  have g1 := g1.bounds hR.ε_le
  have h1 : ¬ R.val d2 < R.val (re * re) := by
    rw [← R.lt hf f1, h]; decide
  have hη : R.η ≤ R.val re ^ 2 / 2 ^ 50 := by
    refine hl.good.η_le.trans ?_
    apply div_le_div_of_nonneg_right _ (by positivity)
    exact pow_le_pow_left₀ hp.le hl.le 2
  rw [hre2, abs_of_pos (show 0 < R.val re ^ 2 by positivity), abs_le] at g1
  rw [abs_le] at hd
  have h2 : R.val re ^ 2 * (1 - 2 * e50) ≤ r ^ 2 * (1 + 36 * e50) := by
    push Not at h1
    have g11 := g1.1
    have hd2 := hd.2
    rw [he] at g11 hd2 ⊢
    norm_num at g11 hd2 hη ⊢
    linarith
  have h3 : R.val re ≤ r * (1 + 20 * e50) := by
    by_contra hc
    push Not at hc
    have h4 : (r * (1 + 20 * e50)) ^ 2 < R.val re ^ 2 := pow_lt_pow_left₀ hc (by rw [he]; positivity) (by norm_num)
    have hr2 : 0 < r ^ 2 := by positivity
    have h5 : (1 + 36 * e50) ≤ (1 + 20 * e50) ^ 2 * (1 - 2 * e50) := by rw [he]; norm_num
    have h6 : r ^ 2 * (1 + 36 * e50) ≤ (r * (1 + 20 * e50)) ^ 2 * (1 - 2 * e50) := by
      rw [mul_pow, mul_assoc]
      exact mul_le_mul_of_nonneg_left h5 hr2.le
    have h7 : (r * (1 + 20 * e50)) ^ 2 * (1 - 2 * e50) < R.val re ^ 2 * (1 - 2 * e50) :=
      mul_lt_mul_of_pos_right h4 (by rw [he]; norm_num)
    linarith
  have h4 : R.val re / r ≤ 1 + 20 * e50 := by rw [div_le_iff₀ r0, mul_comm]; exact h3
  have q0 : 0 < R.val re / r := div_pos hre r0
  apply max_le
  · rw [he] at h4 ⊢
    norm_num at h4 ⊢
    linarith
  · rw [he]; positivity

/-- Accumulation of terms with errors. -/
theorem Rounding.sum_accurate (R : Rounding F) (hR : R.DoubleLike) (hΩ : 2 ^ 50 ≤ R.Ω) {V : Type} (step : F × V → ℕ → F × V) (f : ℕ → F) (w a : ℕ → ℝ) :
    ∀ (l : List ℕ) (s : F × V) (k : ℕ) (T A : ℝ), R.finite s.1 → 0 ≤ T → T ≤ k * 2 ^ 20 → 0 ≤ A → A ≤ k →
      |R.val s.1 - T| ≤ (1 + 2 * k * e50) * A + 2 * k * e50 * T → k + l.length ≤ 2 ^ 20 →
      (∀ j ∈ l, 0 ≤ w j ∧ w j ≤ 2 ^ 20 ∧ 0 ≤ a j ∧ a j ≤ 1 ∧
        ((∀ s, (step s j).1 = s.1 ∧ w j ≤ a j) ∨ ((∀ s, (step s j).1 = s.1 + f j) ∧ R.finite (f j) ∧ |R.val (f j) - w j| ≤ a j))) →
      R.finite (l.foldl step s).1 ∧ |R.val (l.foldl step s).1 - (T + (l.map w).sum)| ≤
        (1 + 2 * ((k + l.length : ℕ) : ℝ) * e50) * (A + (l.map a).sum) + 2 * ((k + l.length : ℕ) : ℝ) * e50 * (T + (l.map w).sum)
  | [], s, k, T, A, h1, _, _, _, _, h4, _, _ => by simpa using ⟨h1, h4⟩
  | j :: l, s, k, T, A, h1, T0, T1, A0, A1, h4, hk, hl => by
    have he : e50 = 1 / 2 ^ 50 := rfl
    have e0 : 0 < e50 := by rw [he]; norm_num
    obtain ⟨w0, w1, a0, a1, hj⟩ := hl j List.mem_cons_self
    have hk' : (k : ℝ) ≤ 1048576 := by
      have : k ≤ 1048576 := by norm_num at hk ⊢; omega
      exact_mod_cast this
    have k0 : (0 : ℝ) ≤ k := Nat.cast_nonneg k
    have hlen : k + (j :: l).length = (k + 1) + l.length := by rw [List.length_cons]; omega
    rw [List.foldl_cons, List.map_cons, List.sum_cons, List.map_cons, List.sum_cons, ← add_assoc, ← add_assoc, hlen]
    have ke : k * e50 ≤ 1 / 2 ^ 30 := by
      rw [he]; norm_num; linarith
    have T1' : T + w j ≤ ((k + 1 : ℕ) : ℝ) * 2 ^ 20 := by push_cast; linarith
    have A1' : A + a j ≤ ((k + 1 : ℕ) : ℝ) := by push_cast; linarith
    refine Rounding.sum_accurate R hR hΩ step f w a l (step s j) (k + 1) (T + w j) (A + a j) ?_ (by linarith) T1' (by linarith) A1' ?_ (by omega)
      (fun j hj => hl j (List.mem_cons_of_mem _ hj))
    · rcases hj with hj | ⟨hj, f1, f2⟩
      · rw [(hj s).1]; exact h1
      · rw [hj s]
        have b := R.add h1 f1 ?_
        · exact b.1
        · have c1 : |R.val s.1| ≤ T + ((1 + 2 * k * e50) * A + 2 * k * e50 * T) := by
            have := abs_add_le (R.val s.1 - T) T
            rw [sub_add_cancel, abs_of_nonneg T0] at this
            linarith
          have c2 : |R.val (f j)| ≤ w j + a j := by
            have := abs_add_le (R.val (f j) - w j) (w j)
            rw [sub_add_cancel, abs_of_nonneg w0] at this
            linarith
          have c3 := abs_add_le (R.val s.1) (R.val (f j))
          have c4 : k * e50 * A ≤ 1 / 2 ^ 30 * 1048576 := mul_le_mul ke (A1.trans hk') A0 (by norm_num)
          have c5 : k * e50 * T ≤ 1 / 2 ^ 30 * 2 ^ 40 := mul_le_mul ke (T1.trans (by norm_num; linarith)) T0 (by norm_num)
          have c6 : T ≤ 2 ^ 40 := T1.trans (by norm_num; linarith)
          norm_num at hΩ w1 c4 c5 c6 ⊢
          linarith
    · have main : |(R.val s.1 - T)| + a j ≤ (1 + 2 * k * e50) * (A + a j) + 2 * k * e50 * (T + w j) := by
        have : 0 ≤ k * e50 * a j := by positivity
        have : 0 ≤ k * e50 * w j := by positivity
        nlinarith
      rcases hj with hj | ⟨hj, f1, f2⟩
      · rw [(hj s).1]
        have c1 : |R.val s.1 - (T + w j)| ≤ |R.val s.1 - T| + a j := by
          have : R.val s.1 - (T + w j) = (R.val s.1 - T) + -(w j) := by ring
          rw [this]
          refine (abs_add_le _ _).trans ?_
          rw [abs_neg, abs_of_nonneg w0]
          linarith [(hj s).2]
        push_cast
        have : 0 ≤ e50 * (A + a j) := by positivity
        have : 0 ≤ e50 * (T + w j) := by positivity
        nlinarith
      · rw [hj s]
        have c0 : |R.val s.1 + R.val (f j) - (T + w j)| ≤ (1 + 2 * k * e50) * (A + a j) + 2 * k * e50 * (T + w j) := by
          have : R.val s.1 + R.val (f j) - (T + w j) = (R.val s.1 - T) + (R.val (f j) - w j) := by ring
          rw [this]
          refine (abs_add_le _ _).trans ?_
          linarith
        set E := (1 + 2 * k * e50) * (A + a j) + 2 * k * e50 * (T + w j) with hE
        have c4 : k * e50 * (A + a j) ≤ 1 / 2 ^ 30 * 2 ^ 21 := by
          apply mul_le_mul ke _ (by linarith) (by norm_num)
          norm_num; linarith
        have c5 : k * e50 * (T + w j) ≤ 1 / 2 ^ 30 * 2 ^ 41 := by
          apply mul_le_mul ke _ (by linarith) (by norm_num)
          norm_num at T1 w1 ⊢; linarith
        have b := R.add h1 f1 (by
          have := abs_add_le (R.val s.1 + R.val (f j) - (T + w j)) (T + w j)
          rw [sub_add_cancel, abs_of_nonneg (add_nonneg T0 w0)] at this
          norm_num at hΩ w1 c4 c5 T1 ⊢
          linarith)
        obtain ⟨-, δ, hδ, hb⟩ := b
        have hδ' : |δ| ≤ e50 := hδ.trans hR.ε_le
        rw [hb]
        have e : (R.val s.1 + R.val (f j)) * (1 + δ) - (T + w j) =
            (R.val s.1 + R.val (f j) - (T + w j)) * (1 + δ) + δ * (T + w j) := by ring
        rw [e]
        refine (abs_add_le _ _).trans ?_
        rw [abs_mul, abs_mul, abs_of_nonneg (add_nonneg T0 w0)]
        have h6 : |1 + δ| ≤ 1 + e50 := (abs_add_le _ _).trans (by rw [abs_one]; linarith)
        have h7 : |R.val s.1 + R.val (f j) - (T + w j)| * |1 + δ| ≤ E * (1 + e50) := by
          apply mul_le_mul c0 h6 (abs_nonneg _)
          have := abs_nonneg (R.val s.1 + R.val (f j) - (T + w j))
          linarith
        have h8 : |δ| * (T + w j) ≤ e50 * (T + w j) := mul_le_mul_of_nonneg_right hδ' (add_nonneg T0 w0)
        have h9 : E * (1 + e50) + e50 * (T + w j) ≤ (1 + 2 * (k + 1) * e50) * (A + a j) + 2 * (k + 1) * e50 * (T + w j) := by
          have q1 : 2 * k * e50 * e50 ≤ e50 := by
            have : 2 * (k * e50) * e50 ≤ 1 * e50 := mul_le_mul_of_nonneg_right (by norm_num at ke ⊢; linarith) e0.le
            linarith
          have q2 : 2 * k * e50 * e50 * (A + a j) ≤ e50 * (A + a j) := mul_le_mul_of_nonneg_right q1 (by linarith)
          have q3 : 2 * k * e50 * e50 * (T + w j) ≤ e50 * (T + w j) := mul_le_mul_of_nonneg_right q1 (by linarith)
          rw [hE]
          nlinarith
        push_cast
        linarith

end OpenMps
