import Verif.Lemmas.DoubleRounding

/-! # C72: `double` satisfies the rounding model -/

set_option exponentiation.threshold 2000

namespace OpenMps

open Double

theorem Double.RoundsTo.zero {x : Double} (h : x.val = 0) : RoundsTo 0 x := by
  have hc := val_eq_zero.mp h
  have hp : (0 : ℝ) < 2 ^ 1024 - 2 ^ 970 := by
    have : (2 : ℝ) ^ 970 < 2 ^ 1024 := pow_lt_pow_right₀ (by norm_num) (by norm_num)
    linarith
  have hf : x.isFinite = true := by rw [isFinite_iff, hc]; unfold infCode; norm_num
  refine ⟨?_, fun _ => hf, ?_, ?_, fun h => absurd h (lt_irrefl _), fun h => absurd h (lt_irrefl _)⟩
  · rw [abs_zero]
    refine ⟨fun h => ?_, fun h => absurd h (not_le.mpr hp)⟩
    rw [(not_nan_of_finite hf).2] at h
    cases h
  · intro _ z _
    rw [h, sub_zero, abs_zero]
    exact abs_nonneg _
  · intro _ z _ he hne
    rw [h, sub_zero, sub_zero, abs_zero, abs_eq_zero] at he
    exact absurd (by rw [he, h]) hne

/-- **C72.**  The model of `double` is IEEE 754 arithmetic: sums, differences, products, quotients and square roots of finite numbers are the exact results
rounded to nearest, ties to even, infinite from `2^1024 - 2^970` on; comparisons compare the numbers; sign change and `std::abs` are exact. -/
theorem C72_operations_are_correctly_rounded (x y : Double) (hx : x.isFinite = true) (hy : y.isFinite = true) :
    RoundsTo (x.val + y.val) (x + y) ∧ RoundsTo (x.val - y.val) (x - y) ∧ RoundsTo (x.val * y.val) (x * y) ∧
    (y.val ≠ 0 → RoundsTo (x.val / y.val) (x / y)) ∧ (0 ≤ x.val → RoundsTo (Real.sqrt x.val) (Scalar.sqrt x)) ∧
    (Scalar.lt x y = true ↔ x.val < y.val) ∧ (Scalar.le x y = true ↔ x.val ≤ y.val) ∧ (Scalar.eq x y = true ↔ x.val = y.val) ∧
    (-x).val = -x.val ∧ (Scalar.abs x).val = |x.val| := by
  refine ⟨?_, ?_, ?_, ?_, ?_, ?_, ?_, ?_, neg'_val x, ?_⟩
  · obtain ⟨e, m, h⟩ := add_rnd hx hy
    exact h.roundsTo
  · obtain ⟨e, m, h⟩ := add_rnd hx (show y.neg'.isFinite = true from hy)
    rw [neg'_val, ← sub_eq_add_neg] at h
    exact h.roundsTo
  · obtain ⟨e, m, h⟩ := mul_rnd hx hy
    exact h.roundsTo
  · intro h0
    obtain ⟨e, m, h⟩ := div_rnd hx hy h0
    exact h.roundsTo
  · intro h0
    rcases h0.eq_or_lt with h1 | h1
    · rw [← h1, Real.sqrt_zero]
      have hc := val_eq_zero.mp h1.symm
      have : Scalar.sqrt x = x := by
        change x.sqrt = x
        unfold Double.sqrt
        simp only [not_nan_of_finite hx, hc, Bool.false_eq_true, if_false, if_true]
      rw [this]
      exact Double.RoundsTo.zero h1.symm
    · obtain ⟨e, m, h, -⟩ := sqrt_rnd hx h1
      exact h.roundsTo
  · change (!x.isNan && !y.isNan && decide (x.key < y.key)) = true ↔ _
    rw [(not_nan_of_finite hx).1, (not_nan_of_finite hy).1]
    simp only [Bool.not_false, Bool.and_self, Bool.true_and, decide_eq_true_iff]
    exact key_lt
  · change (!x.isNan && !y.isNan && decide (x.key ≤ y.key)) = true ↔ _
    rw [(not_nan_of_finite hx).1, (not_nan_of_finite hy).1]
    simp only [Bool.not_false, Bool.and_self, Bool.true_and, decide_eq_true_iff]
    rw [← not_lt, ← not_lt, key_lt]
  · change (!x.isNan && !y.isNan && decide (x.key = y.key)) = true ↔ _
    rw [(not_nan_of_finite hx).1, (not_nan_of_finite hy).1]
    simp only [Bool.not_false, Bool.and_self, Bool.true_and, decide_eq_true_iff]
    constructor
    · intro h
      exact le_antisymm (not_lt.mp (fun hc => absurd (key_lt.mpr hc) (by omega))) (not_lt.mp (fun hc => absurd (key_lt.mpr hc) (by omega)))
    · intro h
      have h1 : ¬ x.key < y.key := fun hc => absurd (key_lt.mp hc) (by rw [h]; exact lt_irrefl _)
      have h2 : ¬ y.key < x.key := fun hc => absurd (key_lt.mp hc) (by rw [h]; exact lt_irrefl _)
      omega
  · rw [abs_val, val_eq]
    rfl

theorem Double.ofInt_small (k : ℤ) (hk : |k| ≤ 2 ^ 53) : (Double.round (k : ℚ) false).isFinite = true ∧ (Double.round (k : ℚ) false).val = k := by
  obtain ⟨e, m, h⟩ := round_rnd (k : ℚ) false
  have hcast : (((k : ℤ) : ℚ) : ℝ) = (k : ℝ) := by push_cast; rfl
  rw [hcast] at h
  have hf : (Double.round (k : ℚ) false).isFinite = true := by
    apply h.roundsTo.finite
    have h1 : |(k : ℝ)| ≤ 2 ^ 53 := by exact_mod_cast hk
    refine h1.trans_lt ?_
    have e1 : (2 : ℝ) ^ 1024 = 2 ^ 54 * 2 ^ 970 := by rw [← pow_add]
    have e2 : (2 : ℝ) ^ 53 ≤ 2 ^ 970 := pow_le_pow_right₀ (by norm_num) (by norm_num)
    have q0 : (0 : ℝ) < 2 ^ 970 := by positivity
    rw [e1]
    generalize (2 : ℝ) ^ 970 = q at *
    norm_num at e2 ⊢
    linarith
  refine ⟨hf, ?_⟩
  have hp : (0 : ℝ) < 2 ^ e := by positivity
  have hc : (Double.round (k : ℚ) false).code = At.code e m := by
    have := h.isFinite.mp hf
    rw [h.code]; omega
  -- the place `2^e` is at most 1, or `|k| = 2^53`
  have hd : |(Double.round (k : ℚ) false).val - k| = 0 := by
    rw [h.dist, hc, h.at'.mag]
    by_cases he : e ≤ 0
    · obtain ⟨j, rfl⟩ : ∃ j : ℕ, e = -(j : ℤ) := ⟨(-e).toNat, by omega⟩
      have e1 : |(k : ℝ)| / 2 ^ (-(j : ℤ)) = ((|k| * 2 ^ j : ℤ) : ℝ) := by
        rw [zpow_neg, zpow_natCast, div_inv_eq_mul]; push_cast; rfl
      have hn := (h.at'.rne.nearest (|k| * 2 ^ j)).1
      rw [e1, sub_self, abs_zero] at hn
      have h2 : (m : ℝ) = ((|k| * 2 ^ j : ℤ) : ℝ) := by
        have := abs_nonpos_iff.mp hn
        linarith
      rw [h2, ← e1]
      field_simp
      simp
    · have hl := h.at'.lead.resolve_left (by omega)
      have h1 : |(k : ℝ)| ≤ 2 ^ 53 := by exact_mod_cast hk
      have h2 : (2 : ℝ) ≤ 2 ^ e := by
        have : (2 : ℝ) ^ (1 : ℤ) ≤ 2 ^ e := zpow_le_zpow_right₀ (by norm_num) (by omega)
        simpa using this
      have h3 : (2 : ℝ) ^ e = 2 := by norm_num at hl h1; linarith
      have h4 : |(k : ℝ)| = 2 ^ 53 := by norm_num at hl h1 ⊢; rw [h3] at hl; linarith
      have hn := (h.at'.rne.nearest (2 ^ 52)).1
      rw [h3, h4] at hn
      norm_num at hn
      have h2 : (m : ℝ) = 4503599627370496 := by linarith
      rw [h2, h3, h4]
      norm_num
  have := abs_eq_zero.mp hd
  linarith

theorem Double.largest : ((mag (infCode - 1) : ℚ) : ℝ) = 2 ^ 1024 - 2 ^ 971 := by
  have := mag_parts (e := 971) (m := 2 ^ 53 - 1) (by norm_num) (by norm_num) (by norm_num)
  rw [show ((971 : ℤ) + 1074).toNat * 2 ^ 52 + (2 ^ 53 - 1) = infCode - 1 from rfl] at this
  rw [this, show (971 : ℤ) = ((971 : ℕ) : ℤ) by norm_num, zpow_natCast, Nat.cast_sub (by norm_num), Nat.cast_pow, Nat.cast_ofNat, sub_mul, ← pow_add]
  norm_num

theorem Double.no_overflow {v : ℝ} {r : Double} {e : ℤ} {m : ℕ} (h : Rnd v r e m) (hv : |v| ≤ 2 ^ 1024 - 2 ^ 971) : r.isFinite = true := by
  apply h.roundsTo.finite
  refine hv.trans_lt ?_
  have : (2 : ℝ) ^ 970 < 2 ^ 971 := pow_lt_pow_right₀ (by norm_num) (by norm_num)
  generalize (2 : ℝ) ^ 970 = p at *
  generalize (2 : ℝ) ^ 971 = q at *
  generalize (2 : ℝ) ^ 1024 = r at *
  linarith

/-- The rounding model of `double`: relative error `2^-53`, absolute error `2^-1075` on underflow, largest number `2^1024 - 2^971`. -/
noncomputable def doubleRounding : Rounding Double where
  finite := fun x => x.isFinite = true
  val := Double.val
  ε := 1 / 2 ^ 53
  η := 1 / 2 ^ 1075
  Ω := 2 ^ 1024 - 2 ^ 971
  ε_nonneg := by positivity
  η_nonneg := by positivity
  zero := by
    refine ⟨?_, val_eq_zero.mpr rfl⟩
    rw [isFinite_iff]
    change 0 % 2 ^ 63 < infCode
    unfold infCode; norm_num
  one := by
    have e : (1 : Double) = Double.round ((1 : ℤ) : ℚ) false := by decide +kernel
    rw [e]
    have := Double.ofInt_small 1 (by norm_num)
    exact ⟨this.1, by rw [this.2]; norm_num⟩
  two := by
    have := Double.ofInt_small 2 (by norm_num)
    exact ⟨this.1, this.2.trans (by norm_num)⟩
  add := by
    intro x y hx hy hv
    obtain ⟨e, m, h⟩ := add_rnd hx hy
    have hf := Double.no_overflow h hv
    obtain ⟨k, hk⟩ := val_multiple x
    obtain ⟨l, hl⟩ := val_multiple y
    exact ⟨hf, h.rel hf (k + l) (by rw [hk, hl]; push_cast; ring)⟩
  sub := by
    intro x y hx hy hv
    obtain ⟨e, m, h⟩ := add_rnd hx (show y.neg'.isFinite = true from hy)
    rw [neg'_val, ← sub_eq_add_neg] at h
    have hf := Double.no_overflow h hv
    obtain ⟨k, hk⟩ := val_multiple x
    obtain ⟨l, hl⟩ := val_multiple y
    exact ⟨hf, h.rel hf (k - l) (by rw [hk, hl]; push_cast; ring)⟩
  mul := by
    intro x y hx hy hv
    obtain ⟨e, m, h⟩ := mul_rnd hx hy
    have hf := Double.no_overflow h hv
    exact ⟨hf, h.relAbs hf⟩
  mul_nonneg := by
    intro x y hx hy _ h0
    obtain ⟨e, m, h⟩ := mul_rnd hx hy
    change 0 ≤ (x.mul y).val
    rcases h0.eq_or_lt with h1 | h1
    · rw [h.zero h1.symm]
    · rw [val_eq, h.pos h1]
      exact magR_nonneg _
  div := by
    intro x y hx hy h0 hv
    obtain ⟨e, m, h⟩ := div_rnd hx hy h0
    have hf := Double.no_overflow h hv
    exact ⟨hf, h.relAbs hf⟩
  sqrt := by
    intro x hx h0
    rcases h0.eq_or_lt with h1 | h1
    · have hc := val_eq_zero.mp h1.symm
      have : Scalar.sqrt x = x := by
        change x.sqrt = x
        unfold Double.sqrt
        simp only [not_nan_of_finite hx, hc, Bool.false_eq_true, if_false, if_true]
      rw [this, ← h1, Real.sqrt_zero]
      exact ⟨hx, 0, by rw [abs_zero]; positivity, by ring⟩
    · obtain ⟨e, m, h, hf, he⟩ := sqrt_rnd hx h1
      exact ⟨hf, relErr_of ((h.err hf).resolve_right (fun h => he h.1))⟩
  lt := by
    intro x y hx hy
    exact (C72_operations_are_correctly_rounded x y hx hy).2.2.2.2.2.1
  floor := by
    intro x k _ h
    change x.toIndex ⌊x.value⌋ = some k at h
    unfold Double.toIndex at h
    split at h
    · simp only [Option.some.injEq] at h
      rw [← h]
      exact (Rat.floor_cast x.value).symm
    · cases h

/-- **C72.**  `double` satisfies every assumption about floating-point arithmetic that the theorems about rounding (C47, C63, C65, C68, C71) make, with
relative error `2^-53`. -/
theorem C72_double_satisfies_the_rounding_model :
    (∀ x, doubleRounding.finite x ↔ x.isFinite = true) ∧ doubleRounding.val = Double.val ∧ doubleRounding.ε = 1 / 2 ^ 53 ∧
    doubleRounding.η = 1 / 2 ^ 1075 ∧ doubleRounding.Ω = 2 ^ 1024 - 2 ^ 971 ∧
    doubleRounding.DoubleLike ∧ doubleRounding.Wide ∧ doubleRounding.Exact ∧ doubleRounding.Ordinary ∧ doubleRounding.Propagates := by
  refine ⟨fun _ => Iff.rfl, rfl, rfl, rfl, rfl, ⟨?_, ?_⟩, ⟨?_, ?_⟩, ⟨?_, ?_, ?_, ?_⟩, ⟨?_, ?_, ?_⟩, ⟨?_, ?_, ?_⟩⟩
  · change (1 : ℝ) / 2 ^ 53 ≤ 1 / 2 ^ 50
    norm_num
  · change (1 : ℝ) / 2 ^ 1075 ≤ 1 / 2 ^ 50
    exact one_div_le_one_div_of_le (by positivity) (pow_le_pow_right₀ (by norm_num) (by norm_num))
  · change (1 : ℝ) / 2 ^ 1075 ≤ 1 / 2 ^ 960
    exact one_div_le_one_div_of_le (by positivity) (pow_le_pow_right₀ (by norm_num) (by norm_num))
  · change (2 : ℝ) ^ 910 ≤ 2 ^ 1024 - 2 ^ 971
    have e1 : (2 : ℝ) ^ 1024 = 2 ^ 53 * 2 ^ 971 := by rw [← pow_add]
    have e2 : (2 : ℝ) ^ 910 ≤ 2 ^ 971 := pow_le_pow_right₀ (by norm_num) (by norm_num)
    have q0 : (0 : ℝ) < 2 ^ 971 := by positivity
    rw [e1]
    generalize (2 : ℝ) ^ 971 = q at *
    generalize (2 : ℝ) ^ 910 = p at *
    norm_num
    linarith
  · intro x hx
    exact ⟨hx, neg'_val x⟩
  · intro x hx
    exact ⟨hx, (C72_operations_are_correctly_rounded x x hx hx).2.2.2.2.2.2.2.2.2⟩
  · intro k hk
    have := Double.ofInt_small (k : ℤ) (by
      rw [Nat.abs_cast]
      exact_mod_cast hk.trans (by norm_num))
    exact ⟨this.1, this.2.trans (by push_cast; rfl)⟩
  · intro x y hx hy
    exact (C72_operations_are_correctly_rounded x y hx hy).2.2.2.2.2.2.1
  · intro x hx
    refine ⟨hx, ?_⟩
    exact (C72_operations_are_correctly_rounded x x hx hx).2.2.2.2.2.2.2.2.2
  · intro x y hx hy
    exact (C72_operations_are_correctly_rounded x y hx hy).2.2.2.2.2.2.2.1
  · intro x y z hx hy hz hx0 hy0 hv hzΩ
    change (2 : ℝ) ^ 1024 - 2 ^ 971 < x.val / y.val at hv
    change z.val < 2 ^ 1024 - 2 ^ 971 at hzΩ
    change 0 < x.val at hx0
    change 0 < y.val at hy0
    obtain ⟨e, m, h⟩ := div_rnd hx hy hy0.ne'
    have hv0 : 0 < x.val / y.val := div_pos hx0 hy0
    change (!z.isNan && !(x.div y).isNan && decide (z.key < (x.div y).key)) = true
    have hle : (x.div y).code ≤ infCode := by rw [h.code]; exact min_le_left _ _
    have hnan : (x.div y).isNan = false := decide_eq_false (by omega)
    rw [(not_nan_of_finite hz).1, hnan]
    simp only [Bool.not_false, Bool.and_self, Bool.true_and, decide_eq_true_iff]
    have hkey : (x.div y).key = (x.div y).code := by
      unfold key
      rw [h.pos hv0]
      simp
    rw [hkey]
    -- the code is at least that of the largest number
    have hge : infCode - 1 ≤ (x.div y).code := by
      by_contra hc
      have hf : (x.div y).isFinite = true := by rw [isFinite_iff]; omega
      set L : Double := mk' false (infCode - 1) with hL
      have hLc : L.code = infCode - 1 := mk'_code (by omega)
      have hLv : L.val = 2 ^ 1024 - 2 ^ 971 := by
        rw [val_eq, hLc]
        simp only [hL, mk'_neg, Bool.false_eq_true, if_false]
        exact Double.largest
      have hLf : L.isFinite = true := by rw [isFinite_iff, hLc]; unfold infCode; norm_num
      have hn := h.roundsTo.nearest hf L hLf
      have hlt : (x.div y).val < L.val := by
        apply key_lt.mp
        rw [hkey]
        unfold key
        rw [hLc]
        simp only [hL, mk'_neg, Bool.false_eq_true, if_false]
        omega
      rw [hLv] at hn hlt
      generalize (2 : ℝ) ^ 1024 - 2 ^ 971 = q at *
      rw [abs_of_nonpos (by linarith), abs_of_nonpos (by linarith)] at hn
      linarith
    have hzk : z.key < ((infCode - 1 : ℕ) : ℤ) := by
      set L : Double := mk' false (infCode - 1) with hL
      have hLc : L.code = infCode - 1 := mk'_code (by omega)
      have hLv : L.val = 2 ^ 1024 - 2 ^ 971 := by
        rw [val_eq, hLc]
        simp only [hL, mk'_neg, Bool.false_eq_true, if_false]
        exact Double.largest
      have := key_lt.mpr (show z.val < L.val by rw [hLv]; exact hzΩ)
      have hk : L.key = ((infCode - 1 : ℕ) : ℤ) := by
        unfold key
        rw [hLc]
        simp only [hL, mk'_neg, Bool.false_eq_true, if_false]
      rwa [hk] at this
    omega
  · intro x y hf
    obtain ⟨hx, hy⟩ := add_propagates hf
    obtain ⟨e, m, h⟩ := add_rnd hx hy
    obtain ⟨k, hk⟩ := val_multiple x
    obtain ⟨l, hl⟩ := val_multiple y
    exact ⟨hx, hy, h.rel hf (k + l) (by rw [hk, hl]; push_cast; ring)⟩
  · intro x y hf
    obtain ⟨hx, hy⟩ := add_propagates (y := y.neg') hf
    obtain ⟨e, m, h⟩ := add_rnd hx hy
    rw [neg'_val, ← sub_eq_add_neg] at h
    obtain ⟨k, hk⟩ := val_multiple x
    obtain ⟨l, hl⟩ := val_multiple y
    exact ⟨hx, hy, h.rel hf (k - l) (by rw [hk, hl]; push_cast; ring)⟩
  · intro x y hf
    obtain ⟨hx, hy⟩ := mul_propagates hf
    obtain ⟨e, m, h⟩ := mul_rnd hx hy
    exact ⟨hx, hy, h.relAbs hf⟩

end OpenMps
