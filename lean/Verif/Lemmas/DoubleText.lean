import Verif.Lemmas.DoubleBits
import Verif.Props.Double
import Verif.Props.Text
import Verif.Spec.DoubleText

/-! # Lemmas about `double` in files -/

namespace OpenMps

set_option exponentiation.threshold 2000

section
variable {K : Type} [Field K] [LinearOrder K] [IsStrictOrderedRing K] [FloorRing K]

/-- A number less than half a unit away from a decimal with six digits has these digits. -/
theorem sixDigits_of {d : Nat} (h2 : d < 1000000) (X : Int) {w : K} (hlo : (10 : K) ^ X ≤ w) (hhi : w < (10 : K) ^ (X + 1))
    (hw : |w - (d : K) * (10 : K) ^ (X - 5)| < (10 : K) ^ (X - 5) / 2) : sixDigits w = (d, X) := by
  have hp : (0 : K) < (10 : K) ^ (X - 5) := zpow_pos (by norm_num) _
  have hw0 : 0 < w := lt_of_lt_of_le (zpow_pos (by norm_num) _) hlo
  have hl : Int.log 10 w = X := by
    have h3 := (Int.lt_zpow_iff_log_lt (b := 10) (by norm_num) hw0 (x := X + 1)).1 (by exact_mod_cast hhi)
    have h4 := (Int.zpow_le_iff_le_log (b := 10) (by norm_num) hw0 (x := X)).1 (by exact_mod_cast hlo)
    omega
  have hunf : sixDigits w = if (roundEven (w / (10 : K) ^ (Int.log 10 w - 5))).toNat < 1000000
      then ((roundEven (w / (10 : K) ^ (Int.log 10 w - 5))).toNat, Int.log 10 w) else (100000, Int.log 10 w + 1) := rfl
  rw [hunf, hl]
  have hr : roundEven (w / (10 : K) ^ (X - 5)) = (d : Int) := by
    apply roundEven_unique
    push_cast
    have : w / (10 : K) ^ (X - 5) - d = (w - d * (10 : K) ^ (X - 5)) / (10 : K) ^ (X - 5) := by field_simp
    rw [this, abs_div, abs_of_pos hp, div_lt_iff₀ hp]
    linarith
  rw [hr, Int.toNat_natCast, if_pos h2]

end

namespace Double

theorem p1024 : (10 : ℚ) ^ (308 : ℤ) < 2 ^ 1024 - 2 ^ 971 ∧ (2 : ℚ) ^ 1024 - 2 ^ 971 < 1797695 * (10 : ℚ) ^ (302 : ℤ) ∧ 1797690 * (10 : ℚ) ^ (302 : ℤ) < 2 ^ 1024 - 2 ^ 971 := by
  refine ⟨?_, ?_, ?_⟩ <;> norm_num

theorem shown_upper {v : ℚ} (h0 : 0 < v) (h : v ≤ 2 ^ 1024 - 2 ^ 971) : shown v ≤ 2 ^ 1024 - 2 ^ 971 := by
  obtain ⟨h1, h2, h3⟩ := p1024
  generalize (2 : ℚ) ^ 1024 - 2 ^ 971 = M at *
  have e1 : (10 : ℚ) ^ (303 : ℤ) = 10 * 10 ^ (302 : ℤ) := by rw [show (303 : ℤ) = 302 + 1 by norm_num, zpow_add_one₀ (by norm_num)]; ring
  have e2 : (10 : ℚ) ^ (308 : ℤ) = 1000000 * 10 ^ (302 : ℤ) := by rw [show (308 : ℤ) = 302 + 6 by norm_num, zpow_add₀ (by norm_num)]; norm_num
  have e3 : (10 : ℚ) ^ (309 : ℤ) = 10000000 * 10 ^ (302 : ℤ) := by rw [show (309 : ℤ) = 302 + 7 by norm_num, zpow_add₀ (by norm_num)]; norm_num
  have hp : (0 : ℚ) < 10 ^ (302 : ℤ) := by positivity
  rcases le_or_gt v (1797690 * (10 : ℚ) ^ (302 : ℤ)) with h4 | h4
  · have := shown_nearest h0 179769 303 (by norm_num)
    rw [Int.cast_ofNat, e1, abs_of_nonneg (by linarith : 0 ≤ 179769 * (10 * (10 : ℚ) ^ (302 : ℤ)) - v)] at this
    have := le_abs_self (shown v - v)
    linarith
  · have hs : sixDigits v = (179769, 308) := by
      refine sixDigits_of (by norm_num) 308 (by rw [e2]; linarith) ?_ ?_
      · rw [show (308 : ℤ) + 1 = 309 by norm_num, e3]; linarith
      · rw [show (308 : ℤ) - 5 = 303 by norm_num, e1, abs_lt]
        push_cast
        constructor <;> linarith
    rw [shown_pos h0, hs, show ((179769, 308) : ℕ × ℤ).2 - 5 = 303 by norm_num, e1]
    push_cast
    linarith

theorem shown_not_tiny {v : ℚ} (h : 2225075 / 10 ^ 314 < v) : 222508 / 10 ^ 313 ≤ shown v := by
  have hp : (0 : ℚ) < 10 ^ (-314 : ℤ) := by positivity
  have h0 : 0 < v := lt_trans (by positivity) h
  have e0 : (2225075 : ℚ) / 10 ^ 314 = 2225075 * 10 ^ (-314 : ℤ) := by rw [zpow_neg, show (314 : ℤ) = ((314 : ℕ) : ℤ) by norm_num, zpow_natCast]; rfl
  have e1 : (222508 : ℚ) / 10 ^ 313 = 2225080 * 10 ^ (-314 : ℤ) := by
    rw [zpow_neg, show (314 : ℤ) = ((314 : ℕ) : ℤ) by norm_num, zpow_natCast, pow_succ]
    have : (10 : ℚ) ^ 313 ≠ 0 := by positivity
    generalize (10 : ℚ) ^ 313 = q at *
    field_simp
    norm_num
  have e2 : (10 : ℚ) ^ (-313 : ℤ) = 10 * 10 ^ (-314 : ℤ) := by rw [show (-313 : ℤ) = -314 + 1 by norm_num, zpow_add_one₀ (by norm_num)]; ring
  have e3 : (10 : ℚ) ^ (-308 : ℤ) = 1000000 * 10 ^ (-314 : ℤ) := by rw [show (-308 : ℤ) = -314 + 6 by norm_num, zpow_add₀ (by norm_num)]; norm_num
  have e4 : (10 : ℚ) ^ (-307 : ℤ) = 10000000 * 10 ^ (-314 : ℤ) := by rw [show (-307 : ℤ) = -314 + 7 by norm_num, zpow_add₀ (by norm_num)]; norm_num
  rw [e0] at h
  rw [e1]
  generalize (10 : ℚ) ^ (-314 : ℤ) = q at *
  rcases le_or_gt (2225080 * q) v with h4 | h4
  · have := shown_nearest h0 222508 (-313) (by norm_num)
    push_cast at this
    rw [e2, abs_of_nonpos (by linarith : 222508 * (10 * q) - v ≤ 0)] at this
    have := neg_abs_le (shown v - v)
    linarith
  · have hs : sixDigits v = (222508, -308) := by
      refine sixDigits_of (by norm_num) (-308) (by rw [e3]; linarith) ?_ ?_
      · rw [show (-308 : ℤ) + 1 = -307 by norm_num, e4]; linarith
      · rw [show (-308 : ℤ) - 5 = -313 by norm_num, e2, abs_lt]
        push_cast
        constructor <;> linarith
    rw [shown_pos h0, hs, show ((222508, -308) : ℕ × ℤ).2 - 5 = -313 by norm_num, e2]
    push_cast
    linarith

theorem shown_tiny {v : ℚ} (h0 : 0 < v) (h : v < 2225075 / 10 ^ 314) : shown v ≤ 222507 / 10 ^ 313 := by
  have hp : (0 : ℚ) < 10 ^ (-314 : ℤ) := by positivity
  have e0 : (2225075 : ℚ) / 10 ^ 314 = 2225075 * 10 ^ (-314 : ℤ) := by rw [zpow_neg, show (314 : ℤ) = ((314 : ℕ) : ℤ) by norm_num, zpow_natCast]; rfl
  have e1 : (222507 : ℚ) / 10 ^ 313 = 2225070 * 10 ^ (-314 : ℤ) := by
    rw [zpow_neg, show (314 : ℤ) = ((314 : ℕ) : ℤ) by norm_num, zpow_natCast, pow_succ]
    have : (10 : ℚ) ^ 313 ≠ 0 := by positivity
    generalize (10 : ℚ) ^ 313 = q at *
    field_simp
    norm_num
  have e2 : (10 : ℚ) ^ (-313 : ℤ) = 10 * 10 ^ (-314 : ℤ) := by rw [show (-313 : ℤ) = -314 + 1 by norm_num, zpow_add_one₀ (by norm_num)]; ring
  have e3 : (10 : ℚ) ^ (-308 : ℤ) = 1000000 * 10 ^ (-314 : ℤ) := by rw [show (-308 : ℤ) = -314 + 6 by norm_num, zpow_add₀ (by norm_num)]; norm_num
  have e4 : (10 : ℚ) ^ (-307 : ℤ) = 10000000 * 10 ^ (-314 : ℤ) := by rw [show (-307 : ℤ) = -314 + 7 by norm_num, zpow_add₀ (by norm_num)]; norm_num
  rw [e0] at h
  rw [e1]
  generalize (10 : ℚ) ^ (-314 : ℤ) = q at *
  rcases le_or_gt v (2225070 * q) with h4 | h4
  · have := shown_nearest h0 222507 (-313) (by norm_num)
    push_cast at this
    rw [e2, abs_of_nonneg (by linarith : 0 ≤ 222507 * (10 * q) - v)] at this
    have := le_abs_self (shown v - v)
    linarith
  · have hs : sixDigits v = (222507, -308) := by
      refine sixDigits_of (by norm_num) (-308) (by rw [e3]; linarith) ?_ ?_
      · rw [show (-308 : ℤ) + 1 = -307 by norm_num, e4]; linarith
      · rw [show (-308 : ℤ) - 5 = -313 by norm_num, e2, abs_lt]
        push_cast
        constructor <;> linarith
    rw [shown_pos h0, hs, show ((222507, -308) : ℕ × ℤ).2 - 5 = -313 by norm_num, e2]
    push_cast
    linarith

/-- A decimal with so many places and so few digits is not a binary number. -/
theorem not_dyadic {d e : ℕ} (h0 : 0 < d) (h : d < 5 ^ e) (k : ℤ) (n : ℕ) : (d : ℚ) / 10 ^ e ≠ k / 2 ^ n := by
  intro hc
  rw [div_eq_div_iff (by positivity) (by positivity)] at hc
  have h1 : (d : ℤ) * 2 ^ n = k * 10 ^ e := by exact_mod_cast hc
  have h2 : ((5 ^ e : ℕ) : ℤ) ∣ (d : ℤ) * 2 ^ n := by
    rw [h1]
    refine Dvd.dvd.mul_left ?_ _
    push_cast
    exact pow_dvd_pow_of_dvd (by norm_num) e
  have h3 : (5 ^ e : ℕ) ∣ d * 2 ^ n := by exact_mod_cast h2
  have h4 : (5 ^ e : ℕ) ∣ d := by
    refine Nat.Coprime.dvd_of_dvd_mul_right ?_ h3
    exact Nat.Coprime.pow _ _ (by norm_num)
  exact absurd (Nat.le_of_dvd h0 h4) (not_le.mpr h)

theorem value_multiple (x : Double) : ∃ k : ℤ, x.value = k / 2 ^ 1074 := by
  obtain ⟨k, hk⟩ := val_multiple x
  refine ⟨k, ?_⟩
  have : ((x.value : ℚ) : ℝ) = (((k : ℚ) / 2 ^ 1074 : ℚ) : ℝ) := by
    change x.val = _
    rw [hk, zpow_neg, show (1074 : ℤ) = ((1074 : ℕ) : ℤ) by norm_num, zpow_natCast]
    push_cast
    rfl
  exact_mod_cast this

theorem five_pow {e : ℕ} (h : 313 ≤ e) : 10000000 < 5 ^ e := by
  calc 10000000 < 5 ^ 313 := by norm_num
    _ ≤ 5 ^ e := Nat.pow_le_pow_right (by norm_num) h

theorem not_limit (x : Double) : |x.value| ≠ 2225075 / 10 ^ 314 := by
  intro h
  obtain ⟨k, hk⟩ := value_multiple x
  rw [hk, abs_div, abs_of_pos (by positivity : (0 : ℚ) < 2 ^ 1074), show |(k : ℚ)| = ((|k| : ℤ) : ℚ) by push_cast; rfl] at h
  refine not_dyadic (d := 2225075) (e := 314) (by norm_num) ?_ |k| 1074 (by rw [Nat.cast_ofNat]; exact h.symm)
  exact lt_trans (by norm_num) (five_pow (e := 314) (by norm_num))

theorem shown_inexact {v : ℚ} (h0 : 0 < v) (h : shown v < 1 / 2 ^ 1022) (x : Double) : |x.value| ≠ shown v := by
  obtain ⟨h1, h2, -⟩ := sixDigits_spec h0
  rw [shown_pos h0] at h ⊢
  generalize (sixDigits v).1 = d at *
  generalize (sixDigits v).2 = X at *
  have hd : (100000 : ℚ) ≤ d := by exact_mod_cast h1
  have hX : X < -307 := by
    by_contra hc
    have h3 : (10 : ℚ) ^ (-312 : ℤ) ≤ 10 ^ (X - 5) := zpow_le_zpow_right₀ (by norm_num) (by omega)
    have h4 : (100000 : ℚ) * 10 ^ (-312 : ℤ) ≤ d * 10 ^ (X - 5) := mul_le_mul hd h3 (by positivity) (by positivity)
    have h5 : (1 : ℚ) / 2 ^ 1022 < 100000 * 10 ^ (-312 : ℤ) := by norm_num
    exact absurd (h4.trans_lt h) (not_lt.mpr h5.le)
  obtain ⟨e, he⟩ : ∃ e : ℕ, X - 5 = -(e : ℤ) := ⟨(5 - X).toNat, by omega⟩
  have he' : 313 ≤ e := by omega
  obtain ⟨k, hk⟩ := value_multiple x
  rw [hk, he, zpow_neg, zpow_natCast, abs_div, abs_of_pos (by positivity : (0 : ℚ) < 2 ^ 1074), show |(k : ℚ)| = ((|k| : ℤ) : ℚ) by push_cast; rfl, ← div_eq_mul_inv]
  exact (not_dyadic (by omega) (lt_trans (by omega) (five_pow he')) _ _).symm

/-! ## Conversion -/

theorem round_neg_eq {v : ℚ} (z : Bool) (h : v ≠ 0) : (round v z).neg = decide (v < 0) := by
  unfold round
  rw [mk'_neg, if_neg h]

theorem cast_max : (((2 ^ 1024 - 2 ^ 971 : ℚ)) : ℝ) = 2 ^ 1024 - 2 ^ 971 := by push_cast; rfl

theorem finite_not_inf {x : Double} (h : x.isFinite = true) : x.isInf = false := (not_nan_of_finite h).2

/-- A number in the normal range. -/
theorem fromDecimal_normal {v : ℚ} (z : Bool) (h1 : 222508 / 10 ^ 313 ≤ |v|) (h2 : |v| ≤ 2 ^ 1024 - 2 ^ 971) :
    fromDecimal v z = some (round v z) ∧ (round v z).isFinite = true ∧ |(round v z).value - v| ≤ 1 / 2 ^ 52 * |v| ∧ (round v z).neg = decide (v < 0) := by
  have hv0 : v ≠ 0 := by
    intro h
    rw [h, abs_zero] at h1
    exact absurd h1 (not_le.mpr (by positivity))
  obtain ⟨e, m, hR⟩ := round_rnd v z
  have hf : (round v z).isFinite = true := by
    apply Double.no_overflow hR
    rw [← cast_max]
    exact_mod_cast h2
  have hT : (1 : ℚ) / 2 ^ 1022 - 1 / 2 ^ 1076 ≤ |v| := by
    refine le_trans ?_ h1
    norm_num
  refine ⟨?_, hf, ?_, round_neg_eq z hv0⟩
  · unfold fromDecimal
    simp only
    rw [finite_not_inf hf, if_neg (by simp), if_neg (fun h => absurd h.1 (not_lt.mpr hT))]
  · have key : |(round v z).val - (v : ℝ)| ≤ 1 / 2 ^ 52 * |(v : ℝ)| := by
      rcases hR.err hf with h | ⟨-, h⟩
      · refine h.trans (mul_le_mul_of_nonneg_right ?_ (abs_nonneg _))
        norm_num
      · refine h.trans ?_
        have h3 : ((222508 / 10 ^ 313 : ℚ) : ℝ) ≤ ((|v| : ℚ) : ℝ) := by exact_mod_cast h1
        rw [Rat.cast_abs] at h3
        refine le_trans ?_ (mul_le_mul_of_nonneg_left h3 (by positivity))
        have h4 : (1 : ℚ) / 2 ^ 1075 ≤ 1 / 2 ^ 52 * (222508 / 10 ^ 313) := by norm_num
        have h5 : (((1 : ℚ) / 2 ^ 1075 : ℚ) : ℝ) ≤ ((1 / 2 ^ 52 * (222508 / 10 ^ 313) : ℚ) : ℝ) := by exact_mod_cast h4
        push_cast at h5 ⊢
        exact h5
    have : ((|(round v z).value - v| : ℚ) : ℝ) ≤ ((1 / 2 ^ 52 * |v| : ℚ) : ℝ) := by
      push_cast
      exact key
    exact_mod_cast this

end Double

end OpenMps
