import Verif.Spec.Double
import Mathlib.Algebra.Order.Field.Power
import Mathlib.Tactic.Linarith
import Mathlib.Tactic.Positivity
import Mathlib.Tactic.NormNum
import Mathlib.Tactic.FieldSimp
import Mathlib.Tactic.Ring

/-! # Lemmas about `double` -/

set_option exponentiation.threshold 2000

namespace OpenMps
namespace Double

/-- `m` is `s` rounded to the nearest integer, ties to even. -/
def RNE (s : ℝ) (m : ℕ) : Prop := |(m : ℝ) - s| ≤ 1 / 2 ∧ (|(m : ℝ) - s| = 1 / 2 → m % 2 = 0)

theorem nearestEven_spec (n d : ℕ) (hd : 0 < d) : RNE ((n : ℝ) / d) (nearestEven n d) := by
  have hd' : (0 : ℝ) < d := by exact_mod_cast hd
  have hdiv : (n : ℝ) / d = (n / d : ℕ) + (n % d : ℕ) / (d : ℝ) := by
    have h : (n : ℝ) = d * (n / d : ℕ) + (n % d : ℕ) := by exact_mod_cast (Nat.div_add_mod n d).symm
    field_simp
    linarith
  set f := n / d with hf
  set r := n % d with hr
  have hr1 : (r : ℝ) < d := by exact_mod_cast Nat.mod_lt n hd
  have hr0 : (0 : ℝ) ≤ r := Nat.cast_nonneg r
  rw [hdiv]
  set t : ℝ := (r : ℝ) / d with ht
  have t0 : 0 ≤ t := by positivity
  have t1 : t < 1 := (div_lt_one hd').mpr hr1
  unfold nearestEven
  rw [← hf, ← hr]
  split_ifs with h1 h2 h3
  · have h : 2 * (r : ℝ) < d := by exact_mod_cast h1
    have ht2 : t < 1 / 2 := by rw [ht, div_lt_iff₀ hd']; linarith
    have e : (f : ℝ) - (f + t) = -t := by ring
    rw [RNE, e, abs_neg, abs_of_nonneg t0]
    exact ⟨ht2.le, fun h => absurd h (by linarith)⟩
  · have h : (d : ℝ) < 2 * r := by exact_mod_cast h2
    have ht2 : 1 / 2 < t := by rw [ht, lt_div_iff₀ hd']; linarith
    have e : ((f + 1 : ℕ) : ℝ) - (f + t) = 1 - t := by push_cast; ring
    rw [RNE, e, abs_of_pos (by linarith)]
    exact ⟨by linarith, fun h => absurd h (by linarith)⟩
  all_goals
    have h : 2 * (r : ℝ) = d := by
      have : 2 * r = d := by omega
      exact_mod_cast this
    have ht2 : t = 1 / 2 := by rw [ht, div_eq_iff hd'.ne']; linarith
  · rw [RNE, ht2]
    exact ⟨by rw [show (f : ℝ) - (f + 1 / 2) = -(1 / 2) by ring, abs_neg, abs_of_pos (by norm_num)], fun _ => h3⟩
  · rw [RNE, ht2]
    refine ⟨by push_cast; rw [show (f : ℝ) + 1 - (f + 1 / 2) = 1 / 2 by ring, abs_of_pos (by norm_num)], fun _ => by omega⟩

theorem nearestEvenSqrt_spec (n d : ℕ) (hd : 0 < d) : RNE (Real.sqrt ((n : ℝ) / d)) (nearestEvenSqrt n d) := by
  have hd' : (0 : ℝ) < d := by exact_mod_cast hd
  set S : ℝ := (n : ℝ) / d with hS
  have S0 : 0 ≤ S := by positivity
  set s := Real.sqrt S with hs
  have s0 : 0 ≤ s := Real.sqrt_nonneg _
  have ss : s * s = S := Real.mul_self_sqrt S0
  unfold nearestEvenSqrt
  simp only
  set m := Nat.sqrt (n / d) with hm
  have m1 : (m : ℝ) ≤ s := by
    rw [hs]
    apply Real.le_sqrt_of_sq_le
    have h1 : m * m ≤ n / d := Nat.sqrt_le _
    have h2 : m * m * d ≤ n := (Nat.mul_le_mul_right d h1).trans (Nat.div_mul_le_self n d)
    have h3 : (m : ℝ) * m * d ≤ n := by exact_mod_cast h2
    rw [hS, le_div_iff₀ hd']
    linarith [sq (m : ℝ)]
  have m2 : s < m + 1 := by
    rw [hs, Real.sqrt_lt' (by positivity)]
    have h1 : n / d < (m + 1) * (m + 1) := Nat.lt_succ_sqrt _
    have h2 : n < (m + 1) * (m + 1) * d := (Nat.div_lt_iff_lt_mul hd).mp h1
    have h3 : (n : ℝ) < (m + 1) * (m + 1) * d := by exact_mod_cast h2
    rw [hS, div_lt_iff₀ hd']
    nlinarith
  have hk : ∀ {x : ℝ}, 4 * (n : ℝ) - x * d = (4 * S - x) * d := by intro x; rw [hS]; field_simp
  split_ifs with h1 h2 h3
  · have h : 4 * (n : ℝ) < (2 * m + 1) ^ 2 * d := by exact_mod_cast h1
    have h' : 4 * S < (2 * m + 1) ^ 2 := by
      by_contra hc
      push Not at hc
      have := hk (x := (2 * (m : ℝ) + 1) ^ 2)
      have h5 : 0 ≤ (4 * S - (2 * (m : ℝ) + 1) ^ 2) * d := mul_nonneg (by linarith) hd'.le
      linarith
    have : s < m + 1 / 2 := by
      by_contra hc
      push Not at hc
      nlinarith
    rw [RNE, abs_of_nonpos (by linarith)]
    exact ⟨by linarith, fun h => absurd h (by linarith)⟩
  · have h : (2 * (m : ℝ) + 1) ^ 2 * d < 4 * n := by exact_mod_cast h2
    have h' : (2 * (m : ℝ) + 1) ^ 2 < 4 * S := by
      by_contra hc
      push Not at hc
      have := hk (x := (2 * (m : ℝ) + 1) ^ 2)
      have h5 : 0 ≤ ((2 * (m : ℝ) + 1) ^ 2 - 4 * S) * d := mul_nonneg (by linarith) hd'.le
      linarith
    have : m + 1 / 2 < s := by
      by_contra hc
      push Not at hc
      nlinarith
    rw [RNE]
    push_cast
    rw [abs_of_nonneg (by linarith)]
    exact ⟨by linarith, fun h => absurd h (by linarith)⟩
  all_goals
    have h : 4 * (n : ℝ) = (2 * m + 1) ^ 2 * d := by
      have : 4 * n = (2 * m + 1) ^ 2 * d := by omega
      exact_mod_cast this
    have h' : 4 * S = (2 * m + 1) ^ 2 := by
      have := hk (x := (2 * (m : ℝ) + 1) ^ 2)
      rw [h, sub_self] at this
      have := (mul_eq_zero.mp this.symm).resolve_right hd'.ne'
      linarith
    have e : s = m + 1 / 2 := by
      have : (s - (m + 1 / 2)) * (s + (m + 1 / 2)) = 0 := by nlinarith
      rcases mul_eq_zero.mp this with h | h
      · linarith
      · have : (0 : ℝ) ≤ m := Nat.cast_nonneg m
        linarith
  · rw [RNE, e]
    exact ⟨by rw [show (m : ℝ) - (m + 1 / 2) = -(1 / 2) by ring, abs_neg, abs_of_pos (by norm_num)], fun _ => h3⟩
  · rw [RNE, e]
    refine ⟨by push_cast; rw [show (m : ℝ) + 1 - (m + 1 / 2) = 1 / 2 by ring, abs_of_pos (by norm_num)], fun _ => by omega⟩

theorem two_zpow_split (l : ℤ) : (2 : ℝ) ^ l * 2 ^ (-l).toNat = 2 ^ l.toNat := by
  rw [← zpow_natCast, ← zpow_natCast, ← zpow_add₀ (by norm_num)]
  congr 1
  omega

theorem log2Div_spec {n d : ℕ} (hn : n ≠ 0) (hd : 0 < d) : (2 : ℝ) ^ log2Div n d ≤ (n : ℝ) / d ∧ (n : ℝ) / d < 2 ^ (log2Div n d + 1) := by
  have hd' : (0 : ℝ) < d := by exact_mod_cast hd
  have n1 : ((2 : ℝ) ^ Nat.log2 n) ≤ n := by exact_mod_cast Nat.log2_self_le hn
  have n2 : (n : ℝ) < 2 ^ (Nat.log2 n + 1) := by exact_mod_cast Nat.lt_log2_self
  have d1 : ((2 : ℝ) ^ Nat.log2 d) ≤ d := by exact_mod_cast Nat.log2_self_le hd.ne'
  have d2 : (d : ℝ) < 2 ^ (Nat.log2 d + 1) := by exact_mod_cast Nat.lt_log2_self
  unfold log2Div
  simp only
  set a := Nat.log2 n
  set b := Nat.log2 d
  set l : ℤ := (a : ℤ) - b with hl
  have e1 : (2 : ℝ) ^ (l + 1) = 2 ^ (a + 1) / 2 ^ b := by
    rw [eq_div_iff (by positivity), ← zpow_natCast, ← zpow_natCast, ← zpow_add₀ (by norm_num)]
    congr 1
    push_cast
    omega
  have e2 : (2 : ℝ) ^ (l - 1) = 2 ^ a / 2 ^ (b + 1) := by
    rw [eq_div_iff (by positivity), ← zpow_natCast, ← zpow_natCast, ← zpow_add₀ (by norm_num)]
    congr 1
    push_cast
    omega
  have up : (n : ℝ) / d < 2 ^ (l + 1) := by
    rw [e1, div_lt_div_iff₀ hd' (by positivity)]
    calc (n : ℝ) * 2 ^ b < 2 ^ (a + 1) * 2 ^ b := mul_lt_mul_of_pos_right n2 (by positivity)
      _ ≤ 2 ^ (a + 1) * d := mul_le_mul_of_nonneg_left d1 (by positivity)
  have lo : (2 : ℝ) ^ (l - 1) ≤ (n : ℝ) / d := by
    rw [e2, div_le_div_iff₀ (by positivity) hd']
    calc (2 : ℝ) ^ a * d ≤ n * d := mul_le_mul_of_nonneg_right n1 hd'.le
      _ ≤ n * 2 ^ (b + 1) := mul_le_mul_of_nonneg_left d2.le (Nat.cast_nonneg n)
  have key : (d * 2 ^ l.toNat ≤ n * 2 ^ (-l).toNat) ↔ (2 : ℝ) ^ l ≤ (n : ℝ) / d := by
    rw [le_div_iff₀ hd']
    have hp : (0 : ℝ) < 2 ^ (-l).toNat := by positivity
    have h1 := two_zpow_split l
    constructor
    · intro h
      have h' : (d : ℝ) * 2 ^ l.toNat ≤ n * 2 ^ (-l).toNat := by exact_mod_cast h
      rw [← h1] at h'
      refine le_of_mul_le_mul_right ?_ hp
      linarith
    · intro h
      have h' : (d : ℝ) * 2 ^ l.toNat ≤ n * 2 ^ (-l).toNat := by
        rw [← h1]
        have := mul_le_mul_of_nonneg_right h hp.le
        linarith
      exact_mod_cast h'
  split_ifs with h
  · exact ⟨key.mp h, up⟩
  · have h2 := lt_of_not_ge (fun hc => h (key.mpr hc))
    refine ⟨lo, ?_⟩
    rw [show l - 1 + 1 = l by ring]
    exact h2

/-! ## Values -/

/-- The value of a code as a significand and an exponent. -/
theorem mag_eq (c : ℕ) : ((mag c : ℚ) : ℝ) = (c - (c / 2 ^ 52 - 1) * 2 ^ 52 : ℕ) * (2 : ℝ) ^ (((c / 2 ^ 52 - 1 : ℕ) : ℤ) - 1074) := by
  unfold mag
  rw [zpow_sub₀ (by norm_num), zpow_natCast]
  push_cast
  rw [mul_div_assoc]
  norm_cast

/-- Significand `m` with exponent `e`. -/
theorem mag_parts {e : ℤ} {m : ℕ} (he : -1074 ≤ e) (hm : e = -1074 ∨ 2 ^ 52 ≤ m) (hm2 : m ≤ 2 ^ 53) :
    ((mag ((e + 1074).toNat * 2 ^ 52 + m) : ℚ) : ℝ) = m * (2 : ℝ) ^ e := by
  rw [mag_eq]
  obtain ⟨k, rfl⟩ : ∃ k : ℕ, e = (k : ℤ) - 1074 := ⟨(e + 1074).toNat, by omega⟩
  rw [show ((k : ℤ) - 1074 + 1074).toNat = k by omega]
  by_cases h53 : m = 2 ^ 53
  · subst h53
    have e1 : (k * 2 ^ 52 + 2 ^ 53) / 2 ^ 52 - 1 = k + 1 := by omega
    rw [e1]
    have e2 : k * 2 ^ 52 + 2 ^ 53 - (k + 1) * 2 ^ 52 = 2 ^ 52 := by omega
    rw [e2]
    push_cast
    rw [show (k : ℤ) + 1 - 1074 = ((k : ℤ) - 1074) + 1 by ring, zpow_add₀ (by norm_num)]
    norm_num
    ring
  · have hk : (k * 2 ^ 52 + m) / 2 ^ 52 - 1 = k := by
      rcases hm with h | h
      · have : k = 0 := by omega
        subst this
        omega
      · omega
    rw [hk]
    congr 2
    omega

/-- Every code is a significand with an exponent. -/
theorem mag_decomp (c : ℕ) : ∃ (k m : ℕ), ((mag c : ℚ) : ℝ) = m * (2 : ℝ) ^ ((k : ℤ) - 1074) ∧ m < 2 ^ 53 ∧ (k = 0 ∨ 2 ^ 52 ≤ m) ∧ c = k * 2 ^ 52 + m := by
  refine ⟨c / 2 ^ 52 - 1, c - (c / 2 ^ 52 - 1) * 2 ^ 52, mag_eq c, ?_, ?_, ?_⟩ <;> omega

theorem mag_nonneg (c : ℕ) : 0 ≤ mag c := by unfold mag; positivity

theorem mag_zero : mag 0 = 0 := by unfold mag; simp

theorem mag_succ (c : ℕ) : ((mag c : ℚ) : ℝ) < mag (c + 1) := by
  obtain ⟨k, m, h1, h2, h3, h4⟩ := mag_decomp c
  have := mag_parts (e := (k : ℤ) - 1074) (m := m + 1) (by omega) (by omega) (by omega)
  rw [show ((k : ℤ) - 1074 + 1074).toNat = k by omega] at this
  rw [show c + 1 = k * 2 ^ 52 + (m + 1) by omega, this, h1]
  have : (0 : ℝ) < 2 ^ ((k : ℤ) - 1074) := by positivity
  push_cast
  nlinarith

theorem mag_strictMono : StrictMono (fun c => ((mag c : ℚ) : ℝ)) := strictMono_nat_of_lt_succ mag_succ

theorem mag_inf : ((mag infCode : ℚ) : ℝ) = 2 ^ 1024 := by
  have := mag_parts (e := 971) (m := 2 ^ 53) (by norm_num) (by norm_num) (by norm_num)
  rw [show ((971 : ℤ) + 1074).toNat * 2 ^ 52 + 2 ^ 53 = infCode from rfl] at this
  rw [this]
  rw [show (971 : ℤ) = ((971 : ℕ) : ℤ) by norm_num, zpow_natCast]
  rw [Nat.cast_pow, Nat.cast_ofNat, ← pow_add]

/-! ## Rounding -/

/-- `c` is the code of `v` rounded at the place `2^e`. -/
structure At (v : ℝ) (e : ℤ) (m : ℕ) : Prop where
  low : -1074 ≤ e
  lead : e = -1074 ∨ 2 ^ 52 * (2 : ℝ) ^ e ≤ v
  nonneg : 0 ≤ v
  high : v < 2 ^ 53 * (2 : ℝ) ^ e
  rne : RNE (v / 2 ^ e) m

theorem At.bounds {v : ℝ} {e : ℤ} {m : ℕ} (h : At v e m) : (e = -1074 ∨ 2 ^ 52 ≤ m) ∧ m ≤ 2 ^ 53 := by
  have hp : (0 : ℝ) < 2 ^ e := by positivity
  have hs : v / 2 ^ e < 2 ^ 53 := (div_lt_iff₀ hp).mpr h.high
  have hr := abs_le.mp h.rne.1
  constructor
  · rcases h.lead with h1 | h1
    · exact Or.inl h1
    · right
      have hs2 : 2 ^ 52 ≤ v / 2 ^ e := (le_div_iff₀ hp).mpr h1
      by_contra hc
      have : (m : ℝ) ≤ 2 ^ 52 - 1 := by
        have : m + 1 ≤ 2 ^ 52 := by omega
        have : (m : ℝ) + 1 ≤ 2 ^ 52 := by exact_mod_cast this
        linarith
      linarith
  · by_contra hc
    have : (2 : ℝ) ^ 53 + 1 ≤ m := by
      have : 2 ^ 53 + 1 ≤ m := by omega
      exact_mod_cast this
    linarith

def At.code (e : ℤ) (m : ℕ) : ℕ := (e + 1074).toNat * 2 ^ 52 + m

theorem At.mag {v : ℝ} {e : ℤ} {m : ℕ} (h : At v e m) : ((Double.mag (At.code e m) : ℚ) : ℝ) = m * (2 : ℝ) ^ e :=
  mag_parts h.low h.bounds.1 h.bounds.2

/-- Nearest integer. -/
theorem RNE.nearest {s : ℝ} {m : ℕ} (h : RNE s m) (k : ℤ) : |(m : ℝ) - s| ≤ |(k : ℝ) - s| ∧ (|(k : ℝ) - s| = |(m : ℝ) - s| → (k : ℝ) ≠ m → m % 2 = 0) := by
  by_cases hk : k = m
  · subst hk
    exact ⟨le_refl _, fun _ h => absurd rfl h⟩
  · have h1 : (1 : ℝ) ≤ |(k : ℝ) - m| := by
      have : (1 : ℤ) ≤ |k - m| := Int.one_le_abs (by omega)
      exact_mod_cast this
    have h2 : |(k : ℝ) - m| ≤ |(k : ℝ) - s| + |(m : ℝ) - s| := by
      have := abs_sub_le (k : ℝ) s m
      rw [abs_sub_comm s] at this
      exact this
    have h3 := h.1
    exact ⟨by linarith, fun he _ => h.2 (by linarith)⟩

/-- No code has a value nearer to `v`, and another one equally near only if the code is even. -/
theorem At.nearest {v : ℝ} {e : ℤ} {m : ℕ} (h : At v e m) (c : ℕ) :
    |((Double.mag (At.code e m) : ℚ) : ℝ) - v| ≤ |((Double.mag c : ℚ) : ℝ) - v| ∧
    (|((Double.mag c : ℚ) : ℝ) - v| = |((Double.mag (At.code e m) : ℚ) : ℝ) - v| → ((Double.mag c : ℚ) : ℝ) ≠ Double.mag (At.code e m) →
      At.code e m % 2 = 0) := by
  have hp : (0 : ℝ) < 2 ^ e := by positivity
  rw [h.mag]
  obtain ⟨k, m', h1, h2, h3, -⟩ := mag_decomp c
  have hsv : v = v / 2 ^ e * 2 ^ e := by field_simp
  have hscale : ∀ x : ℝ, |x * 2 ^ e - v| = |x - v / 2 ^ e| * 2 ^ e := by
    intro x
    rw [show x * 2 ^ e - v = (x - v / 2 ^ e) * 2 ^ e by field_simp, abs_mul, abs_of_pos hp]
  rw [hscale]
  have hcode : m % 2 = 0 → At.code e m % 2 = 0 := by intro h; unfold At.code; omega
  by_cases hke : e ≤ (k : ℤ) - 1074
  · -- a multiple of `2^e`
    obtain ⟨j, hj⟩ : ∃ j : ℕ, (k : ℤ) - 1074 = e + j := ⟨((k : ℤ) - 1074 - e).toNat, by omega⟩
    have e1 : ((Double.mag c : ℚ) : ℝ) = ((m' * 2 ^ j : ℕ) : ℤ) * (2 : ℝ) ^ e := by
      rw [h1, hj, zpow_add₀ (by norm_num), zpow_natCast]
      push_cast
      ring
    rw [e1, hscale]
    obtain ⟨n1, n2⟩ := h.rne.nearest ((m' * 2 ^ j : ℕ) : ℤ)
    refine ⟨mul_le_mul_of_nonneg_right n1 hp.le, fun he hne => hcode (n2 (mul_right_cancel₀ hp.ne' he) ?_)⟩
    intro hc
    rw [hc] at hne
    exact hne rfl
  · -- below the binade of `v`
    push Not at hke
    have hlead := h.lead.resolve_left (by have := h.low; omega)
    have hz : ((Double.mag c : ℚ) : ℝ) < 2 ^ 52 * 2 ^ e := by
      rw [h1]
      have h4 : (m' : ℝ) < 2 ^ 53 := by exact_mod_cast h2
      calc (m' : ℝ) * 2 ^ ((k : ℤ) - 1074) < 2 ^ 53 * 2 ^ ((k : ℤ) - 1074) := mul_lt_mul_of_pos_right h4 (by positivity)
        _ ≤ 2 ^ 53 * 2 ^ (e - 1) := mul_le_mul_of_nonneg_left (zpow_le_zpow_right₀ (by norm_num) (by omega)) (by positivity)
        _ = 2 ^ 52 * 2 ^ e := by rw [zpow_sub₀ (by norm_num)]; ring
    have n1 := (h.rne.nearest ((2 ^ 52 : ℕ) : ℤ)).1
    have n2 : |(m : ℝ) - v / 2 ^ e| * 2 ^ e ≤ |2 ^ 52 * 2 ^ e - v| := by
      have hcast : ((((2 : ℕ) ^ 52 : ℕ) : ℤ) : ℝ) = 2 ^ 52 := by norm_num
      rw [hcast] at n1
      rw [hscale]
      exact mul_le_mul_of_nonneg_right n1 hp.le
    rw [abs_of_nonpos (show 2 ^ 52 * (2 : ℝ) ^ e - v ≤ 0 by linarith)] at n2
    rw [abs_of_nonpos (show ((Double.mag c : ℚ) : ℝ) - v ≤ 0 by linarith)]
    exact ⟨by linarith, fun he _ => absurd he (by intro h; linarith)⟩

/-- When the code reaches infinity. -/
theorem At.overflow {v : ℝ} {e : ℤ} {m : ℕ} (h : At v e m) : infCode ≤ At.code e m ↔ (2 : ℝ) ^ 1024 - 2 ^ 970 ≤ v := by
  have hp : (0 : ℝ) < 2 ^ e := by positivity
  have hb := h.bounds
  have p971 : (2 : ℝ) ^ (971 : ℤ) = 2 ^ 971 := by rw [show (971 : ℤ) = ((971 : ℕ) : ℤ) by norm_num, zpow_natCast]
  have p1024 : (2 : ℝ) ^ 1024 = 2 ^ 53 * 2 ^ 971 := by rw [← pow_add]
  have p970 : (2 : ℝ) ^ 971 = 2 * 2 ^ 970 := by rw [← pow_succ']
  have q0 : (0 : ℝ) < 2 ^ 970 := by positivity
  unfold infCode At.code
  rcases lt_trichotomy e 971 with he | he | he
  · have h1 : ¬ 2047 * 2 ^ 52 ≤ (e + 1074).toNat * 2 ^ 52 + m := by
      have := h.low
      have := hb.2
      omega
    have h2 : v < 2 ^ 53 * 2 ^ 970 := by
      refine h.high.trans_le (mul_le_mul_of_nonneg_left ?_ (by positivity))
      have : (2 : ℝ) ^ e ≤ 2 ^ ((970 : ℕ) : ℤ) := zpow_le_zpow_right₀ (by norm_num) (by push_cast; omega)
      rwa [zpow_natCast] at this
    refine ⟨fun h => absurd h h1, fun h3 => ?_⟩
    rw [p1024, p970] at h3
    exfalso
    generalize (2 : ℝ) ^ 970 = q at *
    norm_num at h2 h3
    linarith
  · subst he
    have h1 : 2047 * 2 ^ 52 ≤ ((971 : ℤ) + 1074).toNat * 2 ^ 52 + m ↔ m = 2 ^ 53 := by
      have := hb.2
      omega
    rw [h1, p1024, p970]
    have hr := h.rne
    rw [p971, p970] at hr
    have hhi := h.high
    rw [p971, p970] at hhi
    generalize (2 : ℝ) ^ 970 = q at *
    have ha := abs_le.mp hr.1
    have hv : v = v / (2 * q) * (2 * q) := by field_simp
    set s := v / (2 * q) with hs
    have hs53 : s < 2 ^ 53 := by
      rw [hs, div_lt_iff₀ (by linarith)]; exact hhi
    constructor
    · intro hm
      rw [hm] at ha
      push_cast at ha
      have : (2 : ℝ) ^ 53 - 1 / 2 ≤ s := by linarith
      have h5 := mul_le_mul_of_nonneg_right this (show 0 ≤ 2 * q by linarith)
      rw [hv]
      norm_num at h5 ⊢
      linarith
    · intro h3
      have h4 : (2 : ℝ) ^ 53 - 1 / 2 ≤ s := by
        rw [hs, le_div_iff₀ (by linarith)]
        norm_num at h3 ⊢
        linarith
      by_contra hm
      have hm' : m ≤ 2 ^ 53 - 1 := by have := hb.2; omega
      have hm2 : (m : ℝ) ≤ 2 ^ 53 - 1 := by
        have : m + 1 ≤ 2 ^ 53 := by omega
        have : (m : ℝ) + 1 ≤ 2 ^ 53 := by exact_mod_cast this
        linarith
      have hs' : s = 2 ^ 53 - 1 / 2 := by linarith
      have hmm : (m : ℝ) = 2 ^ 53 - 1 := by linarith
      have := hr.2 (by rw [hmm, hs']; norm_num)
      have hmN : m = 2 ^ 53 - 1 := by
        have : (m : ℝ) + 1 = 2 ^ 53 := by linarith
        have : m + 1 = 2 ^ 53 := by exact_mod_cast this
        omega
      omega
  · have h1 : 2047 * 2 ^ 52 ≤ (e + 1074).toNat * 2 ^ 52 + m := by
      have := hb.1
      omega
    refine ⟨fun _ => ?_, fun _ => h1⟩
    have hl := h.lead.resolve_left (by omega)
    have h2 : (2 : ℝ) ^ 52 * 2 ^ 972 ≤ v := by
      refine le_trans (mul_le_mul_of_nonneg_left ?_ (by positivity)) hl
      have : (2 : ℝ) ^ ((972 : ℕ) : ℤ) ≤ 2 ^ e := zpow_le_zpow_right₀ (by norm_num) (by push_cast; omega)
      rwa [zpow_natCast] at this
    rw [← pow_add, show 52 + 972 = 1024 from rfl] at h2
    generalize (2 : ℝ) ^ 1024 = p at *
    generalize (2 : ℝ) ^ 970 = q at *
    linarith

theorem roundMag_at (n d : ℕ) (hd : 0 < d) : ∃ e m, At ((n : ℝ) / d) e m ∧ roundMag n d = min infCode (At.code e m) := by
  have hd' : (0 : ℝ) < d := by exact_mod_cast hd
  unfold roundMag
  by_cases hn : n = 0
  · refine ⟨-1074, 0, ⟨le_refl _, Or.inl rfl, by positivity, by rw [hn]; simp, ?_⟩, ?_⟩
    · rw [hn]; simp [RNE]
    · rw [if_pos hn]; simp [At.code]
  · rw [if_neg hn]
    obtain ⟨l1, l2⟩ := log2Div_spec hn hd
    simp only
    set l := log2Div n d
    set e := max (l - 52) (-1074) with he
    refine ⟨e, nearestEven (n * 2 ^ (-e).toNat) (d * 2 ^ e.toNat), ⟨le_max_right _ _, ?_, by positivity, ?_, ?_⟩, rfl⟩
    · by_cases h : e = -1074
      · exact Or.inl h
      · right
        have e2 : e = l - 52 := by omega
        refine le_trans (le_of_eq ?_) l1
        rw [e2, show (2 : ℝ) ^ 52 = 2 ^ ((52 : ℕ) : ℤ) by rw [zpow_natCast], ← zpow_add₀ (by norm_num)]
        congr 1
        push_cast
        ring
    · refine l2.trans_le ?_
      rw [show (2 : ℝ) ^ 53 = 2 ^ ((53 : ℕ) : ℤ) by rw [zpow_natCast], ← zpow_add₀ (by norm_num)]
      apply zpow_le_zpow_right₀ (by norm_num)
      push_cast
      omega
    · have := nearestEven_spec (n * 2 ^ (-e).toNat) (d * 2 ^ e.toNat) (by positivity)
      have e2 : (n : ℝ) / d / 2 ^ e = ((n * 2 ^ (-e).toNat : ℕ) : ℝ) / ((d * 2 ^ e.toNat : ℕ) : ℝ) := by
        push_cast
        rw [← two_zpow_split e]
        have : (0 : ℝ) < 2 ^ (-e).toNat := by positivity
        field_simp
      rw [e2]
      exact this

theorem sqrtMag_at (n d : ℕ) (hn : n ≠ 0) (hd : 0 < d) : ∃ e m, At (Real.sqrt ((n : ℝ) / d)) e m ∧ sqrtMag n d = min infCode (At.code e m) := by
  have hd' : (0 : ℝ) < d := by exact_mod_cast hd
  unfold sqrtMag
  rw [if_neg hn]
  obtain ⟨l1, l2⟩ := log2Div_spec hn hd
  simp only
  set l := log2Div n d
  set e := max (l / 2 - 52) (-1074) with he
  have z4 : ∀ k : ℤ, ((2 : ℝ) ^ k) ^ 2 = 2 ^ (2 * k) := by
    intro k
    rw [← zpow_natCast, ← zpow_mul]
    congr 1
    push_cast
    ring
  refine ⟨e, nearestEvenSqrt (n * 4 ^ (-e).toNat) (d * 4 ^ e.toNat), ⟨le_max_right _ _, ?_, Real.sqrt_nonneg _, ?_, ?_⟩, rfl⟩
  · by_cases h : e = -1074
    · exact Or.inl h
    · right
      have e2 : e = l / 2 - 52 := by omega
      apply Real.le_sqrt_of_sq_le
      refine le_trans ?_ l1
      rw [e2, show (2 : ℝ) ^ 52 = 2 ^ ((52 : ℕ) : ℤ) by rw [zpow_natCast], ← zpow_add₀ (by norm_num), z4]
      apply zpow_le_zpow_right₀ (by norm_num)
      push_cast
      omega
  · rw [Real.sqrt_lt' (by positivity)]
    refine l2.trans_le ?_
    rw [show (2 : ℝ) ^ 53 = 2 ^ ((53 : ℕ) : ℤ) by rw [zpow_natCast], ← zpow_add₀ (by norm_num), z4]
    apply zpow_le_zpow_right₀ (by norm_num)
    push_cast
    omega
  · have := nearestEvenSqrt_spec (n * 4 ^ (-e).toNat) (d * 4 ^ e.toNat) (by positivity)
    have hp : (0 : ℝ) < 2 ^ e := by positivity
    have e2 : Real.sqrt ((n : ℝ) / d) / 2 ^ e = Real.sqrt (((n * 4 ^ (-e).toNat : ℕ) : ℝ) / ((d * 4 ^ e.toNat : ℕ) : ℝ)) := by
      have e3 : Real.sqrt ((n : ℝ) / d) / 2 ^ e = Real.sqrt ((n : ℝ) / d / (2 ^ e) ^ 2) := by
        rw [Real.sqrt_div' ((n : ℝ) / d) (by positivity : (0 : ℝ) ≤ (2 ^ e) ^ 2), Real.sqrt_sq hp.le]
      rw [e3]
      congr 1
      push_cast
      rw [show (4 : ℝ) = 2 ^ 2 by norm_num, ← pow_mul, ← pow_mul, mul_comm 2 e.toNat, mul_comm 2 (-e).toNat, pow_mul, pow_mul, ← two_zpow_split e]
      have : (0 : ℝ) < 2 ^ (-e).toNat := by positivity
      field_simp
    rw [e2]
    exact this

end Double
end OpenMps
