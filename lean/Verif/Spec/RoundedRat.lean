import Verif.Spec.Rounding
import Mathlib.Data.Rat.Floor
import Mathlib.Data.Rat.Cast.Order
import Mathlib.Data.Nat.Sqrt
import Mathlib.Tactic.Linarith
import Mathlib.Tactic.Positivity
import Mathlib.Tactic.NormNum

/-! # A computable rounded arithmetic, for the examples of C47

Rationals; the result of every operation is rounded down to a binary fraction with about 60 significant bits. -/

namespace OpenMps

/-- Number of binary places kept: 60 places after the leading one. -/
def placesRat (q : ℚ) : ℕ := 60 + Nat.log2 q.den - Nat.log2 q.num.natAbs

/-- Round down to a multiple of a power of 2. -/
def rndRat (q : ℚ) : ℚ := (⌊q * 2 ^ placesRat q⌋ : ℚ) / 2 ^ placesRat q

/-- Square root with 60 correct bits. -/
def sqrtRat (q : ℚ) : ℚ := if q ≤ 0 then 0 else (Nat.sqrt (q.num.toNat * q.den * 4 ^ 60) : ℚ) / (q.den * 2 ^ 60)

@[reducible] def instScalarRat : Scalar ℚ where
  zero := 0
  one := 1
  add := fun x y => rndRat (x + y)
  sub := fun x y => rndRat (x - y)
  mul := fun x y => rndRat (x * y)
  div := fun x y => rndRat (x / y)
  neg := fun x => -x
  sqrt := sqrtRat
  abs := fun x => |x|
  lt := fun x y => decide (x < y)
  le := fun x y => decide (x ≤ y)
  eq := fun x y => decide (x = y)
  ofInt := fun k => (k : ℚ)
  floorIdx := fun v => some ⌊v⌋
  ceilIdx := fun v => some ⌈v⌉
  epsilon := 1 / 2 ^ 52

theorem rndRat_err (q : ℚ) : |rndRat q - q| ≤ 1 / 2 ^ 59 * |q| := by
  unfold rndRat
  set k := placesRat q with hk
  have hm : (0 : ℚ) < 2 ^ k := by positivity
  have h1 := Int.floor_le (q * 2 ^ k)
  have h2 := Int.lt_floor_add_one (q * 2 ^ k)
  by_cases hq : q = 0
  · simp [hq]
  have hden : (0 : ℚ) < q.den := by exact_mod_cast q.den_pos
  have hnum : ((2 ^ Nat.log2 q.num.natAbs : ℕ) : ℚ) ≤ |q| * q.den := by
    have h3 : q * q.den = q.num := Rat.mul_den_eq_num q
    have h4 : |q| * q.den = ((q.num.natAbs : ℕ) : ℚ) := by
      rw [Nat.cast_natAbs, Int.cast_abs, ← h3, abs_mul, abs_of_pos hden]
    rw [h4]
    have : 2 ^ Nat.log2 q.num.natAbs ≤ q.num.natAbs := Nat.log2_self_le (by simpa using hq)
    exact_mod_cast this
  have hlog : (q.den : ℚ) * 2 ^ 59 ≤ 2 ^ k * (2 ^ Nat.log2 q.num.natAbs : ℕ) := by
    have : q.den < 2 ^ (Nat.log2 q.den + 1) := Nat.lt_log2_self
    have : q.den * 2 ^ 59 ≤ 2 ^ k * 2 ^ Nat.log2 q.num.natAbs := by
      rw [← pow_add]
      calc q.den * 2 ^ 59 ≤ 2 ^ (Nat.log2 q.den + 1) * 2 ^ 59 := Nat.mul_le_mul_right _ this.le
        _ = 2 ^ (Nat.log2 q.den + 1 + 59) := (pow_add _ _ _).symm
        _ ≤ _ := Nat.pow_le_pow_right (by norm_num) (by rw [hk]; unfold placesRat; omega)
    exact_mod_cast this
  have h5 : |(⌊q * 2 ^ k⌋ : ℚ) / 2 ^ k - q| ≤ 1 / 2 ^ k := by
    have e : (⌊q * 2 ^ k⌋ : ℚ) / 2 ^ k - q = ((⌊q * 2 ^ k⌋ : ℚ) - q * 2 ^ k) / 2 ^ k := by field_simp
    rw [e, abs_div, abs_of_pos hm]
    apply div_le_div_of_nonneg_right _ hm.le
    rw [abs_le]; constructor <;> linarith
  refine h5.trans ?_
  rw [div_le_iff₀ hm]
  have h6 : (q.den : ℚ) * 2 ^ 59 ≤ 2 ^ k * (|q| * q.den) := hlog.trans (mul_le_mul_of_nonneg_left hnum hm.le)
  have h7 : (2 : ℚ) ^ 59 ≤ 2 ^ k * |q| := by
    refine le_of_mul_le_mul_right ?_ hden
    linarith
  have h9 : (1 : ℚ) / 2 ^ 59 * 2 ^ 59 ≤ 1 / 2 ^ 59 * (2 ^ k * |q|) := mul_le_mul_of_nonneg_left h7 (by positivity)
  have h8 : (1 : ℚ) / 2 ^ 59 * 2 ^ 59 = 1 := by norm_num
  linarith

theorem rndRat_nonneg {q : ℚ} (h : 0 ≤ q) : 0 ≤ rndRat q := by
  unfold rndRat
  have : (0 : ℤ) ≤ ⌊q * 2 ^ placesRat q⌋ := Int.floor_nonneg.mpr (by positivity)
  have : (0 : ℚ) ≤ (⌊q * 2 ^ placesRat q⌋ : ℚ) := by exact_mod_cast this
  positivity

/-- Relative error from an absolute bound. -/
theorem RelErr.of_bound {ε a b : ℝ} (h : |a - b| ≤ ε * |b|) (hε : 0 ≤ ε) : RelErr ε a b := by
  by_cases hb : b = 0
  · refine ⟨0, by simpa using hε, ?_⟩
    rw [hb, abs_zero, mul_zero, sub_zero] at h
    rw [hb, abs_nonpos_iff.mp h, zero_mul]
  · refine ⟨(a - b) / b, ?_, by field_simp; ring⟩
    rw [abs_div, div_le_iff₀ (abs_pos.mpr hb)]; exact h

theorem rndRat_rel (q : ℚ) : RelErr (1 / 2 ^ 59) (rndRat q : ℚ) (q : ℚ) := by
  refine RelErr.of_bound ?_ (by positivity)
  have := rndRat_err q
  have h2 : ((|rndRat q - q| : ℚ) : ℝ) ≤ ((1 / 2 ^ 59 * |q| : ℚ) : ℝ) := by exact_mod_cast this
  push_cast at h2
  exact h2

theorem sqrtRat_rel {q : ℚ} (h : 0 ≤ q) : RelErr (1 / 2 ^ 59) (sqrtRat q : ℚ) (Real.sqrt (q : ℚ)) := by
  refine RelErr.of_bound ?_ (by positivity)
  rw [abs_of_nonneg (Real.sqrt_nonneg _)]
  unfold sqrtRat
  by_cases hq : q ≤ 0
  · have : q = 0 := le_antisymm hq h
    rw [if_pos hq, this]; simp
  rw [if_neg hq]
  push Not at hq
  set N := q.num.toNat with hN
  set B := q.den with hB
  have hBpos : (0 : ℝ) < B := by exact_mod_cast q.den_pos
  have hnum : 0 < q.num := Rat.num_pos.mpr hq
  have hNpos : 1 ≤ N := by omega
  have hqe : ((q : ℚ) : ℝ) = (N : ℝ) / B := by
    have h1 : (q.num : ℤ) = (N : ℤ) := (Int.toNat_of_nonneg hnum.le).symm
    have h2 : q = (q.num : ℚ) / (q.den : ℚ) := (Rat.num_div_den q).symm
    rw [h2, h1]; push_cast; rfl
  set T := N * B * 4 ^ 60 with hT
  have h1 : (Nat.sqrt T : ℝ) ≤ Real.sqrt T := Real.nat_sqrt_le_real_sqrt
  have h2 : Real.sqrt T < Nat.sqrt T + 1 := Real.real_sqrt_lt_nat_sqrt_succ
  have hTR : (T : ℝ) = (N * B : ℝ) * (2 ^ 60) ^ 2 := by rw [hT]; push_cast; norm_num
  have hr : Real.sqrt T = Real.sqrt (N * B) * 2 ^ 60 := by
    rw [hTR, Real.sqrt_mul (by positivity), Real.sqrt_sq (by positivity)]
  have hq2 : Real.sqrt ((N : ℝ) / B) = Real.sqrt T / (B * 2 ^ 60) := by
    rw [hr]
    have e : (N : ℝ) / B = (N * B) / (B : ℝ) ^ 2 := by field_simp
    rw [e, Real.sqrt_div (by positivity), Real.sqrt_sq hBpos.le]
    field_simp
  have hone : (2 : ℝ) ^ 60 ≤ Real.sqrt T := by
    rw [hr]
    have : (1 : ℝ) ≤ Real.sqrt (N * B) := by
      rw [Real.one_le_sqrt]
      have : 1 ≤ N * B := Nat.mul_pos hNpos q.den_pos
      exact_mod_cast this
    linarith
  rw [hqe, hq2]
  push_cast
  rw [← sub_div, abs_div, abs_of_pos (show (0 : ℝ) < B * 2 ^ 60 by positivity), ← mul_div_assoc]
  apply div_le_div_of_nonneg_right _ (by positivity)
  rw [abs_le]
  constructor
  · norm_num at *; linarith
  · norm_num at *; linarith

section
attribute [local instance] instScalarRat

/-- This arithmetic is a rounded arithmetic with relative error `2^-59`. -/
noncomputable def roundedRat : Rounding ℚ where
  finite := fun _ => True
  val := fun q => (q : ℝ)
  ε := 1 / 2 ^ 59
  η := 0
  Ω := 2 ^ 1000
  ε_nonneg := by positivity
  η_nonneg := le_rfl
  zero := ⟨trivial, by change ((0 : ℚ) : ℝ) = 0; simp⟩
  one := ⟨trivial, by change ((1 : ℚ) : ℝ) = 1; simp⟩
  two := ⟨trivial, by change (((2 : ℤ) : ℚ) : ℝ) = 2; simp⟩
  add := fun {x y} _ _ _ => ⟨trivial, by
    have := rndRat_rel (x + y)
    rw [Rat.cast_add] at this
    exact this⟩
  sub := fun {x y} _ _ _ => ⟨trivial, by
    have := rndRat_rel (x - y)
    rw [Rat.cast_sub] at this
    exact this⟩
  mul := fun {x y} _ _ _ => ⟨trivial, by
    obtain ⟨δ, h1, h2⟩ := rndRat_rel (x * y)
    rw [Rat.cast_mul] at h2
    exact ⟨δ, 0, h1, by simp, by rw [add_zero]; exact h2⟩⟩
  mul_nonneg := fun {x y} _ _ _ h => by
    have : (0 : ℚ) ≤ x * y := by exact_mod_cast h
    have := rndRat_nonneg this
    change (0 : ℝ) ≤ ((rndRat (x * y) : ℚ) : ℝ)
    exact_mod_cast this
  div := fun {x y} _ _ _ _ => ⟨trivial, by
    obtain ⟨δ, h1, h2⟩ := rndRat_rel (x / y)
    rw [Rat.cast_div] at h2
    exact ⟨δ, 0, h1, by simp, by rw [add_zero]; exact h2⟩⟩
  sqrt := fun {x} _ h => ⟨trivial, sqrtRat_rel (by exact_mod_cast h)⟩
  lt := fun {x y} _ _ => by
    change (decide (x < y) = true) ↔ _
    rw [decide_eq_true_eq]
    exact (Rat.cast_lt (K := ℝ)).symm
  floor := fun {x k} _ h => by
    change some ⌊x⌋ = some k at h
    injection h with h
    rw [← h]
    exact (Rat.floor_cast (α := ℝ) x).symm

theorem roundedRat_doubleLike : roundedRat.DoubleLike := ⟨by change (1 : ℝ) / 2 ^ 59 ≤ _; norm_num, by change (0 : ℝ) ≤ _; norm_num⟩

/-- It does round: `1 / 3` is not represented. -/
example : instScalarRat.mul (instScalarRat.div 1 3) 3 ≠ 1 := by decide +kernel

end

end OpenMps
