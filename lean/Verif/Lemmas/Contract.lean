import Verif.Spec.Contract
import Verif.Props.Double

/-! # Lemmas about contracted expressions -/

set_option exponentiation.threshold 2000

namespace OpenMps

open Double

/-- Below `2^1023` nothing overflows. -/
theorem Double.Rnd.close {v : ℝ} {r : Double} {e : ℤ} {m : ℕ} (h : Rnd v r e m) {B : ℝ} (hB : |v| ≤ B) (hv : B ≤ 2 ^ 1023) :
    r.isFinite = true ∧ |r.val - v| ≤ 1 / 2 ^ 53 * B + 1 / 2 ^ 1075 := by
  have hf : r.isFinite = true := by
    apply Double.no_overflow h
    refine (hB.trans hv).trans ?_
    have h1 : (2 : ℝ) ^ 971 ≤ 2 ^ 1023 := pow_le_pow_right₀ (by norm_num) (by norm_num)
    have h2 : (2 : ℝ) ^ 1024 = 2 * 2 ^ 1023 := by rw [← pow_succ']
    rw [h2]
    generalize (2 : ℝ) ^ 971 = a at *
    generalize (2 : ℝ) ^ 1023 = b at *
    linarith
  refine ⟨hf, ?_⟩
  obtain ⟨δ, u, h1, h2, h3⟩ := h.relAbs hf
  have e : r.val - v = v * δ + u := by rw [h3]; ring
  rw [e]
  have : |v * δ| ≤ 1 / 2 ^ 53 * B := by
    rw [abs_mul, mul_comm]
    exact mul_le_mul h1 hB (abs_nonneg _) (by positivity)
  exact (abs_add_le _ _).trans (add_le_add this h2)

/-- Sums are not rounded absolutely. -/
theorem Double.add_close {x y : Double} (hx : x.isFinite = true) (hy : y.isFinite = true) {B : ℝ} (hB : |x.val + y.val| ≤ B) (hv : B ≤ 2 ^ 1023) :
    (x.add y).isFinite = true ∧ |(x.add y).val - (x.val + y.val)| ≤ 1 / 2 ^ 53 * B := by
  obtain ⟨e, m, h⟩ := add_rnd hx hy
  have hf := (h.close hB hv).1
  refine ⟨hf, ?_⟩
  obtain ⟨k, hk⟩ := val_multiple x
  obtain ⟨l, hl⟩ := val_multiple y
  obtain ⟨δ, h1, h3⟩ := h.rel hf (k + l) (by rw [hk, hl]; push_cast; ring)
  have e : (x.add y).val - (x.val + y.val) = (x.val + y.val) * δ := by rw [h3]; ring
  rw [e, abs_mul, mul_comm]
  exact mul_le_mul h1 hB (abs_nonneg _) (by positivity)

theorem Double.fma_rnd {x y z : Double} (hx : x.isFinite = true) (hy : y.isFinite = true) (hz : z.isFinite = true) :
    ∃ e m, Rnd (x.val * y.val + z.val) (fma x y z) e m := by
  unfold fma
  rw [hx, hy, hz, Bool.and_true, if_pos rfl, if_pos rfl]
  have := round_rnd (x.value * y.value + z.value) ((x.neg != y.neg) && z.neg)
  push_cast at this
  exact this

theorem abs_le_of_close {a b e : ℝ} (h : |a - b| ≤ e) : |a| ≤ |b| + e := by
  have := abs_sub_abs_le_abs_sub a b
  linarith

/-- Products of approximations. -/
theorem mul_close {a b x y d e : ℝ} (hx : |x - a| ≤ d) (hy : |y - b| ≤ e) :
    |x * y - a * b| ≤ |a| * e + d * |b| + d * e ∧ |x * y| ≤ (|a| + d) * (|b| + e) := by
  have d0 := (abs_nonneg _).trans hx
  have e0 := (abs_nonneg _).trans hy
  constructor
  · have h : x * y - a * b = a * (y - b) + (x - a) * b + (x - a) * (y - b) := by ring
    rw [h]
    refine (abs_add_le _ _).trans (add_le_add ((abs_add_le _ _).trans (add_le_add ?_ ?_)) ?_)
    · rw [abs_mul]; exact mul_le_mul_of_nonneg_left hy (abs_nonneg _)
    · rw [abs_mul]; exact mul_le_mul_of_nonneg_right hx (abs_nonneg _)
    · rw [abs_mul]; exact mul_le_mul hx hy (abs_nonneg _) d0
  · rw [abs_mul]
    exact mul_le_mul (abs_le_of_close hx) (abs_le_of_close hy) (abs_nonneg _) (by positivity)

/-- One fused operation, for the sum. -/
theorem Double.fma_close {x y z : Double} {a b c d e f : ℝ} (hx : x.isFinite = true) (hy : y.isFinite = true) (hz : z.isFinite = true)
    (ha : |x.val - a| ≤ d) (hb : |y.val - b| ≤ e) (hc : |z.val - c| ≤ f)
    (hv : |a * b + c| + (|a| * e + d * |b| + d * e + 1 / 2 ^ 53 * ((|a| + d) * (|b| + e)) + 1 / 2 ^ 1075) + f ≤ 2 ^ 1023) :
    (fma x y z).isFinite = true ∧ |(fma x y z).val - (a * b + c)| ≤
      (|a| * e + d * |b| + d * e + 1 / 2 ^ 53 * ((|a| + d) * (|b| + e)) + 1 / 2 ^ 1075) + f +
        1 / 2 ^ 53 * (|a * b + c| + (|a| * e + d * |b| + d * e + 1 / 2 ^ 53 * ((|a| + d) * (|b| + e)) + 1 / 2 ^ 1075) + f) := by
  have d0 := (abs_nonneg _).trans ha
  have e0 := (abs_nonneg _).trans hb
  have f0 := (abs_nonneg _).trans hc
  obtain ⟨p1, -⟩ := mul_close ha hb
  have q0 : 0 ≤ 1 / 2 ^ 53 * ((|a| + d) * (|b| + e)) := by positivity
  have η0 : (0 : ℝ) ≤ 1 / 2 ^ 1075 := by positivity
  have hs : |x.val * y.val + z.val - (a * b + c)| ≤ |a| * e + d * |b| + d * e + f := by
    have : x.val * y.val + z.val - (a * b + c) = (x.val * y.val - a * b) + (z.val - c) := by ring
    rw [this]
    exact (abs_add_le _ _).trans (add_le_add p1 hc)
  obtain ⟨k, m, h⟩ := fma_rnd hx hy hz
  generalize |a| * e + d * |b| + d * e = P at *
  generalize 1 / 2 ^ 53 * ((|a| + d) * (|b| + e)) = Q at *
  obtain ⟨g1, g2⟩ := h.close (B := |a * b + c| + P + f) (by linarith [abs_le_of_close hs]) (by
    generalize (2 : ℝ) ^ 1023 = T at *
    generalize (1 : ℝ) / 2 ^ 1075 = η at *
    linarith)
  refine ⟨g1, ?_⟩
  have := abs_sub_le (fma x y z).val (x.val * y.val + z.val) (a * b + c)
  generalize (1 : ℝ) / 2 ^ 1075 = η at *
  have : 1 / 2 ^ 53 * (|a * b + c| + P + f) ≤ 1 / 2 ^ 53 * (|a * b + c| + (P + Q + η) + f) :=
    mul_le_mul_of_nonneg_left (by linarith) (by positivity)
  linarith

theorem Expr.err_nonneg {a : Expr} (h : a.Safe) : 0 ≤ a.err := by
  induction a with
  | num => exact le_refl _
  | neg a ih => exact ih h
  | add a b iha ihb => have := iha h.1; have := ihb h.2.1; unfold err; positivity
  | sub a b iha ihb => have := iha h.1; have := ihb h.2.1; unfold err; positivity
  | mul a b iha ihb =>
    have := iha h.1; have := ihb h.2.1; unfold err
    have : (0 : ℝ) ≤ 1 / 2 ^ 1075 := by positivity
    generalize (1 : ℝ) / 2 ^ 1075 = η at *
    positivity
  | div a b iha ihb =>
    have := iha h.1; have := ihb h.2.1; unfold err
    have : (0 : ℝ) ≤ 1 / 2 ^ 1075 := by positivity
    generalize (1 : ℝ) / 2 ^ 1075 = η at *
    have : 0 < |b.exact| - b.err := by linarith [h.2.2.1]
    positivity
  | sqrt a ih => have := ih h.1; unfold err; positivity

theorem neg_close {x a e : ℝ} (h : |x - a| ≤ e) : |-x - -a| ≤ e := by rw [← neg_sub', abs_neg]; exact h

end OpenMps
