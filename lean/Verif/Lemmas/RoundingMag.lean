import Verif.Lemmas.RoundingDensity
import Verif.Spec.RoundingForces
import Mathlib.Tactic.Positivity
import Mathlib.Tactic.GCongr

/-! # Errors of sums, products and quotients

`R.Mag x t m k b`: the scalar `x` stands for the exact value `t` of size at most `m`, with an error of at most `k` roundings relative to the size `m`;
`m` is between `2^-b` and `2^b`. -/

set_option linter.unusedSectionVars false

namespace OpenMps

variable {F : Type} [Scalar F] {D : Nat}

structure Rounding.Mag (R : Rounding F) (x : F) (t m : ℝ) (k b : ℕ) : Prop where
  fin : R.finite x
  abs : |t| ≤ m
  err : |R.val x - t| ≤ k * e50 * m
  lo : 1 / 2 ^ b ≤ m
  hi : m ≤ 2 ^ b

theorem e50_pos : 0 < e50 := by unfold e50; norm_num

theorem Rounding.Mag.pos {R : Rounding F} {x : F} {t m : ℝ} {k b : ℕ} (h : R.Mag x t m k b) : 0 < m :=
  lt_of_lt_of_le (by positivity) h.lo

theorem Rounding.Mag.val_le {R : Rounding F} {x : F} {t m : ℝ} {k b : ℕ} (h : R.Mag x t m k b) : |R.val x| ≤ m + k * e50 * m := by
  have := abs_add_le (R.val x - t) t
  rw [sub_add_cancel] at this
  linarith [h.err, h.abs]

theorem Rounding.Mag.cast {R : Rounding F} {x : F} {t t' m m' : ℝ} {k b : ℕ} (h : R.Mag x t m k b) (ht : t = t') (hm : m = m') :
    R.Mag x t' m' k b := by
  rw [← ht, ← hm]; exact h

/-- Larger sizes. -/
theorem Rounding.Mag.mono {R : Rounding F} {x : F} {t m m' : ℝ} {k k' b b' : ℕ} (h : R.Mag x t m k b) (hm : m ≤ m') (hk : k ≤ k')
    (hb : b ≤ b') (hi : m' ≤ 2 ^ b') : R.Mag x t m' k' b' := by
  have hk' : (k : ℝ) ≤ k' := by exact_mod_cast hk
  have e0 := e50_pos
  have m0 := h.pos
  refine ⟨h.fin, h.abs.trans hm, h.err.trans ?_, ?_, hi⟩
  · gcongr
  · refine le_trans ?_ (h.lo.trans hm)
    apply one_div_le_one_div_of_le (by positivity)
    exact pow_le_pow_right₀ (by norm_num) hb

theorem small_k {k : ℕ} (hk : k ≤ 2 ^ 22) : (k : ℝ) * e50 ≤ 1 / 2 ^ 28 := by
  have h : (k : ℝ) ≤ 4194304 := by exact_mod_cast hk
  unfold e50
  norm_num
  linarith

theorem two_900 : (2 : ℝ) * 2 ^ 900 ≤ 2 ^ 910 := by
  rw [← pow_succ']
  exact pow_le_pow_right₀ (by norm_num) (by norm_num)

/-- Products. -/
theorem Rounding.Mag.mul {R : Rounding F} (hR : R.DoubleLike) (hW : R.Wide) {x y : F} {s t m n : ℝ} {k l b c : ℕ} (hx : R.Mag x s m k b)
    (hy : R.Mag y t n l c) (hk : k ≤ 2 ^ 22) (hl : l ≤ 2 ^ 22) (hkl : k * l ≤ 2 ^ 40) (hb : b + c ≤ 900) : R.Mag (x * y) (s * t) (m * n) (k + l + 3) (b + c) := by
  have e0 := e50_pos
  have m0 := hx.pos
  have n0 := hy.pos
  have k0 : (0 : ℝ) ≤ k := Nat.cast_nonneg k
  have l0 : (0 : ℝ) ≤ l := Nat.cast_nonneg l
  have hk' := small_k hk
  have hl' := small_k hl
  have lo : 1 / 2 ^ (b + c) ≤ m * n := by
    rw [pow_add, ← one_div_mul_one_div]
    exact mul_le_mul hx.lo hy.lo (by positivity) m0.le
  have hi : m * n ≤ 2 ^ (b + c) := by
    rw [pow_add]; exact mul_le_mul hx.hi hy.hi n0.le (by positivity)
  have mn0 : 0 < m * n := mul_pos m0 n0
  have key : |R.val x * R.val y - s * t| ≤ (k + l + 1 / 2) * e50 * (m * n) := by
    have e : R.val x * R.val y - s * t = (R.val x - s) * R.val y + s * (R.val y - t) := by ring
    rw [e]
    refine (abs_add_le _ _).trans ?_
    rw [abs_mul, abs_mul]
    have h1 : |R.val x - s| * |R.val y| ≤ (k * e50 * m) * (n + l * e50 * n) :=
      mul_le_mul hx.err hy.val_le (abs_nonneg _) (by positivity)
    have h2 : |s| * |R.val y - t| ≤ m * (l * e50 * n) := mul_le_mul hx.abs hy.err (abs_nonneg _) m0.le
    have h3 : (k : ℝ) * (l * e50) ≤ 1 / 2 := by
      have : (k : ℝ) * l ≤ 1099511627776 := by exact_mod_cast hkl
      rw [← mul_assoc]
      unfold e50
      norm_num
      linarith
    have h4 : (k : ℝ) * (l * e50) * (e50 * (m * n)) ≤ 1 / 2 * (e50 * (m * n)) := mul_le_mul_of_nonneg_right h3 (by positivity)
    nlinarith
  have hkl : (k + l + 1 / 2) * e50 ≤ 1 / 2 ^ 20 := by
    have : (k + l + 1 / 2) * e50 = k * e50 + l * e50 + 1 / 2 * e50 := by ring
    rw [this]
    have : e50 = 1 / 2 ^ 50 := rfl
    rw [this] at hk' hl' ⊢
    norm_num at hk' hl' ⊢
    linarith
  have hab : |R.val x * R.val y| ≤ (1 + 1 / 2 ^ 20) * (m * n) := by
    have h1 := abs_add_le (R.val x * R.val y - s * t) (s * t)
    rw [sub_add_cancel] at h1
    have h2 : |s * t| ≤ m * n := by rw [abs_mul]; exact mul_le_mul hx.abs hy.abs (abs_nonneg _) m0.le
    have h3 := mul_le_mul_of_nonneg_right hkl mn0.le
    linarith
  have hΩ : |R.val x * R.val y| ≤ R.Ω := by
    refine hab.trans (le_trans ?_ hW.Ω_ge)
    have : m * n ≤ 2 ^ 900 := hi.trans (pow_le_pow_right₀ (by norm_num) hb)
    calc (1 + 1 / 2 ^ 20) * (m * n) ≤ 2 * 2 ^ 900 := mul_le_mul (by norm_num) this mn0.le (by norm_num)
      _ ≤ 2 ^ 910 := two_900
  obtain ⟨f, g⟩ := R.mul hx.fin hy.fin hΩ
  have g := g.bounds hR.ε_le
  refine ⟨f, ?_, ?_, lo, hi⟩
  · rw [abs_mul]; exact mul_le_mul hx.abs hy.abs (abs_nonneg _) m0.le
  · have hη : R.η ≤ e50 * (m * n) := by
      refine hW.η_le.trans ?_
      have h1 : (1 : ℝ) / 2 ^ 900 ≤ m * n := by
        refine le_trans ?_ lo
        apply one_div_le_one_div_of_le (by positivity)
        exact pow_le_pow_right₀ (by norm_num) hb
      have h2 := mul_le_mul_of_nonneg_left h1 e0.le
      refine le_trans ?_ h2
      unfold e50
      rw [div_mul_div_comm, ← pow_add, one_mul]
      apply one_div_le_one_div_of_le (by positivity)
      exact pow_le_pow_right₀ (by norm_num) (by norm_num)
    have h1 := abs_add_le (R.val (x * y) - R.val x * R.val y) (R.val x * R.val y - s * t)
    rw [sub_add_sub_cancel] at h1
    have h2 := mul_le_mul_of_nonneg_left hab e0.le
    push_cast
    have h3 : e50 * ((1 + 1 / 2 ^ 20) * (m * n)) ≤ 3 / 2 * (e50 * (m * n)) := by
      have : 0 < e50 * (m * n) := by positivity
      nlinarith
    linarith

/-- Quotients by a number known with a small relative error. -/
theorem Rounding.Mag.div {R : Rounding F} (hR : R.DoubleLike) (hW : R.Wide) {x y : F} {s t m : ℝ} {k l b c : ℕ} (hx : R.Mag x s m k b)
    (hy : R.Mag y t |t| l c) (hk : k ≤ 2 ^ 10) (hl : l ≤ 2 ^ 10) (hb : b + c ≤ 900) :
    R.Mag (x / y) (s / t) (m / |t|) (k + l + 3) (b + c) := by
  have e0 := e50_pos
  have m0 := hx.pos
  have n0 := hy.pos
  have t0 : t ≠ 0 := abs_pos.mp n0
  have k0 : (0 : ℝ) ≤ k := Nat.cast_nonneg k
  have l0 : (0 : ℝ) ≤ l := Nat.cast_nonneg l
  have hk' : (k : ℝ) * e50 ≤ 1 / 2 ^ 40 := by
    have : (k : ℝ) ≤ 1024 := by exact_mod_cast hk
    unfold e50; norm_num; linarith
  have hl' : (l : ℝ) * e50 ≤ 1 / 2 ^ 40 := by
    have : (l : ℝ) ≤ 1024 := by exact_mod_cast hl
    unfold e50; norm_num; linarith
  have lo : 1 / 2 ^ (b + c) ≤ m / |t| := by
    rw [pow_add, ← div_div]
    exact div_le_div₀ m0.le hx.lo n0 hy.hi
  have hi : m / |t| ≤ 2 ^ (b + c) := by
    rw [div_le_iff₀ n0, pow_add]
    have h1 : (1 : ℝ) ≤ 2 ^ c * |t| := by
      have := mul_le_mul_of_nonneg_left hy.lo (show (0 : ℝ) ≤ 2 ^ c by positivity)
      rw [mul_one_div_cancel (by positivity)] at this
      exact this
    calc m ≤ 2 ^ b * 1 := by rw [mul_one]; exact hx.hi
      _ ≤ 2 ^ b * (2 ^ c * |t|) := mul_le_mul_of_nonneg_left h1 (by positivity)
      _ = _ := by ring
  have mn0 : 0 < m / |t| := div_pos m0 n0
  set y' := R.val y with hy'
  have yl : (1 - 1 / 2 ^ 40) * |t| ≤ |y'| := by
    have h1 := abs_sub_abs_le_abs_sub t y'
    rw [abs_sub_comm] at h1
    have h2 := hy.err
    have h3 := mul_le_mul_of_nonneg_right hl' n0.le
    linarith
  have y0 : 0 < |y'| := lt_of_lt_of_le (mul_pos (by norm_num) n0) yl
  have yne : y' ≠ 0 := abs_pos.mp y0
  have key : |R.val x / y' - s / t| ≤ (k + l + 1 / 2) * e50 * (m / |t|) := by
    have e : R.val x / y' - s / t = ((R.val x - s) * t + s * (t - y')) / (y' * t) := by field_simp; ring
    rw [e, abs_div, abs_mul, div_le_iff₀ (mul_pos y0 n0)]
    have h1 : |(R.val x - s) * t + s * (t - y')| ≤ (k * e50 * m) * |t| + m * (l * e50 * |t|) := by
      refine (abs_add_le _ _).trans ?_
      rw [abs_mul, abs_mul]
      apply add_le_add
      · exact mul_le_mul_of_nonneg_right hx.err (abs_nonneg _)
      · rw [abs_sub_comm]; exact mul_le_mul hx.abs hy.err (abs_nonneg _) m0.le
    refine h1.trans ?_
    have h2 : (k + l + 1 / 2) * e50 * (m / |t|) * (|y'| * |t|) = (k + l + 1 / 2) * e50 * m * |y'| := by field_simp
    rw [h2]
    have h3 : (k + l + 1 / 2) * e50 * m * ((1 - 1 / 2 ^ 40) * |t|) ≤ (k + l + 1 / 2) * e50 * m * |y'| :=
      mul_le_mul_of_nonneg_left yl (by positivity)
    refine le_trans ?_ h3
    have h4 : (k : ℝ) + l ≤ (k + l + 1 / 2) * (1 - 1 / 2 ^ 40) := by
      have a1 : (k : ℝ) ≤ 1024 := by exact_mod_cast hk
      have a2 : (l : ℝ) ≤ 1024 := by exact_mod_cast hl
      norm_num
      linarith
    have h5 := mul_le_mul_of_nonneg_right h4 (show 0 ≤ e50 * m * |t| by positivity)
    linarith
  have hkl : (k + l + 1 / 2) * e50 ≤ 1 / 2 ^ 20 := by
    have : (k + l + 1 / 2) * e50 = k * e50 + l * e50 + 1 / 2 * e50 := by ring
    rw [this]
    have : e50 = 1 / 2 ^ 50 := rfl
    rw [this] at hk' hl' ⊢
    norm_num at hk' hl' ⊢
    linarith
  have hst : |s / t| ≤ m / |t| := by rw [abs_div]; exact div_le_div_of_nonneg_right hx.abs n0.le
  have hab : |R.val x / y'| ≤ (1 + 1 / 2 ^ 20) * (m / |t|) := by
    have h1 := abs_add_le (R.val x / y' - s / t) (s / t)
    rw [sub_add_cancel] at h1
    have h3 := mul_le_mul_of_nonneg_right hkl mn0.le
    linarith
  have hΩ : |R.val x / y'| ≤ R.Ω := by
    refine hab.trans (le_trans ?_ hW.Ω_ge)
    have : m / |t| ≤ 2 ^ 900 := hi.trans (pow_le_pow_right₀ (by norm_num) hb)
    calc (1 + 1 / 2 ^ 20) * (m / |t|) ≤ 2 * 2 ^ 900 := mul_le_mul (by norm_num) this mn0.le (by norm_num)
      _ ≤ 2 ^ 910 := two_900
  obtain ⟨f, g⟩ := R.div hx.fin hy.fin yne hΩ
  have g := g.bounds hR.ε_le
  refine ⟨f, hst, ?_, lo, hi⟩
  have hη : R.η ≤ e50 * (m / |t|) := by
    refine hW.η_le.trans ?_
    have h1 : (1 : ℝ) / 2 ^ 900 ≤ m / |t| := by
      refine le_trans ?_ lo
      apply one_div_le_one_div_of_le (by positivity)
      exact pow_le_pow_right₀ (by norm_num) hb
    have h2 := mul_le_mul_of_nonneg_left h1 e0.le
    refine le_trans ?_ h2
    unfold e50
    rw [div_mul_div_comm, ← pow_add, one_mul]
    apply one_div_le_one_div_of_le (by positivity)
    exact pow_le_pow_right₀ (by norm_num) (by norm_num)
  have h1 := abs_add_le (R.val (x / y) - R.val x / y') (R.val x / y' - s / t)
  rw [sub_add_sub_cancel] at h1
  have h2 := mul_le_mul_of_nonneg_left hab e0.le
  push_cast
  have h3 : e50 * ((1 + 1 / 2 ^ 20) * (m / |t|)) ≤ 3 / 2 * (e50 * (m / |t|)) := by
    have : 0 < e50 * (m / |t|) := by positivity
    nlinarith
  linarith

/-- Sums. -/
theorem Rounding.Mag.add {R : Rounding F} (hR : R.DoubleLike) (hW : R.Wide) {x y : F} {s t m n : ℝ} {k b b' c : ℕ} (hx : R.Mag x s m k b)
    (hy : R.Mag y t n k c) (hk : k ≤ 2 ^ 22) (hb : b ≤ b') (hi : m + n ≤ 2 ^ b') (hb' : b' ≤ 900) :
    R.Mag (x + y) (s + t) (m + n) (k + 2) b' := by
  have e0 := e50_pos
  have m0 := hx.pos
  have n0 := hy.pos
  have hk' := small_k hk
  have key : |R.val x + R.val y - (s + t)| ≤ k * e50 * (m + n) := by
    have e : R.val x + R.val y - (s + t) = (R.val x - s) + (R.val y - t) := by ring
    rw [e]
    refine (abs_add_le _ _).trans ?_
    linarith [hx.err, hy.err]
  have hst : |s + t| ≤ m + n := (abs_add_le _ _).trans (add_le_add hx.abs hy.abs)
  have hab : |R.val x + R.val y| ≤ 2 * (m + n) := by
    have h1 := abs_add_le (R.val x + R.val y - (s + t)) (s + t)
    rw [sub_add_cancel] at h1
    have h3 := mul_le_mul_of_nonneg_right hk' (show 0 ≤ m + n by linarith)
    norm_num at h3
    linarith
  have hΩ : |R.val x + R.val y| ≤ R.Ω := by
    refine hab.trans (le_trans ?_ hW.Ω_ge)
    have : m + n ≤ 2 ^ 900 := hi.trans (pow_le_pow_right₀ (by norm_num) hb')
    calc 2 * (m + n) ≤ 2 * 2 ^ 900 := mul_le_mul_of_nonneg_left this (by norm_num)
      _ ≤ 2 ^ 910 := two_900
  obtain ⟨f, g⟩ := R.add hx.fin hy.fin hΩ
  have g := g.bounds hR.ε_le
  refine ⟨f, hst, ?_, ?_, hi⟩
  · have h1 := abs_add_le (R.val (x + y) - (R.val x + R.val y)) (R.val x + R.val y - (s + t))
    rw [sub_add_sub_cancel] at h1
    have h2 := mul_le_mul_of_nonneg_left hab e0.le
    push_cast
    linarith
  · have : (1 : ℝ) / 2 ^ b' ≤ 1 / 2 ^ b := one_div_le_one_div_of_le (by positivity) (pow_le_pow_right₀ (by norm_num) hb)
    linarith [hx.lo]

/-- Differences. -/
theorem Rounding.Mag.sub {R : Rounding F} (hR : R.DoubleLike) (hW : R.Wide) {x y : F} {s t m n : ℝ} {k b b' c : ℕ} (hx : R.Mag x s m k b)
    (hy : R.Mag y t n k c) (hk : k ≤ 2 ^ 22) (hb : b ≤ b') (hi : m + n ≤ 2 ^ b') (hb' : b' ≤ 900) :
    R.Mag (x - y) (s - t) (m + n) (k + 2) b' := by
  have e0 := e50_pos
  have m0 := hx.pos
  have n0 := hy.pos
  have hk' := small_k hk
  have key : |R.val x - R.val y - (s - t)| ≤ k * e50 * (m + n) := by
    have e : R.val x - R.val y - (s - t) = (R.val x - s) - (R.val y - t) := by ring
    rw [e]
    refine (abs_sub _ _).trans ?_
    linarith [hx.err, hy.err]
  have hst : |s - t| ≤ m + n := (abs_sub _ _).trans (add_le_add hx.abs hy.abs)
  have hab : |R.val x - R.val y| ≤ 2 * (m + n) := by
    have h1 := abs_add_le (R.val x - R.val y - (s - t)) (s - t)
    rw [sub_add_cancel] at h1
    have h3 := mul_le_mul_of_nonneg_right hk' (show 0 ≤ m + n by linarith)
    norm_num at h3
    linarith
  have hΩ : |R.val x - R.val y| ≤ R.Ω := by
    refine hab.trans (le_trans ?_ hW.Ω_ge)
    have : m + n ≤ 2 ^ 900 := hi.trans (pow_le_pow_right₀ (by norm_num) hb')
    calc 2 * (m + n) ≤ 2 * 2 ^ 900 := mul_le_mul_of_nonneg_left this (by norm_num)
      _ ≤ 2 ^ 910 := two_900
  obtain ⟨f, g⟩ := R.sub hx.fin hy.fin hΩ
  have g := g.bounds hR.ε_le
  refine ⟨f, hst, ?_, ?_, hi⟩
  · have h1 := abs_add_le (R.val (x - y) - (R.val x - R.val y)) (R.val x - R.val y - (s - t))
    rw [sub_add_sub_cancel] at h1
    have h2 := mul_le_mul_of_nonneg_left hab e0.le
    push_cast
    linarith
  · have : (1 : ℝ) / 2 ^ b' ≤ 1 / 2 ^ b := one_div_le_one_div_of_le (by positivity) (pow_le_pow_right₀ (by norm_num) hb)
    linarith [hx.lo]

/-- Differences of exact numbers: one rounding. -/
theorem Rounding.Mag.sub_exact {R : Rounding F} (hR : R.DoubleLike) (hW : R.Wide) {x y : F} {c b : ℕ} {τ : ℝ} (hx : R.finite x) (hy : R.finite y)
    (hxb : |R.val x| ≤ 2 ^ c) (hyb : |R.val y| ≤ 2 ^ c) (hτ : 1 / 2 ^ b ≤ τ) (hτ' : τ ≤ 1) (hc : c + 2 ≤ b) (hb : b ≤ 900) :
    R.Mag (x - y) (R.val x - R.val y) (|R.val x - R.val y| + τ) 1 b := by
  have h1 : |R.val x - R.val y| ≤ 2 * 2 ^ c := (abs_sub _ _).trans (by linarith)
  have h2 : (2 : ℝ) * 2 ^ c + 1 ≤ 2 ^ b := by
    calc (2 : ℝ) * 2 ^ c + 1 ≤ 2 * 2 ^ c + 2 ^ c := by
          have : (1 : ℝ) ≤ 2 ^ c := one_le_pow₀ (by norm_num)
          linarith
      _ ≤ 2 ^ (c + 2) := by rw [pow_add]; have : (0 : ℝ) < 2 ^ c := by positivity
                            linarith
      _ ≤ _ := pow_le_pow_right₀ (by norm_num) hc
  have τ0 : 0 < τ := lt_of_lt_of_le (by positivity) hτ
  obtain ⟨f, g⟩ := R.sub hx hy (by
    refine h1.trans (le_trans ?_ hW.Ω_ge)
    refine le_trans (by linarith) (h2.trans (pow_le_pow_right₀ (by norm_num) (hb.trans (by norm_num)))))
  have g := g.bounds hR.ε_le
  have e0 := e50_pos
  refine ⟨f, by linarith, ?_, ?_, by linarith⟩
  · have : 0 ≤ e50 * τ := by positivity
    push_cast
    linarith
  · have := abs_nonneg (R.val x - R.val y)
    linarith

/-- An exact number, with a size that is not too small. -/
theorem Rounding.Mag.exact {R : Rounding F} {x : F} {c b : ℕ} {τ : ℝ} (hx : R.finite x) (hxb : |R.val x| ≤ 2 ^ c)
    (hτ : 1 / 2 ^ b ≤ τ) (hτ' : τ ≤ 1) (hc : c + 1 ≤ b) : R.Mag x (R.val x) (|R.val x| + τ) 0 b := by
  have τ0 : 0 < τ := lt_of_lt_of_le (by positivity) hτ
  refine ⟨hx, by linarith, by simp, ?_, ?_⟩
  · have := abs_nonneg (R.val x); linarith
  · have h2 : (2 : ℝ) ^ c + 1 ≤ 2 ^ b := by
      calc (2 : ℝ) ^ c + 1 ≤ 2 ^ c + 2 ^ c := by
            have : (1 : ℝ) ≤ 2 ^ c := one_le_pow₀ (by norm_num)
            linarith
        _ = 2 ^ (c + 1) := by rw [pow_add]; ring
        _ ≤ _ := pow_le_pow_right₀ (by norm_num) hc
    linarith

/-- An exact number whose size is known from both sides. -/
theorem Rounding.Mag.sized {R : Rounding F} {x : F} {b : ℕ} (hx : R.finite x) (lo : 1 / 2 ^ b ≤ |R.val x|) (hi : |R.val x| ≤ 2 ^ b) :
    R.Mag x (R.val x) |R.val x| 0 b := ⟨hx, le_refl _, by simp, lo, hi⟩

/-- Sign change. -/
theorem Rounding.Mag.neg {R : Rounding F} (hE : R.Exact) {x : F} {t m : ℝ} {k b : ℕ} (h : R.Mag x t m k b) : R.Mag (-x) (-t) m k b := by
  obtain ⟨f, v⟩ := hE.neg h.fin
  refine ⟨f, by rw [abs_neg]; exact h.abs, ?_, h.lo, h.hi⟩
  rw [v, ← neg_sub', abs_neg]
  exact h.err

/-- Sums of selected terms. -/
theorem Rounding.Mag.foldl {R : Rounding F} (hR : R.DoubleLike) (hW : R.Wide) {A V : Type} (pr : A → F) (step : A × V → ℕ → A × V)
    (take : ℕ → Bool) (f : ℕ → F) (t m : ℕ → ℝ) {K c B : ℕ} (hB : B ≤ 900) :
    ∀ (l : List ℕ) (s : A × V) (n : ℕ) (T M : ℝ), R.Mag (pr s.1) T M (K + 2 * n) B → K + 2 * (n + l.length) ≤ 2 ^ 22 →
      M + l.length * 2 ^ c ≤ 2 ^ B →
      (∀ j ∈ l, 0 ≤ m j ∧ m j ≤ 2 ^ c ∧ (take j = false → ∀ s, (step s j).1 = s.1) ∧
        (take j = true → (∀ s, pr (step s j).1 = pr s.1 + f j) ∧ R.Mag (f j) (t j) (m j) K c)) →
      R.Mag (pr (l.foldl step s).1) (T + ((l.filter take).map t).sum) (M + ((l.filter take).map m).sum) (K + 2 * (n + l.length)) B
  | [], s, n, T, M, h, _, _, _ => by simpa using h
  | j :: l, s, n, T, M, h, hk, hM, hl => by
    obtain ⟨m0, mc, h0, h1⟩ := hl j List.mem_cons_self
    have hlen : K + 2 * (n + (j :: l).length) = K + 2 * ((n + 1) + l.length) := by rw [List.length_cons]; omega
    have c0 : (0 : ℝ) < 2 ^ c := by positivity
    rw [List.length_cons] at hM
    push_cast at hM
    have l0 : (0 : ℝ) ≤ l.length * 2 ^ c := by positivity
    rw [List.foldl_cons, hlen]
    cases ht : take j with
    | false =>
      rw [List.filter_cons_of_neg (by simp [ht])]
      refine Rounding.Mag.foldl hR hW pr step take f t m hB l (step s j) (n + 1) T M ?_ (by rw [← hlen]; exact hk) (by linarith)
        (fun j hj => hl j (List.mem_cons_of_mem _ hj))
      rw [h0 ht s]
      exact h.mono (le_refl _) (by omega) (le_refl _) (by linarith)
    | true =>
      obtain ⟨h2, h3⟩ := h1 ht
      rw [List.filter_cons_of_pos (by simp [ht]), List.map_cons, List.sum_cons, List.map_cons, List.sum_cons, ← add_assoc, ← add_assoc]
      refine Rounding.Mag.foldl hR hW pr step take f t m hB l (step s j) (n + 1) (T + t j) (M + m j) ?_ (by rw [← hlen]; exact hk) (by linarith)
        (fun j hj => hl j (List.mem_cons_of_mem _ hj))
      rw [h2 s]
      have h4 := h3.mono (le_refl _) (show K ≤ K + 2 * n by omega) (le_refl _) h3.hi
      rw [List.length_cons] at hk
      exact h.add hR hW h4 (by omega) (le_refl _) (by linarith) hB

end OpenMps
