import Verif.Lemmas.Double

/-! # The operations of `double` -/

set_option exponentiation.threshold 2000

namespace OpenMps
namespace Double

theorem val_eq (x : Double) : x.val = if x.neg then -((mag x.code : ℚ) : ℝ) else ((mag x.code : ℚ) : ℝ) := by
  unfold val value
  split <;> push_cast <;> rfl

theorem magR_nonneg (c : ℕ) : (0 : ℝ) ≤ ((mag c : ℚ) : ℝ) := by exact_mod_cast mag_nonneg c

theorem abs_val (x : Double) : |x.val| = ((mag x.code : ℚ) : ℝ) := by
  rw [val_eq]
  split
  · rw [abs_neg, abs_of_nonneg (magR_nonneg _)]
  · rw [abs_of_nonneg (magR_nonneg _)]

theorem mag_eq_zero {c : ℕ} : ((mag c : ℚ) : ℝ) = 0 ↔ c = 0 := by
  constructor
  · intro h
    by_contra hc
    have := mag_strictMono (Nat.pos_of_ne_zero hc)
    simp only [mag_zero] at this
    rw [h] at this
    norm_num at this
  · rintro rfl; rw [mag_zero]; norm_num

theorem val_eq_zero {x : Double} : x.val = 0 ↔ x.code = 0 := by
  rw [← abs_eq_zero, abs_val, mag_eq_zero]

theorem isFinite_iff {x : Double} : x.isFinite = true ↔ x.code < infCode := by unfold isFinite; exact decide_eq_true_iff

theorem infCode_lt : infCode < 2 ^ 63 := by unfold infCode; norm_num

theorem mk'_code {n : Bool} {c : ℕ} (h : c ≤ infCode) : (mk' n c).code = c := Nat.mod_eq_of_lt (h.trans_lt infCode_lt)

theorem mk'_neg (n : Bool) (c : ℕ) : (mk' n c).neg = n := rfl

/-- A result with the sign of `v` and the code of `|v|`. -/
structure Rnd (v : ℝ) (r : Double) (e : ℤ) (m : ℕ) : Prop where
  at' : At |v| e m
  code : r.code = min infCode (At.code e m)
  neg : v < 0 → r.neg = true
  pos : 0 < v → r.neg = false

variable {v : ℝ} {r : Double} {e : ℤ} {m : ℕ}

theorem Rnd.isFinite (h : Rnd v r e m) : r.isFinite = true ↔ At.code e m < infCode := by
  rw [isFinite_iff, h.code]; omega

theorem Rnd.zero (h : Rnd v r e m) (h0 : v = 0) : r.val = 0 := by
  rw [val_eq_zero]
  have h1 := h.at'
  rw [h0, abs_zero] at h1
  have hl : e = -1074 := by
    rcases h1.lead with h2 | h2
    · exact h2
    · have : (0 : ℝ) < 2 ^ 52 * 2 ^ e := by positivity
      linarith
  have hm : m = 0 := by
    have := h1.rne.1
    rw [zero_div, sub_zero, abs_of_nonneg (Nat.cast_nonneg m)] at this
    have : (m : ℝ) < 1 := by linarith
    have : m < 1 := by exact_mod_cast this
    omega
  rw [h.code, hm, hl]
  simp [At.code]

/-- Distances from `v` are distances of absolute values. -/
theorem Rnd.dist (h : Rnd v r e m) : |r.val - v| = |((mag r.code : ℚ) : ℝ) - abs v| := by
  rcases lt_trichotomy v 0 with hv | hv | hv
  · rw [val_eq, h.neg hv, if_pos rfl, abs_of_neg hv, ← abs_neg]
    congr 1; ring
  · rw [h.zero hv, ← abs_val, h.zero hv, hv]; simp
  · rw [val_eq, h.pos hv, abs_of_pos hv]; simp

theorem Rnd.roundsTo (h : Rnd v r e m) : RoundsTo v r := by
  have fin_code : r.isFinite = true → r.code = At.code e m := by
    intro hf
    have := h.isFinite.mp hf
    rw [h.code]; omega
  have near : r.isFinite = true → ∀ z : Double, |r.val - v| ≤ |z.val - v| ∧
      (|z.val - v| = |r.val - v| → ((mag z.code : ℚ) : ℝ) ≠ ((mag r.code : ℚ) : ℝ) → r.code % 2 = 0) := by
    intro hf z
    rw [h.dist, fin_code hf]
    obtain ⟨n1, n2⟩ := h.at'.nearest z.code
    have n3 : |((mag z.code : ℚ) : ℝ) - abs v| ≤ |z.val - v| := by
      rw [← abs_val]; exact abs_abs_sub_abs_le _ _
    refine ⟨n1.trans n3, fun he hne => n2 ?_ hne⟩
    exact le_antisymm (n3.trans he.le) n1
  refine ⟨?_, ?_, fun hf z _ => (near hf z).1, fun hf z _ he hne => ?_, h.neg, h.pos⟩
  · unfold isInf
    rw [decide_eq_true_iff, h.code, ← h.at'.overflow]
    omega
  · intro hv
    rw [h.isFinite]
    by_contra hc
    exact absurd (h.at'.overflow.mp (by omega)) (not_le.mpr hv)
  · by_cases hm : ((mag z.code : ℚ) : ℝ) = ((mag r.code : ℚ) : ℝ)
    · exfalso
      have hz : z.val = -r.val := by
        have h1 : |z.val| = |r.val| := by rw [abs_val, abs_val, hm]
        rcases abs_eq_abs.mp h1 with h2 | h2
        · exact absurd h2 hne
        · exact h2
      rw [hz] at he hne
      have h2 : (-r.val - v) ^ 2 = (r.val - v) ^ 2 := by rw [← sq_abs, he, sq_abs]
      have h3 : r.val * v = 0 := by linarith [h2, sq (r.val), sq v, sq (-r.val - v), sq (r.val - v)]
      rcases mul_eq_zero.mp h3 with h4 | h4
      · exact hne (by rw [h4, neg_zero])
      · exact hne (by rw [h.zero h4, neg_zero])
    · exact (near hf z).2 he hm

/-- Error of a finite result: relative, unless rounded at the last place `2^-1074`. -/
theorem Rnd.err (h : Rnd v r e m) (hf : r.isFinite = true) :
    |r.val - v| ≤ 1 / 2 ^ 53 * |v| ∨ (e = -1074 ∧ |r.val - v| ≤ 1 / 2 ^ 1075) := by
  have hp : (0 : ℝ) < 2 ^ e := by positivity
  have hc : r.code = At.code e m := by
    have := h.isFinite.mp hf
    rw [h.code]; omega
  have hd : |r.val - v| ≤ 2 ^ e / 2 := by
    rw [h.dist, hc, h.at'.mag, show (m : ℝ) * 2 ^ e - |v| = (m - |v| / 2 ^ e) * 2 ^ e by field_simp, abs_mul, abs_of_pos hp]
    have := mul_le_mul_of_nonneg_right h.at'.rne.1 hp.le
    linarith
  rcases h.at'.lead with h1 | h1
  · right
    refine ⟨h1, hd.trans (le_of_eq ?_)⟩
    rw [h1, zpow_neg, show (1074 : ℤ) = ((1074 : ℕ) : ℤ) by norm_num, zpow_natCast, show (2 : ℝ) ^ 1075 = 2 ^ 1074 * 2 by rw [← pow_succ]]
    have : (0 : ℝ) < 2 ^ 1074 := by positivity
    generalize (2 : ℝ) ^ 1074 = q at *
    field_simp
  · left
    refine hd.trans ?_
    rw [div_mul_eq_mul_div, one_mul, le_div_iff₀ (by positivity)]
    norm_num at h1 ⊢
    linarith

theorem Rnd.relAbs (h : Rnd v r e m) (hf : r.isFinite = true) : RelAbsErr (1 / 2 ^ 53) (1 / 2 ^ 1075) r.val v := by
  rcases h.err hf with h1 | ⟨-, h1⟩
  · by_cases hv : v = 0
    · exact ⟨0, 0, by rw [abs_zero]; positivity, by rw [abs_zero]; positivity, by rw [h.zero hv, hv]; ring⟩
    · refine ⟨(r.val - v) / v, 0, ?_, by rw [abs_zero]; positivity, by field_simp; ring⟩
      rw [abs_div, div_le_iff₀ (abs_pos.mpr hv)]
      exact h1
  · exact ⟨0, r.val - v, by rw [abs_zero]; positivity, h1, by ring⟩

theorem relErr_of {a b : ℝ} (h : |a - b| ≤ 1 / 2 ^ 53 * |b|) : RelErr (1 / 2 ^ 53) a b := by
  by_cases hb : b = 0
  · refine ⟨0, by rw [abs_zero]; positivity, ?_⟩
    rw [hb, abs_zero, mul_zero, sub_zero] at h
    rw [hb, abs_nonpos_iff.mp h, zero_mul]
  · refine ⟨(a - b) / b, ?_, by field_simp; ring⟩
    rw [abs_div, div_le_iff₀ (abs_pos.mpr hb)]
    exact h

/-- Integer multiples of `2^-1074` suffer no absolute error. -/
theorem Rnd.rel (h : Rnd v r e m) (hf : r.isFinite = true) (k : ℤ) (hk : v = k * (2 : ℝ) ^ (-1074 : ℤ)) : RelErr (1 / 2 ^ 53) r.val v := by
  apply relErr_of
  rcases h.err hf with h1 | ⟨h1, -⟩
  · exact h1
  · have hp : (0 : ℝ) < 2 ^ e := by positivity
    have hc : r.code = At.code e m := by
      have := h.isFinite.mp hf
      rw [h.code]; omega
    have habs : |v| = ((abs k : ℤ) : ℝ) * (2 : ℝ) ^ e := by
      rw [hk, abs_mul, h1, abs_of_pos (by positivity : (0 : ℝ) < 2 ^ (-1074 : ℤ))]
      push_cast
      rfl
    have hr := h.at'.rne.nearest (abs k)
    have e1 : |v| / 2 ^ e = ((abs k : ℤ) : ℝ) := by rw [habs]; field_simp
    rw [e1, sub_self, abs_zero] at hr
    have h2 : (m : ℝ) = ((abs k : ℤ) : ℝ) := by
      have := abs_nonpos_iff.mp hr.1
      linarith
    have h3 : |r.val - v| = 0 := by
      rw [h.dist, hc, h.at'.mag, h2, ← habs, sub_self, abs_zero]
    rw [h3]
    positivity

theorem natAbs_div (v : ℚ) : ((v.num.natAbs : ℕ) : ℝ) / (v.den : ℝ) = |(v : ℝ)| := by
  have h1 : |v| = (v.num.natAbs : ℚ) / v.den := by
    have h2 : v = (v.num : ℚ) / v.den := (Rat.num_div_den v).symm
    conv_lhs => rw [h2]
    rw [abs_div, Nat.cast_natAbs, Int.cast_abs, Nat.abs_cast]
  have h3 : ((|v| : ℚ) : ℝ) = (((v.num.natAbs : ℚ) / v.den : ℚ) : ℝ) := by rw [h1]
  push_cast at h3
  rw [h3]

theorem roundMag_le (n d : ℕ) : roundMag n d ≤ infCode := by
  unfold roundMag
  split
  · omega
  · exact min_le_left _ _

theorem sqrtMag_le (n d : ℕ) : sqrtMag n d ≤ infCode := by
  unfold sqrtMag
  split
  · omega
  · exact min_le_left _ _

theorem round_rnd (v : ℚ) (z : Bool) : ∃ e m, Rnd (v : ℝ) (round v z) e m := by
  obtain ⟨e, m, h1, h2⟩ := roundMag_at v.num.natAbs v.den v.den_pos
  rw [natAbs_div] at h1
  refine ⟨e, m, h1, ?_, ?_, ?_⟩
  · unfold round
    rw [mk'_code (roundMag_le _ _), h2]
  · intro h
    have h' : v < 0 := by exact_mod_cast h
    unfold round
    rw [mk'_neg, if_neg h'.ne, decide_eq_true_iff]
    exact h'
  · intro h
    have h' : 0 < v := by exact_mod_cast h
    unfold round
    rw [mk'_neg, if_neg h'.ne', decide_eq_false_iff_not]
    exact not_lt.mpr h'.le

/-- Every finite value is an integer multiple of `2^-1074`. -/
theorem val_multiple (x : Double) : ∃ k : ℤ, x.val = k * (2 : ℝ) ^ (-1074 : ℤ) := by
  obtain ⟨k, m, h1, -⟩ := mag_decomp x.code
  have e : ((mag x.code : ℚ) : ℝ) = ((m * 2 ^ k : ℕ) : ℤ) * (2 : ℝ) ^ (-1074 : ℤ) := by
    rw [h1, sub_eq_add_neg, zpow_add₀ (by norm_num), zpow_natCast]
    push_cast
    ring
  rw [val_eq]
  split
  · exact ⟨-((m * 2 ^ k : ℕ) : ℤ), by rw [e]; push_cast; ring⟩
  · exact ⟨_, e⟩

theorem not_nan_of_finite {x : Double} (h : x.isFinite = true) : x.isNan = false ∧ x.isInf = false := by
  rw [isFinite_iff] at h
  unfold isNan isInf
  exact ⟨decide_eq_false (by omega), decide_eq_false (by omega)⟩

theorem trichotomy' (x : Double) : x.isFinite = true ∨ x.isNan = true ∨ x.isInf = true := by
  unfold isFinite isNan isInf
  simp only [decide_eq_true_iff]
  omega

theorem nan_not_finite : nan.isFinite = false := by
  unfold isFinite nan mk'
  exact decide_eq_false (by unfold infCode; norm_num)

theorem inf_not_finite (b : Bool) : (inf b).isFinite = false := by
  unfold isFinite inf
  rw [mk'_code (le_refl _)]
  exact decide_eq_false (lt_irrefl _)

theorem inf_not_finite' {x : Double} (h : x.isInf = true) : x.isFinite = false := by
  unfold isInf at h
  unfold isFinite
  rw [decide_eq_true_iff] at h
  exact decide_eq_false (by omega)

theorem add_finite {x y : Double} (hx : x.isFinite = true) (hy : y.isFinite = true) : x.add y = round (x.value + y.value) (x.neg && y.neg) := by
  unfold add
  simp only [not_nan_of_finite hx, not_nan_of_finite hy, Bool.or_self, Bool.false_eq_true, if_false]

theorem mul_finite {x y : Double} (hx : x.isFinite = true) (hy : y.isFinite = true) : x.mul y = round (x.value * y.value) (x.neg != y.neg) := by
  unfold mul
  simp only [not_nan_of_finite hx, not_nan_of_finite hy, Bool.or_self, Bool.false_eq_true, if_false]

theorem div_finite {x y : Double} (hx : x.isFinite = true) (hy : y.isFinite = true) (h0 : y.val ≠ 0) :
    x.div y = round (x.value / y.value) (x.neg != y.neg) := by
  unfold div
  have : y.code ≠ 0 := fun h => h0 (val_eq_zero.mpr h)
  simp only [not_nan_of_finite hx, not_nan_of_finite hy, Bool.or_self, Bool.false_eq_true, if_false, this]

theorem add_propagates {x y : Double} (h : (x.add y).isFinite = true) : x.isFinite = true ∧ y.isFinite = true := by
  unfold add at h
  split_ifs at h with h1 h2 h3 h4
  · rw [nan_not_finite] at h; cases h
  · rw [nan_not_finite] at h; cases h
  · rw [inf_not_finite' h2] at h; cases h
  · rw [inf_not_finite' h4] at h; cases h
  · rw [Bool.or_eq_true, not_or] at h1
    exact ⟨((trichotomy' x).resolve_right (by rintro (h | h) <;> tauto)), ((trichotomy' y).resolve_right (by rintro (h | h) <;> tauto))⟩

theorem mul_propagates {x y : Double} (h : (x.mul y).isFinite = true) : x.isFinite = true ∧ y.isFinite = true := by
  unfold mul at h
  split_ifs at h with h1 h2 h3 h4 h5
  · rw [nan_not_finite] at h; cases h
  · rw [nan_not_finite] at h; cases h
  · rw [inf_not_finite] at h; cases h
  · rw [nan_not_finite] at h; cases h
  · rw [inf_not_finite] at h; cases h
  · rw [Bool.or_eq_true, not_or] at h1
    exact ⟨((trichotomy' x).resolve_right (by rintro (h | h) <;> tauto)), ((trichotomy' y).resolve_right (by rintro (h | h) <;> tauto))⟩

theorem neg'_val (x : Double) : x.neg'.val = -x.val := by
  rw [val_eq, val_eq]
  unfold neg'
  cases x.neg <;> simp

theorem neg'_finite (x : Double) : x.neg'.isFinite = x.isFinite := rfl

theorem add_rnd {x y : Double} (hx : x.isFinite = true) (hy : y.isFinite = true) : ∃ e m, Rnd (x.val + y.val) (x.add y) e m := by
  rw [add_finite hx hy]
  have := round_rnd (x.value + y.value) (x.neg && y.neg)
  push_cast at this
  exact this

theorem mul_rnd {x y : Double} (hx : x.isFinite = true) (hy : y.isFinite = true) : ∃ e m, Rnd (x.val * y.val) (x.mul y) e m := by
  rw [mul_finite hx hy]
  have := round_rnd (x.value * y.value) (x.neg != y.neg)
  push_cast at this
  exact this

theorem div_rnd {x y : Double} (hx : x.isFinite = true) (hy : y.isFinite = true) (h0 : y.val ≠ 0) : ∃ e m, Rnd (x.val / y.val) (x.div y) e m := by
  rw [div_finite hx hy h0]
  have := round_rnd (x.value / y.value) (x.neg != y.neg)
  push_cast at this
  exact this

theorem mag_lt_of_finite {x : Double} (h : x.isFinite = true) : |x.val| < 2 ^ 1024 := by
  rw [abs_val, ← mag_inf]
  exact mag_strictMono (isFinite_iff.mp h)

/-- The square root is rounded correctly. -/
theorem sqrt_rnd {x : Double} (hx : x.isFinite = true) (h0 : 0 < x.val) :
    ∃ e m, Rnd (Real.sqrt x.val) x.sqrt e m ∧ x.sqrt.isFinite = true ∧ e ≠ -1074 := by
  have hc : x.code ≠ 0 := fun h => h0.ne' (val_eq_zero.mpr h)
  have hn : x.neg = false := by
    cases hn : x.neg with
    | false => rfl
    | true =>
      rw [val_eq, hn, if_pos rfl] at h0
      linarith [magR_nonneg x.code]
  have e0 : x.sqrt = mk' false (sqrtMag x.value.num.natAbs x.value.den) := by
    unfold sqrt
    simp only [not_nan_of_finite hx, hc, hn, Bool.false_eq_true, if_false]
  have hv0 : (0 : ℚ) < x.value := by
    have : (0 : ℝ) < ((x.value : ℚ) : ℝ) := h0
    exact_mod_cast this
  obtain ⟨e, m, h1, h2⟩ := sqrtMag_at x.value.num.natAbs x.value.den (by
    rw [Int.natAbs_ne_zero, Rat.num_ne_zero]; exact hv0.ne') x.value.den_pos
  rw [natAbs_div, show |((x.value : ℚ) : ℝ)| = x.val from abs_of_pos h0] at h1
  have s0 : 0 < Real.sqrt x.val := Real.sqrt_pos.mpr h0
  have hr : Rnd (Real.sqrt x.val) x.sqrt e m := by
    refine ⟨by rw [abs_of_pos s0]; exact h1, ?_, fun h => absurd h (not_lt.mpr s0.le), fun _ => by rw [e0]; rfl⟩
    rw [e0, mk'_code (sqrtMag_le _ _), h2]
  refine ⟨e, m, hr, ?_, ?_⟩
  · apply hr.roundsTo.finite
    rw [abs_of_pos s0]
    have h3 : x.val < 2 ^ 1024 := by
      have := mag_lt_of_finite hx
      rwa [abs_of_pos h0] at this
    have h4 : Real.sqrt x.val < 2 ^ 512 := by
      rw [Real.sqrt_lt' (by positivity), ← pow_mul]
      exact h3
    refine h4.trans_le ?_
    have e1 : (2 : ℝ) ^ 1024 = 2 ^ 54 * 2 ^ 970 := by rw [← pow_add]
    have e2 : (2 : ℝ) ^ 512 ≤ 2 ^ 970 := pow_le_pow_right₀ (by norm_num) (by norm_num)
    rw [e1]
    generalize (2 : ℝ) ^ 512 = p at *
    have q0 : (0 : ℝ) < 2 ^ 970 := by positivity
    generalize (2 : ℝ) ^ 970 = q at *
    norm_num
    linarith
  · intro he
    have h5 := h1.high
    obtain ⟨k, hk⟩ := val_multiple x
    have hz : (0 : ℝ) < 2 ^ (-1074 : ℤ) := by positivity
    have k1 : (1 : ℝ) ≤ k := by
      have : (0 : ℝ) < k := by
        rw [hk] at h0
        exact (mul_pos_iff_of_pos_right hz).mp h0
      have : 0 < k := by exact_mod_cast this
      exact_mod_cast this
    have h6 : (2 : ℝ) ^ (-1074 : ℤ) ≤ x.val := by rw [hk]; exact le_mul_of_one_le_left hz.le k1
    have h7 : (2 : ℝ) ^ (-537 : ℤ) ≤ Real.sqrt x.val := by
      apply Real.le_sqrt_of_sq_le
      refine le_trans (le_of_eq ?_) h6
      rw [← zpow_natCast, ← zpow_mul]
      norm_num
    have h8 : (2 : ℝ) ^ 53 * 2 ^ e = 2 ^ (-1021 : ℤ) := by
      rw [he, show (2 : ℝ) ^ 53 = 2 ^ ((53 : ℕ) : ℤ) by rw [zpow_natCast], ← zpow_add₀ (by norm_num)]
      norm_num
    rw [h8] at h5
    have h9 : (2 : ℝ) ^ (-1021 : ℤ) ≤ 2 ^ (-537 : ℤ) := zpow_le_zpow_right₀ (by norm_num) (by norm_num)
    linarith

/-! ## Order -/

theorem key_lt {x y : Double} : x.key < y.key ↔ x.val < y.val := by
  have hm := mag_strictMono
  have hlt : ∀ {a b : ℕ}, a < b ↔ ((mag a : ℚ) : ℝ) < ((mag b : ℚ) : ℝ) := fun {a b} => (hm.lt_iff_lt (a := a) (b := b)).symm
  rw [val_eq, val_eq]
  unfold key
  have p1 := magR_nonneg x.code
  have p2 := magR_nonneg y.code
  have z1 := mag_eq_zero (c := x.code)
  have z2 := mag_eq_zero (c := y.code)
  cases x.neg <;> cases y.neg <;> simp only [Bool.false_eq_true, if_false, if_true]
  · rw [← hlt]; omega
  · constructor
    · intro h; omega
    · intro h; linarith
  · constructor
    · intro h
      by_contra hc
      have h1 : ((mag x.code : ℚ) : ℝ) = 0 := by linarith
      have h2 : ((mag y.code : ℚ) : ℝ) = 0 := by linarith
      have := z1.mp h1
      have := z2.mp h2
      omega
    · intro h
      by_contra hc
      have h1 : x.code = 0 := by omega
      have h2 : y.code = 0 := by omega
      rw [z1.mpr h1, z2.mpr h2] at h
      linarith
  · rw [neg_lt_neg_iff, neg_lt_neg_iff, ← hlt]; omega

end Double
end OpenMps
