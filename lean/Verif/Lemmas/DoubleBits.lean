import Verif.Lemmas.DoubleRounding

/-! # Laws of `double` that hold bit for bit -/

set_option exponentiation.threshold 2000

namespace OpenMps
namespace Double

theorem ext' {x y : Double} (h1 : x.neg = y.neg) (h2 : x.code = y.code) : x = y := by
  cases x; cases y; simp only [Double.mk.injEq]; exact ⟨h1, h2⟩

theorem not_finite_cases {x : Double} (h1 : x.isNan = false) (h2 : x.isInf = false) : x.isFinite = true := by
  rcases trichotomy' x with h | h | h
  · exact h
  · rw [h] at h1; cases h1
  · rw [h] at h2; cases h2

theorem inf_code {x : Double} (h : x.isInf = true) : x.code = infCode := by
  unfold isInf at h; exact of_decide_eq_true h

theorem inf_not_nan {x : Double} (h : x.isInf = true) : x.isNan = false := by
  unfold isNan; rw [inf_code h]; exact decide_eq_false (lt_irrefl _)

theorem neg'_neg' (x : Double) : x.neg'.neg' = x := ext' (by simp [neg']) rfl

theorem neg'_isNan (x : Double) : x.neg'.isNan = x.isNan := rfl

theorem neg'_isInf (x : Double) : x.neg'.isInf = x.isInf := rfl

theorem neg'_value (x : Double) : x.neg'.value = -x.value := by
  unfold value neg'
  cases x.neg <;> simp

theorem round_neg (v : ℚ) (a b : Bool) (h : v = 0 → b = !a) : round (-v) b = (round v a).neg' := by
  apply ext'
  · unfold round neg'
    rw [mk'_neg, mk'_neg]
    by_cases hv : v = 0
    · simp [hv, h hv]
    · rw [if_neg (neg_ne_zero.mpr hv), if_neg hv]
      rcases lt_or_gt_of_ne hv with h1 | h1
      · have h2 : ¬ -v < 0 := by linarith
        simp [h1, h2]
      · have h2 : ¬ v < 0 := by linarith
        have h3 : -v < 0 := by linarith
        simp [h2, h3]
  · change (round (-v) b).code = (round v a).code
    unfold round mk'
    simp only [Rat.num_neg_eq_neg_num, Int.natAbs_neg, Rat.den_neg_eq_den]

theorem add_comm' (x y : Double) : x.add y = y.add x := by
  unfold add
  rw [Bool.or_comm]
  by_cases hn : (y.isNan || x.isNan) = true
  · rw [if_pos hn, if_pos hn]
  · rw [if_neg hn, if_neg hn]
    by_cases hx : x.isInf = true
    · by_cases hy : y.isInf = true
      · have e : (x.neg != y.neg) = (y.neg != x.neg) := by cases x.neg <;> cases y.neg <;> rfl
        simp only [hx, hy, if_true, Bool.true_and, e]
        by_cases hs : (y.neg != x.neg) = true
        · rw [if_pos hs, if_pos hs]
        · rw [if_neg hs, if_neg hs]
          refine ext' ?_ ((inf_code hx).trans (inf_code hy).symm)
          revert hs
          cases x.neg <;> cases y.neg <;> simp
      · simp only [Bool.not_eq_true] at hy
        simp [hx, hy]
    · simp only [Bool.not_eq_true] at hx
      by_cases hy : y.isInf = true
      · simp [hx, hy]
      · simp only [Bool.not_eq_true] at hy
        simp only [hx, hy, Bool.false_eq_true, if_false]
        rw [add_comm, Bool.and_comm]

theorem add_neg'_eq (x y : Double) : x.add y.neg' =
    if (x.isNan || y.isNan) = true then nan
    else if x.isInf = true then (if (y.isInf && (x.neg != !y.neg)) = true then nan else x)
    else if y.isInf = true then y.neg'
    else round (x.value + y.neg'.value) (x.neg && !y.neg) := rfl

theorem mul_neg'_eq (x y : Double) : x.mul y.neg' =
    if (x.isNan || y.isNan) = true then nan
    else if x.isInf = true then (if y.code = 0 then nan else inf (x.neg != !y.neg))
    else if y.isInf = true then (if x.code = 0 then nan else inf (x.neg != !y.neg))
    else round (x.value * y.neg'.value) (x.neg != !y.neg) := rfl

/-- `y - x` is `-(x - y)`, or both are the same zero or NaN. -/
theorem sub_swap (x y : Double) : y.add x.neg' = x.add y.neg' ∧ (x.add y.neg').isNan = true ∨
    y.add x.neg' = (x.add y.neg').neg' ∨ (y.add x.neg' = x.add y.neg' ∧ (x.add y.neg').code = 0) := by
  rw [add_neg'_eq, add_neg'_eq, Bool.or_comm y.isNan]
  by_cases hn : (x.isNan || y.isNan) = true
  · left
    rw [if_pos hn, if_pos hn]
    exact ⟨rfl, by decide +kernel⟩
  · rw [if_neg hn, if_neg hn]
    by_cases hx : x.isInf = true
    · by_cases hy : y.isInf = true
      · have e : (y.neg != (!x.neg)) = (x.neg != !y.neg) := by cases x.neg <;> cases y.neg <;> rfl
        simp only [hx, hy, if_true, Bool.true_and, e]
        by_cases hs : (x.neg != !y.neg) = true
        · left
          rw [if_pos hs, if_pos hs]
          exact ⟨rfl, by decide +kernel⟩
        · right; left
          rw [if_neg hs, if_neg hs]
          refine ext' ?_ ((inf_code hy).trans (inf_code hx).symm)
          revert hs
          unfold neg'
          cases x.neg <;> cases y.neg <;> simp
      · simp only [Bool.not_eq_true] at hy
        right; left
        simp [hx, hy]
    · simp only [Bool.not_eq_true] at hx
      by_cases hy : y.isInf = true
      · right; left
        simp [hx, hy, neg'_neg']
      · simp only [Bool.not_eq_true] at hy
        simp only [hx, hy, Bool.false_eq_true, if_false]
        rw [neg'_value, neg'_value, show y.value + -x.value = -(x.value + -y.value) by ring]
        by_cases hz : x.value + -y.value = 0
        · by_cases hs : (y.neg && !x.neg) = (!(x.neg && !y.neg))
          · right; left
            exact round_neg _ _ _ (fun _ => hs)
          · right; right
            have hs' : (y.neg && !x.neg) = (x.neg && !y.neg) := by
              revert hs
              generalize (y.neg && !x.neg) = p
              generalize (x.neg && !y.neg) = q
              cases p <;> cases q <;> simp
            rw [hs', hz, neg_zero]
            refine ⟨rfl, ?_⟩
            cases (x.neg && !y.neg) <;> decide +kernel
        · right; left
          exact round_neg _ _ _ (fun h => absurd h hz)

theorem mul_neg_neg (a : Double) : a.neg'.mul a.neg' = a.mul a := by
  unfold mul
  simp only [neg'_isNan, neg'_isInf, neg'_value]
  have e : (a.neg'.neg != a.neg'.neg) = (a.neg != a.neg) := by unfold neg'; cases a.neg <;> rfl
  rw [e, neg_mul_neg]
  rfl

/-- The square of a difference does not depend on its order, bit for bit. -/
theorem sq_sub (x y : Double) : (x - y) * (x - y) = (y - x) * (y - x) := by
  change (x.add y.neg').mul (x.add y.neg') = (y.add x.neg').mul (y.add x.neg')
  rcases sub_swap x y with ⟨h, -⟩ | h | ⟨h, -⟩
  · rw [h]
  · rw [h, mul_neg_neg]
  · rw [h]

theorem opposite_neg' (x : Double) : Opposite x.neg' x := by
  unfold Opposite
  rw [neg'_isNan]
  cases h : x.isNan
  · right
    refine ⟨rfl, rfl, ?_⟩
    unfold key neg'
    cases x.neg <;> simp
  · left; exact ⟨rfl, rfl⟩

theorem opposite_zero {x : Double} (h : x.code = 0) : Opposite x x := by
  right
  have hn : x.isNan = false := by unfold isNan; rw [h]; exact decide_eq_false (by omega)
  refine ⟨hn, hn, ?_⟩
  unfold key
  rw [h]; simp

theorem opposite_nan {x : Double} (h : x.isNan = true) : Opposite x x := Or.inl ⟨h, h⟩

theorem mul_neg_right (a b : Double) : a.mul b.neg' = (a.mul b).neg' ∨ (a.mul b.neg' = a.mul b ∧ (a.mul b).isNan = true) := by
  rw [mul_neg'_eq]
  unfold mul
  have e : (a.neg != !b.neg) = !(a.neg != b.neg) := by cases a.neg <;> cases b.neg <;> rfl
  have hnn : nan.isNan = true := by decide +kernel
  have hinf : ∀ s : Bool, inf (!s) = (inf s).neg' := by intro s; cases s <;> decide +kernel
  by_cases hn : (a.isNan || b.isNan) = true
  · right; rw [if_pos hn, if_pos hn]; exact ⟨rfl, hnn⟩
  · rw [if_neg hn, if_neg hn]
    by_cases ha : a.isInf = true
    · rw [if_pos ha, if_pos ha]
      by_cases hb : b.code = 0
      · right; rw [if_pos hb, if_pos hb]; exact ⟨rfl, hnn⟩
      · left; rw [if_neg hb, if_neg hb, e, hinf]
    · rw [if_neg ha, if_neg ha]
      by_cases hb : b.isInf = true
      · rw [if_pos hb, if_pos hb]
        by_cases hc : a.code = 0
        · right; rw [if_pos hc, if_pos hc]; exact ⟨rfl, hnn⟩
        · left; rw [if_neg hc, if_neg hc, e, hinf]
      · left
        rw [if_neg hb, if_neg hb, neg'_value, mul_neg]
        exact round_neg _ _ _ (fun _ => e)

theorem mul_nan_right {a b : Double} (h : b.isNan = true) : (a.mul b).isNan = true := by
  unfold mul
  rw [h, Bool.or_true, if_pos rfl]
  decide +kernel

/-- Multiples of `x - y` and `y - x` are opposite. -/
theorem opposite_mul_sub (c x y : Double) : Opposite (c * (y - x)) (c * (x - y)) := by
  change Opposite (c.mul (y.add x.neg')) (c.mul (x.add y.neg'))
  rcases sub_swap x y with ⟨h, hn⟩ | h | ⟨h, h0⟩
  · rw [h]; exact opposite_nan (mul_nan_right hn)
  · rw [h]
    rcases mul_neg_right c (x.add y.neg') with h1 | ⟨h1, h2⟩
    · rw [h1]; exact opposite_neg' _
    · rw [h1]; exact opposite_nan h2
  · rw [h]
    by_cases hc : c.isFinite = true
    · apply opposite_zero
      have hf : (x.add y.neg').isFinite = true := by rw [isFinite_iff, h0]; unfold infCode; norm_num
      obtain ⟨e, m, hr⟩ := mul_rnd hc hf
      rw [← val_eq_zero]
      exact hr.zero (by rw [val_eq_zero.mpr h0, mul_zero])
    · apply opposite_nan
      unfold mul
      by_cases hn : c.isNan = true
      · rw [hn, Bool.true_or, if_pos rfl]; decide +kernel
      · have hi : c.isInf = true := by
          rcases trichotomy' c with h | h | h
          · exact absurd h hc
          · exact absurd h hn
          · exact h
        split
        · decide +kernel
        · exact (by decide +kernel : nan.isNan = true)

end Double
end OpenMps
