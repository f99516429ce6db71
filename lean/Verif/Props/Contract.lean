import Verif.Lemmas.Contract

/-! # C75: contraction into fused multiply-adds -/

set_option exponentiation.threshold 2000

namespace OpenMps

open Double

/-- **C75**, the instruction: `fma` rounds the exact `x * y + z` once. -/
theorem C75_fma_is_correctly_rounded (x y z : Double) (hx : x.isFinite = true) (hy : y.isFinite = true) (hz : z.isFinite = true) :
    RoundsTo (x.val * y.val + z.val) (fma x y z) := by
  obtain ⟨e, m, h⟩ := fma_rnd hx hy hz
  exact h.roundsTo

/-- **C75**: whichever products the compiler fuses into the sums they occur in, the result of an expression stays within the error bound of the evaluation
operation by operation. -/
theorem C75_contracted_expressions_are_accurate {e : Expr} {r : Double} (h : e.Eval r) (hs : e.Safe) : r.isFinite = true ∧ |r.val - e.exact| ≤ e.err := by
  induction h with
  | num x => exact ⟨hs, by unfold Expr.exact Expr.err; rw [sub_self, abs_zero]⟩
  | @neg a x _ ih =>
    obtain ⟨h1, h2⟩ := ih hs
    refine ⟨h1, ?_⟩
    change |(neg' x).val - -a.exact| ≤ a.err
    rw [neg'_val]
    exact neg_close h2
  | @add a b x y _ _ iha ihb =>
    obtain ⟨sa, sb, sv⟩ := hs
    obtain ⟨h1, h2⟩ := iha sa
    obtain ⟨g1, g2⟩ := ihb sb
    have hc : |x.val + y.val - (a.exact + b.exact)| ≤ a.err + b.err := by
      rw [add_sub_add_comm]
      exact (abs_add_le _ _).trans (add_le_add h2 g2)
    obtain ⟨k1, k2⟩ := add_close h1 g1 (B := |a.exact + b.exact| + a.err + b.err) (by linarith [abs_le_of_close hc]) sv
    refine ⟨k1, ?_⟩
    change |(x.add y).val - (a.exact + b.exact)| ≤ a.err + b.err + 1 / 2 ^ 53 * (|a.exact + b.exact| + a.err + b.err)
    have := abs_sub_le (x.add y).val (x.val + y.val) (a.exact + b.exact)
    linarith
  | @sub a b x y _ _ iha ihb =>
    obtain ⟨sa, sb, sv⟩ := hs
    obtain ⟨h1, h2⟩ := iha sa
    obtain ⟨g1, g2⟩ := ihb sb
    have g3 := neg_close g2
    rw [← neg'_val] at g3
    have hc : |x.val + (neg' y).val - (a.exact - b.exact)| ≤ a.err + b.err := by
      rw [sub_eq_add_neg a.exact, add_sub_add_comm]
      exact (abs_add_le _ _).trans (add_le_add h2 g3)
    obtain ⟨k1, k2⟩ := add_close h1 (y := neg' y) g1 (B := |a.exact - b.exact| + a.err + b.err) (by linarith [abs_le_of_close hc]) sv
    refine ⟨k1, ?_⟩
    change |(x.add (neg' y)).val - (a.exact - b.exact)| ≤ a.err + b.err + 1 / 2 ^ 53 * (|a.exact - b.exact| + a.err + b.err)
    have := abs_sub_le (x.add (neg' y)).val (x.val + (neg' y).val) (a.exact - b.exact)
    linarith
  | @mul a b x y _ _ iha ihb =>
    obtain ⟨sa, sb, sv⟩ := hs
    obtain ⟨h1, h2⟩ := iha sa
    obtain ⟨g1, g2⟩ := ihb sb
    obtain ⟨p1, p2⟩ := mul_close h2 g2
    obtain ⟨e, m, h⟩ := mul_rnd h1 g1
    obtain ⟨k1, k2⟩ := h.close p2 sv
    refine ⟨k1, ?_⟩
    change |(x.mul y).val - a.exact * b.exact| ≤ _
    have := abs_sub_le (x.mul y).val (x.val * y.val) (a.exact * b.exact)
    unfold Expr.err
    linarith
  | @div a b x y _ _ iha ihb =>
    obtain ⟨sa, sb, s0, sv⟩ := hs
    obtain ⟨h1, h2⟩ := iha sa
    obtain ⟨g1, g2⟩ := ihb sb
    have ea := Expr.err_nonneg sa
    have eb := Expr.err_nonneg sb
    have hb0 : 0 < |b.exact| := by linarith
    have hlow : |b.exact| - b.err ≤ |y.val| := by
      have := abs_sub_abs_le_abs_sub b.exact y.val
      rw [abs_sub_comm] at this
      linarith
    have hy0 : 0 < |y.val| := by linarith
    have hq : 0 < |b.exact| - b.err := by linarith
    obtain ⟨e, m, h⟩ := div_rnd h1 g1 (abs_pos.mp hy0)
    obtain ⟨k1, k2⟩ := h.close (B := (|a.exact| + a.err) / (|b.exact| - b.err)) (by
      rw [abs_div]
      exact div_le_div₀ (by positivity) (abs_le_of_close h2) hq hlow) sv
    refine ⟨k1, ?_⟩
    change |(x.div y).val - a.exact / b.exact| ≤ _
    have key : |x.val / y.val - a.exact / b.exact| ≤ (a.err + |a.exact / b.exact| * b.err) / (|b.exact| - b.err) := by
      have : x.val / y.val - a.exact / b.exact = ((x.val - a.exact) + a.exact / b.exact * (b.exact - y.val)) / y.val := by
        have := abs_pos.mp hy0
        have := abs_pos.mp hb0
        field_simp
        ring
      rw [this, abs_div]
      refine div_le_div₀ (by positivity) ((abs_add_le _ _).trans (add_le_add h2 ?_)) hq hlow
      rw [abs_mul, abs_sub_comm b.exact]
      exact mul_le_mul_of_nonneg_left g2 (abs_nonneg _)
    have := abs_sub_le (x.div y).val (x.val / y.val) (a.exact / b.exact)
    unfold Expr.err
    linarith
  | @sqrt a x _ ih =>
    obtain ⟨sa, s0⟩ := hs
    obtain ⟨h1, h2⟩ := ih sa
    have ea := Expr.err_nonneg sa
    have ha : 0 < a.exact := by linarith
    have hx : 0 < x.val := by linarith [(abs_le.mp h2).1]
    have ra : 0 < Real.sqrt a.exact := Real.sqrt_pos.mpr ha
    obtain ⟨hf, g⟩ := doubleRounding.sqrt h1 hx.le
    obtain ⟨δ, hd, g⟩ := g
    refine ⟨hf, ?_⟩
    change (Scalar.sqrt x).val = Real.sqrt x.val * (1 + δ) at g
    change |δ| ≤ 1 / 2 ^ 53 at hd
    have key : |Real.sqrt x.val - Real.sqrt a.exact| ≤ a.err / Real.sqrt a.exact := by
      rw [le_div_iff₀ ra]
      have : (Real.sqrt x.val - Real.sqrt a.exact) * (Real.sqrt x.val + Real.sqrt a.exact) = x.val - a.exact := by
        have := Real.mul_self_sqrt hx.le
        have := Real.mul_self_sqrt ha.le
        nlinarith
      have h3 : |Real.sqrt x.val - Real.sqrt a.exact| * (Real.sqrt x.val + Real.sqrt a.exact) = |x.val - a.exact| := by
        rw [← this, abs_mul, abs_of_pos (a := Real.sqrt x.val + Real.sqrt a.exact) (by positivity)]
      have h4 : |Real.sqrt x.val - Real.sqrt a.exact| * Real.sqrt a.exact ≤ |Real.sqrt x.val - Real.sqrt a.exact| * (Real.sqrt x.val + Real.sqrt a.exact) :=
        mul_le_mul_of_nonneg_left (by linarith [Real.sqrt_nonneg x.val]) (abs_nonneg _)
      linarith
    change |(Scalar.sqrt x).val - Real.sqrt a.exact| ≤ _
    have e1 : (Scalar.sqrt x).val - Real.sqrt a.exact = (Real.sqrt x.val - Real.sqrt a.exact) + δ * Real.sqrt x.val := by rw [g]; ring
    rw [e1]
    have h5 : |δ * Real.sqrt x.val| ≤ 1 / 2 ^ 53 * (Real.sqrt a.exact + a.err / Real.sqrt a.exact) := by
      rw [abs_mul]
      refine mul_le_mul hd ?_ (abs_nonneg _) (by positivity)
      have := abs_le_of_close key
      rwa [abs_of_pos ra] at this
    have := abs_add_le (Real.sqrt x.val - Real.sqrt a.exact) (δ * Real.sqrt x.val)
    unfold Expr.err
    linarith
  | @mulAdd a b c x y z _ _ _ iha ihb ihc =>
    obtain ⟨⟨sa, sb, -⟩, sc, sv⟩ := hs
    obtain ⟨a1, a2⟩ := iha sa
    obtain ⟨b1, b2⟩ := ihb sb
    obtain ⟨c1, c2⟩ := ihc sc
    exact fma_close a1 b1 c1 a2 b2 c2 sv
  | @addMul a b c x y z _ _ _ iha ihb ihc =>
    obtain ⟨sc, ⟨sa, sb, -⟩, sv⟩ := hs
    obtain ⟨a1, a2⟩ := iha sa
    obtain ⟨b1, b2⟩ := ihb sb
    obtain ⟨c1, c2⟩ := ihc sc
    change |c.exact + a.exact * b.exact| + c.err + (Expr.mul a b).err ≤ 2 ^ 1023 at sv
    change (fma x y z).isFinite = true ∧ |(fma x y z).val - (c.exact + a.exact * b.exact)| ≤
      c.err + (Expr.mul a b).err + 1 / 2 ^ 53 * (|c.exact + a.exact * b.exact| + c.err + (Expr.mul a b).err)
    rw [add_comm c.exact] at sv ⊢
    rw [add_right_comm |_ + _|] at sv ⊢
    rw [add_comm c.err]
    exact fma_close a1 b1 c1 a2 b2 c2 sv
  | @mulSub a b c x y z _ _ _ iha ihb ihc =>
    obtain ⟨⟨sa, sb, -⟩, sc, sv⟩ := hs
    obtain ⟨a1, a2⟩ := iha sa
    obtain ⟨b1, b2⟩ := ihb sb
    obtain ⟨c1, c2⟩ := ihc sc
    have c3 := neg_close c2
    rw [← neg'_val] at c3
    exact fma_close a1 b1 (z := neg' z) c1 a2 b2 c3 sv
  | @subMul a b c x y z _ _ _ iha ihb ihc =>
    obtain ⟨sc, ⟨sa, sb, -⟩, sv⟩ := hs
    obtain ⟨a1, a2⟩ := iha sa
    obtain ⟨b1, b2⟩ := ihb sb
    obtain ⟨c1, c2⟩ := ihc sc
    have a3 := neg_close a2
    rw [← neg'_val] at a3
    change |c.exact - a.exact * b.exact| + c.err + (Expr.mul a b).err ≤ 2 ^ 1023 at sv
    change (fma (neg' x) y z).isFinite = true ∧ |(fma (neg' x) y z).val - (c.exact - a.exact * b.exact)| ≤
      c.err + (Expr.mul a b).err + 1 / 2 ^ 53 * (|c.exact - a.exact * b.exact| + c.err + (Expr.mul a b).err)
    have e : c.exact - a.exact * b.exact = -a.exact * b.exact + c.exact := by ring
    rw [e] at sv ⊢
    rw [add_right_comm |_ + _|] at sv ⊢
    rw [add_comm c.err]
    have hM : (Expr.mul a b).err = |(-a.exact)| * b.err + a.err * |b.exact| + a.err * b.err + 1 / 2 ^ 53 * ((|(-a.exact)| + a.err) * (|b.exact| + b.err)) + 1 / 2 ^ 1075 := by
      rw [abs_neg]; rfl
    rw [hM] at sv ⊢
    exact fma_close (x := neg' x) a1 b1 c1 a3 b2 c2 sv

/-- **C75**: any two results the compiled program may compute for an expression are within twice that bound. -/
theorem C75_choices_of_the_compiler_agree {e : Expr} {r s : Double} (hr : e.Eval r) (hs : e.Eval s) (h : e.Safe) : |r.val - s.val| ≤ 2 * e.err := by
  have h1 := (C75_contracted_expressions_are_accurate hr h).2
  have h2 := (C75_contracted_expressions_are_accurate hs h).2
  rw [abs_sub_comm] at h2
  exact (abs_sub_le _ e.exact _).trans (by linarith)

end OpenMps
