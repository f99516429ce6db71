import Verif.Props.Contract
import Verif.Props.DoubleRun

/-! # C75: inner products, distances and motion under contraction -/

set_option exponentiation.threshold 2000

namespace OpenMps

open Double

/-- Inner products of products known up to a relative error. -/
theorem Expr.inner_bound (c : ℕ) (l : List (Expr × Expr)) (hl : ∀ p ∈ l, (Expr.mul p.1 p.2).Safe ∧
      (Expr.mul p.1 p.2).err ≤ c * (1 / 2 ^ 53) * |(Expr.mul p.1 p.2).exact| + 1 / 2 ^ 1075)
    (hc : c + 2 * l.length ≤ 2 ^ 30) (hS : (l.map fun p => |(Expr.mul p.1 p.2).exact|).sum ≤ 2 ^ 1000) :
    (Expr.inner l).Safe ∧ (Expr.inner l).exact = (l.map fun p => (Expr.mul p.1 p.2).exact).sum ∧
      |(Expr.inner l).exact| ≤ (l.map fun p => |(Expr.mul p.1 p.2).exact|).sum ∧
      (Expr.inner l).err ≤ (c + 2 * l.length) * (1 / 2 ^ 53) * (l.map fun p => |(Expr.mul p.1 p.2).exact|).sum + 2 * l.length * (1 / 2 ^ 1075) := by
  induction l using List.reverseRecOn with
  | nil =>
    have h0 : (0 : Double).val = 0 := doubleRounding.zero.2
    unfold inner Safe exact err
    simp only [List.foldl_nil, List.map_nil, List.sum_nil, List.length_nil, h0, abs_zero]
    refine ⟨doubleRounding.zero.1, trivial, le_refl _, ?_⟩
    norm_num
  | append_singleton l p ih =>
    rw [List.length_append, List.length_singleton] at hc
    rw [List.map_append, List.sum_append, List.map_singleton, List.sum_singleton] at hS
    obtain ⟨sm, em⟩ := hl p (by simp)
    have hp0 : (0 : ℝ) ≤ |(Expr.mul p.1 p.2).exact| := abs_nonneg _
    obtain ⟨s1, s2, s3, s4⟩ := ih (fun q hq => hl q (by simp [hq])) (by omega) (by linarith)
    have e : inner (l ++ [p]) = .add (inner l) (.mul p.1 p.2) := by unfold inner; rw [List.foldl_append]; rfl
    have S0 : (0 : ℝ) ≤ (l.map fun p => |(Expr.mul p.1 p.2).exact|).sum := (abs_nonneg _).trans s3
    have em0 := Expr.err_nonneg sm
    have ei0 := Expr.err_nonneg s1
    rw [e, List.map_append, List.sum_append, List.map_singleton, List.sum_singleton, List.map_append, List.sum_append, List.map_singleton, List.sum_singleton,
      List.length_append, List.length_singleton]
    change (_ ∧ _ ∧ |(inner l).exact + (Expr.mul p.1 p.2).exact| + (inner l).err + (Expr.mul p.1 p.2).err ≤ 2 ^ 1023) ∧
      (inner l).exact + (Expr.mul p.1 p.2).exact = _ ∧ |(inner l).exact + (Expr.mul p.1 p.2).exact| ≤ _ ∧
      (inner l).err + (Expr.mul p.1 p.2).err + 1 / 2 ^ 53 * (|(inner l).exact + (Expr.mul p.1 p.2).exact| + (inner l).err + (Expr.mul p.1 p.2).err) ≤ _
    have hx : |(inner l).exact + (Expr.mul p.1 p.2).exact| ≤ (l.map fun p => |(Expr.mul p.1 p.2).exact|).sum + |(Expr.mul p.1 p.2).exact| :=
      (abs_add_le _ _).trans (add_le_add s3 (le_refl _))
    rw [s2] at *
    have hη : (2 * l.length + 1 : ℝ) * (1 / 2 ^ 1075) ≤ 1 := by
      have h1 : ((2 * l.length + 1 : ℕ) : ℝ) ≤ ((2 ^ 30 : ℕ) : ℝ) := by exact_mod_cast (by omega : 2 * l.length + 1 ≤ 2 ^ 30)
      push_cast at h1
      have h2 : (1 : ℝ) / 2 ^ 1075 ≤ 1 / 2 ^ 30 := one_div_le_one_div_of_le (by positivity) (pow_le_pow_right₀ (by norm_num) (by norm_num))
      calc (2 * l.length + 1 : ℝ) * (1 / 2 ^ 1075) ≤ 2 ^ 30 * (1 / 2 ^ 30) := mul_le_mul (h1.trans (by norm_num)) h2 (by positivity) (by positivity)
        _ = 1 := by norm_num
    have hu : (c + 2 * l.length : ℝ) * (1 / 2 ^ 53) ≤ 1 := by
      have h1 : ((c + 2 * l.length : ℕ) : ℝ) ≤ ((2 ^ 30 : ℕ) : ℝ) := by exact_mod_cast (by omega : c + 2 * l.length ≤ 2 ^ 30)
      push_cast at h1
      calc (c + 2 * l.length : ℝ) * (1 / 2 ^ 53) ≤ 2 ^ 30 * (1 / 2 ^ 53) := mul_le_mul_of_nonneg_right (h1.trans (by norm_num)) (by positivity)
        _ ≤ 1 := by norm_num
    have hk : (2 * l.length + 1 : ℝ) * (1 / 2 ^ 53) ≤ 1 := by
      have h1 : ((2 * l.length + 1 : ℕ) : ℝ) ≤ ((2 ^ 30 : ℕ) : ℝ) := by exact_mod_cast (by omega : 2 * l.length + 1 ≤ 2 ^ 30)
      push_cast at h1
      calc (2 * l.length + 1 : ℝ) * (1 / 2 ^ 53) ≤ 2 ^ 30 * (1 / 2 ^ 53) := mul_le_mul_of_nonneg_right (h1.trans (by norm_num)) (by positivity)
        _ ≤ 1 := by norm_num
    have hbig : 2 * (2 : ℝ) ^ 1000 + 1 ≤ 2 ^ 1023 := by
      have h1 : (2 : ℝ) ^ 1023 = 2 ^ 1000 * 2 ^ 23 := by rw [← pow_add]
      have h2 : (1 : ℝ) ≤ 2 ^ 1000 := one_le_pow₀ (by norm_num)
      rw [h1]
      generalize (2 : ℝ) ^ 1000 = T at *
      norm_num
      linarith
    have η0 : (0 : ℝ) ≤ 1 / 2 ^ 1075 := by positivity
    have u0 : (0 : ℝ) ≤ 1 / 2 ^ 53 := by positivity
    generalize (l.map fun p => |(Expr.mul p.1 p.2).exact|).sum = S at *
    generalize (l.map fun p => (Expr.mul p.1 p.2).exact).sum = X at *
    generalize (Expr.mul p.1 p.2).exact = m at *
    generalize (Expr.mul p.1 p.2).err = Em at *
    generalize (inner l).err = E at *
    generalize (2 : ℝ) ^ 1000 = T at *
    generalize (2 : ℝ) ^ 1023 = T' at *
    generalize (1 : ℝ) / 2 ^ 1075 = η at *
    generalize (1 : ℝ) / 2 ^ 53 = u at *
    have l0 : (0 : ℝ) ≤ l.length := Nat.cast_nonneg _
    have c0 : (0 : ℝ) ≤ c := Nat.cast_nonneg _
    push_cast
    generalize (l.length : ℝ) = k at *
    generalize (c : ℝ) = c' at *
    have hEE : E + Em ≤ (c' + 2 * k) * u * (S + |m|) + (2 * k + 1) * η := by
      have : c' * u * |m| ≤ (c' + 2 * k) * u * |m| := by gcongr; linarith
      linarith
    have h1 : (c' + 2 * k) * u * (S + |m|) ≤ S + |m| := by
      have := mul_le_mul_of_nonneg_right hu (by positivity : 0 ≤ S + |m|)
      linarith
    refine ⟨⟨s1, sm, by linarith⟩, rfl, hx, ?_⟩
    have h2 : u * (|X + m| + E + Em) ≤ u * (2 * (S + |m|) + (2 * k + 1) * η) := mul_le_mul_of_nonneg_left (by linarith) u0
    have h3 : u * ((2 * k + 1) * η) ≤ η := by
      have := mul_le_mul_of_nonneg_right hk η0
      linarith
    linarith

/-- The products of leaves. -/
theorem Expr.leaf_mul {x y : Double} (hx : x.isFinite = true) (hy : y.isFinite = true) (h : |x.val * y.val| ≤ 2 ^ 1000) :
    (Expr.mul (.num x) (.num y)).Safe ∧ (Expr.mul (.num x) (.num y)).err ≤ (1 : ℕ) * (1 / 2 ^ 53) * |(Expr.mul (.num x) (.num y)).exact| + 1 / 2 ^ 1075 := by
  unfold Safe err exact
  unfold Safe err exact
  rw [abs_mul] at *
  have : (2 : ℝ) ^ 1000 ≤ 2 ^ 1023 := pow_le_pow_right₀ (by norm_num) (by norm_num)
  refine ⟨⟨hx, hy, ?_⟩, ?_⟩
  · rw [add_zero, add_zero]; exact h.trans this
  · push_cast
    generalize (1 : ℝ) / 2 ^ 1075 = η
    linarith

/-- **C75**, inner products (also those of the solver): any contraction of `inner_prod(v, w)` is the exact product up to the usual bound. -/
theorem C75_inner_products (vw : List (Double × Double)) (hf : ∀ p ∈ vw, p.1.isFinite = true ∧ p.2.isFinite = true) (hn : vw.length ≤ 2 ^ 20)
    (hS : (vw.map fun p => |p.1.val * p.2.val|).sum ≤ 2 ^ 1000) {r : Double}
    (h : (Expr.inner (vw.map fun p => (.num p.1, .num p.2))).Eval r) :
    r.isFinite = true ∧ |r.val - (vw.map fun p => p.1.val * p.2.val).sum| ≤
      (2 * vw.length + 1) / 2 ^ 53 * (vw.map fun p => |p.1.val * p.2.val|).sum + 2 * vw.length / 2 ^ 1075 := by
  have hone : ∀ p ∈ vw, |p.1.val * p.2.val| ≤ 2 ^ 1000 := fun p hp =>
    (List.single_le_sum (l := vw.map fun p => |p.1.val * p.2.val|) (by
      intro x hx; obtain ⟨q, -, rfl⟩ := List.mem_map.mp hx; exact abs_nonneg _) _ (List.mem_map.mpr ⟨p, hp, rfl⟩)).trans hS
  obtain ⟨h1, h2, -, h4⟩ := Expr.inner_bound 1 (vw.map fun p => (.num p.1, .num p.2)) (by
    intro p hp
    obtain ⟨q, hq, rfl⟩ := List.mem_map.mp hp
    exact Expr.leaf_mul (hf q hq).1 (hf q hq).2 (hone q hq)) (by rw [List.length_map]; omega) (by rw [List.map_map]; exact hS)
  obtain ⟨g1, g2⟩ := C75_contracted_expressions_are_accurate h h1
  refine ⟨g1, ?_⟩
  rw [h2] at g2
  rw [List.map_map, List.length_map] at h4
  rw [List.map_map] at g2
  refine (g2.trans h4).trans (le_of_eq ?_)
  have : ((fun p : Expr × Expr => |(Expr.mul p.1 p.2).exact|) ∘ fun p : Double × Double => (Expr.num p.1, Expr.num p.2)) = fun p => |p.1.val * p.2.val| := rfl
  rw [this]
  push_cast
  ring

/-- **C75**: the operations one by one are one of the choices: `dot` of the model is a result of the tree. -/
theorem C75_uncontracted_is_a_choice {D : ℕ} (x y : Vec Double D) : (Expr.sqDist x y).Eval (dot (x - y) (x - y)) := by
  unfold Expr.sqDist Expr.inner dot
  have : ∀ (l : List (Fin D)) (e : Expr) (s : Double), e.Eval s →
      ((l.map fun a => (Expr.sub (.num (x a)) (.num (y a)), Expr.sub (.num (x a)) (.num (y a)))).foldl (fun s p => Expr.add s (.mul p.1 p.2)) e).Eval
        (l.foldl (fun s a => s + (x - y) a * (x - y) a) s) := by
    intro l
    induction l with
    | nil => intro e s h; exact h
    | cons a l ih =>
      intro e s h
      exact ih _ _ (.add h (.mul (.sub (.num _) (.num _)) (.sub (.num _) (.num _))))
  exact this _ _ _ (.num 0)

theorem Double.Rnd.nonneg {v : ℝ} {r : Double} {e : ℤ} {m : ℕ} (h : Rnd v r e m) (hv : 0 ≤ v) : 0 ≤ r.val := by
  rcases hv.eq_or_lt with h0 | h0
  · exact (h.zero h0.symm).ge
  · rw [val_eq, h.pos h0, if_neg (by simp)]
    exact magR_nonneg _

theorem Expr.add_square_nonneg {A : Expr} {x y q : Double} (hA : ∀ q, A.Eval q → 0 ≤ q.val) (hm : ∀ a b, A ≠ .mul a b)
    (hs : (Expr.add A (.mul (.sub (.num x) (.num y)) (.sub (.num x) (.num y)))).Safe)
    (h : (Expr.add A (.mul (.sub (.num x) (.num y)) (.sub (.num x) (.num y)))).Eval q) : 0 ≤ q.val := by
  obtain ⟨s1, s2, -⟩ := hs
  have hd : ∀ z, (Expr.sub (.num x) (.num y)).Eval z → z = x - y := by
    intro z hz
    cases hz with
    | sub a b => cases a; cases b; rfl
  have fd : (x - y).isFinite = true := (C75_contracted_expressions_are_accurate (.sub (.num x) (.num y)) s2.1).1
  cases h with
  | @add _ _ z w hz hw =>
    cases hw with
    | @mul _ _ c d hc hd' =>
      have e1 := hd _ hc
      have e2 := hd _ hd'
      subst e1 e2
      have fw := (C75_contracted_expressions_are_accurate (.mul hc hd') s2).1
      have fz := (C75_contracted_expressions_are_accurate hz s1).1
      obtain ⟨_, _, k⟩ := mul_rnd fd fd
      have p := k.nonneg (mul_self_nonneg _)
      obtain ⟨_, _, k⟩ := add_rnd (y := (x - y) * (x - y)) fz fw
      exact k.nonneg (add_nonneg (hA _ hz) p)
  | mulAdd => exact absurd rfl (hm _ _)
  | @addMul _ _ _ c d z hc hd' hz =>
    have e1 := hd _ hc
    have e2 := hd _ hd'
    subst e1 e2
    have fz := (C75_contracted_expressions_are_accurate hz s1).1
    obtain ⟨_, _, k⟩ := fma_rnd fd fd fz
    exact k.nonneg (add_nonneg (mul_self_nonneg _) (hA _ hz))

/-- Squares and their sums are not negative, contracted or not. -/
theorem Expr.sqDist_nonneg {D : ℕ} (x y : Vec Double D) {q : Double} (hs : (Expr.sqDist x y).Safe) (h : (Expr.sqDist x y).Eval q) : 0 ≤ q.val := by
  unfold sqDist at hs h
  generalize List.finRange D = l at hs h
  induction l using List.reverseRecOn generalizing q with
  | nil =>
    change (Expr.num 0).Eval q at h
    cases h
    exact doubleRounding.zero.2.ge
  | append_singleton l a ih =>
    have e : ∀ (L : List (Expr × Expr)) p, inner (L ++ [p]) = .add (inner L) (.mul p.1 p.2) := fun L p => by unfold inner; rw [List.foldl_append]; rfl
    rw [List.map_append, List.map_singleton, e] at hs h
    refine add_square_nonneg (fun q hq => ih hs.1 hq) (fun c d hcd => ?_) hs h
    rcases List.eq_nil_or_concat l with h0 | ⟨l', b, h0⟩
    · rw [h0] at hcd; cases hcd
    · rw [h0, List.concat_eq_append, List.map_append, List.map_singleton, e] at hcd; cases hcd

/-- **C75**, squared distances: any contraction has a relative error below `2^-49`. -/
theorem C75_squared_distances {D : ℕ} (hD : D ≤ 3) (x y : Vec Double D) (hx : ∀ a, (x a).Upto 490) (hy : ∀ a, (y a).Upto 490) {r : Double}
    (h : (Expr.sqDist x y).Eval r) : r.isFinite = true ∧ 0 ≤ r.val ∧ |r.val - trueDist x y ^ 2| ≤ 1 / 2 ^ 49 * trueDist x y ^ 2 + 1 / 2 ^ 1070 := by
  have hS0 : 0 ≤ ∑ a, ((x a).val - (y a).val) ^ 2 := Finset.sum_nonneg fun a _ => sq_nonneg _
  have ht : trueDist x y ^ 2 = ∑ a, ((x a).val - (y a).val) ^ 2 := Real.sq_sqrt hS0
  have hd : ∀ a, |(x a).val - (y a).val| ≤ 2 ^ 491 := by
    intro a
    have h1 := (hx a).2
    have h2 := (hy a).2
    have h3 := abs_sub (x a).val (y a).val
    have h4 : (2 : ℝ) ^ 491 = 2 * 2 ^ 490 := by rw [← pow_succ']
    rw [h4]
    generalize (2 : ℝ) ^ 490 = T at *
    linarith
  have hd2 : ∀ a, ((x a).val - (y a).val) ^ 2 ≤ 2 ^ 982 := by
    intro a
    rw [← sq_abs, show (2 : ℝ) ^ 982 = (2 ^ 491) ^ 2 by rw [← pow_mul]]
    exact pow_le_pow_left₀ (abs_nonneg _) (hd a) 2
  have hm : ∀ a, (Expr.mul (.sub (.num (x a)) (.num (y a))) (.sub (.num (x a)) (.num (y a)))).exact = ((x a).val - (y a).val) ^ 2 := fun a => by
    rw [sq]; rfl
  have hsum : ∀ f : Fin D → ℝ, ((List.finRange D).map f).sum = ∑ a, f a := fun f => (List.sum_ofFn (f := f) ▸ by rw [List.ofFn_eq_map])
  have key := Expr.inner_bound 4 ((List.finRange D).map fun a => (.sub (.num (x a)) (.num (y a)), .sub (.num (x a)) (.num (y a)))) (by
    intro p hp
    obtain ⟨a, -, rfl⟩ := List.mem_map.mp hp
    rw [hm, abs_of_nonneg (sq_nonneg _)]
    change ((_ ∧ _ ∧ |(x a).val - (y a).val| + 0 + 0 ≤ 2 ^ 1023) ∧ (_ ∧ _ ∧ |(x a).val - (y a).val| + 0 + 0 ≤ 2 ^ 1023) ∧
      (|(x a).val - (y a).val| + (0 + 0 + 1 / 2 ^ 53 * (|(x a).val - (y a).val| + 0 + 0))) *
        (|(x a).val - (y a).val| + (0 + 0 + 1 / 2 ^ 53 * (|(x a).val - (y a).val| + 0 + 0))) ≤ 2 ^ 1023) ∧
      |(x a).val - (y a).val| * (0 + 0 + 1 / 2 ^ 53 * (|(x a).val - (y a).val| + 0 + 0)) +
        (0 + 0 + 1 / 2 ^ 53 * (|(x a).val - (y a).val| + 0 + 0)) * |(x a).val - (y a).val| +
        (0 + 0 + 1 / 2 ^ 53 * (|(x a).val - (y a).val| + 0 + 0)) * (0 + 0 + 1 / 2 ^ 53 * (|(x a).val - (y a).val| + 0 + 0)) +
        1 / 2 ^ 53 * ((|(x a).val - (y a).val| + (0 + 0 + 1 / 2 ^ 53 * (|(x a).val - (y a).val| + 0 + 0))) *
          (|(x a).val - (y a).val| + (0 + 0 + 1 / 2 ^ 53 * (|(x a).val - (y a).val| + 0 + 0)))) + 1 / 2 ^ 1075 ≤ _
    have h1 := hd a
    have h2 := hd2 a
    have e1 : (2 : ℝ) ^ 491 ≤ 2 ^ 1023 := pow_le_pow_right₀ (by norm_num) (by norm_num)
    have e2 : 4 * (2 : ℝ) ^ 982 ≤ 2 ^ 1023 := by
      rw [show (4 : ℝ) = 2 ^ 2 by norm_num, ← pow_add]
      exact pow_le_pow_right₀ (by norm_num) (by norm_num)
    rw [← sq_abs] at h2 ⊢
    have d0 : 0 ≤ |(x a).val - (y a).val| := abs_nonneg _
    generalize |(x a).val - (y a).val| = d at *
    generalize (2 : ℝ) ^ 491 = A at *
    generalize (2 : ℝ) ^ 982 = B at *
    generalize (2 : ℝ) ^ 1023 = T at *
    generalize (1 : ℝ) / 2 ^ 1075 = η at *
    have hd0 : 0 ≤ d ^ 2 := sq_nonneg d
    refine ⟨⟨⟨(hx a).1, (hy a).1, by linarith⟩, ⟨(hx a).1, (hy a).1, by linarith⟩, ?_⟩, ?_⟩
    · have : (d + (0 + 0 + 1 / 2 ^ 53 * (d + 0 + 0))) * (d + (0 + 0 + 1 / 2 ^ 53 * (d + 0 + 0))) = (1 + 1 / 2 ^ 53) ^ 2 * d ^ 2 := by ring
      rw [this]
      have : ((1 : ℝ) + 1 / 2 ^ 53) ^ 2 ≤ 4 := by norm_num
      exact (mul_le_mul_of_nonneg_right this hd0).trans (by linarith)
    · have : d * (0 + 0 + 1 / 2 ^ 53 * (d + 0 + 0)) + (0 + 0 + 1 / 2 ^ 53 * (d + 0 + 0)) * d +
          (0 + 0 + 1 / 2 ^ 53 * (d + 0 + 0)) * (0 + 0 + 1 / 2 ^ 53 * (d + 0 + 0)) +
          1 / 2 ^ 53 * ((d + (0 + 0 + 1 / 2 ^ 53 * (d + 0 + 0))) * (d + (0 + 0 + 1 / 2 ^ 53 * (d + 0 + 0)))) =
          (2 / 2 ^ 53 + (1 / 2 ^ 53) ^ 2 + 1 / 2 ^ 53 * (1 + 1 / 2 ^ 53) ^ 2) * d ^ 2 := by ring
      rw [this]
      have : ((2 : ℝ) / 2 ^ 53 + (1 / 2 ^ 53) ^ 2 + 1 / 2 ^ 53 * (1 + 1 / 2 ^ 53) ^ 2) ≤ ((4 : ℕ) : ℝ) * (1 / 2 ^ 53) := by norm_num
      linarith [mul_le_mul_of_nonneg_right this hd0]) (by rw [List.length_map, List.length_finRange]; omega) (by
    rw [List.map_map, hsum]
    have : (∑ a : Fin D, ((fun p : Expr × Expr => |(Expr.mul p.1 p.2).exact|) ∘ fun a => (Expr.sub (.num (x a)) (.num (y a)), Expr.sub (.num (x a)) (.num (y a)))) a) ≤
        ∑ _a : Fin D, (2 : ℝ) ^ 982 := Finset.sum_le_sum fun a _ => by
      change |(Expr.mul _ _).exact| ≤ _
      rw [hm, abs_of_nonneg (sq_nonneg _)]
      exact hd2 a
    rw [Finset.sum_const, Finset.card_univ, Fintype.card_fin, nsmul_eq_mul] at this
    refine this.trans ?_
    have h3 : (D : ℝ) ≤ 2 ^ 2 := by
      have : (D : ℝ) ≤ 3 := by exact_mod_cast hD
      linarith
    calc (D : ℝ) * 2 ^ 982 ≤ 2 ^ 2 * 2 ^ 982 := mul_le_mul_of_nonneg_right h3 (by positivity)
      _ = 2 ^ 984 := by rw [← pow_add]
      _ ≤ 2 ^ 1000 := pow_le_pow_right₀ (by norm_num) (by norm_num))
  obtain ⟨k1, k2, -, k4⟩ := key
  obtain ⟨g1, g2⟩ := C75_contracted_expressions_are_accurate h k1
  refine ⟨g1, Expr.sqDist_nonneg x y k1 h, ?_⟩
  rw [List.map_map, hsum] at k2 k4
  have e1 : (∑ a : Fin D, ((fun p : Expr × Expr => (Expr.mul p.1 p.2).exact) ∘ fun a => (Expr.sub (.num (x a)) (.num (y a)), Expr.sub (.num (x a)) (.num (y a)))) a) =
      trueDist x y ^ 2 := by
    rw [ht]
    exact Finset.sum_congr rfl fun a _ => hm a
  have e2 : (∑ a : Fin D, ((fun p : Expr × Expr => |(Expr.mul p.1 p.2).exact|) ∘ fun a => (Expr.sub (.num (x a)) (.num (y a)), Expr.sub (.num (x a)) (.num (y a)))) a) =
      trueDist x y ^ 2 := by
    rw [ht]
    refine Finset.sum_congr rfl fun a _ => ?_
    change |(Expr.mul _ _).exact| = _
    rw [hm, abs_of_nonneg (sq_nonneg _)]
  rw [e1] at k2
  rw [e2, List.length_map, List.length_finRange] at k4
  change |r.val - (Expr.inner _).exact| ≤ (Expr.inner _).err at g2
  rw [k2] at g2
  refine (g2.trans k4).trans ?_
  have hD' : (D : ℝ) ≤ 3 := by exact_mod_cast hD
  have s0 : 0 ≤ trueDist x y ^ 2 := sq_nonneg _
  have e3 : (1 : ℝ) / 2 ^ 1070 = 32 * (1 / 2 ^ 1075) := by
    rw [show (2 : ℝ) ^ 1075 = 2 ^ 5 * 2 ^ 1070 by rw [← pow_add]]
    have : (2 : ℝ) ^ 1070 ≠ 0 := by positivity
    generalize (2 : ℝ) ^ 1070 = T at *
    field_simp
    norm_num
  rw [e3]
  have η0 : (0 : ℝ) ≤ 1 / 2 ^ 1075 := by positivity
  generalize (1 : ℝ) / 2 ^ 1075 = η at *
  have h1 : (((4 : ℕ) : ℝ) + 2 * D) * (1 / 2 ^ 53) * trueDist x y ^ 2 ≤ 1 / 2 ^ 49 * trueDist x y ^ 2 :=
    mul_le_mul_of_nonneg_right (by push_cast; norm_num; linarith) s0
  have h2 : 2 * (D : ℝ) * η ≤ 32 * η := mul_le_mul_of_nonneg_right (by linarith) η0
  linarith

/-- **C75**, the interaction test `r2 < r_e * r_e` (`/repo/src/OpenMps/Computer.hpp:647`): with any contraction it accepts every pair up to a distance of
`(1 - 2^-26) r_e` and rejects every pair from `(1 + 2^-26) r_e` on. -/
theorem C75_interaction_test {D : ℕ} (hD : D ≤ 3) {re : Double} (hre : re.Sized 400) (x y : Vec Double D) (hx : ∀ a, (x a).Upto 490) (hy : ∀ a, (y a).Upto 490)
    {r : Double} (h : (Expr.sqDist x y).Eval r) :
    (trueDist x y ≤ (1 - 1 / 2 ^ 26) * re.val → Scalar.lt r (re * re) = true) ∧ ((1 + 1 / 2 ^ 26) * re.val ≤ trueDist x y → Scalar.lt r (re * re) = false) := by
  obtain ⟨f, hq0, g⟩ := C75_squared_distances hD x y hx hy h
  obtain ⟨hf, l1, l2⟩ := hre
  have hL0 : 0 < re.val := lt_of_lt_of_le (by positivity) l1
  have hsq : re.val * re.val ≤ 2 ^ 800 := by
    calc re.val * re.val ≤ 2 ^ 400 * 2 ^ 400 := mul_le_mul l2 l2 hL0.le (by positivity)
      _ = 2 ^ 800 := by rw [← pow_add]
  have hlow : (1 : ℝ) / 2 ^ 800 ≤ re.val ^ 2 := by
    calc (1 : ℝ) / 2 ^ 800 = (1 / 2 ^ 400) ^ 2 := by rw [div_pow, one_pow, ← pow_mul]
      _ ≤ re.val ^ 2 := pow_le_pow_left₀ (by positivity) l1 2
  obtain ⟨e, m, hm⟩ := mul_rnd hf hf
  obtain ⟨k1, k2⟩ := hm.close (B := re.val ^ 2) (by rw [abs_of_nonneg (by positivity), sq]) (by
    rw [sq]; exact hsq.trans (pow_le_pow_right₀ (by norm_num) (by norm_num)))
  change |(re * re).val - re.val * re.val| ≤ _ at k2
  rw [← sq] at k2
  have hη : (1 : ℝ) / 2 ^ 1070 ≤ 1 / 2 ^ 100 * re.val ^ 2 := by
    calc (1 : ℝ) / 2 ^ 1070 ≤ 1 / 2 ^ 900 := one_div_le_one_div_of_le (by positivity) (pow_le_pow_right₀ (by norm_num) (by norm_num))
      _ = 1 / 2 ^ 100 * (1 / 2 ^ 800) := by rw [div_mul_div_comm, one_mul, ← pow_add]
      _ ≤ _ := mul_le_mul_of_nonneg_left hlow (by positivity)
  have hη' : (1 : ℝ) / 2 ^ 1075 ≤ 1 / 2 ^ 100 * re.val ^ 2 := by
    refine le_trans ?_ hη
    exact one_div_le_one_div_of_le (by positivity) (pow_le_pow_right₀ (by norm_num) (by norm_num))
  have hT0 : 0 ≤ trueDist x y := Real.sqrt_nonneg _
  have hLL : 0 < re.val ^ 2 := by positivity
  have h3 := abs_le.mp g
  have h4 := abs_le.mp k2
  have hlt := doubleRounding.lt f k1
  change (Scalar.lt r (re * re) = true ↔ r.val < (re * re).val) at hlt
  generalize (1 : ℝ) / 2 ^ 1070 = η at *
  generalize (1 : ℝ) / 2 ^ 1075 = η' at *
  generalize (re * re).val = Q at *
  generalize re.val = L at *
  generalize trueDist x y = T at *
  constructor
  · intro hT
    rw [hlt]
    have h5 : T ^ 2 ≤ (1 - 1 / 2 ^ 26) ^ 2 * L ^ 2 := by
      rw [← mul_pow]; exact pow_le_pow_left₀ hT0 hT 2
    have h6 : r.val ≤ (1 + 1 / 2 ^ 49) * ((1 - 1 / 2 ^ 26) ^ 2 * L ^ 2) + 1 / 2 ^ 100 * L ^ 2 := by
      have := mul_le_mul_of_nonneg_left h5 (by positivity : (0 : ℝ) ≤ 1 + 1 / 2 ^ 49)
      linarith [h3.2]
    have h7 : (1 + 1 / 2 ^ 49) * ((1 - 1 / 2 ^ 26) ^ 2 * L ^ 2) + 1 / 2 ^ 100 * L ^ 2 = ((1 + 1 / 2 ^ 49) * (1 - 1 / 2 ^ 26) ^ 2 + 1 / 2 ^ 100) * L ^ 2 := by ring
    have h8 : ((1 + 1 / 2 ^ 49) * (1 - 1 / 2 ^ 26) ^ 2 + 1 / 2 ^ 100 : ℝ) < 1 - 1 / 2 ^ 53 - 1 / 2 ^ 100 := by norm_num
    have h9 := mul_lt_mul_of_pos_right h8 hLL
    linarith [h4.1]
  · intro hT
    rw [← Bool.not_eq_true, hlt, not_lt]
    have h5 : (1 + 1 / 2 ^ 26) ^ 2 * L ^ 2 ≤ T ^ 2 := by
      rw [← mul_pow]; exact pow_le_pow_left₀ (by positivity) hT 2
    have h6 : (1 - 1 / 2 ^ 49) * ((1 + 1 / 2 ^ 26) ^ 2 * L ^ 2) - 1 / 2 ^ 100 * L ^ 2 ≤ r.val := by
      have := mul_le_mul_of_nonneg_left h5 (by norm_num : (0 : ℝ) ≤ 1 - 1 / 2 ^ 49)
      linarith [h3.1]
    have h7 : (1 - 1 / 2 ^ 49) * ((1 + 1 / 2 ^ 26) ^ 2 * L ^ 2) - 1 / 2 ^ 100 * L ^ 2 = ((1 - 1 / 2 ^ 49) * (1 + 1 / 2 ^ 26) ^ 2 - 1 / 2 ^ 100) * L ^ 2 := by ring
    have h8 : (1 + 1 / 2 ^ 53 + 1 / 2 ^ 100 : ℝ) < (1 - 1 / 2 ^ 49) * (1 + 1 / 2 ^ 26) ^ 2 - 1 / 2 ^ 100 := by norm_num
    have h9 := mul_lt_mul_of_pos_right h8 hLL
    linarith [h4.2]

/-- **C75**, the search test `R(x, y) < NeighborLength` (`/repo/src/OpenMps/Computer.hpp:733-734`): the same, so that a contracted program loses no neighbour. -/
theorem C75_search_test {D : ℕ} (hD : D ≤ 3) {L : Double} (hL : L.Sized 400) (x y : Vec Double D) (hx : ∀ a, (x a).Upto 490) (hy : ∀ a, (y a).Upto 490)
    {r : Double} (h : (Expr.sqrt (Expr.sqDist x y)).Eval r) :
    (trueDist x y ≤ (1 - 1 / 2 ^ 26) * L.val → Scalar.lt r L = true) ∧ ((1 + 1 / 2 ^ 26) * L.val ≤ trueDist x y → Scalar.lt r L = false) := by
  cases h with
  | @sqrt _ q h =>
  obtain ⟨f, hq0, g⟩ := C75_squared_distances hD x y hx hy h
  obtain ⟨hf, l1, l2⟩ := hL
  have hL0 : 0 < L.val := lt_of_lt_of_le (by positivity) l1
  have hlow : (1 : ℝ) / 2 ^ 800 ≤ L.val ^ 2 := by
    calc (1 : ℝ) / 2 ^ 800 = (1 / 2 ^ 400) ^ 2 := by rw [div_pow, one_pow, ← pow_mul]
      _ ≤ L.val ^ 2 := pow_le_pow_left₀ (by positivity) l1 2
  have hη : (1 : ℝ) / 2 ^ 1070 ≤ 1 / 2 ^ 100 * L.val ^ 2 := by
    calc (1 : ℝ) / 2 ^ 1070 ≤ 1 / 2 ^ 900 := one_div_le_one_div_of_le (by positivity) (pow_le_pow_right₀ (by norm_num) (by norm_num))
      _ = 1 / 2 ^ 100 * (1 / 2 ^ 800) := by rw [div_mul_div_comm, one_mul, ← pow_add]
      _ ≤ _ := mul_le_mul_of_nonneg_left hlow (by positivity)
  have hT0 : 0 ≤ trueDist x y := Real.sqrt_nonneg _
  have hLL : 0 < L.val ^ 2 := by positivity
  have h3 := abs_le.mp g
  obtain ⟨sf, δ, hd, hs⟩ := doubleRounding.sqrt f hq0
  change |δ| ≤ 1 / 2 ^ 53 at hd
  change (Scalar.sqrt q).val = Real.sqrt q.val * (1 + δ) at hs
  have hlt := doubleRounding.lt sf hf
  change (Scalar.lt (Scalar.sqrt q) L = true ↔ (Scalar.sqrt q).val < L.val) at hlt
  have hd' := abs_le.mp hd
  generalize (Scalar.sqrt q).val = Q at *
  generalize (1 : ℝ) / 2 ^ 1070 = η at *
  generalize L.val = l at *
  generalize trueDist x y = T at *
  constructor
  · intro hT
    rw [hlt, hs]
    have h5 : T ^ 2 ≤ (1 - 1 / 2 ^ 26) ^ 2 * l ^ 2 := by
      rw [← mul_pow]; exact pow_le_pow_left₀ hT0 hT 2
    have h6 : q.val ≤ ((1 - 1 / 2 ^ 27) * l) ^ 2 := by
      have := mul_le_mul_of_nonneg_left h5 (by positivity : (0 : ℝ) ≤ 1 + 1 / 2 ^ 49)
      have h8 : ((1 + 1 / 2 ^ 49) * (1 - 1 / 2 ^ 26) ^ 2 + 1 / 2 ^ 100 : ℝ) ≤ (1 - 1 / 2 ^ 27) ^ 2 := by norm_num
      have h9 := mul_le_mul_of_nonneg_right h8 hLL.le
      rw [mul_pow]
      linarith [h3.2]
    have h7 : Real.sqrt q.val ≤ (1 - 1 / 2 ^ 27) * l := by
      rw [← Real.sqrt_sq (show 0 ≤ (1 - 1 / 2 ^ 27) * l from _root_.mul_nonneg (by norm_num) hL0.le)]
      exact Real.sqrt_le_sqrt h6
    have h8 : Real.sqrt q.val * (1 + δ) ≤ (1 - 1 / 2 ^ 27) * l * (1 + 1 / 2 ^ 53) :=
      mul_le_mul h7 (by linarith) (by norm_num at hd' ⊢; linarith [hd'.1]) ((Real.sqrt_nonneg _).trans h7)
    have h9 : ((1 - 1 / 2 ^ 27) * (1 + 1 / 2 ^ 53) : ℝ) < 1 := by norm_num
    have := mul_lt_mul_of_pos_right h9 hL0
    linarith
  · intro hT
    rw [← Bool.not_eq_true, hlt, not_lt, hs]
    have h5 : (1 + 1 / 2 ^ 26) ^ 2 * l ^ 2 ≤ T ^ 2 := by
      rw [← mul_pow]; exact pow_le_pow_left₀ (by positivity) hT 2
    have h6 : ((1 + 1 / 2 ^ 27) * l) ^ 2 ≤ q.val := by
      have := mul_le_mul_of_nonneg_left h5 (by norm_num : (0 : ℝ) ≤ 1 - 1 / 2 ^ 49)
      have h8 : ((1 + 1 / 2 ^ 27) ^ 2 : ℝ) ≤ (1 - 1 / 2 ^ 49) * (1 + 1 / 2 ^ 26) ^ 2 - 1 / 2 ^ 100 := by norm_num
      have h9 := mul_le_mul_of_nonneg_right h8 hLL.le
      rw [mul_pow]
      linarith [h3.1]
    have h7 : (1 + 1 / 2 ^ 27) * l ≤ Real.sqrt q.val := by
      rw [← Real.sqrt_sq (show 0 ≤ (1 + 1 / 2 ^ 27) * l by positivity)]
      exact Real.sqrt_le_sqrt h6
    have h8 : (1 + 1 / 2 ^ 27) * l * (1 - 1 / 2 ^ 53) ≤ Real.sqrt q.val * (1 + δ) :=
      mul_le_mul h7 (by linarith [hd'.1]) (by norm_num) (Real.sqrt_nonneg _)
    have h9 : (1 : ℝ) < (1 + 1 / 2 ^ 27) * (1 - 1 / 2 ^ 53) := by norm_num
    have := mul_lt_mul_of_pos_right h9 hL0
    linarith

/-- **C75**, motion (`/repo/src/OpenMps/Computer.hpp:1009-1010`): with or without contraction, `x + u * dt` is exact up to `2^-52 (|x| + 2 |u dt|)` and an underflow. -/
theorem C75_motion (x u dt : Double) (hx : x.Upto 490) (hu : u.Upto 490) (hdt : dt.Upto 490) {r : Double} (h : (Expr.move x u dt).Eval r) :
    r.isFinite = true ∧ |r.val - (x.val + u.val * dt.val)| ≤ 1 / 2 ^ 52 * (|x.val| + 2 * |u.val * dt.val|) + 1 / 2 ^ 1070 := by
  have hp : |u.val * dt.val| ≤ 2 ^ 980 := by
    rw [abs_mul, show (2 : ℝ) ^ 980 = 2 ^ 490 * 2 ^ 490 by rw [← pow_add]]
    exact mul_le_mul hu.2 hdt.2 (abs_nonneg _) (by positivity)
  obtain ⟨m1, m2⟩ := Expr.leaf_mul hu.1 hdt.1 (hp.trans (pow_le_pow_right₀ (by norm_num) (by norm_num)))
  have m3 := Expr.err_nonneg m1
  have hx2 := hx.2
  have hs := abs_add_le x.val (u.val * dt.val)
  have hη : (1 : ℝ) / 2 ^ 1070 = 32 * (1 / 2 ^ 1075) := by
    rw [show (2 : ℝ) ^ 1075 = 2 ^ 5 * 2 ^ 1070 by rw [← pow_add]]
    have : (2 : ℝ) ^ 1070 ≠ 0 := by positivity
    generalize (2 : ℝ) ^ 1070 = T at *
    field_simp
    norm_num
  have η0 : (0 : ℝ) ≤ 1 / 2 ^ 1075 := by positivity
  have η1 : (1 : ℝ) / 2 ^ 1075 ≤ 1 := by
    rw [div_le_one (by positivity)]; exact one_le_pow₀ (by norm_num)
  have b1 : 2 ^ 490 + 4 * (2 : ℝ) ^ 980 + 2 ≤ 2 ^ 1023 := by
    have e1 : (2 : ℝ) ^ 490 ≤ 2 ^ 980 := pow_le_pow_right₀ (by norm_num) (by norm_num)
    have e2 : (2 : ℝ) ^ 1023 = 2 ^ 980 * 2 ^ 43 := by rw [← pow_add]
    have e3 : (1 : ℝ) ≤ 2 ^ 980 := one_le_pow₀ (by norm_num)
    rw [e2]
    generalize (2 : ℝ) ^ 980 = T at *
    norm_num at e1 ⊢
    linarith
  change (Expr.mul (.num u) (.num dt)).err ≤ (1 : ℕ) * (1 / 2 ^ 53) * |u.val * dt.val| + 1 / 2 ^ 1075 at m2
  have safe : (Expr.move x u dt).Safe := by
    refine ⟨hx.1, m1, ?_⟩
    change |x.val + u.val * dt.val| + 0 + (Expr.mul (.num u) (.num dt)).err ≤ 2 ^ 1023
    have : (((1 : ℕ) : ℝ) * (1 / 2 ^ 53)) * |u.val * dt.val| ≤ 1 * |u.val * dt.val| := mul_le_mul_of_nonneg_right (by norm_num) (abs_nonneg _)
    generalize (2 : ℝ) ^ 1023 = T at *
    generalize (2 : ℝ) ^ 980 = A at *
    generalize (1 : ℝ) / 2 ^ 1075 = η at *
    generalize (2 : ℝ) ^ 490 = C at *
    have := abs_nonneg (u.val * dt.val)
    linarith
  obtain ⟨g1, g2⟩ := C75_contracted_expressions_are_accurate h safe
  refine ⟨g1, ?_⟩
  change |r.val - (x.val + u.val * dt.val)| ≤ 0 + (Expr.mul (.num u) (.num dt)).err +
    1 / 2 ^ 53 * (|x.val + u.val * dt.val| + 0 + (Expr.mul (.num u) (.num dt)).err) at g2
  refine g2.trans ?_
  rw [hη]
  rw [Nat.cast_one, one_mul] at m2
  generalize (1 : ℝ) / 2 ^ 1075 = η at *
  have := abs_nonneg (u.val * dt.val)
  have := abs_nonneg x.val
  linarith

end OpenMps
