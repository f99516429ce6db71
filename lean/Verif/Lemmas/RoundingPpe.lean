import Verif.Spec.RoundingPpe
import Verif.Props.RoundingForces
import Verif.Lemmas.Ppe

/-! # Coefficients and right-hand sides of the pressure equation in rounded arithmetic -/

set_option linter.unusedSectionVars false
set_option exponentiation.threshold 1000

namespace OpenMps

variable {F : Type} [Scalar F] {D : Nat} {ω : Type}

theorem State.mem_taken (t : State F D ω) {i j : ℕ} : j ∈ t.taken i ↔ j ∈ t.neighbors i ∧ t.takes i j = true := by
  unfold State.taken
  rw [List.mem_toFinset, List.mem_filter]

theorem State.taken_eq (t : State F D ω) (i : ℕ) : t.taken i = (t.nearList i).toFinset := rfl

/-- A pair that the loop takes: its distance and the bounds. -/
theorem Rounding.Row.near {R : Rounding F} (hR : R.DoubleLike) (hD : D ≤ 3) {ℓ : F} {t : State F D ω}
    (hl : R.Lengths ℓ t.env.re) (hℓ : 1 / 2 ^ 30 ≤ R.val ℓ) (hP : R.Plain t.env) {i : ℕ} (h : R.Row ℓ t i) {j : ℕ} (hj : j ∈ t.neighbors i)
    (ht : t.takes i j = true) :
    1 / 2 ^ 30 ≤ R.trueDist (t.ps i).x (t.ps j).x ∧ R.trueDist (t.ps i).x (t.ps j).x ≤ 2 ^ 31 := by
  obtain ⟨⟨d1, d2⟩, -, -⟩ := h.dist_mag hR hD hl hj
  have hrl := (h.pair j hj).2.2.2
  refine ⟨hℓ.trans hrl, ?_⟩
  unfold State.takes at ht
  rw [Bool.and_eq_true] at ht
  have h1 := (R.compare_re hR hl hrl d1 d2).1 ht.2
  have h2 := hP.re.2.2
  norm_num at h1 h2 ⊢
  linarith

/-- Coefficient of the matrix. -/
theorem Rounding.Row.coef {R : Rounding F} (hR : R.DoubleLike) (hW : R.Wide) (hE : R.Exact) (hD : D ≤ 3) (hD0 : 0 < D) {ℓ : F} {t : State F D ω}
    (hl : R.Lengths ℓ t.env.re) (hℓ : 1 / 2 ^ 30 ≤ R.val ℓ) (hP : R.Plain t.env) {i : ℕ}
    (h : R.Row ℓ t i) (cfg : Config) {j : ℕ} (hj : j ∈ t.neighbors i) (ht : t.takes i j = true) :
    R.Mag (t.coef cfg (dist (t.ps i).x (t.ps j).x)) (R.laplace cfg t.env (R.trueDist (t.ps i).x (t.ps j).x))
      (R.laplaceSize cfg t.env (R.trueDist (t.ps i).x (t.ps j).x)) 150 160 := by
  obtain ⟨rlo, rhi⟩ := h.near hR hD hl hℓ hP hj ht
  obtain ⟨-, ⟨d3, d4⟩, -⟩ := h.dist_mag hR hD hl hj
  have hrl := (h.pair j hj).2.2.2
  set r := R.trueDist (t.ps i).x (t.ps j).x with hr
  have r0 : 0 < r := lt_of_lt_of_le hl.good.pos hrl
  have re0 := hP.re.pos
  have n00 := hP.n0.pos
  have la0 := hP.lambda.pos
  have hDr : (0 : ℝ) < D := by exact_mod_cast hD0
  unfold State.coef
  by_cases hh : cfg.hl = true
  · rw [if_pos hh]
    have m5 : R.Mag (Scalar.ofInt ((5 - D : ℕ) : Int)) ((5 - D : ℕ) : ℝ) |((5 - D : ℕ) : ℝ)| 0 3 := hE.mag (by omega) (by omega)
    have mr := Rounding.dist_mag' rlo rhi d3 d4
    have mr2 := mr.mul hR hW mr (by norm_num) (by norm_num) (by norm_num) (by norm_num)
    have mr3 := mr2.mul hR hW mr (by norm_num) (by norm_num) (by norm_num) (by norm_num)
    have mr3 := mr3.cast rfl (show |r| * |r| * |r| = |r * r * r| by rw [abs_mul, abs_mul])
    have m2 := m5.mul hR hW hP.re.mag (by norm_num) (by norm_num) (by norm_num) (by norm_num)
    have m3 := m2.div hR hW hP.n0.mag (by norm_num) (by norm_num) (by norm_num)
    have m4 := m3.div hR hW mr3 (by norm_num) (by norm_num) (by norm_num)
    have h5 : ((5 - D : ℕ) : ℝ) = 5 - D := by rw [Nat.cast_sub (by omega)]; norm_num
    have h50 : (0 : ℝ) < 5 - D := by
      have : (D : ℝ) ≤ 3 := by exact_mod_cast hD
      linarith
    have em : |((5 - D : ℕ) : ℝ)| * |R.val t.env.re| / |R.val t.env.n0| / |r * r * r| = R.laplaceSize cfg t.env r := by
      rw [h5, abs_of_pos h50, abs_of_pos re0, abs_of_pos n00, abs_of_pos (show 0 < r * r * r by positivity)]
      unfold Rounding.laplaceSize Rounding.laplace
      rw [if_pos hh, if_pos hh]
      field_simp
    have m4 := m4.cast (t' := R.laplace cfg t.env r) (by
      rw [h5]
      unfold Rounding.laplace
      rw [if_pos hh]
      field_simp) em
    exact m4.mono (le_refl _) (by norm_num) (by norm_num) (m4.hi.trans (pow_le_pow_right₀ (by norm_num) (by norm_num)))
  · rw [if_neg hh]
    have m2 : R.Mag (Scalar.ofInt ((2 * D : ℕ) : Int)) ((2 * D : ℕ) : ℝ) |((2 * D : ℕ) : ℝ)| 0 3 := hE.mag (by omega) (by omega)
    have mw := Rounding.weight_mag hR hl hrl d3 d4
    have m4 := m2.div hR hW hP.lambda.mag (by norm_num) (by norm_num) (by norm_num)
    have m5 := m4.div hR hW hP.n0.mag (by norm_num) (by norm_num) (by norm_num)
    have m6 := m5.mul hR hW mw (by norm_num) (by norm_num) (by norm_num) (by norm_num)
    have m6 := m6.cast (t' := R.laplace cfg t.env r) (m' := R.laplaceSize cfg t.env r) (by
      unfold Rounding.laplace
      rw [if_neg hh]
      push_cast
      field_simp) (by
      rw [abs_of_pos (show (0 : ℝ) < ((2 * D : ℕ) : ℝ) by push_cast; positivity), abs_of_pos la0, abs_of_pos n00]
      unfold Rounding.laplaceSize
      rw [if_neg hh]
      push_cast
      field_simp)
    exact m6.mono (le_refl _) (by norm_num) (by norm_num) (m6.hi.trans (pow_le_pow_right₀ (by norm_num) (by norm_num)))

/-- Sums of numbers over the neighbours. -/
theorem Rounding.Row.sum {R : Rounding F} (hR : R.DoubleLike) (hW : R.Wide) (hD0 : 0 < D) {ℓ : F} {t : State F D ω} {i : ℕ}
    (h : R.Row ℓ t i) {cfg : Config} (hnv : R.NoVirtual cfg t i) (f : Int → Particle F D → F) (T M : ℕ → ℝ) {K c B : ℕ} (hK : K ≤ 2 ^ 20)
    (hc : c + 21 ≤ B) (hB : B ≤ 900)
    (hf : ∀ j ∈ t.neighbors i, t.takes i j = true → R.Mag (f (j : Int) (t.ps j)) (T j) (M j) K c) :
    R.Mag (t.accumulate cfg i 0 f) (∑ j ∈ t.taken i, T j) (1 / 2 ^ B + ∑ j ∈ t.taken i, M j) (K + 2 * (t.neighbors i).length) B := by
  have e : t.accumulate cfg i 0 f = (t.accumulate cfg i (0 : Vec F D) (fun j q _ => f j q)) ⟨0, hD0⟩ :=
    (accumulate_hom (fun v : Vec F D => v ⟨0, hD0⟩) (fun _ _ => rfl) cfg t i (0 : Vec F D) (fun j q _ => f j q)).symm
  rw [e, hnv.accumulate]
  set M' : ℕ → ℝ := fun j => if t.takes i j = true then M j else 0 with hM'
  have hsum : ∑ j ∈ t.taken i, M' j = ∑ j ∈ t.taken i, M j := by
    apply Finset.sum_congr rfl
    intro j hj
    simp only [hM']
    rw [if_pos (t.mem_taken.mp hj).2]
  rw [← hsum]
  refine h.acc hR hW (fun j q _ => f j q) ⟨0, hD0⟩ T M' hK hc hB (fun j hj => ?_) (fun j hj ht => ?_)
  · simp only [hM']
    split
    · rename_i ht
      exact ⟨(hf j hj ht).pos.le, (hf j hj ht).hi⟩
    · exact ⟨le_refl _, by positivity⟩
  · simp only [hM']
    rw [if_pos ht]
    exact hf j hj ht

theorem Rounding.mag_zero (R : Rounding F) {b : ℕ} : R.Mag (0 : F) 0 (1 / 2 ^ b) 0 b := by
  refine ⟨R.zero.1, by rw [abs_zero]; positivity, ?_, le_refl _, ?_⟩
  · rw [R.zero.2, sub_zero, abs_zero]
    have := e50_pos
    positivity
  · exact (inv_le_one b).trans (one_le_pow₀ (by norm_num))

/-- Diagonal entry. -/
theorem Rounding.Row.diagonal {R : Rounding F} (hR : R.DoubleLike) (hW : R.Wide) (hE : R.Exact) (hD : D ≤ 3) (hD0 : 0 < D) {ℓ : F} {t : State F D ω}
    (hl : R.Lengths ℓ t.env.re) (hℓ : 1 / 2 ^ 30 ≤ R.val ℓ) (hP : R.Plain t.env) {i : ℕ}
    (h : R.Row ℓ t i) {cfg : Config} (hnv : R.NoVirtual cfg t i) :
    R.Mag (t.accumulate cfg i ({ sum := 0, entries := [] } : RowAcc F) (t.rowFunc cfg i)).sum
      (-∑ j ∈ (t.taken i).filter (fun j => (t.ps j).ty ≠ .dummy), R.laplace cfg t.env (R.trueDist (t.ps i).x (t.ps j).x))
      (∑ j ∈ (t.taken i).filter (fun j => (t.ps j).ty ≠ .dummy), R.laplaceSize cfg t.env (R.trueDist (t.ps i).x (t.ps j).x) + 1 / 2 ^ 300)
      (150 + 2 * (t.neighbors i).length) 510 := by
  have hlen := h.length
  rw [accumulate_hom RowAcc.sum (fun _ _ => rfl)]
  classical
  have key := h.sum hR hW hD0 hnv (fun j q => (t.rowFunc cfg i j q).sum)
    (fun j => if (t.ps j).ty ≠ .dummy then -R.laplace cfg t.env (R.trueDist (t.ps i).x (t.ps j).x) else 0)
    (fun j => if (t.ps j).ty ≠ .dummy then R.laplaceSize cfg t.env (R.trueDist (t.ps i).x (t.ps j).x) else 1 / 2 ^ 330)
    (K := 150) (c := 330) (B := 500) (by norm_num) (by norm_num) (by norm_num) (by
      intro j hj ht
      unfold State.rowFunc
      by_cases hd : (t.ps j).ty ≠ .dummy
      · rw [if_pos hd, if_pos hd, if_pos hd]
        have := (h.coef hR hW hE hD hD0 hl hℓ hP cfg hj ht).neg hE
        exact this.mono (le_refl _) (le_refl _) (by norm_num) (this.hi.trans (pow_le_pow_right₀ (by norm_num) (by norm_num)))
      · rw [if_neg hd, if_neg hd, if_neg hd]
        have := R.mag_zero (b := 330)
        exact this.mono (le_refl _) (by norm_num) (le_refl _) this.hi)
  have eT : ∑ j ∈ t.taken i, (if (t.ps j).ty ≠ .dummy then -R.laplace cfg t.env (R.trueDist (t.ps i).x (t.ps j).x) else 0) =
      -∑ j ∈ (t.taken i).filter (fun j => (t.ps j).ty ≠ .dummy), R.laplace cfg t.env (R.trueDist (t.ps i).x (t.ps j).x) := by
    rw [← Finset.sum_filter, Finset.sum_neg_distrib]
  have key := key.cast eT rfl
  rw [sum_small] at key
  have hc := t.taken_card i (fun j => ¬ (t.ps j).ty ≠ .dummy) hlen
  have h1 : (((t.taken i).filter (fun j => ¬ (t.ps j).ty ≠ .dummy)).card : ℝ) * (1 / 2 ^ 330) ≤ 1 / 2 ^ 302 := by
    refine (mul_le_mul_of_nonneg_right hc (by positivity)).trans ?_
    rw [mul_one_div, div_le_div_iff₀ (by positivity) (by positivity), ← pow_add, one_mul]
    exact pow_le_pow_right₀ (by norm_num) (by norm_num)
  have h3 : (1 : ℝ) / 2 ^ 500 + 1 / 2 ^ 302 ≤ 1 / 2 ^ 300 := inv_add_le (by norm_num) (by norm_num)
  have hS : 0 ≤ (((t.taken i).filter (fun j => ¬ (t.ps j).ty ≠ .dummy)).card : ℝ) * (1 / 2 ^ 330) := by positivity
  refine key.mono ?_ (le_refl _) (by norm_num) ?_
  · generalize (1 : ℝ) / 2 ^ 500 = p1 at *
    generalize (1 : ℝ) / 2 ^ 302 = p2 at *
    generalize (1 : ℝ) / 2 ^ 300 = p3 at *
    linarith
  · have h4 := key.hi
    have h5 : (1 : ℝ) / 2 ^ 300 ≤ 2 ^ 0 := by rw [pow_zero]; exact inv_le_one 300
    have h6 : (2 : ℝ) ^ 500 + 2 ^ 0 ≤ 2 ^ 510 := pow_add_le (by norm_num) (by norm_num)
    have h7 : (0 : ℝ) < 1 / 2 ^ 500 := by positivity
    generalize (1 : ℝ) / 2 ^ 500 = p1 at *
    generalize (1 : ℝ) / 2 ^ 300 = p3 at *
    generalize (1 : ℝ) / 2 ^ 330 = p4 at *
    generalize (2 : ℝ) ^ 500 = p5 at *
    generalize (2 : ℝ) ^ 510 = p6 at *
    linarith

/-- Inner products. -/
theorem Rounding.Mag.dot {R : Rounding F} (hR : R.DoubleLike) (hW : R.Wide) {v w : Vec F D} {p : Fin D → ℝ} {m : Fin D → ℝ} {K c B : ℕ}
    (hK : K ≤ 2 ^ 20) (hD : D ≤ 3) (hc : c + 4 ≤ B) (hB : B ≤ 900) (h : ∀ a, R.Mag (v a * w a) (p a) (m a) K c) :
    R.Mag ((List.finRange D).foldl (fun s a => s + v a * w a) 0) (∑ a, p a) (1 / 2 ^ B + ∑ a, m a) (K + 2 * D) B := by
  have key : ∀ (l : List (Fin D)) (s : F) (n : ℕ) (T M : ℝ), R.Mag s T M (K + 2 * n) B → n + l.length ≤ 3 → M + l.length * 2 ^ c ≤ 2 ^ B →
      R.Mag (l.foldl (fun s a => s + v a * w a) s) (T + (l.map p).sum) (M + (l.map m).sum) (K + 2 * (n + l.length)) B := by
    intro l
    induction l with
    | nil => intro s n T M h1 _ _; simpa using h1
    | cons a l ih =>
      intro s n T M h1 hn hM
      rw [List.length_cons] at hn hM
      push_cast at hM
      rw [List.foldl_cons, List.map_cons, List.sum_cons, List.map_cons, List.sum_cons, ← add_assoc, ← add_assoc, List.length_cons,
        show n + (l.length + 1) = (n + 1) + l.length by omega]
      have h2 := (h a).mono (le_refl _) (show K ≤ K + 2 * n by omega) (le_refl _) (h a).hi
      have l0 : (0 : ℝ) ≤ l.length * 2 ^ c := by positivity
      have hm := (h a).hi
      have h3 := h1.add hR hW h2 (b' := B) (by norm_num at hK ⊢; omega) (le_refl _) (by linarith) hB
      exact ih _ (n + 1) _ _ h3 (by omega) (by linarith)
  have h0 : R.Mag (0 : F) 0 (1 / 2 ^ B) (K + 2 * 0) B := (R.mag_zero (b := B)).mono (le_refl _) (by omega) (le_refl _) (R.mag_zero (b := B)).hi
  have := key (List.finRange D) 0 0 0 (1 / 2 ^ B) h0 (by rw [List.length_finRange]; omega) (by
    rw [List.length_finRange]
    have h1 : (D : ℝ) ≤ 3 := by exact_mod_cast hD
    have h2 : (D : ℝ) * 2 ^ c ≤ 3 * 2 ^ c := mul_le_mul_of_nonneg_right h1 (by positivity)
    have h3 : (1 : ℝ) ≤ 2 ^ c := one_le_pow₀ (by norm_num)
    have h4 : (2 : ℝ) ^ (c + 4) ≤ 2 ^ B := pow_le_pow_right₀ (by norm_num) hc
    rw [pow_add] at h4
    have h5 := inv_le_one B
    generalize (2 : ℝ) ^ c = q at *
    generalize (1 : ℝ) / 2 ^ B = p1 at *
    linarith)
  rw [List.length_finRange, zero_add, zero_add, ← List.ofFn_eq_map, List.sum_ofFn, ← List.ofFn_eq_map, List.sum_ofFn] at this
  exact this

/-- Square roots of numbers with a small relative error. -/
theorem Rounding.sqrt_mag {R : Rounding F} (hR : R.DoubleLike) {x : F} {r : ℝ} {c : ℕ} (hc : c ≤ 100) (h0 : 0 < r) (hf : R.finite x)
    (h : |R.val x - r ^ 2| ≤ c * e50 * r ^ 2) : R.finite (Scalar.sqrt x) ∧ |R.val (Scalar.sqrt x) - r| ≤ (c + 2) * e50 * r := by
  have e0 := e50_pos
  have hc' : (c : ℝ) ≤ 100 := by exact_mod_cast hc
  have r2 : 0 < r ^ 2 := by positivity
  have hs : (c : ℝ) * e50 ≤ 1 / 2 := by unfold e50; norm_num; linarith
  have h1 := abs_le.mp h
  have h2 : (c : ℝ) * e50 * r ^ 2 ≤ 1 / 2 * r ^ 2 := mul_le_mul_of_nonneg_right hs r2.le
  have hv : 0 ≤ R.val x := by linarith
  have h3 := sqrt_rel hv r2 h
  rw [Real.sqrt_sq h0.le] at h3
  obtain ⟨f, δ, hδ, e⟩ := R.sqrt hf hv
  refine ⟨f, ?_⟩
  rw [e]
  have hδ : |δ| ≤ e50 := hδ.trans hR.ε_le
  have h4 : |√(R.val x)| ≤ 3 / 2 * r := by
    have a := abs_add_le (√(R.val x) - r) r
    rw [sub_add_cancel, abs_of_pos h0] at a
    have := mul_le_mul_of_nonneg_right hs h0.le
    linarith
  have e2 : √(R.val x) * (1 + δ) - r = (√(R.val x) - r) + √(R.val x) * δ := by ring
  rw [e2]
  refine (abs_add_le _ _).trans ?_
  rw [abs_mul]
  have h5 : |√(R.val x)| * |δ| ≤ 3 / 2 * r * e50 := mul_le_mul h4 hδ (abs_nonneg _) (by positivity)
  have : 0 < e50 * r := by positivity
  linarith

theorem Rounding.Mag.abs' {R : Rounding F} (hE : R.Exact) {x : F} {t m : ℝ} {k b : ℕ} (h : R.Mag x t m k b) : R.Mag (Scalar.abs x) |t| m k b := by
  obtain ⟨f, v⟩ := hE.abs h.fin
  refine ⟨f, by rw [abs_abs]; exact h.abs, ?_, h.lo, h.hi⟩
  rw [v]
  exact (abs_abs_sub_abs_le _ _).trans h.err

/-- Lengths of the difference vectors. -/
theorem Rounding.Row.norm {R : Rounding F} (hR : R.DoubleLike) (hW : R.Wide) (hE : R.Exact) (hD : D ≤ 3) {ℓ : F} {t : State F D ω}
    (hl : R.Lengths ℓ t.env.re) (hℓ : 1 / 2 ^ 30 ≤ R.val ℓ) (hP : R.Plain t.env) {i : ℕ} (h : R.Row ℓ t i) {j : ℕ} (hj : j ∈ t.neighbors i)
    (ht : t.takes i j = true) (hxi : ∀ a, R.Upto 60 ((t.ps i).x a)) (hxj : ∀ a, R.Upto 60 ((t.ps j).x a)) :
    R.finite (norm2 ((t.ps j).x - (t.ps i).x)) ∧
      |R.val (norm2 ((t.ps j).x - (t.ps i).x)) - R.trueDist (t.ps i).x (t.ps j).x| ≤ 38 * e50 * R.trueDist (t.ps i).x (t.ps j).x := by
  obtain ⟨rlo, rhi⟩ := h.near hR hD hl hℓ hP hj ht
  set r := R.trueDist (t.ps i).x (t.ps j).x with hr
  have r0 : 0 < r := lt_of_lt_of_le (by norm_num) rlo
  have e0 := e50_pos
  set Δ : Fin D → ℝ := fun a => R.val ((t.ps j).x a) - R.val ((t.ps i).x a) with hΔ
  have hS : r ^ 2 = ∑ a, Δ a ^ 2 := by
    rw [hr, R.trueDist_comm]
    unfold Rounding.trueDist
    rw [Real.sq_sqrt (Finset.sum_nonneg (fun a _ => sq_nonneg _))]
  have hΔr : ∀ a, |Δ a| ≤ r := by
    intro a
    apply abs_le_of_sq_le_sq _ r0.le
    rw [hS]
    exact Finset.single_le_sum (f := fun a => Δ a ^ 2) (fun a _ => sq_nonneg _) (Finset.mem_univ a)
  have m1 : ∀ a, R.Mag (Scalar.abs (((t.ps j).x - (t.ps i).x) a) * Scalar.abs (((t.ps j).x - (t.ps i).x) a)) (|Δ a| * |Δ a|) (sz (Δ a) * sz (Δ a)) 5 600 := by
    intro a
    have hx : R.Mag ((t.ps j).x a - (t.ps i).x a) (Δ a) (sz (Δ a)) 1 300 :=
      Rounding.Mag.sub_exact hR hW (hxj a).1 (hxi a).1 (hxj a).2 (hxi a).2 (le_refl _) (inv_le_one 300) (by norm_num) (by norm_num)
    have hx := hx.abs' hE
    exact hx.mul hR hW hx (by norm_num) (by norm_num) (by norm_num) (by norm_num)
  have m2 := Rounding.Mag.dot hR hW (v := fun a => Scalar.abs (((t.ps j).x - (t.ps i).x) a)) (w := fun a => Scalar.abs (((t.ps j).x - (t.ps i).x) a))
    (B := 604) (by norm_num) hD (by norm_num) (by norm_num) m1
  have eT : ∑ a, |Δ a| * |Δ a| = r ^ 2 := by
    rw [hS]
    exact Finset.sum_congr rfl (fun a _ => by rw [abs_mul_abs_self, sq])
  have hM : 1 / 2 ^ 604 + ∑ a, sz (Δ a) * sz (Δ a) ≤ 2 * r ^ 2 := by
    have q1 : (1 : ℝ) / 2 ^ 300 ≤ r / 2 ^ 100 := by
      have : (1 : ℝ) / 2 ^ 30 / 2 ^ 100 ≤ r / 2 ^ 100 := div_le_div_of_nonneg_right rlo (by positivity)
      refine le_trans ?_ this
      rw [div_div, ← pow_add]
      exact two_pow_inv_le (by norm_num)
    have q2 : (1 : ℝ) / 2 ^ 604 ≤ (r / 2 ^ 100) ^ 2 := by
      refine le_trans ?_ (pow_le_pow_left₀ (by positivity) q1 2)
      rw [div_pow, one_pow, ← pow_mul]
      exact two_pow_inv_le (by norm_num)
    have h1 : ∀ a ∈ (Finset.univ : Finset (Fin D)), sz (Δ a) * sz (Δ a) ≤ Δ a ^ 2 + r ^ 2 / 10 := by
      intro a _
      have h2 : sz (Δ a) ≤ |Δ a| + r / 2 ^ 100 := by unfold sz; exact add_le_add (le_refl _) q1
      have h3 := mul_le_mul h2 h2 (sz_pos _).le (by have := abs_nonneg (Δ a); positivity)
      refine h3.trans ?_
      have h4 := hΔr a
      have h5 := abs_nonneg (Δ a)
      have h6 : |Δ a| * r ≤ r * r := mul_le_mul_of_nonneg_right h4 r0.le
      have h7 := sq_abs (Δ a)
      have h8 : 0 < r * r := by positivity
      have e : (|Δ a| + r / 2 ^ 100) * (|Δ a| + r / 2 ^ 100) = |Δ a| ^ 2 + 2 / 2 ^ 100 * (|Δ a| * r) + 1 / 2 ^ 200 * (r * r) := by ring
      rw [e, h7]
      have h9 : (2 : ℝ) / 2 ^ 100 * (|Δ a| * r) ≤ 1 / 20 * (r * r) := mul_le_mul (by norm_num) h6 (by positivity) (by norm_num)
      have h10 : (1 : ℝ) / 2 ^ 200 * (r * r) ≤ 1 / 20 * (r * r) := mul_le_mul_of_nonneg_right (by norm_num) h8.le
      linarith
    have h2 := Finset.sum_le_sum h1
    rw [Finset.sum_add_distrib, ← hS, Finset.sum_const, Finset.card_univ, Fintype.card_fin, nsmul_eq_mul] at h2
    have h3 : (D : ℝ) ≤ 3 := by exact_mod_cast hD
    have r2 : 0 < r ^ 2 := by positivity
    have h4 : (D : ℝ) * (r ^ 2 / 10) ≤ 3 * (r ^ 2 / 10) := mul_le_mul_of_nonneg_right h3 (by positivity)
    have h5 : (r / 2 ^ 100) ^ 2 ≤ r ^ 2 / 10 := by
      rw [div_pow, ← pow_mul]
      apply div_le_div_of_nonneg_left r2.le (by norm_num) (by norm_num)
    linarith
  have key : R.finite ((List.finRange D).foldl (fun s a => s + Scalar.abs (((t.ps j).x - (t.ps i).x) a) * Scalar.abs (((t.ps j).x - (t.ps i).x) a)) 0) ∧
      |R.val ((List.finRange D).foldl (fun s a => s + Scalar.abs (((t.ps j).x - (t.ps i).x) a) * Scalar.abs (((t.ps j).x - (t.ps i).x) a)) 0) - r ^ 2| ≤
        (22 : ℕ) * e50 * r ^ 2 := by
    refine ⟨m2.fin, ?_⟩
    have h1 := m2.err
    rw [eT] at h1
    refine h1.trans ?_
    have h2 : ((5 + 2 * D : ℕ) : ℝ) ≤ 11 := by
      have : 5 + 2 * D ≤ 11 := by omega
      exact_mod_cast this
    have h3 := mul_le_mul (mul_le_mul_of_nonneg_right h2 e0.le) hM m2.pos.le (by positivity)
    refine h3.trans (le_of_eq ?_)
    push_cast
    ring
  obtain ⟨f, g⟩ := Rounding.sqrt_mag hR (c := 22) (by norm_num) r0 key.1 key.2
  refine ⟨f, g.trans ?_⟩
  push_cast
  have : 0 < e50 * r := by positivity
  linarith

/-- One neighbour's part of the rate of change of the density. -/
theorem Rounding.Row.speedTerm {R : Rounding F} (hR : R.DoubleLike) (hW : R.Wide) (hE : R.Exact) (hD : D ≤ 3) {ℓ : F} {t : State F D ω}
    (hl : R.Lengths ℓ t.env.re) (hℓ : 1 / 2 ^ 30 ≤ R.val ℓ) (hP : R.Plain t.env) {i : ℕ} (h : R.Row ℓ t i) {j : ℕ} (hj : j ∈ t.neighbors i)
    (ht : t.takes i j = true) (hi : ∀ a, R.Upto 60 ((t.ps i).x a) ∧ R.Upto 60 ((t.ps i).u a))
    (hj' : ∀ a, R.Upto 60 ((t.ps j).x a) ∧ R.Upto 60 ((t.ps j).u a)) :
    R.Mag (dot ((t.ps j).x - (t.ps i).x) ((t.ps j).u - (t.ps i).u) /
        (norm2 ((t.ps j).x - (t.ps i).x) * norm2 ((t.ps j).x - (t.ps i).x) * norm2 ((t.ps j).x - (t.ps i).x)))
      ((∑ a, (R.val ((t.ps j).x a) - R.val ((t.ps i).x a)) * (R.val ((t.ps j).u a) - R.val ((t.ps i).u a))) /
        R.trueDist (t.ps i).x (t.ps j).x ^ 3)
      ((1 / 2 ^ 604 + ∑ a, sz (R.val ((t.ps j).x a) - R.val ((t.ps i).x a)) * sz (R.val ((t.ps j).u a) - R.val ((t.ps i).u a))) /
        R.trueDist (t.ps i).x (t.ps j).x ^ 3) 150 700 := by
  obtain ⟨rlo, rhi⟩ := h.near hR hD hl hℓ hP hj ht
  obtain ⟨d3, d4⟩ := h.norm hR hW hE hD hl hℓ hP hj ht (fun a => (hi a).1) (fun a => (hj' a).1)
  set r := R.trueDist (t.ps i).x (t.ps j).x with hr
  have r0 : 0 < r := lt_of_lt_of_le (by norm_num) rlo
  have mr := Rounding.dist_mag' rlo rhi d3 d4
  have mr2 := mr.mul hR hW mr (by norm_num) (by norm_num) (by norm_num) (by norm_num)
  have mr3 := mr2.mul hR hW mr (by norm_num) (by norm_num) (by norm_num) (by norm_num)
  have mr3 := mr3.cast (show r * r * r = r ^ 3 by ring) (show |r| * |r| * |r| = |r ^ 3| by rw [abs_pow]; ring)
  have m1 : ∀ a, R.Mag (((t.ps j).x - (t.ps i).x) a * ((t.ps j).u - (t.ps i).u) a)
      ((R.val ((t.ps j).x a) - R.val ((t.ps i).x a)) * (R.val ((t.ps j).u a) - R.val ((t.ps i).u a)))
      (sz (R.val ((t.ps j).x a) - R.val ((t.ps i).x a)) * sz (R.val ((t.ps j).u a) - R.val ((t.ps i).u a))) 5 600 := by
    intro a
    have hx : R.Mag ((t.ps j).x a - (t.ps i).x a) (R.val ((t.ps j).x a) - R.val ((t.ps i).x a)) (sz (R.val ((t.ps j).x a) - R.val ((t.ps i).x a))) 1 300 :=
      Rounding.Mag.sub_exact hR hW (hj' a).1.1 (hi a).1.1 (hj' a).1.2 (hi a).1.2 (le_refl _) (inv_le_one 300) (by norm_num) (by norm_num)
    have hu : R.Mag ((t.ps j).u a - (t.ps i).u a) (R.val ((t.ps j).u a) - R.val ((t.ps i).u a)) (sz (R.val ((t.ps j).u a) - R.val ((t.ps i).u a))) 1 300 :=
      Rounding.Mag.sub_exact hR hW (hj' a).2.1 (hi a).2.1 (hj' a).2.2 (hi a).2.2 (le_refl _) (inv_le_one 300) (by norm_num) (by norm_num)
    exact hx.mul hR hW hu (by norm_num) (by norm_num) (by norm_num) (by norm_num)
  have m2 := Rounding.Mag.dot hR hW (B := 604) (by norm_num) hD (by norm_num) (by norm_num) m1
  have m3 := m2.div hR hW mr3 (by omega) (by norm_num) (by norm_num)
  have m3 := m3.cast rfl (show (1 / 2 ^ 604 + ∑ a, sz (R.val ((t.ps j).x a) - R.val ((t.ps i).x a)) * sz (R.val ((t.ps j).u a) - R.val ((t.ps i).u a))) / |r ^ 3| =
    (1 / 2 ^ 604 + ∑ a, sz (R.val ((t.ps j).x a) - R.val ((t.ps i).x a)) * sz (R.val ((t.ps j).u a) - R.val ((t.ps i).u a))) / r ^ 3 by
      rw [abs_of_pos (show 0 < r ^ 3 by positivity)])
  exact m3.mono (le_refl _) (by omega) (by norm_num) (m3.hi.trans (pow_le_pow_right₀ (by norm_num) (by norm_num)))

/-- The rate of change of the density. -/
theorem Rounding.Row.speed {R : Rounding F} (hR : R.DoubleLike) (hW : R.Wide) (hE : R.Exact) (hD : D ≤ 3) (hD0 : 0 < D) {ℓ : F} {t : State F D ω}
    (hl : R.Lengths ℓ t.env.re) (hℓ : 1 / 2 ^ 30 ≤ R.val ℓ) (hP : R.Plain t.env) {i : ℕ} (h : R.Row ℓ t i) {cfg : Config}
    (hnv : R.NoVirtual cfg t i) (hn : R.Upto 60 (t.ps i).n) (hi : ∀ a, R.Upto 60 ((t.ps i).x a) ∧ R.Upto 60 ((t.ps i).u a))
    (hj : ∀ j ∈ t.neighbors i, ∀ a, R.Upto 60 ((t.ps j).x a) ∧ R.Upto 60 ((t.ps j).u a)) :
    R.Mag (t.densitySpeed cfg i) (R.trueSpeed cfg t i (t.taken i)) (R.speedSize cfg t i (t.taken i)) (153 + 2 * (t.neighbors i).length) 770 := by
  have hlen := h.length
  have re0 := hP.re.pos
  have dt0 := hP.dt.pos
  unfold State.densitySpeed Rounding.trueSpeed Rounding.speedSize
  by_cases hs : cfg.hs = true
  · rw [if_pos hs, if_pos hs, if_pos hs]
    have hvirt : (cfg.spp && Scalar.lt (t.nNoSpp i) t.env.n0) = false := by
      cases hsp : cfg.spp with
      | false => rfl
      | true =>
        obtain ⟨f1, f2, h1⟩ := hnv hsp
        cases hc : Scalar.lt (t.nNoSpp i) t.env.n0 with
        | false => rfl
        | true => exact absurd ((R.lt f1 f2).mp hc) (not_lt.mpr h1)
    rw [hvirt]
    simp only [Bool.false_eq_true, if_false]
    have key := h.sum hR hW hD0 hnv (fun _ q => dot (q.x - (t.ps i).x) (q.u - (t.ps i).u) /
        (norm2 (q.x - (t.ps i).x) * norm2 (q.x - (t.ps i).x) * norm2 (q.x - (t.ps i).x))) _ _ (K := 150) (c := 700) (B := 730) (by norm_num) (by norm_num)
      (by norm_num) (fun j hj' ht => h.speedTerm hR hW hE hD hl hℓ hP hj' ht hi (hj j hj'))
    have m2 := (hP.re.mag.neg hE).mul hR hW key (by norm_num) (by norm_num at hlen ⊢; omega) (by rw [Nat.zero_mul]; norm_num) (by norm_num)
    rw [abs_of_pos re0] at m2
    -- sizes
    have hsz : 1 / 2 ^ 730 + ∑ j ∈ t.taken i,
        (1 / 2 ^ 604 + ∑ a, sz (R.val ((t.ps j).x a) - R.val ((t.ps i).x a)) * sz (R.val ((t.ps j).u a) - R.val ((t.ps i).u a))) /
          R.trueDist (t.ps i).x (t.ps j).x ^ 3 ≤
        ∑ j ∈ t.taken i, (∑ a, sz (R.val ((t.ps j).x a) - R.val ((t.ps i).x a)) * sz (R.val ((t.ps j).u a) - R.val ((t.ps i).u a))) /
          R.trueDist (t.ps i).x (t.ps j).x ^ 3 + 1 / 2 ^ 300 := by
      have h1 : ∀ j ∈ t.taken i, (1 / 2 ^ 604 + ∑ a, sz (R.val ((t.ps j).x a) - R.val ((t.ps i).x a)) * sz (R.val ((t.ps j).u a) - R.val ((t.ps i).u a))) /
          R.trueDist (t.ps i).x (t.ps j).x ^ 3 ≤
          (∑ a, sz (R.val ((t.ps j).x a) - R.val ((t.ps i).x a)) * sz (R.val ((t.ps j).u a) - R.val ((t.ps i).u a))) /
          R.trueDist (t.ps i).x (t.ps j).x ^ 3 + 1 / 2 ^ 500 := by
        intro j hj'
        obtain ⟨q1, q2⟩ := t.mem_taken.mp hj'
        obtain ⟨rlo, -⟩ := h.near hR hD hl hℓ hP q1 q2
        rw [add_comm, add_div]
        apply add_le_add (le_refl _)
        have q3 := pow_le_pow_left₀ (by positivity) rlo 3
        rw [div_pow, one_pow, ← pow_mul] at q3
        have q4 : 0 < R.trueDist (t.ps i).x (t.ps j).x ^ 3 := lt_of_lt_of_le (by positivity) q3
        rw [div_le_iff₀ q4]
        have q5 := mul_le_mul_of_nonneg_left q3 (show (0 : ℝ) ≤ 1 / 2 ^ 500 by positivity)
        refine le_trans ?_ q5
        rw [div_mul_div_comm, ← pow_add, one_mul]
        exact two_pow_inv_le (by norm_num)
      have h2 := Finset.sum_le_sum h1
      rw [Finset.sum_add_distrib, Finset.sum_const, nsmul_eq_mul] at h2
      have hc := t.taken_card i (fun _ => True) hlen
      rw [Finset.filter_true] at hc
      have h3 : ((t.taken i).card : ℝ) * (1 / 2 ^ 500) ≤ 1 / 2 ^ 400 := by
        refine (mul_le_mul_of_nonneg_right hc (by positivity)).trans ?_
        rw [mul_one_div, div_le_div_iff₀ (by positivity) (by positivity), ← pow_add, one_mul]
        exact pow_le_pow_right₀ (by norm_num) (by norm_num)
      have h4 : (1 : ℝ) / 2 ^ 730 + 1 / 2 ^ 400 ≤ 1 / 2 ^ 300 := inv_add_le (by norm_num) (by norm_num)
      generalize (1 : ℝ) / 2 ^ 730 = p1 at *
      generalize (1 : ℝ) / 2 ^ 400 = p2 at *
      generalize (1 : ℝ) / 2 ^ 300 = p3 at *
      linarith
    have hsz2 : ∑ j ∈ t.taken i, (∑ a, sz (R.val ((t.ps j).x a) - R.val ((t.ps i).x a)) * sz (R.val ((t.ps j).u a) - R.val ((t.ps i).u a))) /
          R.trueDist (t.ps i).x (t.ps j).x ^ 3 + 1 / 2 ^ 300 ≤ 2 ^ 735 := by
      have h1 : ∑ j ∈ t.taken i, (∑ a, sz (R.val ((t.ps j).x a) - R.val ((t.ps i).x a)) * sz (R.val ((t.ps j).u a) - R.val ((t.ps i).u a))) /
          R.trueDist (t.ps i).x (t.ps j).x ^ 3 ≤ ∑ j ∈ t.taken i,
        (1 / 2 ^ 604 + ∑ a, sz (R.val ((t.ps j).x a) - R.val ((t.ps i).x a)) * sz (R.val ((t.ps j).u a) - R.val ((t.ps i).u a))) /
          R.trueDist (t.ps i).x (t.ps j).x ^ 3 := by
        apply Finset.sum_le_sum
        intro j hj'
        obtain ⟨q1, q2⟩ := t.mem_taken.mp hj'
        obtain ⟨rlo, -⟩ := h.near hR hD hl hℓ hP q1 q2
        have q4 : 0 < R.trueDist (t.ps i).x (t.ps j).x := lt_of_lt_of_le (by norm_num) rlo
        apply div_le_div_of_nonneg_right _ (by positivity)
        exact le_add_of_nonneg_left (by positivity)
      have h2 := key.hi
      have h3 : (1 : ℝ) / 2 ^ 300 ≤ 2 ^ 0 := by rw [pow_zero]; exact inv_le_one 300
      have h4 : (2 : ℝ) ^ 730 + 2 ^ 0 ≤ 2 ^ 735 := pow_add_le (by norm_num) (by norm_num)
      have h5 : (0 : ℝ) < 1 / 2 ^ 730 := by positivity
      generalize (1 : ℝ) / 2 ^ 730 = p1 at *
      generalize (1 : ℝ) / 2 ^ 300 = p3 at *
      generalize (2 : ℝ) ^ 730 = p5 at *
      generalize (2 : ℝ) ^ 735 = p6 at *
      linarith
    refine m2.mono (mul_le_mul_of_nonneg_left hsz re0.le) (by omega) (by norm_num) ?_
    refine (mul_le_mul hP.re.2.2 hsz2 (key.pos.le.trans hsz) (by positivity)).trans ?_
    rw [← pow_add]
    exact pow_le_pow_right₀ (by norm_num) (by norm_num)
  · rw [if_neg hs, if_neg hs, if_neg hs]
    have hn0 : |R.val t.env.n0| ≤ 2 ^ 60 := by
      rw [abs_of_pos hP.n0.pos]
      exact hP.n0.2.2.trans (pow_le_pow_right₀ (by norm_num) (by norm_num))
    have m1 := Rounding.Mag.sub_exact hR hW hn.1 hP.n0.1 hn.2 hn0 (b := 300) (le_refl _) (inv_le_one 300) (by norm_num) (by norm_num)
    have m2 := m1.div hR hW hP.dt.mag (by norm_num) (by norm_num) (by norm_num)
    rw [abs_of_pos dt0] at m2
    exact m2.mono (le_refl _) (by omega) (by norm_num) (m2.hi.trans (pow_le_pow_right₀ (by norm_num) (by norm_num)))

/-- The right-hand side, given the rate of change of the density. -/
theorem Rounding.source_of_speed {R : Rounding F} (hR : R.DoubleLike) (hW : R.Wide) (hE : R.Exact) {t : State F D ω}
    (hP : R.Plain t.env) {i : ℕ} {cfg : Config} (hlen : (t.neighbors i).length ≤ 2 ^ 20) {T M : ℝ}
    (ms : R.Mag (t.densitySpeed cfg i) T M (153 + 2 * (t.neighbors i).length) 770)
    (he : cfg.ecs = true → R.Upto 60 (t.ecs i)) (hf : t.fixedRow cfg i = false) :
    R.Mag (t.rhsCompute cfg i).1 (-(R.val t.env.rho / (R.val t.env.n0 * R.val t.env.dt)) * (T + if cfg.ecs then R.val (t.ecs i) else 0))
      (R.val t.env.rho / (R.val t.env.n0 * R.val t.env.dt) * (M + if cfg.ecs then sz (R.val (t.ecs i)) else 0))
      (200 + 2 * (t.neighbors i).length) 900 := by
  have rho0 := hP.rho.pos
  have n00 := hP.n0.pos
  have dt0 := hP.dt.pos
  have mk0 := hP.n0.mag.mul hR hW hP.dt.mag (by norm_num) (by norm_num) (by norm_num) (by norm_num)
  have mk1 := (hP.rho.mag.neg hE).div hR hW (mk0.cast rfl (abs_mul _ _).symm) (by norm_num) (by norm_num) (by norm_num)
  have mk : R.Mag (-t.env.rho / (t.env.n0 * t.env.dt)) (-(R.val t.env.rho / (R.val t.env.n0 * R.val t.env.dt)))
      (R.val t.env.rho / (R.val t.env.n0 * R.val t.env.dt)) 6 90 :=
    mk1.cast (neg_div _ _) (by rw [abs_of_pos rho0, abs_of_pos (mul_pos n00 dt0)])
  unfold State.rhsCompute
  rw [hf]
  simp only [Bool.false_eq_true, if_false]
  by_cases hc : cfg.ecs = true
  · rw [if_pos hc, if_pos hc, if_pos hc]
    have me := Rounding.Upto.mag (he hc) (by norm_num)
    have me' := me.mono (le_refl _) (show 0 ≤ 153 + 2 * (t.neighbors i).length by omega) (le_refl _) me.hi
    have m1 := ms.add hR hW me' (b' := 780) (by norm_num at hlen ⊢; omega) (by norm_num)
      ((add_le_add ms.hi me.hi).trans (pow_add_le (by norm_num) (by norm_num))) (by norm_num)
    have m2 := mk.mul hR hW m1 (by norm_num) (by norm_num at hlen ⊢; omega) (by norm_num at hlen ⊢; omega) (by norm_num)
    exact m2.mono (le_refl _) (by omega) (by norm_num) (m2.hi.trans (pow_le_pow_right₀ (by norm_num) (by norm_num)))
  · rw [if_neg hc, if_neg hc, if_neg hc, add_zero, add_zero]
    have m2 := mk.mul hR hW ms (by norm_num) (by norm_num at hlen ⊢; omega) (by norm_num at hlen ⊢; omega) (by norm_num)
    exact m2.mono (le_refl _) (by omega) (by norm_num) (m2.hi.trans (pow_le_pow_right₀ (by norm_num) (by norm_num)))

/-- The right-hand side. -/
theorem Rounding.Row.source {R : Rounding F} (hR : R.DoubleLike) (hW : R.Wide) (hE : R.Exact) (hD : D ≤ 3) (hD0 : 0 < D) {ℓ : F} {t : State F D ω}
    (hl : R.Lengths ℓ t.env.re) (hℓ : 1 / 2 ^ 30 ≤ R.val ℓ) (hP : R.Plain t.env) {i : ℕ} (h : R.Row ℓ t i) {cfg : Config}
    (hnv : R.NoVirtual cfg t i) (hn : R.Upto 60 (t.ps i).n) (he : cfg.ecs = true → R.Upto 60 (t.ecs i))
    (hi : ∀ a, R.Upto 60 ((t.ps i).x a) ∧ R.Upto 60 ((t.ps i).u a))
    (hj : ∀ j ∈ t.neighbors i, ∀ a, R.Upto 60 ((t.ps j).x a) ∧ R.Upto 60 ((t.ps j).u a)) (hf : t.fixedRow cfg i = false) :
    R.Mag (t.rhsCompute cfg i).1 (R.trueSource cfg t i (t.taken i)) (R.sourceSize cfg t i (t.taken i)) (200 + 2 * (t.neighbors i).length) 900 :=
  Rounding.source_of_speed hR hW hE hP h.length (h.speed hR hW hE hD hD0 hl hℓ hP hnv hn hi hj) he hf

end OpenMps
