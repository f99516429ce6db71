import Verif.Lemmas.RoundingForces

/-! # Viscosity and pressure gradient of one pair in rounded arithmetic -/

set_option linter.unusedSectionVars false

namespace OpenMps

variable {F : Type} [Scalar F] {D : Nat} {ω : Type}

theorem Rounding.Sized.mag {R : Rounding F} {x : F} {b : ℕ} (h : R.Sized b x) : R.Mag x (R.val x) |R.val x| 0 b := by
  have h0 : 0 < R.val x := lt_of_lt_of_le (by positivity) h.2.1
  exact Rounding.Mag.sized h.1 (by rw [abs_of_pos h0]; exact h.2.1) (by rw [abs_of_pos h0]; exact h.2.2)

theorem Rounding.Sized.pos {R : Rounding F} {x : F} {b : ℕ} (h : R.Sized b x) : 0 < R.val x := lt_of_lt_of_le (by positivity) h.2.1

theorem Rounding.Upto.mag {R : Rounding F} {x : F} {c : ℕ} (h : R.Upto c x) (hc : c + 1 ≤ 300) : R.Mag x (R.val x) (sz (R.val x)) 0 300 :=
  Rounding.Mag.exact h.1 h.2 (le_refl _) (by rw [div_le_one (by positivity)]; exact one_le_pow₀ (by norm_num)) hc

theorem Rounding.Exact.mag {R : Rounding F} (hE : R.Exact) {k : ℕ} (hk : k ≤ 6) (h0 : 0 < k) :
    R.Mag (Scalar.ofInt (k : Int)) (k : ℝ) |(k : ℝ)| 0 3 := by
  obtain ⟨f, v⟩ := hE.int k hk
  have h1 : (1 : ℝ) ≤ k := by exact_mod_cast h0
  have h2 : (k : ℝ) ≤ 6 := by exact_mod_cast hk
  refine ⟨f, le_refl _, by rw [v]; simp, ?_, ?_⟩
  · rw [abs_of_pos (by linarith)]; norm_num; linarith
  · rw [abs_of_pos (by linarith)]; norm_num; linarith

/-- The weight. -/
theorem Rounding.weight_mag {R : Rounding F} (hR : R.DoubleLike) {ℓ re : F} (hl : R.Lengths ℓ re) {d : F} {r : ℝ}
    (hr : R.val ℓ ≤ r) (hf : R.finite d) (hd : |R.val d - r| ≤ 38 * e50 * r) :
    R.Mag (W d re) (Ref.weight (R.val re) r) (Ref.weight (R.val re) r + 2) 128 21 := by
  obtain ⟨f, g⟩ := R.weight_accurate hR hl hr hf hd
  have r0 : 0 < r := lt_of_lt_of_le hl.good.pos hr
  have w0 : 0 ≤ Ref.weight (R.val re) r := weight_nonneg'
  have hq : R.val re / r ≤ Ref.weight (R.val re) r + 1 := by
    rw [weight_eq_max r0]; linarith [le_max_left (R.val re / r - 1) 0]
  have q1 : R.val re / r ≤ 2 ^ 20 := by
    rw [div_le_iff₀ r0]
    exact hl.ge.trans (mul_le_mul_of_nonneg_left hr (by norm_num))
  refine ⟨f, by rw [abs_of_nonneg w0]; linarith, ?_, by norm_num; linarith, ?_⟩
  · refine g.trans ?_
    have := e50_pos
    push_cast
    apply mul_le_mul_of_nonneg_left _ (by positivity)
    linarith
  · rw [weight_eq_max r0]
    have h1 : max (R.val re / r - 1) 0 ≤ 2 ^ 20 := max_le (by linarith) (by norm_num)
    have h2 : (2 : ℝ) ^ 20 + 2 ≤ 2 ^ 21 := by norm_num
    linarith

/-- The distance. -/
theorem Rounding.dist_mag' {R : Rounding F} {d : F} {r : ℝ} (lo : 1 / 2 ^ 30 ≤ r) (hi : r ≤ 2 ^ 31) (hf : R.finite d)
    (hd : |R.val d - r| ≤ 38 * e50 * r) : R.Mag d r |r| 38 31 := by
  have r0 : 0 < r := lt_of_lt_of_le (by norm_num) lo
  rw [abs_of_pos r0]
  refine ⟨hf, by rw [abs_of_pos r0], by push_cast; exact hd, le_trans (by norm_num) lo, hi⟩

/-- Viscosity. -/
theorem Rounding.Row.visc {R : Rounding F} (hR : R.DoubleLike) (hW : R.Wide) (hE : R.Exact) (hD : D ≤ 3) (hD0 : 0 < D) {ℓ : F} {t : State F D ω}
    (hl : R.Lengths ℓ t.env.re) (hℓ : 1 / 2 ^ 30 ≤ R.val ℓ) (hP : R.Plain t.env) {i : ℕ}
    (h : R.Row ℓ t i) (cfg : Config) (a : Fin D) (hui : R.Upto 30 ((t.ps i).u a)) {j : ℕ} (hj : j ∈ t.neighbors i)
    (huj : R.Upto 30 ((t.ps j).u a)) (ht : t.takes i j = true) (hd : (t.ps j).ty ≠ .dummy) :
    R.Mag (t.viscFunc cfg i j (t.ps j) a)
      (R.val t.env.nu * (R.laplace cfg t.env (R.trueDist (t.ps i).x (t.ps j).x) * (R.val ((t.ps j).u a) - R.val ((t.ps i).u a))))
      (sz (R.val t.env.nu) * (R.laplaceSize cfg t.env (R.trueDist (t.ps i).x (t.ps j).x) * sz (R.val ((t.ps j).u a) - R.val ((t.ps i).u a))))
      150 770 := by
  set r := R.trueDist (t.ps i).x (t.ps j).x with hr
  obtain ⟨⟨d1, d2⟩, ⟨d3, d4⟩, -⟩ := h.dist_mag hR hD hl hj
  have hrl := (h.pair j hj).2.2.2
  rw [← hr] at hrl d2 d4
  have r0 : 0 < r := lt_of_lt_of_le hl.good.pos hrl
  have rlo : 1 / 2 ^ 30 ≤ r := hℓ.trans hrl
  have rhi : r ≤ 2 ^ 31 := by
    unfold State.takes at ht
    rw [Bool.and_eq_true] at ht
    have h1 := (R.compare_re hR hl hrl d1 d2).1 ht.2
    have h2 := hP.re.2.2
    norm_num at h1 h2 ⊢
    linarith
  have re0 := hP.re.pos
  have n00 := hP.n0.pos
  have la0 := hP.lambda.pos
  have hΔ : R.Mag ((t.ps j).u a - (t.ps i).u a) (R.val ((t.ps j).u a) - R.val ((t.ps i).u a))
      (sz (R.val ((t.ps j).u a) - R.val ((t.ps i).u a))) 1 300 :=
    Rounding.Mag.sub_exact hR hW huj.1 hui.1 huj.2 hui.2 (le_refl _)
      (by rw [div_le_one (by positivity)]; exact one_le_pow₀ (by norm_num)) (by norm_num) (by norm_num)
  have hν : R.Mag t.env.nu (R.val t.env.nu) (sz (R.val t.env.nu)) 0 300 := hP.nu.mag (by norm_num)
  have hDr : (0 : ℝ) < D := by exact_mod_cast hD0
  unfold State.viscFunc
  rw [if_pos hd]
  by_cases hh : cfg.hl = true
  · rw [if_pos hh]
    have m5 : R.Mag (Scalar.ofInt ((5 - D : ℕ) : Int)) ((5 - D : ℕ) : ℝ) |((5 - D : ℕ) : ℝ)| 0 3 := hE.mag (by omega) (by omega)
    have mr := Rounding.dist_mag' rlo rhi d3 d4
    have mr2 := mr.mul hR hW mr (by norm_num) (by norm_num) (by norm_num) (by norm_num)
    have mr3 := mr2.mul hR hW mr (by norm_num) (by norm_num) (by norm_num) (by norm_num)
    have mr3 := mr3.cast rfl (show |r| * |r| * |r| = |r * r * r| by rw [abs_mul, abs_mul])
    have m1 := hν.mul hR hW m5 (by norm_num) (by norm_num) (by norm_num) (by norm_num)
    have m2 := m1.mul hR hW hP.re.mag (by norm_num) (by norm_num) (by norm_num) (by norm_num)
    have m3 := m2.div hR hW hP.n0.mag (by norm_num) (by norm_num) (by norm_num)
    have m4 := m3.div hR hW mr3 (by norm_num) (by norm_num) (by norm_num)
    have m6 := m4.mul hR hW hΔ (by norm_num) (by norm_num) (by norm_num) (by norm_num)
    have h5 : ((5 - D : ℕ) : ℝ) = 5 - D := by rw [Nat.cast_sub (by omega)]; norm_num
    have h50 : (0 : ℝ) < 5 - D := by
      have : (D : ℝ) ≤ 3 := by exact_mod_cast hD
      linarith
    refine Rounding.Mag.mono (Rounding.Mag.cast m6 ?_ ?_) (le_refl _) (by norm_num) (by norm_num) ?_
    · rw [h5]
      unfold Rounding.laplace
      rw [if_pos hh]
      field_simp
    · rw [h5, abs_of_pos h50, abs_of_pos re0, abs_of_pos n00, abs_of_pos (show 0 < r * r * r by positivity)]
      unfold Rounding.laplaceSize Rounding.laplace
      rw [if_pos hh, if_pos hh]
      field_simp
    · refine le_trans (le_of_eq ?_) (m6.hi.trans (pow_le_pow_right₀ (by norm_num) (by norm_num)))
      rw [h5, abs_of_pos h50, abs_of_pos re0, abs_of_pos n00, abs_of_pos (show 0 < r * r * r by positivity)]
      unfold Rounding.laplaceSize Rounding.laplace
      rw [if_pos hh, if_pos hh]
      field_simp
  · rw [if_neg hh]
    have m2 : R.Mag (Scalar.ofInt 2) ((2 : ℕ) : ℝ) |((2 : ℕ) : ℝ)| 0 3 := hE.mag (k := 2) (by omega) (by omega)
    have mD : R.Mag (Scalar.ofInt (D : Int)) (D : ℝ) |(D : ℝ)| 0 3 := hE.mag (by omega) hD0
    have mw := Rounding.weight_mag hR hl hrl d3 d4
    have m1 := hν.mul hR hW m2 (by norm_num) (by norm_num) (by norm_num) (by norm_num)
    have m3 := m1.mul hR hW mD (by norm_num) (by norm_num) (by norm_num) (by norm_num)
    have m4 := m3.div hR hW hP.lambda.mag (by norm_num) (by norm_num) (by norm_num)
    have m5 := m4.div hR hW hP.n0.mag (by norm_num) (by norm_num) (by norm_num)
    have m6 := m5.mul hR hW mw (by norm_num) (by norm_num) (by norm_num) (by norm_num)
    have m7 := m6.mul hR hW hΔ (by norm_num) (by norm_num) (by norm_num) (by norm_num)
    have hm : sz (R.val t.env.nu) * |((2 : ℕ) : ℝ)| * |(D : ℝ)| / |R.val t.env.lambda| / |R.val t.env.n0| * (Ref.weight (R.val t.env.re) r + 2) *
        sz (R.val ((t.ps j).u a) - R.val ((t.ps i).u a)) =
        sz (R.val t.env.nu) * (R.laplaceSize cfg t.env r * sz (R.val ((t.ps j).u a) - R.val ((t.ps i).u a))) := by
      rw [abs_of_pos hDr, abs_of_pos la0, abs_of_pos n00]
      unfold Rounding.laplaceSize
      rw [if_neg hh]
      norm_num
      field_simp
    refine Rounding.Mag.mono (Rounding.Mag.cast m7 ?_ hm) (le_refl _) (by norm_num) (by norm_num) ?_
    · unfold Rounding.laplace
      rw [if_neg hh]
      push_cast
      field_simp
    · rw [← hm]; exact m7.hi.trans (pow_le_pow_right₀ (by norm_num) (by norm_num))

/-- Pressure gradient. -/
theorem Rounding.Row.grad {R : Rounding F} (hR : R.DoubleLike) (hW : R.Wide) (hD : D ≤ 3) {ℓ : F} {t : State F D ω}
    (hl : R.Lengths ℓ t.env.re) (hℓ : 1 / 2 ^ 30 ≤ R.val ℓ) (hP : R.Plain t.env) {i : ℕ}
    (h : R.Row ℓ t i) (a : Fin D) (hxi : R.Upto 60 ((t.ps i).x a)) (hpi : R.Upto 60 (t.ps i).p) {j : ℕ} (hj : j ∈ t.neighbors i)
    (hxj : R.Upto 60 ((t.ps j).x a)) (hpj : R.Upto 60 (t.ps j).p) (ht : t.takes i j = true) (hd : (t.ps j).ty ≠ .dummy) :
    R.Mag (t.gradFunc i j (t.ps j) a)
      ((R.val (t.ps j).p + R.val (t.ps i).p) / R.trueDist (t.ps i).x (t.ps j).x ^ 2 *
        Ref.weight (R.val t.env.re) (R.trueDist (t.ps i).x (t.ps j).x) * (R.val ((t.ps j).x a) - R.val ((t.ps i).x a)))
      (sz (R.val (t.ps j).p + R.val (t.ps i).p) / R.trueDist (t.ps i).x (t.ps j).x ^ 2 *
        (Ref.weight (R.val t.env.re) (R.trueDist (t.ps i).x (t.ps j).x) + 2) * sz (R.val ((t.ps j).x a) - R.val ((t.ps i).x a)))
      190 690 := by
  set r := R.trueDist (t.ps i).x (t.ps j).x with hr
  obtain ⟨⟨d1, d2⟩, -, ⟨d3, d4⟩⟩ := h.dist_mag hR hD hl hj
  have hrl := (h.pair j hj).2.2.2
  rw [← hr] at hrl d2 d4
  have r0 : 0 < r := lt_of_lt_of_le hl.good.pos hrl
  have rlo : 1 / 2 ^ 30 ≤ r := hℓ.trans hrl
  have rhi : r ≤ 2 ^ 31 := by
    unfold State.takes at ht
    rw [Bool.and_eq_true] at ht
    have h1 := (R.compare_re hR hl hrl d1 d2).1 ht.2
    have h2 := hP.re.2.2
    norm_num at h1 h2 ⊢
    linarith
  have τ1 : (1 : ℝ) / 2 ^ 300 ≤ 1 := by rw [div_le_one (by positivity)]; exact one_le_pow₀ (by norm_num)
  have hΔ : R.Mag ((t.ps j).x a - (t.ps i).x a) (R.val ((t.ps j).x a) - R.val ((t.ps i).x a))
      (sz (R.val ((t.ps j).x a) - R.val ((t.ps i).x a))) 1 300 :=
    Rounding.Mag.sub_exact hR hW hxj.1 hxi.1 hxj.2 hxi.2 (le_refl _) τ1 (by norm_num) (by norm_num)
  have hp : R.Mag ((t.ps j).p + (t.ps i).p) (R.val (t.ps j).p + R.val (t.ps i).p) (sz (R.val (t.ps j).p + R.val (t.ps i).p)) 1 300 := by
    have hs : |R.val (t.ps j).p + R.val (t.ps i).p| ≤ 2 ^ 61 := by
      refine (abs_add_le _ _).trans ?_
      have := hpj.2
      have := hpi.2
      norm_num at *
      linarith
    obtain ⟨f, g⟩ := R.add hpj.1 hpi.1 (hs.trans (le_trans (pow_le_pow_right₀ (by norm_num) (by norm_num)) hW.Ω_ge))
    have g := g.bounds hR.ε_le
    have e0 := e50_pos
    have s0 := abs_nonneg (R.val (t.ps j).p + R.val (t.ps i).p)
    unfold sz
    refine ⟨f, le_add_of_nonneg_right (by positivity), g.trans ?_, le_add_of_nonneg_left s0, ?_⟩
    · push_cast
      rw [one_mul]
      apply mul_le_mul_of_nonneg_left _ e0.le
      exact le_add_of_nonneg_right (by positivity)
    · have : (2 : ℝ) ^ 61 + 1 ≤ 2 ^ 300 := by
        refine le_trans (b := (2 : ℝ) ^ 62) (by norm_num) (pow_le_pow_right₀ (by norm_num) (by norm_num))
      refine le_trans (add_le_add hs ?_) this
      exact τ1
  have mr2 : R.Mag (dot ((t.ps j).x - (t.ps i).x) ((t.ps j).x - (t.ps i).x)) (r ^ 2) |r ^ 2| 36 62 := by
    rw [abs_of_pos (by positivity)]
    refine ⟨d1, by rw [abs_of_pos (by positivity)], by push_cast; exact d2, ?_, ?_⟩
    · refine le_trans ?_ (pow_le_pow_left₀ (by norm_num) rlo 2)
      norm_num
    · refine (pow_le_pow_left₀ r0.le rhi 2).trans ?_
      norm_num
  have mw := Rounding.weight_mag hR hl hrl d3 d4
  have m1 := hp.div hR hW mr2 (by norm_num) (by norm_num) (by norm_num)
  have m2 := m1.mul hR hW mw (by norm_num) (by norm_num) (by norm_num) (by norm_num)
  have m3 := m2.mul hR hW hΔ (by norm_num) (by norm_num) (by norm_num) (by norm_num)
  rw [abs_of_pos (show 0 < r ^ 2 by positivity)] at m3
  unfold State.gradFunc
  rw [if_pos hd]
  exact m3.mono (le_refl _) (by norm_num) (by norm_num) (m3.hi.trans (pow_le_pow_right₀ (by norm_num) (by norm_num)))

end OpenMps
