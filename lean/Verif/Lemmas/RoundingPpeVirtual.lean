import Verif.Spec.RoundingPpeVirtual
import Verif.Lemmas.RoundingVirtual

/-! # The pressure equation with a virtual neighbour in rounded arithmetic -/

set_option linter.unusedSectionVars false
set_option exponentiation.threshold 2000

namespace OpenMps

variable {F : Type} [Scalar F] {D : Nat} {ω : Type}

/-- Coefficient at a stored distance. -/
theorem Rounding.coef_at {R : Rounding F} (hR : R.DoubleLike) (hW : R.Wide) (hE : R.Exact) (hD : D ≤ 3) (hD0 : 0 < D) {t : State F D ω}
    (hP : R.Plain t.env) (cfg : Config) {d : F} (hf : R.finite d) (lo : 1 / 2 ^ 14 * R.val t.env.re ≤ R.val d)
    (hi : R.val d ≤ 4 * R.val t.env.re) :
    R.Mag (t.coef cfg d) (R.laplace cfg t.env (R.val d)) (R.laplaceSize cfg t.env (R.val d)) 150 300 := by
  have re0 := hP.re.pos
  have n00 := hP.n0.pos
  have la0 := hP.lambda.pos
  have hDr : (0 : ℝ) < D := by exact_mod_cast hD0
  have re1 := hP.re.2.1
  have re2 := hP.re.2.2
  have b1 : 1 / 2 ^ 44 ≤ R.val d := by
    have := mul_le_mul_of_nonneg_left re1 (show (0 : ℝ) ≤ 1 / 2 ^ 14 by positivity)
    refine le_trans (le_of_eq ?_) (this.trans lo)
    norm_num
  have b2 : R.val d ≤ 2 ^ 44 := by norm_num at re2 ⊢; linarith
  set r := R.val d with hr
  have r0 : 0 < r := lt_of_lt_of_le (by positivity) b1
  have mr : R.Mag d r |r| 0 44 := Rounding.Mag.sized hf (by rw [abs_of_pos r0]; exact b1) (by rw [abs_of_pos r0]; exact b2)
  unfold State.coef
  by_cases hh : cfg.hl = true
  · rw [if_pos hh]
    have m5 : R.Mag (Scalar.ofInt ((5 - D : ℕ) : Int)) ((5 - D : ℕ) : ℝ) |((5 - D : ℕ) : ℝ)| 0 3 := hE.mag (by omega) (by omega)
    have mr2 := mr.mul hR hW mr (by norm_num) (by norm_num) (by norm_num) (by norm_num)
    have mr3 := mr2.mul hR hW mr (by norm_num) (by norm_num) (by norm_num) (by norm_num)
    have mr3 := mr3.cast rfl (show |r| * |r| * |r| = |r * r * r| by rw [abs_mul, abs_mul])
    have m2 := m5.mul hR hW hP.re.mag (by norm_num) (by norm_num) (by norm_num) (by norm_num)
    have m3 := m2.div hR hW hP.n0.mag (by norm_num) (by norm_num) (by norm_num)
    have m4 := m3.div hR hW mr3 (by norm_num) (by norm_num) (by norm_num)
    have h5 : ((5 - D : ℕ) : ℝ) = 5 - D := by rw [Nat.cast_sub (by omega)]; norm_num
    have h50 : (0 : ℝ) < 5 - D := by
      have : (D : ℝ) ≤ 3 := by exact_mod_cast hD
      linarith
    have em : |((5 - D : ℕ) : ℝ)| * |R.val t.env.re| / |R.val t.env.n0| / |r * r * r| = R.laplaceSize cfg t.env r := by
      rw [h5, abs_of_pos h50, abs_of_pos re0, abs_of_pos n00, abs_of_pos (show 0 < r * r * r by positivity)]
      unfold Rounding.laplaceSize Rounding.laplace
      rw [if_pos hh, if_pos hh]
      field_simp
    have m4 := m4.cast (t' := R.laplace cfg t.env r) (by
      rw [h5]
      unfold Rounding.laplace
      rw [if_pos hh]
      field_simp) em
    exact m4.mono (le_refl _) (by norm_num) (by norm_num) (m4.hi.trans (pow_le_pow_right₀ (by norm_num) (by norm_num)))
  · rw [if_neg hh]
    have m2 : R.Mag (Scalar.ofInt ((2 * D : ℕ) : Int)) ((2 * D : ℕ) : ℝ) |((2 * D : ℕ) : ℝ)| 0 3 := hE.mag (by omega) (by omega)
    have mw : R.Mag (W d t.env.re) (Ref.weight (R.val t.env.re) r) (Ref.weight (R.val t.env.re) r + 2) 20 80 := by
      have z0 : Scalar.lt 0 d = true := by rw [R.lt R.zero.1 hf, R.zero.2]; exact r0
      unfold W Ref.weight
      rw [z0, Bool.true_and]
      cases hc : Scalar.lt d t.env.re with
      | true =>
        have hlt := (R.lt hf hP.re.1).mp hc
        rw [if_pos rfl, if_pos ⟨r0, hlt⟩]
        have q1 := hP.re.mag.div hR hW mr (by norm_num) (by norm_num) (by norm_num)
        have q1 := q1.mono (le_refl _) (le_refl _) (show 30 + 44 ≤ 80 by norm_num) (q1.hi.trans (pow_le_pow_right₀ (by norm_num) (by norm_num)))
        have one : R.Mag (1 : F) 1 1 (0 + 0 + 3) 80 :=
          ⟨R.one.1, by rw [abs_one], by rw [R.one.2, sub_self, abs_zero]; have := e50_pos; positivity, inv_le_one 80, one_le_pow₀ (by norm_num)⟩
        have e1 : |R.val t.env.re| / |r| = R.val t.env.re / r := by rw [abs_of_pos re0, abs_of_pos r0]
        rw [e1] at q1
        have q1hi : R.val t.env.re / r ≤ 2 ^ 14 := by
          rw [div_le_iff₀ r0]
          norm_num at lo ⊢
          linarith
        have hb : R.val t.env.re / r + 1 ≤ 2 ^ 80 := by
          have : (2 : ℝ) ^ 14 + 1 ≤ 2 ^ 80 := by norm_num
          linarith
        have m := q1.sub hR hW one (b' := 80) (by norm_num) (le_refl _) hb (by norm_num)
        exact (m.cast rfl (show R.val t.env.re / r + 1 = R.val t.env.re / r - 1 + 2 by ring)).mono (le_refl _) (by norm_num) (by norm_num)
          (by linarith)
      | false =>
        have hlt : ¬ r < R.val t.env.re := fun h => by
          rw [(R.lt hf hP.re.1).mpr h] at hc; cases hc
        rw [if_neg (by simp), if_neg (fun h => hlt h.2)]
        have := R.mag_zero (b := 80)
        exact this.mono ((inv_le_one 80).trans (by norm_num)) (by norm_num) (le_refl _) (by norm_num)
    have m4 := m2.div hR hW hP.lambda.mag (by norm_num) (by norm_num) (by norm_num)
    have m5 := m4.div hR hW hP.n0.mag (by norm_num) (by norm_num) (by norm_num)
    have m6 := m5.mul hR hW mw (by norm_num) (by norm_num) (by norm_num) (by norm_num)
    have m6 := m6.cast (t' := R.laplace cfg t.env r) (m' := R.laplaceSize cfg t.env r) (by
      unfold Rounding.laplace
      rw [if_neg hh]
      push_cast
      field_simp) (by
      rw [abs_of_pos (show (0 : ℝ) < ((2 * D : ℕ) : ℝ) by push_cast; positivity), abs_of_pos la0, abs_of_pos n00]
      unfold Rounding.laplaceSize
      rw [if_neg hh]
      push_cast
      field_simp)
    exact m6.mono (le_refl _) (by norm_num) (by norm_num) (m6.hi.trans (pow_le_pow_right₀ (by norm_num) (by norm_num)))

/-- Without virtual neighbour although the density is low: the centre of gravity is the position of the particle. -/
theorem Rounding.Row.centre {R : Rounding F} (hR : R.DoubleLike) (hW : R.Wide) (hD : D ≤ 3) {ℓ : F} {t : State F D ω}
    (hl : R.Lengths ℓ t.env.re) (hP : R.Plain t.env) {i : ℕ} (h : R.Row ℓ t i) (hv : R.Surroundings t i)
    (hlt : R.val (t.nNoSpp i) < R.val t.env.n0) (hq : t.sppParticle i (t.accLoop i (0 : Vec F D) (t.pull i)).1 = none) (a : Fin D) :
    |R.trueCentre t i (t.taken i) a| ≤
      2 * R.val Scalar.epsilon * R.val t.env.n0 + (2 * (t.neighbors i).length + 200) / 2 ^ 50 * R.centreSize t i (t.taken i) a := by
  obtain ⟨⟨ε1, ε2⟩, hn, hn0, h10, hx⟩ := hv
  have re2 := hP.re.2.2
  have n00 := hP.n0.pos
  have n01 := hP.n0.2.1
  have hxi : ∀ a, R.Upto 60 ((t.ps i).x a) := fun a => ⟨h.this a, (hx a).trans (by norm_num at re2 ⊢; linarith)⟩
  have hΩ : (2 : ℝ) ^ 910 ≤ R.Ω := hW.Ω_ge
  have hη := hW.η_le
  have e1 := e50_small
  have e0 := e50_pos
  have hmag := h.pull_mag hR hW hD hl hP a (hxi a)
  have hsf : ∀ a, R.Upto 361 ((t.accLoop i (0 : Vec F D) (t.pull i)).1 a) := fun a => h.pull hR hW hD hl hP a (hxi a)
  set s := (t.accLoop i (0 : Vec F D) (t.pull i)).1 with hs
  have hdiv : ∀ a, R.finite (vdiv s t.env.n0 a) ∧ |R.val (s a) / R.val t.env.n0| ≤ 2 ^ 391 ∧
      |R.val (vdiv s t.env.n0 a) - R.val (s a) / R.val t.env.n0| ≤ e50 * |R.val (s a) / R.val t.env.n0| + R.η := by
    intro a
    have hq : |R.val (s a) / R.val t.env.n0| ≤ 2 ^ 391 := by
      rw [abs_div, abs_of_pos n00, div_le_iff₀ n00]
      refine (hsf a).2.trans ?_
      have : (2 : ℝ) ^ 361 = 2 ^ 391 * (1 / 2 ^ 30) := by norm_num
      rw [this]
      exact mul_le_mul_of_nonneg_left n01 (by positivity)
    obtain ⟨f, g⟩ := R.div (hsf a).1 hP.n0.1 n00.ne' (hq.trans (le_trans (by norm_num) hΩ))
    exact ⟨f, hq, g.bounds hR.ε_le⟩
  have hg : ∀ a, |R.val (vdiv s t.env.n0 a)| ≤ 2 ^ 395 := by
    intro a
    obtain ⟨-, hq, g⟩ := hdiv a
    have := abs_add_le (R.val (vdiv s t.env.n0 a) - R.val (s a) / R.val t.env.n0) (R.val (s a) / R.val t.env.n0)
    rw [sub_add_cancel] at this
    have h2 : e50 * |R.val (s a) / R.val t.env.n0| ≤ 1 * 2 ^ 391 := mul_le_mul (by norm_num at e1 ⊢; linarith) hq (abs_nonneg _) (by norm_num)
    have h3 : (2 : ℝ) ^ 391 + 2 ^ 391 + 1 / 2 ^ 960 ≤ 2 ^ 395 := by norm_num
    linarith
  set dxg := vdiv s t.env.n0 with hdxg
  have hL2 : R.trueLength dxg ^ 2 ≤ 2 ^ 800 := by
    rw [trueLength_sq]
    have : ∀ a ∈ (Finset.univ : Finset (Fin D)), R.val (dxg a) ^ 2 ≤ (2 ^ 395) ^ 2 := by
      intro a _
      rw [← sq_abs]
      exact pow_le_pow_left₀ (abs_nonneg _) (hg a) 2
    have h1 := Finset.sum_le_sum this
    rw [Finset.sum_const, Finset.card_univ, Fintype.card_fin, nsmul_eq_mul] at h1
    have hDr : (D : ℝ) ≤ 3 := by exact_mod_cast hD
    have h2 : (D : ℝ) * (2 ^ 395) ^ 2 ≤ 3 * (2 ^ 395) ^ 2 := mul_le_mul_of_nonneg_right hDr (by positivity)
    have h3 : (3 : ℝ) * (2 ^ 395) ^ 2 ≤ 2 ^ 800 := by norm_num
    linarith
  have hLhi : R.trueLength dxg ≤ 2 ^ 400 :=
    (abs_le_of_sq_le_sq' (b := (2 : ℝ) ^ 400) (hL2.trans (le_of_eq (by rw [← pow_mul]))) (by positivity)).2
  -- the test
  have hrgf : R.finite (Scalar.sqrt (dot dxg dxg)) := by
    have h8 : (2 : ℝ) ^ 800 ≤ 2 ^ 910 / 4 := by norm_num
    obtain ⟨f, p, -⟩ := R.dot_self hR hD ((one_le_pow₀ (by norm_num)).trans hΩ) dxg (fun a => (hdiv a).1) (by linarith)
    exact (R.sqrt f p).1
  have hsmall : R.val (Scalar.sqrt (dot dxg dxg)) ≤ R.val Scalar.epsilon := by
    unfold State.sppParticle at hq
    simp only at hq
    rw [if_pos ((R.lt hn hP.n0.1).mpr hlt)] at hq
    split at hq
    · cases hq
    · rename_i hc
      rw [R.lt ε1 hrgf] at hc
      exact not_lt.mp hc
  have hL : R.trueLength dxg ≤ 3 / 2 * R.val Scalar.epsilon := by
    by_cases hc : 1 / 2 ^ 110 ≤ R.trueLength dxg
    · have := (Rounding.length_accurate hR hW hD (fun a => (hdiv a).1) hc hLhi).2
      have h12 : 12 * e50 ≤ 1 / 2 ^ 40 := by unfold e50; norm_num
      have := abs_le.mp (this.trans (mul_le_mul_of_nonneg_right h12 (Real.sqrt_nonneg _)))
      norm_num at this ε2 ⊢
      linarith
    · rw [not_le] at hc
      norm_num at hc ε2 ⊢
      linarith
  have hda : |R.val (dxg a)| ≤ 3 / 2 * R.val Scalar.epsilon :=
    (abs_le_of_sq_le_sq (R.comp_le dxg a) (Real.sqrt_nonneg _)).trans hL
  obtain ⟨-, -, g⟩ := hdiv a
  have hsa : |R.val (s a)| ≤ 2 * R.val Scalar.epsilon * R.val t.env.n0 := by
    rw [← div_le_iff₀ n00, ← abs_of_pos n00, ← abs_div]
    have h1 := abs_sub_abs_le_abs_sub (R.val (s a) / R.val t.env.n0) (R.val (dxg a))
    rw [abs_sub_comm] at h1
    have h2 : e50 * |R.val (s a) / R.val t.env.n0| ≤ 1 / 2 ^ 20 * |R.val (s a) / R.val t.env.n0| :=
      mul_le_mul_of_nonneg_right (by unfold e50; norm_num) (abs_nonneg _)
    have h3 : (1 : ℝ) / 2 ^ 960 ≤ 1 / 2 ^ 80 := two_pow_inv_le (by norm_num)
    generalize |R.val (s a) / R.val t.env.n0| = z at *
    norm_num at ε2 h2 h3 ⊢
    linarith
  have herr := hmag.err
  push_cast at herr
  have hsize : 1 / 2 ^ 342 + ∑ j ∈ t.taken i, (Ref.weight (R.val t.env.re) (R.trueDist (t.ps i).x (t.ps j).x) + 2) *
        sz (R.val ((t.ps j).x a) - R.val ((t.ps i).x a)) ≤ R.centreSize t i (t.taken i) a := by
    unfold Rounding.centreSize
    rw [add_comm]
    exact add_le_add_right (two_pow_inv_le (by norm_num)) _
  have hk : (0 : ℝ) ≤ (t.neighbors i).length := Nat.cast_nonneg _
  have hc0 : 0 ≤ R.centreSize t i (t.taken i) a := hmag.pos.le.trans hsize
  have e3 : (2 * ((t.neighbors i).length : ℝ) + 200) / 2 ^ 50 = (2 * (t.neighbors i).length + 200) * e50 := by unfold e50; ring
  have h4 : (150 + 2 * ((t.neighbors i).length : ℝ)) * e50 * (1 / 2 ^ 342 + ∑ j ∈ t.taken i, (Ref.weight (R.val t.env.re) (R.trueDist (t.ps i).x (t.ps j).x) + 2) *
        sz (R.val ((t.ps j).x a) - R.val ((t.ps i).x a))) ≤ (2 * (t.neighbors i).length + 200) / 2 ^ 50 * R.centreSize t i (t.taken i) a := by
    rw [e3]
    exact mul_le_mul (mul_le_mul_of_nonneg_right (by linarith) e0.le) hsize hmag.pos.le (_root_.mul_nonneg (by linarith) e0.le)
  have h5 := herr.trans h4
  have h6 := abs_sub_abs_le_abs_sub (R.trueCentre t i (t.taken i) a) (R.val (s a))
  rw [abs_sub_comm] at h6
  change |R.val (s a) - R.trueCentre t i (t.taken i) a| ≤ _ at h5
  linarith

/-- The virtual neighbour, seen from the exact equations, and the diagonal entry. -/
theorem Rounding.Row.diagonal_surface {R : Rounding F} (hR : R.DoubleLike) (hW : R.Wide) (hE : R.Exact) (hD : D ≤ 3) (hD0 : 0 < D) {ℓ : F}
    {t : State F D ω} (hl : R.Lengths ℓ t.env.re) (hℓ : 1 / 2 ^ 30 ≤ R.val ℓ) (hP : R.Plain t.env) {i : ℕ}
    (h : R.Row ℓ t i) (cfg : Config) (hv : cfg.spp = true → R.Surroundings t i) :
    ∃ v, R.Beyond cfg t i (t.taken i) v ∧ 0 ≤ R.beyondSize cfg t.env v ∧
      R.Mag (t.accumulate cfg i ({ sum := 0, entries := [] } : RowAcc F) (t.rowFunc cfg i)).sum
        (-∑ j ∈ (t.taken i).filter (fun j => (t.ps j).ty ≠ .dummy), R.laplace cfg t.env (R.trueDist (t.ps i).x (t.ps j).x) + -R.beyond cfg t.env v)
        (∑ j ∈ (t.taken i).filter (fun j => (t.ps j).ty ≠ .dummy), R.laplaceSize cfg t.env (R.trueDist (t.ps i).x (t.ps j).x) + 1 / 2 ^ 300 +
          R.beyondSize cfg t.env v) (152 + 2 * (t.neighbors i).length) 511 := by
  have hlen := h.length
  have hdia := h.diagonal hR hW hE hD hD0 hl hℓ hP (cfg := { cfg with spp := false }) (fun hs => by cases hs)
  rw [accumulate_hom RowAcc.sum (fun _ _ => rfl)] at hdia ⊢
  have eloop : t.accumulate { cfg with spp := false } i (0 : F) (fun j q => (t.rowFunc { cfg with spp := false } i j q).sum) =
      (t.accLoop i (0 : F) (fun j q => (t.rowFunc cfg i j q).sum)).1 := by
    have : (fun j q => (t.rowFunc { cfg with spp := false } i j q).sum) = fun j q => (t.rowFunc cfg i j q).sum := by
      funext j q
      unfold State.rowFunc
      split <;> rfl
    rw [this]
    rfl
  change R.Mag (t.accumulate { cfg with spp := false } i (0 : F) (fun j q => (t.rowFunc { cfg with spp := false } i j q).sum)) _ _ _ _ at hdia
  rw [eloop] at hdia
  have hdia : R.Mag (t.accLoop i (0 : F) (fun j q => (t.rowFunc cfg i j q).sum)).1
      (-∑ j ∈ (t.taken i).filter (fun j => (t.ps j).ty ≠ .dummy), R.laplace cfg t.env (R.trueDist (t.ps i).x (t.ps j).x))
      (∑ j ∈ (t.taken i).filter (fun j => (t.ps j).ty ≠ .dummy), R.laplaceSize cfg t.env (R.trueDist (t.ps i).x (t.ps j).x) + 1 / 2 ^ 300)
      (150 + 2 * (t.neighbors i).length) 510 := hdia
  have h9 : (2 : ℝ) ^ 510 ≤ 2 ^ 511 := pow_le_pow_right₀ (by norm_num) (by norm_num)
  have plain : t.accumulate cfg i (0 : F) (fun j q => (t.rowFunc cfg i j q).sum) = (t.accLoop i (0 : F) (fun j q => (t.rowFunc cfg i j q).sum)).1 →
      R.Mag (t.accumulate cfg i (0 : F) (fun j q => (t.rowFunc cfg i j q).sum))
        (-∑ j ∈ (t.taken i).filter (fun j => (t.ps j).ty ≠ .dummy), R.laplace cfg t.env (R.trueDist (t.ps i).x (t.ps j).x) + -R.beyond cfg t.env none)
        (∑ j ∈ (t.taken i).filter (fun j => (t.ps j).ty ≠ .dummy), R.laplaceSize cfg t.env (R.trueDist (t.ps i).x (t.ps j).x) + 1 / 2 ^ 300 +
          R.beyondSize cfg t.env none) (152 + 2 * (t.neighbors i).length) 511 := by
    intro e
    rw [e]
    unfold Rounding.beyond Rounding.beyondSize
    simp only [neg_zero, add_zero]
    exact hdia.mono (le_refl _) (by omega) (by norm_num) (hdia.hi.trans h9)
  cases hs : cfg.spp with
  | false =>
    refine ⟨none, fun h => ?_, le_refl _, plain ?_⟩
    · rw [hs] at h; cases h
    · unfold State.accumulate
      simp only [hs, Bool.false_eq_true, if_false]
  | true =>
    have hv := hv hs
    cases hq : t.sppParticle i (t.accLoop i (0 : Vec F D) (t.pull i)).1 with
    | none =>
      refine ⟨none, fun _ hlt => h.centre hR hW hD hl hP hv hlt hq, le_refl _, plain ?_⟩
      unfold State.accumulate
      simp only [hs, if_true]
      rw [State.accLoop_snd, hq]
    | some q =>
      obtain ⟨-, hty, -, -, hf, lo, hi, hlt, hd⟩ := h.virtual hR hW hD hl hP hv hq
      have mc := Rounding.coef_at hR hW hE hD hD0 hP cfg hf lo hi
      refine ⟨some (R.val (dist (t.ps i).x q.x)), ⟨hs, hlt, hd⟩, mc.pos.le, ?_⟩
      have e : t.accumulate cfg i (0 : F) (fun j q => (t.rowFunc cfg i j q).sum) =
          (t.accLoop i (0 : F) (fun j q => (t.rowFunc cfg i j q).sum)).1 + -t.coef cfg (dist (t.ps i).x q.x) := by
        unfold State.accumulate
        simp only [hs, if_true]
        rw [State.accLoop_snd, hq]
        simp only
        congr 1
        unfold State.rowFunc
        rw [if_pos (by rw [hty]; decide)]
      change R.Mag (t.accumulate cfg i (0 : F) (fun j q => (t.rowFunc cfg i j q).sum)) _ _ _ _
      rw [e]
      have mc' := mc.neg hE
      have mc' := mc'.mono (le_refl _) (show 150 ≤ 150 + 2 * (t.neighbors i).length by omega) (le_refl _) mc'.hi
      have m := hdia.add hR hW mc' (b' := 511) (by norm_num at hlen ⊢; omega) (by norm_num)
        ((add_le_add hdia.hi mc.hi).trans (pow_add_le (by norm_num) (by norm_num))) (by norm_num)
      exact m.mono (le_refl _) (by omega) (le_refl _) m.hi

/-- The right-hand side. -/
theorem Rounding.Row.source_surface {R : Rounding F} (hR : R.DoubleLike) (hW : R.Wide) (hE : R.Exact) (hD : D ≤ 3) (hD0 : 0 < D) {ℓ : F}
    {t : State F D ω} (hl : R.Lengths ℓ t.env.re) (hℓ : 1 / 2 ^ 30 ≤ R.val ℓ) (hP : R.Plain t.env) {i : ℕ} (h : R.Row ℓ t i) {cfg : Config}
    (hv : cfg.spp = true → R.Surroundings t i) (hn : R.Upto 60 (t.ps i).n) (he : cfg.ecs = true → R.Upto 60 (t.ecs i))
    (hi : ∀ a, R.Upto 60 ((t.ps i).x a) ∧ R.Upto 60 ((t.ps i).u a))
    (hj : ∀ j ∈ t.neighbors i, ∀ a, R.Upto 60 ((t.ps j).x a) ∧ R.Upto 60 ((t.ps j).u a)) (hf : t.fixedRow cfg i = false) :
    R.Mag (t.rhsCompute cfg i).1 (R.surfaceSource cfg t i (t.taken i)) (R.sourceSize cfg t i (t.taken i)) (200 + 2 * (t.neighbors i).length) 900 := by
  refine Rounding.source_of_speed hR hW hE hP h.length ?_ he hf
  unfold Rounding.surfaceSpeed
  by_cases hh : cfg.hs = true
  · by_cases hc : cfg.spp = true ∧ R.val (t.nNoSpp i) < R.val t.env.n0
    · rw [if_pos ⟨hh, hc⟩]
      have e : t.densitySpeed cfg i = 0 := by
        unfold State.densitySpeed
        rw [if_pos hh, hc.1, Bool.true_and, if_pos ((R.lt (hv hc.1).density hP.n0.1).mpr hc.2)]
      rw [e]
      have hnv : R.NoVirtual { cfg with spp := false } t i := fun hs => by cases hs
      have ms := h.speed hR hW hE hD hD0 hl hℓ hP hnv hn hi hj
      have e0 := e50_pos
      have pos : 0 < R.speedSize cfg t i (t.taken i) := ms.pos
      exact ⟨R.zero.1, by rw [abs_zero]; exact pos.le, by rw [R.zero.2, sub_zero, abs_zero]; positivity, ms.lo, ms.hi⟩
    · rw [if_neg (fun h => hc h.2)]
      refine h.speed hR hW hE hD hD0 hl hℓ hP (fun hs => ⟨(hv hs).density, hP.n0.1, ?_⟩) hn hi hj
      exact not_lt.mp (fun h => hc ⟨hs, h⟩)
  · rw [if_neg (fun h => hh h.1)]
    have hnv : R.NoVirtual { cfg with spp := false } t i := fun hs => by cases hs
    have ms := h.speed hR hW hE hD hD0 hl hℓ hP hnv hn hi hj
    have e : t.densitySpeed { cfg with spp := false } i = t.densitySpeed cfg i := by
      unfold State.densitySpeed
      simp only [if_neg hh]
    rw [e] at ms
    exact ms

end OpenMps
