import Verif.Lemmas.RoundingMag
import Verif.Props.RoundingDensity

/-! # The terms of the accelerations in rounded arithmetic -/

set_option linter.unusedSectionVars false

namespace OpenMps

variable {F : Type} [Scalar F] {D : Nat} {ω : Type}

theorem sz_pos (v : ℝ) : 0 < sz v := by unfold sz; positivity

/-- The comparison with `r_e` is wrong only for distances that are nearly `r_e`. -/
theorem Rounding.compare_re (R : Rounding F) (hR : R.DoubleLike) {ℓ re : F} (hl : R.Lengths ℓ re) {d2 : F} {r : ℝ}
    (hr : R.val ℓ ≤ r) (hf : R.finite d2) (hd : |R.val d2 - r ^ 2| ≤ 36 * e50 * r ^ 2) :
    (Scalar.lt d2 (re * re) = true → r < R.val re * (1 + 1 / 2 ^ 45)) ∧
    (Scalar.lt d2 (re * re) = false → R.val re * (1 - 1 / 2 ^ 45) ≤ r) := by
  have he : e50 = 1 / 2 ^ 50 := rfl
  have hp := hl.good.pos
  have hre : 0 < R.val re := lt_of_lt_of_le hp hl.le
  have r0 : 0 < r := lt_of_lt_of_le hp hr
  have hre2 : R.val re * R.val re = R.val re ^ 2 := by ring
  obtain ⟨f1, g1⟩ := R.mul hl.finite hl.finite (by
    rw [hre2, abs_of_pos (by positivity)]; have := hl.Ωre; nlinarith [sq_nonneg (R.val re)])
  have g1 := g1.bounds hR.ε_le
  have hη : R.η ≤ R.val re ^ 2 / 2 ^ 50 := by
    refine hl.good.η_le.trans ?_
    apply div_le_div_of_nonneg_right _ (by positivity)
    exact pow_le_pow_left₀ hp.le hl.le 2
  have hr2 : 0 < r ^ 2 := by positivity
  have hR2 : 0 < R.val re ^ 2 := by positivity
  rw [hre2, abs_of_pos hR2, abs_le] at g1
  rw [abs_le] at hd
  have hc := R.lt hf f1
  constructor
  · intro h
    have h1 := hc.mp h
    by_contra hn
    push Not at hn
    have h2 : (R.val re * (1 + 1 / 2 ^ 45)) ^ 2 ≤ r ^ 2 := pow_le_pow_left₀ (by positivity) hn 2
    have h3 : R.val re ^ 2 * (1 + 1 / 2 ^ 44) ≤ r ^ 2 := by
      refine le_trans ?_ h2
      rw [mul_pow]
      apply mul_le_mul_of_nonneg_left _ hR2.le
      norm_num
    have a1 := hd.1
    have a2 := g1.2
    rw [he] at a1 a2
    norm_num at a1 a2 h3 hη
    linarith
  · intro h
    have h1 : ¬ R.val d2 < R.val (re * re) := by rw [← hc, h]; decide
    by_contra hn
    push Not at hn h1
    have h2 : r ^ 2 < (R.val re * (1 - 1 / 2 ^ 45)) ^ 2 := pow_lt_pow_left₀ hn r0.le (by norm_num)
    have h3 : r ^ 2 < R.val re ^ 2 * (1 - 1 / 2 ^ 45) := by
      refine lt_of_lt_of_le h2 ?_
      rw [mul_pow]
      apply mul_le_mul_of_nonneg_left _ hR2.le
      norm_num
    have a1 := hd.2
    have a2 := g1.1
    rw [he] at a1 a2
    norm_num at a1 a2 h3 hη
    linarith

/-- The particles the loop over the neighbours takes. -/
def State.takes (t : State F D ω) (i : ℕ) (j : ℕ) : Bool :=
  decide (j ≠ i) && Scalar.lt (dot ((t.ps j).x - (t.ps i).x) ((t.ps j).x - (t.ps i).x)) (t.env.re * t.env.re)

def State.taken (t : State F D ω) (i : ℕ) : Finset ℕ := ((t.neighbors i).filter (t.takes i)).toFinset

/-- The distance of an entry of the table. -/
theorem Rounding.Row.dist_mag {R : Rounding F} (hR : R.DoubleLike) (hD : D ≤ 3) {ℓ : F} {t : State F D ω} (hl : R.Lengths ℓ t.env.re) {i : ℕ}
    (h : R.Row ℓ t i) {j : ℕ} (hj : j ∈ t.neighbors i) :
    (R.finite (dot ((t.ps j).x - (t.ps i).x) ((t.ps j).x - (t.ps i).x)) ∧
      |R.val (dot ((t.ps j).x - (t.ps i).x) ((t.ps j).x - (t.ps i).x)) - R.trueDist (t.ps i).x (t.ps j).x ^ 2| ≤
        36 * e50 * R.trueDist (t.ps i).x (t.ps j).x ^ 2) ∧
    (R.finite (dist (t.ps i).x (t.ps j).x) ∧ |R.val (dist (t.ps i).x (t.ps j).x) - R.trueDist (t.ps i).x (t.ps j).x| ≤
        38 * e50 * R.trueDist (t.ps i).x (t.ps j).x) ∧
    (R.finite (dist (t.ps j).x (t.ps i).x) ∧ |R.val (dist (t.ps j).x (t.ps i).x) - R.trueDist (t.ps i).x (t.ps j).x| ≤
        38 * e50 * R.trueDist (t.ps i).x (t.ps j).x) := by
  obtain ⟨p1, p2, p3, p4⟩ := h.pair j hj
  obtain ⟨-, d1, d2⟩ := R.dist_accurate hR hl.good hD (t.ps i).x (t.ps j).x h.this p1 p2 p3 p4
  have p2' : ∀ a, |R.val ((t.ps j).x a) - R.val ((t.ps i).x a)| ≤ R.Ω := fun a => by rw [abs_sub_comm]; exact p2 a
  have p3' : ∀ a, |R.val ((t.ps j).x a) - R.val ((t.ps i).x a)| ≤ 2 ^ 22 * R.val ℓ := fun a => by rw [abs_sub_comm]; exact p3 a
  obtain ⟨⟨s1, s2⟩, s3, s4⟩ := R.dist_accurate hR hl.good hD (t.ps j).x (t.ps i).x p1 h.this p2' p3' (by rw [R.trueDist_comm]; exact p4)
  rw [R.trueDist_comm] at s2 s4
  exact ⟨⟨s1, s2⟩, ⟨d1, d2⟩, ⟨s3, s4⟩⟩

theorem Rounding.Row.within {R : Rounding F} (hR : R.DoubleLike) (hD : D ≤ 3) {ℓ : F} {t : State F D ω} (hl : R.Lengths ℓ t.env.re) {i : ℕ}
    (h : R.Row ℓ t i) : R.Within t i (t.taken i) := by
  have hre : 0 < R.val t.env.re := lt_of_lt_of_le hl.good.pos hl.le
  constructor
  · intro j hj
    unfold State.taken at hj
    rw [List.mem_toFinset, List.mem_filter] at hj
    obtain ⟨hj, ht⟩ := hj
    obtain ⟨e1, e2, e3⟩ := h.entry j hj
    refine ⟨e1, e2, e3, ?_⟩
    obtain ⟨⟨d1, d2⟩, -⟩ := h.dist_mag hR hD hl hj
    unfold State.takes at ht
    rw [Bool.and_eq_true] at ht
    exact (R.compare_re hR hl (h.pair j hj).2.2.2 d1 d2).1 ht.2
  · intro j h1 h2 h3 h4
    have hj := h.cover j h1 h2 h3 (h4.trans_le (by nlinarith))
    unfold State.taken
    rw [List.mem_toFinset, List.mem_filter]
    refine ⟨hj, ?_⟩
    obtain ⟨⟨d1, d2⟩, -⟩ := h.dist_mag hR hD hl hj
    unfold State.takes
    rw [Bool.and_eq_true]
    refine ⟨by simpa using h2, ?_⟩
    by_contra hc
    exact absurd ((R.compare_re hR hl (h.pair j hj).2.2.2 d1 d2).2 (by simpa using hc)) (not_le.mpr h4)

/-- The sum over the neighbours, one component. -/
theorem Rounding.Row.acc {R : Rounding F} (hR : R.DoubleLike) (hW : R.Wide) {ℓ : F} {t : State F D ω} {i : ℕ}
    (h : R.Row ℓ t i) (func : Int → Particle F D → Vec F D) (a : Fin D) (T m : ℕ → ℝ) {K c B : ℕ} (hK : K ≤ 2 ^ 20) (hc : c + 21 ≤ B) (hB : B ≤ 900)
    (hm : ∀ j ∈ t.neighbors i, 0 ≤ m j ∧ m j ≤ 2 ^ c)
    (hf : ∀ j ∈ t.neighbors i, t.takes i j = true → R.Mag (func (j : Int) (t.ps j) a) (T j) (m j) K c) :
    R.Mag ((t.accLoop i (0 : Vec F D) func).1 a) (∑ j ∈ t.taken i, T j) (1 / 2 ^ B + ∑ j ∈ t.taken i, m j)
      (K + 2 * (t.neighbors i).length) B := by
  have hlen := h.length
  have hlen' : ((t.neighbors i).length : ℝ) ≤ 2 ^ 20 := by exact_mod_cast hlen
  have B0 : (0 : ℝ) < 2 ^ B := by positivity
  have B1 : (1 : ℝ) ≤ 2 ^ B := one_le_pow₀ (by norm_num)
  have hsum : 1 / 2 ^ B + ((t.neighbors i).length : ℝ) * 2 ^ c ≤ 2 ^ B := by
    have h1 : ((t.neighbors i).length : ℝ) * 2 ^ c ≤ 2 ^ 20 * 2 ^ c := mul_le_mul_of_nonneg_right hlen' (by positivity)
    have h2 : (2 : ℝ) ^ 20 * 2 ^ c * 2 ≤ 2 ^ B := by
      have : (2 : ℝ) ^ 20 * 2 ^ c * 2 = 2 ^ (c + 21) := by rw [pow_add]; ring
      rw [this]; exact pow_le_pow_right₀ (by norm_num) hc
    have h3 : (1 : ℝ) / 2 ^ B ≤ 1 := by rw [div_le_one B0]; exact B1
    have h4 : (1 : ℝ) ≤ 2 ^ 20 * 2 ^ c := by
      have : (1 : ℝ) ≤ 2 ^ c := one_le_pow₀ (by norm_num)
      linarith
    linarith
  have key := Rounding.Mag.foldl hR hW (A := Vec F D) (V := Vec F D) (fun v => v a)
    (fun acc j =>
      if j ≠ i then
        if Scalar.lt (dot ((t.ps j).x - (t.ps i).x) ((t.ps j).x - (t.ps i).x)) (t.env.re * t.env.re) = true then
          (acc.1 + func (j : Int) (t.ps j), acc.2 + smul (W (Scalar.sqrt (dot ((t.ps j).x - (t.ps i).x) ((t.ps j).x - (t.ps i).x))) t.env.re)
            ((t.ps j).x - (t.ps i).x))
        else acc
      else acc) (t.takes i) (fun j => func (j : Int) (t.ps j) a) T m hB (K := K) (c := c) (t.neighbors i) (0, 0) 0 0 (1 / 2 ^ B)
    ⟨R.zero.1, by rw [abs_zero]; positivity, by
      change |R.val 0 - 0| ≤ _
      rw [R.zero.2, sub_zero, abs_zero]
      have := e50_pos
      positivity, le_refl _, by
      have h3 : (1 : ℝ) / 2 ^ B ≤ 1 := by rw [div_le_one B0]; exact B1
      linarith⟩ (by norm_num at hK hlen ⊢; omega) hsum (by
      intro j hj
      refine ⟨(hm j hj).1, (hm j hj).2, ?_, ?_⟩
      · intro ht s
        unfold State.takes at ht
        rw [Bool.and_eq_false_iff] at ht
        by_cases hji : j ≠ i
        · rcases ht with ht | ht
          · exact absurd hji (by simpa using ht)
          · rw [if_pos hji, if_neg (by rw [ht]; decide)]
        · rw [if_neg hji]
      · intro ht
        refine ⟨?_, hf j hj ht⟩
        intro s
        unfold State.takes at ht
        rw [Bool.and_eq_true] at ht
        rw [if_pos (by simpa using ht.1), if_pos ht.2]
        rfl)
  rw [zero_add, zero_add] at key
  have hnd : ((t.neighbors i).filter (t.takes i)).Nodup := h.nodup.filter _
  unfold State.taken
  rw [List.sum_toFinset _ hnd, List.sum_toFinset _ hnd]
  exact key

end OpenMps
