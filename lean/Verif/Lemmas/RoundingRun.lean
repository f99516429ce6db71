import Verif.Spec.RoundingRun
import Verif.Lemmas.Rounding
import Verif.Model.Computer

/-! # Speeds and times in rounded arithmetic: error bounds -/

namespace OpenMps

variable {F : Type} [Scalar F] {D : Nat} {ω : Type}

theorem e50_pos : 0 < e50 := by unfold e50; positivity

theorem e50_small : e50 ≤ 1 / 10 ^ 15 := by unfold e50; norm_num

/-- One product of equal numbers. -/
theorem Rounding.square (R : Rounding F) (hR : R.DoubleLike) (x y : F) (hx : R.finite x) (hy : R.finite y) {q : ℝ} (hq : R.val x * R.val y = q)
    (hq0 : 0 ≤ q) (hΩ : q ≤ R.Ω) :
    R.finite (x * y) ∧ 0 ≤ R.val (x * y) ∧ |R.val (x * y) - q| ≤ e50 * q + R.η := by
  have h : |R.val x * R.val y| ≤ R.Ω := by rw [hq, abs_of_nonneg hq0]; exact hΩ
  obtain ⟨f, g⟩ := R.mul hx hy h
  refine ⟨f, R.mul_nonneg hx hy h (by rw [hq]; exact hq0), ?_⟩
  have := g.bounds hR.ε_le
  rwa [hq, abs_of_nonneg hq0] at this

/-- Sums of squares. -/
theorem Rounding.foldSquares (R : Rounding F) (hR : R.DoubleLike) (f : Fin D → F) (q : Fin D → ℝ) (hΩ1 : 1 ≤ R.Ω)
    (hf : ∀ a, R.finite (f a) ∧ 0 ≤ R.val (f a) ∧ |R.val (f a) - q a| ≤ e50 * q a + R.η) (hq : ∀ a, 0 ≤ q a) :
    ∀ (l : List (Fin D)) (s : F) (c : ℕ) (S : ℝ), R.finite s → 0 ≤ R.val s → 0 ≤ S →
      |R.val s - S| ≤ c * e50 * S + c * R.η → c + 3 * l.length ≤ 20 → S + (l.map q).sum ≤ R.Ω / 4 →
      let r := l.foldl (fun s a => s + f a) s
      let T := S + (l.map q).sum
      R.finite r ∧ 0 ≤ R.val r ∧ |R.val r - T| ≤ ((c + 3 * l.length : ℕ) : ℝ) * e50 * T + ((c + 3 * l.length : ℕ) : ℝ) * R.η
  | [], s, c, S, h1, h2, h3, h4, _, _ => by simpa using ⟨h1, h2, h4⟩
  | a :: l, s, c, S, h1, h2, h3, h4, h5, h6 => by
    have e0 := e50_pos
    have e1 := e50_small
    have hη0 := R.η_nonneg
    have hη1 : R.η ≤ e50 := hR.η_le
    have hc : (c : ℝ) ≤ 20 := by have : c ≤ 20 := by omega
                                 exact_mod_cast this
    have hc0 : (0 : ℝ) ≤ c := Nat.cast_nonneg c
    have hsum : 0 ≤ (l.map q).sum := by
      apply List.sum_nonneg
      intro v hv
      rw [List.mem_map] at hv
      obtain ⟨b, -, rfl⟩ := hv
      exact hq b
    have hcons : S + ((a :: l).map q).sum = (S + q a) + (l.map q).sum := by rw [List.map_cons, List.sum_cons, add_assoc]
    rw [hcons] at h6
    simp only [hcons]
    obtain ⟨f1, p1, g1⟩ := hf a
    have hQ := hq a
    have k5 : |R.val s + R.val (f a) - (S + q a)| ≤ c * e50 * S + c * R.η + e50 * q a + R.η := by
      have : R.val s + R.val (f a) - (S + q a) = (R.val s - S) + (R.val (f a) - q a) := by ring
      rw [this]
      exact (abs_add_le _ _).trans (by linarith)
    have hce : (c : ℝ) * e50 ≤ 1 / 10 ^ 12 := by
      calc (c : ℝ) * e50 ≤ 20 * (1 / 10 ^ 15) := mul_le_mul hc e1 e0.le (by norm_num)
        _ ≤ _ := by norm_num
    have hcη : (c : ℝ) * R.η ≤ 1 / 10 ^ 12 := (mul_le_mul_of_nonneg_left hη1 hc0).trans hce
    have ceS : c * e50 * S ≤ 1 / 10 ^ 12 * S := mul_le_mul_of_nonneg_right hce h3
    have eQ : e50 * q a ≤ 1 / 10 ^ 15 * q a := mul_le_mul_of_nonneg_right e1 hQ
    have k6 : R.val s + R.val (f a) ≤ (1 + 1 / 10 ^ 12) * (S + q a) + 22 * R.η := by
      have := (abs_le.mp k5).2
      have h22 : (c : ℝ) * R.η ≤ 20 * R.η := mul_le_mul_of_nonneg_right hc hη0
      norm_num at this ceS eQ ⊢
      linarith
    obtain ⟨f3, g3⟩ := R.add h1 f1 (by
      rw [abs_of_nonneg (add_nonneg h2 p1)]
      norm_num at k6 hη1 e1 ⊢
      linarith)
    have g3' : 0 ≤ R.val (s + f a) := by
      obtain ⟨δ, hδ, hv⟩ := g3
      rw [hv]
      apply _root_.mul_nonneg (add_nonneg h2 p1)
      have h7 := (abs_le.mp hδ).1
      have h8 := hR.ε_le
      norm_num at h8
      linarith
    have g3 := g3.bounds hR.ε_le
    rw [abs_of_nonneg (add_nonneg h2 p1)] at g3
    have k7 : |R.val (s + f a) - (S + q a)| ≤ ((c + 3 : ℕ) : ℝ) * e50 * (S + q a) + ((c + 3 : ℕ) : ℝ) * R.η := by
      have h8 := abs_sub_le (R.val (s + f a)) (R.val s + R.val (f a)) (S + q a)
      have h9 : e50 * (R.val s + R.val (f a)) ≤ e50 * ((1 + 1 / 10 ^ 12) * (S + q a) + 22 * R.η) := mul_le_mul_of_nonneg_left k6 e0.le
      have h10 : e50 * (22 * R.η) ≤ R.η := by
        have : e50 * 22 ≤ 1 := by norm_num at e1 ⊢; linarith
        nlinarith
      have h11 : 0 ≤ (c : ℝ) * e50 * q a := by positivity
      have h12 : 0 ≤ e50 * S := by positivity
      have h13 : 0 ≤ e50 * q a := by positivity
      push_cast
      have h14 : e50 * ((1 + 1 / 10 ^ 12) * (S + q a) + 22 * R.η) = (1 + 1 / 10 ^ 12) * (e50 * S + e50 * q a) + e50 * (22 * R.η) := by ring
      rw [h14] at h9
      norm_num at h9 ⊢
      nlinarith
    have := Rounding.foldSquares R hR f q hΩ1 hf hq l (s + f a) (c + 3) (S + q a) f3 g3' (by positivity) k7
      (by rw [List.length_cons] at h5; omega) h6
    rw [List.foldl_cons]
    have hlen : c + 3 * (a :: l).length = c + 3 + 3 * l.length := by rw [List.length_cons]; omega
    rw [hlen]
    exact this

/-- A sum of squares of finite components. -/
theorem Rounding.sumSquares (R : Rounding F) (hR : R.DoubleLike) (hD : D ≤ 3) (hΩ1 : 1 ≤ R.Ω) (f : Fin D → F) (u : Vec F D)
    (hf : ∀ a, R.finite (f a) ∧ 0 ≤ R.val (f a) ∧ |R.val (f a) - R.val (u a) ^ 2| ≤ e50 * R.val (u a) ^ 2 + R.η)
    (hV : R.trueLength u ^ 2 ≤ R.Ω / 4) :
    let r := (List.finRange D).foldl (fun s a => s + f a) 0
    R.finite r ∧ 0 ≤ R.val r ∧ |R.val r - R.trueLength u ^ 2| ≤ 9 * e50 * R.trueLength u ^ 2 + 9 * R.η := by
  intro r
  have hS : ((List.finRange D).map (fun a => R.val (u a) ^ 2)).sum = ∑ a, R.val (u a) ^ 2 := by
    rw [← List.ofFn_eq_map, List.sum_ofFn]
  have hT : R.trueLength u ^ 2 = ∑ a, R.val (u a) ^ 2 := Real.sq_sqrt (Finset.sum_nonneg (fun a _ => sq_nonneg _))
  rw [hT] at hV ⊢
  have hlen : (List.finRange D).length = D := List.length_finRange
  obtain ⟨f1, p1, g1⟩ := R.foldSquares hR f (fun a => R.val (u a) ^ 2) hΩ1 hf (fun a => sq_nonneg _) (List.finRange D) 0 0 0 R.zero.1
    (by rw [R.zero.2]) le_rfl (by rw [R.zero.2]; simp) (by rw [hlen]; omega) (by rw [hS, zero_add]; exact hV)
  refine ⟨f1, p1, ?_⟩
  rw [hS, zero_add, hlen, zero_add] at g1
  refine g1.trans ?_
  have h3 : ((3 * D : ℕ) : ℝ) ≤ 9 := by
    have : 3 * D ≤ 9 := by omega
    exact_mod_cast this
  have hs : 0 ≤ ∑ a, R.val (u a) ^ 2 := Finset.sum_nonneg (fun a _ => sq_nonneg _)
  have a1 : ((3 * D : ℕ) : ℝ) * (e50 * ∑ a, R.val (u a) ^ 2) ≤ 9 * (e50 * ∑ a, R.val (u a) ^ 2) :=
    mul_le_mul_of_nonneg_right h3 (_root_.mul_nonneg e50_pos.le hs)
  have a2 : ((3 * D : ℕ) : ℝ) * R.η ≤ 9 * R.η := mul_le_mul_of_nonneg_right h3 R.η_nonneg
  linarith

theorem Rounding.comp_le (R : Rounding F) (u : Vec F D) (a : Fin D) : R.val (u a) ^ 2 ≤ R.trueLength u ^ 2 := by
  unfold Rounding.trueLength
  rw [Real.sq_sqrt (Finset.sum_nonneg (fun a _ => sq_nonneg _))]
  exact Finset.single_le_sum (f := fun a => R.val (u a) ^ 2) (fun a _ => sq_nonneg _) (Finset.mem_univ a)

/-- The computed scalar product of a vector with itself. -/
theorem Rounding.dot_self (R : Rounding F) (hR : R.DoubleLike) (hD : D ≤ 3) (hΩ1 : 1 ≤ R.Ω) (u : Vec F D) (hu : ∀ a, R.finite (u a))
    (hV : R.trueLength u ^ 2 ≤ R.Ω / 4) :
    R.finite (dot u u) ∧ 0 ≤ R.val (dot u u) ∧ |R.val (dot u u) - R.trueLength u ^ 2| ≤ 9 * e50 * R.trueLength u ^ 2 + 9 * R.η :=
  R.sumSquares hR hD hΩ1 (fun a => u a * u a) u
    (fun a => R.square hR (u a) (u a) (hu a) (hu a) (by ring) (sq_nonneg _) (by have := R.comp_le u a; linarith)) hV

/-- The square of the computed norm. -/
theorem Rounding.norm_sq (R : Rounding F) (hR : R.DoubleLike) (hO : R.Ordinary) (hD : D ≤ 3) (hΩ1 : 1 ≤ R.Ω) (u : Vec F D)
    (hu : ∀ a, R.finite (u a)) (hV : R.trueLength u ^ 2 ≤ R.Ω / 4) :
    R.finite (norm2 u) ∧ ∃ P, 0 ≤ P ∧ |P - R.trueLength u ^ 2| ≤ 9 * e50 * R.trueLength u ^ 2 + 9 * R.η ∧
      RelErr e50 (R.val (norm2 u)) (Real.sqrt P) := by
  obtain ⟨f1, p1, g1⟩ := R.sumSquares hR hD hΩ1 (fun a => Scalar.abs (u a) * Scalar.abs (u a)) u
    (fun a => R.square hR _ _ (hO.abs (hu a)).1 (hO.abs (hu a)).1 (by rw [(hO.abs (hu a)).2, ← sq, sq_abs]) (sq_nonneg _)
      (by have := R.comp_le u a; linarith)) hV
  obtain ⟨f2, δ, hδ, g2⟩ := R.sqrt f1 p1
  exact ⟨f2, _, p1, g1, δ, hδ.trans hR.ε_le, g2⟩

/-- Square roots of relative and absolute errors. -/
theorem le_of_sq_le_add {A B a k h : ℝ} (hB : 0 ≤ B) (ha : 0 ≤ a) (hk : 0 ≤ k) (hh : 0 ≤ h)
    (H : A ^ 2 ≤ (1 + a) * B ^ 2 + k ^ 2 * h ^ 2) : A ≤ (1 + a) * B + k * h := by
  refine abs_le_of_sq_le_sq' (b := (1 + a) * B + k * h) ?_ (by positivity) |>.2
  have h1 : 0 ≤ (1 + a) * B * (k * h) := by positivity
  have h2 : 0 ≤ a * (1 + a) * B ^ 2 := by positivity
  nlinarith

/-- The computed norm. -/
theorem Rounding.norm_bounds (R : Rounding F) (hR : R.DoubleLike) (hO : R.Ordinary) (hD : D ≤ 3) (hΩ1 : 1 ≤ R.Ω) (u : Vec F D)
    (hu : ∀ a, R.finite (u a)) (hV : R.trueLength u ^ 2 ≤ R.Ω / 4) :
    R.finite (norm2 u) ∧ 0 ≤ R.val (norm2 u) ∧ R.val (norm2 u) ≤ (1 + 20 * e50) * R.trueLength u + 4 * Real.sqrt R.η ∧
      R.trueLength u ≤ (1 + 20 * e50) * R.val (norm2 u) + 4 * Real.sqrt R.η := by
  obtain ⟨f, P, hP, g, δ, hδ, hM⟩ := R.norm_sq hR hO hD hΩ1 u hu hV
  have e0 := e50_pos
  have e1 := e50_small
  have hA : 0 ≤ R.trueLength u := Real.sqrt_nonneg _
  set A := R.trueLength u with hAdef
  set M := R.val (norm2 u) with hMdef
  set h := Real.sqrt R.η with hh
  have h0 : 0 ≤ h := Real.sqrt_nonneg _
  have hsq : h ^ 2 = R.η := Real.sq_sqrt R.η_nonneg
  have hB : 0 ≤ Real.sqrt P := Real.sqrt_nonneg _
  have hBsq : Real.sqrt P ^ 2 = P := Real.sq_sqrt hP
  set B := Real.sqrt P with hBdef
  rw [← hsq, ← hBsq] at g
  obtain ⟨g1, g2⟩ := abs_le.mp g
  obtain ⟨d1, d2⟩ := abs_le.mp hδ
  have b1 : B ≤ (1 + 9 * e50) * A + 3 * h := le_of_sq_le_add hA (by positivity) (by norm_num) h0 (by linarith)
  have b2 : A ≤ (1 + 10 * e50) * B + (19 / 6) * h := by
    refine le_of_sq_le_add hB (by positivity) (by norm_num) h0 ?_
    -- A² (1 - 9e) ≤ B² + 9h²
    have k1 : A ^ 2 * (1 - 9 * e50) ≤ B ^ 2 + 9 * h ^ 2 := by linarith
    have k2 : (B ^ 2 + 9 * h ^ 2) ≤ ((1 + 10 * e50) * B ^ 2 + (19 / 6) ^ 2 * h ^ 2) * (1 - 9 * e50) := by
      have c1 : 1 ≤ (1 + 10 * e50) * (1 - 9 * e50) := by
        have : (1 + 10 * e50) * (1 - 9 * e50) - 1 = e50 * (1 - 90 * e50) := by ring
        have h9 : 0 ≤ e50 * (1 - 90 * e50) := by apply _root_.mul_nonneg e0.le; norm_num at e1; linarith
        linarith
      have c2 : 9 ≤ (19 / 6 : ℝ) ^ 2 * (1 - 9 * e50) := by norm_num at e1 ⊢; linarith
      have i1 := mul_le_mul_of_nonneg_right c1 (sq_nonneg B)
      have i2 := mul_le_mul_of_nonneg_right c2 (sq_nonneg h)
      nlinarith
    have k3 : 0 < 1 - 9 * e50 := by norm_num at e1; linarith
    exact le_of_mul_le_mul_right (k1.trans k2) k3
  have hM0 : 0 ≤ M := by rw [hM]; apply _root_.mul_nonneg hB; norm_num at e1; linarith
  refine ⟨f, hM0, ?_, ?_⟩
  · have k1 : M ≤ B * (1 + e50) := by rw [hM]; exact mul_le_mul_of_nonneg_left (by linarith) hB
    have k2 : B * (1 + e50) ≤ ((1 + 9 * e50) * A + 3 * h) * (1 + e50) := mul_le_mul_of_nonneg_right b1 (by linarith)
    have k3 : 0 ≤ e50 * A := by positivity
    have k4 : 0 ≤ h * (1 - 3 * e50) := by apply _root_.mul_nonneg h0; norm_num at e1; linarith
    have k5 : 0 ≤ e50 * A * (1 - e50) := by apply _root_.mul_nonneg k3; norm_num at e1; linarith
    nlinarith
  · have k1 : B * (1 - e50) ≤ M := by rw [hM]; exact mul_le_mul_of_nonneg_left (by linarith) hB
    have k2 : B ≤ (1 + 2 * e50) * M := by
      have c1 : 1 ≤ (1 - e50) * (1 + 2 * e50) := by
        have : (1 - e50) * (1 + 2 * e50) - 1 = e50 * (1 - 2 * e50) := by ring
        have h9 : 0 ≤ e50 * (1 - 2 * e50) := by apply _root_.mul_nonneg e0.le; norm_num at e1; linarith
        linarith
      have i1 := mul_le_mul_of_nonneg_right k1 (by linarith : 0 ≤ 1 + 2 * e50)
      have i2 := mul_le_mul_of_nonneg_left c1 hB
      linarith
    have k3 : (1 + 10 * e50) * B ≤ (1 + 10 * e50) * ((1 + 2 * e50) * M) := mul_le_mul_of_nonneg_left k2 (by linarith)
    have k4 : 0 ≤ e50 * M := by positivity
    have k5 : 0 ≤ e50 * M * (1 - 20 * e50) := by apply _root_.mul_nonneg k4; norm_num at e1; linarith
    nlinarith

/-- The particle with the largest computed scalar product. -/
theorem Rounding.fastest_spec (R : Rounding F) (s : State F D ω) (hn : 0 < s.n) (hf : ∀ i, i < s.n → R.finite (dot (s.ps i).u (s.ps i).u)) :
    s.fastest < s.n ∧ ∀ i, i < s.n → R.val (dot (s.ps i).u (s.ps i).u) ≤ R.val (dot (s.ps s.fastest).u (s.ps s.fastest).u) := by
  have key : ∀ m, m < s.n → (List.range m).foldl (fun best k =>
        if Scalar.lt (dot (s.ps best).u (s.ps best).u) (dot (s.ps (k + 1)).u (s.ps (k + 1)).u) then k + 1 else best) 0 ≤ m ∧
      ∀ i, i ≤ m → R.val (dot (s.ps i).u (s.ps i).u) ≤
        R.val (dot (s.ps ((List.range m).foldl (fun best k =>
          if Scalar.lt (dot (s.ps best).u (s.ps best).u) (dot (s.ps (k + 1)).u (s.ps (k + 1)).u) then k + 1 else best) 0)).u
          (s.ps ((List.range m).foldl (fun best k =>
          if Scalar.lt (dot (s.ps best).u (s.ps best).u) (dot (s.ps (k + 1)).u (s.ps (k + 1)).u) then k + 1 else best) 0)).u) := by
    intro m
    induction m with
    | zero =>
      intro _
      refine ⟨le_refl _, ?_⟩
      intro i hi
      have : i = 0 := by omega
      subst this
      exact le_refl _
    | succ m ih =>
      intro hm
      have ih := ih (by omega)
      rw [List.range_succ, List.foldl_append]
      simp only [List.foldl_cons, List.foldl_nil]
      generalize (List.range m).foldl (fun best k =>
          if Scalar.lt (dot (s.ps best).u (s.ps best).u) (dot (s.ps (k + 1)).u (s.ps (k + 1)).u) then k + 1 else best) 0 = b at ih ⊢
      have hlt := R.lt (hf b (by omega)) (hf (m + 1) hm)
      by_cases h : R.val (dot (s.ps b).u (s.ps b).u) < R.val (dot (s.ps (m + 1)).u (s.ps (m + 1)).u)
      · rw [if_pos (hlt.mpr h)]
        refine ⟨le_refl _, ?_⟩
        intro i hi
        rcases Nat.lt_or_ge m i with h1 | h1
        · have : i = m + 1 := by omega
          rw [this]
        · exact (ih.2 i h1).trans h.le
      · rw [if_neg (fun hc => h (hlt.mp hc))]
        refine ⟨Nat.le_succ_of_le ih.1, ?_⟩
        intro i hi
        rcases Nat.lt_or_ge m i with h1 | h1
        · have : i = m + 1 := by omega
          rw [this]
          exact not_lt.mp h
        · exact ih.2 i h1
  unfold State.fastest
  obtain ⟨h1, h2⟩ := key (s.n - 1) (by omega)
  exact ⟨by omega, fun i hi => h2 i (by omega)⟩

/-- Times advance. -/
theorem Rounding.time_step (R : Rounding F) (hR : R.DoubleLike) {t dt : F} (ht : R.finite t) (hd : R.finite dt) (h0 : 0 ≤ R.val t)
    (hd0 : 0 ≤ R.val dt) (hΩ : R.val t + R.val dt ≤ R.Ω) :
    R.finite (t + dt) ∧ (1 - e50) * (R.val t + R.val dt) ≤ R.val (t + dt) ∧ R.val (t + dt) ≤ (1 + e50) * (R.val t + R.val dt) := by
  have hs := add_nonneg h0 hd0
  obtain ⟨f, g⟩ := R.add ht hd (by rw [abs_of_nonneg hs]; exact hΩ)
  have := g.bounds hR.ε_le
  rw [abs_of_nonneg hs] at this
  obtain ⟨a, b⟩ := abs_le.mp this
  exact ⟨f, by linarith, by linarith⟩

end OpenMps
