import Verif.Lemmas.RoundingSolver

/-! # The rounds of the pressure solver in rounded arithmetic -/

namespace OpenMps

variable {F : Type} [Scalar F]

theorem cgLoop_succ (n : ℕ) (A : Sparse F) (g : F) (k : ℕ) (s : CgState F) :
    cgLoop n A g (k + 1) s = if (cgLoop n A g k s).conv then cgLoop n A g k s else cgStep n A g (cgLoop n A g k s) := by
  induction k generalizing s with
  | zero => rfl
  | succ k ih =>
    rw [cgLoop]
    by_cases h : s.conv = true
    · rw [if_pos h]
      have : cgLoop n A g (k + 1) s = s := by rw [cgLoop, if_pos h]
      rw [this, if_pos h]
    · rw [if_neg h, ih]
      have : cgLoop n A g (k + 1) s = cgLoop n A g k (cgStep n A g s) := by rw [cgLoop, if_neg h]
      rw [this]

theorem cgIterate_zero (n : ℕ) (A : Sparse F) (b x : ℕ → F) (eps : F) : cgIterate n A b x eps 0 = (cgInit n A b x eps).1 := rfl

theorem cgIterate_succ (n : ℕ) (A : Sparse F) (b x : ℕ → F) (eps : F) (k : ℕ) :
    cgIterate n A b x eps (k + 1) = if (cgIterate n A b x eps k).conv then cgIterate n A b x eps k
      else cgStep n A (cgInit n A b x eps).2 (cgIterate n A b x eps k) := cgLoop_succ n A _ k _

theorem cgStep_x (n : ℕ) (A : Sparse F) (g : F) (s : CgState F) (i : ℕ) : (cgStep n A g s).x i = s.x i + cgAlpha n A s * s.p i := by
  unfold cgStep cgAlpha; dsimp only; split <;> rfl

theorem cgStep_r (n : ℕ) (A : Sparse F) (g : F) (s : CgState F) (i : ℕ) : (cgStep n A g s).r i = s.r i - cgAlpha n A s * sprod n A s.p i := by
  unfold cgStep cgAlpha; dsimp only; split <;> rfl

theorem cgStep_conv (n : ℕ) (A : Sparse F) (g : F) (s : CgState F) : (cgStep n A g s).conv = Scalar.lt (sdot n (cgStep n A g s).r (cgStep n A g s).r) g := by
  have e : (cgStep n A g s).r = fun i => s.r i - cgAlpha n A s * sprod n A s.p i := funext fun i => cgStep_r n A g s i
  rw [e]
  unfold cgStep cgAlpha; dsimp only
  split
  · rename_i h; exact h.symm
  · rename_i h; exact (Bool.eq_false_iff.mpr h).symm

/-- How far the recursively computed residual is from the true one. -/
noncomputable def Rounding.gap (R : Rounding F) (n : ℕ) (A : Sparse F) (b : ℕ → F) (s : CgState F) (i : ℕ) : ℝ := R.val (s.r i) - R.trueResidual n A b s.x i

theorem Rounding.drift_nonneg (R : Rounding F) {n m : ℕ} {A : Sparse F} {b : ℕ → F} {X Λ : ℝ} (hX : 0 ≤ X) (hΛ : 0 ≤ Λ) (i : ℕ) : 0 ≤ R.drift n m A b X Λ i := by
  unfold Rounding.drift
  have : 0 ≤ R.rowNorm n A i := Finset.sum_nonneg fun _ _ => abs_nonneg _
  have := R.η_nonneg
  positivity

section
variable (R : Rounding F) (hR : R.DoubleLike) (hP : R.Propagates) {n m : ℕ} {A : Sparse F} {b x : ℕ → F} {eps : F} {X Λ : ℝ}

theorem e50_mul_le {m : ℕ} (hm : m ≤ 2 ^ 20) : (m : ℝ) * e50 ≤ 1 / 2 ^ 30 := by
  have h : (m : ℝ) ≤ 2 ^ 20 := by exact_mod_cast hm
  refine (mul_le_mul_of_nonneg_right h e50_pos.le).trans ?_
  rw [e50_val]; norm_num

include hR hP in
theorem Rounding.sprod_bound {v : ℕ → F} {i : ℕ} (hm : m ≤ 2 ^ 20) (hrow : rowLength n A i ≤ m) (hfin : R.finite (sprod n A v i)) :
    |R.val (sprod n A v i) - ∑ j ∈ Finset.range n, R.entry A i j * R.val (v j)| ≤
      3 * m * e50 * ∑ j ∈ Finset.range n, |R.entry A i j| * |R.val (v j)| + 2 * m * R.η := by
  refine (R.sprod_accurate hR hP (hrow.trans hm) hfin).trans ?_
  have h : ((rowLength n A i : ℕ) : ℝ) ≤ m := by exact_mod_cast hrow
  have h1 : 0 ≤ e50 * ∑ j ∈ Finset.range n, |R.entry A i j| * |R.val (v j)| := _root_.mul_nonneg e50_pos.le (Finset.sum_nonneg fun _ _ => by positivity)
  have h2 := R.η_nonneg
  nlinarith [mul_le_mul_of_nonneg_right h h1, mul_le_mul_of_nonneg_right h h2]

include hR hP in
/-- The first residual. -/
theorem Rounding.gap_zero (hm : m ≤ 2 ^ 20) (hrow : ∀ i < n, rowLength n A i ≤ m) (hC : R.CalmRun n A b x eps X Λ) (hn : n ≤ 2 ^ 20) (hΛ : 0 ≤ Λ) {i : ℕ} (hi : i < n) :
    |R.gap n A b (cgIterate n A b x eps 0) i| ≤ (1 + 3 * e50) * R.drift n m A b X Λ i := by
  have hx : ∀ j < n, |R.val (x j)| ≤ X := hC.x_le 0 (Nat.zero_le _)
  have hX : 0 ≤ X := (abs_nonneg _).trans (hx i hi)
  have hfr := (R.sdot_accurate hR hP hn (hC.finite 0 (Nat.zero_le _)).2).2 i hi
  have er : (cgIterate n A b x eps 0).r i = b i - sprod n A x i := rfl
  have ex : (cgIterate n A b x eps 0).x = x := rfl
  unfold Rounding.gap Rounding.trueResidual
  rw [er] at hfr
  rw [er, ex]
  obtain ⟨-, f1, h1⟩ := hP.sub hfr
  have b1 := h1.bounds hR.ε_le
  have b2 := R.sprod_bound hR hP hm (hrow i hi) f1
  have hη := R.η_nonneg
  have he := e50_pos
  have hsm := e50_small
  have hm0 : (0 : ℝ) ≤ m := Nat.cast_nonneg m
  set N := R.rowNorm n A i with hN
  have hN0 : 0 ≤ N := Finset.sum_nonneg fun _ _ => abs_nonneg _
  have s1 : ∑ j ∈ Finset.range n, |R.entry A i j| * |R.val (x j)| ≤ N * X := by
    rw [hN, Rounding.rowNorm, Finset.sum_mul]
    exact Finset.sum_le_sum fun j hj => mul_le_mul_of_nonneg_left (hx j (Finset.mem_range.mp hj)) (abs_nonneg _)
  have s2 : |∑ j ∈ Finset.range n, R.entry A i j * R.val (x j)| ≤ N * X := by
    refine le_trans ?_ s1
    refine (Finset.abs_sum_le_sum_abs _ _).trans (Finset.sum_le_sum fun j _ => ?_)
    rw [abs_mul]
  set Sx := ∑ j ∈ Finset.range n, R.entry A i j * R.val (x j)
  set Sa := ∑ j ∈ Finset.range n, |R.entry A i j| * |R.val (x j)|
  set r := R.val (b i - sprod n A x i)
  set w := R.val (sprod n A x i)
  set β := R.val (b i)
  have n1 := abs_nonneg (β - w)
  have n2 := abs_nonneg r
  have d1 : |β - w| ≤ 2 * |r| := by
    have := abs_sub_abs_le_abs_sub (β - w) r
    rw [abs_sub_comm (β - w) r] at this
    have k2 : e50 * |β - w| ≤ 1 / 1000 * |β - w| := mul_le_mul_of_nonneg_right (hsm.trans (by norm_num)) n1
    linarith
  set g := r - (β - Sx) with hg
  have d2 : |r| ≤ |β| + N * X + |g| := by
    have : r = β + (-Sx) + g := by rw [hg]; ring
    rw [this]
    have := abs_add_three β (-Sx) g
    rw [abs_neg] at this
    linarith
  have d3 : |g| ≤ |r - (β - w)| + |w - Sx| := by
    have : g = (r - (β - w)) + (-(w - Sx)) := by rw [hg]; ring
    rw [this]
    have := abs_add_le (r - (β - w)) (-(w - Sx))
    rwa [abs_neg] at this
  have d4 := mul_le_mul_of_nonneg_left d1 he.le
  have d5 := mul_le_mul_of_nonneg_left d2 he.le
  have k1 : m * e50 * Sa ≤ m * e50 * (N * X) := mul_le_mul_of_nonneg_left s1 (by positivity)
  have p1 : 0 ≤ e50 * (N * X) := by positivity
  have p2 : 0 ≤ m * e50 * (N * X) := by positivity
  have p3 : 0 ≤ e50 * |β| := by positivity
  have p4 : 0 ≤ R.η * N := by positivity
  have p5 : 0 ≤ R.η * (m * Λ) := by positivity
  have p6 : 0 ≤ m * R.η := by positivity
  refine absorb he.le hsm (R.drift_nonneg hX hΛ i) ?_
  unfold Rounding.drift
  rw [← e50_val, ← hN]
  change |g| ≤ e50 * ((9 * m + 13) * (N * X) + 2 * |β|) + R.η * (3 * N + 3 * (m * Λ) + 2 * m + 1) + 2 * (e50 * |g|)
  nlinarith

include hR hP in
/-- One round. -/
theorem Rounding.gap_step (hm : m ≤ 2 ^ 20) (hrow : ∀ i < n, rowLength n A i ≤ m) (hC : R.CalmRun n A b x eps X Λ) (hn : n ≤ 2 ^ 20) {k : ℕ} (hk : k < n)
    (hc : (cgIterate n A b x eps k).conv = false) {i : ℕ} (hi : i < n) :
    |R.gap n A b (cgIterate n A b x eps (k + 1)) i| ≤ (1 + 3 * e50) * (|R.gap n A b (cgIterate n A b x eps k) i| + R.drift n m A b X Λ i) := by
  have hα := hC.alpha_le k hk hc
  have hx := hC.x_le k hk.le
  have hx' := hC.x_le (k + 1) hk
  obtain ⟨hf', hs'⟩ := hC.finite (k + 1) hk
  have hr' := (R.sdot_accurate hR hP hn hs').2 i hi
  have hX : 0 ≤ X := (abs_nonneg _).trans (hx i hi)
  have es : cgIterate n A b x eps (k + 1) = cgStep n A (cgInit n A b x eps).2 (cgIterate n A b x eps k) := by
    rw [cgIterate_succ, hc]; rfl
  rw [es] at hx' hf' hr' ⊢
  set s := cgIterate n A b x eps k
  simp only [cgStep_x] at hx' hf'
  rw [cgStep_r] at hr'
  obtain ⟨-, f1, h1⟩ := hP.sub hr'
  obtain ⟨-, f2, h2⟩ := hP.mul f1
  unfold Rounding.gap Rounding.trueResidual
  simp only [cgStep_x, cgStep_r]
  have := cg_update_gap (n := n) (u := e50) (η := R.η) (X := X) (Λ := Λ) (m := m) (a := R.entry A i) (x := fun j => R.val (s.x j))
    (x' := fun j => R.val (s.x j + cgAlpha n A s * s.p j)) (p := fun j => R.val (s.p j)) (q := fun j => R.val (cgAlpha n A s * s.p j)) (b := R.val (b i))
    e50_pos.le e50_small R.η_nonneg (Nat.cast_nonneg m) (e50_mul_le hm) hX (h1.bounds hR.ε_le) (h2.bounds hR.ε_le)
    (R.sprod_bound hR hP hm (hrow i hi) f2) ?_ hα
  · exact this
  · intro j hj
    obtain ⟨-, g1, k1⟩ := hP.add (hf' j hj)
    obtain ⟨-, -, k2⟩ := hP.mul g1
    exact ⟨k1.bounds hR.ε_le, k2.bounds hR.ε_le, hx j hj, hx' j hj⟩

include hR hP in
/-- All rounds. -/
theorem Rounding.gap_le (hm : m ≤ 2 ^ 20) (hrow : ∀ i < n, rowLength n A i ≤ m) (hC : R.CalmRun n A b x eps X Λ) (hn : n ≤ 2 ^ 20) (hΛ : 0 ≤ Λ) (k : ℕ) (hk : k ≤ n)
    {i : ℕ} (hi : i < n) :
    |R.gap n A b (cgIterate n A b x eps k) i| ≤ (k + 1) * (1 + 4 * e50 * (k + 1)) * R.drift n m A b X Λ i := by
  have hX : 0 ≤ X := (abs_nonneg _).trans (hC.x_le 0 (Nat.zero_le _) i hi)
  have hE := R.drift_nonneg (n := n) (m := m) (A := A) (b := b) hX hΛ i
  have he := e50_pos
  induction k with
  | zero =>
    refine (R.gap_zero hR hP hm hrow hC hn hΛ hi).trans (mul_le_mul_of_nonneg_right ?_ hE)
    push_cast; linarith
  | succ k ih =>
    have ih := ih (by omega)
    set E := R.drift n m A b X Λ i
    have hk0 : (0 : ℝ) ≤ k := Nat.cast_nonneg k
    have hke : (k : ℝ) * e50 ≤ 1 / 2 ^ 30 := e50_mul_le (by omega)
    by_cases hc : (cgIterate n A b x eps k).conv = true
    · rw [cgIterate_succ, if_pos hc]
      refine ih.trans (mul_le_mul_of_nonneg_right ?_ hE)
      push_cast
      have : 0 ≤ e50 * k := by positivity
      nlinarith
    · refine (R.gap_step hR hP hm hrow hC hn (by omega) (Bool.eq_false_iff.mpr hc) hi).trans ?_
      have h1 : (1 + 3 * e50) * (|R.gap n A b (cgIterate n A b x eps k) i| + E) ≤ (1 + 3 * e50) * ((k + 1) * (1 + 4 * e50 * (k + 1)) * E + E) :=
        mul_le_mul_of_nonneg_left (by linarith) (by linarith)
      refine h1.trans ?_
      have h2 : (1 + 3 * e50) * ((k + 1) * (1 + 4 * e50 * (k + 1)) * E + E) = ((1 + 3 * e50) * ((k + 1) * (1 + 4 * e50 * (k + 1)) + 1)) * E := by ring
      rw [h2]
      refine mul_le_mul_of_nonneg_right ?_ hE
      push_cast
      have e1 : e50 * e50 ≤ 1 / 1000 * e50 := mul_le_mul_of_nonneg_right (e50_small.trans (by norm_num)) he.le
      have e2 : (k * e50) * (k * e50) ≤ 1 / 2 ^ 30 * (k * e50) := mul_le_mul_of_nonneg_right hke (by positivity)
      have e3 : (k * e50) * e50 ≤ 1 / 2 ^ 30 * e50 := mul_le_mul_of_nonneg_right hke he.le
      have e4 : 0 ≤ k * e50 := by positivity
      nlinarith

end

theorem vecNorm_nonneg (n : ℕ) (f : ℕ → ℝ) : 0 ≤ vecNorm n f := Real.sqrt_nonneg _

theorem vecNorm_sq (n : ℕ) (f : ℕ → ℝ) : vecNorm n f ^ 2 = ∑ i ∈ Finset.range n, f i ^ 2 := Real.sq_sqrt (Finset.sum_nonneg fun _ _ => sq_nonneg _)

theorem vecNorm_add_le (n : ℕ) {f g h : ℕ → ℝ} (H : ∀ i < n, |f i| ≤ |g i| + |h i|) : vecNorm n f ≤ vecNorm n g + vecNorm n h := by
  have p1 := vecNorm_nonneg n g
  have p2 := vecNorm_nonneg n h
  refine Real.sqrt_le_iff.mpr ⟨by positivity, ?_⟩
  have c := Finset.sum_mul_sq_le_sq_mul_sq (Finset.range n) (fun i => |g i|) (fun i => |h i|)
  simp only [sq_abs] at c
  rw [← vecNorm_sq, ← vecNorm_sq, ← mul_pow] at c
  have c' := abs_le_of_sq_le_sq c (by positivity)
  have h1 : ∑ i ∈ Finset.range n, f i ^ 2 ≤ ∑ i ∈ Finset.range n, (g i ^ 2 + 2 * (|g i| * |h i|) + h i ^ 2) := by
    refine Finset.sum_le_sum fun i hi => ?_
    have := H i (Finset.mem_range.mp hi)
    have := pow_le_pow_left₀ (abs_nonneg _) this 2
    rw [sq_abs] at this
    nlinarith [sq_abs (g i), sq_abs (h i)]
  rw [Finset.sum_add_distrib, Finset.sum_add_distrib, ← Finset.mul_sum, ← vecNorm_sq n g, ← vecNorm_sq n h] at h1
  have := (abs_le.mp c').2
  nlinarith

theorem vecNorm_smul (n : ℕ) {c : ℝ} (hc : 0 ≤ c) (f : ℕ → ℝ) : vecNorm n (fun i => c * f i) = c * vecNorm n f := by
  unfold vecNorm
  simp only [mul_pow]
  rw [← Finset.mul_sum, Real.sqrt_mul (sq_nonneg c), Real.sqrt_sq hc]

/-- What the stopping test compares with. -/
theorem goal_bounds {N u η rr S t g e : ℝ} (hu0 : 0 ≤ u) (hu : u ≤ 1 / 10 ^ 15) (hη : 0 ≤ η) (hN : 0 ≤ N) (hNu : N * u ≤ 1 / 2 ^ 30) (hS : 0 ≤ S) (he : |e| ≤ 1)
    (h1 : |rr - S| ≤ 3 * N * u * S + 2 * N * η) (h2 : |t - rr * e| ≤ u * |rr * e| + η) (h3 : |g - t * e| ≤ u * |t * e| + η) :
    |g - e ^ 2 * S| ≤ 1 / 2 ^ 28 * (e ^ 2 * S) + (2 * N + 4) * η := by
  have q0 : 0 ≤ e ^ 2 := sq_nonneg e
  have q1 : e ^ 2 ≤ 1 := by rw [← sq_abs]; exact pow_le_one₀ (abs_nonneg e) he
  have us : u ≤ 1 / 2 ^ 30 := hu.trans (by norm_num)
  -- rr
  have a1 : |rr| ≤ S + (3 * N * u * S + 2 * N * η) := by
    have := abs_add_le (rr - S) S
    rw [sub_add_cancel, abs_of_nonneg hS] at this
    linarith
  have a2 : e ^ 2 * |rr - S| ≤ e ^ 2 * (3 * N * u * S + 2 * N * η) := mul_le_mul_of_nonneg_left h1 q0
  have a3 : e ^ 2 * |rr| ≤ e ^ 2 * (S + (3 * N * u * S + 2 * N * η)) := mul_le_mul_of_nonneg_left a1 q0
  -- t * e
  have b0 : |t * e - rr * e ^ 2| ≤ u * (e ^ 2 * |rr|) + η := by
    have e1 : t * e - rr * e ^ 2 = (t - rr * e) * e := by ring
    rw [e1, abs_mul]
    have k1 : |t - rr * e| * |e| ≤ (u * |rr * e| + η) * |e| := mul_le_mul_of_nonneg_right h2 (abs_nonneg e)
    have k2 : η * |e| ≤ η := mul_le_of_le_one_right hη he
    have k3 : (u * |rr * e|) * |e| = u * (e ^ 2 * |rr|) := by rw [abs_mul, ← sq_abs e]; ring
    linarith
  have b1 : |t * e| ≤ e ^ 2 * |rr| + (u * (e ^ 2 * |rr|) + η) := by
    have := abs_add_le (t * e - rr * e ^ 2) (rr * e ^ 2)
    rw [sub_add_cancel, abs_mul rr, abs_of_nonneg q0] at this
    linarith
  have b2 := mul_le_mul_of_nonneg_left b1 hu0
  have b3 : |g - e ^ 2 * S| ≤ |g - t * e| + |t * e - rr * e ^ 2| + e ^ 2 * |rr - S| := by
    have e1 : g - e ^ 2 * S = (g - t * e) + (t * e - rr * e ^ 2) + e ^ 2 * (rr - S) := by ring
    rw [e1]
    have := abs_add_three (g - t * e) (t * e - rr * e ^ 2) (e ^ 2 * (rr - S))
    rwa [abs_mul (e ^ 2), abs_of_nonneg q0] at this
  set Q := e ^ 2 * |rr|
  have hQ : 0 ≤ Q := by positivity
  set V := e ^ 2 * S with hV
  have hV0 : 0 ≤ V := by positivity
  have c1 : u * (u * Q) ≤ 1 / 2 ^ 30 * (u * Q) := mul_le_mul_of_nonneg_right us (by positivity)
  have c2 : u * η ≤ 1 / 2 ^ 30 * η := mul_le_mul_of_nonneg_right us hη
  have c3 : N * u * V ≤ 1 / 2 ^ 30 * V := mul_le_mul_of_nonneg_right hNu hV0
  have c4 : e ^ 2 * (N * η) ≤ N * η := mul_le_of_le_one_left (by positivity) q1
  have c5 : e ^ 2 * (3 * N * u * S + 2 * N * η) = 3 * (N * u * V) + 2 * (e ^ 2 * (N * η)) := by rw [hV]; ring
  have c6 : Q ≤ V + (3 * (N * u * V) + 2 * (e ^ 2 * (N * η))) := by
    rw [← c5]
    have : V + e ^ 2 * (3 * N * u * S + 2 * N * η) = e ^ 2 * (S + (3 * N * u * S + 2 * N * η)) := by rw [hV]; ring
    rw [this]; exact a3
  have c7 : Q ≤ 11 / 10 * V + 2 * (N * η) := by linarith
  have c8 := mul_le_mul_of_nonneg_left c7 hu0
  have c9 : u * (N * η) ≤ 1 / 2 ^ 30 * η := by
    have := mul_le_mul_of_nonneg_right hNu hη
    linarith
  have c10 : u * V ≤ 1 / 10 ^ 15 * V := mul_le_mul_of_nonneg_right hu hV0
  rw [c5] at a2
  nlinarith

section
variable (R : Rounding F) (hR : R.DoubleLike) (hO : R.Ordinary) (hP : R.Propagates) {n m : ℕ} {A : Sparse F} {b x : ℕ → F} {eps : F} {X Λ : ℝ}

theorem cg_conv_cases (n : ℕ) (A : Sparse F) (b x : ℕ → F) (eps : F) (k : ℕ) (h : (cgIterate n A b x eps k).conv = true) :
    (Scalar.eq (cgInit n A b x eps).2 0 = true ∧ cgIterate n A b x eps k = cgIterate n A b x eps 0) ∨
    Scalar.lt (sdot n (cgIterate n A b x eps k).r (cgIterate n A b x eps k).r) (cgInit n A b x eps).2 = true := by
  induction k with
  | zero => exact Or.inl ⟨h, rfl⟩
  | succ k ih =>
    by_cases hc : (cgIterate n A b x eps k).conv = true
    · rw [cgIterate_succ, if_pos hc]; exact ih hc
    · right
      rw [cgIterate_succ, if_neg hc] at h ⊢
      rwa [cgStep_conv] at h

include hR hO hP in
/-- The residual the solver computes when it stops. -/
theorem Rounding.cg_stop (hC : R.CalmRun n A b x eps X Λ) (hn : n ≤ 2 ^ 20) (he : |R.val eps| ≤ 1) (h : (cgIterate n A b x eps n).conv = true) :
    (cgIterate n A b x eps n = cgIterate n A b x eps 0 ∧
      R.val eps ^ 2 * ∑ i ∈ Finset.range n, R.val ((cgIterate n A b x eps 0).r i) ^ 2 ≤ 5 * (n + 1) * R.η) ∨
    ∑ i ∈ Finset.range n, R.val ((cgIterate n A b x eps n).r i) ^ 2 ≤
      (1 + 1 / 2 ^ 26) * (R.val eps ^ 2 * ∑ i ∈ Finset.range n, R.val ((cgIterate n A b x eps 0).r i) ^ 2) + 5 * (n + 1) * R.η := by
  have hη := R.η_nonneg
  have hn0 : (0 : ℝ) ≤ n := Nat.cast_nonneg n
  have e2 : (cgInit n A b x eps).2 = sdot n (cgIterate n A b x eps 0).r (cgIterate n A b x eps 0).r * eps * eps := rfl
  have hg := hC.goal
  rw [e2] at hg
  obtain ⟨g1, -, g2⟩ := hP.mul hg
  obtain ⟨g3, -, g4⟩ := hP.mul g1
  obtain ⟨a1, -⟩ := R.sdot_accurate hR hP hn g3
  set S0 := ∑ i ∈ Finset.range n, R.val ((cgIterate n A b x eps 0).r i) ^ 2
  have hS0 : 0 ≤ S0 := Finset.sum_nonneg fun _ _ => sq_nonneg _
  have key := goal_bounds e50_pos.le e50_small hη hn0 (e50_mul_le hn) hS0 he a1 (g4.bounds hR.ε_le) (g2.bounds hR.ε_le)
  have key := abs_le.mp key
  have hV : 0 ≤ R.val eps ^ 2 * S0 := by positivity
  rcases cg_conv_cases n A b x eps n h with ⟨h1, h2⟩ | h1
  · left
    refine ⟨h2, ?_⟩
    rw [e2, hO.eq hg R.zero.1, R.zero.2] at h1
    rw [h1] at key
    nlinarith [key.1]
  · right
    have hf := (hC.finite n le_rfl).2
    rw [e2, R.lt hf hg] at h1
    obtain ⟨b1, -⟩ := R.sdot_accurate hR hP hn hf
    set S := ∑ i ∈ Finset.range n, R.val ((cgIterate n A b x eps n).r i) ^ 2
    have hS : 0 ≤ S := Finset.sum_nonneg fun _ _ => sq_nonneg _
    have b2 := (abs_le.mp b1).1
    have c3 : n * e50 * S ≤ 1 / 2 ^ 30 * S := mul_le_mul_of_nonneg_right (e50_mul_le hn) hS
    nlinarith [key.2, _root_.mul_nonneg hn0 hη]

include hR hO hP in
/-- Attainable accuracy. -/
theorem Rounding.cg_accurate (hm : m ≤ 2 ^ 20) (hrow : ∀ i < n, rowLength n A i ≤ m) (hC : R.CalmRun n A b x eps X Λ) (hn : n ≤ 2 ^ 20) (hΛ : 0 ≤ Λ)
    (he0 : R.val eps ≠ 0) (he : |R.val eps| ≤ 1) (h : (cgIterate n A b x eps n).conv = true) :
    vecNorm n (R.trueResidual n A b (cgIterate n A b x eps n).x) ≤
      (1 + 1 / 2 ^ 26) * |R.val eps| * vecNorm n (R.trueResidual n A b x) + (n + 4) * vecNorm n (R.drift n m A b X Λ) + √(5 * (n + 1) * R.η) / |R.val eps| := by
  have hη := R.η_nonneg
  have hn0 : (0 : ℝ) ≤ n := Nat.cast_nonneg n
  have hep : 0 < |R.val eps| := abs_pos.mpr he0
  have u0 := e50_pos
  have us := e50_small
  set V := vecNorm n (R.drift n m A b X Λ)
  have hV0 : 0 ≤ V := vecNorm_nonneg _ _
  set T := √(5 * (n + 1) * R.η)
  have hT0 : 0 ≤ T := Real.sqrt_nonneg _
  have hT1 : T ≤ T / |R.val eps| := le_div_self hT0 hep he
  -- first residual
  have z1 : vecNorm n (fun i => R.val ((cgIterate n A b x eps 0).r i)) ≤ vecNorm n (R.trueResidual n A b x) + (1 + 3 * e50) * V := by
    rw [← vecNorm_smul n (by linarith : 0 ≤ 1 + 3 * e50)]
    refine vecNorm_add_le n fun i hi => ?_
    have k := R.gap_zero hR hP hm hrow hC hn hΛ hi
    have e : R.val ((cgIterate n A b x eps 0).r i) = R.trueResidual n A b x i + R.gap n A b (cgIterate n A b x eps 0) i := by
      unfold Rounding.gap; change _ = R.trueResidual n A b x i + (_ - R.trueResidual n A b x i); ring
    rw [e]
    exact (abs_add_le _ _).trans (by linarith [k.trans (le_abs_self _)])
  have z2 : vecNorm n (R.trueResidual n A b x) ≤ vecNorm n (fun i => R.val ((cgIterate n A b x eps 0).r i)) + (1 + 3 * e50) * V := by
    rw [← vecNorm_smul n (by linarith : 0 ≤ 1 + 3 * e50)]
    refine vecNorm_add_le n fun i hi => ?_
    have k := R.gap_zero hR hP hm hrow hC hn hΛ hi
    have e : R.trueResidual n A b x i = R.val ((cgIterate n A b x eps 0).r i) + -R.gap n A b (cgIterate n A b x eps 0) i := by
      unfold Rounding.gap; change _ = _ + -(_ - R.trueResidual n A b x i); ring
    rw [e]
    refine (abs_add_le _ _).trans ?_
    rw [abs_neg]
    linarith [k.trans (le_abs_self _)]
  set W0 := vecNorm n (fun i => R.val ((cgIterate n A b x eps 0).r i)) with hW0
  have hW00 : 0 ≤ W0 := vecNorm_nonneg _ _
  set G := vecNorm n (R.trueResidual n A b x)
  have hG0 : 0 ≤ G := vecNorm_nonneg _ _
  have kV : e50 * V ≤ 1 / 1000 * V := mul_le_mul_of_nonneg_right (us.trans (by norm_num)) hV0
  rcases R.cg_stop hR hO hP hC hn he h with ⟨h1, h2⟩ | h1
  · rw [h1]
    change G ≤ _
    have e1 : (|R.val eps| * W0) ^ 2 ≤ 5 * (n + 1) * R.η := by
      rw [mul_pow, sq_abs, hW0, vecNorm_sq]; exact h2
    have e2 : |R.val eps| * W0 ≤ T := Real.le_sqrt_of_sq_le e1
    have e3 : W0 ≤ T / |R.val eps| := by rw [le_div_iff₀ hep]; linarith
    have e4 : 0 ≤ (1 + 1 / 2 ^ 26) * |R.val eps| * G := by positivity
    have e5 : 0 ≤ n * V := by positivity
    nlinarith
  · set W := vecNorm n (fun i => R.val ((cgIterate n A b x eps n).r i)) with hW
    have e1 : W ≤ (1 + 1 / 2 ^ 26) * (|R.val eps| * W0) + T := by
      refine Real.sqrt_le_iff.mpr ⟨by positivity, h1.trans ?_⟩
      have e2 : T ^ 2 = 5 * (n + 1) * R.η := Real.sq_sqrt (by positivity)
      have e3 : (|R.val eps| * W0) ^ 2 = R.val eps ^ 2 * ∑ i ∈ Finset.range n, R.val ((cgIterate n A b x eps 0).r i) ^ 2 := by
        rw [mul_pow, sq_abs, hW0, vecNorm_sq]
      rw [← e2, ← e3]
      have e4 : 0 ≤ |R.val eps| * W0 := by positivity
      nlinarith [_root_.mul_nonneg e4 hT0, sq_nonneg (|R.val eps| * W0)]
    have e2 : vecNorm n (R.trueResidual n A b (cgIterate n A b x eps n).x) ≤ W + (n + 2) * V := by
      rw [← vecNorm_smul n (by linarith : (0 : ℝ) ≤ n + 2)]
      refine vecNorm_add_le n fun i hi => ?_
      have k := R.gap_le hR hP hm hrow hC hn hΛ n le_rfl hi
      have hX : 0 ≤ X := (abs_nonneg _).trans (hC.x_le 0 (Nat.zero_le _) i hi)
      have hE := R.drift_nonneg (n := n) (m := m) (A := A) (b := b) hX hΛ i
      have k2 : ((n : ℝ) + 1) * (1 + 4 * e50 * (n + 1)) ≤ n + 2 := by
        have h1 : (n : ℝ) ≤ 2 ^ 20 := by exact_mod_cast hn
        have h2 : ((n : ℝ) + 1) * (n + 1) ≤ (2 ^ 20 + 1) * (2 ^ 20 + 1) := mul_le_mul (by linarith) (by linarith) (by linarith) (by norm_num)
        have h3 : e50 * (((n : ℝ) + 1) * (n + 1)) ≤ 1 / 4 := by
          refine (mul_le_mul_of_nonneg_left h2 u0.le).trans ?_
          rw [e50_val]; norm_num
        nlinarith
      have k3 := k.trans (mul_le_mul_of_nonneg_right k2 hE)
      have e : R.trueResidual n A b (cgIterate n A b x eps n).x i = R.val ((cgIterate n A b x eps n).r i) + -R.gap n A b (cgIterate n A b x eps n) i := by
        unfold Rounding.gap; ring
      rw [e]
      refine (abs_add_le _ _).trans ?_
      rw [abs_neg]
      linarith [k3.trans (le_abs_self _)]
    have e3 : |R.val eps| * W0 ≤ |R.val eps| * G + (1 + 3 * e50) * V := by
      have h1 := mul_le_mul_of_nonneg_left z1 hep.le
      have h2 : |R.val eps| * ((1 + 3 * e50) * V) ≤ (1 + 3 * e50) * V := mul_le_of_le_one_left (by positivity) he
      linarith
    have e4 : (1 + 1 / 2 ^ 26) * (|R.val eps| * W0) ≤ (1 + 1 / 2 ^ 26) * |R.val eps| * G + 2 * V := by
      have := mul_le_mul_of_nonneg_left e3 (by norm_num : (0 : ℝ) ≤ 1 + 1 / 2 ^ 26)
      linarith
    linarith

end
end OpenMps
