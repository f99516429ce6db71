import Verif.Spec.RoundingSolver
import Verif.Lemmas.RoundingRun

/-! # Lemmas for the pressure solver in rounded arithmetic -/

namespace OpenMps

variable {F : Type} [Scalar F]

theorem e50_val : e50 = 1 / 2 ^ 50 := rfl

theorem list_abs_sum_le (l : List ℕ) (T : ℕ → ℝ) : |(l.map T).sum| ≤ (l.map (fun j => |T j|)).sum := by
  induction l with
  | nil => simp
  | cons a l ih =>
    simp only [List.map_cons, List.sum_cons]
    exact (abs_add_le _ _).trans (by linarith)

/-- Accumulation of products. -/
theorem Rounding.fold_products (R : Rounding F) (hR : R.DoubleLike) (hP : R.Propagates) (g : F → ℕ → F) (T : ℕ → ℝ) (cnt : ℕ → ℕ) (l : List ℕ)
    (hl : ∀ j ∈ l, ((∀ s, g s j = s) ∧ T j = 0 ∧ cnt j = 0) ∨ (∃ a c, (∀ s, g s j = s + a * c) ∧ T j = R.val a * R.val c ∧ cnt j = 1))
    (hc : (l.map cnt).sum ≤ 2 ^ 20) (hfin : R.finite (l.foldl g 0)) :
    |R.val (l.foldl g 0) - (l.map T).sum| ≤ 3 * ((l.map cnt).sum : ℕ) * e50 * (l.map (fun j => |T j|)).sum + 2 * ((l.map cnt).sum : ℕ) * R.η ∧
    ∀ j ∈ l, ∀ a c, (∀ s, g s j = s + a * c) → R.finite a ∧ R.finite c := by
  induction l using List.reverseRecOn with
  | nil => simp [R.zero.2]
  | append_singleton l j ih =>
    rw [List.foldl_append, List.foldl_cons, List.foldl_nil] at hfin ⊢
    set s := l.foldl g 0 with hs
    simp only [List.map_append, List.map_cons, List.map_nil, List.sum_append, List.sum_cons, List.sum_nil, add_zero] at hc ⊢
    set C := (l.map cnt).sum with hC
    set S := (l.map (fun j => |T j|)).sum with hSdef
    have hS0 : 0 ≤ S := by
      rw [hSdef]
      apply List.sum_nonneg
      intro a ha
      obtain ⟨k, -, rfl⟩ := List.mem_map.mp ha
      exact abs_nonneg _
    have he0 := e50_pos
    have hη := R.η_nonneg
    have hsub : ∀ k ∈ l, _ := fun k hk => hl k (List.mem_append_left _ hk)
    have hback : R.finite s := by
      rcases hl j (by simp) with ⟨h1, -, -⟩ | ⟨a, c, h1, -, -⟩
      · rw [h1] at hfin; exact hfin
      · rw [h1] at hfin; exact (hP.add hfin).1
    obtain ⟨ih1, ih2⟩ := ih hsub (by omega) hback
    constructor
    · rcases hl j (by simp) with ⟨h1, h2, h3⟩ | ⟨a, c, h1, h2, h3⟩
      · rw [h1, h2, h3]
        simpa using ih1
      · rw [h1] at hfin ⊢
        obtain ⟨-, f2, hr⟩ := hP.add hfin
        obtain ⟨-, -, hm⟩ := hP.mul f2
        have b1 := hr.bounds hR.ε_le
        have b2 := hm.bounds hR.ε_le
        rw [← h2] at b2
        rw [h3]
        have hC0 : (0 : ℝ) ≤ C := Nat.cast_nonneg C
        have hC1 : (C : ℝ) ≤ 2 ^ 20 := by
          have : C ≤ 2 ^ 20 := by omega
          exact_mod_cast this
        have kC : C * e50 ≤ 1 / 2 ^ 30 := by
          have := mul_le_mul_of_nonneg_right hC1 he0.le
          refine this.trans ?_
          rw [e50_val]; norm_num
        have e1 : e50 ≤ 1 / 2 ^ 30 := by rw [e50_val]; norm_num
        set P := R.val (a * c)
        set V := R.val s
        set t := T j
        have t0 := abs_nonneg t
        have q1 : |P| ≤ |t| + e50 * |t| + R.η := by
          have := abs_add_le (P - t) t
          rw [sub_add_cancel] at this
          linarith
        have q2 : |V| ≤ S + (3 * C * e50 * S + 2 * C * R.η) := by
          have h5 := abs_add_le (V - (l.map T).sum) (l.map T).sum
          rw [sub_add_cancel] at h5
          have h6 : |(l.map T).sum| ≤ S := by
            rw [hSdef]
            exact list_abs_sum_le l T
          linarith
        have q3 : |V + P| ≤ |V| + |P| := abs_add_le _ _
        have q4 : |R.val (s + a * c) - ((l.map T).sum + t)| ≤ |R.val (s + a * c) - (V + P)| + |V - (l.map T).sum| + |P - t| := by
          have : R.val (s + a * c) - ((l.map T).sum + t) = (R.val (s + a * c) - (V + P)) + (V - (l.map T).sum) + (P - t) := by ring
          rw [this]
          exact abs_add_three _ _ _
        have q5 : e50 * |V + P| ≤ e50 * (S + (3 * C * e50 * S + 2 * C * R.η) + (|t| + e50 * |t| + R.η)) :=
          mul_le_mul_of_nonneg_left (by linarith) he0.le
        push_cast
        have r1 : C * e50 * (e50 * S) ≤ 1 / 2 ^ 30 * (e50 * S) := mul_le_mul_of_nonneg_right kC (by positivity)
        have r2 : C * e50 * R.η ≤ 1 / 2 ^ 30 * R.η := mul_le_mul_of_nonneg_right kC hη
        have r3 : e50 * (e50 * |t|) ≤ 1 / 2 ^ 30 * (e50 * |t|) := mul_le_mul_of_nonneg_right e1 (by positivity)
        have r4 : e50 * R.η ≤ 1 / 2 ^ 30 * R.η := mul_le_mul_of_nonneg_right e1 hη
        have r5 : 0 ≤ C * e50 * |t| := by positivity
        have r6 : 0 ≤ e50 * S := by positivity
        have r7 : 0 ≤ e50 * |t| := by positivity
        nlinarith
    · intro k hk a c hac
      rcases List.mem_append.mp hk with hk | hk
      · exact ih2 k hk a c hac
      · rw [List.mem_singleton] at hk
        subst hk
        rw [hac] at hfin
        obtain ⟨-, f2, -⟩ := hP.add hfin
        exact ⟨(hP.mul f2).1, (hP.mul f2).2.1⟩

theorem list_sum_range {M : Type*} [AddCommMonoid M] (n : ℕ) (f : ℕ → M) : ((List.range n).map f).sum = ∑ j ∈ Finset.range n, f j := by
  rw [← List.sum_toFinset _ List.nodup_range, List.toFinset_range]

/-- Product of the matrix and a vector. -/
theorem Rounding.sprod_accurate (R : Rounding F) (hR : R.DoubleLike) (hP : R.Propagates) {n : ℕ} {A : Sparse F} {v : ℕ → F} {i : ℕ}
    (hc : rowLength n A i ≤ 2 ^ 20) (hfin : R.finite (sprod n A v i)) :
    |R.val (sprod n A v i) - ∑ j ∈ Finset.range n, R.entry A i j * R.val (v j)| ≤
      3 * (rowLength n A i : ℕ) * e50 * ∑ j ∈ Finset.range n, |R.entry A i j| * |R.val (v j)| + 2 * (rowLength n A i : ℕ) * R.η := by
  have h := (R.fold_products hR hP (fun s j => match A i j with | some a => s + a * v j | none => s) (fun j => R.entry A i j * R.val (v j))
    (fun j => match A i j with | some _ => 1 | none => 0) (List.range n) ?_ ?_ hfin).1
  · rw [list_sum_range, list_sum_range, list_sum_range] at h
    simp only [abs_mul] at h
    exact h
  · intro j _
    unfold Rounding.entry
    cases h : A i j with
    | none => left; simp
    | some a => right; exact ⟨a, v j, fun _ => rfl, rfl, rfl⟩
  · rw [list_sum_range]; exact hc

/-- Inner product of a vector with itself. -/
theorem Rounding.sdot_accurate (R : Rounding F) (hR : R.DoubleLike) (hP : R.Propagates) {n : ℕ} {v : ℕ → F} (hn : n ≤ 2 ^ 20) (hfin : R.finite (sdot n v v)) :
    |R.val (sdot n v v) - ∑ j ∈ Finset.range n, R.val (v j) ^ 2| ≤ 3 * n * e50 * ∑ j ∈ Finset.range n, R.val (v j) ^ 2 + 2 * n * R.η ∧ ∀ j < n, R.finite (v j) := by
  have h := R.fold_products hR hP (fun s j => s + v j * v j) (fun j => R.val (v j) * R.val (v j)) (fun _ => 1) (List.range n) ?_ ?_ hfin
  · obtain ⟨h1, h2⟩ := h
    refine ⟨?_, fun j hj => (h2 j (List.mem_range.mpr hj) _ _ (fun _ => rfl)).1⟩
    rw [list_sum_range, list_sum_range, list_sum_range] at h1
    simp only [Finset.sum_const, Finset.card_range, smul_eq_mul, mul_one] at h1
    have e : ∀ j, |R.val (v j) * R.val (v j)| = R.val (v j) ^ 2 := fun j => by rw [abs_mul_self, pow_two]
    simp only [e] at h1
    simp only [pow_two] at h1 ⊢
    exact h1
  · intro j _
    right
    exact ⟨v j, v j, fun _ => rfl, rfl, rfl⟩
  · rw [list_sum_range]; simpa using hn

/-- One component of the update of the solution. -/
theorem cg_update_x {u η X x x' q z : ℝ} (hu0 : 0 ≤ u) (hu : u ≤ 1 / 10 ^ 15) (hη : 0 ≤ η)
    (h1 : |x' - (x + q)| ≤ u * |x + q|) (h2 : |q - z| ≤ u * |z| + η) (hx : |x| ≤ X) (hx' : |x'| ≤ X) :
    |z| ≤ 3 * X + 2 * η ∧ |x' - x - z| ≤ 5 * (u * X) + 2 * η := by
  have a1 : |x + q| ≤ |x'| + |x' - (x + q)| := by
    have := abs_sub_abs_le_abs_sub (x + q) x'
    rw [abs_sub_comm] at this; linarith
  have n1 := abs_nonneg (x + q)
  have n2 := abs_nonneg z
  have k1 : u * |x + q| ≤ 1 / 10 ^ 15 * |x + q| := mul_le_mul_of_nonneg_right hu n1
  have b1 : |x + q| ≤ 101 / 100 * X := by
    have : (1 : ℝ) / 10 ^ 15 ≤ 1 / 1000 := by norm_num
    have := mul_le_mul_of_nonneg_right this n1
    have hX := (abs_nonneg x).trans hx
    nlinarith
  have a2 : |q| ≤ |x + q| + |x| := by
    have := abs_add_le (x + q) (-x)
    rw [abs_neg] at this
    simpa using this
  have a3 : |z| ≤ |q| + |q - z| := by
    have := abs_sub_abs_le_abs_sub z q
    rw [abs_sub_comm] at this; linarith
  have k2 : u * |z| ≤ 1 / 1000 * |z| := mul_le_mul_of_nonneg_right (hu.trans (by norm_num)) n2
  have hX := (abs_nonneg x).trans hx
  have b2 : |z| ≤ 21 / 10 * X + 11 / 10 * η := by nlinarith
  refine ⟨by linarith, ?_⟩
  have a4 : |x' - x - z| ≤ |x' - (x + q)| + |q - z| := by
    have : x' - x - z = (x' - (x + q)) + (q - z) := by ring
    rw [this]; exact abs_add_le _ _
  have m1 := mul_le_mul_of_nonneg_left b1 hu0
  have m2 := mul_le_mul_of_nonneg_left b2 hu0
  have m3 : u * η ≤ 1 / 1000 * η := mul_le_mul_of_nonneg_right (hu.trans (by norm_num)) hη
  have m4 : 0 ≤ u * X := mul_nonneg hu0 hX
  nlinarith

theorem absorb {u g G : ℝ} (hu0 : 0 ≤ u) (hu : u ≤ 1 / 10 ^ 15) (hG : 0 ≤ G) (h : g ≤ G + 2 * (u * g)) : g ≤ (1 + 3 * u) * G := by
  have h1 : (1 - 2 * u) * g ≤ G := by linarith
  have h2 : 1 ≤ (1 + 3 * u) * (1 - 2 * u) := by
    have : u ≤ 1 / 1000 := hu.trans (by norm_num)
    nlinarith
  have h3 : 0 < 1 - 2 * u := by
    have : u ≤ 1 / 1000 := hu.trans (by norm_num)
    linarith
  rcases le_or_gt g 0 with h4 | h4
  · exact h4.trans (by positivity)
  · calc g ≤ (1 + 3 * u) * (1 - 2 * u) * g := le_mul_of_one_le_left h4.le h2
      _ = (1 + 3 * u) * ((1 - 2 * u) * g) := by ring
      _ ≤ _ := mul_le_mul_of_nonneg_left h1 (by linarith)

/-- One component of the update of the residual. -/
theorem cg_update_gap {n : ℕ} {u η X Λ m r r' w ap α b : ℝ} {a x x' p q : ℕ → ℝ} (hu0 : 0 ≤ u) (hu : u ≤ 1 / 10 ^ 15) (hη : 0 ≤ η) (hm0 : 0 ≤ m)
    (hmu : m * u ≤ 1 / 2 ^ 30) (hX : 0 ≤ X)
    (h1 : |r' - (r - w)| ≤ u * |r - w|) (h2 : |w - α * ap| ≤ u * |α * ap| + η)
    (h3 : |ap - ∑ j ∈ Finset.range n, a j * p j| ≤ 3 * m * u * ∑ j ∈ Finset.range n, |a j| * |p j| + 2 * m * η)
    (h4 : ∀ j < n, |x' j - (x j + q j)| ≤ u * |x j + q j| ∧ |q j - α * p j| ≤ u * |α * p j| + η ∧ |x j| ≤ X ∧ |x' j| ≤ X) (hα : |α| ≤ Λ) :
    |r' - (b - ∑ j ∈ Finset.range n, a j * x' j)| ≤ (1 + 3 * u) * (|r - (b - ∑ j ∈ Finset.range n, a j * x j)| +
      (u * ((9 * m + 13) * ((∑ j ∈ Finset.range n, |a j|) * X) + 2 * |b|) + η * (3 * (∑ j ∈ Finset.range n, |a j|) + 3 * (m * Λ) + 2 * m + 1))) := by
  set N := ∑ j ∈ Finset.range n, |a j| with hN
  have hN0 : 0 ≤ N := Finset.sum_nonneg fun _ _ => abs_nonneg _
  have hΛ : 0 ≤ Λ := (abs_nonneg _).trans hα
  have key : ∀ j < n, _ := fun j hj => cg_update_x hu0 hu hη (h4 j hj).1 (h4 j hj).2.1 (h4 j hj).2.2.1 (h4 j hj).2.2.2
  set Sp := ∑ j ∈ Finset.range n, a j * p j with hSp
  set Sap := ∑ j ∈ Finset.range n, |a j| * |p j| with hSap
  set Z := N * (3 * X + 2 * η) with hZ
  have hZ0 : 0 ≤ Z := by positivity
  have b1 : |α| * Sap ≤ Z := by
    rw [hSap, hZ, hN, Finset.mul_sum, Finset.sum_mul]
    apply Finset.sum_le_sum
    intro j hj
    have := (key j (Finset.mem_range.mp hj)).1
    rw [abs_mul] at this
    nlinarith [mul_le_mul_of_nonneg_left this (abs_nonneg (a j))]
  have b2 : |α * Sp| ≤ Z := by
    rw [abs_mul]
    refine le_trans (mul_le_mul_of_nonneg_left ?_ (abs_nonneg _)) b1
    rw [hSp, hSap]
    refine (Finset.abs_sum_le_sum_abs _ _).trans (Finset.sum_le_sum fun j _ => ?_)
    rw [abs_mul]
  have b3 : |∑ j ∈ Finset.range n, a j * (x' j - x j - α * p j)| ≤ N * (5 * (u * X) + 2 * η) := by
    refine (Finset.abs_sum_le_sum_abs _ _).trans ?_
    rw [hN, Finset.sum_mul]
    refine Finset.sum_le_sum fun j hj => ?_
    rw [abs_mul]
    exact mul_le_mul_of_nonneg_left (key j (Finset.mem_range.mp hj)).2 (abs_nonneg _)
  have b4 : |∑ j ∈ Finset.range n, a j * x' j| ≤ N * X := by
    refine (Finset.abs_sum_le_sum_abs _ _).trans ?_
    rw [hN, Finset.sum_mul]
    refine Finset.sum_le_sum fun j hj => ?_
    rw [abs_mul]
    exact mul_le_mul_of_nonneg_left (h4 j (Finset.mem_range.mp hj)).2.2.2 (abs_nonneg _)
  set Sx := ∑ j ∈ Finset.range n, a j * x j with hSx
  set Sx' := ∑ j ∈ Finset.range n, a j * x' j with hSx'
  have e1 : ∑ j ∈ Finset.range n, a j * (x' j - x j - α * p j) = Sx' - Sx - α * Sp := by
    rw [hSx, hSx', hSp, Finset.mul_sum, ← Finset.sum_sub_distrib, ← Finset.sum_sub_distrib]
    exact Finset.sum_congr rfl fun j _ => by ring
  rw [e1] at b3
  -- the product
  set T := m * η * Λ with hT
  have hT0 : 0 ≤ T := by positivity
  have c1 : |α * ap - α * Sp| ≤ 3 * (m * u * Z) + 2 * T := by
    rw [← mul_sub, abs_mul]
    have := mul_le_mul_of_nonneg_left h3 (abs_nonneg α)
    have k1 : m * u * (|α| * Sap) ≤ m * u * Z := mul_le_mul_of_nonneg_left b1 (by positivity)
    have k2 : m * η * |α| ≤ m * η * Λ := mul_le_mul_of_nonneg_left hα (by positivity)
    nlinarith
  have c2 : |α * ap| ≤ Z + (3 * (m * u * Z) + 2 * T) := by
    have := abs_add_le (α * ap - α * Sp) (α * Sp)
    rw [sub_add_cancel] at this
    linarith
  have c3 : |w - α * Sp| ≤ u * (Z + (3 * (m * u * Z) + 2 * T)) + η + (3 * (m * u * Z) + 2 * T) := by
    have := abs_add_le (w - α * ap) (α * ap - α * Sp)
    rw [sub_add_sub_cancel] at this
    have := mul_le_mul_of_nonneg_left c2 hu0
    linarith
  -- the residual
  have n1 := abs_nonneg (r - w)
  have d1 : |r - w| ≤ 2 * |r'| := by
    have := abs_sub_abs_le_abs_sub (r - w) r'
    rw [abs_sub_comm (r - w) r'] at this
    have k2 : u * |r - w| ≤ 1 / 1000 * |r - w| := mul_le_mul_of_nonneg_right (hu.trans (by norm_num)) n1
    have := abs_nonneg r'
    linarith
  set g := r - (b - Sx) with hg
  set g' := r' - (b - Sx') with hg'
  have d2 : |r'| ≤ |b| + N * X + |g'| := by
    have : r' = b + (-Sx') + g' := by rw [hg']; ring
    rw [this]
    have := abs_add_three b (-Sx') g'
    rw [abs_neg] at this
    linarith
  have d3 : |r' - (r - w)| ≤ 2 * (u * |r'|) := by
    have := mul_le_mul_of_nonneg_left d1 hu0
    linarith
  have d4 : |g'| ≤ |g| + |r' - (r - w)| + |w - α * Sp| + |Sx' - Sx - α * Sp| := by
    have : g' = g + (r' - (r - w)) + (-(w - α * Sp)) + (Sx' - Sx - α * Sp) := by rw [hg, hg']; ring
    rw [this]
    have k1 := abs_add_three g (r' - (r - w)) (-(w - α * Sp))
    have k2 := abs_add_le (g + (r' - (r - w)) + (-(w - α * Sp))) (Sx' - Sx - α * Sp)
    rw [abs_neg] at k1
    linarith
  have d5 := mul_le_mul_of_nonneg_left d2 hu0
  -- small terms
  have s1 : u * (m * u * Z) ≤ 1 / 2 ^ 30 * (u * Z) := by
    have := mul_le_mul_of_nonneg_right hmu (mul_nonneg hu0 hZ0)
    linarith
  have us : u ≤ 1 / 2 ^ 30 := hu.trans (by norm_num)
  have s2 : u * T ≤ 1 / 2 ^ 30 * T := mul_le_mul_of_nonneg_right us hT0
  have s3 : u * (N * η) ≤ 1 / 2 ^ 30 * (N * η) := mul_le_mul_of_nonneg_right us (by positivity)
  have s4 : m * u * (N * η) ≤ 1 / 2 ^ 30 * (N * η) := mul_le_mul_of_nonneg_right hmu (by positivity)
  have eZ : u * Z = 3 * (u * (N * X)) + 2 * (u * (N * η)) := by rw [hZ]; ring
  have emZ : m * u * Z = 3 * (m * u * (N * X)) + 2 * (m * u * (N * η)) := by rw [hZ]; ring
  have p1 : 0 ≤ u * (N * X) := by positivity
  have p2 : 0 ≤ m * u * (N * X) := by positivity
  have p3 : 0 ≤ N * η := by positivity
  set E := u * ((9 * m + 13) * (N * X) + 2 * |b|) + η * (3 * N + 3 * (m * Λ) + 2 * m + 1) with hE
  have eE : E = 9 * (m * u * (N * X)) + 13 * (u * (N * X)) + 2 * (u * |b|) + (3 * (N * η) + 3 * T + 2 * (m * η) + η) := by
    rw [hE, hT]; ring
  have p4 : 0 ≤ m * η := by positivity
  have f1 : |g'| ≤ |g| + E + 2 * (u * |g'|) := by
    rw [eE]
    have q1 : u * (|b| + N * X + |g'|) = u * |b| + u * (N * X) + u * |g'| := by ring
    have q2 : u * (Z + (3 * (m * u * Z) + 2 * T)) = u * Z + 3 * (u * (m * u * Z)) + 2 * (u * T) := by ring
    have q3 : N * (5 * (u * X) + 2 * η) = 5 * (u * (N * X)) + 2 * (N * η) := by ring
    rw [q1] at d5
    rw [q2] at c3
    rw [q3] at b3
    linarith
  have f2 : 0 ≤ |g| + E := by
    have p5 : 0 ≤ u * |b| := by positivity
    have := abs_nonneg g
    rw [eE]; linarith
  exact absorb hu0 hu f2 f1

end OpenMps
