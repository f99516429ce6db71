import Verif.Lemmas.RoundingPpe
import Verif.Props.RoundingSolver

/-! # C74: the computed pressures solve the discrete Poisson equation -/

set_option linter.unusedSectionVars false
set_option exponentiation.threshold 1000

namespace OpenMps

variable {F : Type} [Scalar F] {D : Nat} {ω : Type}

theorem State.matCompute_entries (cfg : Config) (t : State F D ω) (i : ℕ) (hnd : (t.neighbors i).Nodup) (hf : t.fixedRow cfg i = false) :
    (∀ j ∈ t.taken i, (t.ps j).ty ≠ .dummy → t.isSurface cfg (t.ps j).n = false →
      rowOf (t.matCompute cfg i) j = some (t.coef cfg (dist (t.ps i).x (t.ps j).x))) ∧
    (∀ j, j ≠ i → ¬ (j ∈ t.taken i ∧ (t.ps j).ty ≠ .dummy ∧ t.isSurface cfg (t.ps j).n = false) → rowOf (t.matCompute cfg i) j = none) ∧
    rowOf (t.matCompute cfg i) i = some (t.accumulate cfg i ({ sum := 0, entries := [] } : RowAcc F) (t.rowFunc cfg i)).sum := by
  have e : t.matCompute cfg i = ((t.nearList i).filter (fun j => decide ((t.ps j).ty ≠ .dummy) && !t.isSurface cfg (t.ps j).n)).map
      (fun j => (j, t.coef cfg (dist (t.ps i).x (t.ps j).x))) ++
      [(i, (t.accumulate cfg i ({ sum := 0, entries := [] } : RowAcc F) (t.rowFunc cfg i)).sum)] := by
    unfold State.matCompute
    rw [if_neg (by rw [hf]; decide)]
    simp only
    rw [accumulate_entries]
  have hm : ∀ j, j ∈ t.nearList i → j ≠ i := by
    intro j hj
    unfold State.nearList at hj
    rw [List.mem_filter, Bool.and_eq_true, decide_eq_true_eq] at hj
    exact hj.2.1
  have hnear : ∀ j, j ∈ t.taken i ↔ j ∈ t.nearList i := by
    intro j
    rw [t.taken_eq, List.mem_toFinset]
  have hnd' : ((t.matCompute cfg i).map (·.1)).Nodup := by
    rw [e, List.map_append, List.map_map]
    have e1 : ((fun x : ℕ × F => x.1) ∘ fun j => (j, t.coef cfg (dist (t.ps i).x (t.ps j).x))) = id := rfl
    rw [e1, List.map_id, List.nodup_append]
    refine ⟨(hnd.filter _).filter _, by simp, ?_⟩
    intro a ha b hb
    rw [List.mem_filter] at ha
    simp only [List.map_cons, List.map_nil, List.mem_singleton] at hb
    rw [hb]
    exact hm a ha.1
  refine ⟨?_, ?_, ?_⟩
  · intro j hj h1 h2
    apply rowOf_some hnd'
    rw [e, List.mem_append, List.mem_map]
    left
    exact ⟨j, by rw [List.mem_filter]; exact ⟨(hnear j).mp hj, by simp [h1, h2]⟩, rfl⟩
  · intro j hji h
    apply rowOf_none
    intro p hp
    rw [e, List.mem_append, List.mem_map] at hp
    rcases hp with ⟨k, hk, rfl⟩ | hp
    · rw [List.mem_filter, Bool.and_eq_true, decide_eq_true_eq, Bool.not_eq_true'] at hk
      rintro rfl
      exact h ⟨(hnear _).mpr hk.1, hk.2.1, hk.2.2⟩
    · rw [List.mem_singleton] at hp
      rw [hp]
      exact fun h => hji h.symm
  · apply rowOf_some hnd'
    rw [e, List.mem_append]
    right
    exact List.mem_singleton.mpr rfl

theorem setPpe_row (cfg : Config) (t : State F D ω) {schB schA : List Ev} (hB : ValidSched t.n schB) (hA : ValidSched t.n schA) {i : Nat}
    (hi : i < t.n) : (t.setPpe cfg schB schA).ppe.A i = rowOf (t.matCompute cfg i) ∧ (t.setPpe cfg schB schA).ppe.b i = (t.rhsCompute cfg i).1 := by
  rw [setPpe_eq cfg t schB schA hB hA]
  constructor
  · change assemble t.n _ i = _
    rw [assemble_row, if_pos hi, if_pos hi]
  · change (if i < t.n then _ else _) = _
    rw [if_pos hi]

/-- **C74.**  In every arithmetic as accurate as `double` the pressure equation of a fluid particle that is not on the free surface (rows as in C71, no
virtual neighbour, whatever order the threads work in) is the discrete Poisson equation at the stored numbers up to rounding: there are coefficients for
exactly the interacting particles that are neither dummies nor on the surface, equal to those of the Laplacian with a relative error of `150 / 2^50`; the
diagonal is minus the sum of the coefficients of all interacting particles except dummies; the right-hand side is `-rho / (n_0 dt)` times the rate of change
of the number density (HS or not) plus the error correction. -/
theorem C74_pressure_equation_is_accurate (R : Rounding F) (hR : R.DoubleLike) (hW : R.Wide) (hE : R.Exact) (hD : D ≤ 3) (hD0 : 0 < D) {ℓ : F}
    (cfg : Config) (t : State F D ω) (hl : R.Lengths ℓ t.env.re) (hℓ : 1 / 2 ^ 30 ≤ R.val ℓ) (hP : R.Plain t.env) (i : ℕ) (hi : i < t.n)
    (hf : t.fixedRow cfg i = false) (h : R.Row ℓ t i) (hnv : R.NoVirtual cfg t i) (hn : R.Upto 60 (t.ps i).n)
    (he : cfg.ecs = true → R.Upto 60 (t.ecs i)) (hxi : ∀ a, R.Upto 60 ((t.ps i).x a) ∧ R.Upto 60 ((t.ps i).u a))
    (hxj : ∀ j ∈ t.neighbors i, ∀ a, R.Upto 60 ((t.ps j).x a) ∧ R.Upto 60 ((t.ps j).u a))
    (schB schA : List Ev) (hB : ValidSched t.n schB) (hA : ValidSched t.n schA) :
    ∃ N, R.Within t i N ∧
      (∀ j, j ≠ i → (j ∈ N ∧ (t.ps j).ty ≠ .dummy ∧ t.isSurface cfg (t.ps j).n = false →
        ∃ v, (t.setPpe cfg schB schA).ppe.A i j = some v ∧ R.finite v ∧
          |R.val v - R.laplace cfg t.env (R.trueDist (t.ps i).x (t.ps j).x)| ≤
            150 / 2 ^ 50 * R.laplaceSize cfg t.env (R.trueDist (t.ps i).x (t.ps j).x)) ∧
        (¬ (j ∈ N ∧ (t.ps j).ty ≠ .dummy ∧ t.isSurface cfg (t.ps j).n = false) → (t.setPpe cfg schB schA).ppe.A i j = none)) ∧
      (∃ v, (t.setPpe cfg schB schA).ppe.A i i = some v ∧ R.finite v ∧
        |R.val v - -∑ j ∈ N.filter (fun j => (t.ps j).ty ≠ .dummy), R.laplace cfg t.env (R.trueDist (t.ps i).x (t.ps j).x)| ≤
          (2 * (t.neighbors i).length + 150) / 2 ^ 50 *
            (∑ j ∈ N.filter (fun j => (t.ps j).ty ≠ .dummy), R.laplaceSize cfg t.env (R.trueDist (t.ps i).x (t.ps j).x) + 1 / 2 ^ 300)) ∧
      R.finite ((t.setPpe cfg schB schA).ppe.b i) ∧
      |R.val ((t.setPpe cfg schB schA).ppe.b i) - R.trueSource cfg t i N| ≤
        (2 * (t.neighbors i).length + 200) / 2 ^ 50 * R.sourceSize cfg t i N := by
  obtain ⟨r1, r2⟩ := setPpe_row cfg t hB hA hi
  obtain ⟨e1, e2, e3⟩ := t.matCompute_entries cfg i h.nodup hf
  refine ⟨t.taken i, h.within hR hD hl, ?_, ?_, ?_⟩
  · intro j hji
    constructor
    · rintro ⟨h1, h2, h3⟩
      rw [r1, e1 j h1 h2 h3]
      obtain ⟨q1, q2⟩ := t.mem_taken.mp h1
      obtain ⟨f, g⟩ := (h.coef hR hW hE hD hD0 hl hℓ hP cfg q1 q2).result
      exact ⟨_, rfl, f, by push_cast at g; exact g⟩
    · intro h1
      rw [r1]
      exact e2 j hji h1
  · rw [r1, e3]
    obtain ⟨f, g⟩ := (h.diagonal hR hW hE hD hD0 hl hℓ hP hnv).result
    refine ⟨_, rfl, f, ?_⟩
    push_cast at g
    rwa [add_comm (150 : ℝ)] at g
  · rw [r2]
    obtain ⟨f, g⟩ := (h.source hR hW hE hD hD0 hl hℓ hP hnv hn he hxi hxj hf).result
    refine ⟨f, ?_⟩
    push_cast at g
    rwa [add_comm (200 : ℝ)] at g

theorem Rounding.laplaceSize_nonneg {R : Rounding F} (hD : D ≤ 3) (cfg : Config) {e : Env F D} (hP : R.Plain e) {r : ℝ} (hr : 0 < r) :
    0 ≤ R.laplaceSize cfg e r := by
  have re0 := hP.re.pos
  have n00 := hP.n0.pos
  have la0 := hP.lambda.pos
  have hD' : (D : ℝ) ≤ 3 := by exact_mod_cast hD
  have w0 : 0 ≤ Ref.weight (R.val e.re) r := weight_nonneg'
  unfold Rounding.laplaceSize Rounding.laplace
  split
  · have : (0 : ℝ) < 5 - D := by linarith
    positivity
  · positivity

/-- What pressures leave of the exact equation, given the accuracy of the diagonal and of the right-hand side; `v` is the coefficient of a neighbour without
pressure. -/
theorem Rounding.solutions {R : Rounding F} (hR : R.DoubleLike) (hW : R.Wide) (hE : R.Exact) (hD : D ≤ 3) (hD0 : 0 < D) {ℓ : F}
    (cfg : Config) (t : State F D ω) (hl : R.Lengths ℓ t.env.re) (hℓ : 1 / 2 ^ 30 ≤ R.val ℓ) (hP : R.Plain t.env) (i : ℕ) (hi : i < t.n)
    (hf : t.fixedRow cfg i = false) (h : R.Row ℓ t i) {v vs src srcS : ℝ} {K b₀ : ℕ} (hK : K ≤ 200)
    (hd : R.Mag (t.accumulate cfg i ({ sum := 0, entries := [] } : RowAcc F) (t.rowFunc cfg i)).sum
      (-∑ j ∈ (t.taken i).filter (fun j => (t.ps j).ty ≠ .dummy), R.laplace cfg t.env (R.trueDist (t.ps i).x (t.ps j).x) + -v)
      (∑ j ∈ (t.taken i).filter (fun j => (t.ps j).ty ≠ .dummy), R.laplaceSize cfg t.env (R.trueDist (t.ps i).x (t.ps j).x) + 1 / 2 ^ 300 + vs)
      (K + 2 * (t.neighbors i).length) b₀)
    (hb : R.Mag (t.rhsCompute cfg i).1 src srcS (200 + 2 * (t.neighbors i).length) 900)
    (schB schA : List Ev) (hB : ValidSched t.n schB) (hA : ValidSched t.n schA) (y : ℕ → F) :
    |src - (R.trueLaplacian cfg t i (t.taken i) (fun j => R.val (y j)) + v * (0 - R.val (y i)))| ≤
      |R.trueResidual t.n (t.setPpe cfg schB schA).ppe.A (t.setPpe cfg schB schA).ppe.b y i| +
      (2 * (t.neighbors i).length + 200) / 2 ^ 50 * (R.laplacianSize cfg t i (t.taken i) (fun j => R.val (y j)) + vs * |R.val (y i)| + srcS) := by
  classical
  have hlen := h.length
  obtain ⟨r1, r2⟩ := setPpe_row cfg t hB hA hi
  obtain ⟨e1, e2, e3⟩ := t.matCompute_entries cfg i h.nodup hf
  have hw := h.within hR hD hl
  have e0 := e50_pos
  set A := (t.setPpe cfg schB schA).ppe.A
  set b := (t.setPpe cfg schB schA).ppe.b
  set Y : ℕ → ℝ := fun j => R.val (y j) with hY
  set M := (t.taken i).filter (fun j => (t.ps j).ty ≠ .dummy) with hM
  set L : ℕ → ℝ := fun j => R.laplace cfg t.env (R.trueDist (t.ps i).x (t.ps j).x) with hL
  set S : ℕ → ℝ := fun j => R.laplaceSize cfg t.env (R.trueDist (t.ps i).x (t.ps j).x) with hS
  set c : ℕ → ℝ := fun j => R.val (t.coef cfg (dist (t.ps i).x (t.ps j).x)) with hc
  have hMi : ∀ j ∈ M, j ∈ t.taken i ∧ j < t.n ∧ j ≠ i ∧ (t.ps j).ty ≠ .dummy := by
    intro j hj
    rw [hM, Finset.mem_filter] at hj
    have := hw.1 j hj.1
    exact ⟨hj.1, this.1, this.2.1, hj.2⟩
  have hcoef : ∀ j ∈ M, |c j - L j| ≤ 150 * e50 * S j ∧ 0 ≤ S j := by
    intro j hj
    obtain ⟨q1, q2⟩ := t.mem_taken.mp (hMi j hj).1
    have m := h.coef hR hW hE hD hD0 hl hℓ hP cfg q1 q2
    exact ⟨by have := m.err; push_cast at this; exact this, m.pos.le⟩
  set d := R.val (t.accumulate cfg i ({ sum := 0, entries := [] } : RowAcc F) (t.rowFunc cfg i)).sum with hd'
  have hdiag : |d - (-∑ j ∈ M, L j + -v)| ≤ (200 + 2 * (t.neighbors i).length) * e50 * (∑ j ∈ M, S j + 1 / 2 ^ 300 + vs) := by
    refine hd.err.trans ?_
    have hK' : (K : ℝ) ≤ 200 := by exact_mod_cast hK
    refine mul_le_mul_of_nonneg_right (mul_le_mul_of_nonneg_right ?_ e0.le) hd.pos.le
    push_cast
    linarith
  have hsrc : |R.val (b i) - src| ≤ (200 + 2 * (t.neighbors i).length) * e50 * srcS := by
    rw [r2]
    have := hb.err
    push_cast at this
    exact this
  -- the row
  have hrow : ∑ j ∈ Finset.range t.n, R.entry A i j * R.val (y j) = ∑ j ∈ M, c j * t.shown cfg Y j + d * Y i := by
    have hentry : ∀ j ∈ Finset.range t.n, R.entry A i j * R.val (y j) =
        (if j ∈ M then c j * t.shown cfg Y j else 0) + if j = i then d * Y i else 0 := by
      intro j hj
      unfold Rounding.entry
      by_cases hji : j = i
      · subst hji
        have hnm : j ∉ M := fun hm => (hMi j hm).2.2.1 rfl
        rw [if_neg hnm, if_pos rfl, zero_add, r1, e3]
      · rw [if_neg hji, add_zero]
        by_cases hm : j ∈ M
        · rw [if_pos hm]
          unfold State.shown
          cases hsf : t.isSurface cfg (t.ps j).n with
          | false =>
            rw [r1, e1 j (hMi j hm).1 (hMi j hm).2.2.2 hsf]
            simp [hc, hY]
          | true =>
            rw [r1, e2 j hji (by rw [hsf]; simp)]
            simp
        · rw [if_neg hm, r1, e2 j hji (by
            rintro ⟨q1, q2, -⟩
            exact hm (by rw [hM, Finset.mem_filter]; exact ⟨q1, q2⟩))]
          simp
    rw [Finset.sum_congr rfl hentry, Finset.sum_add_distrib, Finset.sum_ite_eq' (Finset.range t.n) i, if_pos (Finset.mem_range.mpr hi),
      ← Finset.sum_filter]
    congr 1
    apply Finset.sum_congr _ (fun _ _ => rfl)
    ext j
    rw [Finset.mem_filter, Finset.mem_range]
    exact ⟨fun h => h.2, fun h => ⟨(hMi j h).2.1, h⟩⟩
  have hlap : R.trueLaplacian cfg t i (t.taken i) Y = ∑ j ∈ M, L j * t.shown cfg Y j - (∑ j ∈ M, L j) * Y i := by
    unfold Rounding.trueLaplacian
    rw [Finset.sum_mul, ← Finset.sum_sub_distrib]
    exact Finset.sum_congr rfl (fun j _ => by ring)
  have hsize : R.laplacianSize cfg t i (t.taken i) Y = ∑ j ∈ M, S j * |t.shown cfg Y j| + (∑ j ∈ M, S j + 1 / 2 ^ 300) * |Y i| := by
    unfold Rounding.laplacianSize
    rw [add_mul, Finset.sum_mul, ← add_assoc, ← Finset.sum_add_distrib, one_div_mul_eq_div]
    congr 1
    exact Finset.sum_congr rfl (fun j _ => by ring)
  have h1 : |∑ j ∈ M, c j * t.shown cfg Y j - ∑ j ∈ M, L j * t.shown cfg Y j| ≤ 150 * e50 * ∑ j ∈ M, S j * |t.shown cfg Y j| := by
    rw [← Finset.sum_sub_distrib, Finset.mul_sum]
    refine (Finset.abs_sum_le_sum_abs _ _).trans (Finset.sum_le_sum (fun j hj => ?_))
    rw [← sub_mul, abs_mul, ← mul_assoc]
    exact mul_le_mul_of_nonneg_right (hcoef j hj).1 (abs_nonneg _)
  have h2 : |d * Y i - (-(∑ j ∈ M, L j) + -v) * Y i| ≤ (200 + 2 * (t.neighbors i).length) * e50 * ((∑ j ∈ M, S j + 1 / 2 ^ 300 + vs) * |Y i|) := by
    rw [← sub_mul, abs_mul, ← mul_assoc]
    exact mul_le_mul_of_nonneg_right hdiag (abs_nonneg _)
  have p1 : 0 ≤ ∑ j ∈ M, S j * |t.shown cfg Y j| := Finset.sum_nonneg (fun j hj => _root_.mul_nonneg (hcoef j hj).2 (abs_nonneg _))
  have hk : (0 : ℝ) ≤ (t.neighbors i).length := Nat.cast_nonneg _
  have hres : R.trueResidual t.n A b y i = R.val (b i) - (∑ j ∈ M, c j * t.shown cfg Y j + d * Y i) := by
    unfold Rounding.trueResidual
    rw [hrow]
  have e50v : (2 * ((t.neighbors i).length : ℝ) + 200) / 2 ^ 50 = (200 + 2 * (t.neighbors i).length) * e50 := by unfold e50; ring
  rw [hlap, hres, e50v]
  have h3 : 150 * e50 * ∑ j ∈ M, S j * |t.shown cfg Y j| ≤ (200 + 2 * (t.neighbors i).length) * e50 * ∑ j ∈ M, S j * |t.shown cfg Y j| := by
    apply mul_le_mul_of_nonneg_right _ p1
    apply mul_le_mul_of_nonneg_right _ e0.le
    linarith
  rw [show R.laplacianSize cfg t i (t.taken i) Y + vs * |Y i| + srcS = ∑ j ∈ M, S j * |t.shown cfg Y j| +
    (∑ j ∈ M, S j + 1 / 2 ^ 300 + vs) * |Y i| + srcS by rw [hsize]; ring]
  generalize (∑ j ∈ M, S j + 1 / 2 ^ 300 + vs) * |Y i| = w1 at *
  generalize ∑ j ∈ M, S j * |t.shown cfg Y j| = w2 at *
  have e : src - (∑ j ∈ M, L j * t.shown cfg Y j - (∑ j ∈ M, L j) * Y i + v * (0 - Y i)) =
      (R.val (b i) - (∑ j ∈ M, c j * t.shown cfg Y j + d * Y i)) + -(R.val (b i) - src) +
      ((∑ j ∈ M, c j * t.shown cfg Y j - ∑ j ∈ M, L j * t.shown cfg Y j) + (d * Y i - (-(∑ j ∈ M, L j) + -v) * Y i)) := by ring
  rw [e]
  have a1 := abs_add_le ((R.val (b i) - (∑ j ∈ M, c j * t.shown cfg Y j + d * Y i)) + -(R.val (b i) - src))
    ((∑ j ∈ M, c j * t.shown cfg Y j - ∑ j ∈ M, L j * t.shown cfg Y j) + (d * Y i - (-(∑ j ∈ M, L j) + -v) * Y i))
  have a2 := abs_add_le (R.val (b i) - (∑ j ∈ M, c j * t.shown cfg Y j + d * Y i)) (-(R.val (b i) - src))
  have a3 := abs_add_le (∑ j ∈ M, c j * t.shown cfg Y j - ∑ j ∈ M, L j * t.shown cfg Y j) (d * Y i - (-(∑ j ∈ M, L j) + -v) * Y i)
  rw [abs_neg] at a2
  rw [mul_add, mul_add]
  linarith

/-- **C74**, solutions.  Whatever pressures `y` one inserts: what they leave of the exact discrete Poisson equation is what they leave of the stored
equation, up to rounding errors of the coefficients. -/
theorem C74_solutions_solve_the_poisson_equation (R : Rounding F) (hR : R.DoubleLike) (hW : R.Wide) (hE : R.Exact) (hD : D ≤ 3) (hD0 : 0 < D) {ℓ : F}
    (cfg : Config) (t : State F D ω) (hl : R.Lengths ℓ t.env.re) (hℓ : 1 / 2 ^ 30 ≤ R.val ℓ) (hP : R.Plain t.env) (i : ℕ) (hi : i < t.n)
    (hf : t.fixedRow cfg i = false) (h : R.Row ℓ t i) (hnv : R.NoVirtual cfg t i) (hn : R.Upto 60 (t.ps i).n)
    (he : cfg.ecs = true → R.Upto 60 (t.ecs i)) (hxi : ∀ a, R.Upto 60 ((t.ps i).x a) ∧ R.Upto 60 ((t.ps i).u a))
    (hxj : ∀ j ∈ t.neighbors i, ∀ a, R.Upto 60 ((t.ps j).x a) ∧ R.Upto 60 ((t.ps j).u a))
    (schB schA : List Ev) (hB : ValidSched t.n schB) (hA : ValidSched t.n schA) :
    ∃ N, R.Within t i N ∧ ∀ y : ℕ → F,
      |R.trueSource cfg t i N - R.trueLaplacian cfg t i N (fun j => R.val (y j))| ≤
        |R.trueResidual t.n (t.setPpe cfg schB schA).ppe.A (t.setPpe cfg schB schA).ppe.b y i| +
        (2 * (t.neighbors i).length + 200) / 2 ^ 50 * (R.laplacianSize cfg t i N (fun j => R.val (y j)) + R.sourceSize cfg t i N) := by
  refine ⟨t.taken i, h.within hR hD hl, fun y => ?_⟩
  have hd := h.diagonal hR hW hE hD hD0 hl hℓ hP hnv
  have k := Rounding.solutions hR hW hE hD hD0 cfg t hl hℓ hP i hi hf h (v := 0) (vs := 0) (K := 150) (by norm_num)
    (hd.cast (by rw [neg_zero, add_zero]) (by rw [add_zero])) (h.source hR hW hE hD hD0 hl hℓ hP hnv hn he hxi hxj hf) schB schA hB hA y
  rw [zero_mul, zero_mul, add_zero, add_zero] at k
  exact k

theorem abs_le_vecNorm {n : ℕ} (f : ℕ → ℝ) {i : ℕ} (hi : i < n) : |f i| ≤ vecNorm n f := by
  unfold vecNorm
  apply Real.abs_le_sqrt
  exact Finset.single_le_sum (f := fun j => f j ^ 2) (fun j _ => sq_nonneg _) (Finset.mem_range.mpr hi)

/-- **C74**, the pressures.  If setting up the equations and solving them returns normally, the solution satisfies the exact discrete Poisson equation of
every such particle up to `eps` times the residual of the initial guess (the old pressures), the rounding errors of the solver (C68) and those of the
coefficients. -/
theorem C74_computed_pressures_solve_the_poisson_equation (R : Rounding F) (hR : R.DoubleLike) (hW : R.Wide) (hE : R.Exact) (hO : R.Ordinary)
    (hPr : R.Propagates) (hD : D ≤ 3) (hD0 : 0 < D) {ℓ : F}
    (cfg : Config) (t t' : State F D ω) (hl : R.Lengths ℓ t.env.re) (hℓ : 1 / 2 ^ 30 ≤ R.val ℓ) (hP : R.Plain t.env)
    (schB schA : List Ev) (hB : ValidSched t.n schB) (hA : ValidSched t.n schA) {eps : F} (he0 : R.val eps ≠ 0) (he1 : |R.val eps| ≤ 1)
    (hs : (t.setPpe cfg schB schA).solvePpe eps = .ok t')
    {m : ℕ} {X Λ : ℝ} (hn : t.n ≤ 2 ^ 20) (hm : m ≤ 2 ^ 20) (hΛ : 0 ≤ Λ)
    (hlen : ∀ i < t.n, rowLength t.n (t.setPpe cfg schB schA).ppe.A i ≤ m)
    (hC : R.CalmRun t.n (t.setPpe cfg schB schA).ppe.A (t.setPpe cfg schB schA).ppe.b (t.setPpe cfg schB schA).ppe.x eps X Λ)
    (i : ℕ) (hi : i < t.n) (hf : t.fixedRow cfg i = false) (h : R.Row ℓ t i) (hnv : R.NoVirtual cfg t i) (hn' : R.Upto 60 (t.ps i).n)
    (he : cfg.ecs = true → R.Upto 60 (t.ecs i)) (hxi : ∀ a, R.Upto 60 ((t.ps i).x a) ∧ R.Upto 60 ((t.ps i).u a))
    (hxj : ∀ j ∈ t.neighbors i, ∀ a, R.Upto 60 ((t.ps j).x a) ∧ R.Upto 60 ((t.ps j).u a)) :
    ∃ N, R.Within t i N ∧
      |R.trueSource cfg t i N - R.trueLaplacian cfg t i N (fun j => R.val (t'.ppe.x j))| ≤
        (1 + 1 / 2 ^ 26) * |R.val eps| * vecNorm t.n (R.trueResidual t.n (t.setPpe cfg schB schA).ppe.A (t.setPpe cfg schB schA).ppe.b (t.setPpe cfg schB schA).ppe.x) +
        (t.n + 4) * vecNorm t.n (R.drift t.n m (t.setPpe cfg schB schA).ppe.A (t.setPpe cfg schB schA).ppe.b X Λ) +
        √(5 * (t.n + 1) * R.η) / |R.val eps| +
        (2 * (t.neighbors i).length + 200) / 2 ^ 50 *
          (R.laplacianSize cfg t i N (fun j => R.val (t'.ppe.x j)) + R.sourceSize cfg t i N) := by
  obtain ⟨rfl, hconv⟩ := solvePpe_ok hs
  obtain ⟨N, hN, key⟩ := C74_solutions_solve_the_poisson_equation R hR hW hE hD hD0 cfg t hl hℓ hP i hi hf h hnv hn' he hxi hxj schB schA hB hA
  refine ⟨N, hN, ?_⟩
  have hsz : (t.setPpe cfg schB schA).ppe.size = t.n := by rw [setPpe_eq cfg t schB schA hB hA]; rfl
  rw [hsz] at hconv
  have k := key (cgSolve (t.setPpe cfg schB schA).ppe.size (t.setPpe cfg schB schA).ppe.A (t.setPpe cfg schB schA).ppe.b (t.setPpe cfg schB schA).ppe.x eps).1
  rw [hsz] at k
  have hacc := C68_returned_solution_is_accurate R hR hO hPr hn hm hlen hΛ hC he0 he1
    (y := (cgSolve t.n (t.setPpe cfg schB schA).ppe.A (t.setPpe cfg schB schA).ppe.b (t.setPpe cfg schB schA).ppe.x eps).1) (Prod.ext rfl hconv)
  have h2 := abs_le_vecNorm (R.trueResidual t.n (t.setPpe cfg schB schA).ppe.A (t.setPpe cfg schB schA).ppe.b
    (cgSolve t.n (t.setPpe cfg schB schA).ppe.A (t.setPpe cfg schB schA).ppe.b (t.setPpe cfg schB schA).ppe.x eps).1) hi
  simp only [hsz]
  linarith

end OpenMps
