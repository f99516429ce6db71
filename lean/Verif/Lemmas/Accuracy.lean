import Verif.Spec.Accuracy
import Verif.Lemmas.Reference
import Mathlib.LinearAlgebra.FiniteDimensional.Basic

set_option linter.unusedSectionVars false

/-! The discrete maximum principle for the reference form of the pressure equation. -/

namespace OpenMps.Ref

variable {D : Nat} {S : Setting D} {s : Scene D}

theorem mem_nearSolid {x : ℕ → Fin D → ℝ} {i j : ℕ} : j ∈ S.nearSolid x i ↔ j ∈ S.near x i ∧ S.ty j ≠ .dummy := by
  unfold Setting.nearSolid; rw [Finset.mem_filter]

theorem mem_near_ref {x : ℕ → Fin D → ℝ} {i j : ℕ} : j ∈ S.near x i ↔ j < S.n ∧ j ≠ i ∧ S.ty j ≠ .disabled ∧
    len (S.start j - S.start i) < S.env.neighborLength ∧ len (x j - x i) < S.env.re := by
  unfold Setting.near; rw [Finset.mem_filter, Finset.mem_range]

theorem len_pos_of_ne {v w : Fin D → ℝ} (h : v ≠ w) : 0 < len (v - w) := by
  rw [len_sub]; exact dist_pos' h

theorem laplace_pos (hD : 0 < D ∧ D < 5) (he : S.env.Positive) {r : ℝ} (h0 : 0 < r) (h1 : r < S.env.re) : 0 < S.laplace r := by
  obtain ⟨hre, hn0, hl⟩ := he
  have hD1 : (0 : ℝ) < D := by exact_mod_cast hD.1
  have hD5 : (0 : ℝ) < 5 - D := by
    have : (D : ℝ) < 5 := by exact_mod_cast hD.2
    linarith
  unfold Setting.laplace
  split
  · positivity
  · unfold weight
    rw [if_pos ⟨h0, h1⟩]
    have : 0 < S.env.re / r - 1 := by
      rw [sub_pos, lt_div_iff₀ h0]; linarith
    positivity

theorem len_virtual (he : S.env.Positive) {i : ℕ} (h : S.HasVirtual s.x i) : 0 < len (S.virtual s.x i) ∧ len (S.virtual s.x i) < S.env.re := by
  obtain ⟨-, h1, h2⟩ := h
  have ho : 0 < len (S.offset s.x i) := lt_trans (by positivity) h2
  have hw : 1 < S.env.n0 - S.density s.x i + 1 := by linarith
  have hre := he.re
  have e : len (S.virtual s.x i) = S.env.re / (S.env.n0 - S.density s.x i + 1) := by
    unfold Setting.virtual
    set c := S.env.re / (S.env.n0 - S.density s.x i + 1) / len (S.offset s.x i) with hc
    have hcp : 0 < c := by positivity
    have e1 : len (-(c • S.offset s.x i)) = c * len (S.offset s.x i) := by
      unfold len
      have : ∑ a, (-(c • S.offset s.x i)) a ^ 2 = c ^ 2 * ∑ a, S.offset s.x i a ^ 2 := by
        rw [Finset.mul_sum]
        apply Finset.sum_congr rfl
        intro a _
        change (-(c * S.offset s.x i a)) ^ 2 = _
        ring
      rw [this, Real.sqrt_mul (sq_nonneg _), Real.sqrt_sq hcp.le]
    rw [e1, hc]
    field_simp
  rw [e]
  refine ⟨by positivity, ?_⟩
  rw [div_lt_iff₀ (by linarith)]
  nlinarith

theorem near_coef (hD : 0 < D ∧ D < 5) (he : S.env.Positive) (ha : S.Distinct s) {i j : ℕ} (hi : S.Equation s i) (hj : j ∈ S.nearSolid s.x i) :
    0 < S.laplace (len (s.x j - s.x i)) := by
  obtain ⟨h1, h2, h3, -, h5⟩ := mem_near_ref.mp (mem_nearSolid.mp hj).1
  exact laplace_pos hD he (len_pos_of_ne (ha j i h1 hi.1 h2 h3 hi.2.1.2)) h5

/-- Near particles that are not at the surface have an equation too, and the relation is symmetric. -/
theorem joined_of_near {i j : ℕ} (hi : S.Equation s i) (hj : j ∈ S.nearSolid s.x i) (hs : ¬ S.Surface s.dens j) :
    S.Joined s i j ∧ S.Joined s j i := by
  obtain ⟨hn, hd⟩ := mem_nearSolid.mp hj
  obtain ⟨h1, h2, h3, h4, h5⟩ := mem_near_ref.mp hn
  have hE : S.Equation s j := ⟨h1, ⟨hd, h3⟩, hs⟩
  refine ⟨⟨hi, hE, hj⟩, hE, hi, mem_nearSolid.mpr ⟨mem_near_ref.mpr ⟨hi.1, h2.symm, hi.2.1.2, ?_, ?_⟩, hi.2.1.1⟩⟩
  · rw [len_sub_comm]; exact h4
  · rw [len_sub_comm]; exact h5

theorem wet_of_joined {i j : ℕ} (h : S.Joined s j i) (hi : S.Wet s i) : S.Wet s j := by
  obtain ⟨k, h1, h2, h3, h4⟩ := hi
  exact ⟨k, Relation.ReflTransGen.head h h1, h.1, h3, h4⟩

theorem Setting.Wet.eqn {i : ℕ} (h : S.Wet s i) : S.Equation s i := h.choose_spec.2.1

/-- The Laplacian is linear. -/
theorem laplacian_comb (y z : ℕ → ℝ) (a b : ℝ) (i : ℕ) :
    S.laplacian s (fun k => a * y k + b * z k) i = a * S.laplacian s y i + b * S.laplacian s z i := by
  classical
  unfold Setting.laplacian
  have h1 : ∑ j ∈ S.nearSolid s.x i, S.laplace (len (s.x j - s.x i)) * ((if S.Surface s.dens j then 0 else a * y j + b * z j) - (a * y i + b * z i))
      = a * ∑ j ∈ S.nearSolid s.x i, S.laplace (len (s.x j - s.x i)) * ((if S.Surface s.dens j then 0 else y j) - y i)
        + b * ∑ j ∈ S.nearSolid s.x i, S.laplace (len (s.x j - s.x i)) * ((if S.Surface s.dens j then 0 else z j) - z i) := by
    rw [Finset.mul_sum, Finset.mul_sum, ← Finset.sum_add_distrib]
    apply Finset.sum_congr rfl
    intro j _
    split <;> ring
  rw [h1]
  split <;> ring

/-- **Minimum principle.**  If the Laplacian is not positive in the wet bodies, the pressure is not negative there. -/
theorem minimum_principle (hD : 0 < D ∧ D < 5) (he : S.env.Positive) (ha : S.Distinct s) {v : ℕ → ℝ} (h : ∀ i, S.Wet s i → S.laplacian s v i ≤ 0) :
    ∀ i, S.Wet s i → 0 ≤ v i := by
  classical
  intro i0 hi0
  by_contra hneg
  push Not at hneg
  set C := (Finset.range S.n).filter (fun i => S.Wet s i) with hC
  have hmem : ∀ {i}, i ∈ C ↔ S.Wet s i := by
    intro i
    rw [hC, Finset.mem_filter, Finset.mem_range]
    exact ⟨fun k => k.2, fun k => ⟨k.eqn.1, k⟩⟩
  obtain ⟨i1, hi1, hmin⟩ := C.exists_min_image v ⟨i0, hmem.mpr hi0⟩
  have hm : v i1 < 0 := lt_of_le_of_lt (hmin i0 (hmem.mpr hi0)) hneg
  -- a minimum is shared by all joined particles and is not at the surface
  have key : ∀ i, S.Wet s i → v i = v i1 → ¬ S.Touches s i ∧ ∀ j, S.Joined s i j → v j = v i1 := by
    intro i hw hv
    have hE := hw.eqn
    have hL := h i hw
    unfold Setting.laplacian at hL
    have hterm : ∀ j ∈ S.nearSolid s.x i, 0 ≤ S.laplace (len (s.x j - s.x i)) * ((if S.Surface s.dens j then 0 else v j) - v i) := by
      intro j hj
      have hc := near_coef hD he ha hE hj
      apply mul_nonneg hc.le
      split
      · linarith
      · rename_i hs
        have := hmin j (hmem.mpr (wet_of_joined (joined_of_near hE hj hs).2 hw))
        linarith
    have hsum := Finset.sum_nonneg hterm
    have hvirt : S.HasVirtual s.x i → 0 < S.laplace (len (S.virtual s.x i)) * (0 - v i) := by
      intro hV
      obtain ⟨a, b⟩ := len_virtual he hV
      exact mul_pos (laplace_pos hD he a b) (by linarith)
    have hnV : ¬ S.HasVirtual s.x i := by
      intro hV
      rw [if_pos hV] at hL
      have := hvirt hV
      linarith
    rw [if_neg hnV, add_zero] at hL
    have hz := (Finset.sum_eq_zero_iff_of_nonneg hterm).mp (le_antisymm hL hsum)
    refine ⟨?_, ?_⟩
    · rintro (hV | ⟨k, hk, hk2⟩)
      · exact hnV hV
      · have := hz k hk
        rw [if_pos hk2] at this
        have hc := near_coef hD he ha hE hk
        rcases mul_eq_zero.mp this with e | e
        · linarith
        · linarith
    · intro j hj
      have := hz j hj.2.2
      rw [if_neg hj.2.1.2.2] at this
      have hc := near_coef hD he ha hE hj.2.2
      rcases mul_eq_zero.mp this with e | e
      · linarith
      · linarith
  obtain ⟨k, hp, hE1, hEk, hT⟩ := hmem.mp hi1
  have hkey : ∀ k, Relation.ReflTransGen (S.Joined s) i1 k → S.Wet s k ∧ v k = v i1 := by
    intro k hp
    induction hp with
    | refl => exact ⟨hmem.mp hi1, rfl⟩
    | tail _ hl ih =>
      obtain ⟨hw, hv⟩ := ih
      exact ⟨wet_of_joined (joined_of_near hl.1 hl.2.2 hl.2.1.2.2).2 hw, (key _ hw hv).2 _ hl⟩
  obtain ⟨hw, hv⟩ := hkey k hp
  exact (key k hw hv).1 hT

/-- **Comparison.** -/
theorem comparison (hD : 0 < D ∧ D < 5) (he : S.env.Positive) (ha : S.Distinct s) {y z : ℕ → ℝ}
    (h : ∀ i, S.Wet s i → S.laplacian s y i ≤ S.laplacian s z i) (i : ℕ) (hi : S.Wet s i) : z i ≤ y i := by
  have := minimum_principle hD he ha (v := fun k => 1 * y k + (-1) * z k) (fun k hk => by
    rw [laplacian_comb]
    have := h k hk
    linarith) i hi
  linarith

theorem laplacian_congr_near {y z : ℕ → ℝ} {i : ℕ} (hi : y i = z i) (h : ∀ j ∈ S.nearSolid s.x i, y j = z j) : S.laplacian s y i = S.laplacian s z i := by
  unfold Setting.laplacian
  rw [hi]
  congr 1
  exact Finset.sum_congr rfl (fun j hj => by rw [h j hj])

/-- Solvability for arbitrary right-hand sides on the wet particles. -/
theorem wet_solvable (hD : 0 < D ∧ D < 5) (he : S.env.Positive) (ha : S.Distinct s) (f : ℕ → ℝ) :
    ∃ y : ℕ → ℝ, (∀ i, S.Wet s i → S.laplacian s y i = f i) ∧ ∀ i, ¬ S.Wet s i → y i = 0 := by
  classical
  let ext : (Fin S.n → ℝ) → ℕ → ℝ := fun v i => if h : i < S.n then v ⟨i, h⟩ else 0
  have hext : ∀ (a b : ℝ) (v w : Fin S.n → ℝ), ext (a • v + b • w) = fun k => a * ext v k + b * ext w k := by
    intro a b v w
    funext k
    simp only [ext]
    split <;> simp
  let T : (Fin S.n → ℝ) →ₗ[ℝ] (Fin S.n → ℝ) :=
    { toFun := fun v i => if S.Wet s i then S.laplacian s (ext v) i else v i
      map_add' := by
        intro v w
        funext i
        have e := hext 1 1 v w
        rw [one_smul, one_smul] at e
        simp only [Pi.add_apply]
        split
        · rw [e, laplacian_comb]; ring
        · rfl
      map_smul' := by
        intro c v
        funext i
        have e := hext c 0 v 0
        rw [zero_smul, add_zero] at e
        simp only [Pi.smul_apply, smul_eq_mul, RingHom.id_apply]
        split
        · rw [e, laplacian_comb]; ring
        · rfl }
  have hinj : Function.Injective T := by
    rw [← LinearMap.ker_eq_bot, LinearMap.ker_eq_bot']
    intro v hv
    have hv' : ∀ i : Fin S.n, (if S.Wet s i then S.laplacian s (ext v) i else v i) = 0 := fun i => congrFun hv i
    have hz : ∀ i, S.laplacian s (fun _ => (0 : ℝ)) i = 0 := by
      intro i
      have := laplacian_comb (S := S) (s := s) (fun _ => (0 : ℝ)) (fun _ => 0) 0 0 i
      simpa using this
    have hL : ∀ i, S.Wet s i → S.laplacian s (ext v) i = 0 := by
      intro i hi
      have := hv' ⟨i, hi.eqn.1⟩
      rwa [if_pos hi] at this
    funext i
    by_cases hw : S.Wet s i
    · have h1 := comparison hD he ha (y := ext v) (z := fun _ => 0) (fun k hk => by rw [hL k hk, hz]) i hw
      have h2 := comparison hD he ha (y := fun _ => 0) (z := ext v) (fun k hk => by rw [hL k hk, hz]) i hw
      have e : ext v i = v i := by simp [ext]
      rw [e] at h1 h2
      exact le_antisymm h2 h1
    · have := hv' i
      rwa [if_neg hw] at this
  obtain ⟨v, hv⟩ := (LinearMap.injective_iff_surjective.mp hinj) (fun i => if S.Wet s i then f i else 0)
  have hv' : ∀ i : Fin S.n, (if S.Wet s i then S.laplacian s (ext v) i else v i) = if S.Wet s i then f i else 0 := fun i => congrFun hv i
  refine ⟨ext v, ?_, ?_⟩
  · intro i hi
    have := hv' ⟨i, hi.eqn.1⟩
    rwa [if_pos hi, if_pos hi] at this
  · intro i hi
    by_cases hn : i < S.n
    · have := hv' ⟨i, hn⟩
      rw [if_neg hi, if_neg hi] at this
      simpa [ext, hn] using this
    · simp [ext, hn]

theorem near_lone {i : ℕ} (h : S.Lone i) (x : ℕ → Fin D → ℝ) : S.near x i = ∅ := by
  ext j
  rw [mem_near_ref]
  constructor
  · rintro ⟨h1, h2, h3, h4, -⟩
    exact absurd h4 (not_lt.mpr (h.2 j h1 h2 h3))
  · intro k; cases k

theorem nearSolid_lone {i : ℕ} (h : S.Lone i) (x : ℕ → Fin D → ℝ) : S.nearSolid x i = ∅ := by
  unfold Setting.nearSolid; rw [near_lone h, Finset.filter_empty]

theorem virtual_lone {i : ℕ} (h : S.Lone i) (x : ℕ → Fin D → ℝ) : ¬ S.HasVirtual x i := by
  rintro ⟨-, -, h2⟩
  unfold Setting.offset at h2
  rw [near_lone h, Finset.sum_empty, smul_zero] at h2
  have : len (0 : Fin D → ℝ) = 0 := by unfold len; simp
  rw [this] at h2
  exact absurd h2 (not_lt.mpr (by positivity))

theorem laplacian_lone {i : ℕ} (h : S.Lone i) (y : ℕ → ℝ) : S.laplacian s y i = 0 := by
  unfold Setting.laplacian
  rw [nearSolid_lone h, Finset.sum_empty, if_neg (virtual_lone h _), add_zero]

theorem reported_lone {i : ℕ} (hn0 : 0 < S.env.n0) (h : S.Lone i) (hA : S.Active i) (x : ℕ → Fin D → ℝ) (old : ℕ → ℝ) : S.reported x old i = S.env.n0 := by
  unfold Setting.reported Setting.density
  rw [if_pos hA, if_pos h.1, near_lone h, Finset.sum_empty, max_eq_right hn0.le]

theorem rate_lone {i : ℕ} (hn0 : 0 < S.env.n0) (h : S.Lone i) (x u : ℕ → Fin D → ℝ) (dens : ℕ → ℝ) (hd : dens i = S.env.n0) : S.rate x u dens i = 0 := by
  unfold Setting.rate Setting.density
  rw [near_lone h, Finset.sum_empty, hd, sub_self, zero_div]
  split
  · rw [if_pos ⟨h.1, hn0⟩]
  · rfl

/-- A single drop is not compressed. -/
theorem compression_lone {b : Scene D} {i : ℕ} (hn0 : 0 < S.env.n0) (h : S.Lone i) (hA : S.Active i) : S.compression b (S.predict b) i = 0 := by
  have h1 : S.rate (S.predict b).x (S.predict b).u (S.predict b).dens i = 0 := rate_lone hn0 h _ _ _ (reported_lone hn0 h hA _ _)
  have h2 : S.rate b.x b.u (S.reported b.x b.dens) i = 0 := rate_lone hn0 h _ _ _ (reported_lone hn0 h hA _ _)
  unfold Setting.compression Setting.compensation
  rw [h1, h2, reported_lone hn0 h hA]
  simp

theorem source_def {b : Scene D} {i : ℕ} (h : S.Equation s i) :
    S.source b s i = -(S.env.rho / (S.env.n0 * S.env.dt)) * S.compression b s i := by
  unfold Setting.source Setting.compression
  rw [if_pos h.2, neg_div]

theorem operator_def {i : ℕ} (h : S.Equation s i) (y : ℕ → ℝ) : S.operator s y i = S.laplacian s y i := if_pos h.2

/-- Particles without equation get the pressure zero. -/
theorem solves_none {b : Scene D} {p : ℕ → ℝ} (hp : S.Solves b s p) {i : ℕ} (hi : i < S.n) (h : ¬ S.Equation s i) : p i = 0 := by
  have hc : ¬ (S.Active i ∧ ¬ S.Surface s.dens i) := fun k => h ⟨hi, k⟩
  have := hp i hi
  unfold Setting.operator Setting.source at this
  rwa [if_neg hc, if_neg hc] at this

end OpenMps.Ref
