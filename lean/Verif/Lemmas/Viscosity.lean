import Verif.Lemmas.Motion

/-! # Viscosity averages velocities -/

namespace OpenMps.Ref

variable {D : Nat} {S : Setting D}

theorem len_sq_sum (v : Fin D → ℝ) : len v ^ 2 = ∑ a, v a ^ 2 := by
  unfold len
  exact Real.sq_sqrt (Finset.sum_nonneg fun a _ => sq_nonneg _)

theorem weight_nonneg {re r : ℝ} : 0 ≤ weight re r := by
  unfold weight
  split
  · rename_i h
    rw [sub_nonneg, le_div_iff₀ h.1]; linarith [h.2]
  · exact le_refl _

theorem laplace_nonneg (hD : D = 2 ∨ D = 3) (hre : 0 ≤ S.env.re) (hn0 : 0 < S.env.n0) (hl : 0 ≤ S.env.lambda) {r : ℝ} (hr : 0 ≤ r) : 0 ≤ S.laplace r := by
  have hd : (D : ℝ) ≤ 5 := by rcases hD with rfl | rfl <;> norm_num
  unfold Setting.laplace
  split
  · have : (0 : ℝ) ≤ 5 - D := by linarith
    positivity
  · have := weight_nonneg (re := S.env.re) (r := r)
    positivity

theorem nearSolid_symm {x : ℕ → Fin D → ℝ} {i j : ℕ} (hi : i < S.n) (ha : S.Active i) (h : j ∈ S.nearSolid x i) : i ∈ S.nearSolid x j ∧ S.Active j ∧ j < S.n ∧ j ≠ i := by
  unfold Setting.nearSolid Setting.near at h ⊢
  simp only [Finset.mem_filter, Finset.mem_range] at h ⊢
  obtain ⟨⟨h1, h2, h3, h4, h5⟩, h6⟩ := h
  refine ⟨⟨⟨hi, Ne.symm h2, ha.2, ?_, ?_⟩, ha.1⟩, ⟨h6, h3⟩, h1, h2⟩
  · rw [len_sub_comm]; exact h4
  · rw [len_sub_comm]; exact h5

/-- Velocity after the viscous exchange alone. -/
noncomputable def exchanged (S : Setting D) (b : Scene D) (i : ℕ) : Fin D → ℝ :=
  b.u i + S.env.dt • (S.env.nu • ∑ j ∈ S.nearSolid b.x i, S.laplace (len (b.x j - b.x i)) • (b.u j - b.u i))

/-- Share of the velocity of particle `j` in the new velocity of particle `i`. -/
noncomputable def share (S : Setting D) (b : Scene D) (i j : ℕ) : ℝ := S.env.dt * S.env.nu * S.laplace (len (b.x j - b.x i))

theorem share_symm (b : Scene D) (i j : ℕ) : share S b i j = share S b j i := by unfold share; rw [len_sub_comm]

theorem exchanged_mean {b : Scene D} (i : ℕ) (a : Fin D) : exchanged S b i a =
    (1 - ∑ j ∈ S.nearSolid b.x i, share S b i j) * b.u i a + ∑ j ∈ S.nearSolid b.x i, share S b i j * b.u j a := by
  unfold exchanged share
  simp only [Pi.add_apply, Pi.smul_apply, Finset.sum_apply, smul_eq_mul, Pi.sub_apply]
  rw [sub_mul, one_mul, Finset.sum_mul, Finset.mul_sum, Finset.mul_sum]
  rw [sub_add, ← Finset.sum_sub_distrib, sub_eq_add_neg, ← Finset.sum_neg_distrib]
  congr 1
  exact Finset.sum_congr rfl fun j _ => by ring

theorem sq_mean {ι : Type} (t : Finset ι) (w f : ι → ℝ) (hw : ∀ j ∈ t, 0 ≤ w j) (hs : ∑ j ∈ t, w j ≤ 1) (c : ℝ) :
    ((1 - ∑ j ∈ t, w j) * c + ∑ j ∈ t, w j * f j) ^ 2 ≤ (1 - ∑ j ∈ t, w j) * c ^ 2 + ∑ j ∈ t, w j * f j ^ 2 := by
  set m := (1 - ∑ j ∈ t, w j) * c + ∑ j ∈ t, w j * f j with hm
  have h1 : 0 ≤ (1 - ∑ j ∈ t, w j) * (c - m) ^ 2 := mul_nonneg (by linarith) (sq_nonneg _)
  have h2 : 0 ≤ ∑ j ∈ t, w j * (f j - m) ^ 2 := Finset.sum_nonneg fun j hj => mul_nonneg (hw j hj) (sq_nonneg _)
  have e : ∑ j ∈ t, w j * (f j - m) ^ 2 = ∑ j ∈ t, w j * f j ^ 2 - 2 * m * ∑ j ∈ t, w j * f j + m ^ 2 * ∑ j ∈ t, w j := by
    rw [Finset.mul_sum, Finset.mul_sum, ← Finset.sum_sub_distrib, ← Finset.sum_add_distrib]
    exact Finset.sum_congr rfl fun j _ => by ring
  rw [e] at h2
  nlinarith

theorem exchanged_sq {b : Scene D} {i : ℕ} (hnn : ∀ j ∈ S.nearSolid b.x i, 0 ≤ share S b i j) (hs : ∑ j ∈ S.nearSolid b.x i, share S b i j ≤ 1) :
    len (exchanged S b i) ^ 2 ≤ (1 - ∑ j ∈ S.nearSolid b.x i, share S b i j) * len (b.u i) ^ 2 +
      ∑ j ∈ S.nearSolid b.x i, share S b i j * len (b.u j) ^ 2 := by
  simp only [len_sq_sum]
  rw [Finset.mul_sum]
  simp only [Finset.mul_sum]
  rw [Finset.sum_comm, ← Finset.sum_add_distrib]
  refine Finset.sum_le_sum fun a _ => ?_
  rw [exchanged_mean]
  exact sq_mean _ _ _ hnn hs _

/-- No particle gets faster than the fastest of those that exchange momentum. -/
theorem exchanged_le {b : Scene D} {i : ℕ} (hnn : ∀ j ∈ S.nearSolid b.x i, 0 ≤ share S b i j) (hs : ∑ j ∈ S.nearSolid b.x i, share S b i j ≤ 1)
    {V : ℝ} (hi : len (b.u i) ≤ V) (hj : ∀ j ∈ S.nearSolid b.x i, len (b.u j) ≤ V) : len (exchanged S b i) ≤ V := by
  have h0 : ∀ v : Fin D → ℝ, 0 ≤ len v := fun v => Real.sqrt_nonneg _
  have hV : 0 ≤ V := (h0 _).trans hi
  refine abs_le_of_sq_le_sq' ?_ hV |>.2
  refine (exchanged_sq hnn hs).trans ?_
  have h1 : (1 - ∑ j ∈ S.nearSolid b.x i, share S b i j) * len (b.u i) ^ 2 ≤ (1 - ∑ j ∈ S.nearSolid b.x i, share S b i j) * V ^ 2 :=
    mul_le_mul_of_nonneg_left (pow_le_pow_left₀ (h0 _) hi 2) (by linarith)
  have h2 : ∑ j ∈ S.nearSolid b.x i, share S b i j * len (b.u j) ^ 2 ≤ ∑ j ∈ S.nearSolid b.x i, share S b i j * V ^ 2 :=
    Finset.sum_le_sum fun j hj' => mul_le_mul_of_nonneg_left (pow_le_pow_left₀ (h0 _) (hj j hj') 2) (hnn j hj')
  rw [← Finset.sum_mul] at h2
  nlinarith

open Classical in
/-- The exchange does not increase the kinetic energy of the fluid if all other particles are at rest. -/
theorem exchanged_energy {b : Scene D}
    (hnn : ∀ i j, 0 ≤ share S b i j) (hs : ∀ i, i < S.n → S.Fluid i → ∑ j ∈ S.nearSolid b.x i, share S b i j ≤ 1)
    (hrest : ∀ j, j < S.n → S.Active j → ¬ S.Fluid j → b.u j = 0) :
    ∑ i ∈ (Finset.range S.n).filter (fun i => S.Fluid i), len (exchanged S b i) ^ 2 ≤
      ∑ i ∈ (Finset.range S.n).filter (fun i => S.Fluid i), len (b.u i) ^ 2 := by
  set Fl := (Finset.range S.n).filter (fun i => S.Fluid i) with hFl
  have hmem : ∀ {i}, i ∈ Fl ↔ i < S.n ∧ S.Fluid i := by intro i; rw [hFl, Finset.mem_filter, Finset.mem_range]
  have hact : ∀ {i}, S.Fluid i → S.Active i := by
    intro i h; unfold Setting.Fluid at h; unfold Setting.Active; rw [h]; exact ⟨by decide, by decide⟩
  have h1 : ∑ i ∈ Fl, len (exchanged S b i) ^ 2 ≤ ∑ i ∈ Fl, ((1 - ∑ j ∈ S.nearSolid b.x i, share S b i j) * len (b.u i) ^ 2 +
      ∑ j ∈ S.nearSolid b.x i, share S b i j * len (b.u j) ^ 2) :=
    Finset.sum_le_sum fun i hi => exchanged_sq (fun j _ => hnn i j) (hs i (hmem.1 hi).1 (hmem.1 hi).2)
  -- only fluid partners contribute
  have h2 : ∀ i ∈ Fl, ∑ j ∈ S.nearSolid b.x i, share S b i j * len (b.u j) ^ 2 =
      ∑ j ∈ Fl, if j ∈ S.nearSolid b.x i then share S b i j * len (b.u j) ^ 2 else 0 := by
    intro i hi
    obtain ⟨hi1, hi2⟩ := hmem.1 hi
    rw [← Finset.sum_filter]
    symm
    apply Finset.sum_subset_zero_on_sdiff
    · intro j hj; exact (Finset.mem_filter.1 hj).2
    · intro j hj
      obtain ⟨hj1, hj2⟩ := Finset.mem_sdiff.1 hj
      obtain ⟨-, k1, k2, -⟩ := nearSolid_symm hi1 (hact hi2) hj1
      have hnf : ¬ S.Fluid j := fun hf => hj2 (Finset.mem_filter.2 ⟨hmem.2 ⟨k2, hf⟩, hj1⟩)
      rw [hrest j k2 k1 hnf, len_sq_sum]
      simp
    · intro j _; rfl
  have h3 : ∑ i ∈ Fl, ∑ j ∈ S.nearSolid b.x i, share S b i j * len (b.u j) ^ 2 ≤
      ∑ j ∈ Fl, (∑ i ∈ S.nearSolid b.x j, share S b j i) * len (b.u j) ^ 2 := by
    rw [Finset.sum_congr rfl h2, Finset.sum_comm]
    refine Finset.sum_le_sum fun j hj => ?_
    obtain ⟨hj1, hj2⟩ := hmem.1 hj
    rw [← Finset.sum_filter, Finset.sum_mul]
    have e : ∀ i ∈ Fl.filter (fun i => j ∈ S.nearSolid b.x i), share S b i j * len (b.u j) ^ 2 = share S b j i * len (b.u j) ^ 2 :=
      fun i _ => by rw [share_symm]
    rw [Finset.sum_congr rfl e]
    refine Finset.sum_le_sum_of_subset_of_nonneg ?_ (fun i _ _ => mul_nonneg (hnn j i) (sq_nonneg _))
    intro i hi
    obtain ⟨k1, k2⟩ := Finset.mem_filter.1 hi
    exact (nearSolid_symm (hmem.1 k1).1 (hact (hmem.1 k1).2) k2).1
  refine h1.trans ?_
  rw [Finset.sum_add_distrib]
  calc _ ≤ ∑ i ∈ Fl, (1 - ∑ j ∈ S.nearSolid b.x i, share S b i j) * len (b.u i) ^ 2 +
        ∑ j ∈ Fl, (∑ i ∈ S.nearSolid b.x j, share S b j i) * len (b.u j) ^ 2 := by gcongr
    _ = ∑ i ∈ Fl, len (b.u i) ^ 2 := by
      rw [← Finset.sum_add_distrib]
      exact Finset.sum_congr rfl fun i _ => by ring

end OpenMps.Ref
