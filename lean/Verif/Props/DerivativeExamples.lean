import Verif.Props.Derivative
import Verif.Props.ConsistencyExamples

/-! # C59: examples on the patch of `Props/ConsistencyExamples.lean` -/

namespace OpenMps

open Ref

/-- Options without dynamic stabilisation, midpoint and SPP, with GC; tolerance 0. -/
noncomputable def cornerP : Params ℝ 2 Unit :=
  { cfg := { Config.default with ds := false, gc := true, midpoint := false, spp := false }, eps := 0
    walls := { pre := fun w _ _ => w, pos := fun _ _ _ _ => 0 } }

theorem patchX_diff (j k : ℕ) (a : Fin 2) : patchX j a - patchX k a = 1 / 10 * ((patchV j a - patchV k a : ℤ) : ℝ) := by
  unfold patchX; push_cast; ring

theorem patch_len (j k : ℕ) : len (patchX j - patchX k) ^ 2 = 1 / 100 * (((patchV j 0 - patchV k 0) ^ 2 + (patchV j 1 - patchV k 1) ^ 2 : ℤ) : ℝ) := by
  unfold len
  rw [Real.sq_sqrt (Finset.sum_nonneg (fun _ _ => sq_nonneg _)), Fin.sum_univ_two, Pi.sub_apply, Pi.sub_apply, patchX_diff, patchX_diff]
  push_cast; ring

/-- The hypotheses of the first theorem hold for every particle of the patch, with arbitrary velocities. -/
example (U u : ℕ → Vec ℝ 2) (old dens : ℕ → ℝ) {i : ℕ} (hi : i < 25) :
    HasDerivAt (fun t : ℝ => (setting cornerP (patchState U) (1 / 100)).reported (fun j => patchX j + t • u j) old i)
      ((setting cornerP (patchState U) (1 / 100)).rate patchX u dens i) 0 := by
  apply C59_rate_is_the_derivative_of_the_density (patchState U) (1 / 100) rfl old dens
  · unfold Setting.Active; rw [patch_ty _ _ _ hi]; exact ⟨by decide, by decide⟩
  · intro j hj hne _ _
    rw [patchState_n] at hj
    constructor
    · intro hc
      apply hne
      apply patchV_inj
      funext a
      have := patchX_diff j i a
      rw [hc, sub_self] at this
      have h2 : ((patchV j a - patchV i a : ℤ) : ℝ) = 0 := by linarith
      have h3 : patchV j a - patchV i a = 0 := by exact_mod_cast h2
      linarith
    · intro hc
      have h1 := patch_len j i
      rw [hc, show (patchState U).env.re = 24 / 100 from patchEnv_vals.1] at h1
      generalize hz : (patchV j 0 - patchV i 0) ^ 2 + (patchV j 1 - patchV i 1) ^ 2 = z at h1
      have h2 : (100 * z : ℤ) = (576 : ℤ) := by
        have : (100 * (z : ℝ)) = 576 := by linarith
        exact_mod_cast this
      omega
  · intro k; cases k

/-- The third theorem at the corner of the patch, where the neighbours are all on one side. -/
example : ∃ s', (patchState 0).forwardTime cornerP (Schedule.serial 25) (1 / 100) = .ok s' ∧
    (s'.ps 0).u = ((setting cornerP (patchState 0) (1 / 100)).predict (scene (patchState 0))).u 0 -
      (1 / 100 * (s'.ps 0).n / (1000 * patchEnv.n0) : ℝ) • ![100, 0] := by
  obtain ⟨s', h⟩ := patch_step_any (P := cornerP) rfl rfl (1 / 100)
  have hL : 0 < patchEnv.neighborLength := by rw [patchEnv_vals.2.1]; norm_num
  have hv : (Schedule.serial 25).Valid (patchState 0).n := by rw [patchState_n]; exact Schedule.serial_valid 25
  have hsc := patch_step_scene (P := cornerP) rfl rfl rfl h
  set S := setting cornerP (patchState 0) (1 / 100) with hS
  have hn : S.n = 25 := patchState_n 0
  set x := (S.predict (scene (patchState 0))).x with hx
  have hd : ∀ j k, j < 25 → k < 25 → x j - x k = patchX j - patchX k := by
    intro j k hj hk
    rw [hx, (hsc j hj).2.2, (hsc k hk).2.2]
    abel
  have hnear : ∀ j, j < 25 → j ≠ 0 → len (patchX j - patchX 0) ^ 2 ≤ 1 / 100 → j ∈ S.near x 0 := by
    intro j hj hne hle
    have h0 : (0 : ℝ) ≤ len (patchX j - patchX 0) := Real.sqrt_nonneg _
    have h1 : len (patchX j - patchX 0) ≤ 1 / 10 := by nlinarith
    rw [mem_near_ref]
    refine ⟨by rw [hn]; exact hj, hne, by rw [patch_ty _ _ _ hj]; decide, ?_, ?_⟩
    · change len (((patchState 0).ps j).x - ((patchState 0).ps 0).x) < patchEnv.neighborLength
      rw [patchState_ps 0 hj, patchState_ps 0 (by norm_num), patchEnv_vals.2.1]
      exact lt_of_le_of_lt h1 (by norm_num)
    · rw [hd j 0 hj (by norm_num)]
      change _ < patchEnv.re
      rw [patchEnv_vals.1]
      exact lt_of_le_of_lt h1 (by norm_num)
  refine ⟨s', h, ?_⟩
  have key := (C59_gc_is_exact_on_linear_pressure (P := cornerP) (Or.inl rfl) (by rw [patchEnv_vals.1]; norm_num) patchNew_eq (patchState_hist _ 0) patchNew_ok hL rfl rfl
    (Schedule.serial 25) hv (1 / 100) h (i := 0) (by rw [patchState_n]; norm_num) (hsc 0 (by norm_num)).1 (g := ![100, 0])
    (by
      intro j hj
      have hj25 : j < 25 := by have := near_lt hj; rw [hn] at this; exact this
      refine ⟨by rw [patch_ty _ _ _ hj25]; decide, ?_⟩
      rw [(hsc j hj25).2.1, (hsc 0 (by norm_num)).2.1]
      change _ = _ + prod ![100, 0] (x j - x 0)
      rw [hd j 0 hj25 (by norm_num)]
      unfold prod
      rw [Fin.sum_univ_two]
      simp
      ring)
    (by rintro ⟨k, -⟩; cases k)
    (by
      intro v hv
      have e1 : prod v (x 1 - x 0) = 0 := hv 1 (hnear 1 (by norm_num) (by norm_num) (by
        rw [patch_len]; simp [patchV]))
      have e5 : prod v (x 5 - x 0) = 0 := hv 5 (hnear 5 (by norm_num) (by norm_num) (by
        rw [patch_len]; simp [patchV]))
      rw [hd 1 0 (by norm_num) (by norm_num)] at e1
      rw [hd 5 0 (by norm_num) (by norm_num)] at e5
      unfold prod at e1 e5
      rw [Fin.sum_univ_two, Pi.sub_apply, Pi.sub_apply, patchX_diff, patchX_diff] at e1 e5
      simp [patchV] at e1 e5
      funext a
      fin_cases a
      · exact e1
      · exact e5)
    (by intro hc; cases hc)).1
  exact key

end OpenMps
