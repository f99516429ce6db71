import Verif.Props.Body
import Verif.Props.DerivativeExamples

/-! # C60: a block of 25 particles thrown into the air -/

namespace OpenMps

open Ref

/-- The block, without pressure. -/
noncomputable def flyState (U : Vec ℝ 2) : State ℝ 2 Unit :=
  patchNew.addParticles ((List.range 25).map (fun k => { x := patchX k, u := U, p := 0, n := 0, ty := .incompressibleNewton }))

/-- Default options. -/
noncomputable def flyP : Params ℝ 2 Unit :=
  { cfg := Config.default, eps := 1 / 10 ^ 6, walls := { pre := fun w _ _ => w, pos := fun _ _ _ _ => 0 } }

theorem flyState_hist (U : Vec ℝ 2) : Hist flyP patchNew [] (flyState U) := .add _ .start

theorem flyState_n (U : Vec ℝ 2) : (flyState U).n = 25 := by
  unfold flyState State.addParticles patchNew
  simp

theorem flyState_ps (U : Vec ℝ 2) {k : ℕ} (h : k < 25) : (flyState U).ps k = { x := patchX k, u := U, p := 0, n := 0, ty := .incompressibleNewton } := by
  unfold flyState State.addParticles patchNew
  simp [h]

theorem fly_spaced (U : Vec ℝ 2) : ∀ i j, i < j → j < (flyState U).n → ((flyState U).ps i).ty ≠ .disabled →
    ((flyState U).ps j).ty ≠ .disabled → ∃ a, patchEnv.l0 ≤ |((flyState U).ps i).x a - ((flyState U).ps j).x a| := by
  intro i j hij hj _ _
  rw [flyState_n] at hj
  have := patch_spaced 0 i j hij (by rw [patchState_n]; exact hj) (by rw [patchState_ps 0 (by omega)]; exact PType.noConfusion) (by rw [patchState_ps 0 hj]; exact PType.noConfusion)
  rw [patchState_ps 0 hj, patchState_ps 0 (by omega)] at this
  rw [flyState_ps U hj, flyState_ps U (by omega)]
  exact this

theorem fly_hyps : 0 < patchEnv.neighborLength ∧ 0 ≤ patchEnv.re ∧ 0 < patchEnv.n0 := by
  refine ⟨by rw [patchEnv_vals.2.1]; norm_num, by rw [patchEnv_vals.1]; norm_num, ?_⟩
  exact (C28_n0_positive_iff patchEnv_eq (by change (0 : ℝ) < 1 / 10; norm_num) (by norm_num)).1.mpr (by change (1 : ℝ) < 24 / 10; norm_num)

/-- The hypotheses of both theorems: the step succeeds, and the block has the velocity `U + dt G` everywhere. -/
example (U : Vec ℝ 2) : ∃ s', (flyState U).forwardTime flyP (Schedule.serial 25) (1 / 100) = .ok s' ∧
    ∀ i, i < 25 → (s'.ps i).ty ≠ .disabled → (s'.ps i).u = U + (1 / 100 : ℝ) • patchEnv.g ∧ (s'.ps i).p = 0 := by
  obtain ⟨hL, hre, hn0⟩ := fly_hyps
  have hv : (Schedule.serial 25).Valid (flyState U).n := by rw [flyState_n]; exact Schedule.serial_valid 25
  have hns := C60_scene_in_uniform_motion_is_solved (P := flyP) (Or.inl rfl) patchNew_eq (flyState_hist U) patchNew_ok hL hre hn0 rfl ⟨rfl, rfl⟩
    (Schedule.serial 25) hv (dt := 1 / 100) (by norm_num) (U := U)
    (fun i hi _ => by rw [flyState_n] at hi; rw [flyState_ps U hi])
    (fun i hi _ _ => by rw [flyState_n] at hi; rw [flyState_ps U hi])
    (fun i hi _ hf => by rw [flyState_n] at hi; rw [flyState_ps U hi] at hf; exact absurd rfl hf)
  obtain ⟨h1, h2, h3, h4⟩ := C42_outcome (P := flyP) (Or.inl rfl) patchNew_eq (flyState_hist U) patchNew_ok hL hre (Schedule.serial 25) hv (1 / 100)
  have hcr : ¬ Crowded (flyState U) := by
    intro hc
    obtain ⟨s', h⟩ := h1.mpr hc
    exact C06_step_never_overflows patchNew_eq (flyState_hist U) patchNew_ok (by rw [patchEnv_vals.2.2.1]; norm_num) hL (fly_spaced U) _ hv _ s' h
  have hok : ∃ s', (flyState U).forwardTime flyP (Schedule.serial 25) (1 / 100) = .ok s' := by
    rw [h3]
    refine ⟨hcr, ?_⟩
    cases hs : (setting flyP (flyState U) (1 / 100)).step flyP.eps (scene (flyState U)) with
    | none => exact absurd (h2.mpr ⟨hcr, hs⟩) hns
    | some a => exact ⟨a, rfl⟩
  obtain ⟨s', h⟩ := hok
  have hty : ∀ i, i < 25 → (s'.ps i).ty ≠ .disabled → (s'.ps i).ty = .incompressibleNewton := by
    intro i hi hd
    rcases (step_frame hv (Or.inl h)).2.2.2.2 i with q | ⟨-, -, q, -⟩
    · rw [q, flyState_ps U hi]
    · exact absurd q hd
  refine ⟨s', h, fun i hi hd => ?_⟩
  have key := C60_pressureless_body_keeps_its_shape (P := flyP) (Or.inl rfl) patchNew_eq patchNew_ok hL hre hn0 (by change (0 : ℝ) ≤ 1000; norm_num) rfl
    (fun k => if k = 0 then flyState U else s') (flyState_hist U) (fun _ => Schedule.serial 25) (fun _ => hv) (dt := 1 / 100) (by norm_num) 1
    (fun k hk => by have : k = 0 := by omega
                    subst this; exact h)
    (fun _ => True) U
    (fun i hi _ _ => by
      change i < (flyState U).n at hi
      rw [flyState_n] at hi
      change ((flyState U).ps i).u = U
      rw [flyState_ps U hi])
    (fun i hi _ _ _ => by
      change i < (flyState U).n at hi
      rw [flyState_n] at hi
      change ((flyState U).ps i).p = 0
      rw [flyState_ps U hi])
    (fun _ i j hi hj _ _ hne _ _ _ => by
      change i < (flyState U).n at hi
      change j < (flyState U).n at hj
      rw [flyState_n] at hi hj
      change |patchEnv.l0 - patchEnv.maxDx| ≤ dist ((flyState U).ps i).x ((flyState U).ps j).x
      rw [flyState_ps U hi, flyState_ps U hj, ← len_sub]
      have h1 : |patchEnv.l0 - patchEnv.maxDx| ≤ 1 / 10 := by
        have e1 : patchEnv.maxDx = 1 / 10 * (1 / 10) := rfl
        rw [patchEnv_vals.2.2.1, e1]
        norm_num [abs_le]
      refine h1.trans ?_
      have h2 := patch_len i j
      have h3 : (1 : ℤ) ≤ (patchV i 0 - patchV j 0) ^ 2 + (patchV i 1 - patchV j 1) ^ 2 := by
        by_contra hc
        apply hne
        apply patchV_inj
        have z0 : (patchV i 0 - patchV j 0) ^ 2 = 0 := by nlinarith [sq_nonneg (patchV i 0 - patchV j 0), sq_nonneg (patchV i 1 - patchV j 1)]
        have z1 : (patchV i 1 - patchV j 1) ^ 2 = 0 := by nlinarith [sq_nonneg (patchV i 0 - patchV j 0), sq_nonneg (patchV i 1 - patchV j 1)]
        funext a
        fin_cases a
        · exact sub_eq_zero.mp (pow_eq_zero_iff two_ne_zero |>.mp z0)
        · exact sub_eq_zero.mp (pow_eq_zero_iff two_ne_zero |>.mp z1)
      have h4 : (1 : ℝ) ≤ (((patchV i 0 - patchV j 0) ^ 2 + (patchV i 1 - patchV j 1) ^ 2 : ℤ) : ℝ) := by exact_mod_cast h3
      have h5 : (0 : ℝ) ≤ len (patchX i - patchX j) := Real.sqrt_nonneg _
      change 1 / 10 ≤ len (patchX i - patchX j)
      nlinarith)
    (fun _ _ _ _ _ _ _ hn => absurd trivial hn)
    (fun k hk i hi _ hd hf => by
      have : k = 0 := by omega
      subst this
      change i < (flyState U).n at hi
      rw [flyState_n] at hi
      exact absurd (hty i hi hd) hf)
    (by rw [if_neg (by decide)]; exact Or.inl rfl)
    (i := i) (by change i < (flyState U).n; rw [flyState_n]; exact hi) trivial hd
  obtain ⟨k1, -, k3⟩ := key
  refine ⟨?_, ?_⟩
  · have : (s'.ps i).u = U + (((1 : ℕ) : ℝ) * (1 / 100)) • patchEnv.g := k1
    rw [this, Nat.cast_one, one_mul]
  · exact k3 (by change (s'.ps i).ty ≠ _; rw [hty i hi hd]; decide)

end OpenMps
