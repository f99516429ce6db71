import Verif.Props.Consistency
import Verif.Props.Examples

set_option linter.unusedSectionVars false

/-! # C58: a concrete patch of the lattice

Five by five particles at the pitch `l_0`; the middle one is surrounded by the lattice. -/

namespace OpenMps

open Ref

noncomputable def patchArgs : EnvArgs ℝ 2 := { latticeArgs with nu := 1 / 10, surfaceRatio := 0 }

noncomputable def patchEnv : Env ℝ 2 := (Env.mk? Config.default patchArgs).get rfl

theorem patchEnv_eq : Env.mk? Config.default patchArgs = some patchEnv := rfl

noncomputable def patchNew : State ℝ 2 Unit :=
  { n := 0, ps := fun _ => Particle.new .disabled, env := patchEnv, grid := patchEnv.builtGrid, nbr := fun _ _ => 0
    ppe := { size := 0, x := fun _ => 0, b := fun _ => 0, rows := fun _ => [], A := fun _ _ => none }
    du := fun _ => 0, ecs := fun _ => 0, origX := fun _ => 0, nNoSpp := fun _ => 0, world := (), ub := false }

theorem patchNew_eq : State.new? patchEnv () = some patchNew := by
  unfold State.new?; rw [Env.builtGrid_eq]; rfl

theorem patchNew_ok : patchNew.grid.ClearOK := fun h => absurd h (by decide)

/-- Place in the lattice, relative to the middle particle (number 12). -/
def patchV (k : ℕ) : Fin 2 → ℤ := ![(k % 5 : ℕ) - 2, (k / 5 : ℕ) - 2]

/-- Position. -/
noncomputable def patchX (k : ℕ) : Vec ℝ 2 := fun a => 1 / 2 + 1 / 10 * patchV k a

/-- The particles, with velocities `U` and a pressure that grows to the right. -/
noncomputable def patchState (U : ℕ → Vec ℝ 2) : State ℝ 2 Unit :=
  patchNew.addParticles ((List.range 25).map (fun k =>
    { x := patchX k, u := U k, p := 200 + 100 * (patchX k 0 - 1 / 2), n := 0, ty := .incompressibleNewton }))

theorem patchState_hist (P : Params ℝ 2 Unit) (U : ℕ → Vec ℝ 2) : Hist P patchNew [] (patchState U) := .add _ .start

theorem patchState_n (U : ℕ → Vec ℝ 2) : (patchState U).n = 25 := by
  unfold patchState State.addParticles patchNew
  simp

theorem patchState_ps (U : ℕ → Vec ℝ 2) {k : ℕ} (h : k < 25) : (patchState U).ps k =
    { x := patchX k, u := U k, p := 200 + 100 * (patchX k 0 - 1 / 2), n := 0, ty := .incompressibleNewton } := by
  unfold patchState State.addParticles patchNew
  simp [h]

theorem patchEnv_vals : patchEnv.re = 24 / 100 ∧ patchEnv.neighborLength = 288 / 1000 ∧ patchEnv.l0 = 1 / 10 ∧
    patchEnv.minX = ![0, 0] ∧ patchEnv.maxX = ![1, 1] := by
  obtain ⟨v1, v2, v3, v4, v5, v6, v7, v8⟩ := envmk_real patchEnv_eq
  refine ⟨?_, ?_, ?_, rfl, rfl⟩
  · rw [v1]; simp only [patchArgs, latticeArgs]; norm_num
  · rw [v2]; simp only [patchArgs, latticeArgs]; norm_num
  · rfl

theorem patchV_bounds {k : ℕ} (h : k < 25) (a : Fin 2) : -2 ≤ patchV k a ∧ patchV k a ≤ 2 := by
  fin_cases a
  · change -2 ≤ ((k % 5 : ℕ) : ℤ) - 2 ∧ ((k % 5 : ℕ) : ℤ) - 2 ≤ 2; omega
  · change -2 ≤ ((k / 5 : ℕ) : ℤ) - 2 ∧ ((k / 5 : ℕ) : ℤ) - 2 ≤ 2; omega

theorem patchV_inj {j k : ℕ} (h : patchV j = patchV k) : j = k := by
  have h0 : ((j % 5 : ℕ) : ℤ) - 2 = ((k % 5 : ℕ) : ℤ) - 2 := congrFun h 0
  have h1 : ((j / 5 : ℕ) : ℤ) - 2 = ((k / 5 : ℕ) : ℤ) - 2 := congrFun h 1
  omega

theorem patchV_mid : patchV 12 = 0 := by funext a; fin_cases a <;> rfl

theorem patchX_sub (k : ℕ) : patchX k - patchX 12 = node (1 / 10) (patchV k) := by
  funext a
  unfold patchX node
  rw [patchV_mid, Pi.sub_apply]
  simp

section
variable (P : Params ℝ 2 Unit) (U : ℕ → Vec ℝ 2) (dt : ℝ)

theorem patch_ty {k : ℕ} (h : k < 25) : (setting P (patchState U) dt).ty k = .incompressibleNewton := by
  unfold setting
  simp only
  rw [if_neg]
  · rw [patchState_ps U h]
  · rintro ⟨-, a, ha⟩
    rw [patchState_ps U h] at ha
    obtain ⟨e1, e2, e3, e4, e5⟩ := patchEnv_vals
    have hb := patchV_bounds h a
    have hb1 : (-2 : ℝ) ≤ (patchV k a : ℝ) := by exact_mod_cast hb.1
    have hb2 : (patchV k a : ℝ) ≤ 2 := by exact_mod_cast hb.2
    have h0 : (patchState U).env.minX a = 0 := by
      change patchEnv.minX a = 0; rw [e4]; fin_cases a <;> rfl
    have h1 : (patchState U).env.maxX a = 1 := by
      change patchEnv.maxX a = 1; rw [e5]; fin_cases a <;> rfl
    have h2 : (patchState U).env.neighborLength = 288 / 1000 := e2
    rw [h0, h1, h2] at ha
    have hx : patchX k a = 1 / 2 + 1 / 10 * (patchV k a : ℝ) := rfl
    simp only [hx] at ha
    rcases ha with ha | ha
    · linarith
    · have : (3 : ℝ) < ⌈(1 - 0 : ℝ) / (288 / 1000)⌉ := by
        have : (3 : ℤ) < ⌈(1 - 0 : ℝ) / (288 / 1000)⌉ := by rw [Int.lt_ceil]; norm_num
        exact_mod_cast this
      nlinarith

/-- Around the middle particle there is the lattice, as long as all particles are displaced by the same vector. -/
theorem patch_inLattice {x : ℕ → Fin 2 → ℝ} {d : Fin 2 → ℝ} (hx : ∀ k, k < 25 → x k = patchX k + d) : (setting P (patchState U) dt).InLattice x 12 := by
  set S := setting P (patchState U) dt with hS
  obtain ⟨e1, e2, e3, e4, e5⟩ := patchEnv_vals
  have hn : S.n = 25 := patchState_n U
  have hre : S.env.re = 24 / 100 := e1
  have hnl : S.env.neighborLength = 288 / 1000 := e2
  have hl0 : S.env.l0 = 1 / 10 := e3
  have hd : ∀ j, j < 25 → x j - x 12 = node (1 / 10) (patchV j) := by
    intro j hj
    rw [hx j hj, hx 12 (by norm_num), ← patchX_sub]
    funext a
    simp only [Pi.sub_apply, Pi.add_apply]
    ring
  have hst : ∀ j, j < 25 → S.start j - S.start 12 = node (1 / 10) (patchV j) := by
    intro j hj
    change ((patchState U).ps j).x - ((patchState U).ps 12).x = _
    rw [patchState_ps U hj, patchState_ps U (by norm_num)]
    exact patchX_sub j
  have hmem : ∀ j, j ∈ S.near x 12 ↔ j < 25 ∧ j ≠ 12 ∧ len (node (1 / 10) (patchV j)) < 24 / 100 := by
    intro j
    rw [mem_near_ref, hn, hre, hnl]
    constructor
    · rintro ⟨h1, h2, -, -, h5⟩
      rw [hd j h1] at h5
      exact ⟨h1, h2, h5⟩
    · rintro ⟨h1, h2, h5⟩
      refine ⟨h1, h2, by rw [patch_ty P U dt h1]; decide, ?_, by rw [hd j h1]; exact h5⟩
      rw [hst j h1]
      linarith
  refine ⟨fun j hj => by rw [patch_ty P U dt ((hmem j).mp hj).1]; decide, patchV, ⟨?_, ?_, ?_⟩, ?_⟩
  · intro j hj
    obtain ⟨h1, h2, h3⟩ := (hmem j).mp hj
    refine ⟨fun hc => h2 (patchV_inj (hc.trans patchV_mid.symm)), ?_⟩
    rw [hl0, hre]; exact h3
  · intro j _ k _ hjk; exact patchV_inj hjk
  · rintro v ⟨h1, h2⟩
    rw [hl0, hre] at h2
    have hb : ∀ a, -2 ≤ v a ∧ v a ≤ 2 := by
      intro a
      have hlen : (1 / 10 * (v a : ℝ)) ^ 2 ≤ len (node (1 / 10) v) ^ 2 := by
        unfold len
        rw [Real.sq_sqrt (Finset.sum_nonneg (fun _ _ => sq_nonneg _))]
        exact Finset.single_le_sum (f := fun a => node (1 / 10) v a ^ 2) (fun _ _ => sq_nonneg _) (Finset.mem_univ a)
      have h0 : 0 ≤ len (node (1 / 10) v) := Real.sqrt_nonneg _
      have hsq : (v a : ℝ) ^ 2 < 9 := by nlinarith
      have hsq' : v a ^ 2 < 9 := by exact_mod_cast hsq
      constructor <;> nlinarith
    have b0 := hb 0
    have b1 := hb 1
    have hv : patchV ((v 0 + 2).toNat + 5 * (v 1 + 2).toNat) = v := by
      funext a
      fin_cases a
      · change ((((v 0 + 2).toNat + 5 * (v 1 + 2).toNat) % 5 : ℕ) : ℤ) - 2 = v 0; omega
      · change ((((v 0 + 2).toNat + 5 * (v 1 + 2).toNat) / 5 : ℕ) : ℤ) - 2 = v 1; omega
    refine ⟨(v 0 + 2).toNat + 5 * (v 1 + 2).toNat, ?_, hv⟩
    rw [Finset.mem_coe, hmem, hv]
    refine ⟨by omega, ?_, h2⟩
    intro hc
    rw [hc, patchV_mid] at hv
    exact h1 hv.symm
  · intro j hj
    rw [hl0]
    exact hd j ((hmem j).mp hj).1

end

/-- Options without dynamic stabilisation; tolerance 0, so that the solver keeps the given pressures. -/
noncomputable def patchP (gc : Bool) : Params ℝ 2 Unit :=
  { cfg := { Config.default with ds := false, gc := gc }, eps := 0, walls := { pre := fun w _ _ => w, pos := fun _ _ _ _ => 0 } }

theorem patch_spaced (U : ℕ → Vec ℝ 2) : ∀ i j, i < j → j < (patchState U).n → ((patchState U).ps i).ty ≠ .disabled →
    ((patchState U).ps j).ty ≠ .disabled → ∃ a, patchEnv.l0 ≤ |((patchState U).ps i).x a - ((patchState U).ps j).x a| := by
  intro i j hij hj _ _
  rw [patchState_n] at hj
  rw [patchState_ps U hj, patchState_ps U (by omega), patchEnv_vals.2.2.1]
  have hne : ∃ a, patchV i a ≠ patchV j a := by
    by_contra hc
    push Not at hc
    have := patchV_inj (funext hc)
    omega
  obtain ⟨a, ha⟩ := hne
  refine ⟨a, ?_⟩
  have e : patchX i a - patchX j a = 1 / 10 * ((patchV i a - patchV j a : ℤ) : ℝ) := by
    unfold patchX; push_cast; ring
  simp only
  rw [e, abs_mul, abs_of_pos (by norm_num : (0 : ℝ) < 1 / 10)]
  have h1 : (1 : ℤ) ≤ |patchV i a - patchV j a| := Int.one_le_abs (sub_ne_zero.mpr ha)
  have h2 : (1 : ℝ) ≤ |((patchV i a - patchV j a : ℤ) : ℝ)| := by
    rw [← Int.cast_abs]; exact_mod_cast h1
  linarith

theorem patch_step_any {P : Params ℝ 2 Unit} (he : P.eps = 0) (hx : P.cfg.explicit = false) (dt : ℝ) :
    ∃ s', (patchState 0).forwardTime P (Schedule.serial 25) dt = .ok s' := by
  have hL : 0 < patchEnv.neighborLength := by rw [patchEnv_vals.2.1]; norm_num
  have hv : (Schedule.serial 25).Valid (patchState 0).n := by rw [patchState_n]; exact Schedule.serial_valid 25
  obtain ⟨h1, h2, h3, h4⟩ := C42_outcome (P := P) (Or.inl rfl) patchNew_eq (patchState_hist _ 0) patchNew_ok hL
    (by rw [patchEnv_vals.1]; norm_num) (Schedule.serial 25) hv dt
  rw [h3]
  constructor
  · intro hc
    obtain ⟨s', h⟩ := h1.mpr hc
    exact C06_step_never_overflows patchNew_eq (patchState_hist _ 0) patchNew_ok (by rw [patchEnv_vals.2.2.1]; norm_num) hL (patch_spaced 0) _ hv dt s' h
  · unfold Setting.step Setting.pressure
    rw [if_neg (by change ¬ P.cfg.explicit = true; rw [hx]; decide)]
    unfold solve
    simp only
    rw [if_pos (by rw [he]; norm_num)]
    exact ⟨_, rfl⟩

theorem patch_step (gc : Bool) (dt : ℝ) : ∃ s', (patchState 0).forwardTime (patchP gc) (Schedule.serial 25) dt = .ok s' :=
  patch_step_any rfl rfl dt

/-- One step of the patch at rest with tolerance 0: every particle is displaced by the same vector, and no pressure changes. -/
theorem patch_step_scene {P : Params ℝ 2 Unit} (he : P.eps = 0) (hx : P.cfg.explicit = false) (hcg : P.cfg.centralGravity = false)
    {s' : State ℝ 2 Unit} (h : (patchState 0).forwardTime P (Schedule.serial 25) (1 / 100) = .ok s') :
    let S := setting P (patchState 0) (1 / 100)
    ∀ k, k < 25 → (s'.ps k).ty = .incompressibleNewton ∧ (s'.ps k).p = 200 + 100 * (patchX k 0 - 1 / 2) ∧
      (S.predict (scene (patchState 0))).x k = patchX k + (1 / 100 : ℝ) • ((1 / 100 : ℝ) • patchEnv.g) := by
  have hL : 0 < patchEnv.neighborLength := by rw [patchEnv_vals.2.1]; norm_num
  have hv : (Schedule.serial 25).Valid (patchState 0).n := by rw [patchState_n]; exact Schedule.serial_valid 25
  obtain ⟨hty, p, hpr, ha⟩ := C42_step_computes_the_reference_formulas (P := P) (Or.inl rfl) patchNew_eq (patchState_hist _ 0) patchNew_ok hL
    (by rw [patchEnv_vals.1]; norm_num) (Schedule.serial 25) hv (1 / 100) h
  set S := setting P (patchState 0) (1 / 100) with hS
  have hn : S.n = 25 := patchState_n 0
  have hact : ∀ k, k < 25 → S.Active k := fun k hk => by
    unfold Setting.Active; rw [patch_ty _ _ _ hk]; exact ⟨by decide, by decide⟩
  have hfl : ∀ k, k < 25 → S.Fluid k := fun k hk => patch_ty _ _ _ hk
  have hn0 : 0 < S.env.n0 := by
    have := (C28_n0_positive_iff patchEnv_eq (by change (0 : ℝ) < 1 / 10; norm_num) (by norm_num)).1.mpr (by change (1 : ℝ) < 24 / 10; norm_num)
    exact this
  have hdn : ∀ x : ℕ → Fin 2 → ℝ, ∀ k, 0 ≤ S.density x k := by
    intro x k
    unfold Setting.density
    refine Finset.sum_nonneg (fun j _ => ?_)
    unfold weight
    split
    · rename_i k
      have := (one_le_div k.1).mpr k.2.le
      linarith
    · exact le_rfl
  intro S' k hk
  refine ⟨?_, ?_, ?_⟩
  · rw [hty k (by rw [patchState_n]; exact hk)]; exact patch_ty _ _ _ hk
  · unfold Setting.IsPressure at hpr
    rw [if_neg (by change ¬ P.cfg.explicit = true; rw [hx]; decide)] at hpr
    obtain ⟨y, -, h2, h3⟩ := hpr
    have e : (s'.ps k).p = p k := (ha k (by rw [hn]; exact hk)).2.2.1
    have hns : ¬ S.Surface (S.predict (scene (patchState 0))).dens k := by
      rintro ⟨-, q⟩
      have hz : S.env.surfaceRatio = 0 := rfl
      rw [hz] at q
      refine absurd q (not_lt.mpr (div_nonneg ?_ hn0.le))
      change 0 ≤ S.reported _ _ k
      unfold Setting.reported
      rw [if_pos (hact k hk)]
      split
      · exact le_trans (hdn _ k) (le_max_left _ _)
      · exact hdn _ k
    rw [e, h3 k (by rw [hn]; exact hk), if_pos (hact k hk), if_neg hns, h2 he k (by rw [hn]; exact hk)]
    unfold Setting.guess
    rw [if_pos ⟨hact k hk, hns⟩]
    change max ((patchState 0).ps k).p 0 = _
    rw [patchState_ps 0 hk]
    simp only
    apply max_eq_left
    have hb := (patchV_bounds hk 0).1
    have hb1 : (-2 : ℝ) ≤ (patchV k 0 : ℝ) := by exact_mod_cast hb
    have hx : patchX k 0 = 1 / 2 + 1 / 10 * (patchV k 0 : ℝ) := rfl
    rw [hx]; linarith
  · have hacc : S.acceleration (scene (patchState 0)).x (scene (patchState 0)).u k = patchEnv.g := by
      unfold Setting.acceleration
      rw [Finset.sum_eq_zero, smul_zero, zero_add]
      · unfold Setting.gravity
        rw [if_neg (by change ¬ P.cfg.centralGravity = true; rw [hcg]; decide)]
        rfl
      · intro j hj
        have hj25 : j < 25 := by have := near_lt (mem_nearSolid.mp hj).1; rw [hn] at this; exact this
        have e : (scene (patchState 0)).u j - (scene (patchState 0)).u k = 0 := by
          change ((patchState 0).ps j).u - ((patchState 0).ps k).u = 0
          rw [patchState_ps 0 hj25, patchState_ps 0 hk]; simp
        rw [e, smul_zero]
    unfold Setting.predict
    simp only
    rw [if_pos (hfl k hk), if_pos (hfl k hk), hacc]
    change ((patchState 0).ps k).x + (1 / 100 : ℝ) • (((patchState 0).ps k).u + _) = _
    rw [patchState_ps 0 hk]
    simp only [Pi.zero_apply, zero_add]
    rfl


/-- The hypotheses of the pressure theorem of C58 hold for the middle particle, with pressure gradient `(100, 0)` and gradient correction or not. -/
example (gc : Bool) : ∃ s', (patchState 0).forwardTime (patchP gc) (Schedule.serial 25) (1 / 100) = .ok s' ∧
    (s'.ps 12).u = ((setting (patchP gc) (patchState 0) (1 / 100)).predict (scene (patchState 0))).u 12 - (1 / 100 / 1000 : ℝ) • ![100, 0] := by
  obtain ⟨s', h⟩ := patch_step gc (1 / 100)
  have hL : 0 < patchEnv.neighborLength := by rw [patchEnv_vals.2.1]; norm_num
  have hv : (Schedule.serial 25).Valid (patchState 0).n := by rw [patchState_n]; exact Schedule.serial_valid 25
  have hsc := patch_step_scene (P := patchP gc) rfl rfl rfl h
  set S := setting (patchP gc) (patchState 0) (1 / 100) with hS
  have hn : S.n = 25 := patchState_n 0
  have hp : ∀ k, k < 25 → (s'.ps k).p = 200 + 100 * (patchX k 0 - 1 / 2) := fun k hk => (hsc k hk).2.1
  have hx : ∀ k, k < 25 → (S.predict (scene (patchState 0))).x k = patchX k + (1 / 100 : ℝ) • ((1 / 100 : ℝ) • patchEnv.g) := fun k hk => (hsc k hk).2.2
  have hlat : S.InLattice (S.predict (scene (patchState 0))).x 12 := patch_inLattice _ _ _ hx
  refine ⟨s', h, ?_⟩
  have key := (C58_linear_pressure_accelerates_exactly (P := patchP gc) (Or.inl rfl) patchEnv_eq
    (by change (0 : ℝ) < 1 / 10; norm_num) (by change (1 : ℝ) < 24 / 10; norm_num) patchNew_eq
    (patchState_hist _ 0) patchNew_ok hL (Schedule.serial 25) hv (1 / 100) h (i := 12) (by rw [patchState_n]; norm_num)
    (hsc 12 (by norm_num)).1 (g := ![100, 0]) hlat
    (by
      intro j hj
      have hj25 : j < 25 := by have := near_lt hj; rw [hn] at this; exact this
      rw [hp j hj25, hp 12 (by norm_num)]
      change _ = _ + prod ![100, 0] ((S.predict (scene (patchState 0))).x j - (S.predict (scene (patchState 0))).x 12)
      rw [hx j hj25, hx 12 (by norm_num)]
      unfold prod
      rw [Fin.sum_univ_two]
      simp
      ring)
    (by intro hc; cases hc)).1
  exact key

/-- The hypotheses of the viscosity theorem of C58: the parabolic flow `u = (y², 0)`. -/
example : ((setting (patchP false) (patchState (fun k => ![(patchX k 1) ^ 2, 0])) (1 / 100)).predict
      (scene (patchState (fun k => ![(patchX k 1) ^ 2, 0])))).u 12 0 =
    1 / 4 + 1 / 100 * (1 / 10 * (setting (patchP false) (patchState (fun k => ![(patchX k 1) ^ 2, 0])) (1 / 100)).laplaceFactor * 2) := by
  set U : ℕ → Vec ℝ 2 := fun k => ![(patchX k 1) ^ 2, 0] with hU
  have hn : (setting (patchP false) (patchState U) (1 / 100)).n = 25 := patchState_n U
  have key := C58_viscosity_is_the_laplacian (P := patchP false) (Or.inl rfl) patchEnv_eq
    (by change (0 : ℝ) < 1 / 10; norm_num) (by change (1 : ℝ) < 24 / 10; norm_num) patchNew_eq
    (patchState_hist _ U) (1 / 100) (i := 12) (g := ![![0, 1], ![0, 0]]) (H := ![!![0, 0; 0, 2], 0])
    (patch_ty _ _ _ (by norm_num))
    (patch_inLattice _ _ _ (d := 0) (fun k hk => by
      change ((patchState U).ps k).x = _
      rw [patchState_ps U hk, add_zero]))
    (by
      intro j hj a
      have hj25 : j < 25 := by have := near_lt hj; rw [hn] at this; exact this
      rw [patchState_ps U hj25, patchState_ps U (by norm_num)]
      have h12 : patchX 12 1 = 1 / 2 := by
        change 1 / 2 + 1 / 10 * ((patchV 12 1 : ℤ) : ℝ) = 1 / 2
        rw [patchV_mid]; simp
      unfold quadratic prod
      fin_cases a
      · simp [hU, Matrix.mulVec, dotProduct, Fin.sum_univ_two, h12]
        ring
      · simp [hU, Matrix.mulVec, dotProduct, Fin.sum_univ_two])
  rw [key]
  rw [patchState_ps U (by norm_num)]
  have h12 : patchX 12 1 = 1 / 2 := by
    change 1 / 2 + 1 / 10 * ((patchV 12 1 : ℤ) : ℝ) = 1 / 2
    rw [patchV_mid]; simp
  have hg : (setting (patchP false) (patchState U) (1 / 100)).gravity (patchX 12) 0 = 0 := by
    change patchEnv.g 0 = 0
    rw [(envmk_real patchEnv_eq).2.2.2.2.1]
    simp [ofInt_real]
  have hnu : patchEnv.nu = 1 / 10 := rfl
  simp only [Pi.add_apply, Pi.smul_apply, smul_eq_mul, hg, hnu]
  simp [hU, Matrix.trace, Fin.sum_univ_two, h12]
  norm_num

end OpenMps
