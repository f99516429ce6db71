import Verif.Lemmas.Viscosity
import Verif.Props.ReferenceStep

/-! # C46: viscosity takes energy out of the flow -/

namespace OpenMps

open Ref

set_option linter.unusedSectionVars false

variable {D : Nat} {ω : Type}

namespace Ref

variable {S : Setting D}

theorem fluid_active {i : ℕ} (h : S.Fluid i) : S.Active i := by
  unfold Setting.Fluid at h; unfold Setting.Active; rw [h]; exact ⟨by decide, by decide⟩

theorem gravity_zero (hg : S.env.g = 0) (x : Fin D → ℝ) : S.gravity x = 0 := by
  unfold Setting.gravity
  rw [hg]
  split
  · split
    · rfl
    · split <;> simp
  · rfl

/-- Without pressure there is no push. -/
theorem push_zero {s : Scene D} (hp : ∀ j, j < S.n → S.Active j → s.p j = 0) {i : ℕ} (hi : i < S.n) (ha : S.Active i) : S.push s i = 0 := by
  have hz : ∀ j ∈ S.nearSolid s.x i, s.p j = 0 := fun j hj => by
    obtain ⟨-, k1, k2, -⟩ := nearSolid_symm hi ha hj
    exact hp j k2 k1
  have hf : S.force s i = 0 := by
    unfold Setting.force
    rw [Finset.sum_eq_zero (fun j hj => by rw [hz j hj, hp i hi ha]; simp), hp i hi ha]
    simp
  have hgc : S.forceGc s i = 0 := by
    unfold Setting.forceGc
    simp only
    rw [Finset.sum_eq_zero (fun j hj => by rw [hz j hj, hp i hi ha]; simp), hp i hi ha]
    simp
  unfold Setting.push
  rw [hf, hgc]
  simp

theorem kick_zero {dv : ℕ → Fin D → ℝ} {s : Scene D} {i : ℕ} (h : S.Fluid i → dv i = 0) : (S.kick dv s).x i = s.x i ∧ (S.kick dv s).u i = s.u i := by
  unfold Setting.kick
  constructor
  · simp only
    split
    · rename_i hf; rw [h hf]; simp
    · rfl
  · simp only
    split
    · rename_i hf; rw [h hf]; simp
    · rfl

theorem stabilise_zero {old : ℕ → Fin D → ℝ} {s : Scene D} {i : ℕ}
    (h : ∀ j ∈ S.nearSolid s.x i, |S.env.l0 - S.env.maxDx| ≤ len (s.x j - s.x i)) : S.stabilise old s i = 0 := by
  unfold Setting.stabilise
  simp only
  rw [Finset.sum_eq_zero]
  · simp
  · intro j hj
    rw [if_neg]
    rw [not_lt, ← sq_abs (S.env.l0 - S.env.maxDx)]
    exact pow_le_pow_left₀ (abs_nonneg _) (h j hj) 2

/-- Without pressure and crowding the last stages change nothing. -/
theorem finish_idle {s : Scene D} (hp : ∀ j, j < S.n → S.Active j → s.p j = 0)
    (hds : S.cfg.ds = true → ∀ i j, i < S.n → j < S.n → i ≠ j → S.Active i → S.Active j → |S.env.l0 - S.env.maxDx| ≤ len (s.x j - s.x i))
    {i : ℕ} (hi : i < S.n) : (S.finish s).u i = s.u i := by
  have h1 : ∀ j, j < S.n → (S.kick (S.push s) s).x j = s.x j ∧ (S.kick (S.push s) s).u j = s.u j := fun j hj =>
    kick_zero fun hf => push_zero hp hj (fluid_active hf)
  unfold Setting.finish
  simp only
  split
  · rename_i hd
    rw [(kick_zero fun hf => stabilise_zero fun j hj => ?_).2, (h1 i hi).2]
    obtain ⟨-, k1, k2, k3⟩ := nearSolid_symm hi (fluid_active hf) hj
    rw [(h1 i hi).1, (h1 j k2).1]
    exact hds hd i j hi k2 (Ne.symm k3) (fluid_active hf) k1
  · exact (h1 i hi).2

end Ref

open Classical in
/-- **C46.**  A step without gravity and without pressure (all pressures after the step are zero; no two particles so close that dynamic stabilisation acts)
only exchanges momentum by viscosity.  If the particles that are neither fluid nor dummy are at rest and the step obeys the diffusion limit
`dt nu Laplace_i <= 1`, the kinetic energy of the fluid does not grow, and no fluid particle becomes faster than the fastest particle was. -/
theorem C46_viscosity_never_adds_energy {P : Params ℝ D ω} {env : Env ℝ D} {w : ω} {s0 s s' : State ℝ D ω} {dts : List ℝ}
    (hD : D = 2 ∨ D = 3) (hnew : State.new? env w = some s0) (hist : Hist P s0 dts s) (hok : s0.grid.ClearOK) (hL : 0 < env.neighborLength)
    (hre : 0 ≤ env.re) (hn0 : 0 < env.n0) (hlam : 0 ≤ env.lambda) (hnu : 0 ≤ env.nu) (hg : env.g = 0)
    (sch : Schedule) (hv : sch.Valid s.n) (dt : ℝ) (hdt : 0 ≤ dt) (h : s.forwardTime P sch dt = .ok s')
    (hp : ∀ i, i < s.n → (s'.ps i).ty ≠ .dummy → (s'.ps i).ty ≠ .disabled → (s'.ps i).p = 0)
    (hds : P.cfg.ds = true → ∀ i j, i < s.n → j < s.n → i ≠ j → (setting P s dt).Active i → (setting P s dt).Active j →
      |env.l0 - env.maxDx| ≤ len (((setting P s dt).predict (scene s)).x j - ((setting P s dt).predict (scene s)).x i))
    (hlim : ∀ i, i < s.n → (s'.ps i).ty = .incompressibleNewton →
      dt * env.nu * ∑ j ∈ (setting P s dt).nearSolid (scene s).x i, (setting P s dt).laplace (len ((s.ps j).x - (s.ps i).x)) ≤ 1) :
    ((∀ j, j < s.n → (s'.ps j).ty ≠ .dummy → (s'.ps j).ty ≠ .disabled → (s'.ps j).ty ≠ .incompressibleNewton → (s.ps j).u = 0) →
      ∑ i ∈ (Finset.range s.n).filter (fun i => (s'.ps i).ty = .incompressibleNewton), len (s'.ps i).u ^ 2 ≤
        ∑ i ∈ (Finset.range s.n).filter (fun i => (s'.ps i).ty = .incompressibleNewton), len (s.ps i).u ^ 2) ∧
    ∀ V, (∀ j, j < s.n → (s'.ps j).ty ≠ .dummy → (s'.ps j).ty ≠ .disabled → len (s.ps j).u ≤ V) →
      ∀ i, i < s.n → (s'.ps i).ty = .incompressibleNewton → len (s'.ps i).u ≤ V := by
  obtain ⟨a, ha, hval⟩ := C42_step_is_the_reference_function hD hnew hist hok hL hre sch hv dt h
  have hconst := hist_consts hnew hist
  set S := setting P s dt with hS
  have hSn : S.n = s.n := rfl
  have hSenv : S.env = { s.env with dt := dt, t := s.env.t + dt } := rfl
  have hty : ∀ i, i < s.n → (s'.ps i).ty = S.ty i := fun i hi => (hval i hi).1
  unfold Setting.step at ha
  rw [Option.map_eq_some_iff] at ha
  obtain ⟨p, hpr, rfl⟩ := ha
  have hp0 : ∀ j, j < S.n → S.Active j → p j = 0 := by
    intro j hj hact
    obtain ⟨e1, -, -, e4, -⟩ := hval j hj
    have := hp j hj (by rw [e1]; exact hact.1) (by rw [e1]; exact hact.2)
    rw [e4, (finish_dens _).2] at this
    exact this
  have hgS : S.env.g = 0 := by rw [hSenv, hconst]; exact hg
  have hu : ∀ i, i < s.n → S.Fluid i → (s'.ps i).u = exchanged S (scene s) i := by
    intro i hi hf
    rw [(hval i hi).2.2.1, finish_idle (S := S) hp0 (by
      intro hd i j hi hj hij h1 h2
      have := hds hd i j hi hj hij h1 h2
      rw [hSenv, hconst]
      exact this) hi]
    unfold Setting.predict exchanged
    simp only
    rw [if_pos hf]
    unfold Setting.acceleration
    rw [gravity_zero hgS, add_zero]
  have hnn : ∀ i j, 0 ≤ share S (scene s) i j := by
    intro i j
    unfold share
    refine mul_nonneg (mul_nonneg ?_ ?_) (laplace_nonneg hD ?_ ?_ ?_ (Real.sqrt_nonneg _))
    · exact hdt
    · rw [hSenv, hconst]; exact hnu
    · rw [hSenv, hconst]; exact hre
    · rw [hSenv, hconst]; exact hn0
    · rw [hSenv, hconst]; exact hlam
  have hsum : ∀ i, i < S.n → S.Fluid i → ∑ j ∈ S.nearSolid (scene s).x i, share S (scene s) i j ≤ 1 := by
    intro i hi hf
    have := hlim i hi (by rw [hty i hi]; exact hf)
    unfold share
    rw [← Finset.mul_sum]
    have e : S.env.dt * S.env.nu = dt * env.nu := by rw [hSenv, hconst]
    rw [e]; exact this
  constructor
  · intro hrest
    have key := exchanged_energy (S := S) (b := scene s) hnn hsum (by
      intro j hj hact hnf
      exact hrest j hj (by rw [hty j hj]; exact hact.1) (by rw [hty j hj]; exact hact.2) (by rw [hty j hj]; exact hnf))
    have hset : (Finset.range s.n).filter (fun i => (s'.ps i).ty = .incompressibleNewton) = (Finset.range S.n).filter (fun i => S.Fluid i) := by
      apply Finset.filter_congr
      intro i hi
      rw [hty i (Finset.mem_range.1 hi)]
      rfl
    rw [hset]
    refine le_trans (le_of_eq ?_) key
    refine Finset.sum_congr rfl fun i hi => ?_
    obtain ⟨h1, h2⟩ := Finset.mem_filter.1 hi
    rw [hu i (Finset.mem_range.1 h1) h2]
  · intro V hV i hi hf
    have hf' : S.Fluid i := by unfold Setting.Fluid; rw [← hty i hi]; exact hf
    rw [hu i hi hf']
    refine exchanged_le (fun j _ => hnn i j) (hsum i hi hf') (hV i hi (by rw [hf]; decide) (by rw [hf]; decide)) (fun j hj => ?_)
    obtain ⟨-, k1, k2, -⟩ := nearSolid_symm hi (fluid_active hf') hj
    exact hV j k2 (by rw [hty j k2]; exact k1.1) (by rw [hty j k2]; exact k1.2)

/-! ## A concrete case: two fluid particles passing each other -/

namespace Passing

noncomputable def env : Env ℝ 2 :=
  { t := 0, dt := 0, n0 := 100, lambda := 1, c := 1, maxDt := 1, maxDx := 1 / 10, l0 := 1 / 2, re := 2, g := 0, rho := 1, nu := 1,
    surfaceRatio := 0, minX := ![0, 0], maxX := ![10, 10], neighborLength := 4 }

/-- Explicit pressure, all other options as in `defines.hpp`. -/
noncomputable def P : Params ℝ 2 Unit :=
  { cfg := { Config.default with explicit := true }, eps := 0, walls := { pre := fun w _ _ => w, pos := fun _ _ _ _ => 0 } }

noncomputable def particles : List (Particle ℝ 2) :=
  [{ x := ![4, 5], u := ![0, 1], p := 0, n := 0, ty := .incompressibleNewton },
   { x := ![5, 5], u := ![0, -1], p := 0, n := 0, ty := .incompressibleNewton }]

noncomputable def new : State ℝ 2 Unit :=
  { n := 0, ps := fun _ => Particle.new .disabled, env := env, grid := env.builtGrid, nbr := fun _ _ => 0
    ppe := { size := 0, x := fun _ => 0, b := fun _ => 0, rows := fun _ => [], A := fun _ _ => none }
    du := fun _ => 0, ecs := fun _ => 0, origX := fun _ => 0, nNoSpp := fun _ => 0, world := (), ub := false }

theorem new_eq : State.new? env () = some new := by
  unfold State.new?; rw [Env.builtGrid_eq]; rfl

noncomputable def state : State ℝ 2 Unit := new.addParticles particles

theorem state_hist : Hist P new [] state := .add _ .start

theorem state_vals (i : Nat) (hi : i < 2) : (state.ps i).u 0 = 0 ∧ (state.ps i).ty = .incompressibleNewton ∧ (state.ps i).x = (if i = 0 then ![4, 5] else ![5, 5]) := by
  interval_cases i <;> simp [state, State.addParticles, new, particles]

theorem uncrowded : ¬ Crowded state := by
  rintro ⟨c, -, h⟩
  have h1 : (cell state c).card ≤ 2 := by
    unfold cell
    refine (Finset.card_filter_le _ _).trans ?_
    simp [state, State.addParticles, new, particles]
  have h2 : ((⌈state.env.neighborLength / state.env.l0⌉ + 1) ^ 2).toNat = 81 := by
    have e : state.env.neighborLength / state.env.l0 = ((8 : ℤ) : ℝ) := by
      show (4 : ℝ) / (1 / 2) = _
      norm_num
    rw [e, Int.ceil_intCast]; rfl
  rw [h2] at h
  omega

theorem abs_le_len {D : Nat} (v : Fin D → ℝ) (a : Fin D) : |v a| ≤ len v := by
  unfold len
  rw [← Real.sqrt_sq_eq_abs]
  exact Real.sqrt_le_sqrt (Finset.single_le_sum (f := fun a => v a ^ 2) (fun a _ => sq_nonneg _) (Finset.mem_univ a))

/-- The horizontal positions do not change. -/
theorem predicted (dt : ℝ) (i : Nat) (hi : i < 2) (hf : (setting P state dt).Fluid i) : ((setting P state dt).predict (scene state)).x i 0 = (state.ps i).x 0 := by
  unfold Setting.predict
  simp only
  rw [if_pos hf, if_pos hf]
  have hu : ∀ j, j < 2 → (scene state).u j 0 = 0 := fun j hj => (state_vals j hj).1
  have hg : (setting P state dt).gravity ((scene state).x i) = 0 := gravity_zero rfl _
  unfold Setting.acceleration
  rw [hg]
  simp only [Pi.add_apply, Pi.smul_apply, Finset.sum_apply, smul_eq_mul, Pi.sub_apply, Pi.zero_apply, hu i hi]
  rw [Finset.sum_eq_zero (fun j hj => by
    rw [hu j (nearSolid_lt hj), sub_zero, mul_zero])]
  simp [scene]

theorem fluid (dt : ℝ) (i : Nat) (hi : i < 2) : (setting P state dt).Fluid i := by
  unfold Setting.Fluid setting
  simp only
  rw [if_neg, (state_vals i hi).2.1]
  rintro ⟨-, a, h⟩
  have hn : state.env.neighborLength = 4 := rfl
  have hc : ∀ a, ⌈(state.env.maxX a - state.env.minX a) / state.env.neighborLength⌉ = 3 := by
    intro a
    rw [Int.ceil_eq_iff]
    have : (state.env.maxX a - state.env.minX a) / state.env.neighborLength = 10 / 4 := by
      fin_cases a <;> simp [state, State.addParticles, new, env]
    rw [this]; norm_num
  rw [hc, hn] at h
  have hm : state.env.minX a = 0 := by fin_cases a <;> rfl
  rw [hm, (state_vals i hi).2.2] at h
  fin_cases a <;> interval_cases i <;> norm_num at h

theorem apart (dt : ℝ) (i j : Nat) (hi : i < 2) (hj : j < 2) (hij : i ≠ j) :
    1 ≤ len (((setting P state dt).predict (scene state)).x j - ((setting P state dt).predict (scene state)).x i) ∧ 1 ≤ len ((state.ps j).x - (state.ps i).x) := by
  have e : |(state.ps j).x 0 - (state.ps i).x 0| = 1 := by
    rw [(state_vals i hi).2.2, (state_vals j hj).2.2]
    interval_cases i <;> interval_cases j <;> first | exact absurd rfl hij | norm_num
  refine ⟨?_, ?_⟩
  · refine le_trans ?_ (abs_le_len _ 0)
    rw [Pi.sub_apply, predicted dt i hi (fluid dt i hi), predicted dt j hj (fluid dt j hj), e]
  · exact le_trans (by rw [Pi.sub_apply, e]) (abs_le_len _ 0)

theorem densities (dt : ℝ) (i : Nat) (hi : i < 2) : (setting P state dt).density ((setting P state dt).predict (scene state)).x i ≤ 100 := by
  unfold Setting.density
  have h1 : ∀ j ∈ (setting P state dt).near ((setting P state dt).predict (scene state)).x i,
      weight (setting P state dt).env.re (len (((setting P state dt).predict (scene state)).x j - ((setting P state dt).predict (scene state)).x i)) ≤ 1 := by
    intro j hj
    have hj2 : j < 2 := near_lt hj
    have hne : i ≠ j := by
      unfold Setting.near at hj
      exact Ne.symm (Finset.mem_filter.1 hj).2.1
    have hr := (apart dt i j hi hj2 hne).1
    unfold weight
    have hre : (setting P state dt).env.re = 2 := rfl
    rw [hre]
    split
    · rw [sub_le_iff_le_add, div_le_iff₀ (by linarith)]; linarith
    · norm_num
  refine (Finset.sum_le_card_nsmul _ _ 1 h1).trans ?_
  have hc : ((setting P state dt).near ((setting P state dt).predict (scene state)).x i).card ≤ 2 := by
    unfold Setting.near
    exact (Finset.card_filter_le _ _).trans (by simp [setting, state, State.addParticles, new, particles])
  simp only [nsmul_eq_mul, mul_one]
  have : (((setting P state dt).near ((setting P state dt).predict (scene state)).x i).card : ℝ) ≤ 2 := by exact_mod_cast hc
  linarith

/-- The step succeeds, the hypotheses of C46 hold, and so do its conclusions (the particles do interact). -/
example : ∃ s', state.forwardTime P (Schedule.serial 2) (1 / 10) = .ok s' ∧ 1 ∈ (setting P state (1 / 10)).nearSolid (scene state).x 0 ∧
    ∀ i, i < 2 → len (s'.ps i).u ≤ 1 := by
  have hn : state.n = 2 := rfl
  have hok : new.grid.ClearOK := fun h => absurd h (by decide)
  obtain ⟨-, -, h3, -⟩ := C42_outcome (Or.inl rfl) new_eq state_hist hok (by norm_num [env]) (by norm_num [env]) _ (Schedule.serial_valid 2) (1 / 10)
  obtain ⟨s', h⟩ := h3.2 ⟨uncrowded, _, rfl⟩
  obtain ⟨a, ha, hval⟩ := C42_step_is_the_reference_function (Or.inl rfl) new_eq state_hist hok (by norm_num [env]) (by norm_num [env]) _ (Schedule.serial_valid 2) _ h
  have hty : ∀ i, i < 2 → (s'.ps i).ty = .incompressibleNewton := fun i hi => by
    rw [(hval i hi).1]; exact fluid _ i hi
  have hfl := fluid (1 / 10)
  have hlen : ∀ i, i < 2 → len (state.ps i).u ≤ 1 := by
    intro i hi
    unfold len
    refine Real.sqrt_le_one.mpr ?_
    interval_cases i <;> simp [state, State.addParticles, new, particles, Fin.sum_univ_two]
  refine ⟨s', h, ?_, ?_⟩
  · unfold Setting.nearSolid Setting.near
    have e : (scene state).x 1 - (scene state).x 0 = ![1, 0] := by
      funext a; fin_cases a <;> simp [scene, state, State.addParticles, new, particles]; norm_num
    have e2 : len (![1, 0] : Fin 2 → ℝ) = 1 := by unfold len; simp [Fin.sum_univ_two]
    simp only [Finset.mem_filter, Finset.mem_range]
    have e3 : (setting P state (1 / 10)).ty 1 = .incompressibleNewton := hfl 1 (by norm_num)
    refine ⟨⟨by decide, by decide, by rw [e3]; decide, ?_, ?_⟩, by rw [e3]; decide⟩
    · change len ((scene state).x 1 - (scene state).x 0) < 4
      rw [e, e2]; norm_num
    · change len ((scene state).x 1 - (scene state).x 0) < 2
      rw [e, e2]; norm_num
  · intro i hi
    refine (C46_viscosity_never_adds_energy (Or.inl rfl) new_eq state_hist hok (by norm_num [env]) (by norm_num [env]) (by norm_num [env]) (by norm_num [env])
      (by norm_num [env]) rfl _ (Schedule.serial_valid 2) (1 / 10) (by norm_num) h ?_ ?_ ?_).2 1 (fun j hj _ _ => hlen j hj) i hi (hty i hi)
    · intro i hi _ _
      rw [(hval i hi).2.2.2.1]
      unfold Setting.step Setting.pressure at ha
      rw [if_pos (show (setting P state (1 / 10)).cfg.explicit = true from rfl)] at ha
      injection ha with ha
      rw [← ha, (finish_dens _).2]
      show (setting P state (1 / 10)).eos _ i = 0
      unfold Setting.eos
      have hd : ((setting P state (1 / 10)).predict (scene state)).dens i = 100 := by
        show (setting P state (1 / 10)).reported _ _ i = 100
        unfold Setting.reported
        rw [if_pos (fluid_active (hfl i hi)), if_pos (show (setting P state (1 / 10)).cfg.spp = true from rfl)]
        exact max_eq_right (densities _ i hi)
      rw [hd]
      show (1 : ℝ) ^ 2 * max ((1 : ℝ) * 100 / 100 - 1) 0 = 0
      norm_num
    · intro _ i j hi hj hij _ _
      refine le_trans ?_ (apart (1 / 10) i j hi hj hij).1
      show |(1 / 2 : ℝ) - 1 / 10| ≤ 1
      norm_num
    · intro i hi _
      have h1 : ∀ j ∈ (setting P state (1 / 10)).nearSolid (scene state).x i, (setting P state (1 / 10)).laplace (len ((state.ps j).x - (state.ps i).x)) ≤ 1 := by
        intro j hj
        obtain ⟨-, -, k2, k3⟩ := nearSolid_symm hi (fluid_active (hfl i hi)) hj
        have hr := (apart (1 / 10) i j hi k2 (Ne.symm k3)).2
        unfold Setting.laplace
        rw [if_pos (show (setting P state (1 / 10)).cfg.hl = true from rfl)]
        show (5 - ((2 : ℕ) : ℝ)) * 2 / (100 * _ ^ 3) ≤ 1
        have h3 := one_le_pow₀ (n := 3) hr
        rw [div_le_one (by positivity)]
        push_cast
        linarith
      have hc : ((setting P state (1 / 10)).nearSolid (scene state).x i).card ≤ 2 := by
        unfold Setting.nearSolid Setting.near
        exact (Finset.card_filter_le _ _).trans ((Finset.card_filter_le _ _).trans (by simp [setting, state, State.addParticles, new, particles]))
      have h2 := Finset.sum_le_card_nsmul _ _ 1 h1
      simp only [nsmul_eq_mul, mul_one] at h2
      have : (((setting P state (1 / 10)).nearSolid (scene state).x i).card : ℝ) ≤ 2 := by exact_mod_cast hc
      show (1 / 10 : ℝ) * 1 * _ ≤ 1
      linarith

end Passing

end OpenMps
