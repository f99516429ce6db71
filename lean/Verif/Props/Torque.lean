import Verif.Spec.Torque
import Verif.Props.Viscosity
import Verif.Props.Momentum

/-! # C51: pressure and dynamic stabilisation exert no torque -/

set_option linter.unusedSectionVars false

namespace OpenMps

variable {D : Nat} {ω : Type}

namespace Ref

variable {S : Setting D}

theorem wedge_add (x v w : Fin D → ℝ) (a b : Fin D) : wedge x (v + w) a b = wedge x v a b + wedge x w a b := by
  unfold wedge; simp only [Pi.add_apply]; ring

theorem wedge_sub (x v w : Fin D → ℝ) (a b : Fin D) : wedge x (v - w) a b = wedge x v a b - wedge x w a b := by
  unfold wedge; simp only [Pi.sub_apply]; ring

theorem wedge_smul (x : Fin D → ℝ) (c : ℝ) (v : Fin D → ℝ) (a b : Fin D) : wedge x (c • v) a b = c * wedge x v a b := by
  unfold wedge; simp only [Pi.smul_apply, smul_eq_mul]; ring

theorem add_wedge (x y v : Fin D → ℝ) (a b : Fin D) : wedge (x + y) v a b = wedge x v a b + wedge y v a b := by
  unfold wedge; simp only [Pi.add_apply]; ring

theorem smul_wedge (c : ℝ) (x v : Fin D → ℝ) (a b : Fin D) : wedge (c • x) v a b = c * wedge x v a b := by
  unfold wedge; simp only [Pi.smul_apply, smul_eq_mul]; ring

theorem wedge_self (x : Fin D → ℝ) (a b : Fin D) : wedge x x a b = 0 := by
  unfold wedge; ring

theorem wedge_sum {ι : Type} (x : Fin D → ℝ) (t : Finset ι) (f : ι → Fin D → ℝ) (a b : Fin D) :
    wedge x (∑ j ∈ t, f j) a b = ∑ j ∈ t, wedge x (f j) a b := by
  unfold wedge
  rw [Finset.sum_apply, Finset.sum_apply, Finset.mul_sum, Finset.mul_sum, ← Finset.sum_sub_distrib]

/-- Central pair forces with symmetric coefficients have no torque. -/
theorem central_torque (T : Finset ℕ) (near : ℕ → Finset ℕ) (hsub : ∀ i ∈ T, near i ⊆ T)
    (hsym : ∀ i ∈ T, ∀ j ∈ T, j ∈ near i ↔ i ∈ near j) (c : ℕ → ℕ → ℝ) (hc : ∀ i ∈ T, ∀ j ∈ near i, c j i = c i j)
    (x : ℕ → Fin D → ℝ) (a b : Fin D) : ∑ i ∈ T, wedge (x i) (∑ j ∈ near i, c i j • (x j - x i)) a b = 0 := by
  have e : ∀ i ∈ T, wedge (x i) (∑ j ∈ near i, c i j • (x j - x i)) a b = ∑ j ∈ near i, c i j * wedge (x i) (x j) a b := by
    intro i _
    rw [wedge_sum]
    refine Finset.sum_congr rfl fun j _ => ?_
    rw [wedge_smul, wedge_sub, wedge_self, sub_zero]
  rw [Finset.sum_congr rfl e]
  refine sum_antisymm T near hsub hsym (fun i j => c i j * wedge (x i) (x j) a b) (fun i hi j hj => ?_) (fun t ht => by linarith)
  rw [hc i hi j hj]
  unfold wedge; ring

theorem prod_neg_neg (v w : Fin D → ℝ) : prod (-v) (-w) = prod v w := by
  unfold prod; exact Finset.sum_congr rfl fun a _ => by simp only [Pi.neg_apply]; ring

theorem len_neg (v : Fin D → ℝ) : len (-v) = len v := by
  unfold len; congr 1; exact Finset.sum_congr rfl fun a _ => by simp only [Pi.neg_apply]; ring

section
variable {T : Finset ℕ} (hT : ∀ i, i ∈ T ↔ i < S.n ∧ S.Fluid i) (hfl : ∀ i, i < S.n → S.Active i → S.Fluid i)

include hT hfl

theorem nearSolid_sub (x : ℕ → Fin D → ℝ) : ∀ i ∈ T, S.nearSolid x i ⊆ T := by
  intro i hi j hj
  obtain ⟨h1, h2⟩ := (hT i).1 hi
  obtain ⟨-, k1, k2, -⟩ := nearSolid_symm h1 (fluid_active h2) hj
  exact (hT j).2 ⟨k2, hfl j k2 k1⟩

omit hfl in
theorem nearSolid_comm (x : ℕ → Fin D → ℝ) : ∀ i ∈ T, ∀ j ∈ T, j ∈ S.nearSolid x i ↔ i ∈ S.nearSolid x j := by
  intro i hi j hj
  obtain ⟨h1, h2⟩ := (hT i).1 hi
  obtain ⟨k1, k2⟩ := (hT j).1 hj
  exact ⟨fun h => (nearSolid_symm h1 (fluid_active h2) h).1, fun h => (nearSolid_symm k1 (fluid_active k2) h).1⟩

theorem push_torque (hgc : S.cfg.gc = false) {s : Scene D} (hv : ∀ i ∈ T, ¬ S.HasVirtual s.x i) (a b : Fin D) :
    ∑ i ∈ T, wedge (s.x i) (S.push s i) a b = 0 := by
  have e : ∀ i ∈ T, wedge (s.x i) (S.push s i) a b = -(S.env.dt / S.env.rho * (D / S.env.n0)) * wedge (s.x i) (∑ j ∈ S.nearSolid s.x i,
      ((s.p j + s.p i) / len (s.x j - s.x i) ^ 2 * weight S.env.re (len (s.x j - s.x i))) • (s.x j - s.x i)) a b := by
    intro i hi
    unfold Setting.push Setting.force
    rw [if_neg (by rw [hgc]; decide), if_neg (hv i hi), add_zero, wedge_smul]
  rw [Finset.sum_congr rfl e, ← Finset.mul_sum, central_torque T _ (nearSolid_sub hT hfl s.x) (nearSolid_comm hT s.x), mul_zero]
  intro i _ j _
  rw [len_sub_comm, add_comm]

theorem stabilise_torque (old : ℕ → Fin D → ℝ) (s : Scene D) (a b : Fin D) : ∑ i ∈ T, wedge (old i) (S.stabilise old s i) a b = 0 := by
  classical
  set d := S.env.l0 - S.env.maxDx with hd
  set c : ℕ → ℕ → ℝ := fun i j => if len (s.x j - s.x i) ^ 2 < d ^ 2 then
      (√(d ^ 2 - len (s.x j - s.x i - prod (s.x j - s.x i) ((1 / len (old j - old i)) • (old j - old i)) • ((1 / len (old j - old i)) • (old j - old i))) ^ 2)
        - prod (s.x j - s.x i) ((1 / len (old j - old i)) • (old j - old i))) * (1 / len (old j - old i)) else 0 with hc
  have e : ∀ i ∈ T, wedge (old i) (S.stabilise old s i) a b = -(1 / (2 * S.env.dt * S.env.n0)) *
      wedge (old i) (∑ j ∈ S.nearSolid s.x i, c i j • (old j - old i)) a b := by
    intro i _
    unfold Setting.stabilise
    simp only
    rw [wedge_smul]
    congr 2
    refine Finset.sum_congr rfl fun j _ => ?_
    rw [hc]
    simp only
    split
    · rw [mul_smul]
    · rw [zero_smul]
  rw [Finset.sum_congr rfl e, ← Finset.mul_sum, central_torque T _ (nearSolid_sub hT hfl s.x) (nearSolid_comm hT s.x), mul_zero]
  intro i _ j _
  rw [hc]
  simp only
  have e1 : s.x i - s.x j = -(s.x j - s.x i) := by abel
  have e2 : old i - old j = -(old j - old i) := by abel
  have e3 : ∀ (v o : Fin D → ℝ) (k : ℝ), -v - k • -o = -(v - k • o) := fun v o k => by rw [smul_neg]; abel
  rw [e1, e2, len_neg, len_neg, smul_neg, prod_neg_neg, e3, len_neg]

end

end Ref

open Ref

open Classical in
/-- **C51.**  Pressure gradient and dynamic stabilisation exert no torque.  In a step without GC after which all enabled particles are fluid and none of them
has a virtual surface particle (no SPP, or reported densities above `n0`), take the velocity changes that are not due to viscosity and gravity:
the sum of their moments about the new positions is zero, in every plane `(a, b)`. -/
theorem C51_pressure_exerts_no_torque {P : Params ℝ D ω} {env : Env ℝ D} {w : ω} {s0 s s' : State ℝ D ω} {dts : List ℝ}
    (hD : D = 2 ∨ D = 3) (hnew : State.new? env w = some s0) (hist : Hist P s0 dts s) (hok : s0.grid.ClearOK) (hL : 0 < env.neighborLength)
    (hre : 0 ≤ env.re) (hgc : P.cfg.gc = false) (sch : Schedule) (hv : sch.Valid s.n) (dt : ℝ) (h : s.forwardTime P sch dt = .ok s')
    (hfl : OnlyFluid s') (hsurf : P.cfg.spp = false ∨ ∀ i ∈ s'.fluid, env.n0 < (s'.ps i).n) (a b : Fin D) :
    ∑ i ∈ s'.fluid, wedge (s'.ps i).x ((s'.ps i).u - (s.ps i).u - dt • (setting P s dt).acceleration (scene s).x (scene s).u i) a b = 0 := by
  obtain ⟨fin, hfin, hval⟩ := C42_step_is_the_reference_function hD hnew hist hok hL hre sch hv dt h
  have hconst := hist_consts hnew hist
  have hn' : s'.n = s.n := (step_frame hv (Or.inl h)).1
  set S := setting P s dt with hS
  have hSn : S.n = s.n := rfl
  unfold Setting.step at hfin
  rw [Option.map_eq_some_iff] at hfin
  obtain ⟨p, -, rfl⟩ := hfin
  set q : Scene D := { S.predict (scene s) with p := p } with hq
  have hT : ∀ i, i ∈ s'.fluid ↔ i < S.n ∧ S.Fluid i := by
    intro i
    rw [mem_fluid, hn', hSn]
    refine and_congr_right fun hi => ?_
    rw [(hval i hi).1]; rfl
  have hF : ∀ i, i < S.n → S.Active i → S.Fluid i := by
    intro i hi hact
    rcases hfl i (by rw [hn']; exact hi) with k | k
    · unfold Setting.Fluid; rw [← (hval i hi).1]; exact k
    · exact absurd ((hval i hi).1.symm.trans k) hact.2
  have hvirt : ∀ i ∈ s'.fluid, ¬ S.HasVirtual q.x i := by
    rintro i hi ⟨h1, h2, -⟩
    rcases hsurf with k | k
    · rw [show S.cfg = P.cfg from rfl, k] at h1; cases h1
    · have hi2 := (hT i).1 hi
      have := k i hi
      rw [(hval i hi2.1).2.2.2.2, (finish_dens _).1] at this
      change env.n0 < S.reported q.x (scene s).dens i at this
      unfold Setting.reported at this
      rw [if_pos (fluid_active hi2.2), if_pos h1] at this
      have hn0 : S.env.n0 = env.n0 := by
        change s.env.n0 = _; rw [hconst]
      rw [hn0] at this h2
      rw [max_eq_right h2.le] at this
      exact lt_irrefl _ this
  -- the velocity change and the position after the step
  set q1 := S.kick (S.push q) q with hq1
  set dv : ℕ → Fin D → ℝ := fun i => S.push q i + (if S.cfg.ds then S.stabilise q.x q1 i else 0) with hdv
  have hfin : ∀ i, S.Fluid i → (S.finish q).u i = q.u i + dv i ∧ (S.finish q).x i = q.x i + dt • dv i := by
    intro i hf
    have hdt : S.env.dt = dt := rfl
    unfold Setting.finish
    simp only
    rw [← hq1]
    by_cases hds : S.cfg.ds = true
    · rw [if_pos hds]
      simp only [hdv, if_pos hds]
      unfold Setting.kick at hq1 ⊢
      simp only
      rw [if_pos hf, if_pos hf]
      rw [hq1]
      simp only
      rw [if_pos hf, if_pos hf, hdt]
      refine ⟨by abel, ?_⟩
      rw [smul_add]; abel
    · rw [if_neg hds]
      simp only [hdv, if_neg hds, add_zero]
      rw [hq1]
      unfold Setting.kick
      simp only
      rw [if_pos hf, if_pos hf, hdt]
      exact ⟨rfl, rfl⟩
  have hterm : ∀ i ∈ s'.fluid, wedge (s'.ps i).x ((s'.ps i).u - (s.ps i).u - dt • S.acceleration (scene s).x (scene s).u i) a b
      = wedge (q.x i) (S.push q i) a b + (if S.cfg.ds then wedge (q.x i) (S.stabilise q.x q1 i) a b else 0) := by
    intro i hi
    obtain ⟨hin, hf⟩ := (hT i).1 hi
    obtain ⟨e1, e2⟩ := hfin i hf
    rw [(hval i hin).2.1, (hval i hin).2.2.1, e1, e2]
    have e3 : q.u i = (s.ps i).u + dt • S.acceleration (scene s).x (scene s).u i := by
      change (if S.Fluid i then _ else _) = _
      rw [if_pos hf]; rfl
    have e4 : q.u i + dv i - (s.ps i).u - dt • S.acceleration (scene s).x (scene s).u i = dv i := by rw [e3]; abel
    rw [e4, add_wedge, smul_wedge, wedge_self, mul_zero, add_zero, hdv]
    simp only
    rw [wedge_add]
    congr 1
    split
    · rfl
    · unfold wedge; simp
  rw [Finset.sum_congr rfl hterm, Finset.sum_add_distrib, push_torque hT hF hgc hvirt, zero_add]
  by_cases hds : S.cfg.ds = true
  · simp only [if_pos hds]
    exact stabilise_torque hT hF q.x q1 a b
  · simp only [if_neg hds]
    exact Finset.sum_const_zero

open Classical in
/-- **C51.**  Angular momentum of an inviscid fluid (`nu = 0`): besides the torque of gravity at the new positions, it changes only by the second-order term
`dt u' ∧ u` of the time integration, which vanishes for every particle whose velocity keeps its direction. -/
theorem C51_angular_momentum_of_an_inviscid_fluid {P : Params ℝ D ω} {env : Env ℝ D} {w : ω} {s0 s s' : State ℝ D ω} {dts : List ℝ}
    (hD : D = 2 ∨ D = 3) (hnew : State.new? env w = some s0) (hist : Hist P s0 dts s) (hok : s0.grid.ClearOK) (hL : 0 < env.neighborLength)
    (hre : 0 ≤ env.re) (hgc : P.cfg.gc = false) (hcg : P.cfg.centralGravity = false) (hnu : env.nu = 0)
    (sch : Schedule) (hv : sch.Valid s.n) (dt : ℝ) (hdt : dt ≠ 0) (h : s.forwardTime P sch dt = .ok s')
    (hfl : OnlyFluid s') (hsurf : P.cfg.spp = false ∨ ∀ i ∈ s'.fluid, env.n0 < (s'.ps i).n) (a b : Fin D) :
    ∑ i ∈ s'.fluid, wedge (s'.ps i).x (s'.ps i).u a b =
      ∑ i ∈ s'.fluid, wedge (s.ps i).x (s.ps i).u a b + dt * ∑ i ∈ s'.fluid, wedge (s'.ps i).x env.g a b +
        dt * ∑ i ∈ s'.fluid, wedge (s'.ps i).u (s.ps i).u a b := by
  have key := C51_pressure_exerts_no_torque hD hnew hist hok hL hre hgc sch hv dt h hfl hsurf a b
  have hconst := hist_consts hnew hist
  have hn' : s'.n = s.n := (step_frame hv (Or.inl h)).1
  have hacc : ∀ i, (setting P s dt).acceleration (scene s).x (scene s).u i = env.g := by
    intro i
    unfold Setting.acceleration Setting.gravity
    rw [if_neg (by change ¬ P.cfg.centralGravity = true; rw [hcg]; decide)]
    rw [show (setting P s dt).env.nu = 0 by change s.env.nu = 0; rw [hconst]; exact hnu, zero_smul, zero_add]
    change s.env.g = _; rw [hconst]
  have e : ∀ i ∈ s'.fluid, wedge (s'.ps i).x ((s'.ps i).u - (s.ps i).u - dt • (setting P s dt).acceleration (scene s).x (scene s).u i) a b
      = wedge (s'.ps i).x (s'.ps i).u a b - wedge (s.ps i).x (s.ps i).u a b - dt * wedge (s'.ps i).x env.g a b
        - dt * wedge (s'.ps i).u (s.ps i).u a b := by
    intro i hi
    obtain ⟨hi, hf⟩ := mem_fluid.1 hi
    have hx : (s'.ps i).x = (s.ps i).x + dt • (s'.ps i).u := by
      exact C41_position_advances_by_new_velocity hv hdt h i (by rw [← hn']; exact hi)
    rw [hacc, wedge_sub, wedge_sub, wedge_smul]
    rw [show wedge (s'.ps i).x (s.ps i).u a b = wedge (s.ps i).x (s.ps i).u a b + dt * wedge (s'.ps i).u (s.ps i).u a b by
      rw [hx, add_wedge, smul_wedge]]
    ring
  rw [Finset.sum_congr rfl e, Finset.sum_sub_distrib, Finset.sum_sub_distrib, Finset.sum_sub_distrib, ← Finset.mul_sum, ← Finset.mul_sum] at key
  linarith

/-! ## The limit of the property: viscosity does exert a torque -/

namespace Passing

theorem near_other (dt : ℝ) (i : Nat) (hi : i < 2) : (setting P state dt).nearSolid (scene state).x i = {1 - i} := by
  have hlen : ∀ k j, k < 2 → j < 2 → k ≠ j → len ((scene state).x j - (scene state).x k) = 1 := by
    intro k j hk hj hkj
    change len ((state.ps j).x - (state.ps k).x) = 1
    rw [(state_vals j hj).2.2, (state_vals k hk).2.2]
    unfold len
    rw [Real.sqrt_eq_one]
    interval_cases k <;> interval_cases j <;> first | exact absurd rfl hkj | (simp [Fin.sum_univ_two]; norm_num)
  ext j
  rw [Finset.mem_singleton]
  constructor
  · intro h
    obtain ⟨-, -, k2, k3⟩ := nearSolid_symm hi (fluid_active (fluid dt i hi)) h
    have : j < 2 := k2
    omega
  · rintro rfl
    have hj : 1 - i < 2 := by omega
    have hne : 1 - i ≠ i := by omega
    unfold Setting.nearSolid Setting.near
    simp only [Finset.mem_filter, Finset.mem_range]
    have e3 : (setting P state dt).ty (1 - i) = .incompressibleNewton := fluid dt (1 - i) hj
    refine ⟨⟨hj, hne, by rw [e3]; decide, ?_, ?_⟩, by rw [e3]; decide⟩
    · change len ((scene state).x (1 - i) - (scene state).x i) < 4
      rw [hlen i (1 - i) hi hj (Ne.symm hne)]; norm_num
    · change len ((scene state).x (1 - i) - (scene state).x i) < 2
      rw [hlen i (1 - i) hi hj (Ne.symm hne)]; norm_num

theorem after {a : Scene 2} (ha : (setting P state (1 / 10)).step P.eps (scene state) = some a) (i : Nat) (hi : i < 2) :
    a.p i = 0 ∧ a.u i = exchanged (setting P state (1 / 10)) (scene state) i := by
  unfold Setting.step Setting.pressure at ha
  rw [if_pos (show (setting P state (1 / 10)).cfg.explicit = true from rfl)] at ha
  injection ha with ha
  have hp : ∀ i, i < 2 → (setting P state (1 / 10)).eos ((setting P state (1 / 10)).predict (scene state)).dens i = 0 := by
    intro i hi
    unfold Setting.eos
    have hd : ((setting P state (1 / 10)).predict (scene state)).dens i = 100 := by
      show (setting P state (1 / 10)).reported _ _ i = 100
      unfold Setting.reported
      rw [if_pos (fluid_active (fluid _ i hi)), if_pos (show (setting P state (1 / 10)).cfg.spp = true from rfl)]
      exact max_eq_right (densities _ i hi)
    rw [hd]
    show (1 : ℝ) ^ 2 * max ((1 : ℝ) * 100 / 100 - 1) 0 = 0
    norm_num
  rw [← ha]
  refine ⟨by rw [(finish_dens _).2]; exact hp i hi, ?_⟩
  set q : Scene 2 := { (setting P state (1 / 10)).predict (scene state) with
    p := (setting P state (1 / 10)).eos ((setting P state (1 / 10)).predict (scene state)).dens } with hq
  have key : ((setting P state (1 / 10)).finish q).u i = q.u i := finish_idle (S := setting P state (1 / 10)) (s := q) (fun j hj _ => hp j hj)
    (fun _ i j hi hj hij _ _ => le_trans (show |(1 / 2 : ℝ) - 1 / 10| ≤ 1 by norm_num) (apart (1 / 10) i j hi hj hij).1) hi
  refine key.trans ?_
  change ((setting P state (1 / 10)).predict (scene state)).u i = _
  unfold Setting.predict exchanged
  simp only
  rw [if_pos (fluid _ i hi)]
  unfold Setting.acceleration
  rw [gravity_zero rfl, add_zero]

/-- **C51**, the limit of the property: viscosity forces are parallel to the velocity differences, not to the line between the particles, and do exert a torque.
Two fluid particles pass each other without gravity, pressure and contact: the step changes their angular momentum. -/
theorem _root_.OpenMps.C51_viscosity_changes_angular_momentum : ∃ s' : State ℝ 2 Unit, state.forwardTime P (Schedule.serial 2) (1 / 10) = .ok s' ∧
    OnlyFluid s' ∧ env.g = 0 ∧ (∀ i, i < 2 → (s'.ps i).p = 0) ∧ s'.fluid = {0, 1} ∧
    ∑ i ∈ s'.fluid, wedge (s'.ps i).x (s'.ps i).u 0 1 ≠ ∑ i ∈ s'.fluid, wedge (state.ps i).x (state.ps i).u 0 1 := by
  have hok : new.grid.ClearOK := fun h => absurd h (by decide)
  obtain ⟨-, -, h3, -⟩ := C42_outcome (Or.inl rfl) new_eq state_hist hok (by norm_num [env]) (by norm_num [env]) _ (Schedule.serial_valid 2) (1 / 10)
  obtain ⟨s', h⟩ := h3.2 ⟨uncrowded, _, rfl⟩
  obtain ⟨a, ha, hval⟩ := C42_step_is_the_reference_function (Or.inl rfl) new_eq state_hist hok (by norm_num [env]) (by norm_num [env]) _ (Schedule.serial_valid 2) _ h
  have hn : s'.n = 2 := (step_frame (Schedule.serial_valid 2) (Or.inl h)).1
  have hty : ∀ i, i < 2 → (s'.ps i).ty = .incompressibleNewton := fun i hi => by
    rw [(hval i hi).1]; exact fluid _ i hi
  have hset : s'.fluid = {0, 1} := by
    ext i
    rw [mem_fluid, hn]
    simp only [Finset.mem_insert, Finset.mem_singleton]
    constructor
    · rintro ⟨h1, -⟩; omega
    · rintro (rfl | rfl)
      · exact ⟨by norm_num, hty 0 (by norm_num)⟩
      · exact ⟨by norm_num, hty 1 (by norm_num)⟩
  refine ⟨s', h, fun i hi => Or.inl (hty i (by rw [← hn]; exact hi)), rfl, ?_, hset, ?_⟩
  · intro i hi
    rw [(hval i hi).2.2.2.1]; exact (after ha i hi).1
  · have hlap : ∀ i, i < 2 → (setting P state (1 / 10)).laplace (len ((scene state).x (1 - i) - (scene state).x i)) = 6 / 100 := by
      intro i hi
      have hl : len ((scene state).x (1 - i) - (scene state).x i) = 1 := by
        change len ((state.ps (1 - i)).x - (state.ps i).x) = 1
        rw [(state_vals i hi).2.2, (state_vals (1 - i) (by omega)).2.2]
        unfold len
        rw [Real.sqrt_eq_one]
        interval_cases i <;> (simp [Fin.sum_univ_two]; try norm_num)
      unfold Setting.laplace
      rw [if_pos (show (setting P state (1 / 10)).cfg.hl = true from rfl), hl]
      show (5 - ((2 : ℕ) : ℝ)) * 2 / (100 * 1 ^ 3) = 6 / 100
      norm_num
    have hu : ∀ i, i < 2 → (s'.ps i).u = (state.ps i).u + (1 / 10 : ℝ) • ((6 / 100 : ℝ) • ((state.ps (1 - i)).u - (state.ps i).u)) := by
      intro i hi
      rw [(hval i hi).2.2.1, (after ha i hi).2]
      unfold exchanged
      rw [near_other _ i hi, Finset.sum_singleton, hlap i hi]
      show _ + (1 / 10 : ℝ) • ((1 : ℝ) • _) = _
      rw [one_smul]; rfl
    have hx : ∀ i, i < 2 → (s'.ps i).x = (state.ps i).x + (1 / 10 : ℝ) • (s'.ps i).u := fun i hi =>
      C41_position_advances_by_new_velocity (Schedule.serial_valid 2) (by norm_num) h i hi
    have u0 : (state.ps 0).u = ![0, 1] := by simp [state, State.addParticles, new, particles]
    have u1 : (state.ps 1).u = ![0, -1] := by simp [state, State.addParticles, new, particles]
    have x0 : (state.ps 0).x = ![4, 5] := by simp [state, State.addParticles, new, particles]
    have x1 : (state.ps 1).x = ![5, 5] := by simp [state, State.addParticles, new, particles]
    have e0 := hu 0 (by norm_num)
    have e1 := hu 1 (by norm_num)
    rw [hset, Finset.sum_pair (by norm_num), Finset.sum_pair (by norm_num), hx 0 (by norm_num), hx 1 (by norm_num), e0, e1]
    simp only [Nat.sub_zero, Nat.sub_self, u0, u1, x0, x1]
    unfold wedge
    simp
    norm_num

end Passing

/-! ## A concrete case with pressure: two compressed fluid particles -/

namespace Pushing

noncomputable def env : Env ℝ 2 := { Passing.env with nu := 0, n0 := 1 / 10, g := ![0, -10] }

noncomputable def new : State ℝ 2 Unit := { Passing.new with env := env, grid := env.builtGrid }

theorem new_eq : State.new? env () = some new := by
  unfold State.new?; rw [Env.builtGrid_eq]; rfl

noncomputable def state : State ℝ 2 Unit := new.addParticles Passing.particles

theorem state_hist : Hist Passing.P new [] state := .add _ .start

theorem uncrowded : ¬ Crowded state := by
  rintro ⟨c, -, h⟩
  have h1 : (cell state c).card ≤ 2 := by
    unfold cell
    refine (Finset.card_filter_le _ _).trans ?_
    simp [state, State.addParticles, new, Passing.new, Passing.particles]
  have h2 : ((⌈state.env.neighborLength / state.env.l0⌉ + 1) ^ 2).toNat = 81 := by
    have e : state.env.neighborLength / state.env.l0 = ((8 : ℤ) : ℝ) := by
      show (4 : ℝ) / (1 / 2) = _
      norm_num
    rw [e, Int.ceil_intCast]; rfl
  rw [h2] at h
  omega

theorem fluid (dt : ℝ) (i : Nat) (hi : i < 2) : (setting Passing.P state dt).Fluid i := Passing.fluid dt i hi

theorem predicted (i : Nat) (hi : i < 2) : ((setting Passing.P state (1 / 10)).predict (scene state)).x i =
    (if i = 0 then ![4, 5] else ![5, 5]) + (1 / 10 : ℝ) • ((if i = 0 then ![0, 1] else ![0, -1]) + (1 / 10 : ℝ) • ![0, -10]) := by
  unfold Setting.predict
  simp only
  rw [if_pos (fluid _ i hi), if_pos (fluid _ i hi)]
  have hacc : (setting Passing.P state (1 / 10)).acceleration (scene state).x (scene state).u i = ![0, -10] := by
    unfold Setting.acceleration Setting.gravity
    rw [show (setting Passing.P state (1 / 10)).env.nu = 0 from rfl, zero_smul, zero_add]
    exact if_neg (by decide)
  rw [hacc]
  show (scene state).x i + (1 / 10 : ℝ) • ((scene state).u i + (1 / 10 : ℝ) • ![0, -10]) = _
  have e1 : (scene state).x i = if i = 0 then ![4, 5] else ![5, 5] := by
    interval_cases i <;> simp [scene, state, State.addParticles, new, Passing.new, Passing.particles]
  have e2 : (scene state).u i = if i = 0 then ![0, 1] else ![0, -1] := by
    interval_cases i <;> simp [scene, state, State.addParticles, new, Passing.new, Passing.particles]
  rw [e1, e2]

theorem dense (i : Nat) (hi : i < 2) : 1 / 10 < (setting Passing.P state (1 / 10)).density ((setting Passing.P state (1 / 10)).predict (scene state)).x i := by
  have hj : 1 - i < 2 := by omega
  have hne : 1 - i ≠ i := by omega
  have hl : len (((setting Passing.P state (1 / 10)).predict (scene state)).x (1 - i) - ((setting Passing.P state (1 / 10)).predict (scene state)).x i) ^ 2 = 104 / 100 := by
    rw [len_sq_sum, predicted i hi, predicted (1 - i) hj]
    interval_cases i <;> (simp [Fin.sum_univ_two]; norm_num)
  have h0 : len ((scene state).x (1 - i) - (scene state).x i) ^ 2 = 1 := by
    rw [len_sq_sum]
    interval_cases i <;> (simp [scene, state, State.addParticles, new, Passing.new, Passing.particles, Fin.sum_univ_two]; try norm_num)
  have nn : ∀ v : Fin 2 → ℝ, 0 ≤ len v := fun v => Real.sqrt_nonneg _
  set r := len (((setting Passing.P state (1 / 10)).predict (scene state)).x (1 - i) - ((setting Passing.P state (1 / 10)).predict (scene state)).x i) with hr
  have hr0 : 1 ≤ r := by nlinarith [nn (((setting Passing.P state (1 / 10)).predict (scene state)).x (1 - i) - ((setting Passing.P state (1 / 10)).predict (scene state)).x i)]
  have hr1 : r < 11 / 10 := by nlinarith
  have hmem : 1 - i ∈ (setting Passing.P state (1 / 10)).near ((setting Passing.P state (1 / 10)).predict (scene state)).x i := by
    unfold Setting.near
    simp only [Finset.mem_filter, Finset.mem_range]
    have e3 : (setting Passing.P state (1 / 10)).ty (1 - i) = .incompressibleNewton := fluid _ (1 - i) hj
    refine ⟨hj, hne, by rw [e3]; decide, ?_, ?_⟩
    · change len ((scene state).x (1 - i) - (scene state).x i) < 4
      nlinarith [nn ((scene state).x (1 - i) - (scene state).x i)]
    · change r < 2
      linarith
  unfold Setting.density
  refine lt_of_lt_of_le ?_ (Finset.single_le_sum (f := fun j => weight (setting Passing.P state (1 / 10)).env.re
    (len (((setting Passing.P state (1 / 10)).predict (scene state)).x j - ((setting Passing.P state (1 / 10)).predict (scene state)).x i)))
    (fun j _ => weight_nonneg) hmem)
  rw [← hr]
  unfold weight
  have hre : (setting Passing.P state (1 / 10)).env.re = 2 := rfl
  rw [hre, if_pos ⟨by linarith, by linarith⟩, lt_sub_iff_add_lt, lt_div_iff₀ (by linarith)]
  linarith

/-- The step succeeds with positive pressures and meets the hypotheses of both theorems of C51. -/
example : ∃ s', state.forwardTime Passing.P (Schedule.serial 2) (1 / 10) = .ok s' ∧ OnlyFluid s' ∧ s'.fluid = {0, 1} ∧
    (∀ i ∈ s'.fluid, env.n0 < (s'.ps i).n) ∧ (∀ i ∈ s'.fluid, 0 < (s'.ps i).p) ∧
    ∑ i ∈ s'.fluid, wedge (s'.ps i).x (s'.ps i).u 0 1 =
      ∑ i ∈ s'.fluid, wedge (state.ps i).x (state.ps i).u 0 1 + (1 / 10) * ∑ i ∈ s'.fluid, wedge (s'.ps i).x env.g 0 1 +
        (1 / 10) * ∑ i ∈ s'.fluid, wedge (s'.ps i).u (state.ps i).u 0 1 := by
  have hok : new.grid.ClearOK := fun h => absurd h (by decide)
  have hL : 0 < env.neighborLength := by norm_num [env, Passing.env]
  have hre : 0 ≤ env.re := by norm_num [env, Passing.env]
  obtain ⟨-, -, h3, -⟩ := C42_outcome (Or.inl rfl) new_eq state_hist hok hL hre _ (Schedule.serial_valid 2) (1 / 10)
  obtain ⟨s', h⟩ := h3.2 ⟨uncrowded, _, rfl⟩
  obtain ⟨a, ha, hval⟩ := C42_step_is_the_reference_function (Or.inl rfl) new_eq state_hist hok hL hre _ (Schedule.serial_valid 2) _ h
  have hn : s'.n = 2 := (step_frame (Schedule.serial_valid 2) (Or.inl h)).1
  have hty : ∀ i, i < 2 → (s'.ps i).ty = .incompressibleNewton := fun i hi => by
    rw [(hval i hi).1]; exact fluid _ i hi
  have hset : s'.fluid = {0, 1} := by
    ext i
    rw [mem_fluid, hn]
    simp only [Finset.mem_insert, Finset.mem_singleton]
    constructor
    · rintro ⟨h1, -⟩; omega
    · rintro (rfl | rfl)
      · exact ⟨by norm_num, hty 0 (by norm_num)⟩
      · exact ⟨by norm_num, hty 1 (by norm_num)⟩
  have hfl : OnlyFluid s' := fun i hi => Or.inl (hty i (by rw [← hn]; exact hi))
  have hlt : ∀ i ∈ s'.fluid, i < 2 := fun i hi => by rw [← hn]; exact (mem_fluid.1 hi).1
  unfold Setting.step Setting.pressure at ha
  rw [if_pos (show (setting Passing.P state (1 / 10)).cfg.explicit = true from rfl)] at ha
  injection ha with ha
  have hd : ∀ i, i < 2 → 1 / 10 < ((setting Passing.P state (1 / 10)).predict (scene state)).dens i := by
    intro i hi
    show 1 / 10 < (setting Passing.P state (1 / 10)).reported _ _ i
    unfold Setting.reported
    rw [if_pos (fluid_active (fluid _ i hi)), if_pos (show (setting Passing.P state (1 / 10)).cfg.spp = true from rfl)]
    exact lt_of_lt_of_le (dense i hi) (le_max_left _ _)
  have hdens : ∀ i ∈ s'.fluid, env.n0 < (s'.ps i).n := by
    intro i hi
    rw [(hval i (hlt i hi)).2.2.2.2, ← ha, (finish_dens _).1]
    exact hd i (hlt i hi)
  refine ⟨s', h, hfl, hset, hdens, ?_, ?_⟩
  · intro i hi
    rw [(hval i (hlt i hi)).2.2.2.1, ← ha, (finish_dens _).2]
    show 0 < (setting Passing.P state (1 / 10)).eos _ i
    unfold Setting.eos
    have := hd i (hlt i hi)
    show 0 < (1 : ℝ) ^ 2 * max ((1 : ℝ) * _ / (1 / 10) - 1) 0
    rw [one_pow, one_mul, lt_max_iff]
    left
    rw [one_mul, sub_pos, lt_div_iff₀ (by norm_num), one_mul]
    exact this
  · exact C51_angular_momentum_of_an_inviscid_fluid (Or.inl rfl) new_eq state_hist hok hL hre rfl rfl rfl _ (Schedule.serial_valid 2) (1 / 10)
      (by norm_num) h hfl (Or.inr hdens) 0 1

end Pushing

end OpenMps
