import Verif.Props.Ppe

/-! # A concrete implicit simulation that meets the hypotheses of C17, C24, C27, C36 and C37

Two interacting fluid particles above a wall particle, and a single drop, in an environment made by the constructor. -/

set_option linter.unusedSectionVars false

namespace OpenMps

/-- Positions. -/
noncomputable def dropX (i : Nat) : Vec ℝ 2 :=
  match i with
  | 0 => ![1 / 2, 1 / 2]
  | 1 => ![3 / 5, 1 / 2]
  | 2 => ![1 / 2, 2 / 5]
  | _ => ![9 / 10, 9 / 10]

noncomputable def dropParticles : List (Particle ℝ 2) :=
  [{ x := dropX 0, u := 0, p := 0, n := 0, ty := .incompressibleNewton },
   { x := dropX 1, u := 0, p := 0, n := 0, ty := .incompressibleNewton },
   { x := dropX 2, u := 0, p := 0, n := 0, ty := .wall },
   { x := dropX 3, u := 0, p := 0, n := 0, ty := .incompressibleNewton }]

/-- The options of `defines.hpp`; walls at rest. -/
noncomputable def dropP : Params ℝ 2 Unit :=
  { cfg := Config.default, eps := 1 / 10 ^ 6, walls := { pre := fun w _ _ => w, pos := fun _ i _ _ => dropX i } }

noncomputable def dropEnv : Env ℝ 2 := (Env.mk? Config.default latticeArgs).get rfl

theorem dropEnv_eq : Env.mk? dropP.cfg latticeArgs = some dropEnv := rfl

noncomputable def dropNew : State ℝ 2 Unit :=
  { n := 0, ps := fun _ => Particle.new .disabled, env := dropEnv, grid := dropEnv.builtGrid, nbr := fun _ _ => 0
    ppe := { size := 0, x := fun _ => 0, b := fun _ => 0, rows := fun _ => [], A := fun _ _ => none }
    du := fun _ => 0, ecs := fun _ => 0, origX := fun _ => 0, nNoSpp := fun _ => 0, world := (), ub := false }

theorem dropNew_eq : State.new? dropEnv () = some dropNew := by
  unfold State.new?; rw [Env.builtGrid_eq]; rfl

theorem dropNew_ok : dropNew.grid.ClearOK := fun h => absurd h (by decide)

noncomputable def dropState : State ℝ 2 Unit := dropNew.addParticles dropParticles

theorem dropState_hist (P : Params ℝ 2 Unit) : Hist P dropNew [] dropState := .add _ .start

theorem dropEnv_vals : dropEnv.re = 24 / 100 ∧ dropEnv.neighborLength = 288 / 1000 ∧ dropEnv.l0 = 1 / 10 ∧ dropEnv.nu = 0 ∧ dropEnv.g = ![0, -98 / 10] ∧
    dropEnv.minX = ![0, 0] ∧ dropEnv.maxX = ![1, 1] ∧ dropEnv.maxDx = 1 / 100 := by
  obtain ⟨v1, v2, v3, v4, v5, v6, v7, v8⟩ := envmk_real dropEnv_eq
  refine ⟨?_, ?_, ?_, v4, ?_, rfl, rfl, ?_⟩
  · rw [v1]; simp only [latticeArgs]; norm_num
  · rw [v2]; simp only [latticeArgs]; norm_num
  · rfl
  · rw [v5]; funext a; fin_cases a
    · simp [ofInt_real]
    · simp [latticeArgs]; norm_num
  · rw [v3]; simp only [latticeArgs]; norm_num

theorem dropState_x (i : Nat) (hi : i < 4) : (dropState.ps i).x = dropX i ∧ (dropState.ps i).u = 0 ∧
    (dropState.ps i).ty = (if i = 2 then .wall else .incompressibleNewton) := by
  interval_cases i <;> exact ⟨rfl, rfl, rfl⟩

theorem dropState_spaced : ∀ i j, i < j → j < dropState.n → (dropState.ps i).ty ≠ .disabled →
    (dropState.ps j).ty ≠ .disabled → ∃ a, dropEnv.l0 ≤ |(dropState.ps i).x a - (dropState.ps j).x a| := by
  intro i j hij hj _ _
  have hj : j < 4 := hj
  rw [(dropState_x i (by omega)).1, (dropState_x j hj).1, dropEnv_vals.2.2.1]
  interval_cases j <;> interval_cases i
  · exact ⟨0, by simp only [dropX]; norm_num⟩
  · exact ⟨1, by simp only [dropX]; norm_num⟩
  · exact ⟨0, by simp only [dropX]; norm_num⟩
  · exact ⟨0, by simp only [dropX]; norm_num⟩
  · exact ⟨0, by simp only [dropX]; norm_num⟩
  · exact ⟨0, by simp only [dropX]; norm_num⟩

/-- The neighbour search succeeds and keeps all particles. -/
theorem dropState_search (dt : ℝ) : ∃ s1, (dropState.start dt).searchNeighbor (Schedule.serial 4 0) = .ok s1 ∧
    ∀ i, i < 4 → (s1.ps i).ty = (dropState.ps i).ty := by
  obtain ⟨s', h⟩ := C06_explicit_step_succeeds (P := { dropP with cfg := { Config.default with explicit := true } }) dropNew_eq
    (dropState_hist _) dropNew_ok (by rw [dropEnv_vals.2.2.1]; norm_num) (by rw [dropEnv_vals.2.1]; norm_num) dropState_spaced rfl _
    (Schedule.serial_valid 4) dt
  obtain ⟨s1, h1, h2⟩ := forwardTime_ok (Schedule.serial_valid 4) h
  refine ⟨s1, h1, ?_⟩
  intro i hi
  obtain ⟨s2, h3, rfl⟩ := afterSearch_ok h2
  obtain ⟨-, -, -, -, -, -, -, -, -, -, f11⟩ := pressureC_frame h3
  have hb := (C11_box dropNew_eq (dropState_hist _) (by rw [dropEnv_vals.2.1]; norm_num) _ (Schedule.serial_valid 4) _ h i hi
    (by rw [(dropState_x i hi).2.2]; split <;> decide)).1 (by
      intro a
      rw [(dropState_x i hi).1, dropEnv_vals.2.1, dropEnv_vals.2.2.2.2.2.1, dropEnv_vals.2.2.2.2.2.2.1]
      interval_cases i <;> fin_cases a <;> simp [dropX] <;> norm_num)
  rw [← hb, dsC_ty, gradC_ty, (f11 i).2.2.2, midC_ty]


/-- Bounds of the reference density of this environment. -/
theorem dropEnv_n0 : 4 < dropEnv.n0 ∧ dropEnv.n0 < 100 := by
  have hl : 0 < latticeArgs.l0 := by change (0 : ℝ) < 1 / 10; norm_num
  have h := (C28_n0_is_lattice_density dropEnv_eq hl).2.2.1
  have hr : latticeArgs.reByL0 ≤ ((3 : ℤ) : ℝ) := by change (24 / 10 : ℝ) ≤ _; norm_num
  rw [← list_sum_eq_finsum hr _ (fun v hv => hv), ← List.sum_toFinset _ (nodup_latticePts 3 2)] at h
  have hW1 : W (1 : ℝ) latticeArgs.reByL0 = 14 / 10 := by
    change W (1 : ℝ) (24 / 10) = _
    rw [W_real, if_pos ⟨one_pos, by norm_num⟩]; norm_num
  have hn1 : ∀ v ∈ ([![1, 0], ![0, 1], ![-1, 0], ![0, -1]] : List (Fin 2 → ℤ)), intNorm v = 1 := by
    intro v hv
    simp only [List.mem_cons, List.not_mem_nil, or_false] at hv
    unfold intNorm
    rcases hv with rfl | rfl | rfl | rfl <;> simp
  constructor
  · have hsub : ([![1, 0], ![0, 1], ![-1, 0], ![0, -1]] : List (Fin 2 → ℤ)).toFinset ⊆ (latticePts 2 3).toFinset := by decide
    have hge := Finset.sum_le_sum_of_subset_of_nonneg hsub (f := fun v => W (intNorm v) latticeArgs.reByL0) (fun v _ _ => W_nonneg _ _)
    rw [← h, List.sum_toFinset _ (by decide)] at hge
    have : (List.map (fun v => W (intNorm v) latticeArgs.reByL0) ([![1, 0], ![0, 1], ![-1, 0], ![0, -1]] : List (Fin 2 → ℤ))).sum = 56 / 10 := by
      have e : (List.map (fun v => W (intNorm v) latticeArgs.reByL0) ([![1, 0], ![0, 1], ![-1, 0], ![0, -1]] : List (Fin 2 → ℤ)))
          = List.map (fun _ => 14 / 10) ([![1, 0], ![0, 1], ![-1, 0], ![0, -1]] : List (Fin 2 → ℤ)) := by
        apply List.map_congr_left
        intro v hv
        rw [hn1 v hv, hW1]
      rw [e]
      norm_num
    linarith
  · have hle : ∀ v ∈ (latticePts 2 3).toFinset, W (intNorm v) latticeArgs.reByL0 ≤ 14 / 10 := by
      intro v _
      rw [W_real]
      split
      · rename_i hc
        have hv : v ≠ 0 := by
          rintro rfl
          have := hc.1
          unfold intNorm at this
          simp at this
        have h1 := one_le_intNorm hv
        have : latticeArgs.reByL0 / intNorm v ≤ 24 / 10 := by
          change (24 / 10 : ℝ) / _ ≤ _
          exact div_le_self (by norm_num) h1
        linarith
      · norm_num
    have := Finset.sum_le_card_nsmul _ _ _ hle
    rw [← h] at this
    have hc : (latticePts 2 3).toFinset.card = 36 := by decide
    rw [hc] at this
    norm_num at this
    linarith

theorem dropEnv_positive : dropEnv.Positive := by
  have hl : 0 < latticeArgs.l0 := by change (0 : ℝ) < 1 / 10; norm_num
  have hp := C28_n0_positive_iff dropEnv_eq hl (by norm_num)
  have hR : 1 < latticeArgs.reByL0 := by change (1 : ℝ) < 24 / 10; norm_num
  exact ⟨by rw [dropEnv_vals.1]; norm_num, hp.1.mpr hR, lt_of_lt_of_le (by positivity) (hp.2.2 hR).1⟩

/-- The state at the pressure computation. -/
theorem dropState_mid {dt : ℝ} : ∃ t, dropState.beforePressure dropP (Schedule.serial 4) dt = .ok t ∧ NbrOK t ∧ t.n = 4 ∧
    t.env = { dropEnv with t := t.env.t, dt := dt } ∧
    (∀ i, i < 4 → (t.ps i).ty = (dropState.ps i).ty ∧ (t.ps i).x = dropX i + (if i = 2 then 0 else ![0, -98 / 10 * dt ^ 2]) ∧
      ∀ j, j ∈ t.neighbors i ↔ j < 4 ∧ j ≠ i ∧ dist (dropX i) (dropX j) < 288 / 1000) := by
  obtain ⟨s1, h1, hty⟩ := dropState_search dt
  have hL : 0 < dropEnv.neighborLength := by rw [dropEnv_vals.2.1]; norm_num
  have hb := beforePressure_of_search (P := dropP) (sch := Schedule.serial 4) (Schedule.serial_valid 4) h1
  obtain ⟨f1, f2, f3⟩ := beforePressure_facts dropNew_eq (dropState_hist dropP) dropNew_ok hL (Schedule.serial_valid 4) hb
  obtain ⟨g0, g, nb, k1, k2, k3, k4, -⟩ := searchNeighbor_ok_frame (s := dropState.start dt) (Schedule.serial_valid 4 0) h1
  have hm := fun i => marked_ps { dropState.start dt with grid := g0 } (List.range (dropState.start dt).n) g i
  have hn1 : s1.n = 4 := by rw [k3]; rfl
  have henv1 : s1.env = (dropState.start dt).env := by rw [k3]; rfl
  have hN1 : NbrOK s1 := f1.congr (by rw [midC_n]) (by rw [midC_nbr]) (fun i => by rw [midC_ty])
  refine ⟨_, hb, f1, f2, f3, ?_⟩
  intro i hi
  refine ⟨by rw [midC_ty]; exact hty i hi, ?_, ?_⟩
  · have hx1 : (s1.ps i).x = dropX i := by rw [k3]; exact (hm i).1.trans (dropState_x i hi).1
    have hu1 : (s1.ps i).u = 0 := by rw [k3]; exact (hm i).2.1.trans (dropState_x i hi).2.1
    have hdt1 : s1.env.dt = dt := by rw [henv1]; rfl
    have hg1 : s1.env.g = ![0, -98 / 10] := by rw [henv1]; exact dropEnv_vals.2.2.2.2.1
    have ht1 : (s1.ps i).ty = if i = 2 then .wall else .incompressibleNewton := by rw [hty i hi]; exact (dropState_x i hi).2.2
    by_cases h2 : i = 2
    · rw [if_pos h2] at ht1
      rw [if_pos h2, (midC_wall dropP s1 i (by rw [hn1]; exact hi) (by rw [ht1]; decide)).1, add_zero]
      rfl
    · rw [if_neg h2] at ht1
      rw [if_neg h2]
      obtain ⟨a, q1, q2, q3⟩ := midC_fluid_accel dropP s1 i (by rw [hn1]; exact hi) ht1
      have hN0 : NbrOK ((s1.densC dropP.cfg).ecsC dropP.cfg) := hN1.congr rfl rfl (fun i => densC_ty _ _ _)
      rw [accel_inviscid hN0 (by change 0 ≤ s1.env.re; rw [henv1]; exact dropEnv_positive.re.le) rfl
        (by change s1.env.nu = 0; rw [henv1]; exact dropEnv_vals.2.2.2.1) i (by rw [← hn1] at hi; exact hi)
        (by rw [← ht1]; exact densC_ty _ _ _)] at q1
      injection q1 with q1
      have hg2 : ((s1.densC dropP.cfg).ecsC dropP.cfg).env.g = ![0, -98 / 10] := hg1
      rw [hg2] at q1
      rw [q3, q2, ← q1, hx1, hu1, hdt1, vmul_eq_smul, vmul_eq_smul, zero_add]
      congr 1
      funext a
      fin_cases a
      · simp
      · simp; ring
  · intro j
    have hd : (s1.ps i).ty ≠ .disabled := by rw [hty i hi, (dropState_x i hi).2.2]; split <;> decide
    obtain ⟨b0, b1, -⟩ := (dropState_hist dropP).built dropNew_eq
    have key := (C07_neighbour_lists_exact (s := dropState.start dt) (Schedule.serial_valid 4 0) dropNew_ok b0 b1 hL h1 i hi hd).2 j
    have e : (s1.midC dropP).neighbors i = s1.neighbors i := by unfold State.neighbors; rw [midC_nbr]
    rw [e, key]
    have e2 : (dropState.start dt).env.neighborLength = 288 / 1000 := dropEnv_vals.2.1
    rw [e2]
    constructor
    · rintro ⟨p1, p2, p3, p4⟩
      have p1 : j < 4 := p1
      refine ⟨p1, p3, ?_⟩
      rw [← (dropState_x i hi).1, ← (dropState_x j p1).1]; exact p4
    · rintro ⟨p1, p3, p4⟩
      refine ⟨p1, by rw [hty j p1, (dropState_x j p1).2.2]; split <;> decide, p3, ?_⟩
      rw [← (dropState_x i hi).1, ← (dropState_x j p1).1] at p4; exact p4

theorem dist_two (a b c d : ℝ) : dist (![a, b] : Vec ℝ 2) ![c, d] = Real.sqrt ((a - c) ^ 2 + (b - d) ^ 2) := by
  rw [dist_def, dot_real, Fin.sum_univ_two]
  simp only [Pi.sub_apply]
  congr 1
  simp
  ring


theorem abs_comp_le_norm2 {D : Nat} (v : Vec ℝ D) (a : Fin D) : |v a| ≤ norm2 v := by
  rw [norm2_real, dot_real, ← Real.sqrt_sq_eq_abs]
  refine Real.sqrt_le_sqrt ?_
  have := Finset.single_le_sum (f := fun a => v a * v a) (fun b _ => mul_self_nonneg (v b)) (Finset.mem_univ a)
  rw [sq]; exact this

/-- Positions at the pressure computation; `d` is the way fallen. -/
noncomputable def dropY (d : ℝ) (i : Nat) : Vec ℝ 2 :=
  match i with
  | 0 => ![1 / 2, 1 / 2 - d]
  | 1 => ![3 / 5, 1 / 2 - d]
  | 2 => ![1 / 2, 2 / 5]
  | _ => ![9 / 10, 9 / 10 - d]

theorem dropY_dist {d : ℝ} (h0 : 0 ≤ d) (h1 : d ≤ 1 / 1000) {i j : Nat} (hi : i < 3) (hj : j < 3) (hij : i ≠ j) :
    99 / 1000 ≤ dist (dropY d i) (dropY d j) ∧ dist (dropY d i) (dropY d j) ≤ 15 / 100 := by
  interval_cases i <;> interval_cases j <;> first
    | exact absurd rfl hij
    | (simp only [dropY, dist_two]
       constructor
       · apply Real.le_sqrt_of_sq_le; nlinarith
       · apply Real.sqrt_le_iff.mpr; constructor <;> nlinarith)

theorem dropX_dist {i j : Nat} (hi : i < 4) (hj : j < 4) (hij : i ≠ j) :
    dist (dropX i) (dropX j) < 288 / 1000 ↔ i ≠ 3 ∧ j ≠ 3 := by
  have hlt : ∀ x : ℝ, x < (288 / 1000) ^ 2 → Real.sqrt x < 288 / 1000 := fun x hx => (Real.sqrt_lt' (by norm_num)).mpr hx
  have hge : ∀ x : ℝ, (288 / 1000) ^ 2 ≤ x → ¬ Real.sqrt x < 288 / 1000 := fun x hx => not_lt.mpr (Real.le_sqrt_of_sq_le hx)
  interval_cases i <;> interval_cases j <;> first
    | exact absurd rfl hij
    | (simp only [dropX, dist_two]; refine ⟨fun _ => by decide, fun _ => hlt _ (by norm_num)⟩)
    | (simp only [dropX, dist_two]; refine ⟨fun h => absurd h (hge _ (by norm_num)), fun h => absurd h (by decide)⟩)

theorem W_drop {r : ℝ} (h0 : 99 / 1000 ≤ r) (h1 : r ≤ 15 / 100) : 6 / 10 ≤ W r (24 / 100) ∧ W r (24 / 100) ≤ 145 / 100 := by
  have hr : 0 < r := by linarith
  rw [W_real, if_pos ⟨hr, by linarith⟩]
  constructor
  · have : 16 / 10 ≤ 24 / 100 / r := by rw [le_div_iff₀ hr]; linarith
    linarith
  · have : 24 / 100 / r ≤ 245 / 100 := by rw [div_le_iff₀ hr]; linarith
    linarith

/-- All hypotheses of C24 and C27 are met, for every time step up to 1/100. -/
theorem dropState_solvable {dt : ℝ} (hdt : 0 < dt) (hdt1 : dt ≤ 1 / 100) :
    ∃ t, dropState.beforePressure dropP (Schedule.serial 4) dt = .ok t ∧ Separated t ∧ EveryBodyHasSurface dropP.cfg t ∧
      HasEquation dropP.cfg t 0 ∧ HasEquation dropP.cfg t 3 ∧ 1 ∈ t.near 0 ∧ t.neighbors 3 = [] := by
  obtain ⟨t, hb, hN, hn, henv, hps⟩ := dropState_mid (dt := dt)
  set d := 98 / 10 * dt ^ 2 with hd
  have hd0 : 0 ≤ d := by positivity
  have hd1 : d ≤ 1 / 1000 := by
    have : dt ^ 2 ≤ (1 / 100) ^ 2 := pow_le_pow_left₀ hdt.le hdt1 2
    rw [hd]; linarith
  have hx : ∀ i, i < 4 → (t.ps i).x = dropY d i := by
    intro i hi
    rw [(hps i hi).2.1]
    interval_cases i
    all_goals
      funext a
      fin_cases a <;> simp [dropX, dropY, hd] <;> ring
  have hre : t.env.re = 24 / 100 := by rw [henv]; exact dropEnv_vals.1
  have hn0 : 4 < t.env.n0 ∧ t.env.n0 < 100 := by rw [henv]; exact dropEnv_n0
  have hty : ∀ i, i < 4 → (t.ps i).ty = if i = 2 then .wall else .incompressibleNewton := by
    intro i hi; rw [(hps i hi).1]; exact (dropState_x i hi).2.2
  have hnb : ∀ i j, i < 4 → (j ∈ t.neighbors i ↔ j < 4 ∧ j ≠ i ∧ i ≠ 3 ∧ j ≠ 3) := by
    intro i j hi
    rw [(hps i hi).2.2 j]
    constructor
    · rintro ⟨a, b, c⟩; exact ⟨a, b, (dropX_dist hi a b.symm).mp c⟩
    · rintro ⟨a, b, c⟩; exact ⟨a, b, (dropX_dist hi a b.symm).mpr c⟩
  have hnear : ∀ i, i < 3 → t.near i = (Finset.range 3).erase i := by
    intro i hi
    ext j
    rw [mem_near, hnb i j (by omega), Finset.mem_erase, Finset.mem_range, hn]
    constructor
    · rintro ⟨a, ⟨b1, b2, b3, b4⟩, c⟩; exact ⟨b2, by omega⟩
    · rintro ⟨a, b⟩
      refine ⟨by omega, ⟨by omega, a, by omega, by omega⟩, ?_⟩
      rw [hx j (by omega), hx i (by omega), hre]
      have := (dropY_dist hd0 hd1 b hi a).2
      linarith
  have hE : ∀ i, i < 4 → HasEquation dropP.cfg t i := by
    intro i hi
    refine ⟨by rw [hn]; exact hi, ?_, ?_, Or.inl rfl⟩ <;> (rw [hty i hi]; split <;> decide)
  have hw : ∀ i j, i < 3 → j < 3 → i ≠ j → 6 / 10 ≤ W (dist (t.ps i).x (t.ps j).x) t.env.re ∧ W (dist (t.ps i).x (t.ps j).x) t.env.re ≤ 145 / 100 := by
    intro i j hi hj hij
    rw [hx i (by omega), hx j (by omega), hre]
    obtain ⟨a, b⟩ := dropY_dist hd0 hd1 hi hj hij
    exact W_drop a b
  have hV : ∀ i, i < 3 → HasVirtual t i := by
    intro i hi
    have hbig : ∀ (v : Vec ℝ 2) (a : Fin 2), 5 / 100 ≤ |v a| → (2⁻¹ : ℝ) ^ 52 < norm2 ((1 / t.env.n0) • v) := by
      intro v a hv
      refine lt_of_lt_of_le ?_ (abs_comp_le_norm2 _ a)
      rw [Pi.smul_apply, smul_eq_mul, abs_mul, abs_of_pos (by have := hn0.1; positivity)]
      have h1 : 1 / 100 ≤ 1 / t.env.n0 := one_div_le_one_div_of_le (by linarith) hn0.2.le
      have h2 : (1 / 100 : ℝ) * (5 / 100) ≤ 1 / t.env.n0 * |v a| := mul_le_mul h1 hv (by norm_num) (by have := hn0.1; positivity)
      refine lt_of_lt_of_le ?_ h2
      norm_num
    constructor
    · rw [hnear i hi]
      have : ∀ j ∈ (Finset.range 3).erase i, W (dist (t.ps i).x (t.ps j).x) t.env.re ≤ 145 / 100 := by
        intro j hj
        rw [Finset.mem_erase, Finset.mem_range] at hj
        exact (hw i j hi hj.2 hj.1.symm).2
      have := Finset.sum_le_card_nsmul _ _ _ this
      rw [Finset.card_erase_of_mem (Finset.mem_range.mpr hi), Finset.card_range] at this
      norm_num at this
      linarith [hn0.1]
    · rw [hnear i hi]
      interval_cases i
      · apply hbig _ 0
        have h1 := hw 0 1 (by norm_num) (by norm_num) (by norm_num)
        rw [show (Finset.range 3).erase 0 = {1, 2} by decide, Finset.sum_pair (by norm_num)]
        rw [Pi.add_apply, Pi.smul_apply, Pi.smul_apply, Pi.sub_apply, Pi.sub_apply]
        simp only [hx 0 (by norm_num), hx 1 (by norm_num), hx 2 (by norm_num)] at h1 ⊢
        have e1 : dropY d 1 0 - dropY d 0 0 = 1 / 10 := by simp [dropY]; norm_num
        have e2 : dropY d 2 0 - dropY d 0 0 = 0 := by simp [dropY]
        rw [e1, e2, smul_zero, add_zero, smul_eq_mul]
        refine le_trans ?_ (le_abs_self _)
        linarith [h1.1]
      · apply hbig _ 0
        have h1 := hw 1 0 (by norm_num) (by norm_num) (by norm_num)
        have h2 := hw 1 2 (by norm_num) (by norm_num) (by norm_num)
        rw [show (Finset.range 3).erase 1 = {0, 2} by decide, Finset.sum_pair (by norm_num)]
        rw [Pi.add_apply, Pi.smul_apply, Pi.smul_apply, Pi.sub_apply, Pi.sub_apply]
        simp only [hx 0 (by norm_num), hx 1 (by norm_num), hx 2 (by norm_num)] at h1 h2 ⊢
        have e1 : dropY d 0 0 - dropY d 1 0 = -(1 / 10) := by simp [dropY]; norm_num
        have e2 : dropY d 2 0 - dropY d 1 0 = -(1 / 10) := by simp [dropY]; norm_num
        rw [e1, e2, smul_eq_mul, smul_eq_mul]
        refine le_trans ?_ (neg_le_abs _)
        linarith [h1.1, h2.1]
      · apply hbig _ 1
        have h1 := hw 2 0 (by norm_num) (by norm_num) (by norm_num)
        have h2 := hw 2 1 (by norm_num) (by norm_num) (by norm_num)
        rw [show (Finset.range 3).erase 2 = {0, 1} by decide, Finset.sum_pair (by norm_num)]
        rw [Pi.add_apply, Pi.smul_apply, Pi.smul_apply, Pi.sub_apply, Pi.sub_apply]
        simp only [hx 0 (by norm_num), hx 1 (by norm_num), hx 2 (by norm_num)] at h1 h2 ⊢
        have e1 : dropY d 0 1 - dropY d 2 1 = 1 / 10 - d := by simp [dropY]; ring
        have e2 : dropY d 1 1 - dropY d 2 1 = 1 / 10 - d := by simp [dropY]; ring
        rw [e1, e2, smul_eq_mul, smul_eq_mul]
        refine le_trans ?_ (le_abs_self _)
        have h99 : 99 / 1000 ≤ 1 / 10 - d := by linarith
        nlinarith [h1.1, h2.1]
  have hal : t.neighbors 3 = [] := by
    apply List.eq_nil_iff_forall_not_mem.mpr
    intro j hj
    exact ((hnb 3 j (by norm_num)).mp hj).2.2.1 rfl
  refine ⟨t, hb, ?_, ?_, hE 0 (by norm_num), hE 3 (by norm_num), ?_, hal⟩
  · intro i j hi hj hij _ _ hc
    rw [hn] at hi hj
    rw [hx i hi, hx j hj] at hc
    have h0 := congrFun hc 0
    have h1 := congrFun hc 1
    interval_cases i <;> interval_cases j <;> first
      | exact absurd rfl hij
      | (simp only [dropY] at h0 h1; simp at h0 h1; linarith)
  · intro i hi
    have hi4 : i < 4 := by rw [← hn]; exact hi.1
    by_cases h3 : i = 3
    · subst h3; exact Or.inl ⟨rfl, hal⟩
    · exact Or.inr ⟨i, .refl, hi, Or.inl ⟨rfl, hV i (by omega)⟩⟩
  · rw [hnear 0 (by norm_num)]; decide

/-- C27 in action: the implicit step succeeds. -/
theorem dropState_step {dt : ℝ} (hdt : 0 < dt) (hdt1 : dt ≤ 1 / 100) :
    ∃ s', dropState.forwardTime dropP (Schedule.serial 4) dt = .ok s' := by
  obtain ⟨t, hb, hsep, hsurf, -⟩ := dropState_solvable hdt hdt1
  exact (C27_pressure_equation_solvable (Or.inl rfl) dropNew_eq (dropState_hist dropP) dropNew_ok (by rw [dropEnv_vals.2.1]; norm_num)
    dropEnv_positive _ (Schedule.serial_valid 4) dt hb hsep hsurf).1

/-- The hypotheses of C24 and C27, with interacting particles and a single drop. -/
example : ∃ t, dropState.beforePressure dropP (Schedule.serial 4) (1 / 100) = .ok t ∧ Separated t ∧ EveryBodyHasSurface dropP.cfg t ∧
    HasEquation dropP.cfg t 0 ∧ HasEquation dropP.cfg t 3 ∧ 1 ∈ t.near 0 ∧ t.neighbors 3 = [] :=
  dropState_solvable (by norm_num) (le_refl _)

theorem dropState_types {dt : ℝ} {s' : State ℝ 2 Unit} (h : dropState.forwardTime dropP (Schedule.serial 4) dt = .ok s') (i : Nat) (hi : i < 4) :
    (s'.ps i).ty = if i = 2 then .wall else .incompressibleNewton := by
  rw [(C11_box dropNew_eq (dropState_hist _) (by rw [dropEnv_vals.2.1]; norm_num) _ (Schedule.serial_valid 4) _ h i hi
    (by rw [(dropState_x i hi).2.2]; split <;> decide)).1 (by
      intro a
      rw [(dropState_x i hi).1, dropEnv_vals.2.1, dropEnv_vals.2.2.2.2.2.1, dropEnv_vals.2.2.2.2.2.2.1]
      interval_cases i <;> fin_cases a <;> simp [dropX] <;> norm_num)]
  exact (dropState_x i hi).2.2

/-- The hypotheses of C36: the single drop falls freely. -/
example : ∃ s', dropState.forwardTime dropP (Schedule.serial 4) (1 / 100) = .ok s' ∧
    (s'.ps 3).u = (dropState.ps 3).u + (1 / 100 : ℝ) • dropState.env.g ∧ (s'.ps 3).x = (dropState.ps 3).x + (1 / 100 : ℝ) • (s'.ps 3).u := by
  obtain ⟨s', h⟩ := dropState_step (dt := 1 / 100) (by norm_num) (le_refl _)
  refine ⟨s', h, C36_isolated_particle_falls_freely dropNew_eq (dropState_hist dropP) dropNew_ok (by rw [dropEnv_vals.2.1]; norm_num) rfl _
    (Schedule.serial_valid 4) _ h 3 (by decide) (dropState_types h 3 (by norm_num)) ?_⟩
  intro j hj hne _
  have hj : j < 4 := hj
  rw [dropEnv_vals.2.1, (dropState_x 3 (by norm_num)).1, (dropState_x j hj).1]
  by_contra hc
  exact ((dropX_dist (by norm_num) hj hne.symm).mp (not_le.mp hc)).1 rfl

/-- The hypotheses of C37: an automatic step. -/
example : ∃ dt s', dropState.determineDt = some dt ∧ dropState.forwardTimeAuto dropP (Schedule.serial 4) = .ok s' ∧
    ∀ i, i < dropState.n → (dropState.ps i).ty ≠ .incompressibleNewton → (dropState.ps i).ty ≠ .disabled →
      dropP.walls.pos (dropP.walls.pre dropState.world (dropState.env.t + dt) dt) i (dropState.env.t + dt) dt = (dropState.ps i).x := by
  obtain ⟨v1, v2, v3, v4, v5, v6, v7, v8⟩ := envmk_real dropEnv_eq
  have hmd : dropState.env.maxDt = min (1 / 100) (Real.sqrt (2 * (1 / 10 * (1 / 10)) / (98 / 10))) := v7
  have hmd0 : 0 < dropState.env.maxDt := by rw [hmd]; exact lt_min (by norm_num) (Real.sqrt_pos.mpr (by norm_num))
  have hdx : 0 < dropState.env.maxDx := by
    change 0 < dropEnv.maxDx
    rw [dropEnv_vals.2.2.2.2.2.2.2]; norm_num
  obtain ⟨dt, h1, h2, h3, -⟩ := C13_automatic_step_is_largest_cfl_step dropState (by decide) hmd0 hdx
  obtain ⟨s', hs⟩ := dropState_step (dt := dt) h2 (h3.trans (by rw [hmd]; exact min_le_left _ _))
  refine ⟨dt, s', h1, by rw [auto_forward h1]; exact hs, ?_⟩
  intro i hi _ _
  have hi : i < 4 := hi
  rw [(dropState_x i hi).1]; rfl

/-- The hypotheses of C17: a density computation after a neighbour search. -/
example : ∃ s1, (dropState.start (1 / 100)).searchNeighbor (Schedule.serial 4 0) = .ok s1 ∧ (s1.ps 0).ty = .incompressibleNewton := by
  obtain ⟨s1, h, hty⟩ := dropState_search (1 / 100)
  exact ⟨s1, h, by rw [hty 0 (by norm_num)]; rfl⟩

end OpenMps
