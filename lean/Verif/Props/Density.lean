import Verif.Props.TimeStep
import Verif.Lemmas.Before

/-! # Properties C17, C36, C37 (densities, neighbourhood) -/

set_option linter.unusedSectionVars false

namespace OpenMps

variable {D : Nat} {ω : Type}

/-- The weight sum of the listed near neighbours. -/
noncomputable def State.nearDensity (s : State ℝ D ω) (i : Nat) : ℝ :=
  ∑ j ∈ s.near i, W (dist (s.ps i).x (s.ps j).x) s.env.re

theorem densCompute_real {cfg : Config} {s : State ℝ D ω} (h : NbrOK s) (hre : 0 ≤ s.env.re) (i : Nat) (hi : i < s.n)
    (hty : (s.ps i).ty.active = true) :
    s.densCompute cfg i = (s.nearDensity i, some (if cfg.spp then max (s.nearDensity i) s.env.n0 else s.nearDensity i)) := by
  have hd : (s.ps i).ty ≠ .disabled := by
    intro hc; rw [hc] at hty; exact absurd hty (by decide)
  -- the sum
  have key : ∀ t : State ℝ D ω, t = s ∨ t = { s with nNoSpp := upd s.nNoSpp i s.env.n0 } →
      (cfg.spp = true → t.nNoSpp i = s.env.n0) →
      t.accumulate cfg i (0 : ℝ) (fun j q' => if cfg.spp && decide (j < 0) then 0 else W (dist (s.ps i).x q'.x) s.env.re)
        = s.nearDensity i := by
    intro t ht hsp
    have hps : t.ps = s.ps := by rcases ht with rfl | rfl <;> rfl
    have hen : t.env = s.env := by rcases ht with rfl | rfl <;> rfl
    have hnn : t.n = s.n := by rcases ht with rfl | rfl <;> rfl
    have hnb : t.nbr = s.nbr := by rcases ht with rfl | rfl <;> rfl
    have hN : NbrOK t := h.congr hnn hnb (fun k => by rw [hps])
    have e := accumulate_real (s := t) cfg i
      (fun j q' => if cfg.spp && decide (j < 0) then (0 : ℝ) else W (dist (s.ps i).x q'.x) s.env.re) (by rw [hen]; exact hre) hN
      (by rw [hnn]; exact hi) (by rw [hps]; exact hd)
    refine Eq.trans e ?_
    have h0 : t.sppTerm cfg i
        (fun j q' => if cfg.spp && decide (j < 0) then (0 : ℝ) else W (dist (s.ps i).x q'.x) s.env.re) = 0 := by
      unfold State.sppTerm
      split
      · rename_i hs
        cases t.sppParticle i (t.dxg i) with
        | none => rfl
        | some q => simp [hs]
      · rfl
    rw [h0, add_zero]
    have hnear : t.near i = s.near i := by
      unfold State.near State.neighbors; rw [hps, hen, hnn, hnb]
    rw [hnear]
    unfold State.nearDensity
    apply Finset.sum_congr rfl
    intro j _
    have hj : ¬ ((j : Int) < 0) := not_lt.mpr (Int.natCast_nonneg j)
    simp only [hj, decide_false, Bool.and_false, Bool.false_eq_true, if_false, hps]
  unfold State.densCompute
  simp only [hty, if_true]
  have e1 : (if cfg.spp = true then { s with nNoSpp := upd s.nNoSpp i s.env.n0 } else s).accumulate cfg i (0 : ℝ)
      (fun j q' => if cfg.spp && decide (j < 0) then 0 else W (dist (s.ps i).x q'.x) s.env.re) = s.nearDensity i := by
    apply key
    · split
      · exact Or.inr rfl
      · exact Or.inl rfl
    · intro hs; rw [if_pos hs]; exact upd_same _ _ _
  rw [e1]
  congr 2
  split
  · unfold stdMax
    simp only [lt_real, decide_eq_true_eq]
    split
    · rename_i hlt; exact (max_eq_right hlt.le).symm
    · rename_i hlt; exact (max_eq_left (not_lt.mp hlt)).symm
  · rfl

theorem densC_n_real {cfg : Config} {s : State ℝ D ω} (h : NbrOK s) (hre : 0 ≤ s.env.re) (i : Nat) (hi : i < s.n)
    (hty : (s.ps i).ty.active = true) :
    ((s.densC cfg).ps i).n = if cfg.spp then max (s.nearDensity i) s.env.n0 else s.nearDensity i := by
  unfold State.densC
  simp only [hi, if_true, densCompute_real h hre i hi hty]

theorem densC_nNoSpp_real {cfg : Config} {s : State ℝ D ω} (h : NbrOK s) (hre : 0 ≤ s.env.re) (i : Nat) (hi : i < s.n)
    (hty : (s.ps i).ty.active = true) (hs : cfg.spp = true) : (s.densC cfg).nNoSpp i = s.nearDensity i := by
  unfold State.densC
  simp only [hi, if_true, hs, densCompute_real h hre i hi hty]

/-- The listed neighbours include every enabled particle closer than `r_e`. -/
def Covered (s : State ℝ D ω) : Prop :=
  ∀ i j, i < s.n → j < s.n → (s.ps i).ty ≠ .disabled → (s.ps j).ty ≠ .disabled → j ≠ i →
    dist (s.ps i).x (s.ps j).x < s.env.re → j ∈ s.neighbors i

/-- The weight sum over all other enabled particles. -/
noncomputable def allPairsDensity (s : State ℝ D ω) (i : Nat) : ℝ :=
  ∑ j ∈ (Finset.range s.n).filter (fun j => j ≠ i ∧ (s.ps j).ty ≠ .disabled), W (dist (s.ps i).x (s.ps j).x) s.env.re

theorem nearDensity_covered {s : State ℝ D ω} (h : NbrOK s) (hc : Covered s) (i : Nat) (hi : i < s.n)
    (hd : (s.ps i).ty ≠ .disabled) : s.nearDensity i = allPairsDensity s i := by
  unfold State.nearDensity allPairsDensity
  apply Finset.sum_subset
  · intro j hj
    obtain ⟨a, b, c⟩ := h.near_ne hi hd hj
    rw [Finset.mem_filter, Finset.mem_range]
    exact ⟨a, b, c⟩
  · intro j hj hnj
    rw [Finset.mem_filter, Finset.mem_range] at hj
    rw [W_real, if_neg]
    rintro ⟨-, hlt⟩
    apply hnj
    rw [mem_near, dist_comm']
    exact ⟨hj.1, hc i j hi hj.1 hd hj.2.2 hj.2.1 hlt, hlt⟩

theorem covered_of_search {s s1 : State ℝ D ω} {sch : List Ev} (hv : ValidSched s.n sch)
    (hok : s.grid.ClearOK) (hub : s.ub = false) (hbl : s.grid.blockLength = s.env.neighborLength)
    (hL : 0 < s.env.neighborLength) (h : s.searchNeighbor sch = .ok s1) :
    s1.n = s.n ∧ s1.env = s.env ∧ (∀ i, (s1.ps i).x = (s.ps i).x) ∧
    ∀ i j, i < s1.n → j < s1.n → (s1.ps i).ty ≠ .disabled → (s1.ps j).ty ≠ .disabled → j ≠ i →
      dist (s1.ps i).x (s1.ps j).x < s1.env.neighborLength → j ∈ s1.neighbors i := by
  obtain ⟨g0, g, nb, k1, k2, k3, k4, -⟩ := searchNeighbor_ok_frame hv h
  have hn : s1.n = s.n := by rw [k3]; rfl
  have henv : s1.env = s.env := by rw [k3]; rfl
  have hx : ∀ i, (s1.ps i).x = (s.ps i).x := by
    intro i; rw [k3]; exact (marked_ps { s with grid := g0 } (List.range s.n) g i).1
  refine ⟨hn, henv, hx, ?_⟩
  intro i j hi hj hdi hdj hne hlt
  rw [(C07_neighbour_lists_exact hv hok hub hbl hL h i (by rw [← hn]; exact hi) hdi).2 j]
  rw [hx, hx, henv] at hlt
  exact ⟨by rw [← hn]; exact hj, hdj, hne, hlt⟩

/-! ## C17 -/

/-- **C17.**  After a neighbour search, the density computation (under any schedule) sets `N` of every fluid and wall particle to
the weight sum over all other enabled particles, floored at `n0` with SPP, and keeps `N` of dummy and disabled particles. -/
theorem C17_density_is_all_pairs_sum (cfg : Config) {s s1 : State ℝ D ω} {sch sch' : List Ev} (hv : ValidSched s.n sch)
    (hv' : ValidSched s.n sch')
    (hok : s.grid.ClearOK) (hub : s.ub = false) (hbl : s.grid.blockLength = s.env.neighborLength)
    (hL : 0 < s.env.neighborLength) (hre : 0 ≤ s.env.re) (hreL : s.env.re ≤ s.env.neighborLength)
    (h : s.searchNeighbor sch = .ok s1) (i : Nat) (hi : i < s.n) :
    (((s1.ps i).ty ≠ .dummy ∧ (s1.ps i).ty ≠ .disabled) →
      ((s1.computeDensities cfg sch').ps i).n
        = if cfg.spp then max (allPairsDensity s1 i) s.env.n0 else allPairsDensity s1 i) ∧
    (((s1.ps i).ty = .dummy ∨ (s1.ps i).ty = .disabled) →
      ((s1.computeDensities cfg sch').ps i).n = (s.ps i).n) := by
  obtain ⟨hn, henv, hx, hcov⟩ := covered_of_search hv hok hub hbl hL h
  have hN := nbrOK_of_search hv hok hub hbl hL h
  rw [computeDensities_C cfg s1 sch' (by rw [hn]; exact hv')]
  constructor
  · rintro ⟨h1, h2⟩
    have hcv : Covered s1 := by
      intro a b ha hb hda hdb hne hlt
      refine hcov a b ha hb hda hdb hne (lt_of_lt_of_le hlt ?_)
      rw [henv]; exact hreL
    rw [densC_n_real hN (by rw [henv]; exact hre) i (by rw [hn]; exact hi) (by simp [PType.active, h1, h2]),
      nearDensity_covered hN hcv i (by rw [hn]; exact hi) h2, henv]
  · intro hh
    obtain ⟨g0, g, nb, k1, k2, k3, k4, -⟩ := searchNeighbor_ok_frame hv h
    have hnn : (s1.ps i).n = (s.ps i).n := by
      rw [k3]; exact (marked_ps { s with grid := g0 } (List.range s.n) g i).2.2.2.1
    have hact : (s1.ps i).ty.active = false := by
      rcases hh with hh | hh <;> rw [hh] <;> decide
    rw [← hnn]
    unfold State.densC State.densCompute
    simp only [hact, Bool.false_eq_true, if_false]
    split <;> rfl

/-! ## C37 -/

/-- **C37.**  If since the search no two enabled particles have approached each other by more than the margin
`NeighborLength - r_e`, every pair now closer than `r_e` is still in each other's lists.  `t` is any later state of the step: same
particles, types and neighbour table as after the search (`s1`), other positions. -/
theorem C37_lists_still_cover {s s1 t : State ℝ D ω} {sch : List Ev} (hv : ValidSched s.n sch)
    (hok : s.grid.ClearOK) (hub : s.ub = false) (hbl : s.grid.blockLength = s.env.neighborLength)
    (hL : 0 < s.env.neighborLength) (h : s.searchNeighbor sch = .ok s1)
    (hn : t.n = s1.n) (hnbr : t.nbr = s1.nbr) (hty : ∀ i, (t.ps i).ty = (s1.ps i).ty) (henv : t.env = s1.env)
    (hdisp : ∀ i j, i < t.n → j < t.n → (t.ps i).ty ≠ .disabled → (t.ps j).ty ≠ .disabled →
      dist (s.ps i).x (s.ps j).x ≤ dist (t.ps i).x (t.ps j).x + (s.env.neighborLength - s.env.re)) :
    Covered t := by
  obtain ⟨hn1, henv1, hx1, hcov⟩ := covered_of_search hv hok hub hbl hL h
  intro i j hi hj hdi hdj hne hlt
  have e : t.neighbors i = s1.neighbors i := by unfold State.neighbors; rw [hnbr]
  have hd := hdisp i j hi hj hdi hdj
  rw [e]
  rw [hty] at hdi hdj
  rw [hn] at hi hj
  refine hcov i j hi hj hdi hdj hne ?_
  rw [hx1, hx1, henv1]
  rw [henv, henv1] at hlt
  linarith

theorem norm2_vadd (v w : Vec ℝ D) : norm2 (v + w) ≤ norm2 v + norm2 w := by
  have h1 := dist_triangle' (v + w) w 0
  rw [← norm2_sub, ← norm2_sub, ← norm2_sub, sub_zero, sub_zero, add_sub_cancel_right] at h1
  exact h1

theorem norm2_smul (c : ℝ) (v : Vec ℝ D) : norm2 (c • v) = |c| * norm2 v := by
  rw [norm2_real, norm2_real, ← smul_eq_smul, dot_smul_left, dot_comm, dot_smul_left, ← mul_assoc,
    Real.sqrt_mul (mul_self_nonneg c), Real.sqrt_mul_self_eq_abs]

/-- Displacements: positions `x + d`. -/
theorem dist_le_displaced (x y d e : Vec ℝ D) : dist x y ≤ dist (x + d) (y + e) + norm2 (d - e) := by
  have : x - y = (x + d - (y + e)) + -(d - e) := by abel
  rw [← norm2_sub, ← norm2_sub, this]
  calc _ ≤ norm2 (x + d - (y + e)) + norm2 (-(d - e)) := norm2_vadd _ _
    _ = _ := by rw [norm2_neg]

theorem norm2_vsub (v w : Vec ℝ D) : norm2 (v - w) ≤ norm2 v + norm2 w := by
  rw [sub_eq_add_neg]
  calc _ ≤ norm2 v + norm2 (-w) := norm2_vadd _ _
    _ = _ := by rw [norm2_neg]

theorem norm2_gravity (g : ℝ) : norm2 (fun a : Fin D => if a.val + 1 = D then -g else Scalar.ofInt 0 : Vec ℝ D) ≤ |g| := by
  rw [norm2_real, ← Real.sqrt_mul_self_eq_abs]
  apply Real.sqrt_le_sqrt
  rw [dot_real]
  cases D with
  | zero => simp; exact mul_self_nonneg g
  | succ D =>
    rw [Fin.sum_univ_castSucc]
    have h0 : ∀ a : Fin D, ¬ (a.castSucc.val + 1 = D + 1) := by intro a; have := a.isLt; simp; omega
    simp only [h0, if_false, Fin.val_last, if_true, ofInt_real]
    simp

/-- The parameters made by the environment constructor, in exact arithmetic. -/
theorem envmk_real {cfg : Config} {e : EnvArgs ℝ D} {env : Env ℝ D} (h : Env.mk? cfg e = some env) :
    env.re = e.reByL0 * e.l0 ∧ env.neighborLength = e.reByL0 * e.l0 * (1 + e.courant * 2) ∧ env.maxDx = e.courant * e.l0 ∧
    env.nu = e.nu ∧ env.g = (fun a => if a.val + 1 = D then -e.g else Scalar.ofInt 0) ∧ env.l0 = e.l0 ∧
    env.maxDt = (if cfg.explicit then min e.maxDt ((e.courant * e.l0) / e.c)
      else min e.maxDt (Real.sqrt (2 * (e.courant * e.l0) / e.g))) ∧ env.rho = e.rho := by
  unfold Env.mk? at h
  simp only [Scalar.ceilIdx, Option.some.injEq] at h
  rw [← h]
  refine ⟨rfl, ?_, rfl, rfl, rfl, rfl, ?_, rfl⟩
  · simp only [ofInt_real]; norm_num
  · simp only [stdMin_real, sqrt_real, ofInt_real]; norm_num

/-- Without viscosity the acceleration of the first stage is gravity. -/
theorem accel_inviscid {cfg : Config} {s : State ℝ D ω} (h : NbrOK s) (hre : 0 ≤ s.env.re) (hcg : cfg.centralGravity = false)
    (hnu : s.env.nu = 0) (i : Nat) (hi : i < s.n) (hty : (s.ps i).ty = .incompressibleNewton) :
    s.accelCompute cfg i = some s.env.g := by
  unfold State.accelCompute
  rw [if_pos hty, visc_accumulate cfg h hre i hi (by rw [hty]; decide)]
  unfold State.gravity
  rw [hcg]
  have : ∑ j ∈ s.near i, s.viscFunc cfg i j (s.ps j) = 0 := by
    apply Finset.sum_eq_zero
    intro j _
    unfold State.viscFunc
    split
    · simp only [hnu]
      split
      · funext a; simp [OpenMps.smul]
      · funext a; simp [OpenMps.smul]
    · rfl
  rw [this]
  simp

/-- The positions at which the later phases of a step evaluate the interactions, for an inviscid fluid and walls at rest. -/
noncomputable def inviscidMid (s s' : State ℝ D ω) (dt : ℝ) (i : Nat) : Vec ℝ D :=
  if (s'.ps i).ty = .incompressibleNewton then (s.ps i).x + dt • ((s.ps i).u + dt • s.env.g) else (s.ps i).x

/-- **C37, C17.**  For an environment made by the constructor (implicit pressure, no viscosity, `r_e >= 1.5 l0`), walls at rest and the
automatic time step: one neighbour search is enough for all phases up to the pressure gradient.  At the positions `y` reached after the first
stage (the state `t` at the pressure computation), all pairs of enabled particles closer than `r_e` are in the neighbour lists; and the density reported after the step is the
all-pairs weight sum at these positions, floored at `n0` with SPP. -/
theorem C37_automatic_step_needs_one_search {P : Params ℝ D ω} {args : EnvArgs ℝ D} {env : Env ℝ D} {w : ω} {s0 s s' : State ℝ D ω}
    {dts : List ℝ} (henv : Env.mk? P.cfg args = some env)
    (hnew : State.new? env w = some s0) (hist : Hist P s0 dts s) (hok : s0.grid.ClearOK)
    (hexp : P.cfg.explicit = false) (hcg : P.cfg.centralGravity = false) (hnu : args.nu = 0)
    (hmax : 0 < args.maxDt) (hc : 0 < args.courant) (hl : 0 < args.l0) (hg : 0 < args.g) (hre : 3 / 2 ≤ args.reByL0)
    (sch : Schedule) (hv : sch.Valid s.n) (dt : ℝ) (hdt : s.determineDt = some dt) (h : s.forwardTimeAuto P sch = .ok s')
    (hwalls : ∀ i, i < s.n → (s.ps i).ty ≠ .incompressibleNewton → (s.ps i).ty ≠ .disabled →
      P.walls.pos (P.walls.pre s.world (s.env.t + dt) dt) i (s.env.t + dt) dt = (s.ps i).x) :
    (∃ t, s.beforePressure P sch dt = .ok t ∧ t.n = s.n ∧ (∀ i, (t.ps i).ty = (s'.ps i).ty) ∧
      (∀ i, i < s.n → (s'.ps i).ty ≠ .disabled → (t.ps i).x = inviscidMid s s' dt i) ∧ Covered t) ∧
    ∀ i, i < s.n → (s'.ps i).ty ≠ .dummy → (s'.ps i).ty ≠ .disabled →
      (s'.ps i).n =
        let N := ∑ j ∈ (Finset.range s.n).filter (fun j => j ≠ i ∧ (s'.ps j).ty ≠ .disabled),
          W (dist (inviscidMid s s' dt i) (inviscidMid s s' dt j)) env.re
        if P.cfg.spp then max N env.n0 else N := by
  rw [auto_forward hdt] at h
  obtain ⟨v1, v2, v3, v4, v5, v6, v7, -⟩ := envmk_real henv
  have hre0 : 0 < env.re := by rw [v1]; positivity
  have hL : 0 < env.neighborLength := by rw [v2]; positivity
  have hdx : 0 < env.maxDx := by rw [v3]; positivity
  have hdtm : 0 < env.maxDt := by
    rw [v7, hexp]
    simp only [Bool.false_eq_true, if_false]
    exact lt_min hmax (Real.sqrt_pos.mpr (by positivity))
  obtain ⟨b0, b1, b2, b3, b4, b5, b6, b7, b8, b9, b10, b11, b12⟩ := hist.built hnew
  obtain ⟨-, hgeo, -⟩ := hist.frame
  -- constant parameters along the history
  have hconst : s.env.nu = env.nu ∧ s.env.g = env.g := by
    refine Hist.rec' (Q := fun _ s => s.env.nu = env.nu ∧ s.env.g = env.g) ?_ ?_ ?_ hist
    · unfold State.new? at hnew
      rw [mkGrid_real] at hnew
      simp only [Option.some.injEq] at hnew
      rw [← hnew]; exact ⟨rfl, rfl⟩
    · intro _ _ _ _ h; exact h
    · intro _ _ _ _ _ _ h hv hl
      rw [(step_frame hv hl).2.1]; exact h
  obtain ⟨s1, s2, h1, h3, h4, hN1, hn1, henv1, hps1, hre1, hn01, hw1⟩ := step_stages hnew hist hok hL hv h
  obtain ⟨f1, f2, -, f4, f5, -, -, f8, f9, -, f11⟩ := pressureC_frame h3
  -- positive number of particles
  have hn : 0 < s.n := by
    by_contra hc
    have : s.n = 0 := by omega
    unfold State.determineDt at hdt
    rw [if_pos this] at hdt
    cases hdt
  obtain ⟨dt', d1, d2, d3, d4, -⟩ := C13_automatic_step_is_largest_cfl_step s hn (by rw [b12]; exact hdtm) (by rw [b11]; exact hdx)
  rw [hdt] at d1
  injection d1 with d1
  subst d1
  have hfr := (step_frame hv (Or.inl h)).2.2.2.2
  -- the first stage
  have hN0 : NbrOK ((s1.densC P.cfg).ecsC P.cfg) := hN1.congr rfl rfl (fun i => densC_ty _ _ _)
  have hmidx : ∀ i, i < s.n → (s'.ps i).ty ≠ .disabled → ((s1.midC P).ps i).x = inviscidMid s s' dt i := by
    intro i hi hd
    have hi1 : i < s1.n := by rw [hn1]; exact hi
    have hty1 := (hps1 i).2.2.2.2
    unfold inviscidMid
    split
    · rename_i hf
      obtain ⟨a, k1, k2, k3⟩ := midC_fluid_accel P s1 i hi1 (by rw [hty1]; exact hf)
      rw [accel_inviscid hN0 (by change 0 ≤ s1.env.re; rw [hre1]; exact hre0.le) hcg
        (by change s1.env.nu = 0; rw [henv1]; change s.env.nu = 0; rw [hconst.1, v4, hnu]) i hi1
        (by rw [← hf, ← hty1]; exact densC_ty _ _ _)] at k1
      injection k1 with k1
      have hg1 : ((s1.densC P.cfg).ecsC P.cfg).env.g = s.env.g := by change s1.env.g = _; rw [henv1]
      rw [hg1] at k1
      have hdt1 : s1.env.dt = dt := by rw [henv1]
      rw [k3, k2, ← k1, vmul_eq_smul, vmul_eq_smul, hdt1, (hps1 i).1, (hps1 i).2.1]
    · rename_i hf
      have hm := (midC_wall P s1 i hi1 (by rw [hty1]; exact hf)).1
      rw [hm, hw1, henv1]
      have hts : (s.ps i).ty = (s'.ps i).ty := by
        rcases hfr i with k | ⟨-, -, k, -⟩
        · exact k.symm
        · exact absurd k hd
      exact hwalls i hi (by rw [hts]; exact hf) (by rw [hts]; exact hd)
  -- bound of the displacements
  have hgn : norm2 s.env.g ≤ args.g := by
    rw [hconst.2, v5]
    calc _ ≤ |args.g| := norm2_gravity args.g
      _ = args.g := abs_of_pos hg
  have hgdt : args.g * (dt * dt) ≤ 2 * (args.courant * args.l0) := by
    have hle : dt ≤ Real.sqrt (2 * (args.courant * args.l0) / args.g) := by
      rw [b12, v7, hexp] at d3
      simp only [Bool.false_eq_true, if_false] at d3
      exact d3.trans (min_le_right _ _)
    have hq : 0 ≤ 2 * (args.courant * args.l0) / args.g := by positivity
    have := mul_le_mul hle hle d2.le (Real.sqrt_nonneg _)
    rw [Real.mul_self_sqrt hq, le_div_iff₀ hg] at this
    linarith
  have hudt : ∀ i, i < s.n → norm2 (dt • (s.ps i).u) ≤ args.courant * args.l0 := by
    intro i hi
    rw [norm2_smul, abs_of_pos d2, ← v3, ← b11, mul_comm]
    exact d4 i hi
  have hggdt : norm2 ((dt * dt) • s.env.g) ≤ 2 * (args.courant * args.l0) := by
    rw [norm2_smul, abs_of_pos (mul_pos d2 d2)]
    calc _ ≤ dt * dt * args.g := mul_le_mul_of_nonneg_left hgn (mul_pos d2 d2).le
      _ ≤ _ := by linarith
  have hmargin : 3 * (args.courant * args.l0) ≤ env.neighborLength - env.re := by
    rw [v1, v2]
    have hpos : 0 < args.courant * args.l0 := by positivity
    have : args.reByL0 * args.l0 * (1 + args.courant * 2) - args.reByL0 * args.l0 = 2 * args.reByL0 * (args.courant * args.l0) := by ring
    rw [this]
    nlinarith
  have hpos : 0 < args.courant * args.l0 := by positivity
  have hexpand : ∀ i, dt • ((s.ps i).u + dt • s.env.g) = dt • (s.ps i).u + (dt * dt) • s.env.g := by
    intro i; rw [smul_add, smul_smul]
  have hcov : Covered (s1.midC P) := by
    have hLs : 0 < (s.start dt).env.neighborLength := by change 0 < s.env.neighborLength; rw [b5]; exact hL
    refine C37_lists_still_cover (s := s.start dt) (hv 0) (hgeo.clearOK.mpr hok) b0 b1 hLs h1 (midC_n _ _) (midC_nbr _ _)
      (fun i => midC_ty _ _ _) (midC_env _ _) ?_
    intro i j hi hj hdi hdj
    rw [midC_n, hn1] at hi hj
    rw [midC_ty, (hps1 _).2.2.2.2] at hdi hdj
    rw [hmidx i hi hdi, hmidx j hj hdj]
    have e1 : (s.start dt).env.neighborLength - (s.start dt).env.re = env.neighborLength - env.re := by
      change s.env.neighborLength - s.env.re = _; rw [b5, b9]
    rw [e1]
    change dist (s.ps i).x (s.ps j).x ≤ _
    unfold inviscidMid
    by_cases hfi : (s'.ps i).ty = .incompressibleNewton
    · by_cases hfj : (s'.ps j).ty = .incompressibleNewton
      · rw [if_pos hfi, if_pos hfj]
        refine (dist_le_displaced _ _ (dt • ((s.ps i).u + dt • s.env.g)) (dt • ((s.ps j).u + dt • s.env.g))).trans ?_
        have e2 : dt • ((s.ps i).u + dt • s.env.g) - dt • ((s.ps j).u + dt • s.env.g) = dt • (s.ps i).u - dt • (s.ps j).u := by
          rw [hexpand, hexpand]; abel
        rw [e2]
        have := norm2_vsub (dt • (s.ps i).u) (dt • (s.ps j).u)
        have := hudt i hi
        have := hudt j hj
        linarith
      · rw [if_pos hfi, if_neg hfj]
        have := dist_le_displaced (s.ps i).x (s.ps j).x (dt • ((s.ps i).u + dt • s.env.g)) 0
        rw [add_zero, sub_zero] at this
        refine this.trans ?_
        rw [hexpand]
        have := norm2_vadd (dt • (s.ps i).u) ((dt * dt) • s.env.g)
        have := hudt i hi
        linarith
    · by_cases hfj : (s'.ps j).ty = .incompressibleNewton
      · rw [if_neg hfi, if_pos hfj]
        have := dist_le_displaced (s.ps i).x (s.ps j).x 0 (dt • ((s.ps j).u + dt • s.env.g))
        rw [add_zero, zero_sub, norm2_neg] at this
        refine this.trans ?_
        rw [hexpand]
        have := norm2_vadd (dt • (s.ps j).u) ((dt * dt) • s.env.g)
        have := hudt j hj
        linarith
      · rw [if_neg hfi, if_neg hfj]
        linarith
  refine ⟨⟨s1.midC P, beforePressure_of_search hv h1, by rw [midC_n]; exact hn1, fun i => by rw [midC_ty]; exact (hps1 i).2.2.2.2, hmidx, hcov⟩, ?_⟩
  intro i hi hd1 hd2
  have hnn : (s'.ps i).n = ((s1.midC P).ps i).n := by rw [h4, dsC_nn, gradC_nn, (f11 i).2.2.1]
  -- the second density computation
  set m := (((((s1.densC P.cfg).ecsC P.cfg).duC (State.accelCompute P.cfg)).preC P.walls).moveC P.walls) with hm
  have hmid_eq : s1.midC P = (m.densC P.cfg).saveX P.cfg := rfl
  have hmty : ∀ k, (m.ps k).ty = (s'.ps k).ty := by
    intro k
    rw [← (hps1 k).2.2.2.2, hm, moveC_ty]; exact densC_ty _ _ _
  have hmn : m.n = s.n := hn1
  have hmx : ∀ k, (m.ps k).x = ((s1.midC P).ps k).x := by
    intro k; rw [hmid_eq, saveX_ps, densC_x]
  have hNm : NbrOK m := hN1.congr rfl rfl (fun k => by rw [hmty, (hps1 k).2.2.2.2])
  have henvm : m.env = s1.env := rfl
  have hcovm : Covered m := by
    intro a b ha hb hda hdb hne hlt
    have := hcov a b (by rw [midC_n]; exact ha) (by rw [midC_n]; exact hb)
      (by rw [midC_ty, (hps1 a).2.2.2.2, ← hmty]; exact hda) (by rw [midC_ty, (hps1 b).2.2.2.2, ← hmty]; exact hdb) hne
      (by rw [← hmx, ← hmx, midC_env]; exact hlt)
    unfold State.neighbors at this ⊢
    rw [midC_nbr] at this
    exact this
  rw [hnn, hmid_eq, saveX_ps, densC_n_real hNm (by rw [henvm, hre1]; exact hre0.le) i (by rw [hmn]; exact hi)
    (by rw [hmty]; simp [PType.active, hd1, hd2]), nearDensity_covered hNm hcovm i (by rw [hmn]; exact hi) (by rw [hmty]; exact hd2)]
  have hsum : allPairsDensity m i = ∑ j ∈ (Finset.range s.n).filter (fun j => j ≠ i ∧ (s'.ps j).ty ≠ .disabled),
      W (dist (inviscidMid s s' dt i) (inviscidMid s s' dt j)) env.re := by
    unfold allPairsDensity
    simp only [hmn, hmty, henvm, hre1]
    apply Finset.sum_congr rfl
    intro j hj
    rw [Finset.mem_filter, Finset.mem_range] at hj
    rw [hmx, hmx, hmidx i hi hd2, hmidx j hj.1 hj.2.2]
  rw [hsum, henvm, hn01]

/-! ## C36 -/

/-- **C36.**  A fluid particle with no other enabled particle closer than `NeighborLength` falls freely in a successful step:
`u' = u + g dt` and `x' = x + u' dt`, whatever the other particles do and for every combination of options (except central gravity). -/
theorem C36_isolated_particle_falls_freely {P : Params ℝ D ω} {env : Env ℝ D} {w : ω} {s0 s s' : State ℝ D ω} {dts : List ℝ}
    (hnew : State.new? env w = some s0) (hist : Hist P s0 dts s) (hok : s0.grid.ClearOK)
    (hL : 0 < env.neighborLength) (hcg : P.cfg.centralGravity = false)
    (sch : Schedule) (hv : sch.Valid s.n) (dt : ℝ) (h : s.forwardTime P sch dt = .ok s')
    (i : Nat) (hi : i < s.n) (hf : (s'.ps i).ty = .incompressibleNewton)
    (hiso : ∀ j, j < s.n → j ≠ i → (s'.ps j).ty ≠ .disabled → env.neighborLength ≤ dist (s.ps i).x (s.ps j).x) :
    (s'.ps i).u = (s.ps i).u + dt • s.env.g ∧ (s'.ps i).x = (s.ps i).x + dt • (s'.ps i).u := by
  obtain ⟨b0, b1, b2, b3, b4, b5, -⟩ := hist.built hnew
  obtain ⟨-, hgeo, -⟩ := hist.frame
  obtain ⟨s1, s2, h1, h3, h4, hN1, hn1, henv1, hps1, hre1, hn01, hw1⟩ := step_stages hnew hist hok hL hv h
  obtain ⟨f1, f2, -, f4, f5, -, -, f8, f9, -, f11⟩ := pressureC_frame h3
  have hLs : 0 < (s.start dt).env.neighborLength := by change 0 < s.env.neighborLength; rw [b5]; exact hL
  -- no neighbours
  have hnil : s1.neighbors i = [] := by
    have hd1 : (s1.ps i).ty ≠ .disabled := by rw [(hps1 i).2.2.2.2, hf]; decide
    have key := (C07_neighbour_lists_exact (s := s.start dt) (hv 0) (hgeo.clearOK.mpr hok) b0 b1 hLs h1 i hi hd1).2
    apply List.eq_nil_iff_forall_not_mem.mpr
    intro j hj
    obtain ⟨a1, a2, a3, a4⟩ := (key j).mp hj
    have := hiso j a1 a3 (by rw [← (hps1 j).2.2.2.2]; exact a2)
    have e : (s.start dt).env.neighborLength = env.neighborLength := b5
    rw [e] at a4
    change dist (s.ps i).x (s.ps j).x < _ at a4
    linarith
  -- interaction sums vanish
  have hacc : ∀ (t : State ℝ D ω) (A : Type) [AddCommMonoid A] (func : Int → Particle ℝ D → A), t.nbr = s1.nbr →
      t.accumulate P.cfg i (0 : A) func = 0 := by
    intro t A _ func hnb
    have hni : t.neighbors i = [] := by
      unfold State.neighbors at hnil ⊢; rw [hnb]; exact hnil
    unfold State.accumulate State.accLoop
    rw [hni]
    simp only [List.foldl_nil]
    have : t.sppParticle i 0 = none := by
      unfold State.sppParticle
      simp only
      split
      · rw [if_neg]
        rw [lt_real_iff, not_lt]
        have : vdiv (0 : Vec ℝ D) t.env.n0 = 0 := by funext a; exact zero_div _
        rw [this, dot_self_eq_zero.mpr rfl, sqrt_real, Real.sqrt_zero]
        change (0 : ℝ) ≤ 1 / 2 ^ 52
        positivity
      · rfl
    split
    · split
      · rename_i q hq
        exact absurd (this.symm.trans hq) (by simp)
      · rfl
    · rfl
  have hi1 : i < s1.n := by rw [hn1]; exact hi
  have hty1 : (s1.ps i).ty = .incompressibleNewton := by rw [(hps1 i).2.2.2.2]; exact hf
  have hdt1 : s1.env.dt = dt := by rw [henv1]
  -- first stage
  obtain ⟨a, k1, k2, k3⟩ := midC_fluid_accel P s1 i hi1 hty1
  have ha : a = s.env.g := by
    unfold State.accelCompute at k1
    rw [if_pos (by rw [← hty1]; exact densC_ty _ _ _)] at k1
    have e0 := hacc ((s1.densC P.cfg).ecsC P.cfg) (Vec ℝ D) (((s1.densC P.cfg).ecsC P.cfg).viscFunc P.cfg i) rfl
    have e1 : ((s1.densC P.cfg).ecsC P.cfg).accumulate P.cfg i (0 : Vec ℝ D) (((s1.densC P.cfg).ecsC P.cfg).viscFunc P.cfg i) = 0 := e0
    rw [e1] at k1
    unfold State.gravity at k1
    rw [hcg] at k1
    simp only [Bool.false_eq_true, if_false, Option.some.injEq] at k1
    rw [← k1]
    have : ((s1.densC P.cfg).ecsC P.cfg).env.g = s.env.g := by change s1.env.g = _; rw [henv1]
    rw [this]
    exact zero_add _
  have hn2 : i < s2.n := by rw [f1, midC_n]; exact hi1
  have hty2 : (s2.ps i).ty = .incompressibleNewton := by rw [(f11 i).2.2.2, midC_ty]; exact hty1
  have hnb2 : s2.nbr = s1.nbr := by rw [f5, midC_nbr]
  have hzero : ∀ c : ℝ, OpenMps.smul c (0 : Vec ℝ D) = 0 := by intro c; funext a; exact mul_zero c
  -- pressure gradient
  have hgrad : State.gradCompute P.cfg s2 i = some 0 := by
    unfold State.gradCompute
    rw [if_pos hty2]
    simp only
    split
    · refine congrArg some ?_
      refine Eq.trans (congrArg _ (hacc s2 (Vec ℝ D) _ hnb2)) (hzero _)
    · refine congrArg some ?_
      refine Eq.trans (congrArg _ (hacc s2 (Vec ℝ D) _ hnb2)) (hzero _)
  have hdt2 : s2.env.dt = dt := by rw [f2, midC_env]; exact hdt1
  have hp3 := pushC_fluid (s2.duC (State.gradCompute P.cfg)) i hn2 hty2
  rw [duC_du _ _ _ hn2 _ hgrad] at hp3
  have hu3 : ((s2.gradC P.cfg).ps i).u = (s2.ps i).u := by
    rw [show ((s2.gradC P.cfg).ps i).u = (s2.ps i).u + 0 from hp3.1, add_zero]
  have hx3 : ((s2.gradC P.cfg).ps i).x = (s2.ps i).x := by
    rw [show ((s2.gradC P.cfg).ps i).x = (s2.ps i).x + vmul 0 s2.env.dt from hp3.2, vmul_eq_smul, smul_zero, add_zero]
  -- stabilisation
  set s3 := s2.gradC P.cfg with hs3
  have hty3 : (s3.ps i).ty = .incompressibleNewton := by rw [hs3, gradC_ty]; exact hty2
  have hfin : (s'.ps i).u = (s3.ps i).u ∧ (s'.ps i).x = (s3.ps i).x := by
    rw [h4]
    unfold State.dsC
    split
    · have hds : State.dsCompute P.cfg s3 i = some 0 := by
        unfold State.dsCompute
        rw [if_pos hty3]
        refine congrArg some ?_
        refine Eq.trans (congrArg _ (hacc s3 (Vec ℝ D) _ hnb2)) (hzero _)
      have hn3 : i < s3.n := hn2
      have hp4 := pushC_fluid (s3.duC (State.dsCompute P.cfg)) i hn3 hty3
      rw [duC_du _ s3 _ hn3 _ hds] at hp4
      refine ⟨?_, ?_⟩
      · rw [hp4.1]; change (s3.ps i).u + 0 = _; rw [add_zero]
      · rw [hp4.2, vmul_eq_smul, smul_zero]; change (s3.ps i).x + 0 = _; rw [add_zero]
    · exact ⟨rfl, rfl⟩
  have hu : (s'.ps i).u = (s.ps i).u + dt • s.env.g := by
    rw [hfin.1, hu3, (f11 i).2.1, k2, ha, vmul_eq_smul, hdt1, (hps1 i).2.1]
  refine ⟨hu, ?_⟩
  rw [hfin.2, hx3, (f11 i).1, k3, vmul_eq_smul, hdt1, (hps1 i).1, hu, k2, ha, vmul_eq_smul, hdt1, (hps1 i).2.1]

end OpenMps
