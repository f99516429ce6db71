import Verif.Lemmas.Sums
import Verif.Props.GridReal

/-! # Properties C21, C22, C23 (momentum) and C41 -/

set_option linter.unusedSectionVars false

namespace OpenMps

variable {D : Nat} {ω : Type}

theorem smul_eq_smul (c : ℝ) (v : Vec ℝ D) : OpenMps.smul c v = c • v := rfl

theorem vmul_eq_smul (v : Vec ℝ D) (c : ℝ) : vmul v c = c • v := by
  funext a; exact mul_comm _ _

/-- After a search the neighbour table is sound. -/
theorem nbrOK_of_search {s s1 : State ℝ D ω} {sch : List Ev} (hv : ValidSched s.n sch)
    (hok : s.grid.ClearOK) (hub : s.ub = false) (hbl : s.grid.blockLength = s.env.neighborLength)
    (hL : 0 < s.env.neighborLength) (h : s.searchNeighbor sch = .ok s1) : NbrOK s1 := by
  obtain ⟨g0, g, nb, k1, k2, k3, k4, -⟩ := searchNeighbor_ok_frame hv h
  have hn : s1.n = s.n := by rw [k3]; rfl
  have key := fun i (hi : i < s1.n) (hd : (s1.ps i).ty ≠ .disabled) =>
    C07_neighbour_lists_exact hv hok hub hbl hL h i (by rw [← hn]; exact hi) hd
  constructor
  · intro i hi hd; exact (key i hi hd).1
  · intro i hi hd j hj
    obtain ⟨a, b, c, -⟩ := ((key i hi hd).2 j).mp hj
    exact ⟨by rw [hn]; exact a, c, b⟩
  · intro i j hi hj hd hd'
    rw [(key i hi hd).2, (key j hj hd').2, dist_comm']
    rw [hn] at hi hj
    exact ⟨fun k => ⟨hi, hd, k.2.2.1.symm, k.2.2.2⟩, fun k => ⟨hj, hd', k.2.2.1.symm, k.2.2.2⟩⟩

/-- What remains the same between the search and the later phases of a step. -/
theorem step_stages {P : Params ℝ D ω} {env : Env ℝ D} {w : ω} {s0 s s' : State ℝ D ω} {dts : List ℝ}
    (hnew : State.new? env w = some s0) (hist : Hist P s0 dts s) (hok : s0.grid.ClearOK)
    (hL : 0 < env.neighborLength) {sch : Schedule} (hv : sch.Valid s.n) {dt : ℝ}
    (h : s.forwardTime P sch dt = .ok s') :
    ∃ s1 s2, (s.start dt).searchNeighbor (sch 0) = .ok s1 ∧ (s1.midC P).pressureC P = .ok s2 ∧
      s' = (s2.gradC P.cfg).dsC P.cfg ∧ NbrOK s1 ∧ s1.n = s.n ∧ s1.env = { s.env with dt := dt, t := s.env.t + dt } ∧
      (∀ i, (s1.ps i).x = (s.ps i).x ∧ (s1.ps i).u = (s.ps i).u ∧ (s1.ps i).p = (s.ps i).p ∧ (s1.ps i).n = (s.ps i).n ∧
        (s1.ps i).ty = (s'.ps i).ty) ∧
      s1.env.re = env.re ∧ s1.env.n0 = env.n0 ∧ s1.world = s.world := by
  obtain ⟨b0, b1, b2, b3, b4, b5, b6, b7, b8, b9, b10, -⟩ := hist.built hnew
  obtain ⟨-, h2, -⟩ := hist.frame
  obtain ⟨s1, h1, h2'⟩ := forwardTime_ok hv h
  obtain ⟨g0, g, nb, k1, k2, k3, k4, -⟩ := searchNeighbor_ok_frame (s := s.start dt) (hv 0) h1
  obtain ⟨s2, h3, h4⟩ := afterSearch_ok h2'
  obtain ⟨-, -, -, -, -, -, -, -, -, -, f11⟩ := pressureC_frame h3
  have hLs : 0 < (s.start dt).env.neighborLength := by change 0 < s.env.neighborLength; rw [b5]; exact hL
  have henv : s1.env = (s.start dt).env := by rw [k3]; rfl
  refine ⟨s1, s2, h1, h3, h4, nbrOK_of_search (s := s.start dt) (hv 0) (h2.clearOK.mpr hok) b0 b1 hLs h1, by rw [k3]; rfl,
    henv, ?_, ?_, ?_, by rw [k3]; rfl⟩
  · intro i
    have m := marked_ps { s.start dt with grid := g0 } (List.range (s.start dt).n) g i
    refine ⟨by rw [k3]; exact m.1, by rw [k3]; exact m.2.1, by rw [k3]; exact m.2.2.1, by rw [k3]; exact m.2.2.2.1, ?_⟩
    rw [h4, dsC_ty, gradC_ty, (f11 i).2.2.2, midC_ty]
  · rw [henv]; exact b9
  · rw [henv]; exact b10

/-! ## The pair interactions are antisymmetric -/

theorem viscFunc_antisymm (cfg : Config) (s : State ℝ D ω) (i j : Nat) (hi : (s.ps i).ty ≠ .dummy)
    (hj : (s.ps j).ty ≠ .dummy) : s.viscFunc cfg j i (s.ps i) = - s.viscFunc cfg i j (s.ps j) := by
  unfold State.viscFunc
  rw [if_pos hi, if_pos hj, dist_comm' (s.ps j).x]
  simp only
  split
  · funext a; simp only [OpenMps.smul, Pi.neg_apply, Pi.sub_apply]; ring
  · funext a; simp only [OpenMps.smul, Pi.neg_apply, Pi.sub_apply]; ring

theorem gradFunc_antisymm (s : State ℝ D ω) (i j : Nat) (hi : (s.ps i).ty ≠ .dummy)
    (hj : (s.ps j).ty ≠ .dummy) : s.gradFunc j i (s.ps i) = - s.gradFunc i j (s.ps j) := by
  unfold State.gradFunc
  rw [if_pos hi, if_pos hj]
  simp only
  rw [dot_sub_comm (s.ps i).x]
  funext a
  simp only [OpenMps.smul, Pi.neg_apply, Pi.sub_apply]
  ring

theorem dot_neg_left (v w : Vec ℝ D) : dot (-v) w = - dot v w := by
  rw [dot_real, dot_real, ← Finset.sum_neg_distrib]
  exact Finset.sum_congr rfl (fun a _ => by simp)

theorem dot_neg_right (v w : Vec ℝ D) : dot v (-w) = - dot v w := by
  rw [dot_comm, dot_neg_left, dot_comm]

theorem dot_sub_self (v w : Vec ℝ D) : dot (v - w) (v - w) = dot v v - 2 * dot v w + dot w w := by
  rw [dot_sub_left, dot_comm v, dot_comm w, dot_sub_left, dot_sub_left, dot_comm w v]; ring

theorem norm2_neg (v : Vec ℝ D) : norm2 (-v) = norm2 v := by rw [norm2_real, norm2_real, dot_neg_neg]

theorem dsFunc_antisymm (cfg : Config) (s : State ℝ D ω) (i j : Nat) (d2 : ℝ) (hi : (s.ps i).ty ≠ .dummy)
    (hj : (s.ps j).ty ≠ .dummy) : s.dsFunc cfg j d2 i (s.ps i) = - s.dsFunc cfg i d2 j (s.ps j) := by
  have hn : ∀ k : Nat, (0 : Int) ≤ (k : Int) := fun k => Int.natCast_nonneg k
  unfold State.dsFunc
  have c1 : (s.ps i).ty ≠ .dummy ∧ (cfg.spp = false ∨ 0 ≤ (i : Int)) := ⟨hi, Or.inr (hn i)⟩
  have c2 : (s.ps j).ty ≠ .dummy ∧ (cfg.spp = false ∨ 0 ≤ (j : Int)) := ⟨hj, Or.inr (hn j)⟩
  rw [if_pos c1, if_pos c2]
  simp only [Int.toNat_natCast]
  rw [dot_sub_comm (s.ps i).x]
  split
  · have e0 : s.origX i - s.origX j = -(s.origX j - s.origX i) := (neg_sub _ _).symm
    have e1 : (s.ps i).x - (s.ps j).x = -((s.ps j).x - (s.ps i).x) := (neg_sub _ _).symm
    have e2 : vdiv (s.origX i - s.origX j) (norm2 (s.origX i - s.origX j))
        = - vdiv (s.origX j - s.origX i) (norm2 (s.origX j - s.origX i)) := by
      rw [e0, norm2_neg]; funext a; simp only [vdiv, Pi.neg_apply]; exact neg_div _ _
    rw [e2, e1, dot_neg_left, dot_neg_right, neg_neg]
    have e3 : ∀ (c : ℝ) (v e : Vec ℝ D), -v - OpenMps.smul c (-e) = -(v - OpenMps.smul c e) := by
      intro c v e; funext a; simp only [OpenMps.smul, Pi.neg_apply, Pi.sub_apply]; ring
    rw [e3, dot_neg_neg]
    funext a; simp only [OpenMps.smul, Pi.neg_apply]; ring
  · exact neg_zero.symm

/-- In a population of fluid (and disabled) particles an antisymmetric interaction sums to zero. -/
theorem sum_fluid_zero {s : State ℝ D ω} (h : NbrOK s)
    (hfl : ∀ i, i < s.n → (s.ps i).ty = .incompressibleNewton ∨ (s.ps i).ty = .disabled)
    (f : Nat → Nat → Vec ℝ D)
    (hf : ∀ i j, (s.ps i).ty = .incompressibleNewton → (s.ps j).ty = .incompressibleNewton → f j i = - f i j) :
    ∑ i ∈ (Finset.range s.n).filter (fun i => (s.ps i).ty = .incompressibleNewton), ∑ j ∈ s.near i, f i j = 0 := by
  have hen : ∀ i, (s.ps i).ty = .incompressibleNewton → (s.ps i).ty ≠ .disabled := by
    intro i hi; rw [hi]; decide
  have hsub : ∀ i ∈ (Finset.range s.n).filter (fun i => (s.ps i).ty = .incompressibleNewton),
      s.near i ⊆ (Finset.range s.n).filter (fun i => (s.ps i).ty = .incompressibleNewton) := by
    intro i hi j hj
    rw [Finset.mem_filter, Finset.mem_range] at hi ⊢
    obtain ⟨a, -, c⟩ := h.near_ne hi.1 (hen i hi.2) hj
    exact ⟨a, (hfl j a).resolve_right c⟩
  refine sum_antisymm _ s.near hsub ?_ f ?_ (fun a => vec_two)
  · intro i hi j hj
    rw [Finset.mem_filter, Finset.mem_range] at hi hj
    exact h.near_symm hi.1 hj.1 (hen i hi.2) (hen j hj.2)
  · intro i hi j hj
    have := hsub i hi hj
    rw [Finset.mem_filter] at this hi
    exact hf i j hi.2 this.2

/-! ## C21 -/

/-- The viscous acceleration of particle `i` (acceleration without gravity). -/
theorem visc_accumulate {s : State ℝ D ω} (cfg : Config) (h : NbrOK s) (hre : 0 ≤ s.env.re) (i : Nat) (hi : i < s.n)
    (hd : (s.ps i).ty ≠ .disabled) :
    s.accumulate cfg i (0 : Vec ℝ D) (s.viscFunc cfg i) = ∑ j ∈ s.near i, s.viscFunc cfg i j (s.ps j) := by
  have e := accumulate_real (s := s) cfg i (s.viscFunc cfg i) hre h hi hd
  refine Eq.trans e ?_
  rw [add_eq_left]
  unfold State.sppTerm
  split
  · cases hq : s.sppParticle i (s.dxg i) with
    | none => rfl
    | some q =>
      obtain ⟨-, hu, -, -⟩ := sppParticle_some hq
      simp only [State.viscFunc]
      rw [hu]
      split
      · split
        · funext a; simp [OpenMps.smul]
        · funext a; simp [OpenMps.smul]
      · rfl
  · rfl

/-- All enabled particles are fluid. -/
def OnlyFluid (s : State ℝ D ω) : Prop :=
  ∀ i, i < s.n → (s.ps i).ty = .incompressibleNewton ∨ (s.ps i).ty = .disabled

/-- The numbers of the fluid particles. -/
def State.fluid (s : State ℝ D ω) : Finset Nat :=
  (Finset.range s.n).filter (fun i => (s.ps i).ty = .incompressibleNewton)

theorem mem_fluid {s : State ℝ D ω} {i : Nat} : i ∈ s.fluid ↔ i < s.n ∧ (s.ps i).ty = .incompressibleNewton := by
  simp [State.fluid]

theorem mem_fluid_enabled {s : State ℝ D ω} {i : Nat} (h : i ∈ s.fluid) : (s.ps i).ty ≠ .disabled := by
  rw [(mem_fluid.mp h).2]; decide

theorem near_fluid {s : State ℝ D ω} (h : NbrOK s) (hfl : OnlyFluid s) : ∀ i ∈ s.fluid, s.near i ⊆ s.fluid := by
  intro i hi j hj
  obtain ⟨a, -, c⟩ := h.near_ne (mem_fluid.mp hi).1 (mem_fluid_enabled hi) hj
  exact mem_fluid.mpr ⟨a, (hfl j a).resolve_right c⟩

theorem near_fluid_symm {s : State ℝ D ω} (h : NbrOK s) : ∀ i ∈ s.fluid, ∀ j ∈ s.fluid, j ∈ s.near i ↔ i ∈ s.near j := by
  intro i hi j hj
  exact h.near_symm (mem_fluid.mp hi).1 (mem_fluid.mp hj).1 (mem_fluid_enabled hi) (mem_fluid_enabled hj)

/-- **C21.**  In a population whose enabled particles are all fluid, the accelerations of the first stage (viscosity and
gravity) sum to the number of fluid particles times gravity. -/
theorem C21_viscosity_conserves_momentum {s : State ℝ D ω} (cfg : Config) (h : NbrOK s) (hre : 0 ≤ s.env.re)
    (hcg : cfg.centralGravity = false) (hfl : OnlyFluid s) :
    ∃ acc : Nat → Vec ℝ D, (∀ i ∈ s.fluid, s.accelCompute cfg i = some (acc i)) ∧
      ∑ i ∈ s.fluid, acc i = (s.fluid.card : ℝ) • s.env.g := by
  refine ⟨fun i => (∑ j ∈ s.near i, s.viscFunc cfg i j (s.ps j)) + s.env.g, ?_, ?_⟩
  · intro i hi
    unfold State.accelCompute
    rw [if_pos (mem_fluid.mp hi).2, visc_accumulate cfg h hre i (mem_fluid.mp hi).1 (mem_fluid_enabled hi)]
    unfold State.gravity
    rw [hcg]
    rfl
  · rw [Finset.sum_add_distrib]
    have := sum_fluid_zero h hfl (fun i j => s.viscFunc cfg i j (s.ps j)) (fun i j hi hj =>
      viscFunc_antisymm cfg s i j (by rw [hi]; decide) (by rw [hj]; decide))
    change ∑ i ∈ s.fluid, ∑ j ∈ s.near i, s.viscFunc cfg i j (s.ps j) = 0 at this
    rw [this, zero_add, Finset.sum_const, ← Nat.cast_smul_eq_nsmul ℝ]

/-- **C21.**  The viscous part of these accelerations never increases the kinetic energy: `sum u_i . (a_i - g) <= 0`. -/
theorem C21_viscosity_dissipates {s : State ℝ D ω} (cfg : Config) (h : NbrOK s) (hre : 0 ≤ s.env.re)
    (hcg : cfg.centralGravity = false) (hfl : OnlyFluid s) (hnu : 0 ≤ s.env.nu) (hn0 : 0 ≤ s.env.n0)
    (hlam : 0 ≤ s.env.lambda) (acc : Nat → Vec ℝ D) (hacc : ∀ i ∈ s.fluid, s.accelCompute cfg i = some (acc i)) :
    ∑ i ∈ s.fluid, dot (s.ps i).u (acc i - s.env.g) ≤ 0 := by
  -- coefficient of a pair
  let c : Nat → Nat → ℝ := fun i j =>
    if cfg.hl then s.env.nu * ((5 - D : Nat) : ℝ) * s.env.re / s.env.n0 /
      (dist (s.ps i).x (s.ps j).x * dist (s.ps i).x (s.ps j).x * dist (s.ps i).x (s.ps j).x)
    else s.env.nu * 2 * (D : ℝ) / s.env.lambda / s.env.n0 * W (dist (s.ps i).x (s.ps j).x) s.env.re
  have hc0 : ∀ i j, 0 ≤ c i j := by
    intro i j
    have := dist_nonneg' (s.ps i).x (s.ps j).x
    have := W_nonneg (dist (s.ps i).x (s.ps j).x) s.env.re
    simp only [c]
    split <;> positivity
  have hcs : ∀ i j, c j i = c i j := by
    intro i j; simp only [c]; rw [dist_comm' (s.ps j).x]
  have hvisc : ∀ i j, (s.ps j).ty = .incompressibleNewton → s.viscFunc cfg i j (s.ps j) = c i j • ((s.ps j).u - (s.ps i).u) := by
    intro i j hj
    unfold State.viscFunc
    rw [if_pos (by rw [hj]; decide)]
    simp only [c]
    split <;> rfl
  have hterm : ∀ i ∈ s.fluid, dot (s.ps i).u (acc i - s.env.g)
      = ∑ j ∈ s.near i, c i j * (dot (s.ps i).u (s.ps j).u - dot (s.ps i).u (s.ps i).u) := by
    intro i hi
    have ha := hacc i hi
    unfold State.accelCompute at ha
    rw [if_pos (mem_fluid.mp hi).2, visc_accumulate cfg h hre i (mem_fluid.mp hi).1 (mem_fluid_enabled hi)] at ha
    unfold State.gravity at ha
    rw [hcg] at ha
    simp only [Bool.false_eq_true, if_false, Option.some.injEq] at ha
    rw [← ha]
    have : (∑ j ∈ s.near i, s.viscFunc cfg i j (s.ps j)) + s.env.g - s.env.g = ∑ j ∈ s.near i, c i j • ((s.ps j).u - (s.ps i).u) := by
      refine Eq.trans (add_sub_cancel_right _ _) (Finset.sum_congr rfl (fun j hj => ?_))
      exact hvisc i j (mem_fluid.mp (near_fluid h hfl i hi hj)).2
    rw [this, dot_comm]
    have hlin : ∀ (T : Finset Nat) (v : Nat → Vec ℝ D) (w : Vec ℝ D), dot (∑ j ∈ T, v j) w = ∑ j ∈ T, dot (v j) w := by
      intro T v w
      simp only [dot_real, Finset.sum_apply, Finset.sum_mul]
      exact Finset.sum_comm
    rw [hlin]
    apply Finset.sum_congr rfl
    intro j _
    rw [← smul_eq_smul, dot_smul_left, dot_sub_left, dot_comm (s.ps j).u]
  rw [Finset.sum_congr rfl hterm]
  have hsym := sum_symm s.fluid s.near (near_fluid h hfl) (near_fluid_symm h)
    (fun i j => c i j * (dot (s.ps i).u (s.ps j).u - dot (s.ps i).u (s.ps i).u))
  have h2 : (∑ i ∈ s.fluid, ∑ j ∈ s.near i, c i j * (dot (s.ps i).u (s.ps j).u - dot (s.ps i).u (s.ps i).u))
      + (∑ i ∈ s.fluid, ∑ j ∈ s.near i, c i j * (dot (s.ps i).u (s.ps j).u - dot (s.ps i).u (s.ps i).u)) ≤ 0 := by
    nth_rewrite 2 [hsym]
    rw [← Finset.sum_add_distrib]
    apply Finset.sum_nonpos
    intro i _
    rw [← Finset.sum_add_distrib]
    apply Finset.sum_nonpos
    intro j _
    rw [hcs, ← mul_add]
    have hsq := dot_self_nonneg ((s.ps i).u - (s.ps j).u)
    rw [dot_sub_self] at hsq
    rw [dot_comm (s.ps j).u (s.ps i).u]
    exact mul_nonpos_of_nonneg_of_nonpos (hc0 j i) (by linarith)
  linarith

/-! ## C22 -/

theorem midC_fluid_accel (P : Params ℝ D ω) (s : State ℝ D ω) (i : Nat) (hi : i < s.n)
    (h : (s.ps i).ty = .incompressibleNewton) :
    ∃ a, State.accelCompute P.cfg ((s.densC P.cfg).ecsC P.cfg) i = some a ∧
      ((s.midC P).ps i).u = (s.ps i).u + vmul a s.env.dt ∧
      ((s.midC P).ps i).x = (s.ps i).x + vmul ((s.midC P).ps i).u s.env.dt := by
  unfold State.midC
  rw [saveX_ps, densC_x, densC_u]
  set t0 := ((s.densC P.cfg).ecsC P.cfg) with ht0
  set t := ((t0.duC (State.accelCompute P.cfg)).preC P.walls) with ht
  have hi' : i < t.n := hi
  have hi0 : i < t0.n := hi
  have hx : (t.ps i).x = (s.ps i).x := densC_x _ _ _
  have hu : (t.ps i).u = (s.ps i).u := densC_u _ _ _
  have hty0 : (t0.ps i).ty = .incompressibleNewton := by
    rw [← h]; exact densC_ty _ _ _
  have hty : (t.ps i).ty = .incompressibleNewton := hty0
  have he : t.env = s.env := rfl
  obtain ⟨a, ha⟩ : ∃ a, State.accelCompute P.cfg t0 i = some a := by
    unfold State.accelCompute; rw [if_pos hty0]; exact ⟨_, rfl⟩
  have hdu : t.du i = a := by
    change (if i < t0.n then (State.accelCompute P.cfg t0 i).getD (t0.du i) else t0.du i) = a
    rw [if_pos hi0, ha]; rfl
  refine ⟨a, ha, ?_, ?_⟩
  · simp only [State.moveC, hi', if_true, State.moveCompute, hty, hu, he, hdu]
  · simp only [State.moveC, hi', if_true, State.moveCompute, hty, hx, hu, he]

/-- Reported density and presence of the virtual particle after the second density computation. -/
theorem densC_full {cfg : Config} {s : State ℝ D ω} {i : Nat} (hi : i < s.n) (hty : (s.ps i).ty.active = true)
    (hspp : cfg.spp = true) (hn : s.env.n0 < ((s.densC cfg).ps i).n) : s.env.n0 < (s.densC cfg).nNoSpp i := by
  unfold State.densC at hn ⊢
  simp only [hi, if_true, hspp] at hn ⊢
  unfold State.densCompute at hn ⊢
  simp only [hty, if_true, hspp] at hn ⊢
  unfold stdMax at hn
  split at hn
  · exact absurd hn (lt_irrefl _)
  · exact hn

theorem pushC_fluid (s : State ℝ D ω) (i : Nat) (hi : i < s.n) (h : (s.ps i).ty = .incompressibleNewton) :
    ((s.pushC).ps i).u = (s.ps i).u + s.du i ∧ ((s.pushC).ps i).x = (s.ps i).x + vmul (s.du i) s.env.dt := by
  unfold State.pushC
  simp only
  rw [if_pos ⟨hi, h⟩]
  exact ⟨rfl, rfl⟩

theorem duC_du (compute : State ℝ D ω → Nat → Option (Vec ℝ D)) (s : State ℝ D ω) (i : Nat) (hi : i < s.n) (v : Vec ℝ D)
    (h : compute s i = some v) : (s.duC compute).du i = v := by
  unfold State.duC
  simp only
  rw [if_pos hi, h]; rfl

/-- Momentum of a population of fluid particles through the pressure gradient step (no GC). -/
theorem gradC_momentum {cfg : Config} {s : State ℝ D ω} (h : NbrOK s) (hre : 0 ≤ s.env.re) (hgc : cfg.gc = false)
    (hfl : OnlyFluid s) :
    ∑ i ∈ s.fluid, ((s.gradC cfg).ps i).u = ∑ i ∈ s.fluid, (s.ps i).u +
      ∑ i ∈ s.fluid, (-s.env.dt / s.env.rho * (D : ℝ) / s.env.n0) • s.sppTerm cfg i (s.gradFunc i) := by
  have hstep : ∀ i ∈ s.fluid, ((s.gradC cfg).ps i).u = (s.ps i).u +
      ((-s.env.dt / s.env.rho * (D : ℝ) / s.env.n0) • (∑ j ∈ s.near i, s.gradFunc i j (s.ps j))
        + (-s.env.dt / s.env.rho * (D : ℝ) / s.env.n0) • s.sppTerm cfg i (s.gradFunc i)) := by
    intro i hi
    obtain ⟨hin, hty⟩ := mem_fluid.mp hi
    have hg : State.gradCompute cfg s i = some ((-s.env.dt / s.env.rho * (D : ℝ) / s.env.n0) •
        (∑ j ∈ s.near i, s.gradFunc i j (s.ps j) + s.sppTerm cfg i (s.gradFunc i))) := by
      unfold State.gradCompute
      rw [if_pos hty, hgc]
      simp only [Bool.false_eq_true, if_false]
      have := accumulate_real (s := s) cfg i (s.gradFunc i) hre h hin (mem_fluid_enabled hi)
      refine congrArg some ?_
      refine Eq.trans (congrArg _ this) ?_
      rw [smul_eq_smul]
      simp only [ofInt_real]
      norm_cast
    have := (pushC_fluid (s.duC (State.gradCompute cfg)) i hin hty).1
    rw [duC_du _ _ _ hin _ hg] at this
    rw [← smul_add]
    exact this
  rw [Finset.sum_congr rfl hstep, Finset.sum_add_distrib]
  congr 1
  rw [Finset.sum_add_distrib, ← Finset.smul_sum]
  have := sum_fluid_zero h hfl (fun i j => s.gradFunc i j (s.ps j)) (fun i j hi hj =>
      gradFunc_antisymm s i j (by rw [hi]; decide) (by rw [hj]; decide))
  change ∑ i ∈ s.fluid, ∑ j ∈ s.near i, s.gradFunc i j (s.ps j) = 0 at this
  rw [this, smul_zero, zero_add]

/-- Momentum of a population of fluid particles through the stabilisation. -/
theorem dsC_momentum {cfg : Config} {s : State ℝ D ω} (h : NbrOK s) (hre : 0 ≤ s.env.re) (hfl : OnlyFluid s) :
    ∑ i ∈ s.fluid, ((s.dsC cfg).ps i).u = ∑ i ∈ s.fluid, (s.ps i).u := by
  unfold State.dsC
  split
  · set d := s.env.l0 - s.env.maxDx with hd
    have hstep : ∀ i ∈ s.fluid, ((s.duC (State.dsCompute cfg)).pushC.ps i).u = (s.ps i).u +
        ((-(1 : ℝ) / (2 * s.env.dt * s.env.n0)) • (∑ j ∈ s.near i, s.dsFunc cfg i (d * d) j (s.ps j))) := by
      intro i hi
      obtain ⟨hin, hty⟩ := mem_fluid.mp hi
      have hg : State.dsCompute cfg s i = some ((-(1 : ℝ) / (2 * s.env.dt * s.env.n0)) •
          (∑ j ∈ s.near i, s.dsFunc cfg i (d * d) j (s.ps j))) := by
        unfold State.dsCompute
        rw [if_pos hty]
        refine congrArg some ?_
        have := accumulate_real (s := s) cfg i (s.dsFunc cfg i (d * d)) hre h hin (mem_fluid_enabled hi)
        have h0 : s.sppTerm cfg i (s.dsFunc cfg i (d * d)) = 0 := by
          unfold State.sppTerm
          split
          · rename_i hs
            cases s.sppParticle i (s.dxg i) with
            | none => rfl
            | some q =>
              simp only [State.dsFunc]
              rw [if_neg]
              rintro ⟨-, hc | hc⟩
              · rw [hs] at hc; cases hc
              · omega
          · rfl
        rw [h0, add_zero] at this
        refine Eq.trans (congrArg _ this) ?_
        rw [smul_eq_smul]
        simp only [ofInt_real]
        norm_cast
      have := (pushC_fluid (s.duC (State.dsCompute cfg)) i hin hty).1
      rw [duC_du _ _ _ hin _ hg] at this
      exact this
    rw [Finset.sum_congr rfl hstep, Finset.sum_add_distrib, ← Finset.smul_sum]
    have := sum_fluid_zero h hfl (fun i j => s.dsFunc cfg i (d * d) j (s.ps j)) (fun i j hi hj =>
        dsFunc_antisymm cfg s i j (d * d) (by rw [hi]; decide) (by rw [hj]; decide))
    change ∑ i ∈ s.fluid, ∑ j ∈ s.near i, s.dsFunc cfg i (d * d) j (s.ps j) = 0 at this
    rw [this, smul_zero, add_zero]
  · rfl

theorem fluid_congr {s t : State ℝ D ω} (hn : t.n = s.n) (hty : ∀ i, (t.ps i).ty = (s.ps i).ty) : t.fluid = s.fluid := by
  unfold State.fluid; rw [hn]; simp only [hty]

theorem onlyFluid_congr {s t : State ℝ D ω} (hn : t.n = s.n) (hty : ∀ i, (t.ps i).ty = (s.ps i).ty) (h : OnlyFluid s) :
    OnlyFluid t := by
  intro i hi; rw [hty]; exact h i (by rw [← hn]; exact hi)

theorem midC_nbr (P : Params ℝ D ω) (s : State ℝ D ω) : (s.midC P).nbr = s.nbr := by
  unfold State.midC; rw [saveX_nbr]; rfl

/-- **C21, C22, C23.**  Momentum balance of a whole step: if all particles that are enabled after a successful step are fluid, the
sum of their velocities changes by (number of particles) * g * dt plus contributions `c i` of the virtual
free-surface (SPP) particles; `c i` is zero without SPP and for every particle whose reported density exceeds `n0`. -/
theorem C22_momentum_balance {P : Params ℝ D ω} {env : Env ℝ D} {w : ω} {s0 s s' : State ℝ D ω} {dts : List ℝ}
    (hnew : State.new? env w = some s0) (hist : Hist P s0 dts s) (hok : s0.grid.ClearOK)
    (hL : 0 < env.neighborLength) (hre : 0 ≤ env.re) (hgc : P.cfg.gc = false) (hcg : P.cfg.centralGravity = false)
    (sch : Schedule) (hv : sch.Valid s.n) (dt : ℝ) (h : s.forwardTime P sch dt = .ok s') (hfl : OnlyFluid s') :
    ∃ c : Nat → Vec ℝ D, (∀ i ∈ s'.fluid, (P.cfg.spp = false ∨ env.n0 < (s'.ps i).n) → c i = 0) ∧
      ∑ i ∈ s'.fluid, (s'.ps i).u
        = ∑ i ∈ s'.fluid, (s.ps i).u + ((s'.fluid.card : ℝ) * dt) • s.env.g + ∑ i ∈ s'.fluid, c i := by
  obtain ⟨s1, s2, h1, h3, h4, hN1, hn1, henv1, hps1, hre1, hn01, -⟩ := step_stages hnew hist hok hL hv h
  obtain ⟨f1, f2, -, f4, f5, -, -, f8, f9, -, f11⟩ := pressureC_frame h3
  -- all states have the same particles, types and tables
  have hn2 : s2.n = s1.n := by rw [f1, midC_n]
  have hty2 : ∀ i, (s2.ps i).ty = (s1.ps i).ty := fun i => by rw [(f11 i).2.2.2, midC_ty]
  have hN2 : NbrOK s2 := hN1.congr hn2 (by rw [f5, midC_nbr]) hty2
  set s3 := s2.gradC P.cfg with hs3
  have hty3 : ∀ i, (s3.ps i).ty = (s2.ps i).ty := fun i => gradC_ty _ _ _
  have hN3 : NbrOK s3 := hN2.congr rfl rfl hty3
  have hn' : s'.n = s3.n := by rw [h4, dsC_n]
  have hty' : ∀ i, (s'.ps i).ty = (s3.ps i).ty := fun i => by rw [h4, dsC_ty]
  have hfl3 : OnlyFluid s3 := onlyFluid_congr hn'.symm (fun i => (hty' i).symm) hfl
  have hfl2 : OnlyFluid s2 := onlyFluid_congr (s := s3) rfl (fun i => (hty3 i).symm) hfl3
  have hfl1 : OnlyFluid s1 := onlyFluid_congr hn2.symm (fun i => (hty2 i).symm) hfl2
  have e3 : s'.fluid = s3.fluid := fluid_congr hn' hty'
  have e2 : s3.fluid = s2.fluid := fluid_congr rfl hty3
  have e1 : s2.fluid = s1.fluid := fluid_congr hn2 hty2
  have henv2 : s2.env = s1.env := by rw [f2, midC_env]
  have hre2 : 0 ≤ s2.env.re := by rw [henv2, hre1]; exact hre
  have hdt1 : s1.env.dt = dt := by rw [henv1]
  -- the first stage
  set t0 := ((s1.densC P.cfg).ecsC P.cfg) with ht0
  have hty0 : ∀ i, (t0.ps i).ty = (s1.ps i).ty := fun i => densC_ty _ _ _
  have hN0 : NbrOK t0 := hN1.congr rfl rfl hty0
  have e0 : t0.fluid = s1.fluid := fluid_congr rfl hty0
  obtain ⟨acc, ha1, ha2⟩ := C21_viscosity_conserves_momentum P.cfg hN0 (by change 0 ≤ s1.env.re; rw [hre1]; exact hre) hcg
    (onlyFluid_congr (s := s1) rfl hty0 hfl1)
  rw [e0] at ha1 ha2
  have hmid : ∑ i ∈ s1.fluid, (s2.ps i).u = ∑ i ∈ s1.fluid, (s.ps i).u + ((s1.fluid.card : ℝ) * dt) • s.env.g := by
    have : ∀ i ∈ s1.fluid, (s2.ps i).u = (s.ps i).u + dt • acc i := by
      intro i hi
      obtain ⟨a, k1, k2, -⟩ := midC_fluid_accel P s1 i (mem_fluid.mp hi).1 (mem_fluid.mp hi).2
      rw [(f11 i).2.1, k2, (hps1 i).2.1, vmul_eq_smul, hdt1]
      have := ha1 i hi
      rw [k1] at this
      injection this with this
      rw [this]
    rw [Finset.sum_congr rfl this, Finset.sum_add_distrib, ← Finset.smul_sum, ha2]
    have hg : t0.env.g = s.env.g := by change s1.env.g = _; rw [henv1]
    rw [hg, smul_smul, mul_comm dt]
  refine ⟨fun i => (-s2.env.dt / s2.env.rho * (D : ℝ) / s2.env.n0) • s2.sppTerm P.cfg i (s2.gradFunc i), ?_, ?_⟩
  · intro i hi hc
    have hi1 : i ∈ s1.fluid := by rw [← e1, ← e2, ← e3]; exact hi
    have h0 : s2.sppTerm P.cfg i (s2.gradFunc i) = 0 := by
      unfold State.sppTerm
      split
      · rename_i hs
        rcases hc with hc | hc
        · rw [hs] at hc; cases hc
        · have hnn : (s'.ps i).n = ((s1.midC P).ps i).n := by
            rw [h4, dsC_nn, gradC_nn, (f11 i).2.2.1]
          cases hq : s2.sppParticle i (s2.dxg i) with
          | none => rfl
          | some q =>
            exfalso
            have hlt := (sppParticle_some hq).1
            rw [f8, henv2, hn01] at hlt
            rw [hnn] at hc
            unfold State.midC at hc hlt
            rw [saveX_ps] at hc
            rw [saveX_nNoSpp] at hlt
            set m := (((((s1.densC P.cfg).ecsC P.cfg).duC (State.accelCompute P.cfg)).preC P.walls).moveC P.walls) with hm
            have hmty : (m.ps i).ty = .incompressibleNewton := by
              rw [hm, moveC_ty, ← (mem_fluid.mp hi1).2]; exact densC_ty _ _ _
            have hmn : i < m.n := (mem_fluid.mp hi1).1
            have hmn0 : m.env.n0 = env.n0 := hn01
            have := densC_full (cfg := P.cfg) hmn (by rw [hmty]; rfl) hs (by rw [hmn0]; exact hc)
            rw [hmn0] at this
            exact lt_asymm this hlt
      · rfl
    simp only [h0, smul_zero]
  · rw [e3, h4, dsC_momentum hN3 hre2 hfl3, e2, hs3, gradC_momentum hN2 hre2 hgc hfl2, e1, hmid]

/-- **C22.**  Without SPP (and without GC) the total momentum of fluid particles changes exactly by gravity. -/
theorem C22_momentum_conserved_without_spp {P : Params ℝ D ω} {env : Env ℝ D} {w : ω} {s0 s s' : State ℝ D ω} {dts : List ℝ}
    (hnew : State.new? env w = some s0) (hist : Hist P s0 dts s) (hok : s0.grid.ClearOK)
    (hL : 0 < env.neighborLength) (hre : 0 ≤ env.re) (hgc : P.cfg.gc = false) (hcg : P.cfg.centralGravity = false)
    (hspp : P.cfg.spp = false)
    (sch : Schedule) (hv : sch.Valid s.n) (dt : ℝ) (h : s.forwardTime P sch dt = .ok s') (hfl : OnlyFluid s') :
    ∑ i ∈ s'.fluid, (s'.ps i).u = ∑ i ∈ s'.fluid, (s.ps i).u + ((s'.fluid.card : ℝ) * dt) • s.env.g := by
  obtain ⟨c, hc, hsum⟩ := C22_momentum_balance hnew hist hok hL hre hgc hcg sch hv dt h hfl
  rw [hsum, Finset.sum_eq_zero (fun i hi => hc i hi (Or.inl hspp)), add_zero]

/-! ## C23 -/

theorem norm2_pos {v : Vec ℝ D} (h : v ≠ 0) : 0 < norm2 v := by
  rw [norm2_real]
  exact Real.sqrt_pos.mpr (lt_of_le_of_ne (dot_self_nonneg v) (fun hc => h (dot_self_eq_zero.mp hc.symm)))

theorem dot_unit {v : Vec ℝ D} (h : v ≠ 0) : dot (vdiv v (norm2 v)) (vdiv v (norm2 v)) = 1 := by
  have hp := norm2_pos h
  have e : vdiv v (norm2 v) = OpenMps.smul (1 / norm2 v) v := by
    funext a; simp only [vdiv, OpenMps.smul]; field_simp
  rw [e, dot_smul_left, dot_comm, dot_smul_left]
  have : norm2 v * norm2 v = dot v v := by
    rw [norm2_real]; exact Real.mul_self_sqrt (dot_self_nonneg v)
  rw [← this]
  field_simp

/-- Squared length of the part orthogonal to a unit vector. -/
theorem dot_perp (v e : Vec ℝ D) (he : dot e e = 1) :
    dot (v - OpenMps.smul (dot v e) e) (v - OpenMps.smul (dot v e) e) = dot v v - dot v e * dot v e := by
  rw [dot_sub_self, dot_comm v (OpenMps.smul _ _), dot_smul_left, dot_smul_left, dot_comm e (OpenMps.smul _ _), dot_smul_left, he,
    dot_comm e v]
  ring

/-- **C23.**  The stabilising interaction of a pair, for a distance `d = l0 - MaxDx >= 0` and different positions before the
pressure step: it is a non-negative multiple `k` of the relative position before the pressure step, positive exactly when the pair is
now closer than `d` (so that, with the factor `-1/(2 dt n0)`, particle `i` is pushed away from `j`); the square root that is
taken then has a positive argument; and the interaction of `j` with `i` is opposite. -/
theorem C23_pair_repulsion (cfg : Config) (s : State ℝ D ω) (i j : Nat) (d : ℝ) (hd : 0 ≤ d) (hi : (s.ps i).ty ≠ .dummy)
    (hj : (s.ps j).ty ≠ .dummy) (ho : s.origX j ≠ s.origX i) :
    (∃ k : ℝ, s.dsFunc cfg i (d * d) j (s.ps j) = k • (s.origX j - s.origX i) ∧
      (dist (s.ps j).x (s.ps i).x < d → 0 < k) ∧ (d ≤ dist (s.ps j).x (s.ps i).x → k = 0)) ∧
    (dist (s.ps j).x (s.ps i).x < d → ∀ e : Vec ℝ D, e = vdiv (s.origX j - s.origX i) (norm2 (s.origX j - s.origX i)) →
      0 < d * d - dot ((s.ps j).x - (s.ps i).x - OpenMps.smul (dot ((s.ps j).x - (s.ps i).x) e) e)
        ((s.ps j).x - (s.ps i).x - OpenMps.smul (dot ((s.ps j).x - (s.ps i).x) e) e)) ∧
    s.dsFunc cfg j (d * d) i (s.ps i) = - s.dsFunc cfg i (d * d) j (s.ps j) := by
  have hne : s.origX j - s.origX i ≠ 0 := sub_ne_zero.mpr ho
  have hN := norm2_pos hne
  set e := vdiv (s.origX j - s.origX i) (norm2 (s.origX j - s.origX i)) with he
  have hee : dot e e = 1 := dot_unit hne
  set dx := (s.ps j).x - (s.ps i).x with hdx
  have hperp := dot_perp dx e hee
  refine ⟨?_, ?_, dsFunc_antisymm cfg s i j (d * d) hi hj⟩
  · by_cases hlt : dist (s.ps j).x (s.ps i).x < d
    · have hr2 : dot dx dx < d * d := (lt_sq_iff hd).mpr hlt
      have hf : s.dsFunc cfg i (d * d) j (s.ps j)
          = OpenMps.smul (Real.sqrt (d * d - dot (dx - OpenMps.smul (dot dx e) e) (dx - OpenMps.smul (dot dx e) e)) - dot dx e) e := by
        unfold State.dsFunc
        have c1 : (s.ps j).ty ≠ .dummy ∧ (cfg.spp = false ∨ 0 ≤ (j : Int)) := ⟨hj, Or.inr (Int.natCast_nonneg j)⟩
        rw [if_pos c1]
        simp only [Int.toNat_natCast]
        rw [if_pos (lt_real_iff.mpr hr2)]
        rfl
      have hpos : 0 < Real.sqrt (d * d - dot (dx - OpenMps.smul (dot dx e) e) (dx - OpenMps.smul (dot dx e) e)) - dot dx e := by
        rw [hperp]
        have : dot dx e < Real.sqrt (d * d - (dot dx dx - dot dx e * dot dx e)) := by
          apply Real.lt_sqrt_of_sq_lt
          rw [sq]; linarith
        linarith
      refine ⟨(Real.sqrt (d * d - dot (dx - OpenMps.smul (dot dx e) e) (dx - OpenMps.smul (dot dx e) e)) - dot dx e) /
        norm2 (s.origX j - s.origX i), ?_, fun _ => div_pos hpos hN, fun hc => absurd hlt (not_lt.mpr hc)⟩
      rw [hf]
      funext a
      simp only [OpenMps.smul, he, vdiv, Pi.smul_apply, smul_eq_mul]
      field_simp
    · refine ⟨0, ?_, fun hc => absurd hc hlt, fun _ => rfl⟩
      unfold State.dsFunc
      have c1 : (s.ps j).ty ≠ .dummy ∧ (cfg.spp = false ∨ 0 ≤ (j : Int)) := ⟨hj, Or.inr (Int.natCast_nonneg j)⟩
      rw [if_pos c1]
      simp only
      rw [if_neg (fun hc => hlt ((lt_sq_iff hd).mp (lt_real_iff.mp hc))), zero_smul]
  · rintro hlt e' rfl
    rw [hperp]
    have hr2 : dot dx dx < d * d := (lt_sq_iff hd).mpr hlt
    have := mul_self_nonneg (dot dx e)
    linarith

/-- **C23.**  The stabilisation of a step conserves the momentum of a population of fluid particles (any options). -/
theorem C23_conserves_momentum (cfg : Config) {s : State ℝ D ω} (h : NbrOK s) (hre : 0 ≤ s.env.re) (hfl : OnlyFluid s)
    (sch1 sch2 : List Ev) (hv1 : ValidSched s.n sch1) (hv2 : ValidSched s.n sch2) :
    ∑ i ∈ s.fluid, ((s.dynamicStabilize cfg sch1 sch2).ps i).u = ∑ i ∈ s.fluid, (s.ps i).u := by
  rw [dynamicStabilize_eq cfg s sch1 sch2 hv1 hv2]
  exact dsC_momentum h hre hfl

/-! ## C41 -/

/-- **C41.**  In exact arithmetic a successful step with `dt != 0` moves every particle (fluid, wall, dummy, disabled) by its new
velocity: `x' = x + u' dt`. -/
theorem C41_position_advances_by_new_velocity {P : Params ℝ D ω} {s s' : State ℝ D ω} {sch : Schedule} {dt : ℝ}
    (hv : sch.Valid s.n) (hdt : dt ≠ 0) (h : s.forwardTime P sch dt = .ok s') (i : Nat) (hi : i < s.n) :
    (s'.ps i).x = (s.ps i).x + dt • (s'.ps i).u := by
  have h9 := C09_step_continues_each_particle hv h i hi
  by_cases hty : (s'.ps i).ty = .incompressibleNewton
  · obtain ⟨-, a, d1, hh⟩ := h9.1 hty
    simp only at hh
    split at hh
    · obtain ⟨d2, hu, hx⟩ := hh
      rw [hu, hx]
      funext k
      simp only [vmul, Pi.add_apply, Pi.smul_apply, smul_eq_mul]
      ring
    · obtain ⟨hu, hx⟩ := hh
      rw [hu, hx]
      funext k
      simp only [vmul, Pi.add_apply, Pi.smul_apply, smul_eq_mul]
      ring
  · rw [h9.2 hty]
    funext k
    simp only [vdiv, Pi.add_apply, Pi.smul_apply, Pi.sub_apply, smul_eq_mul]
    field_simp
    ring

/-! ## Concrete instances -/

/-- Two fluid particles at distance 1 and one outside the box. -/
noncomputable def fluidState : State ℝ 2 Unit := realNew.addParticles
  [{ x := ![1, 1], u := ![0, 0], p := 0, n := 0, ty := .incompressibleNewton },
   { x := ![2, 1], u := ![1, 0], p := 0, n := 0, ty := .incompressibleNewton },
   { x := ![20, 8], u := ![3, 0], p := 0, n := 0, ty := .incompressibleNewton }]

theorem fluidState_hist : Hist realP realNew [] fluidState := .add _ .start

theorem fluidState_step : ∃ s', fluidState.forwardTime realP (Schedule.serial 3) (1 / 100) = .ok s' := by
  refine C06_explicit_step_succeeds realNew_eq fluidState_hist realNew_ok one_pos two_pos ?_ rfl _ (Schedule.serial_valid 3) _
  intro i j hij hj _ _
  have hj : j < 3 := hj
  have hl : realEnv.l0 = 1 := rfl
  rw [hl]
  refine ⟨0, ?_⟩
  interval_cases j <;> interval_cases i
  · change (1 : ℝ) ≤ |1 - 2|; norm_num
  · change (1 : ℝ) ≤ |1 - 20|; norm_num
  · change (1 : ℝ) ≤ |2 - 20|; norm_num

/-- The hypotheses of `C22_momentum_balance` and C41 are met by this step. -/
example : ∃ s', fluidState.forwardTime realP (Schedule.serial 3) (1 / 100) = .ok s' ∧ OnlyFluid s' ∧ 0 ∈ s'.fluid := by
  obtain ⟨s', h⟩ := fluidState_step
  obtain ⟨hn, -, -, -, hfr⟩ := step_frame (Schedule.serial_valid 3) (Or.inl h)
  refine ⟨s', h, ?_, ?_⟩
  · intro i hi
    have hi : i < 3 := by rw [hn] at hi; exact hi
    have : (fluidState.ps i).ty = .incompressibleNewton := by interval_cases i <;> rfl
    rcases hfr i with k | ⟨-, -, k, -⟩
    · left; rw [k, this]
    · right; exact k
  · refine mem_fluid.mpr ⟨by rw [hn]; decide, ?_⟩
    rw [(C11_box realNew_eq fluidState_hist two_pos _ (Schedule.serial_valid 3) _ h 0 (by decide) (by decide)).1]
    · rfl
    · intro a
      change (![0, 0] : Vec ℝ 2) a ≤ (![1, 1] : Vec ℝ 2) a ∧ (![1, 1] : Vec ℝ 2) a < (![10, 10] : Vec ℝ 2) a + 2 * 2
      fin_cases a <;> norm_num

/-- A sound table with two interacting fluid particles: the hypotheses of C21 and C23. -/
noncomputable def pairState (x1 : ℝ) : State ℝ 2 Unit :=
  { fluidState with
    n := 2, nbr := fun i c => if c = 0 then 1 else 1 - i
    ps := fun i => { x := if i = 0 then ![0, 0] else ![x1, 0], u := if i = 0 then ![0, 0] else ![1, 0], p := 0, n := 0,
                     ty := .incompressibleNewton }
    origX := fun i => if i = 0 then ![0, 0] else ![1, 0] }

theorem pairState_neighbors (x1 : ℝ) (i : Nat) : (pairState x1).neighbors i = [1 - i] := rfl

theorem pairState_ok (x1 : ℝ) : NbrOK (pairState x1) := by
  constructor
  · intro i _ _; rw [pairState_neighbors]; exact List.nodup_singleton _
  · intro i hi _ j hj
    have hi : i < 2 := hi
    rw [pairState_neighbors, List.mem_singleton] at hj
    subst hj
    change 1 - i < 2 ∧ 1 - i ≠ i ∧ PType.incompressibleNewton ≠ PType.disabled
    exact ⟨by omega, by omega, by decide⟩
  · intro i j hi hj _ _
    have hi : i < 2 := hi
    have hj : j < 2 := hj
    rw [pairState_neighbors, pairState_neighbors, List.mem_singleton, List.mem_singleton]
    omega

/-- C21: the two particles do interact. -/
example : NbrOK (pairState 1) ∧ 0 ≤ (pairState 1).env.re ∧ OnlyFluid (pairState 1) ∧ 1 ∈ (pairState 1).near 0 := by
  refine ⟨pairState_ok 1, by change (0 : ℝ) ≤ 3 / 2; norm_num, fun i _ => Or.inl rfl, ?_⟩
  rw [mem_near]
  refine ⟨by decide, by decide, ?_⟩
  rw [dist_def, dot_real, Fin.sum_univ_two]
  change Real.sqrt ((1 - 0) * (1 - 0) + (0 - 0) * (0 - 0)) < 3 / 2
  rw [Real.sqrt_lt' (by norm_num)]
  norm_num

/-- C23: particles that came closer than `d = 0.9`. -/
example : (pairState (1 / 2)).origX 1 ≠ (pairState (1 / 2)).origX 0 ∧
    dist ((pairState (1 / 2)).ps 1).x ((pairState (1 / 2)).ps 0).x < 9 / 10 := by
  constructor
  · intro hc
    have := congrFun hc 0
    change (1 : ℝ) = 0 at this
    norm_num at this
  · rw [dist_def, dot_real, Fin.sum_univ_two]
    change Real.sqrt ((1 / 2 - 0) * (1 / 2 - 0) + (0 - 0) * (0 - 0)) < 9 / 10
    rw [Real.sqrt_lt' (by norm_num)]
    norm_num

end OpenMps
