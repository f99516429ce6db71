import Verif.Props.RoundingForcesRun
import Verif.Props.RoundingDensityExamples

/-! # A computer in rounded arithmetic that meets the hypotheses of C71 -/

set_option linter.unusedSectionVars false
set_option exponentiation.threshold 1000

namespace OpenMps

section
attribute [local instance] instScalarRat

theorem roundedRat_wide : roundedRat.Wide := by
  constructor
  · change (0 : ℝ) ≤ _; positivity
  · change (2 : ℝ) ^ 910 ≤ 2 ^ 1000
    exact pow_le_pow_right₀ (by norm_num) (by norm_num)

theorem roundedRat_exact : roundedRat.Exact := by
  refine ⟨fun {x} _ => ⟨trivial, ?_⟩, fun {x} _ => ⟨trivial, ?_⟩, fun k _ => ⟨trivial, ?_⟩, fun {x y} _ _ => ?_⟩
  · change ((-x : ℚ) : ℝ) = -((x : ℚ) : ℝ)
    push_cast; rfl
  · change ((|x| : ℚ) : ℝ) = |((x : ℚ) : ℝ)|
    push_cast; rfl
  · change (((k : Int) : ℚ) : ℝ) = k
    push_cast; rfl
  · change decide (x ≤ y) = true ↔ ((x : ℚ) : ℝ) ≤ ((y : ℚ) : ℝ)
    rw [decide_eq_true_iff]
    exact_mod_cast Iff.rfl

theorem rat_sized {b : ℕ} {q : ℚ} (h : 1 / 2 ^ b ≤ q ∧ q ≤ 2 ^ b) : roundedRat.Sized b q := by
  refine ⟨trivial, ?_, ?_⟩
  · have : ((1 / 2 ^ b : ℚ) : ℝ) ≤ ((q : ℚ) : ℝ) := by exact_mod_cast h.1
    push_cast at this
    exact this
  · have : ((q : ℚ) : ℝ) ≤ ((2 ^ b : ℚ) : ℝ) := by exact_mod_cast h.2
    push_cast at this
    exact this

theorem rat_upto {b : ℕ} {q : ℚ} (h : -2 ^ b ≤ q ∧ q ≤ 2 ^ b) : roundedRat.Upto b q := by
  refine ⟨trivial, ?_⟩
  have h1 : ((-2 ^ b : ℚ) : ℝ) ≤ ((q : ℚ) : ℝ) := by exact_mod_cast h.1
  have h2 : ((q : ℚ) : ℝ) ≤ ((2 ^ b : ℚ) : ℝ) := by exact_mod_cast h.2
  push_cast at h1 h2
  exact abs_le.mpr ⟨h1, h2⟩

/-- Viscous fluid. -/
def flowArgs : EnvArgs ℚ 2 := { ratArgs with nu := 1 / 1000 }

def flowEnv : Env ℚ 2 := (Env.mk? Config.default flowArgs).get rfl

theorem flowEnv_eq : Env.mk? Config.default flowArgs = some flowEnv := rfl

def flowNew : State ℚ 2 Unit := (State.new? flowEnv ()).get rfl

theorem flowNew_eq : State.new? flowEnv () = some flowNew := rfl

/-- Two fluid particles passing each other. -/
def flowParticles : List (Particle ℚ 2) :=
  [{ x := ![2 / 10, 5 / 10], u := ![1, 0], p := 100, n := 6, ty := .incompressibleNewton },
   { x := ![43 / 100, 5 / 10], u := ![-1, 1 / 3], p := 50, n := 40, ty := .incompressibleNewton },
   { x := ![9 / 10, 9 / 10], u := ![0, 0], p := 0, n := 0, ty := .wall }]

def flowState : State ℚ 2 Unit := flowNew.addParticles flowParticles

/-- The options of the repository except SPP. -/
def flowP : Params ℚ 2 Unit := { ratP with cfg := { Config.default with spp := false } }

theorem flowState_hist : Hist flowP flowNew [] flowState := .add _ .start

theorem flowState_search : ∃ s1, (flowState.start (1 / 1000)).searchNeighbor (Schedule.serial 3 0) = .ok s1 ∧
    ((s1.ps 0).ty = .incompressibleNewton ∧ s1.neighbors 0 = [1] ∧ (s1.ps 1).ty = .incompressibleNewton) := by
  obtain ⟨s1, h1, h2⟩ := Res.check_ok (r := (flowState.start (1 / 1000)).searchNeighbor (Schedule.serial 3 0))
    (f := fun s1 => decide ((s1.ps 0).ty = .incompressibleNewton ∧ s1.neighbors 0 = [1] ∧ (s1.ps 1).ty = .incompressibleNewton)) (by decide +kernel)
  exact ⟨s1, h1, by simpa using h2⟩

theorem flow_same : ∀ i, i < 3 → (flowState.ps i).x = (ratState.ps i).x := by decide +kernel

theorem flow_re : flowEnv.re = ratEnv.re ∧ flowEnv.neighborLength = ratEnv.neighborLength := by decide +kernel

theorem flow_plain : roundedRat.Plain (flowState.start (1 / 1000)).env := by
  refine ⟨rat_sized ?_, rat_sized ?_, rat_sized ?_, rat_sized ?_, rat_sized ?_, rat_upto ?_, ?_, fun a => rat_upto ?_⟩
  · decide +kernel
  · decide +kernel
  · decide +kernel
  · decide +kernel
  · decide +kernel
  · decide +kernel
  · change (0 : ℝ) ≤ (((1 : ℚ) / 1000 : ℚ) : ℝ)
    push_cast; norm_num
  · revert a; decide +kernel

theorem flow_bounds : ∀ i, i < 3 → ∀ a, (-2 ^ 60 ≤ (flowState.ps i).x a ∧ (flowState.ps i).x a ≤ 2 ^ 60) ∧
    (-2 ^ 30 ≤ (flowState.ps i).u a ∧ (flowState.ps i).u a ≤ 2 ^ 30) := by decide +kernel

/-- All hypotheses of C71 hold of this computer; the two fluid particles interact. -/
example : ∃ s1 t N, (flowState.start (1 / 1000)).searchNeighbor (Schedule.serial 3 0) = .ok s1 ∧
    flowState.beforePressure flowP (Schedule.serial 3) (1 / 1000) = .ok t ∧ 1 ∈ N ∧
    |roundedRat.val ((t.ps 0).u 0) - (roundedRat.val ((flowState.ps 0).u 0) +
        roundedRat.val (1 / 1000 : ℚ) * roundedRat.trueAcceleration flowP.cfg s1 0 N 0)| ≤
      202 / 2 ^ 50 * (sz (roundedRat.val ((flowState.ps 0).u 0)) + roundedRat.val (1 / 1000 : ℚ) * roundedRat.accelerationSize flowP.cfg s1 0 N 0) := by
  obtain ⟨s1, h1, h2, h3, h4⟩ := flowState_search
  obtain ⟨r1, r2⟩ := ratEnv_re'
  obtain ⟨l1, l2⟩ := ratEnv_L'
  have hv : roundedRat.val (2 / 10 : ℚ) = 2 / 10 := by
    change (((2 : ℚ) / 10 : ℚ) : ℝ) = 2 / 10; push_cast; rfl
  have hbp := beforePressure_of_search (P := flowP) (Schedule.serial_valid 3) h1
  obtain ⟨e1, e2⟩ := flow_re
  have hlen : roundedRat.Lengths (2 / 10 : ℚ) flowEnv.re := by rw [e1]; exact rat_lengths
  have key := C71_first_stage_of_a_step_is_accurate roundedRat roundedRat_doubleLike roundedRat_wide roundedRat_exact (by decide) (ℓ := (2 / 10 : ℚ))
    flowEnv_eq (by
      refine ⟨trivial, ?_, ?_⟩
      · change (1 / 2 ^ 20 : ℝ) ≤ (((1 : ℚ) / 10 : ℚ) : ℝ); push_cast; norm_num
      · change (((1 : ℚ) / 10 : ℚ) : ℝ) ≤ 1; push_cast; norm_num)
    hlen (by rw [hv]; norm_num) flowNew_eq flowState_hist (fun h => absurd h (by decide)) (by rw [e2]; exact ratEnv_good)
    (by rw [hv, e2]; norm_num; linarith) (by decide +kernel) (by rw [e2]; exact rat_inRange _ (by decide +kernel))
    (fun i hi _ => ⟨by rw [e2, flow_same i hi]; exact rat_inRange _ (ratState_x i hi),
      fun a => ⟨rat_upto (flow_bounds i hi a).1, rat_upto (flow_bounds i hi a).2⟩⟩)
    (fun i j hi hj hij _ _ => by rw [flow_same i hi, flow_same j hj]; exact rat_sep i j hi hj hij)
    _ (Schedule.serial_valid 3) _ flow_plain rfl h1 hbp 0 (by decide) h2 (by rw [h3]; decide) (by intro h; cases h)
  obtain ⟨N, w1, w2⟩ := key
  refine ⟨s1, _, N, h1, hbp, ?_, ?_⟩
  · obtain ⟨g0, g, nb, -, -, hs1, -, -⟩ := searchNeighbor_ok_frame (s := flowState.start (1 / 1000)) (Schedule.serial_valid 3 0) h1
    have hx : ∀ j, (s1.ps j).x = (flowState.ps j).x := by
      intro j
      rw [hs1]
      exact (marked_ps ({ flowState.start (1 / 1000) with grid := g0 } : State ℚ 2 Unit) (List.range 3) g j).1
    have hn : s1.n = 3 := by rw [hs1]; rfl
    have hre : s1.env.re = ratEnv.re := by rw [hs1]; exact e1
    apply w1.2 1 (by rw [hn]; decide) (by decide) (by rw [h4]; decide)
    rw [hx, hx, hre, flow_same 0 (by decide), flow_same 1 (by decide)]
    have := ratState_dist
    norm_num at this r1 ⊢
    linarith
  · have := (w2 0).2.2.1
    rw [h3] at this
    norm_num at this ⊢
    exact this

theorem flow_bounds_p : ∀ i, i < 3 → -2 ^ 60 ≤ (flowState.ps i).p ∧ (flowState.ps i).p ≤ 2 ^ 60 := by decide +kernel

/-- The hypotheses of the theorem about the pressure gradient hold after the search. -/
example : ∃ s1, (flowState.start (1 / 1000)).searchNeighbor (Schedule.serial 3 0) = .ok s1 ∧ s1.neighbors 0 = [1] ∧
    ∃ N, roundedRat.Within s1 0 N ∧
      |roundedRat.val (((s1.modifyByGradient { Config.default with spp := false, gc := false } (Schedule.serial 3 1) (Schedule.serial 3 2)).ps 0).u 0) -
          (roundedRat.val ((s1.ps 0).u 0) + roundedRat.truePush s1 0 N 0)| ≤
        222 / 2 ^ 50 * (sz (roundedRat.val ((s1.ps 0).u 0)) + roundedRat.pushSize s1 0 N 0) := by
  obtain ⟨s1, h1, h2, h3, h4⟩ := flowState_search
  obtain ⟨r1, r2⟩ := ratEnv_re'
  obtain ⟨l1, l2⟩ := ratEnv_L'
  have hv : roundedRat.val (2 / 10 : ℚ) = 2 / 10 := by
    change (((2 : ℚ) / 10 : ℚ) : ℝ) = 2 / 10; push_cast; rfl
  obtain ⟨e1, e2⟩ := flow_re
  have hlen : roundedRat.Lengths (2 / 10 : ℚ) flowEnv.re := by rw [e1]; exact rat_lengths
  obtain ⟨row, q1, q2, q3, q4, -, q6, -⟩ := roundedRat.row_after_search roundedRat_doubleLike (by decide) (ℓ := (2 / 10 : ℚ))
    flowEnv_eq (by
      refine ⟨trivial, ?_, ?_⟩
      · change (1 / 2 ^ 20 : ℝ) ≤ (((1 : ℚ) / 10 : ℚ) : ℝ); push_cast; norm_num
      · change (((1 : ℚ) / 10 : ℚ) : ℝ) ≤ 1; push_cast; norm_num)
    hlen (by
      have h5 : (2 : ℝ) ^ 2 ≤ roundedRat.Ω := by
        change (2 : ℝ) ^ 2 ≤ 2 ^ 1000
        exact pow_le_pow_right₀ (by norm_num) (by norm_num)
      rw [e1]
      linarith) flowNew_eq flowState_hist (fun h => absurd h (by decide)) (by rw [e2]; exact ratEnv_good)
    (by rw [hv, e2]; norm_num; linarith) (by decide +kernel) (by rw [e2]; exact rat_inRange _ (by decide +kernel))
    (fun i hi _ => by rw [e2, flow_same i hi]; exact rat_inRange _ (ratState_x i hi))
    (fun i j hi hj hij _ _ => by rw [flow_same i hi, flow_same j hj]; exact rat_sep i j hi hj hij)
    _ (Schedule.serial_valid 3) _ h1 0 (by decide) (by rw [h2]; decide) (by rw [h3]; decide)
  have n3 : s1.n = 3 := q4
  obtain ⟨N, w1, w2⟩ := C71_pressure_gradient_is_accurate roundedRat roundedRat_doubleLike roundedRat_wide roundedRat_exact (by decide) (ℓ := (2 / 10 : ℚ))
    { Config.default with spp := false, gc := false } rfl s1 (by rw [q2]; exact hlen) (by rw [hv]; norm_num) (by rw [q1]; exact flow_plain) 0
    (by rw [n3]; decide) h2 row (by intro h; cases h)
    (fun a => by rw [(q6 0).1]; exact rat_upto (flow_bounds 0 (by decide) a).1)
    (fun a => by
      rw [(q6 0).2.1]
      obtain ⟨b1, b2⟩ := (flow_bounds 0 (by decide) a).2
      exact rat_upto ⟨by norm_num at b1 ⊢; linarith, by norm_num at b2 ⊢; linarith⟩)
    (by rw [(q6 0).2.2]; exact rat_upto (flow_bounds_p 0 (by decide)))
    (fun j hj => by
      rw [h3, List.mem_singleton] at hj
      subst hj
      exact ⟨fun a => by rw [(q6 1).1]; exact rat_upto (flow_bounds 1 (by decide) a).1, by rw [(q6 1).2.2]; exact rat_upto (flow_bounds_p 1 (by decide))⟩)
    (Schedule.serial 3 1) (Schedule.serial 3 2) (by rw [n3]; exact Schedule.serial_valid 3 1) (by rw [n3]; exact Schedule.serial_valid 3 2)
  refine ⟨s1, h1, h3, N, w1, ?_⟩
  have := (w2 0).2.2.1
  rw [h3] at this
  norm_num at this ⊢
  exact this

/-- The hypotheses of the theorem about the equation of state hold of a compressed particle. -/
example : 0 < roundedRat.trueEos (flowState.start (1 / 1000)) 1 ∧
    |roundedRat.val ((parLoop State.eosCompute State.presCommit (Schedule.serial 3 0) (flowState.start (1 / 1000))).ps 1).p -
        roundedRat.trueEos (flowState.start (1 / 1000)) 1| ≤
      1 / 2 ^ 45 * (roundedRat.val (flowState.start (1 / 1000)).env.c ^ 2 * roundedRat.val (flowState.start (1 / 1000)).env.rho *
        (roundedRat.val ((flowState.start (1 / 1000)).ps 1).n / roundedRat.val (flowState.start (1 / 1000)).env.n0 + 2)) := by
  have hc : (1 : ℚ) / 2 ^ 30 ≤ (flowState.start (1 / 1000)).env.c ∧ (flowState.start (1 / 1000)).env.c ≤ 2 ^ 30 := by decide +kernel
  have hn : ((flowState.start (1 / 1000)).ps 1).n = 40 := by decide +kernel
  have hn0 : (1 : ℚ) ≤ (flowState.start (1 / 1000)).env.n0 ∧ (flowState.start (1 / 1000)).env.n0 < 40 := by decide +kernel
  have hrho : (0 : ℚ) < (flowState.start (1 / 1000)).env.rho := by decide +kernel
  refine ⟨?_, (C71_equation_of_state_is_accurate roundedRat roundedRat_doubleLike roundedRat_wide roundedRat_exact _ flow_plain (rat_sized hc) 1 (by decide)
    (by rw [hn]; exact rat_upto (by norm_num)) (by
      rw [hn]
      change (0 : ℝ) ≤ (((40 : ℚ)) : ℝ)
      norm_num) _ (Schedule.serial_valid 3 0)).2⟩
  unfold Rounding.trueEos
  rw [hn]
  change (0 : ℝ) < ((flowState.start (1 / 1000)).env.c : ℝ) ^ 2 *
    max (((flowState.start (1 / 1000)).env.rho : ℝ) * ((40 : ℚ) : ℝ) / ((flowState.start (1 / 1000)).env.n0 : ℝ) - ((flowState.start (1 / 1000)).env.rho : ℝ)) 0
  have c0 : (0 : ℝ) < ((flowState.start (1 / 1000)).env.c : ℝ) := by
    have : (0 : ℚ) < (flowState.start (1 / 1000)).env.c := lt_of_lt_of_le (by norm_num) hc.1
    exact_mod_cast this
  have n1 : (1 : ℝ) ≤ ((flowState.start (1 / 1000)).env.n0 : ℝ) := by exact_mod_cast hn0.1
  have n2 : ((flowState.start (1 / 1000)).env.n0 : ℝ) < 40 := by exact_mod_cast hn0.2
  have r0 : (0 : ℝ) < ((flowState.start (1 / 1000)).env.rho : ℝ) := by exact_mod_cast hrho
  apply mul_pos (pow_pos c0 2)
  apply lt_max_of_lt_left
  rw [sub_pos, lt_div_iff₀ (by linarith)]
  push_cast
  exact mul_lt_mul_of_pos_left n2 r0

/-- The hypotheses of the theorem about walls hold of the third particle. -/
example : ∀ a, |roundedRat.val ((((flowState.start (1 / 1000)).computeExplicit flowP (Schedule.serial 3 0) (Schedule.serial 3 1)).ps 2).u a) -
      (roundedRat.val ((((flowState.start (1 / 1000)).computeExplicit flowP (Schedule.serial 3 0) (Schedule.serial 3 1)).ps 2).x a) - roundedRat.val (((flowState.start (1 / 1000)).ps 2).x a)) /
        roundedRat.val (flowState.start (1 / 1000)).env.dt| ≤
    4 / 2 ^ 50 * (sz (roundedRat.val ((((flowState.start (1 / 1000)).computeExplicit flowP (Schedule.serial 3 0) (Schedule.serial 3 1)).ps 2).x a) -
      roundedRat.val (((flowState.start (1 / 1000)).ps 2).x a)) / roundedRat.val (flowState.start (1 / 1000)).env.dt) :=
  fun a => ((C71_wall_velocity_is_accurate roundedRat roundedRat_doubleLike roundedRat_wide flowP (flowState.start (1 / 1000)) (rat_sized (by decide +kernel)) 2 (by decide)
    (by decide +kernel) (Schedule.serial 3 0) (Schedule.serial 3 1) (Schedule.serial_valid 3 0) (Schedule.serial_valid 3 1)
    (fun a => rat_upto (flow_bounds 2 (by decide) a).1) (fun a => rat_upto (by revert a; decide +kernel))).2 a).2

end

end OpenMps
