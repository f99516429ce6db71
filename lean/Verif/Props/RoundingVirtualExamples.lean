import Verif.Props.RoundingVirtualRun
import Verif.Props.RoundingForcesExamples

/-! # A computer with virtual neighbours that meets the hypotheses of C71 -/

set_option linter.unusedSectionVars false
set_option exponentiation.threshold 1000

namespace OpenMps

section
attribute [local instance] instScalarRat

/-- The options of the repository, SPP included. -/
def surfP : Params ℚ 2 Unit := { ratP with cfg := Config.default }

theorem surf_hist : Hist surfP flowNew [] flowState := .add _ .start

/-- The state after the densities: particle 0 has a virtual neighbour. -/
theorem surf_search : ∃ s1, (flowState.start (1 / 1000)).searchNeighbor (Schedule.serial 3 0) = .ok s1 ∧
    ((s1.ps 0).ty = .incompressibleNewton ∧ s1.neighbors 0 = [1] ∧ surfP.cfg.spp = true ∧
      ((s1.densC surfP.cfg).sppParticle 0 ((s1.densC surfP.cfg).accLoop 0 (0 : ℚ) (fun _ _ => 0)).2).isSome = true) := by
  obtain ⟨s1, h1, h2⟩ := Res.check_ok (r := (flowState.start (1 / 1000)).searchNeighbor (Schedule.serial 3 0))
    (f := fun s1 => decide ((s1.ps 0).ty = .incompressibleNewton ∧ s1.neighbors 0 = [1] ∧ surfP.cfg.spp = true ∧
      ((s1.densC surfP.cfg).sppParticle 0 ((s1.densC surfP.cfg).accLoop 0 (0 : ℚ) (fun _ _ => 0)).2).isSome = true)) (by decide +kernel)
  exact ⟨s1, h1, by simpa using h2⟩

/-- All hypotheses of C71 at a free surface hold of this computer; the fluid particle has a real and a virtual neighbour. -/
example : ∃ s1 t N, (flowState.start (1 / 1000)).searchNeighbor (Schedule.serial 3 0) = .ok s1 ∧
    ((s1.densC surfP.cfg).sppParticle 0 ((s1.densC surfP.cfg).accLoop 0 (0 : ℚ) (fun _ _ => 0)).2).isSome = true ∧
    flowState.beforePressure surfP (Schedule.serial 3) (1 / 1000) = .ok t ∧ roundedRat.Within s1 0 N ∧
    |roundedRat.val ((t.ps 0).u 0) - (roundedRat.val ((flowState.ps 0).u 0) +
        roundedRat.val (1 / 1000 : ℚ) * roundedRat.trueAcceleration surfP.cfg s1 0 N 0)| ≤
      202 / 2 ^ 50 * (sz (roundedRat.val ((flowState.ps 0).u 0)) + roundedRat.val (1 / 1000 : ℚ) * roundedRat.accelerationSize surfP.cfg s1 0 N 0) := by
  obtain ⟨s1, h1, h2, h3, -, h5⟩ := surf_search
  obtain ⟨r1, r2⟩ := ratEnv_re'
  obtain ⟨l1, l2⟩ := ratEnv_L'
  have hv : roundedRat.val (2 / 10 : ℚ) = 2 / 10 := by
    change (((2 : ℚ) / 10 : ℚ) : ℝ) = 2 / 10; push_cast; rfl
  have hbp := beforePressure_of_search (P := surfP) (Schedule.serial_valid 3) h1
  obtain ⟨e1, e2⟩ := flow_re
  have hlen : roundedRat.Lengths (2 / 10 : ℚ) flowEnv.re := by rw [e1]; exact rat_lengths
  have key := C71_first_stage_of_a_step_at_a_free_surface roundedRat roundedRat_doubleLike roundedRat_wide roundedRat_exact (by decide) (ℓ := (2 / 10 : ℚ))
    flowEnv_eq (by
      refine ⟨trivial, ?_, ?_⟩
      · change (1 / 2 ^ 20 : ℝ) ≤ (((1 : ℚ) / 10 : ℚ) : ℝ); push_cast; norm_num
      · change (((1 : ℚ) / 10 : ℚ) : ℝ) ≤ 1; push_cast; norm_num)
    hlen (by rw [hv]; norm_num) flowNew_eq surf_hist (fun h => absurd h (by decide)) (by rw [e2]; exact ratEnv_good)
    (by rw [hv, e2]; norm_num; linarith) (by decide +kernel) (by rw [e2]; exact rat_inRange _ (by decide +kernel))
    (fun i hi _ => ⟨by rw [e2, flow_same i hi]; exact rat_inRange _ (ratState_x i hi),
      fun a => ⟨rat_upto (flow_bounds i hi a).1, rat_upto (flow_bounds i hi a).2⟩⟩)
    (fun i j hi hj hij _ _ => by rw [flow_same i hi, flow_same j hj]; exact rat_sep i j hi hj hij)
    _ (Schedule.serial_valid 3) _ flow_plain rfl h1 hbp 0 (by decide) h2 (by rw [h3]; decide)
    (by
      refine ⟨trivial, ?_⟩
      change (1 / 2 ^ 60 : ℝ) ≤ (((1 : ℚ) / 2 ^ 52 : ℚ) : ℝ)
      push_cast; norm_num)
    (by
      have : (flowEnv.n0 : ℚ) ≤ 2 ^ 10 := by decide +kernel
      change ((flowEnv.n0 : ℚ) : ℝ) ≤ 2 ^ 10
      exact_mod_cast this)
    (by
      intro a
      have h : ∀ a, |(flowState.ps 0).x a| ≤ 2 ^ 20 * flowEnv.re := by decide +kernel
      change |(((flowState.ps 0).x a : ℚ) : ℝ)| ≤ 2 ^ 20 * ((flowEnv.re : ℚ) : ℝ)
      exact_mod_cast h a)
  obtain ⟨N, w1, w2⟩ := key
  refine ⟨s1, _, N, h1, h5, hbp, w1, ?_⟩
  have := (w2 0).2.2.1
  rw [h3] at this
  norm_num at this ⊢
  exact this

end

end OpenMps
