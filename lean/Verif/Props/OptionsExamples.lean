import Verif.Props.Options
import Verif.Props.LocalExamples
import Verif.Props.CentreOfMassExamples
import Verif.Props.FreeFall

/-! # C66: scenes that meet the hypotheses -/

namespace OpenMps

open Ref

/-- Two drops side by side at the distance `d`. -/
noncomputable def twoState (d : ℝ) : State ℝ 2 Unit :=
  dropNew.addParticles [{ x := ![1 / 4, 1 / 2], u := 0, p := 0, n := 0, ty := .incompressibleNewton },
    { x := ![1 / 4 + d, 1 / 2], u := 0, p := 0, n := 0, ty := .incompressibleNewton }]

theorem twoState_hist (P : Params ℝ 2 Unit) (d : ℝ) : Hist P dropNew [] (twoState d) := .add _ .start

theorem two_L : 0 < dropEnv.neighborLength := by rw [dropEnv_vals.2.1]; norm_num

theorem twoState_calm (d : ℝ) : ¬ Crowded (twoState d) := by
  rintro ⟨c, -, h⟩
  have h1 : (cell (twoState d) c).card ≤ 2 := by
    unfold cell
    refine (Finset.card_filter_le _ _).trans ?_
    simp [twoState, State.addParticles, dropNew]
  have e : (twoState d).env = dropEnv := rfl
  rw [e, dropEnv_vals.2.1, dropEnv_vals.2.2.1] at h
  have h2 : ⌈(288 / 1000 : ℝ) / (1 / 10)⌉ = 3 := by
    rw [Int.ceil_eq_iff]; norm_num
  rw [h2] at h
  have h3 : (((3 : ℤ) + 1) ^ 2).toNat = 16 := by decide
  rw [h3] at h
  omega

theorem twoState_step {P : Params ℝ 2 Unit} (hex : P.cfg.explicit = true) (d : ℝ) {sch : Schedule} (hv : sch.Valid 2) (dt : ℝ) :
    ∃ s', (twoState d).forwardTime P sch dt = .ok s' := by
  obtain ⟨-, -, o, -⟩ := C42_outcome (Or.inl rfl) dropNew_eq (twoState_hist P d) dropNew_ok two_L dropEnv_positive.re.le sch hv dt
  refine o.mpr ⟨twoState_calm d, ?_⟩
  unfold Setting.step Setting.pressure
  rw [if_pos (show (setting P (twoState d) dt).cfg.explicit = true from hex)]
  exact ⟨_, rfl⟩

theorem twoState_fluid {P : Params ℝ 2 Unit} {d : ℝ} (hd0 : 0 ≤ d) (hd1 : d ≤ 1 / 2) {sch : Schedule} (hv : sch.Valid 2) {dt : ℝ} {s' : State ℝ 2 Unit}
    (h : (twoState d).forwardTime P sch dt = .ok s') {i : ℕ} (hi : i < 2) : (s'.ps i).ty = .incompressibleNewton := by
  have hb := (C11_box dropNew_eq (twoState_hist P d) two_L _ hv _ h i hi (by interval_cases i <;> exact PType.noConfusion)).1 (by
    intro a
    rw [dropEnv_vals.2.1, dropEnv_vals.2.2.2.2.2.1, dropEnv_vals.2.2.2.2.2.2.1]
    interval_cases i <;> fin_cases a
    · change (0 : ℝ) ≤ 1 / 4 ∧ (1 / 4 : ℝ) < 1 + 2 * (288 / 1000); norm_num
    · change (0 : ℝ) ≤ 1 / 2 ∧ (1 / 2 : ℝ) < 1 + 2 * (288 / 1000); norm_num
    · change (0 : ℝ) ≤ 1 / 4 + d ∧ (1 / 4 + d : ℝ) < 1 + 2 * (288 / 1000)
      constructor <;> linarith
    · change (0 : ℝ) ≤ 1 / 2 ∧ (1 / 2 : ℝ) < 1 + 2 * (288 / 1000); norm_num)
  rw [hb]
  interval_cases i <;> rfl

/-- The explicit mode with HS and ECS switched off and the midpoint option changed computes the same. -/
example : ∃ es s t, dropNew.performAll dropX' [.add dropParticles, .forward (Schedule.serial 4) (1 / 100), .auto (Schedule.serial 4)] = some (es, s) ∧
    dropNew.performAll { dropX' with cfg := { dropX'.cfg with hs := false, ecs := false, midpoint := false } }
      [.add dropParticles, .forward (Schedule.serial 4) (1 / 100), .auto (Schedule.serial 4)] = some (es, t) ∧ SameVisible s t := by
  rcases C66_unused_options_do_not_matter (P := dropX') (P' := { dropX' with cfg := { dropX'.cfg with hs := false, ecs := false, midpoint := false } })
    (Or.inl rfl) dropNew_eq dropNew_ok two_L dropEnv_positive.re.le rfl rfl
    ⟨rfl, rfl, rfl, rfl, rfl, rfl, fun h => (by cases h), fun h => (by cases h), fun h => (by cases h)⟩
    [.add dropParticles, .forward (Schedule.serial 4) (1 / 100), .auto (Schedule.serial 4)]
    ⟨trivial, Schedule.serial_valid 4, Schedule.serial_valid 4, trivial⟩ with ⟨h, -⟩ | h
  · exfalso
    obtain ⟨s', hs'⟩ := C06_explicit_step_succeeds (P := dropX') dropNew_eq (dropState_hist _) dropNew_ok (by rw [dropEnv_vals.2.2.1]; norm_num) two_L dropState_spaced rfl _
      (Schedule.serial_valid 4) (1 / 100)
    rw [performAll_cons] at h
    change ((dropState.performAll dropX' _).map _) = none at h
    rw [Option.map_eq_none_iff, performAll_cons] at h
    change (dropState.forwardTime dropX' _ _).goOn _ _ = none at h
    rw [hs'] at h
    change ((s'.performAll dropX' _).map _) = none at h
    rw [Option.map_eq_none_iff, performAll_cons] at h
    have hn : s'.n = 4 := (step_frame (Schedule.serial_valid 4) (Or.inl hs')).1
    change (s'.forwardTimeAuto dropX' _).goOn _ _ = none at h
    unfold State.forwardTimeAuto at h
    cases hdt : s'.determineDt with
    | none => unfold State.determineDt at hdt; rw [if_neg (by omega)] at hdt; cases hdt
    | some dt =>
      rw [hdt] at h
      simp only at h
      have hist' : Hist dropX' dropNew ([] ++ [1 / 100]) s' := .forward _ _ (dropState_hist _) (Schedule.serial_valid 4) (Or.inl hs')
      obtain ⟨-, -, -, o⟩ := C42_outcome (Or.inl rfl) dropNew_eq hist' dropNew_ok two_L dropEnv_positive.re.le (Schedule.serial 4)
        (by rw [hn]; exact Schedule.serial_valid 4) dt
      cases hr : s'.forwardTime dropX' (Schedule.serial 4) dt with
      | ub => exact o hr
      | ok a => rw [hr] at h; cases h
      | exn e a => rw [hr] at h; cases h
  · exact h

/-- SPP in the explicit mode: the run of the drop with and without it. -/
example : ∃ a b, Steps farP [1 / 100] dropState a ∧ Steps { farP with cfg := { farP.cfg with spp := true } } [1 / 100] dropState b ∧ SameMotion a b := by
  obtain ⟨s', hs'⟩ := C06_explicit_step_succeeds (P := farP) dropNew_eq (dropState_hist _) dropNew_ok (by rw [dropEnv_vals.2.2.1]; norm_num) two_L dropState_spaced rfl _
    (Schedule.serial_valid 4) (1 / 100)
  have ha : Steps farP [1 / 100] dropState s' := .step _ _ (Schedule.serial_valid 4) hs' .done
  obtain ⟨k1, k2⟩ := C66_spp_only_floors_the_density_in_explicit_mode (P := farP) (P' := { farP with cfg := { farP.cfg with spp := true } }) (Or.inl rfl)
    dropNew_eq dropNew_ok dropParticles rfl two_L dropEnv_positive.re.le dropEnv_positive.n0 (by change (0 : ℝ) ≤ 1000; norm_num) rfl rfl rfl rfl rfl [1 / 100]
  obtain ⟨b, hb⟩ := k1.mp ⟨s', ha⟩
  exact ⟨s', b, ha, hb, (k2 s' b ha hb).1⟩

/-- DS: two drops far apart. -/
example : ∃ s' t', (twoState (1 / 2)).forwardTime { farP with cfg := { farP.cfg with ds := false } } (Schedule.serial 2) (1 / 100) = .ok s' ∧
    (twoState (1 / 2)).forwardTime farP (Schedule.serial 2) (1 / 100) = .ok t' ∧ SameVisible s' t' := by
  set Q : Params ℝ 2 Unit := { farP with cfg := { farP.cfg with ds := false } } with hQ
  obtain ⟨s', h⟩ := twoState_step (P := Q) rfl (1 / 2) (Schedule.serial_valid 2) (1 / 100)
  have hx : ∀ i, i < 2 → (s'.ps i).x = ((twoState (1 / 2)).ps i).x + (1 / 100 : ℝ) • (s'.ps i).u ∧ (s'.ps i).u = 0 + (1 / 100 : ℝ) • dropEnv.g := by
    intro i hi
    obtain ⟨k1, k2⟩ := C36_isolated_particle_falls_freely (P := Q) dropNew_eq (twoState_hist Q _) dropNew_ok two_L rfl _ (Schedule.serial_valid 2) _ h i hi
      (twoState_fluid (by norm_num) le_rfl (Schedule.serial_valid 2) h hi) (by
        intro j hj hne _
        have hj : j < 2 := hj
        rw [dropEnv_vals.2.1, ← len_sub]
        unfold len
        apply Real.le_sqrt_of_sq_le
        have e0 : ((twoState (1 / 2)).ps 0).x = ![1 / 4, 1 / 2] := rfl
        have e1 : ((twoState (1 / 2)).ps 1).x = ![1 / 4 + 1 / 2, 1 / 2] := rfl
        interval_cases i <;> interval_cases j
        · exact absurd rfl hne
        · rw [e0, e1]; simp [Fin.sum_univ_two]; norm_num
        · rw [e0, e1]; simp [Fin.sum_univ_two]; norm_num
        · exact absurd rfl hne)
    refine ⟨k2, ?_⟩
    rw [k1]
    congr 1
    interval_cases i <;> rfl
  obtain ⟨t', ht', hv⟩ := C66_ds_is_idle_without_close_pairs (P := Q) (P' := farP) (Or.inl rfl) dropNew_eq (twoState_hist _ _) (twoState_hist _ _) dropNew_ok two_L
    dropEnv_positive.re.le rfl rfl rfl rfl (SameVisible.refl _) _ (Schedule.serial 2) (Schedule.serial_valid 2) (Schedule.serial_valid 2) _ h (by
      intro i j hi hj hne _ _ _
      have hn : s'.n = 2 := (step_frame (Schedule.serial_valid 2) (Or.inl h)).1
      rw [hn] at hi hj
      rw [(hx i hi).1, (hx j hj).1, (hx i hi).2, (hx j hj).2, dropEnv_vals.2.2.1, dropEnv_vals.2.2.2.2.2.2.2]
      unfold len
      apply Real.le_sqrt_of_sq_le
      have e0 : ((twoState (1 / 2)).ps 0).x = ![1 / 4, 1 / 2] := rfl
      have e1 : ((twoState (1 / 2)).ps 1).x = ![1 / 4 + 1 / 2, 1 / 2] := rfl
      rw [sq_abs, add_sub_add_right_eq_sub]
      interval_cases i <;> interval_cases j
      · exact absurd rfl hne
      · rw [e0, e1]; simp [Fin.sum_univ_two]; norm_num
      · rw [e0, e1]; simp [Fin.sum_univ_two]; norm_num
      · exact absurd rfl hne)
  exact ⟨s', t', h, ht', hv⟩

/-- ECS: the three particles have fewer neighbours than the reference lattice; with SPP their density is raised to `n0`. -/
example : SameOutcome (trioState.forwardTime { dropP with cfg := { dropP.cfg with ecs := false } } (Schedule.serial 3) (1 / 100))
    (trioState.forwardTime dropP (Schedule.serial 3) (1 / 100)) := by
  refine C66_ecs_is_idle_at_the_reference_density (P := { dropP with cfg := { dropP.cfg with ecs := false } }) (P' := dropP) (Or.inl rfl) dropNew_eq (trioState_hist _) (trioState_hist _) dropNew_ok two_L
    dropEnv_positive.re.le rfl rfl rfl rfl (SameVisible.refl _) _ _ (Schedule.serial_valid 3) (Schedule.serial_valid 3) _ (fun i hi _ => Or.inr ⟨rfl, ?_⟩)
  have hi : i < 3 := hi
  set S := setting { dropP with cfg := { dropP.cfg with ecs := false } } trioState (1 / 100) with hS
  have hre : S.env.re = 24 / 100 := dropEnv_vals.1
  have hcard : (S.near (scene trioState).x i).card ≤ 2 := by
    have hsub : S.near (scene trioState).x i ⊆ (Finset.range 3).erase i := by
      intro j hj
      have := Finset.mem_filter.mp hj
      exact Finset.mem_erase.mpr ⟨this.2.1, this.1⟩
    have := Finset.card_le_card hsub
    rw [Finset.card_erase_of_mem (Finset.mem_range.mpr hi), Finset.card_range] at this
    exact this
  have hw : ∀ j ∈ S.near (scene trioState).x i, weight S.env.re (len ((scene trioState).x j - (scene trioState).x i)) ≤ 14 / 10 := by
    intro j hj
    have hm := Finset.mem_filter.mp hj
    have hj3 : j < 3 := Finset.mem_range.mp hm.1
    have hl : 1 / 10 ≤ len ((scene trioState).x j - (scene trioState).x i) := by
      have key : ∃ a, dropEnv.l0 ≤ |(dropState.ps i).x a - (dropState.ps j).x a| := by
        rcases lt_or_gt_of_ne hm.2.1 with q | q
        · obtain ⟨a, ha⟩ := dropState_spaced j i q (by change i < 4; omega)
            (by rw [(dropState_x j (by omega)).2.2]; split <;> decide) (by rw [(dropState_x i (by omega)).2.2]; split <;> decide)
          exact ⟨a, by rw [abs_sub_comm]; exact ha⟩
        · exact dropState_spaced i j q (by change j < 4; omega)
            (by rw [(dropState_x i (by omega)).2.2]; split <;> decide) (by rw [(dropState_x j (by omega)).2.2]; split <;> decide)
      obtain ⟨a, ha⟩ := key
      rw [dropEnv_vals.2.2.1, ← trioState_ps hi, ← trioState_ps hj3, abs_sub_comm] at ha
      refine ha.trans ?_
      unfold len
      apply Real.abs_le_sqrt
      exact Finset.single_le_sum (f := fun a => ((scene trioState).x j - (scene trioState).x i) a ^ 2) (fun a _ => sq_nonneg _) (Finset.mem_univ a)
    unfold weight
    split
    · rw [hre]
      have : (24 / 100 : ℝ) / len ((scene trioState).x j - (scene trioState).x i) ≤ 24 / 100 / (1 / 10) := by
        apply div_le_div_of_nonneg_left (by norm_num) (by norm_num) hl
      norm_num at this ⊢
      linarith
    · norm_num
  have := Finset.sum_le_card_nsmul _ _ _ hw
  have h2 : ((S.near (scene trioState).x i).card : ℝ) ≤ 2 := by exact_mod_cast hcard
  rw [nsmul_eq_mul] at this
  have h4 := dropEnv_n0.1
  change S.density (scene trioState).x i ≤ dropEnv.n0
  unfold Setting.density
  linarith

/-- SPP: two drops so close together that their density is above `n0`. -/
example : ∃ s' t', (twoState (1 / 500)).forwardTime farP (Schedule.serial 2) (1 / 100) = .ok s' ∧
    (twoState (1 / 500)).forwardTime { farP with cfg := { farP.cfg with spp := true } } (Schedule.serial 2) (1 / 100) = .ok t' ∧ SameVisible s' t' := by
  classical
  obtain ⟨s', h⟩ := twoState_step (P := farP) rfl (1 / 500) (Schedule.serial_valid 2) (1 / 100)
  obtain ⟨t', ht', hv⟩ := C66_spp_is_idle_without_deficiency (P := farP) (P' := { farP with cfg := { farP.cfg with spp := true } }) (Or.inl rfl) dropNew_eq
    (twoState_hist _ _) (twoState_hist _ _) dropNew_ok two_L dropEnv_positive.re.le dropEnv_positive.n0 (by change (95 / 100 : ℝ) ≤ 1; norm_num) rfl rfl rfl rfl (SameVisible.refl _) _
    (Schedule.serial 2) (Schedule.serial_valid 2) (Schedule.serial_valid 2) _ h (by
      intro i hi _ _
      have hn : s'.n = 2 := (step_frame (Schedule.serial_valid 2) (Or.inl h)).1
      rw [hn] at hi
      obtain ⟨a, ha, hr⟩ := C42_step_is_the_reference_function (P := farP) (Or.inl rfl) dropNew_eq (twoState_hist _ _) dropNew_ok two_L dropEnv_positive.re.le _ (Schedule.serial_valid 2) _ h
      set S := setting farP (twoState (1 / 500)) (1 / 100) with hS
      have hty : ∀ j, j < 2 → S.ty j = .incompressibleNewton := fun j hj => by
        rw [← (hr j hj).1]; exact twoState_fluid (by norm_num) (by norm_num) (Schedule.serial_valid 2) h hj
      rw [(hr i hi).2.2.2.2]
      have e1 : a.dens i = (S.predict (scene (twoState (1 / 500)))).dens i := by
        unfold Setting.step at ha
        cases hp : S.pressure farP.eps (scene (twoState (1 / 500))) (S.predict (scene (twoState (1 / 500)))) with
        | none => rw [hp] at ha; cases ha
        | some p =>
          rw [hp] at ha
          simp only [Option.map_some, Option.some.injEq] at ha
          rw [← ha]
          unfold Setting.finish
          simp only
          split <;> rfl
      have hAct : S.Active i := by unfold Setting.Active; rw [hty i hi]; exact ⟨by decide, by decide⟩
      have e2 : (S.predict (scene (twoState (1 / 500)))).dens i = S.density (S.predict (scene (twoState (1 / 500)))).x i := by
        have : (S.predict (scene (twoState (1 / 500)))).dens i = S.reported (S.predict (scene (twoState (1 / 500)))).x (scene (twoState (1 / 500))).dens i := rfl
        rw [this]; unfold Setting.reported
        rw [if_pos hAct, if_neg (by decide)]
      rw [e1, e2]
      set X := (S.predict (scene (twoState (1 / 500)))).x with hX
      have hXi : ∀ j, j < 2 → X j = ((twoState (1 / 500)).ps j).x + (1 / 100 : ℝ) • ((1 / 100 : ℝ) • dropEnv.g) := by
        intro j hj
        have hF : S.Fluid j := hty j hj
        have : X j = (if S.Fluid j then (scene (twoState (1 / 500))).x j + S.env.dt • (if S.Fluid j then (scene (twoState (1 / 500))).u j +
            S.env.dt • S.acceleration (scene (twoState (1 / 500))).x (scene (twoState (1 / 500))).u j else (1 / S.env.dt) • (S.callback j - (scene (twoState (1 / 500))).x j)) else S.callback j) := rfl
        rw [this, if_pos hF, if_pos hF]
        have hu : (scene (twoState (1 / 500))).u j = 0 := by interval_cases j <;> rfl
        have hacc : S.acceleration (scene (twoState (1 / 500))).x (scene (twoState (1 / 500))).u j = dropEnv.g := by
          unfold Setting.acceleration
          have hnu : S.env.nu = 0 := dropEnv_vals.2.2.2.1
          rw [hnu, zero_smul, zero_add]
          unfold Setting.gravity
          rw [if_neg (show ¬ S.cfg.centralGravity = true by decide)]
          rfl
        rw [hu, hacc, zero_add]
        rfl
      have hdist : ∀ j k, j < 2 → k < 2 → j ≠ k → len (((twoState (1 / 500)).ps j).x - ((twoState (1 / 500)).ps k).x) = 1 / 500 := by
        intro j k hj hk hne
        have e0 : ((twoState (1 / 500)).ps 0).x = ![1 / 4, 1 / 2] := rfl
        have e1 : ((twoState (1 / 500)).ps 1).x = ![1 / 4 + 1 / 500, 1 / 2] := rfl
        unfold len
        rw [Real.sqrt_eq_iff_mul_self_eq_of_pos (by norm_num)]
        interval_cases j <;> interval_cases k
        · exact absurd rfl hne
        · rw [e0, e1]; simp [Fin.sum_univ_two]; norm_num
        · rw [e0, e1]; simp [Fin.sum_univ_two]; norm_num
        · exact absurd rfl hne
      have hmem : 1 - i ∈ S.near X i := by
        refine Finset.mem_filter.mpr ⟨Finset.mem_range.mpr (by change 1 - i < 2; omega), by omega, by rw [hty _ (by omega)]; decide, ?_, ?_⟩
        · change len (((twoState (1 / 500)).ps (1 - i)).x - ((twoState (1 / 500)).ps i).x) < dropEnv.neighborLength
          rw [hdist _ _ (by omega) hi (by omega), dropEnv_vals.2.1]; norm_num
        · rw [hXi _ (by omega), hXi _ hi, add_sub_add_right_eq_sub, hdist _ _ (by omega) hi (by omega)]
          change _ < dropEnv.re
          rw [dropEnv_vals.1]; norm_num
      have hnn : ∀ j ∈ S.near X i, 0 ≤ weight S.env.re (len (X j - X i)) := fun j _ => by rw [weight_eq]; exact W_nonneg _ _
      have hge := Finset.single_le_sum hnn hmem
      have hval : weight S.env.re (len (X (1 - i) - X i)) = 119 := by
        rw [hXi _ (by omega), hXi _ hi, add_sub_add_right_eq_sub, hdist _ _ (by omega) hi (by omega)]
        have : S.env.re = 24 / 100 := dropEnv_vals.1
        rw [this]; unfold weight
        rw [if_pos (by norm_num)]; norm_num
      rw [hval] at hge
      have := dropEnv_n0.2
      change dropEnv.n0 ≤ ∑ j ∈ S.near X i, _
      linarith) (fun hc => by cases hc)
  exact ⟨s', t', h, ht', hv⟩

end OpenMps
