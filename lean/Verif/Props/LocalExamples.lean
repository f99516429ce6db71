import Verif.Props.Local

/-! # C61: scenes with and without a distant drop -/

namespace OpenMps

open Ref

/-- The three interacting particles of `dropState`, without the fourth. -/
noncomputable def trioState : State ℝ 2 Unit := dropNew.addParticles (dropParticles.take 3)

theorem trioState_hist (P : Params ℝ 2 Unit) : Hist P dropNew [] trioState := .add _ .start

theorem trioState_ps {i : ℕ} (hi : i < 3) : trioState.ps i = dropState.ps i := by
  interval_cases i <;> rfl

theorem drop_apart {i : ℕ} (hi : i < 3) : dropEnv.neighborLength ≤ dist (dropState.ps i).x (dropState.ps 3).x := by
  rw [dropEnv_vals.2.1, (dropState_x i (by omega)).1, (dropState_x 3 (by omega)).1, ← len_sub]
  unfold len
  apply Real.le_sqrt_of_sq_le
  interval_cases i <;> simp [Fin.sum_univ_two, dropX] <;> norm_num

/-- Explicit mode. -/
noncomputable def dropX' : Params ℝ 2 Unit := { dropP with cfg := { Config.default with explicit := true } }

/-- The drop does not influence the three particles. -/
example : ∃ s' t', dropState.forwardTime dropX' (Schedule.serial 4) (1 / 100) = .ok s' ∧ trioState.forwardTime dropX' (Schedule.serial 3) (1 / 100) = .ok t' ∧
    ∀ i, i < 3 → (s'.ps i).ty ≠ .disabled → t'.ps i = s'.ps i := by
  have hl : 0 < dropEnv.l0 := by rw [dropEnv_vals.2.2.1]; norm_num
  have hL : 0 < dropEnv.neighborLength := by rw [dropEnv_vals.2.1]; norm_num
  obtain ⟨s', h⟩ := C06_explicit_step_succeeds (P := dropX') dropNew_eq (dropState_hist _) dropNew_ok hl hL dropState_spaced rfl _ (Schedule.serial_valid 4) (1 / 100)
  obtain ⟨t', h'⟩ := C06_explicit_step_succeeds (P := dropX') dropNew_eq (trioState_hist _) dropNew_ok hl hL
    (fun i j hij hj h1 h2 => by
      have hj : j < 3 := hj
      rw [trioState_ps hj, trioState_ps (by omega)] at *
      exact dropState_spaced i j hij (by change j < 4; omega) h1 h2) rfl _ (Schedule.serial_valid 3) (1 / 100)
  refine ⟨s', t', h, h', fun i hi hd => ?_⟩
  refine (C61_explicit_body_evolves_alone (P := dropX') (Or.inl rfl) dropNew_eq dropNew_ok dropNew_eq dropNew_ok hL dropEnv_positive.re.le rfl
    (fun k => if k = 0 then dropState else s') (fun k => if k = 0 then trioState else t') (dropState_hist _) (trioState_hist _)
    (fun _ => Schedule.serial 4) (fun _ => Schedule.serial 3) (fun _ => Schedule.serial_valid 4) (fun _ => Schedule.serial_valid 3) (fun _ => 1 / 100) 1
    (fun k hk => by have : k = 0 := by omega
                    subst this; exact h)
    (fun k hk => by have : k = 0 := by omega
                    subst this; exact h')
    rfl rfl (fun i => i < 3) (fun i hi => ⟨by change i < 4; omega, hi, trioState_ps hi⟩) ?_ ?_ (i := i) hi).2 hd
  · intro k hk i j hi hj hnj _ _
    have : k = 0 := by omega
    subst this
    have hj : j < 4 := hj
    have : j = 3 := by omega
    subst this
    exact drop_apart hi
  · intro k hk i j hi hj hnj _ _
    exact absurd hj hnj

/-- Two drops near a corner, and a third one far away at height `w`. -/
noncomputable def farState (w : ℝ) : State ℝ 2 Unit :=
  dropNew.addParticles [{ x := ![1 / 20, 1 / 20], u := 0, p := 0, n := 0, ty := .incompressibleNewton },
    { x := ![3 / 20, 1 / 20], u := 0, p := 0, n := 0, ty := .incompressibleNewton },
    { x := ![19 / 20, w], u := 0, p := 0, n := 0, ty := .incompressibleNewton }]

/-- Where the far drop is does not matter for the first one. -/
example (w w' : ℝ) (hw : 9 / 10 ≤ w) (hw' : 9 / 10 ≤ w') : ∃ s' t', (farState w).forwardTime dropX' (Schedule.serial 3) (1 / 100) = .ok s' ∧
    (farState w').forwardTime dropX' (Schedule.serial 3) (1 / 100) = .ok t' ∧ t'.ps 0 = s'.ps 0 := by
  have hl : 0 < dropEnv.l0 := by rw [dropEnv_vals.2.2.1]; norm_num
  have hL : 0 < dropEnv.neighborLength := by rw [dropEnv_vals.2.1]; norm_num
  have hsp : ∀ w i j, i < j → j < (farState w).n → ((farState w).ps i).ty ≠ .disabled → ((farState w).ps j).ty ≠ .disabled →
      ∃ a, dropEnv.l0 ≤ |((farState w).ps i).x a - ((farState w).ps j).x a| := by
    intro w i j hij hj _ _
    have hj : j < 3 := hj
    rw [dropEnv_vals.2.2.1]
    refine ⟨0, ?_⟩
    interval_cases j <;> interval_cases i
    · change 1 / 10 ≤ |(1 / 20 : ℝ) - 3 / 20|; norm_num
    · change 1 / 10 ≤ |(1 / 20 : ℝ) - 19 / 20|; norm_num
    · change 1 / 10 ≤ |(3 / 20 : ℝ) - 19 / 20|; norm_num
  have hist : ∀ w, Hist dropX' dropNew [] (farState w) := fun w => .add _ .start
  obtain ⟨s', h⟩ := C06_explicit_step_succeeds (P := dropX') dropNew_eq (hist w) dropNew_ok hl hL (hsp w) rfl _ (Schedule.serial_valid 3) (1 / 100)
  obtain ⟨t', h'⟩ := C06_explicit_step_succeeds (P := dropX') dropNew_eq (hist w') dropNew_ok hl hL (hsp w') rfl _ (Schedule.serial_valid 3) (1 / 100)
  have far : ∀ w : ℝ, 9 / 10 ≤ w → ¬ dist (![1 / 20, 1 / 20] : Vec ℝ 2) ![19 / 20, w] < 4 * dropEnv.neighborLength := by
    intro w hw
    rw [dropEnv_vals.2.1, not_lt, ← len_sub]
    unfold len
    apply Real.le_sqrt_of_sq_le
    simp [Fin.sum_univ_two]
    nlinarith
  refine ⟨s', t', h, h', C61_explicit_step_is_local (P := dropX') (Or.inl rfl) dropNew_eq (hist w) dropNew_ok dropNew_eq (hist w') dropNew_ok hL
    dropEnv_positive.re.le rfl _ _ (Schedule.serial_valid 3) (Schedule.serial_valid 3) _ h h' rfl rfl (i := 0) (Nat.lt_of_lt_of_le zero_lt_one (by change 1 ≤ 3; omega)) (by change 0 < 3; omega) rfl ?_⟩
  rintro j (⟨hj, -, hd⟩ | ⟨hj, -, hd⟩)
  · have hj : j < 3 := hj
    interval_cases j
    · exact ⟨by change 0 < 3; omega, by change 0 < 3; omega, rfl⟩
    · exact ⟨by change 1 < 3; omega, by change 1 < 3; omega, rfl⟩
    · exact absurd hd (far w hw)
  · have hj : j < 3 := hj
    interval_cases j
    · exact ⟨by change 0 < 3; omega, by change 0 < 3; omega, rfl⟩
    · exact ⟨by change 1 < 3; omega, by change 1 < 3; omega, rfl⟩
    · exact absurd hd (far w' hw')

/-- The exact pressures of the three particles exist in both scenes, and are the same. -/
example :
    let S := setting dropP dropState (1 / 100)
    let T := setting dropP trioState (1 / 100)
    ∃ p p', S.Solves (scene dropState) (S.predict (scene dropState)) p ∧ T.Solves (scene trioState) (T.predict (scene trioState)) p' ∧
      T.Wet (T.predict (scene trioState)) 0 ∧ p' 0 = p 0 := by
  intro S T
  set m := S.predict (scene dropState) with hm
  obtain ⟨t, hb, hsep, hsurf, hE0, hE3, h1, h3⟩ := dropState_solvable (dt := 1 / 100) (by norm_num) (le_refl _)
  have hL : 0 < dropEnv.neighborLength := by rw [dropEnv_vals.2.1]; norm_num
  obtain ⟨s', p, φ, k1, k2, -, k4, k5, k6⟩ := C57_implicit_step_computes_the_pressures (Or.inl rfl) dropNew_eq (dropState_hist dropP) dropNew_ok hL
    dropEnv_positive rfl (by change (1 / 10 ^ 6 : ℝ) ≠ 0; norm_num) _ (Schedule.serial_valid 4) _ hb hsep hsurf
  obtain ⟨s1, hs1, rfl⟩ := beforePressure_midC (Schedule.serial_valid 4) hb
  obtain ⟨-, TT, A, -⟩ := step_mid (P := dropP) (Or.inl rfl) dropNew_eq (dropState_hist dropP) dropNew_ok hL dropEnv_positive.re.le _
    (Schedule.serial_valid 4) _ hs1
  have q0 : S.Equation m 0 := (equation_iff TT A 0).mp hE0
  have hn0 : ¬ S.Lone 0 := by
    intro hl
    have e : (s1.midC dropP).near 0 = S.near m.x 0 := near_eq TT A.x q0.1 q0.2.1.2
    rw [e, near_lone hl] at h1
    cases h1
  have hW0 : S.Wet m 0 := (wet_of TT A hsurf 0 q0).resolve_right hn0
  have hB : ∀ i, i < 3 → i < dropState.n ∧ i < trioState.n ∧ trioState.ps i = dropState.ps i :=
    fun i hi => ⟨by change i < 4; omega, hi, trioState_ps hi⟩
  have hap : ∀ i j, i < 3 → j < dropState.n → ¬ j < 3 → S.ty i ≠ .disabled → S.ty j ≠ .disabled →
      dropEnv.neighborLength ≤ dist (dropState.ps i).x (dropState.ps j).x := by
    intro i j hi hj hnj _ _
    have hj : j < 4 := hj
    have : j = 3 := by omega
    subst this
    exact drop_apart hi
  have hap' : ∀ i j, i < 3 → j < trioState.n → ¬ j < 3 → T.ty i ≠ .disabled → T.ty j ≠ .disabled →
      dropEnv.neighborLength ≤ dist (trioState.ps i).x (trioState.ps j).x := fun i j _ hj hnj _ _ => absurd hj hnj
  have hdis : S.Distinct m := distinct_of TT A hsep
  obtain ⟨hty, hsh, on4, on2⟩ := shared_body (P := dropP) dropNew_eq (dropState_hist dropP) dropNew_eq (trioState_hist dropP) (1 / 100) rfl rfl
    (fun i => i < 3) hB hap hap'
  have hp' : T.Solves (scene trioState) (T.predict (scene trioState)) p := by
    intro i hi
    have hi : i < 3 := hi
    have none : ¬ S.Equation m i → ¬ T.Equation (T.predict (scene trioState)) i →
        T.operator (T.predict (scene trioState)) p i = T.source (scene trioState) (T.predict (scene trioState)) i := by
      intro hE hE'
      have z := solves_none k2 (i := i) (by change i < 4; omega) hE
      have c' : ¬ (T.Active i ∧ ¬ T.Surface (T.predict (scene trioState)).dens i) := fun k => hE' ⟨hi, k⟩
      unfold Setting.operator Setting.source
      rw [if_neg c', if_neg c', z]
    by_cases hd : S.ty i = .disabled
    · exact none (fun h => h.2.1.2 hd) (fun h => h.2.1.2 (by rw [hty i hi]; exact hd))
    · have hQ : i < 3 ∧ S.ty i ≠ .disabled := ⟨hi, hd⟩
      have := k2 i (by change i < 4; omega)
      by_cases hE : S.Equation m i
      · have hE' := (hsh.equation (Q := fun j => j < 3 ∧ S.ty j ≠ .disabled) hQ on2).mpr hE
        rw [operator_def hE', source_def hE', hsh.laplacian (Q := fun j => j < 3 ∧ S.ty j ≠ .disabled) hQ on2,
          hsh.compression (Q := fun j => j < 3 ∧ S.ty j ≠ .disabled) hQ on4 on2, hsh.env]
        rw [operator_def hE, source_def hE] at this
        exact this
      · exact none hE (fun h => hE ((hsh.equation (Q := fun j => j < 3 ∧ S.ty j ≠ .disabled) hQ on2).mp h))
  obtain ⟨c1, c2⟩ := C61_exact_pressures_of_a_body_are_its_own (P := dropP) (Or.inl rfl) dropNew_eq (dropState_hist dropP) dropNew_eq (trioState_hist dropP)
    dropEnv_positive (1 / 100) rfl rfl (fun i => i < 3) hB hap hap' hdis p p k2 hp' 0 (by norm_num)
  exact ⟨p, p, k2, hp', c1.mpr hW0, c2 hW0⟩

end OpenMps
