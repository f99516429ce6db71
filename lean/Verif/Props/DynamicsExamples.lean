import Verif.Props.Dynamics
import Verif.Props.CentreOfMassExamples

/-! # C64: two interacting drops in the explicit mode, with SPP, HL and DS -/

namespace OpenMps

open Ref Filter Topology

/-- Explicit mode with the other options as delivered. -/
example : ∃ s' : ℝ → State ℝ 2 Unit, (∀ dt, 0 < dt → (farState (9 / 10)).forwardTime dropX' (Schedule.serial 3) dt = .ok (s' dt)) ∧
    Tendsto (fun dt => (1 / dt) • (((s' dt).ps 0).u - 0)) (𝓝[>] 0) (𝓝 (dudt dropX' (farState (9 / 10)) 0)) := by
  have hl : 0 < dropEnv.l0 := by rw [dropEnv_vals.2.2.1]; norm_num
  have hL : 0 < dropEnv.neighborLength := by rw [dropEnv_vals.2.1]; norm_num
  have hist : Hist dropX' dropNew [] (farState (9 / 10)) := .add _ .start
  have hsp' : ∀ i j, i < 3 → j < 3 → i ≠ j → dropEnv.l0 ≤ |((farState (9 / 10)).ps i).x 0 - ((farState (9 / 10)).ps j).x 0| := by
    intro i j hi hj hij
    rw [dropEnv_vals.2.2.1]
    interval_cases j <;> interval_cases i
    all_goals first | exact absurd rfl hij | skip
    · change 1 / 10 ≤ |(3 / 20 : ℝ) - 1 / 20|; norm_num
    · change 1 / 10 ≤ |(19 / 20 : ℝ) - 1 / 20|; norm_num
    · change 1 / 10 ≤ |(1 / 20 : ℝ) - 3 / 20|; norm_num
    · change 1 / 10 ≤ |(19 / 20 : ℝ) - 3 / 20|; norm_num
    · change 1 / 10 ≤ |(1 / 20 : ℝ) - 19 / 20|; norm_num
    · change 1 / 10 ≤ |(3 / 20 : ℝ) - 19 / 20|; norm_num
  have hok : ∀ dt, ∃ s', (farState (9 / 10)).forwardTime dropX' (Schedule.serial 3) dt = .ok s' := fun dt =>
    C06_explicit_step_succeeds (P := dropX') dropNew_eq hist dropNew_ok hl hL
      (fun i j hij hj _ _ => ⟨0, hsp' i j (lt_trans hij hj) hj hij.ne⟩) rfl _ (Schedule.serial_valid 3) dt
  choose s' hs' using hok
  refine ⟨s', fun dt _ => hs' dt, ?_⟩
  have hfl : ∀ i, i < 3 → ((farState (9 / 10)).ps i).ty = .incompressibleNewton := by
    intro i hi; interval_cases i <;> rfl
  have hc := hist_consts dropNew_eq hist
  refine (C64_step_follows_the_equations_of_motion (P := dropX') (Or.inl rfl) dropNew_eq hist dropNew_ok hL dropEnv_positive.re.le dropEnv_positive.n0 rfl
    (fun _ => Schedule.serial 3) (fun _ => Schedule.serial_valid 3) s' (fun dt _ => hs' dt) ?_ ?_ ?_ ?_ 0 (by decide) rfl ?_).1
  · intro i hi _ hn
    exact absurd (hfl i hi) hn
  · intro i j hi hj hij _ _ he
    have := hsp' i j hi hj hij
    rw [he, sub_self, abs_zero] at this
    linarith
  · intro hg; exact absurd hg (by decide)
  · intro _ i j hi hj hij _ _
    have h1 := hsp' i j hi hj hij
    rw [dropEnv_vals.2.2.1] at h1 ⊢
    rw [dropEnv_vals.2.2.2.2.2.2.2]
    have h2 : |((farState (9 / 10)).ps i).x 0 - ((farState (9 / 10)).ps j).x 0| ≤ dist ((farState (9 / 10)).ps i).x ((farState (9 / 10)).ps j).x := by
      rw [← len_sub]
      unfold len
      apply Real.abs_le_sqrt
      exact Finset.single_le_sum (f := fun a => (((farState (9 / 10)).ps i).x - ((farState (9 / 10)).ps j).x) a ^ 2)
          (fun a _ => sq_nonneg _) (Finset.mem_univ 0)
    refine lt_of_lt_of_le ?_ (h1.trans h2)
    norm_num [abs_of_pos]
  · rintro ⟨a, ha⟩
    rw [hc] at ha
    simp only [dropEnv_vals.2.1, dropEnv_vals.2.2.2.2.2.1, dropEnv_vals.2.2.2.2.2.2.1] at ha
    have e : ((farState (9 / 10)).ps 0).x a = 1 / 20 := by fin_cases a <;> rfl
    have h3 : (0 : ℤ) ≤ ⌈((![1, 1] : Fin 2 → ℝ) a - (![0, 0] : Fin 2 → ℝ) a) / (288 / 1000)⌉ := by
      apply Int.ceil_nonneg
      fin_cases a <;> simp <;> norm_num
    have h4 : (0 : ℝ) ≤ ((⌈((![1, 1] : Fin 2 → ℝ) a - (![0, 0] : Fin 2 → ℝ) a) / (288 / 1000)⌉ : ℤ) : ℝ) := by exact_mod_cast h3
    have h5 : (![0, 0] : Fin 2 → ℝ) a = 0 := by fin_cases a <;> rfl
    rw [e, h5] at ha
    rw [h5] at h4
    rcases ha with ha | ha
    · norm_num at ha
    · nlinarith

end OpenMps
