import Verif.Props.Rounding
import Verif.Spec.RoundedRat
import Verif.Spec.Toy

/-! # A computer in rounded arithmetic that meets the hypotheses of C47 -/

set_option linter.unusedSectionVars false

namespace OpenMps

section
attribute [local instance] instScalarRat

/-- `l_0 = 0.1`, `r_e = 2.4 l_0`, Courant number 0.1, box `[0,1]^2`. -/
def ratArgs : EnvArgs ℚ 2 :=
  { maxDt := 1, courant := 1 / 10, g := 98 / 10, rho := 1000, nu := 0, surfaceRatio := 95 / 100, reByL0 := 24 / 10, c := 1, l0 := 1 / 10
    minX := ![0, 0], maxX := ![1, 1] }

def ratEnv : Env ℚ 2 := (Env.mk? Config.default ratArgs).get rfl

theorem ratEnv_eq : Env.mk? Config.default ratArgs = some ratEnv := rfl

def ratNew : State ℚ 2 Unit := (State.new? ratEnv ()).get rfl

theorem ratNew_eq : State.new? ratEnv () = some ratNew := rfl

/-- Two particles in different blocks, closer than `r_e`, and one far away. -/
def ratParticles : List (Particle ℚ 2) :=
  [{ x := ![2 / 10, 5 / 10], u := ![0, 0], p := 0, n := 0, ty := .incompressibleNewton },
   { x := ![43 / 100, 5 / 10], u := ![0, 0], p := 0, n := 0, ty := .incompressibleNewton },
   { x := ![9 / 10, 9 / 10], u := ![0, 0], p := 0, n := 0, ty := .wall }]

def ratState : State ℚ 2 Unit := ratNew.addParticles ratParticles

def ratP : Params ℚ 2 Unit := { cfg := Config.default, eps := 1 / 10 ^ 6, walls := { pre := fun w _ _ => w, pos := fun _ _ _ _ => ![9 / 10, 9 / 10] } }

theorem ratState_hist : Hist ratP ratNew [] ratState := .add _ .start

theorem ratState_search : ∃ s1, (ratState.start (1 / 1000)).searchNeighbor (Schedule.serial 3 0) = .ok s1 ∧
    ((s1.ps 0).ty ≠ .disabled ∧ (s1.ps 1).ty ≠ .disabled ∧ (s1.ps 2).ty ≠ .disabled ∧ s1.neighbors 0 = [1] ∧ s1.neighbors 2 = []) := by
  obtain ⟨s1, h1, h2⟩ := Res.check_ok (r := (ratState.start (1 / 1000)).searchNeighbor (Schedule.serial 3 0))
    (f := fun s1 => decide ((s1.ps 0).ty ≠ .disabled ∧ (s1.ps 1).ty ≠ .disabled ∧ (s1.ps 2).ty ≠ .disabled ∧ s1.neighbors 0 = [1] ∧
      s1.neighbors 2 = [])) (by decide +kernel)
  exact ⟨s1, h1, by simpa using h2⟩

theorem ratEnv_L : 28 / 100 ≤ ratEnv.neighborLength ∧ ratEnv.neighborLength ≤ 29 / 100 := by decide +kernel

theorem ratEnv_re : 239 / 1000 ≤ ratEnv.re ∧ ratEnv.re ≤ 24 / 100 := by decide +kernel

theorem ratEnv_L' : (28 / 100 : ℝ) ≤ roundedRat.val ratEnv.neighborLength ∧ roundedRat.val ratEnv.neighborLength ≤ 29 / 100 := by
  obtain ⟨h1, h2⟩ := ratEnv_L
  have h1' : ((28 / 100 : ℚ) : ℝ) ≤ ((ratEnv.neighborLength : ℚ) : ℝ) := by exact_mod_cast h1
  have h2' : ((ratEnv.neighborLength : ℚ) : ℝ) ≤ ((29 / 100 : ℚ) : ℝ) := by exact_mod_cast h2
  push_cast at h1' h2'
  exact ⟨h1', h2'⟩

theorem ratEnv_re' : (239 / 1000 : ℝ) ≤ roundedRat.val ratEnv.re ∧ roundedRat.val ratEnv.re ≤ 24 / 100 := by
  obtain ⟨h1, h2⟩ := ratEnv_re
  have h1' : ((239 / 1000 : ℚ) : ℝ) ≤ ((ratEnv.re : ℚ) : ℝ) := by exact_mod_cast h1
  have h2' : ((ratEnv.re : ℚ) : ℝ) ≤ ((24 / 100 : ℚ) : ℝ) := by exact_mod_cast h2
  push_cast at h1' h2'
  exact ⟨h1', h2'⟩

theorem ratEnv_good : roundedRat.GoodLength ratEnv.neighborLength := by
  obtain ⟨h1, h2⟩ := ratEnv_L'
  refine ⟨trivial, by linarith, ?_, ?_⟩
  · change (0 : ℝ) ≤ _; positivity
  · change _ ≤ (2 : ℝ) ^ 1000
    have : roundedRat.val ratEnv.neighborLength ^ 2 ≤ 1 := by nlinarith
    calc (2 : ℝ) ^ 50 * roundedRat.val ratEnv.neighborLength ^ 2 ≤ 2 ^ 50 * 1 := mul_le_mul_of_nonneg_left this (by positivity)
      _ ≤ 2 ^ 1000 := by rw [mul_one]; exact pow_le_pow_right₀ (by norm_num) (by norm_num)

/-- Coordinates between 0 and 1 are in range. -/
theorem rat_inRange (x : Vec ℚ 2) (h : ∀ a, 0 ≤ x a ∧ x a ≤ 1) : roundedRat.InRange ratEnv.neighborLength x := by
  intro a
  obtain ⟨h1, h2⟩ := ratEnv_L'
  have h3 : |roundedRat.val (x a)| ≤ 1 := by
    have h4 : ((0 : ℚ) : ℝ) ≤ ((x a : ℚ) : ℝ) := by exact_mod_cast (h a).1
    have h5 : ((x a : ℚ) : ℝ) ≤ ((1 : ℚ) : ℝ) := by exact_mod_cast (h a).2
    push_cast at h4 h5
    change |((x a : ℚ) : ℝ)| ≤ 1
    rw [abs_of_nonneg h4]; exact h5
  have hΩ : (2 : ℝ) ^ 10 ≤ roundedRat.Ω := by
    change (2 : ℝ) ^ 10 ≤ 2 ^ 1000
    exact pow_le_pow_right₀ (by norm_num) (by norm_num)
  generalize roundedRat.Ω = Ω at hΩ
  refine ⟨trivial, ?_, ?_⟩
  · norm_num at hΩ; linarith
  · norm_num at hΩ; nlinarith

theorem rat_four : 4 ≤ roundedRat.Ω :=
  le_trans (by norm_num : (4 : ℝ) ≤ 2 ^ 2) (pow_le_pow_right₀ (by norm_num) (by norm_num) : (2 : ℝ) ^ 2 ≤ 2 ^ 1000)

theorem ratState_x : ∀ i, i < 3 → ∀ a, 0 ≤ (ratState.ps i).x a ∧ (ratState.ps i).x a ≤ 1 := by decide +kernel

theorem ratState_dist : roundedRat.trueDist (ratState.ps 0).x (ratState.ps 1).x ≤ 23 / 100 := by
  unfold Rounding.trueDist
  rw [Real.sqrt_le_left (by norm_num), Fin.sum_univ_two]
  have e : ∀ i a, roundedRat.val ((ratState.ps i).x a) = (((ratState.ps i).x a : ℚ) : ℝ) := fun _ _ => rfl
  have v1 : (ratState.ps 0).x 0 = 2 / 10 := by decide +kernel
  have v2 : (ratState.ps 0).x 1 = 5 / 10 := by decide +kernel
  have v3 : (ratState.ps 1).x 0 = 43 / 100 := by decide +kernel
  have v4 : (ratState.ps 1).x 1 = 5 / 10 := by decide +kernel
  rw [e, e, e, e, v1, v2, v3, v4]
  push_cast
  norm_num

/-- All hypotheses of C47 hold of this computer: particle 1 is found, in another block, in spite of rounding. -/
example : ∃ s1, (ratState.start (1 / 1000)).searchNeighbor (Schedule.serial 3 0) = .ok s1 ∧ 1 ∈ s1.neighbors 0 := by
  obtain ⟨s1, h1, h2, h3, h4, -⟩ := ratState_search
  refine ⟨s1, h1, ?_⟩
  refine C47_radius_of_influence_covered roundedRat roundedRat_doubleLike (by decide) ratEnv_eq ?_ ?_ ?_ ratNew_eq ratState_hist
    (fun h => absurd h (by decide)) ratEnv_good ?_ (rat_inRange _ (by decide +kernel)) (fun i hi _ => rat_inRange _ (ratState_x i hi))
    _ (Schedule.serial_valid 3) _ h1 0 1 (by decide) (by decide) (by decide) h2 h3 ?_
  · refine ⟨trivial, ?_, ?_⟩
    · change (1 / 2 ^ 20 : ℝ) ≤ (((1 : ℚ) / 10 : ℚ) : ℝ); push_cast; norm_num
    · change (((1 : ℚ) / 10 : ℚ) : ℝ) ≤ 1; push_cast; norm_num
  · obtain ⟨r1, r2⟩ := ratEnv_re'
    exact ⟨trivial, by linarith, le_trans (by linarith) rat_four⟩
  · exact rat_four
  · decide +kernel
  · exact ratState_dist.trans (by linarith [ratEnv_re'.1])

/-- The hypotheses of the symmetry theorem hold of exact arithmetic. -/
example : ∀ x y : ℝ, (x - y) * (x - y) = (y - x) * (y - x) := fun x y => by ring

end

end OpenMps
