import Verif.Props.RoundingRun
import Verif.Props.Csv
import Verif.Spec.RoundedRat
import Verif.Spec.Toy
import Mathlib.Tactic.FinCases

/-! # C65: a concrete run in rounded arithmetic -/

namespace OpenMps

/-- First number and number of the following files. -/
def condCounts {F : Type} [Scalar F] (c : Condition F) : Option Nat × Option Nat :=
  (toSize (c.startTime / c.outputInterval), toSize ((c.endTime - c.startTime) / c.outputInterval))

section
attribute [local instance] instScalarRat

theorem roundedRat_ordinary : roundedRat.Ordinary where
  abs := fun {x} _ => ⟨trivial, by
    change (((|x| : ℚ)) : ℝ) = |(x : ℝ)|
    exact Rat.cast_abs x⟩
  eq := fun {x y} _ _ => by
    change (decide (x = y) = true) ↔ (x : ℝ) = (y : ℝ)
    rw [decide_eq_true_eq]
    exact (Rat.cast_inj (α := ℝ)).symm
  div_over := fun {x y z} _ _ _ _ _ hbig hz => by
    change (decide (z < rndRat (x / y))) = true
    rw [decide_eq_true_eq]
    change (2 : ℝ) ^ 1000 < (x : ℝ) / (y : ℝ) at hbig
    change (z : ℝ) < 2 ^ 1000 at hz
    have h1 : (2 : ℚ) ^ 1000 < x / y := by
      have : (((2 : ℚ) ^ 1000 : ℚ) : ℝ) < ((x / y : ℚ) : ℝ) := by rw [Rat.cast_div, Rat.cast_pow]; exact hbig
      exact Rat.cast_lt.mp this
    have h2 : z < (2 : ℚ) ^ 1000 := by
      have : ((z : ℚ) : ℝ) < (((2 : ℚ) ^ 1000 : ℚ) : ℝ) := by rw [Rat.cast_pow]; exact hz
      exact Rat.cast_lt.mp this
    refine lt_of_lt_of_le h2 ?_
    unfold rndRat
    generalize placesRat (x / y) = k
    rw [le_div_iff₀ (by positivity)]
    have h3 : (((2 : ℤ) ^ 1000 * 2 ^ k : ℤ) : ℚ) ≤ x / y * 2 ^ k := by
      rw [Int.cast_mul, Int.cast_pow, Int.cast_pow]
      exact mul_le_mul_of_nonneg_right h1.le (by positivity)
    have h4 := Int.le_floor.mpr h3
    have h5 : (((2 : ℤ) ^ 1000 * 2 ^ k : ℤ) : ℚ) ≤ (⌊x / y * 2 ^ k⌋ : ℚ) := by exact_mod_cast h4
    rw [Int.cast_mul, Int.cast_pow, Int.cast_pow] at h5
    exact h5

/-- Conversions into rationals. -/
def ratConv : Conv ℚ := ⟨unaryParse, fun t => (unaryParse t).map Int.cast⟩

def fallRunCond : Condition ℚ := { eps := 0, startTime := 0, endTime := 2 / 100, outputInterval := 1 / 100 }

def fallRunArgs : EnvArgs ℚ 2 :=
  { maxDt := 0, courant := 1 / 10, g := 10, rho := 1000, nu := 0, surfaceRatio := 0, reByL0 := 2, c := 1, l0 := 1, minX := ![0, 0], maxX := ![10, 10] }

/-- One fluid particle falls next to a wall particle. -/
def fallRunCsv : List Char := "Type,x,z,u,w,p,n\n+,+1,+11111,+,+,+,+\n+1,+111,+11111,+,+,+,+\n".toList

def fallRunCfg : Config := { Config.default with explicit := true }

def fallRunStart : Option (Params ℚ 2 Unit × State ℚ 2 Unit) :=
  match loadEnvironment fallRunCfg fallRunArgs 2 fallRunCond.outputInterval, inputFromCsv (D := 2) ratConv fallRunCsv with
  | some env, .ok ps =>
    match State.new? env () with
    | some s => some ({ cfg := fallRunCfg, eps := fallRunCond.eps, walls := mainWalls ps }, s.addParticles ps)
    | none => none
  | _, _ => none

theorem fallStart_main {P : Params ℚ 2 Unit} {s0 : State ℚ 2 Unit} (h : fallRunStart = some (P, s0)) :
    mainStart fallRunCfg ratConv fallRunCond fallRunArgs 2 fallRunCsv P s0 := by
  unfold fallRunStart at h
  split at h
  · rename_i env ps e1 e2
    split at h
    · rename_i s e3
      cases h
      exact ⟨env, ps, s, e1, e2, e3, rfl, rfl⟩
    · cases h
  · cases h

/-- After `k` steps the particles are there and slower than 1/2 along each axis. -/
def fallRunSlow (k : Nat) : Bool :=
  match fallRunStart with
  | some (P, s0) => s0.n == 2 && (s0.afterSteps P (fun _ => Schedule.serial 2) k).check
      (fun s => s.n == 2 && decide (∀ i < 2, ∀ a, |(s.ps i).u a| ≤ 1 / 2)) (fun _ _ => false)
  | none => false

theorem fall_slow : ∀ k, k ≤ 5 → fallRunSlow k = true := by decide +kernel

/-- The limits of the step of this run. -/
def fallRunLimits : Bool :=
  match fallRunStart with
  | some (_, s0) => s0.env.maxDx == rndRat (1 / 10) && decide (49 / 10000 ≤ s0.env.maxDt) && decide (s0.env.maxDt ≤ 1 / 100)
  | none => false

theorem fall_limits : fallRunLimits = true := by decide +kernel

theorem fall_dx : (99 / 1000 : ℚ) ≤ rndRat (1 / 10) ∧ rndRat (1 / 10) ≤ 1 := by decide +kernel

theorem fall_sizes : (condCounts fallRunCond).1 = some 0 ∧ (condCounts fallRunCond).2 = some 2 := by decide +kernel

theorem rat_omega : (16 : ℝ) ≤ roundedRat.Ω := by
  change (16 : ℝ) ≤ 2 ^ 1000
  calc (16 : ℝ) = 2 ^ 4 := by norm_num
    _ ≤ 2 ^ 1000 := pow_le_pow_right₀ (by norm_num) (by norm_num)

theorem fall_interval : roundedRat.val fallRunCond.outputInterval = 1 / 100 := by
  change (((1 / 100 : ℚ)) : ℝ) = _
  push_cast; rfl

/-- What the theorems ask of this run. -/
theorem fall_facts : ∃ P s0, mainStart fallRunCfg ratConv fallRunCond fallRunArgs 2 fallRunCsv P s0 ∧ (∀ _ : ℕ, (Schedule.serial 2).Valid s0.n) ∧
    roundedRat.SpeedScale 1 s0.env.maxDx s0.env.maxDt ∧ (99 / 1000 : ℝ) ≤ roundedRat.val s0.env.maxDx ∧
    (49 / 10000 : ℝ) ≤ roundedRat.val s0.env.maxDt ∧ roundedRat.val s0.env.maxDt ≤ 1 / 100 ∧
    ∀ k, k ≤ 5 → ∃ s, s0.afterSteps P (fun _ => Schedule.serial 2) k = .ok s ∧
      ∀ i, i < s.n → (∀ a, roundedRat.finite ((s.ps i).u a)) ∧ roundedRat.trueLength (s.ps i).u ≤ 1 := by
  have h0 := fall_slow 0 (by omega)
  have hl := fall_limits
  unfold fallRunLimits at hl
  cases hst : fallRunStart with
  | none => rw [hst] at hl; cases hl
  | some x =>
    obtain ⟨P, s0⟩ := x
    rw [hst] at hl
    simp only [Bool.and_eq_true, beq_iff_eq, decide_eq_true_eq] at hl
    obtain ⟨⟨l1, l2⟩, l3⟩ := hl
    have hslow : ∀ k, k ≤ 5 → s0.n = 2 ∧ ∃ s, s0.afterSteps P (fun _ => Schedule.serial 2) k = .ok s ∧ s.n = 2 ∧
        ∀ i < 2, ∀ a, |(s.ps i).u a| ≤ 1 / 2 := by
      intro k hk
      have := fall_slow k hk
      unfold fallRunSlow at this
      rw [hst] at this
      simp only [Bool.and_eq_true, beq_iff_eq] at this
      obtain ⟨s, q1, q2⟩ := Res.check_ok this.2
      simp only [Bool.and_eq_true, beq_iff_eq, decide_eq_true_eq] at q2
      exact ⟨this.1, s, q1, q2.1, q2.2⟩
    have x1 : (99 / 1000 : ℝ) ≤ roundedRat.val s0.env.maxDx := by
      have : ((99 / 1000 : ℚ) : ℝ) ≤ ((s0.env.maxDx : ℚ) : ℝ) := by rw [l1]; exact_mod_cast fall_dx.1
      push_cast at this; exact this
    have t1 : (49 / 10000 : ℝ) ≤ roundedRat.val s0.env.maxDt := by
      have : ((49 / 10000 : ℚ) : ℝ) ≤ ((s0.env.maxDt : ℚ) : ℝ) := by exact_mod_cast l2
      push_cast at this; exact this
    have t2 : roundedRat.val s0.env.maxDt ≤ 1 / 100 := by
      have : ((s0.env.maxDt : ℚ) : ℝ) ≤ ((1 / 100 : ℚ) : ℝ) := by exact_mod_cast l3
      push_cast at this; exact this
    have hΩ := rat_omega
    have hη : roundedRat.η = 0 := rfl
    have hscale : roundedRat.SpeedScale 1 s0.env.maxDx s0.env.maxDt :=
      ⟨trivial, by linarith, trivial, by linarith, by linarith, by norm_num, by linarith, by linarith, by rw [hη]; norm_num,
        by rw [hη, zero_mul]; apply div_nonneg <;> linarith [x1], by rw [hη, zero_mul]; positivity⟩
    refine ⟨P, s0, fallStart_main hst, fun _ k => by rw [(hslow 0 (by omega)).1]; exact validSched_serial 2, hscale, x1, t1, t2, ?_⟩
    · intro k hk
      obtain ⟨_, s, q1, q2, q3⟩ := hslow k hk
      refine ⟨s, q1, fun i hi => ⟨fun _ => trivial, ?_⟩⟩
      have q4 : ∀ a, (((s.ps i).u a : ℚ) : ℝ) ^ 2 ≤ 1 / 4 := by
        intro a
        have h5 := q3 i (by omega) a
        have h6 : |(((s.ps i).u a : ℚ) : ℝ)| ≤ 1 / 2 := by
          rw [← Rat.cast_abs]
          have : ((|(s.ps i).u a| : ℚ) : ℝ) ≤ ((1 / 2 : ℚ) : ℝ) := Rat.cast_le.mpr h5
          push_cast at this
          rw [Rat.cast_abs]
          exact this
        have := pow_le_pow_left₀ (abs_nonneg _) h6 2
        rw [sq_abs] at this
        norm_num at this ⊢
        exact this
      unfold Rounding.trueLength
      rw [Real.sqrt_le_left (by norm_num), one_pow, Fin.sum_univ_two]
      have a1 := q4 0
      have a2 := q4 1
      change (((s.ps i).u 0 : ℚ) : ℝ) ^ 2 + (((s.ps i).u 1 : ℚ) : ℝ) ^ 2 ≤ 1
      linarith

/-- The hypotheses of C65 hold of this run: speeds below 1, five steps of at least 0.0049, so it finishes. -/
theorem fall_finishes (pr : Printer ℚ) (fuel : Nat) (hf : 5 ≤ fuel) :
    (mainProgram fallRunCfg ratConv pr (fun _ => Schedule.serial 2) fallRunCond fallRunArgs 2 fallRunCsv fuel).ending = .finished := by
  obtain ⟨P, s0, h1, h2, h3, x1, t1, t2, h4⟩ := fall_facts
  have hI := fall_interval
  have hΩ := rat_omega
  refine C65_run_finishes_in_rounded_arithmetic roundedRat roundedRat_doubleLike roundedRat_ordinary (by omega) h1
    h2 fall_sizes.1 fall_sizes.2 trivial (by rw [hI]; norm_num) h3
    (δ := 49 / 10000) (by norm_num) t1 ?_ (by norm_num) ?_ ?_ (K := 5) ?_ h4 fuel hf
  · norm_num at x1 ⊢; linarith
  · rw [hI]; norm_num
  · rw [hI]; norm_num at t2 ⊢; linarith
  · rw [hI]; norm_num

/-- The file after the first output interval is written after at most five steps. -/
def fallRunSecond : Bool :=
  match (mainProgram fallRunCfg ratConv (⟨fun _ => [], fun _ => []⟩) (fun _ => Schedule.serial 2) fallRunCond fallRunArgs 2 fallRunCsv 5).outs[1]? with
  | some rec => decide (rec.iteration ≤ 5)
  | none => false

/-- The hypotheses of the theorem on the output times hold of it. -/
example : ∃ rec t, (mainProgram fallRunCfg ratConv (⟨fun _ => [], fun _ => []⟩) (fun _ => Schedule.serial 2) fallRunCond fallRunArgs 2 fallRunCsv 5).outs[1]? = some rec ∧
    rec.time = instScalarRat.toAdd.add t fallRunCond.startTime ∧ (99 / 10000 : ℝ) ≤ roundedRat.val t ∧ roundedRat.val t ≤ 21 / 1000 := by
  have hb : fallRunSecond = true := by decide +kernel
  unfold fallRunSecond at hb
  split at hb
  · rename_i rec hrec
    rw [decide_eq_true_eq] at hb
    obtain ⟨P, s0, h1, h2, h3, x1, t1, t2, h4⟩ := fall_facts
    have hI := fall_interval
    have hΩ := rat_omega
    obtain ⟨t, _, a2, _, a4, a5⟩ := C65_output_times_in_rounded_arithmetic roundedRat roundedRat_doubleLike roundedRat_ordinary (by omega) h1
      h2 fall_sizes.1 fall_sizes.2 trivial (by rw [hI]; norm_num) h3 (by norm_num) (by rw [hI]; norm_num at t2 ⊢; linarith) 5 hrec
      (fun j s hj hs => by
        obtain ⟨s', q1, q2⟩ := h4 j (by omega)
        rw [hs] at q1; cases q1
        exact q2)
    refine ⟨rec, t, hrec, a2, ?_, ?_⟩
    · rw [hI] at a4; norm_num at a4 ⊢; linarith
    · rw [hI] at a5; norm_num at a5 t2 ⊢; linarith
  · cases hb

/-- The run really moves: after five steps the particle is falling. -/
example : (match fallRunStart with
  | some (P, s0) => (s0.afterSteps P (fun _ => Schedule.serial 2) 5).check (fun s => decide ((s.ps 0).u 1 < -2 / 10)) (fun _ _ => false)
  | none => false) = true := by decide +kernel

end

end OpenMps
