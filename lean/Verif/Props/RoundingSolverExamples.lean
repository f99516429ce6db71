import Verif.Props.RoundingSolver
import Verif.Props.RoundingRunExamples

/-! # C68: a concrete solver call and a concrete step in rounded arithmetic -/

namespace OpenMps

section
attribute [local instance] instScalarRat

theorem roundedRat_propagates : roundedRat.Propagates where
  add := fun {x y} _ => ⟨trivial, trivial, by
    have := rndRat_rel (x + y)
    rw [Rat.cast_add] at this
    exact RelErr.of_bound (by
      obtain ⟨δ, h1, h2⟩ := this
      change |((rndRat (x + y) : ℚ) : ℝ) - _| ≤ _
      rw [h2]
      have e : ((x : ℝ) + y) * (1 + δ) - (x + y) = δ * (x + y) := by ring
      change |((x : ℝ) + y) * (1 + δ) - (x + y)| ≤ _
      rw [e, abs_mul]
      exact mul_le_mul_of_nonneg_right h1 (abs_nonneg _)) roundedRat.ε_nonneg⟩
  sub := fun {x y} _ => ⟨trivial, trivial, by
    have := rndRat_rel (x - y)
    rw [Rat.cast_sub] at this
    exact this⟩
  mul := fun {x y} _ => ⟨trivial, trivial, by
    obtain ⟨δ, h1, h2⟩ := rndRat_rel (x * y)
    rw [Rat.cast_mul] at h2
    exact ⟨δ, 0, h1, by change |(0 : ℝ)| ≤ 0; simp, by rw [add_zero]; exact h2⟩⟩

/-- Bounds of the rounds, for computation. -/
def calmCheck (n : ℕ) (A : Sparse ℚ) (b x : ℕ → ℚ) (eps X Λ : ℚ) : Bool :=
  (List.range (n + 1)).all fun k => let s := cgIterate n A b x eps k
    (List.range n).all (fun i => decide (|s.x i| ≤ X)) && (s.conv || decide (|cgAlpha n A s| ≤ Λ))

theorem calm_of_check {n : ℕ} {A : Sparse ℚ} {b x : ℕ → ℚ} {eps X Λ : ℚ} (h : calmCheck n A b x eps X Λ = true) :
    roundedRat.CalmRun n A b x eps X Λ := by
  unfold calmCheck at h
  simp only [List.all_eq_true, List.mem_range, Bool.and_eq_true, decide_eq_true_eq, Bool.or_eq_true] at h
  refine ⟨trivial, fun _ _ => ⟨fun _ _ => trivial, trivial⟩, fun k hk i hi => ?_, fun k hk hc => ?_⟩
  · have := (h k (by omega)).1 i hi
    change |((((cgIterate n A b x eps k).x i : ℚ)) : ℝ)| ≤ X
    exact_mod_cast this
  · rcases (h k (by omega)).2 with h1 | h1
    · rw [hc] at h1; cases h1
    · change |((cgAlpha n A (cgIterate n A b x eps k) : ℚ) : ℝ)| ≤ Λ
      exact_mod_cast h1

/-- Two equations `2 x + y = 1`, `x + 3 y = 1`. -/
def twoA : Sparse ℚ := fun i j => if i < 2 ∧ j < 2 then some (if i = j then (i : ℚ) + 2 else 1) else none

theorem two_calm : calmCheck 2 twoA (fun _ => 1) (fun _ => 0) (1 / 1000) 1 1 = true := by decide +kernel

theorem two_conv : (cgSolve 2 twoA (fun _ => 1) (fun _ => 0) (1 / 1000)).2 = true := by decide +kernel

/-- It takes two rounds and the rounding shows: `y` is not exactly `1/5`. -/
theorem two_rounds : (cgIterate 2 twoA (fun _ => 1) (fun _ => 0) (1 / 1000 : ℚ) 1).conv = false ∧
    (cgSolve 2 twoA (fun _ => 1) (fun _ => 0) (1 / 1000 : ℚ)).1 1 ≠ 1 / 5 := by decide +kernel

example : ∃ y : ℕ → ℚ, cgSolve 2 twoA (fun _ => 1) (fun _ => 0) (1 / 1000) = (y, true) ∧ y 1 ≠ 1 / 5 ∧
    vecNorm 2 (roundedRat.trueResidual 2 twoA (fun _ => 1) y) ≤
      (1 + 1 / 2 ^ 26) * |roundedRat.val (1 / 1000)| * vecNorm 2 (roundedRat.trueResidual 2 twoA (fun _ => 1) fun _ => 0) +
      ((2 : ℕ) + 4) * vecNorm 2 (roundedRat.drift 2 2 twoA (fun _ => 1) ((1 : ℚ) : ℝ) ((1 : ℚ) : ℝ)) + √(5 * ((2 : ℕ) + 1) * roundedRat.η) / |roundedRat.val (1 / 1000)| := by
  have hrow : ∀ i < 2, rowLength 2 twoA i ≤ 2 := by decide +kernel
  have hv : roundedRat.val (1 / 1000) = 1 / 1000 := by
    change (((1 / 1000 : ℚ)) : ℝ) = _
    push_cast; rfl
  refine ⟨_, Prod.ext rfl two_conv, two_rounds.2, ?_⟩
  exact C68_returned_solution_is_accurate roundedRat roundedRat_doubleLike roundedRat_ordinary roundedRat_propagates (by norm_num) (by norm_num) hrow
    (by norm_num) (calm_of_check two_calm) (by rw [hv]; norm_num) (by rw [hv]; norm_num [abs_le]) (Prod.ext rfl two_conv)

/-! ## A step -/

def pourCond : Condition ℚ := { eps := 1 / 1000, startTime := 0, endTime := 2 / 100, outputInterval := 1 / 100 }

def pourArgs : EnvArgs ℚ 2 :=
  { maxDt := 0, courant := 1 / 10, g := 10, rho := 1000, nu := 0, surfaceRatio := 3 / 10, reByL0 := 2, c := 1, l0 := 1, minX := ![0, 0], maxX := ![10, 10] }

/-- A fluid particle falls on a wall particle between two fluid particles. -/
def pourCsv : List Char := "Type,x,z,u,w,p,n\n+,+11,+11111,+,+,+,+\n+1,+111,+11111,+,+,+,+\n+,+1111,+11111,+,+,+,+\n+,+111,+111111,+,-1,+,+\n".toList

def pourCfg : Config := { Config.default with spp := false, ecs := false }

def pourStart : Option (Params ℚ 2 Unit × State ℚ 2 Unit) :=
  match loadEnvironment pourCfg pourArgs 2 pourCond.outputInterval, inputFromCsv (D := 2) ratConv pourCsv with
  | some env, .ok ps =>
    match State.new? env () with
    | some s => some ({ cfg := pourCfg, eps := pourCond.eps, walls := mainWalls ps }, s.addParticles ps)
    | none => none
  | _, _ => none

def pourCheck : Bool :=
  match pourStart with
  | some (P, s0) => s0.n == 4 && (List.range 4).all (fun i => decide ((s0.ps i).p = 0)) && decide (P.eps = 1 / 1000) && !P.cfg.explicit &&
    (s0.forwardTime P (Schedule.serial 4) (1 / 100)).check
      (fun s => decide (30000 < (s.ps 1).p) && (List.range 4).all (fun i => decide (rowLength 4 s.ppe.A i ≤ 2)) &&
        calmCheck 4 s.ppe.A s.ppe.b (fun _ => 0) (1 / 1000) 100000 10) (fun _ _ => false)
  | none => false

theorem pour_check : pourCheck = true := by decide +kernel

theorem pour_guess {P : Params ℚ 2 Unit} {s0 : State ℚ 2 Unit} (h : pourStart = some (P, s0)) : ∀ i, s0.ppe.x i = 0 := by
  unfold pourStart at h
  split at h
  · rename_i env ps e1 e2
    split at h
    · rename_i s e3
      cases h
      intro i
      have e4 : (s.addParticles ps).ppe = s.ppe := by
        clear e1 e2 e3
        induction ps using List.reverseRecOn with
        | nil => rfl
        | append_singleton l a ih =>
          unfold State.addParticles at ih ⊢
          simp
      rw [e4]
      unfold State.new? at e3
      split at e3
      · cases e3
      · cases e3; rfl
    · cases h
  · cases h

/-- The hypotheses of the theorem for the whole step hold in a step that computes a pressure. -/
example : ∃ (P : Params ℚ 2 Unit) (s0 s : State ℚ 2 Unit), s0.forwardTime P (Schedule.serial 4) (1 / 100) = .ok s ∧ s0.n = 4 ∧ 30000 < (s.ps 1).p ∧
    vecNorm s0.n (roundedRat.trueResidual s0.n s.ppe.A s.ppe.b s.ppe.x) ≤
      (1 + 1 / 2 ^ 26) * |roundedRat.val P.eps| * vecNorm s0.n (roundedRat.trueResidual s0.n s.ppe.A s.ppe.b fun _ => 0) +
      (s0.n + 4) * vecNorm s0.n (roundedRat.drift s0.n 2 s.ppe.A s.ppe.b ((100000 : ℚ) : ℝ) ((10 : ℚ) : ℝ)) +
      √(5 * (s0.n + 1) * roundedRat.η) / |roundedRat.val P.eps| := by
  have hc := pour_check
  unfold pourCheck at hc
  cases hst : pourStart with
  | none => rw [hst] at hc; cases hc
  | some z =>
    obtain ⟨P, s0⟩ := z
    rw [hst] at hc
    simp only [Bool.and_eq_true, beq_iff_eq, List.all_eq_true, List.mem_range, decide_eq_true_eq, Bool.not_eq_true'] at hc
    obtain ⟨⟨⟨⟨hn, hp⟩, he⟩, hx⟩, hf⟩ := hc
    obtain ⟨s, q1, q2⟩ := Res.check_ok hf
    simp only [Bool.and_eq_true, List.all_eq_true, List.mem_range, decide_eq_true_eq] at q2
    obtain ⟨⟨r1, r2⟩, r3⟩ := q2
    have hv : roundedRat.val P.eps = 1 / 1000 := by
      rw [he]
      change (((1 / 1000 : ℚ)) : ℝ) = _
      push_cast; rfl
    refine ⟨P, s0, s, q1, hn, r1, ?_⟩
    obtain ⟨-, -, x₀, h1, h2, h3⟩ := C68_step_pressures_are_accurate roundedRat roundedRat_doubleLike roundedRat_ordinary roundedRat_propagates hx
      (Schedule.serial 4) (by rw [hn]; exact Schedule.serial_valid 4) (1 / 100) q1 (by rw [hn]; norm_num) (by rw [hv]; norm_num) (by rw [hv]; norm_num [abs_le])
    have e : x₀ = fun _ => 0 := by
      funext i
      rcases Nat.lt_or_ge i s0.n with hi | hi
      · rcases h1 i hi with h | h
        · rw [h, hp i (by omega)]
        · exact h
      · rw [h2 i hi, pour_guess hst i]
    rw [e] at h3
    refine h3 2 _ _ (by norm_num) ?_ (by norm_num) ?_
    · intro i hi; rw [hn] at hi ⊢; exact r2 i hi
    · rw [hn, he]; exact calm_of_check r3

end

end OpenMps
