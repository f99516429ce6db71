import Verif.Props.DoubleText
import Verif.Props.DoubleExamples

/-! # Examples of `double` in files -/

set_option linter.unusedSectionVars false
set_option exponentiation.threshold 2000

namespace OpenMps

/-- Texts of some numbers: the largest one, the smallest one, the smallest normal one, the one near 0.1, negative zero, 1/3. -/
example : Double.print (Double.mk' false (Double.infCode - 1)) = "1.79769e+308".toList ∧ Double.print (Double.mk' true 1) = "-4.94066e-324".toList ∧
    Double.print (Double.mk' false (2 ^ 52)) = "2.22507e-308".toList ∧ Double.print (dbl (1 / 10)) = "0.1".toList ∧ Double.print (dbl (-1 / 10)) = "-0.1".toList ∧
    Double.print (-dbl 0) = "-0".toList ∧ Double.print (dbl (1 / 3)) = "0.333333".toList ∧ Double.print Double.nan = "nan".toList ∧ Double.print (Double.inf true) = "-inf".toList := by
  decide +kernel

/-- Reading: correctly rounded, ties to even; the smallest normal number as it is written cannot be read, nor can the texts of subnormal numbers; `4.9406564584124654e-324` with all its digits neither, but `0e-400` can. -/
example : (Double.read "0.1".toList).map Double.code = some 0x3FB999999999999A ∧ (Double.read "9007199254740993".toList).map Double.code = some (1076 * 2 ^ 52) ∧
    Double.read "2.22507e-308".toList = none ∧ (Double.read "2.22508e-308".toList).isSome ∧ Double.read "4.9406564584124654e-324".toList = none ∧
    Double.read "0e-400".toList = some (dbl 0) ∧ Double.read "-Infinity".toList = some (Double.inf true) ∧ (Double.read "-nan".toList).map Double.isNan = some true ∧
    Double.read "1e309".toList = none ∧ Double.read "abc".toList = none ∧ Double.read "-0".toList = some (-dbl 0) := by
  decide +kernel

/-- The smallest normal number is lost; the limit case of the other theorem. -/
example : Double.Lost (Double.mk' false (2 ^ 52)) ∧ ¬ Double.Lost (Double.mk' false 4503612057890307) ∧ ¬ Double.Lost (dbl 0) ∧ ¬ Double.Lost Double.nan := by
  rw [Double.lost_iff, Double.lost_iff, Double.lost_iff, Double.lost_iff]
  decide +kernel

/-- Both conditions under which a text is refused occur; the text of the hypothesis exists. -/
example : Shows "2.22507e-308".toList (222507 / 10 ^ 313 : ℚ) := by
  refine ⟨false, [2], [2, 2, 5, 0, 7], some (true, [3, 0, 8]), by decide +kernel, by decide, by decide, by decide, ?_, ?_⟩
  · intro b l h; cases h; decide
  · decide +kernel

/-! ## A run with files -/

def dblCond : Condition Double := { eps := dbl (1 / 10 ^ 6), startTime := dbl (1 / 2), endTime := dbl (501 / 1000), outputInterval := dbl (1 / 1000) }

/-- What the user wrote. -/
def dblCsv : List Char := "Type, x, z, u, w, p, n\n0, 0.2, 0.5, 1, 0, 100, 6\n0,0.43,0.5,-1,0.33333333333,5e1,40\n\n1, 0.9, 0.9, 0, -0, nan, 0".toList

/-- The particles in that file. -/
def dblRead : List (Particle Double 2) :=
  [{ x := ![dbl (2 / 10), dbl (5 / 10)], u := ![dbl 1, dbl 0], p := dbl 100, n := dbl 6, ty := .incompressibleNewton },
   { x := ![dbl (43 / 100), dbl (5 / 10)], u := ![dbl (-1), dbl (33333333333 / 10 ^ 11)], p := dbl 50, n := dbl 40, ty := .incompressibleNewton },
   { x := ![dbl (9 / 10), dbl (9 / 10)], u := ![dbl 0, -dbl 0], p := Double.nan, n := dbl 0, ty := .wall }]

/-- Decidable equality of the result of reading, component by component. -/
def sameParticles (r : Except CsvErr (List (Particle Double 2))) (ps : List (Particle Double 2)) : Bool :=
  match r with
  | .ok qs => decide (qs.map (fun q => (q.ty, List.ofFn q.x, List.ofFn q.u, q.p, q.n)) = ps.map (fun q => (q.ty, List.ofFn q.x, List.ofFn q.u, q.p, q.n)))
  | .error _ => false

theorem sameParticles_eq {r : Except CsvErr (List (Particle Double 2))} {ps : List (Particle Double 2)} (h : sameParticles r ps = true) : r = .ok ps := by
  cases r with
  | error e => cases h
  | ok qs =>
    have h := of_decide_eq_true (show decide (qs.map _ = ps.map _) = true from h)
    have hinj : Function.Injective (fun q : Particle Double 2 => (q.ty, List.ofFn q.x, List.ofFn q.u, q.p, q.n)) := by
      rintro ⟨x, u, p, n, ty⟩ ⟨x', u', p', n', ty'⟩ h
      simp only [Prod.mk.injEq] at h
      obtain ⟨h1, h2, h3, h4, h5⟩ := h
      rw [List.ofFn_injective h2, List.ofFn_injective h3, h1, h4, h5]
    rw [List.map_injective_iff.2 hinj h]

theorem dblCsv_read : inputFromCsv doubleConv dblCsv = .ok dblRead := sameParticles_eq (by decide +kernel)

def dblEnv2 : Env Double 2 := (loadEnvironment dblP.cfg dblArgs 1 dblCond.outputInterval).get (by decide +kernel)

def dblNew2 : State Double 2 Unit := (State.new? dblEnv2 ()).get (by decide +kernel)

def dblP2 : Params Double 2 Unit := { cfg := dblP.cfg, eps := dblCond.eps, walls := mainWalls dblRead }

theorem dbl_main : mainStart dblP.cfg doubleConv dblCond dblArgs 1 dblCsv dblP2 (dblNew2.addParticles dblRead) := by
  refine ⟨dblEnv2, dblRead, dblNew2, ?_, dblCsv_read, ?_, rfl, rfl⟩
  · unfold dblEnv2; exact (Option.some_get _).symm
  · unfold dblNew2; exact (Option.some_get _).symm

/-- From 0.5 to 0.501 with an interval of 0.001 there are two further outputs, not one: the quotient in `double` is a little more than 1. -/
theorem dbl_sizes : toSize (dblCond.startTime / dblCond.outputInterval) = some 500 ∧ toSize ((dblCond.endTime - dblCond.startTime) / dblCond.outputInterval) = some 2 := by
  decide +kernel

theorem dblRead_keepable : ∀ q ∈ dblRead, Double.Keepable q := by
  have h : ∀ q ∈ dblRead, (∀ a, ¬ ((q.x a).isFinite = true ∧ (q.x a).code ≠ 0 ∧ |(q.x a).value| < 2225075 / 10 ^ 314)) ∧
      (∀ a, ¬ ((q.u a).isFinite = true ∧ (q.u a).code ≠ 0 ∧ |(q.u a).value| < 2225075 / 10 ^ 314)) ∧
      ¬ (q.p.isFinite = true ∧ q.p.code ≠ 0 ∧ |q.p.value| < 2225075 / 10 ^ 314) ∧ ¬ (q.n.isFinite = true ∧ q.n.code ≠ 0 ∧ |q.n.value| < 2225075 / 10 ^ 314) := by
    intro q hq
    simp only [dblRead, List.mem_cons, List.not_mem_nil, or_false] at hq
    rcases hq with rfl | rfl | rfl <;> decide +kernel
  intro q hq
  obtain ⟨h1, h2, h3, h4⟩ := h q hq
  refine ⟨fun a => ?_, fun a => ?_, ?_, ?_⟩
  · rw [Double.lost_iff]; exact h1 a
  · rw [Double.lost_iff]; exact h2 a
  · rw [Double.lost_iff]; exact h3
  · rw [Double.lost_iff]; exact h4

/-- The hypotheses of `C73_restart_begins_with_the_same_file` hold of this run (with a NaN in the input file): started with the file number 500 it writes that file again. -/
example : ∃ rec ∈ (mainProgram dblP.cfg doubleConv doublePrinter (fun _ => Schedule.serial 3) dblCond dblArgs 1 dblCsv 10).outs, rec.number = 500 ∧
    rec.text = "Type, x, z, u, w, p, n\n0, 0.2, 0.5, 1, 0, 100, 6\n0, 0.43, 0.5, -1, 0.333333, 50, 40\n1, 0.9, 0.9, 0, -0, nan, 0\n".toList ∧
    ∃ rec', (mainProgram dblP.cfg doubleConv doublePrinter (fun _ => Schedule.serial 3) dblCond dblArgs 1 rec.text 10).outs[0]? = some rec' ∧ rec'.text = rec.text := by
  have hmem : mkOut doublePrinter 500 dblCond.startTime 0 (dblNew2.addParticles dblRead) ∈
      (mainProgram dblP.cfg doubleConv doublePrinter (fun _ => Schedule.serial 3) dblCond dblArgs 1 dblCsv 10).outs := by
    rw [mainProgram_start dbl_main]
    unfold runLoop
    rw [dbl_sizes.1, dbl_sizes.2]
    simp only
    obtain ⟨l, hl⟩ := outerLoop_prefix dblP2 (fun _ => Schedule.serial 3) doublePrinter dblCond 500 10 2 1 (0 : Double) (dblNew2.addParticles dblRead) 0
      [mkOut doublePrinter 500 dblCond.startTime 0 (dblNew2.addParticles dblRead)]
    rw [hl]
    exact List.mem_append_left _ (List.mem_singleton.2 rfl)
  have hps : (dblNew2.addParticles dblRead).particles = dblRead := by
    rw [C09_add_appends]
    obtain ⟨-, -, -, -, -, h3, -, -⟩ := dbl_main
    have : dblNew2.particles = [] := by
      have : dblNew2.n = 0 := by decide +kernel
      unfold State.particles
      rw [this]
      rfl
    rw [this, List.nil_append]
  refine ⟨_, hmem, rfl, ?_, ?_⟩
  · change outputToCsv doublePrinter (dblNew2.addParticles dblRead).particles = _
    rw [hps]
    decide +kernel
  · obtain ⟨s, h1, h2, -⟩ := C73_restart_begins_with_the_same_file (sch' := fun _ => Schedule.serial 3) (cond' := dblCond) (.inl rfl) dbl_main (fun k => by
        rw [show (dblNew2.addParticles dblRead).n = 3 by decide +kernel]
        exact Schedule.serial_valid 3) rfl dbl_sizes.1 dbl_sizes.2 dbl_sizes.1 hmem 10
    have hs : s = dblNew2.addParticles dblRead := by
      have : State.afterSteps dblP2 (fun _ => Schedule.serial 3) (dblNew2.addParticles dblRead) 0 = .ok s := h1
      unfold State.afterSteps at this
      injection this with this
      exact this.symm
    obtain ⟨rec', k1, k2, -⟩ := h2 (by rw [hs, hps]; exact dblRead_keepable)
    exact ⟨rec', k1, k2⟩

/-- Both cases of the theorem on files occur: a file with the smallest normal number in it. -/
example : ∃ q : Particle Double 2, q.ty = typeOfNumber 0 ∧ ¬ Double.Keepable q := by
  refine ⟨{ x := ![dbl 0, dbl 0], u := ![Double.mk' false (2 ^ 52), dbl 0], p := dbl 0, n := dbl 0, ty := .incompressibleNewton }, rfl, fun h => h.2.1 0 ?_⟩
  rw [Double.lost_iff]
  decide +kernel

/-- The hypotheses of the theorem on the number of outputs hold of these settings, where the upper bound is attained. -/
example : (2 : ℤ) ≤ ⌈(1 + 1 / 2 ^ 51) * ((dblCond.endTime.val - dblCond.startTime.val) / dblCond.outputInterval.val)⌉ :=
  (C72_number_of_outputs_in_double (by decide +kernel) (by decide +kernel) (Double.sized_of (by decide +kernel)) (Or.inr (by
    have h : 1 / 2 ^ 500 ≤ dblCond.endTime.value - dblCond.startTime.value := by decide +kernel
    have h' : ((1 / 2 ^ 500 : ℚ) : ℝ) ≤ ((dblCond.endTime.value - dblCond.startTime.value : ℚ) : ℝ) := by exact_mod_cast h
    push_cast at h'
    exact h')) dbl_sizes.2).2

end OpenMps
