import Verif.Props.Main
import Verif.Props.MainExamples

/-! # The particles of a run of the main program (C15, C09) -/

namespace OpenMps

set_option linter.unusedSectionVars false

section
variable {F : Type} [Scalar F] {D : Nat}

/-- Particle `i` of a computer with which `main` enters its loop is particle `i` of the input file. -/
theorem mainStart_ps {cfg : Config} {cv : Conv F} {cond : Condition F} {a : EnvArgs F D} {m : Nat} {csv : List Char} {P : Params F D Unit}
    {s0 : State F D Unit} (h : mainStart cfg cv cond a m csv P s0) {ps : List (Particle F D)} (hin : inputFromCsv (D := D) cv csv = .ok ps) :
    s0.particles = ps ∧ P.walls = mainWalls ps ∧ s0.n = ps.length := by
  obtain ⟨env, ps', s, e1, e2, e3, rfl, rfl⟩ := h
  rw [hin] at e2
  cases e2
  have hn : s.n = 0 := by
    unfold State.new? at e3
    split at e3
    · cases e3
    · cases e3; rfl
  have hp : (s.addParticles ps).particles = ps := by
    rw [C09_add_appends]
    simp [State.particles, hn]
  refine ⟨hp, rfl, ?_⟩
  show s.n + ps.length = _
  rw [hn, Nat.zero_add]

/-- **C15.** In every file written by a run of the main program, however the run ends, the particles are those of the input file in the same order and
number: file row `i` belongs to input particle `i`, and a particle that was not a fluid particle in the input is at its input position. -/
theorem C15_walls_of_the_main_program_stay {cfg : Config} {cv : Conv F} {pr : Printer F} {sch : Nat → Schedule} {cond : Condition F} {a : EnvArgs F D}
    {m : Nat} {csv : List Char} {fuel : Nat} {ps : List (Particle F D)} (hin : inputFromCsv (D := D) cv csv = .ok ps)
    (hv : ∀ k, (sch k).Valid ps.length) {endCount : Nat}
    (h2 : toSize ((cond.endTime - cond.startTime) / cond.outputInterval) = some endCount)
    {rec : OutRec F} (hrec : rec ∈ (mainProgram cfg cv pr sch cond a m csv fuel).outs) :
    ∃ out : List (Particle F D), rec.text = outputToCsv pr out ∧ out.length = ps.length ∧
      ∀ (i : Nat) (p q : Particle F D), ps[i]? = some p → out[i]? = some q →
        (q.ty = p.ty ∨ q.ty = .disabled) ∧ (p.ty ≠ .incompressibleNewton → q.x = p.x) := by
  obtain ⟨P, s0, offset, hst, h1⟩ := mainProgram_outs (List.ne_nil_of_mem hrec)
  obtain ⟨hp, hw, hn⟩ := mainStart_ps hst hin
  obtain ⟨k, hk, rfl⟩ := List.getElem_of_mem hrec
  obtain ⟨-, -, s, hs, htext, -⟩ := C33_written_files_are_in_place hst h1 h2 fuel (List.getElem?_eq_getElem hk)
  obtain ⟨⟨dts, hh⟩, hsn⟩ := afterSteps_hist ⟨[], .start⟩ (by rw [hn]; exact hv) _ s hs
  refine ⟨s.particles, htext, by simp [State.particles, hsn, hn], ?_⟩
  intro i p q hip hiq
  have hi : i < ps.length := by
    by_contra hc
    rw [List.getElem?_eq_none (by omega)] at hip; cases hip
  have hp0 : p = s0.ps i := by
    rw [← hp] at hip
    simp only [State.particles, List.getElem?_map, List.getElem?_range (show i < s0.n by omega), Option.map_some, Option.some.injEq] at hip
    exact hip.symm
  have hq : q = s.ps i := by
    simp only [State.particles, List.getElem?_map, List.getElem?_range (show i < s.n by omega), Option.map_some, Option.some.injEq] at hiq
    exact hiq.symm
  subst hp0 hq
  refine ⟨(C10_type_only_changes_to_disabled hh i (by omega)).1, fun hty => ?_⟩
  refine C15_static_walls_stay hh i (by omega) hty ?_
  intro w t dt
  rw [hw]
  show (ps.getD i (Particle.new .disabled)).x = (s0.ps i).x
  rw [List.getD_eq_getElem?_getD, hip, Option.getD_some]

end

/-- **C15.** In exact arithmetic these particles have velocity 0 in every file but the first (which shows the input). -/
theorem C15_walls_of_the_main_program_have_zero_velocity {D : Nat} {cfg : Config} {cv : Conv ℝ} {pr : Printer ℝ} {sch : Nat → Schedule} {cond : Condition ℝ}
    {a : EnvArgs ℝ D} {m : Nat} {csv : List Char} {fuel : Nat} {ps : List (Particle ℝ D)} (hin : inputFromCsv (D := D) cv csv = .ok ps)
    (hv : ∀ k, (sch k).Valid ps.length) {endCount : Nat}
    (h2 : toSize ((cond.endTime - cond.startTime) / cond.outputInterval) = some endCount)
    {rec : OutRec ℝ} (hrec : rec ∈ (mainProgram cfg cv pr sch cond a m csv fuel).outs) (hit : 0 < rec.iteration) :
    ∃ out : List (Particle ℝ D), rec.text = outputToCsv pr out ∧ out.length = ps.length ∧
      ∀ (i : Nat) (p q : Particle ℝ D), ps[i]? = some p → out[i]? = some q → p.ty ≠ .incompressibleNewton → q.x = p.x ∧ q.u = 0 := by
  obtain ⟨P, s0, offset, hst, h1⟩ := mainProgram_outs (List.ne_nil_of_mem hrec)
  obtain ⟨hp, hw, hn⟩ := mainStart_ps hst hin
  obtain ⟨k, hk, rfl⟩ := List.getElem_of_mem hrec
  set rec := (mainProgram cfg cv pr sch cond a m csv fuel).outs[k] with hrdef
  obtain ⟨-, -, s, hs, htext, -⟩ := C33_written_files_are_in_place hst h1 h2 fuel (List.getElem?_eq_getElem hk)
  obtain ⟨it, hit'⟩ : ∃ it, rec.iteration = it + 1 := ⟨rec.iteration - 1, by omega⟩
  rw [← hrdef, hit'] at hs
  obtain ⟨⟨dts, hh⟩, hsn⟩ := afterSteps_hist ⟨[], .start⟩ (by rw [hn]; exact hv) _ s hs
  obtain ⟨s', hs', hlast⟩ := afterSteps_prev hs
  obtain ⟨⟨dts', hh'⟩, hsn'⟩ := afterSteps_hist ⟨[], .start⟩ (by rw [hn]; exact hv) _ s' hs'
  refine ⟨s.particles, htext, by simp [State.particles, hsn, hn], ?_⟩
  intro i p q hip hiq hty
  have hi : i < ps.length := by
    by_contra hc
    rw [List.getElem?_eq_none (by omega)] at hip; cases hip
  have hp0 : p = s0.ps i := by
    rw [← hp] at hip
    simp only [State.particles, List.getElem?_map, List.getElem?_range (show i < s0.n by omega), Option.map_some, Option.some.injEq] at hip
    exact hip.symm
  have hq : q = s.ps i := by
    simp only [State.particles, List.getElem?_map, List.getElem?_range (show i < s.n by omega), Option.map_some, Option.some.injEq] at hiq
    exact hiq.symm
  subst hp0 hq
  have hcb : ∀ (w : Unit) (t dt : ℝ), P.walls.pos w i t dt = (s0.ps i).x := by
    intro w t dt
    rw [hw]
    show (ps.getD i (Particle.new .disabled)).x = (s0.ps i).x
    rw [List.getD_eq_getElem?_getD, hip, Option.getD_some]
  refine ⟨C15_static_walls_stay hh i (by omega) hty hcb, ?_⟩
  unfold State.forwardTimeAuto at hlast
  cases hd : s'.determineDt with
  | none => rw [hd] at hlast; cases hlast
  | some dt =>
    rw [hd] at hlast
    exact C15_static_walls_have_zero_velocity hh' i (by omega) hty hcb (sch it) (by rw [hsn', hn]; exact hv it) dt hlast

section
attribute [local instance] instScalarInt

/-- A run that writes three files, the later ones after steps, from an input with one wall particle. -/
example : (∃ ps, inputFromCsv (D := 2) unaryConv exOne = .ok ps ∧ ps.length = 1 ∧ ps.map (·.ty) = [.wall]) ∧
    toSize ((exCond.endTime - exCond.startTime) / exCond.outputInterval) = some 2 ∧
    (∀ k, ((fun _ => Schedule.serial 1 : Nat → Schedule) k).Valid 1) ∧
    (mainProgram Config.default unaryConv unaryPrinter (fun _ => Schedule.serial 1) exCond exArgs2 1 exOne 3).outs.map
      (fun r => decide (0 < r.iteration)) = [false, true, true] := by
  refine ⟨⟨[{ x := ![1, 1], u := ![0, 0], p := 0, n := 0, ty := .wall }], rfl, rfl, rfl⟩, by decide, fun _ => Schedule.serial_valid 1, by decide +kernel⟩

end

end OpenMps
