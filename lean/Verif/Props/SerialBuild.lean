import Verif.Lemmas.SerialBuild
import Verif.Lemmas.Frame
import Verif.Spec.SerialBuild
import Verif.Spec.Toy
import Verif.Props.Examples

set_option linter.unusedSectionVars false

/-!
# The build without OpenMP computes the same (C56)

`/repo/src/OpenMps/Computer.hpp` has a second version of `SetPressurePoissonEquation` for builds without OpenMP.
-/

namespace OpenMps

variable {F : Type} [Scalar F] {D : Nat} {ω : Type}

theorem SameMembers.eq_withBuffer {s t : State F D ω} (h : SameMembers s t) : t = s.withBuffer t.ppe.rows := by
  obtain ⟨n, ps, env, grid, nbr, ⟨size, x, b, rows, A⟩, du, ecs, origX, nNoSpp, world, ub⟩ := s
  obtain ⟨n', ps', env', grid', nbr', ⟨size', x', b', rows', A'⟩, du', ecs', origX', nNoSpp', world', ub'⟩ := t
  obtain ⟨h1, h2, h3, h4, h5, h6, h7, h8, h9, h10, h11, h12, h13, h14, h15⟩ := h
  simp only at h1 h2 h3 h4 h5 h6 h7 h8 h9 h10 h11 h12 h13 h14 h15
  subst h1 h2 h3 h4 h5 h6 h7 h8 h9 h10 h11 h12 h13 h14 h15
  rfl

theorem sameMembers_withBuffer (s : State F D ω) (r : Nat → List (Nat × F)) : SameMembers s (s.withBuffer r) :=
  ⟨rfl, rfl, rfl, rfl, rfl, rfl, rfl, rfl, rfl, rfl, rfl, rfl, rfl, rfl, rfl⟩

theorem sameResult_mapState (res : Res (State F D ω)) (r : Nat → List (Nat × F)) : SameResult res (res.mapState (State.withBuffer r)) := by
  cases res with
  | ok s => exact .ok (sameMembers_withBuffer s r)
  | exn e s => exact .exn (sameMembers_withBuffer s r)
  | ub => exact .ub

/-- **C56.**  One step.  In the build without OpenMP `ForwardTime(dt)` has the same outcome as in the build with OpenMP, whatever the
schedule of the latter, and leaves behind an object with the same members, bit for bit (the arithmetic is arbitrary) — in particular
the same pressure matrix, although that build fills it in a different way. -/
theorem C56_serial_build_same_step (P : Params F D ω) {s t : State F D ω} (h : SameMembers s t) (dt : F) {sch : Schedule}
    (hv : sch.Valid s.n) : SameResult (s.forwardTime P sch dt) (t.forwardTimeSerial P dt) := by
  rw [h.eq_withBuffer, forwardTimeSerial_eq P s _ dt sch hv]
  exact sameResult_mapState _ _

theorem serial_same_auto (P : Params F D ω) {s t : State F D ω} (h : SameMembers s t) {sch : Schedule}
    (hv : sch.Valid s.n) : SameResult (s.forwardTimeAuto P sch) (t.forwardTimeAutoSerial P) := by
  have hd : t.determineDt = s.determineDt := by rw [h.eq_withBuffer]; rfl
  unfold State.forwardTimeAuto State.forwardTimeAutoSerial
  rw [hd]
  cases s.determineDt with
  | none => exact .ub
  | some dt => exact C56_serial_build_same_step P h dt hv

theorem serial_same_perform (P : Params F D ω) {s t : State F D ω} (h : SameMembers s t) (c : Call F D)
    (hv : match c with | .add _ => True | .forward sch _ => sch.Valid s.n | .auto sch => sch.Valid s.n) :
    SameResult (s.perform P c) (t.performSerial P c) := by
  cases c with
  | add src =>
    refine .ok ?_
    rw [h.eq_withBuffer]
    exact sameMembers_withBuffer (s.addParticles src) _
  | forward sch dt => exact C56_serial_build_same_step P h dt hv
  | auto sch => exact serial_same_auto P h hv

theorem perform_count (P : Params F D ω) {s s' : State F D ω} (c : Call F D)
    (hv : match c with | .add _ => True | .forward sch _ => sch.Valid s.n | .auto sch => sch.Valid s.n)
    (h : (s.perform P c).leaves s') : s'.n = s.n + c.added := by
  cases c with
  | add src =>
    rcases h with h | ⟨e, h⟩
    · injection h with h; subst h; rfl
    · cases h
  | forward sch dt => exact (step_frame hv h).1
  | auto sch =>
    unfold State.perform State.forwardTimeAuto at h
    cases hd : s.determineDt with
    | none => rw [hd] at h; rcases h with h | ⟨e, h⟩ <;> cases h
    | some dt => rw [hd] at h; exact (step_frame hv h).1

/-- **C56.**  Whole runs.  The same sequence of calls (`AddParticles`, `ForwardTime(dt)`, `ForwardTime()`, the caller catching exceptions)
throws the same exceptions and leads to the same object in both builds, for every schedule of every parallel loop. -/
theorem C56_serial_build_same_run (P : Params F D ω) : ∀ (cs : List (Call F D)) {s t : State F D ω}, SameMembers s t →
    CallsValid s.n cs →
    (∃ thrown a b, s.performAll P cs = some (thrown, a) ∧ t.performAllSerial P cs = some (thrown, b) ∧ SameMembers a b) ∨
    (s.performAll P cs = none ∧ t.performAllSerial P cs = none) := by
  intro cs
  induction cs with
  | nil => intro s t h _; exact Or.inl ⟨[], s, t, rfl, rfl, h⟩
  | cons c cs ih =>
    intro s t h hv
    have hc := serial_same_perform P h c hv.1
    have hn : ∀ s', (s.perform P c).leaves s' → s'.n = s.n + c.added := fun s' => perform_count P c hv.1
    unfold State.performAll State.performAllSerial
    generalize s.perform P c = r at hc hn
    generalize t.performSerial P c = r' at hc
    cases hc with
    | @ok a b hab =>
      rcases ih hab (by rw [hn a (Or.inl rfl)]; exact hv.2) with ⟨th, a', b', e1, e2, e3⟩ | ⟨e1, e2⟩
      · exact Or.inl ⟨none :: th, a', b', by simp [e1], by simp [e2], e3⟩
      · exact Or.inr ⟨by simp [e1], by simp [e2]⟩
    | @exn e a b hab =>
      rcases ih hab (by rw [hn a (Or.inr ⟨e, rfl⟩)]; exact hv.2) with ⟨th, a', b', e1, e2, e3⟩ | ⟨e1, e2⟩
      · exact Or.inl ⟨some e :: th, a', b', by simp [e1], by simp [e2], e3⟩
      · exact Or.inr ⟨by simp [e1], by simp [e2]⟩
    | ub => exact Or.inr ⟨rfl, rfl⟩

/-! ## Concrete cases -/

/-- The drop of four particles (default options, exact arithmetic): the serial build solves its pressure equation and returns. -/
example : ∃ s', dropState.forwardTimeSerial dropP (1 / 100) = .ok s' := by
  obtain ⟨a, ha⟩ := dropState_step (dt := 1 / 100) (by norm_num) le_rfl
  have h := C56_serial_build_same_step dropP (s := dropState) (t := dropState)
    ⟨rfl, rfl, rfl, rfl, rfl, rfl, rfl, rfl, rfl, rfl, rfl, rfl, rfl, rfl, rfl⟩ (1 / 100) (sch := Schedule.serial 4)
    (Schedule.serial_valid 4)
  rw [ha] at h
  generalize dropState.forwardTimeSerial dropP (1 / 100) = r at h
  cases h with
  | ok _ => exact ⟨_, rfl⟩

section
attribute [local instance] instScalarInt

/-- Two calls in integer arithmetic, evaluated by the kernel in the serial build: a step in which a particle leaves, then one more. -/
example : ((toyState.performAllSerial (toyP 0) [.forward (fun _ => []) 1, .auto (fun _ => [])]).map
    (fun r => (r.1, (r.2.particles.map (fun q => (List.ofFn q.x, q.ty)))))).isSome = true := by
  decide +kernel

end

end OpenMps
