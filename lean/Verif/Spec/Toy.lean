import Verif.Model.Computer
import Verif.Model.Instances

/-! # A concrete computer in integer arithmetic, evaluated by the kernel in `example`s -/

namespace OpenMps

section
attribute [local instance] instScalarInt

/-- Box `[0,10]^2`, `l0 = 1`, `r_e = 3`, search radius 4. -/
def toyEnv : Env Int 2 :=
  { t := 0, dt := 0, n0 := 4, lambda := 1, c := 1, maxDt := 1, maxDx := 1, l0 := 1, re := 3, g := ![0, -1], rho := 1, nu := 1,
    surfaceRatio := 0, minX := ![0, 0], maxX := ![10, 10], neighborLength := 4 }

/-- The callback of the main program for one wall particle at `(2,9)`. -/
def toyWalls : Walls Int 2 Nat := { pre := fun w _ _ => w + 1, pos := fun _ _ _ _ => ![2, 9] }

/-- All default options; tolerance `eps`. -/
def toyP (eps : Int) : Params Int 2 Nat := { cfg := Config.default, eps := eps, walls := toyWalls }

/-- A new computer. -/
def toyNew : State Int 2 Nat :=
  { n := 0, ps := fun _ => Particle.new .disabled, env := toyEnv
    grid := { blockLength := 4, origin := ![0, 0], size := ![4, 4], cap := 25, count := fun _ => 0, slot := fun _ _ => 0 }
    nbr := fun _ _ => 0
    ppe := { size := 0, x := fun _ => 0, b := fun _ => 0, rows := fun _ => [], A := fun _ _ => none }
    du := fun _ => 0, ecs := fun _ => 0, origX := fun _ => 0, nNoSpp := fun _ => 0, world := 0, ub := false }

/-- It is what the constructor makes. -/
theorem toyNew_eq : State.new? toyEnv 0 = some toyNew := by
  unfold State.new? Grid.mk? allSome
  simp only [Scalar.ceilIdx]
  simp only [toyNew, toyEnv, Option.isSome_some, implies_true, if_true, Option.getD_some, Option.some.injEq,
    State.mk.injEq, true_and, and_true, Grid.mk.injEq]
  exact ⟨by decide, by decide⟩

/-- Three particles around a corner of a block, a wall, and one outside the box. -/
def toyParticles : List (Particle Int 2) :=
  [{ x := ![1, 9], u := ![0, 0], p := 0, n := 0, ty := .incompressibleNewton },
   { x := ![2, 9], u := ![0, 0], p := 0, n := 0, ty := .wall },
   { x := ![2, 8], u := ![0, 0], p := 5, n := 0, ty := .incompressibleNewton },
   { x := ![20, 8], u := ![3, 0], p := 0, n := 0, ty := .incompressibleNewton }]

/-- The computer with these particles. -/
def toyState : State Int 2 Nat := toyNew.addParticles toyParticles

/-- A computer whose 26 particles are all in one block. -/
def toyFull : State Int 2 Nat :=
  toyNew.addParticles (List.replicate 26 { x := ![1, 1], u := ![0, 0], p := 0, n := 0, ty := .incompressibleNewton })

/-- Test of an outcome. -/
def Res.check {S : Type} (ok : S → Bool) (exn : Exn → S → Bool) : Res S → Bool
  | .ok s => ok s
  | .exn e s => exn e s
  | .ub => false

theorem Res.check_ok {S : Type} {r : Res S} {f : S → Bool} (h : r.check f (fun _ _ => false) = true) :
    ∃ s, r = .ok s ∧ f s = true := by
  cases r with
  | ok s => exact ⟨s, rfl, h⟩
  | exn e s => cases h
  | ub => cases h

theorem Res.check_exn {S : Type} {r : Res S} {f : Exn → S → Bool} (h : r.check (fun _ => false) f = true) :
    ∃ e s, r = .exn e s ∧ f e s = true := by
  cases r with
  | ok s => cases h
  | exn e s => exact ⟨e, s, rfl, h⟩
  | ub => cases h

end

end OpenMps
