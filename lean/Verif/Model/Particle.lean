import Verif.Model.Scalar

/-! # Particles (`/repo/src/OpenMps/Particle.hpp`) and environment (`Environment.hpp`) -/

namespace OpenMps

/-- `Particle::Type`, `/repo/src/OpenMps/Particle.hpp:16-29`.  The enumeration has the fixed
underlying type `int` and CSV input casts any `int` to it (`Main.cpp:153`), hence `other`. -/
inductive PType where
  | incompressibleNewton
  | wall
  | dummy
  | disabled
  | other (code : Int)
deriving DecidableEq, Repr

/-- `Particle`, `/repo/src/OpenMps/Particle.hpp:12-45`. -/
structure Particle (F : Type) (D : Nat) where
  x : Vec F D
  u : Vec F D
  p : F
  n : F
  ty : PType

variable {F : Type} [Scalar F] {D : Nat}

/-- `Particle(const Type)`, `/repo/src/OpenMps/Particle.hpp:48-54`. -/
def Particle.new (t : PType) : Particle F D := { x := 0, u := 0, p := 0, n := 0, ty := t }

/-- `Particle::Disable()`, `/repo/src/OpenMps/Particle.hpp:63-66`. -/
def Particle.disable (q : Particle F D) : Particle F D := { q with ty := PType.disabled }

/-- Arguments of the `Environment` constructor, `/repo/src/OpenMps/Environment.hpp:101-128`
(all options together; the unused ones are ignored). -/
structure EnvArgs (F : Type) (D : Nat) where
  maxDt : F
  courant : F
  g : F
  rho : F
  nu : F
  surfaceRatio : F
  reByL0 : F
  c : F
  l0 : F
  minX : Vec F D
  maxX : Vec F D

/-- `Environment`, `/repo/src/OpenMps/Environment.hpp:9-74`. -/
structure Env (F : Type) (D : Nat) where
  t : F
  dt : F
  n0 : F
  lambda : F
  c : F
  maxDt : F
  maxDx : F
  l0 : F
  re : F
  g : Vec F D
  rho : F
  nu : F
  surfaceRatio : F
  minX : Vec F D
  maxX : Vec F D
  neighborLength : F

/-- The integers `-range, ..., range-1` of `for (auto i = -range; i < range; i++)`,
`/repo/src/OpenMps/Environment.hpp:169`. -/
def latticeRange (range : Int) : List Int :=
  (List.range (2 * range).toNat).map (fun (k : Nat) => (k : Int) - range)

/-- The lattice points visited by the nested loops of `/repo/src/OpenMps/Environment.hpp:169-175`,
in order (outermost loop = first axis). -/
def latticePts : (D : Nat) → Int → List (Fin D → Int)
  | 0, _ => [Fin.elim0]
  | D + 1, range =>
      (latticeRange range).flatMap (fun i => (latticePts D range).map (fun v => Fin.cons i v))

/-- One iteration of the loop body `/repo/src/OpenMps/Environment.hpp:177-204`:
accumulates `(n0, λ)`. -/
def latticeStep (l0 re : F) (acc : F × F) (v : Fin D → Int) : F × F :=
  if ∀ a, v a = 0 then acc
  else
    let x : Vec F D := fun a => Scalar.ofInt (v a) * l0
    let r := norm2 x
    if Scalar.lt r re then
      let w := W r re
      (acc.1 + w, acc.2 + r * r * w)
    else acc

/-- The `Environment` constructor, `/repo/src/OpenMps/Environment.hpp:101-216`.
`none`: the cast of `ceil(r_eByl_0)` to `int` (line 164) is undefined.
The gravity vector is `(0, ..., 0, -g)` (lines 146-150; the vertical axis is the last one). -/
def Env.mk? (cfg : Config) (e : EnvArgs F D) : Option (Env F D) :=
  match Scalar.ceilIdx e.reByL0 with
  | none => none
  | some range =>
    let re := e.reByL0 * e.l0
    let acc := (latticePts D range).foldl (latticeStep e.l0 re) (0, 0)
    some
      { t := 0, dt := 0
        n0 := acc.1
        lambda := acc.2 / acc.1
        c := e.c
        maxDt :=
          if cfg.explicit then stdMin e.maxDt ((e.courant * e.l0) / e.c)
          else stdMin e.maxDt (Scalar.sqrt (Scalar.ofInt 2 * (e.courant * e.l0) / e.g))
        maxDx := e.courant * e.l0
        l0 := e.l0
        re := re
        g := fun a => if a.val + 1 = D then -e.g else Scalar.ofInt 0
        rho := e.rho
        nu := e.nu
        surfaceRatio := e.surfaceRatio
        minX := e.minX
        maxX := e.maxX
        neighborLength := e.reByL0 * e.l0 * (1 + e.courant * Scalar.ofInt 2) }

/-- `Environment::SetNextT`, `/repo/src/OpenMps/Environment.hpp:225-228`. -/
def Env.setNextT (e : Env F D) : Env F D := { e with t := e.t + e.dt }

end OpenMps
