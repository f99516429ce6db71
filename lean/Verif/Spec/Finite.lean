import Verif.Spec.History
import Verif.Spec.Reference

/-! # Computers in which every number is finite

`PReal` (`Model/Instances.lean`) is exact arithmetic with one additional value `bad`: the result of a division by zero, of a root of a
negative number and of every operation on `bad`. -/

namespace OpenMps

variable {D : Nat} {ω : Type}

/-- A vector of finite numbers. -/
def vval (v : Vec ℝ D) : Vec PReal D := fun a => .val (v a)

/-- A particle whose numbers are finite. -/
def Particle.val (q : Particle ℝ D) : Particle PReal D := { x := vval q.x, u := vval q.u, p := .val q.p, n := .val q.n, ty := q.ty }

/-- An environment whose numbers are finite. -/
def Env.val (e : Env ℝ D) : Env PReal D :=
  { t := .val e.t, dt := .val e.dt, n0 := .val e.n0, lambda := .val e.lambda, c := .val e.c, maxDt := .val e.maxDt, maxDx := .val e.maxDx
    l0 := .val e.l0, re := .val e.re, g := vval e.g, rho := .val e.rho, nu := .val e.nu, surfaceRatio := .val e.surfaceRatio
    minX := vval e.minX, maxX := vval e.maxX, neighborLength := .val e.neighborLength }

/-- A grid with finite origin and block length. -/
def Grid.val (g : Grid ℝ D) : Grid PReal D :=
  { blockLength := .val g.blockLength, origin := vval g.origin, size := g.size, cap := g.cap, count := g.count, slot := g.slot }

/-- A computer all of whose numbers are finite, except perhaps those in the work area `pp` of the linear solver (which every implicit step
overwrites before using it). -/
def State.val (pp : Ppe PReal) (t : State ℝ D ω) : State PReal D ω :=
  { n := t.n, ps := fun i => (t.ps i).val, env := t.env.val, grid := t.grid.val, nbr := t.nbr, ppe := pp, du := fun i => vval (t.du i)
    ecs := fun i => .val (t.ecs i), origX := fun i => vval (t.origX i), nNoSpp := fun i => .val (t.nNoSpp i), world := t.world, ub := t.ub }

/-- The same options, a finite tolerance and callbacks that give finite positions for finite arguments. -/
structure Params.Alike (P : Params ℝ D ω) (P' : Params PReal D ω) : Prop where
  cfg : P'.cfg = P.cfg
  eps : P'.eps = .val P.eps
  pre : ∀ c t dt, P'.walls.pre c (.val t) (.val dt) = P.walls.pre c t dt
  pos : ∀ c i t dt, P'.walls.pos c i (.val t) (.val dt) = vval (P.walls.pos c i t dt)

/-- The constants a step divides by are not zero. -/
structure Env.Regular (cfg : Config) (e : Env ℝ D) : Prop where
  re : 0 < e.re
  n0 : 0 < e.n0
  neighborLength : 0 < e.neighborLength
  rho : e.rho ≠ 0
  lambda : cfg.hl = false → e.lambda ≠ 0
  l0 : cfg.centralGravity = true → 0 < e.l0

/-- No two enabled particles are at the same place, neither at the beginning of the step nor after its first stage. -/
def Ref.Setting.Apart (S : Ref.Setting D) (b : Ref.Scene D) : Prop :=
  ∀ i j, i < S.n → j < S.n → i ≠ j → S.ty i ≠ .disabled → S.ty j ≠ .disabled →
    b.x i ≠ b.x j ∧ (S.predict b).x i ≠ (S.predict b).x j

/-- Constructor arguments that are finite numbers. -/
def EnvArgs.val (e : EnvArgs ℝ D) : EnvArgs PReal D :=
  { maxDt := .val e.maxDt, courant := .val e.courant, g := .val e.g, rho := .val e.rho, nu := .val e.nu, surfaceRatio := .val e.surfaceRatio
    reByL0 := .val e.reByL0, c := .val e.c, l0 := .val e.l0, minX := vval e.minX, maxX := vval e.maxX }

/-- Sensible constructor arguments. -/
structure EnvArgs.Sensible (cfg : Config) (e : EnvArgs ℝ D) : Prop where
  l0 : 0 < e.l0
  reByL0 : 1 < e.reByL0
  courant : 0 < e.courant
  maxDt : 0 < e.maxDt
  rho : e.rho ≠ 0
  c : cfg.explicit = true → 0 < e.c
  g : 0 ≤ e.g

/-- Every number in the computer is finite (except perhaps in the work area of the solver). -/
def State.Finite (s : State PReal D ω) : Prop := ∃ t pp, s = State.val pp t

/-- Histories of calls with finite arguments in which every step begins with enabled particles at different places that its first stage leaves
at different places.  (These two conditions speak about the finite values `t` of the numbers; that all numbers of the reached states *are* finite
is what C43 proves.) -/
inductive CalmHist (P : Params ℝ D ω) (P' : Params PReal D ω) (s0 : State PReal D ω) : State PReal D ω → Prop
  | start : CalmHist P P' s0 s0
  | add {s} (src : List (Particle ℝ D)) : CalmHist P P' s0 s → CalmHist P P' s0 (s.addParticles (src.map Particle.val))
  | forward {s s'} (sch : Schedule) (dt : ℝ) : CalmHist P P' s0 s → sch.Valid s.n → dt ≠ 0 →
      (∀ t pp, s = State.val pp t → (Ref.setting P t dt).Apart (Ref.scene t)) →
      (s.forwardTime P' sch (.val dt)).leaves s' → CalmHist P P' s0 s'
  | auto {s s'} (sch : Schedule) : CalmHist P P' s0 s → sch.Valid s.n →
      (∀ t pp dt, s = State.val pp t → t.determineDt = some dt → (Ref.setting P t dt).Apart (Ref.scene t)) →
      (s.forwardTimeAuto P' sch).leaves s' → CalmHist P P' s0 s'

end OpenMps
