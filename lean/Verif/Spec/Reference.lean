import Verif.Model.Computer
import Verif.Model.Instances
import Mathlib.LinearAlgebra.Matrix.NonsingularInverse

/-! # A time step written as formulas

No grid, no neighbour lists, no buffers, no loops, no schedule: sums over all particles in exact arithmetic. -/

namespace OpenMps.Ref

variable {D : Nat}

/-- Euclidean length. -/
noncomputable def len (v : Fin D → ℝ) : ℝ := √(∑ a, v a ^ 2)

/-- Scalar product. -/
noncomputable def prod (v w : Fin D → ℝ) : ℝ := ∑ a, v a * w a

/-- The weight of a distance. -/
noncomputable def weight (re r : ℝ) : ℝ := if 0 < r ∧ r < re then re / r - 1 else 0

/-- What is fixed during the step: options, constants (with the step `dt` and the new time), the number of particles, their types (those outside
the grid already disabled), their positions at the beginning and the positions the callback gives. -/
structure Setting (D : Nat) where
  cfg : Config
  env : Env ℝ D
  n : ℕ
  ty : ℕ → PType
  start : ℕ → Fin D → ℝ
  callback : ℕ → Fin D → ℝ

/-- What changes. -/
structure Scene (D : Nat) where
  x : ℕ → Fin D → ℝ
  u : ℕ → Fin D → ℝ
  p : ℕ → ℝ
  dens : ℕ → ℝ

namespace Setting

variable (S : Setting D)

/-- Neither dummy nor disabled. -/
def Active (i : ℕ) : Prop := S.ty i ≠ .dummy ∧ S.ty i ≠ .disabled

/-- Fluid. -/
def Fluid (i : ℕ) : Prop := S.ty i = .incompressibleNewton

open Classical in
/-- The particles that interact with particle `i` when the positions are `x`: the other enabled particles that were within the search radius
at the beginning of the step and are now within `r_e`. -/
noncomputable def near (x : ℕ → Fin D → ℝ) (i : ℕ) : Finset ℕ :=
  (Finset.range S.n).filter (fun j => j ≠ i ∧ S.ty j ≠ .disabled ∧ len (S.start j - S.start i) < S.env.neighborLength ∧
    len (x j - x i) < S.env.re)

open Classical in
/-- Those of them that are not dummies. -/
noncomputable def nearSolid (x : ℕ → Fin D → ℝ) (i : ℕ) : Finset ℕ := (S.near x i).filter (fun j => S.ty j ≠ .dummy)

/-- Number density. -/
noncomputable def density (x : ℕ → Fin D → ℝ) (i : ℕ) : ℝ := ∑ j ∈ S.near x i, weight S.env.re (len (x j - x i))

open Classical in
/-- The density reported by `N()`. -/
noncomputable def reported (x : ℕ → Fin D → ℝ) (old : ℕ → ℝ) (i : ℕ) : ℝ :=
  if S.Active i then (if S.cfg.spp then max (S.density x i) S.env.n0 else S.density x i) else old i

/-- Weighted mean displacement of the near particles. -/
noncomputable def offset (x : ℕ → Fin D → ℝ) (i : ℕ) : Fin D → ℝ :=
  (1 / S.env.n0) • ∑ j ∈ S.near x i, weight S.env.re (len (x j - x i)) • (x j - x i)

/-- Particle `i` has a virtual particle (SPP). -/
def HasVirtual (x : ℕ → Fin D → ℝ) (i : ℕ) : Prop :=
  S.cfg.spp = true ∧ S.density x i < S.env.n0 ∧ 2⁻¹ ^ 52 < len (S.offset x i)

/-- Position of the virtual particle relative to particle `i`: away from the near particles, at the distance `r_e / (n0 - n + 1)`. -/
noncomputable def virtual (x : ℕ → Fin D → ℝ) (i : ℕ) : Fin D → ℝ :=
  -((S.env.re / (S.env.n0 - S.density x i + 1) / len (S.offset x i)) • S.offset x i)

/-- Coefficient of the Laplacian for the distance `r` (HL or standard). -/
noncomputable def laplace (r : ℝ) : ℝ :=
  if S.cfg.hl then (5 - D) * S.env.re / (S.env.n0 * r ^ 3) else 2 * D / (S.env.lambda * S.env.n0) * weight S.env.re r

open Classical in
/-- Gravity at the position `x`; `CENTRAL_GRAVITY`: along the line from the origin, with the size of the vertical component. -/
noncomputable def gravity (x : Fin D → ℝ) : Fin D → ℝ :=
  if S.cfg.centralGravity then
    (if len x < S.env.l0 / 100 then 0 else ((if h : 0 < D then S.env.g ⟨D - 1, by omega⟩ else 0) / len x) • x)
  else S.env.g

/-- Acceleration of the first stage: viscosity and gravity. -/
noncomputable def acceleration (x u : ℕ → Fin D → ℝ) (i : ℕ) : Fin D → ℝ :=
  S.env.nu • (∑ j ∈ S.nearSolid x i, S.laplace (len (x j - x i)) • (u j - u i)) + S.gravity (x i)

open Classical in
/-- Rate of change of the density (HS or finite difference). -/
noncomputable def rate (x u : ℕ → Fin D → ℝ) (dens : ℕ → ℝ) (i : ℕ) : ℝ :=
  if S.cfg.hs then
    (if S.cfg.spp = true ∧ S.density x i < S.env.n0 then 0
     else -S.env.re * ∑ j ∈ S.near x i, prod (x j - x i) (u j - u i) / len (x j - x i) ^ 3)
  else (dens i - S.env.n0) / S.env.dt

/-- Error compensation (ECS). -/
noncomputable def compensation (x u : ℕ → Fin D → ℝ) (dens : ℕ → ℝ) (i : ℕ) : ℝ :=
  if S.cfg.ecs then
    |(dens i - S.env.n0) / S.env.n0| * S.rate x u dens i + |S.rate x u dens i| * ((dens i - S.env.n0) / S.env.n0)
  else 0

open Classical in
/-- First stage: fluid particles are accelerated, the others follow the callback. -/
noncomputable def predict (b : Scene D) : Scene D :=
  let u : ℕ → Fin D → ℝ := fun i =>
    if S.Fluid i then b.u i + S.env.dt • S.acceleration b.x b.u i else (1 / S.env.dt) • (S.callback i - b.x i)
  let x : ℕ → Fin D → ℝ := fun i => if S.Fluid i then b.x i + S.env.dt • u i else S.callback i
  { x := x, u := u, p := b.p, dens := S.reported x b.dens }

/-- A free-surface particle (only without SPP). -/
def Surface (dens : ℕ → ℝ) (i : ℕ) : Prop := S.cfg.spp = false ∧ dens i / S.env.n0 < S.env.surfaceRatio

/-- Equation of state of the explicit mode: `c^2` times the excess of the mass density. -/
noncomputable def eos (dens : ℕ → ℝ) (i : ℕ) : ℝ := S.env.c ^ 2 * max (S.env.rho * dens i / S.env.n0 - S.env.rho) 0

open Classical in
/-- Discrete Laplacian of the pressures `y`; the pressure of surface particles and of virtual particles is zero. -/
noncomputable def laplacian (s : Scene D) (y : ℕ → ℝ) (i : ℕ) : ℝ :=
  (∑ j ∈ S.nearSolid s.x i, S.laplace (len (s.x j - s.x i)) * ((if S.Surface s.dens j then 0 else y j) - y i)) +
    (if S.HasVirtual s.x i then S.laplace (len (S.virtual s.x i)) * (0 - y i) else 0)

open Classical in
/-- Squared residual of the pressure equation `laplacian = -rho/(n0 dt) (rate + compensation)`; particles without equation have pressure zero.
The compensation is that of the beginning of the step (`b`), the rest that of the first stage (`s`). -/
noncomputable def residual (b s : Scene D) (y : ℕ → ℝ) : ℝ :=
  ∑ i ∈ Finset.range S.n,
    (if S.Active i ∧ ¬ S.Surface s.dens i then
      -S.env.rho / (S.env.n0 * S.env.dt) * (S.rate s.x s.u s.dens i + S.compensation b.x b.u (S.reported b.x b.dens) i) - S.laplacian s y i
     else y i) ^ 2

open Classical in
/-- Initial guess of the solver: the old pressures. -/
noncomputable def guess (s : Scene D) (i : ℕ) : ℝ := if S.Active i ∧ ¬ S.Surface s.dens i then s.p i else 0

open Classical in
/-- `p` are pressures the code may compute: those of the equation of state, or those of a solution of the pressure equation up to the tolerance,
cut off at zero (with tolerance zero: those of the initial guess); dummy and disabled particles keep their old pressure in the implicit mode. -/
def IsPressure (eps : ℝ) (b s : Scene D) (p : ℕ → ℝ) : Prop :=
  if S.cfg.explicit then ∀ i, i < S.n → p i = S.eos s.dens i
  else ∃ y : ℕ → ℝ, (eps ≠ 0 → S.residual b s y ≤ eps ^ 2 * S.residual b s (S.guess s)) ∧
    (eps = 0 → ∀ i, i < S.n → y i = S.guess s i) ∧
    ∀ i, i < S.n → p i = if S.Active i then (if S.Surface s.dens i then 0 else max (y i) 0) else s.p i

open Classical in
/-- Sum of the pressure forces on particle `i` without GC. -/
noncomputable def force (s : Scene D) (i : ℕ) : Fin D → ℝ :=
  (∑ j ∈ S.nearSolid s.x i,
    ((s.p j + s.p i) / len (s.x j - s.x i) ^ 2 * weight S.env.re (len (s.x j - s.x i))) • (s.x j - s.x i)) +
  (if S.HasVirtual s.x i then
    (s.p i / len (S.virtual s.x i) ^ 2 * weight S.env.re (len (S.virtual s.x i))) • S.virtual s.x i else 0)

open Classical in
/-- Matrix of the gradient correction (GC). -/
noncomputable def moment (s : Scene D) (i : ℕ) : Matrix (Fin D) (Fin D) ℝ :=
  (∑ j ∈ S.near s.x i,
    (weight S.env.re (len (s.x j - s.x i)) / len (s.x j - s.x i) ^ 2) • Matrix.vecMulVec (s.x j - s.x i) (s.x j - s.x i)) +
  (if S.HasVirtual s.x i then
    (weight S.env.re (len (S.virtual s.x i)) / len (S.virtual s.x i) ^ 2) • Matrix.vecMulVec (S.virtual s.x i) (S.virtual s.x i) else 0)

open Classical in
/-- Its inverse, or a multiple of the identity when it has none. -/
noncomputable def correction (s : Scene D) (i : ℕ) : Matrix (Fin D) (Fin D) ℝ :=
  if (S.moment s i).det = 0 then (D / S.env.n0) • 1 else (S.moment s i)⁻¹

open Classical in
/-- Sum of the pressure forces on particle `i` with GC. -/
noncomputable def forceGc (s : Scene D) (i : ℕ) : Fin D → ℝ :=
  let q : ℝ → ℝ := fun pj => if S.cfg.midpoint then pj + s.p i else pj - s.p i
  (∑ j ∈ S.nearSolid s.x i,
    (q (s.p j) / len (s.x j - s.x i) ^ 2 * weight S.env.re (len (s.x j - s.x i))) • (S.correction s i).mulVec (s.x j - s.x i)) +
  (if S.HasVirtual s.x i then
    (q 0 / len (S.virtual s.x i) ^ 2 * weight S.env.re (len (S.virtual s.x i))) • (S.correction s i).mulVec (S.virtual s.x i) else 0)

/-- Change of velocity by the pressure gradient. -/
noncomputable def push (s : Scene D) (i : ℕ) : Fin D → ℝ :=
  if S.cfg.gc then (-(S.env.dt * s.dens i / (S.env.rho * S.env.n0))) • S.forceGc s i
  else (-(S.env.dt / S.env.rho * (D / S.env.n0))) • S.force s i

open Classical in
/-- Change of velocity by dynamic stabilisation; `old` are the positions before the pressure step, `s` is the scene after it.  Particles closer than
`d = l0 - MaxDx` are moved apart along their old direction so far that their distance becomes `d`. -/
noncomputable def stabilise (old : ℕ → Fin D → ℝ) (s : Scene D) (i : ℕ) : Fin D → ℝ :=
  let d := S.env.l0 - S.env.maxDx
  (-(1 / (2 * S.env.dt * S.env.n0))) • ∑ j ∈ S.nearSolid s.x i,
    (if len (s.x j - s.x i) ^ 2 < d ^ 2 then
      (let e := (1 / len (old j - old i)) • (old j - old i)
       (√(d ^ 2 - len (s.x j - s.x i - prod (s.x j - s.x i) e • e) ^ 2) - prod (s.x j - s.x i) e) • e)
     else 0)

open Classical in
/-- Fluid particles get the velocity changes `dv` and are moved accordingly. -/
noncomputable def kick (dv : ℕ → Fin D → ℝ) (s : Scene D) : Scene D :=
  { s with
    x := fun i => if S.Fluid i then s.x i + S.env.dt • dv i else s.x i
    u := fun i => if S.Fluid i then s.u i + dv i else s.u i }

/-- The last stages. -/
noncomputable def finish (s : Scene D) : Scene D :=
  let s1 := S.kick (S.push s) s
  if S.cfg.ds then S.kick (S.stabilise s.x s1) s1 else s1

/-- `a` is a result of a step from `b`. -/
def IsStep (eps : ℝ) (b a : Scene D) : Prop :=
  ∃ p, S.IsPressure eps b (S.predict b) p ∧ ∀ i, i < S.n →
    a.x i = (S.finish { S.predict b with p := p }).x i ∧ a.u i = (S.finish { S.predict b with p := p }).u i ∧
    a.p i = p i ∧ a.dens i = (S.predict b).dens i

end Setting

variable {ω : Type}

/-- The particles of a state. -/
def scene (s : State ℝ D ω) : Scene D :=
  { x := fun i => (s.ps i).x, u := fun i => (s.ps i).u, p := fun i => (s.ps i).p, dens := fun i => (s.ps i).n }

/-- Not in the region covered by the grid. -/
def Outside (e : Env ℝ D) (x : Fin D → ℝ) : Prop :=
  ∃ a, x a < e.minX a ∨ e.minX a + (⌈(e.maxX a - e.minX a) / e.neighborLength⌉ + 2) * e.neighborLength ≤ x a

open Classical in
/-- The setting of the step `ForwardTime(dt)` in the state `s`: enabled particles outside the grid become disabled. -/
noncomputable def setting (P : Params ℝ D ω) (s : State ℝ D ω) (dt : ℝ) : Setting D :=
  { cfg := P.cfg
    env := { s.env with dt := dt, t := s.env.t + dt }
    n := s.n
    ty := fun i => if (s.ps i).ty ≠ .disabled ∧ Outside s.env (s.ps i).x then .disabled else (s.ps i).ty
    start := fun i => (s.ps i).x
    callback := fun i => P.walls.pos (P.walls.pre s.world (s.env.t + dt) dt) i (s.env.t + dt) dt }

end OpenMps.Ref
