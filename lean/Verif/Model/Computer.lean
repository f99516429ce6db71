import Verif.Model.Grid
import Verif.Model.Par
import Verif.Model.Matrix
import Verif.Model.Cg

/-! # The computer (`/repo/src/OpenMps/Computer.hpp`) -/

namespace OpenMps

/-- Exceptions: `Grid::Exception` (`Grid.hpp:125-131`, thrown at line 317) and
`Computer::Exception` (`Computer.hpp:1660-1666`, thrown at line 1427). -/
inductive Exn where
  | gridFull
  | solver
deriving DecidableEq, Repr

/-- Outcome of a mutating member function; after an exception the object is left in state `s`. -/
inductive Res (S : Type) where
  | ok (s : S)
  | exn (e : Exn) (s : S)
  | ub

/-- Sequencing. -/
def Res.bind {S T : Type} (r : Res S) (lift : Exn → S → Res T) (f : S → Res T) : Res T :=
  match r with
  | .ok s => f s
  | .exn e s => lift e s
  | .ub => .ub

/-- Sequencing of member functions on the same object. -/
def Res.andThen {S : Type} (r : Res S) (f : S → Res S) : Res S := r.bind (fun e s => .exn e s) f

/-- `Ppe`, `/repo/src/OpenMps/Computer.hpp:480-537`.  `size` is `b.size()`, `rows` is `a_ij`. -/
structure Ppe (F : Type) where
  size : Nat
  x : Nat → F
  b : Nat → F
  rows : Nat → List (Nat × F)
  A : Sparse F

/-- The wall callbacks of the user, `/repo/src/OpenMps/Computer.hpp:558-562`.  `positionWallPre` may change
a state `ω` (for instance a captured variable) on which `positionWall` depends. -/
structure Walls (F : Type) (D : Nat) (ω : Type) where
  pre : ω → F → F → ω
  pos : ω → Nat → F → F → Vec F D

/-- The constant parameters of a computer: compile-time options, allowable residual, callbacks. -/
structure Params (F : Type) (D : Nat) (ω : Type) where
  cfg : Config
  eps : F
  walls : Walls F D ω

/-- Data members of `Computer`, `/repo/src/OpenMps/Computer.hpp:463-562`.
`n` is `particles.size()`; `nbr i 0` is the neighbour count of `i` and `nbr i (1+k)` its `k`-th neighbour
(lines 594-612).  `world` is the state of the callbacks.  `ub` records that a parallel loop did
something undefined. -/
structure State (F : Type) (D : Nat) (ω : Type) where
  n : Nat
  ps : Nat → Particle F D
  env : Env F D
  grid : Grid F D
  nbr : Nat → Nat → Nat
  ppe : Ppe F
  du : Nat → Vec F D
  ecs : Nat → F
  origX : Nat → Vec F D
  nNoSpp : Nat → F
  world : ω
  ub : Bool

variable {F : Type} [Scalar F] {D : Nat} {ω : Type}

/-- Length of a row of the neighbour table without the leading count:
`grid.MaxParticles()*Grid::MAX_NEIGHBOR_BLOCK`, `/repo/src/OpenMps/Computer.hpp:1763-1765`. -/
def State.rowCap (s : State F D ω) : Nat := s.grid.cap * lastNeighbor D

/-- `Neighbor(i, 0), ..., Neighbor(i, NeighborCount(i)-1)`, `/repo/src/OpenMps/Computer.hpp:594-612`. -/
def State.neighbors (s : State F D ω) (i : Nat) : List Nat :=
  (List.range (s.nbr i 0)).map (fun idx => s.nbr i (1 + idx))

/-- Neither dummy nor disabled. -/
def PType.active (t : PType) : Bool := t ≠ .dummy && t ≠ .disabled

/-! ## Interaction with neighbours -/

/-- The loop over the neighbours in `AccumulateNeighbor`,
`/repo/src/OpenMps/Computer.hpp:631-662`: the sum and the centre of gravity `dx_g` (before the division by `n0`;
without SPP the code does not compute the latter). -/
def State.accLoop {A : Type} [Add A] (s : State F D ω) (i : Nat) (zero : A)
    (func : Int → Particle F D → A) : A × Vec F D :=
  let re := s.env.re
  let re2 := re * re
  let thisX := (s.ps i).x
  (s.neighbors i).foldl (fun (acc : A × Vec F D) j =>
    if j ≠ i then
      let dx := (s.ps j).x - thisX
      let r2 := dot dx dx
      if Scalar.lt r2 re2 then
        (acc.1 + func (j : Int) (s.ps j), acc.2 + smul (W (Scalar.sqrt r2) re) dx)
      else acc
    else acc) (zero, 0)

/-- The virtual SPP particle of particle `i`, if there is one,
`/repo/src/OpenMps/Computer.hpp:666-691`; `dxgSum` is `dx_g` before the division. -/
def State.sppParticle (s : State F D ω) (i : Nat) (dxgSum : Vec F D) : Option (Particle F D) :=
  let thisN := s.nNoSpp i
  let n0 := s.env.n0
  let dxg := vdiv dxgSum n0
  if Scalar.lt thisN n0 then
    let rg := Scalar.sqrt (dot dxg dxg)
    if Scalar.lt Scalar.epsilon rg then
      let wSpp := n0 - thisN
      let rSpp := s.env.re / (wSpp + 1)
      let xSpp := (s.ps i).x - smul (rSpp / rg) dxg
      some { x := xSpp, u := (s.ps i).u, p := 0, n := 0, ty := .incompressibleNewton }
    else none
  else none

/-- `AccumulateNeighbor`, `/repo/src/OpenMps/Computer.hpp:618-695`.  The field getters (lines 58-213) pass
selected fields of particle `j` to `func`; here `func` receives the number (−1 for the SPP
particle, line 688) and the whole particle. -/
def State.accumulate {A : Type} [Add A] (cfg : Config) (s : State F D ω) (i : Nat) (zero : A)
    (func : Int → Particle F D → A) : A :=
  let acc := s.accLoop i zero func
  if cfg.spp then
    match s.sppParticle i acc.2 with
    | some q => acc.1 + func (-1) q
    | none => acc.1
  else acc.1

/-! ## Neighbour search -/

/-- Body of the storing loop, `/repo/src/OpenMps/Computer.hpp:705-717`. -/
def State.storeOne (s : State F D ω) (i : Nat) : Res (State F D ω) :=
  if (s.ps i).ty = .disabled then .ok s
  else
    match s.grid.store (s.ps i).x i with
    | .ub => .ub
    | .full g => .exn .gridFull { s with grid := g }
    | .stored g => .ok { s with grid := g }
    | .outside g => .ok { s with grid := g, ps := upd s.ps i (s.ps i).disable }

/-- The storing loop over the given particle numbers. -/
def State.storeAll : List Nat → State F D ω → Res (State F D ω)
  | [], s => .ok s
  | i :: is, s => (s.storeOne i).andThen (State.storeAll is)

/-- Result of the second loop of `SearchNeighbor` for one particle. -/
inductive RowRes where
  | skip
  | row (l : List Nat)
  | bad

/-- Read phase of the second loop, `/repo/src/OpenMps/Computer.hpp:730-754`; `bad`: a particle number or
row index outside its array, or undefined behaviour of the grid iteration. -/
def State.rowCompute (s : State F D ω) (i : Nat) : RowRes :=
  if (s.ps i).ty = .disabled then .skip
  else
    match s.grid.visit (s.ps i).x with
    | .done l =>
      if l.any (fun j => decide (s.n ≤ j)) then .bad
      else
        let l' := l.filter (fun j => decide (j ≠ i) && decide ((s.ps j).ty ≠ .disabled)
          && Scalar.lt (dist (s.ps i).x (s.ps j).x) s.env.neighborLength)
        if s.rowCap < l'.length then .bad else .row l'
    | _ => .bad

/-- Commit phase of the second loop (lines 747 and 753). -/
def State.rowCommit (i : Nat) (r : RowRes) (s : State F D ω) : State F D ω :=
  match r with
  | .skip => s
  | .bad => { s with ub := true }
  | .row l => { s with
      nbr := upd s.nbr i (fun c => if c = 0 then l.length else l.getD (c - 1) (s.nbr i c)) }

/-- `SearchNeighbor`, `/repo/src/OpenMps/Computer.hpp:698-756`. -/
def State.searchNeighbor (sch : List Ev) (s : State F D ω) : Res (State F D ω) :=
  match s.grid.clear? with
  | none => .ub
  | some g =>
    (State.storeAll (List.range s.n) { s with grid := g }).andThen (fun s =>
      let s := parLoop State.rowCompute State.rowCommit sch s
      if s.ub then .ub else .ok s)

/-! ## Time step -/

/-- `std::max_element` of `DetermineDt`, `/repo/src/OpenMps/Computer.hpp:764-770`: number of the (first)
particle with the largest squared speed; only for `0 < n`. -/
def State.fastest (s : State F D ω) : Nat :=
  (List.range (s.n - 1)).foldl (fun best k =>
    if Scalar.lt (dot (s.ps best).u (s.ps best).u) (dot (s.ps (k + 1)).u (s.ps (k + 1)).u)
    then k + 1 else best) 0

/-- `DetermineDt`, `/repo/src/OpenMps/Computer.hpp:759-777`; `none`: `*max_element` of an empty range
is undefined. -/
def State.determineDt (s : State F D ω) : Option F :=
  if s.n = 0 then none
  else
    let maxU := norm2 (s.ps s.fastest).u
    some (if Scalar.eq maxU 0 then s.env.maxDt else stdMin (s.env.maxDx / maxU) s.env.maxDt)

/-! ## Number density -/

/-- Read phase of `ComputeNeighborDensities`, `/repo/src/OpenMps/Computer.hpp:798-831`: the new
`nWithoutSpp[i]` and, for active particles, the new `N`. -/
def State.densCompute (cfg : Config) (s : State F D ω) (i : Nat) : F × Option F :=
  let n0 := s.env.n0
  let q := s.ps i
  let s1 := { s with nNoSpp := upd s.nNoSpp i n0 }
  if q.ty.active then
    let thisN := (if cfg.spp then s1 else s).accumulate cfg i (0 : F) (fun j q' =>
      if cfg.spp && decide (j < 0) then 0 else W (dist q.x q'.x) s.env.re)
    (thisN, some (if cfg.spp then stdMax thisN n0 else thisN))
  else (n0, none)

/-- Commit phase of `ComputeNeighborDensities` (lines 800, 826-829). -/
def State.densCommit (cfg : Config) (i : Nat) (r : F × Option F) (s : State F D ω) : State F D ω :=
  { s with
    nNoSpp := if cfg.spp then upd s.nNoSpp i r.1 else s.nNoSpp
    ps := match r.2 with
      | some v => upd s.ps i { s.ps i with n := v }
      | none => s.ps }

/-- `ComputeNeighborDensities`, `/repo/src/OpenMps/Computer.hpp:780-833`. -/
def State.computeDensities (cfg : Config) (sch : List Ev) (s : State F D ω) : State F D ω :=
  parLoop (State.densCompute cfg) (State.densCommit cfg) sch s

/-- `NeighborDensityVariationSpeed`, `/repo/src/OpenMps/Computer.hpp:838-872`. -/
def State.densitySpeed (cfg : Config) (s : State F D ω) (i : Nat) : F :=
  if cfg.hs then
    if cfg.spp && Scalar.lt (s.nNoSpp i) s.env.n0 then 0
    else -s.env.re * s.accumulate cfg i (0 : F) (fun _ q =>
      let dx := q.x - (s.ps i).x
      let du := q.u - (s.ps i).u
      let r := norm2 dx
      dot dx du / (r * r * r))
  else ((s.ps i).n - s.env.n0) / s.env.dt

/-! ## Error correction (ECS) -/

/-- Read phase of `ComputeErrorCorrection`, `/repo/src/OpenMps/Computer.hpp:895-908`. -/
def State.ecsCompute (cfg : Config) (s : State F D ω) (i : Nat) : Option F :=
  if (s.ps i).ty.active then
    let speed := s.densitySpeed cfg i
    let error := ((s.ps i).n - s.env.n0) / s.env.n0
    some (Scalar.abs error * speed + Scalar.abs speed * error)
  else none

/-- Commit phase (line 907). -/
def State.ecsCommit (i : Nat) (r : Option F) (s : State F D ω) : State F D ω :=
  match r with
  | some v => { s with ecs := upd s.ecs i v }
  | none => s

/-- `ComputeErrorCorrection`, `/repo/src/OpenMps/Computer.hpp:877-910`. -/
def State.computeEcs (cfg : Config) (sch : List Ev) (s : State F D ω) : State F D ω :=
  if cfg.ecs then parLoop (State.ecsCompute cfg) State.ecsCommit sch s else s

/-! ## First stage: gravity and viscosity -/

/-- Viscous interaction, `/repo/src/OpenMps/Computer.hpp:952-977`. -/
def State.viscFunc (cfg : Config) (s : State F D ω) (i : Nat) (_j : Int) (q : Particle F D) : Vec F D :=
  if q.ty ≠ .dummy then
    let r := dist (s.ps i).x q.x
    if cfg.hl then
      smul (s.env.nu * Scalar.ofInt ((5 - D : Nat) : Int) * s.env.re / s.env.n0 / (r * r * r))
        (q.u - (s.ps i).u)
    else
      smul (s.env.nu * Scalar.ofInt 2 * Scalar.ofInt (D : Int) / s.env.lambda / s.env.n0 * W r s.env.re)
        (q.u - (s.ps i).u)
  else 0

/-- Gravity, `/repo/src/OpenMps/Computer.hpp:925-930, 979-988`.  With `CENTRAL_GRAVITY` the acceleration is
`G[AXIS_Z]` times the unit vector from the origin (zero near the centre). -/
def State.gravity (cfg : Config) (s : State F D ω) (i : Nat) : Vec F D :=
  if cfg.centralGravity then
    let x := (s.ps i).x
    let r := norm2 x
    let c : Vec F D :=
      if Scalar.lt r (s.env.l0 * (Scalar.ofInt 1 / Scalar.ofInt 100)) then 0 else vdiv x r
    let g : F := (List.finRange D).foldl (fun z a => if a.val + 1 = D then s.env.g a else z) 0
    smul g c
  else s.env.g

/-- Read phase of the first loop of `ComputeExplicitForces`, `/repo/src/OpenMps/Computer.hpp:946-989`. -/
def State.accelCompute (cfg : Config) (s : State F D ω) (i : Nat) : Option (Vec F D) :=
  if (s.ps i).ty = .incompressibleNewton then
    some (s.accumulate cfg i (0 : Vec F D) (s.viscFunc cfg i) + s.gravity cfg i)
  else none

/-- Commit to `du[i]` (lines 980-987, 1539, 1633). -/
def State.duCommit (i : Nat) (r : Option (Vec F D)) (s : State F D ω) : State F D ω :=
  match r with
  | some v => { s with du := upd s.du i v }
  | none => s

/-- Read phase of the second loop of `ComputeExplicitForces`,
`/repo/src/OpenMps/Computer.hpp:1005-1019`: the new position and velocity. -/
def State.moveCompute (w : Walls F D ω) (s : State F D ω) (i : Nat) : Vec F D × Vec F D :=
  let q := s.ps i
  let dt := s.env.dt
  if q.ty = .incompressibleNewton then
    let u := q.u + vmul (s.du i) dt
    (q.x + vmul u dt, u)
  else
    let x := w.pos s.world i s.env.t dt
    (x, vdiv (x - q.x) dt)

/-- Commit phase of the second loop. -/
def State.moveCommit (i : Nat) (r : Vec F D × Vec F D) (s : State F D ω) : State F D ω :=
  { s with ps := upd s.ps i { s.ps i with x := r.1, u := r.2 } }

/-- `ComputeExplicitForces`, `/repo/src/OpenMps/Computer.hpp:914-1021`. -/
def State.computeExplicit (P : Params F D ω) (sch1 sch2 : List Ev) (s : State F D ω) : State F D ω :=
  let s := parLoop (State.accelCompute P.cfg) State.duCommit sch1 s
  let s := { s with world := P.walls.pre s.world s.env.t s.env.dt }
  parLoop (State.moveCompute P.walls) State.moveCommit sch2 s

/-- `SaveX`, `/repo/src/OpenMps/Computer.hpp:1025-1039` (a serial loop that touches only index `i` in iteration `i`,
written pointwise). -/
def State.saveX (cfg : Config) (s : State F D ω) : State F D ω :=
  if cfg.ds then
    { s with origX := fun i => if i < s.n ∧ (s.ps i).ty.active then (s.ps i).x else s.origX i }
  else s

/-! ## Second stage: pressure -/

/-- `IsSurface`, `/repo/src/OpenMps/Computer.hpp:586-589`; only without SPP. -/
def State.isSurface (cfg : Config) (s : State F D ω) (n : F) : Bool :=
  !cfg.spp && Scalar.lt (n / s.env.n0) s.env.surfaceRatio

/-- Rows with an identity equation, `/repo/src/OpenMps/Computer.hpp:1195-1200, 1246-1251`. -/
def State.fixedRow (cfg : Config) (s : State F D ω) (i : Nat) : Bool :=
  decide ((s.ps i).ty = .dummy) || decide ((s.ps i).ty = .disabled) || s.isSurface cfg (s.ps i).n

/-- Read phase of the first loop of `SetPressurePoissonEquation`,
`/repo/src/OpenMps/Computer.hpp:1194-1220`: `(b_i, x_i)`. -/
def State.rhsCompute (cfg : Config) (s : State F D ω) (i : Nat) : F × F :=
  if s.fixedRow cfg i then (0, 0)
  else
    let speed := s.densitySpeed cfg i
    let k := -s.env.rho / (s.env.n0 * s.env.dt)
    (if cfg.ecs then k * (speed + s.ecs i) else k * speed, (s.ps i).p)

/-- Commit phase. -/
def State.rhsCommit (i : Nat) (r : F × F) (s : State F D ω) : State F D ω :=
  { s with ppe := { s.ppe with b := upd s.ppe.b i r.1, x := upd s.ppe.x i r.2 } }

/-- Accumulated value of the matrix loop: diagonal sum and off-diagonal entries. -/
structure RowAcc (F : Type) where
  sum : F
  entries : List (Nat × F)

instance : Add (RowAcc F) := ⟨fun a b => { sum := a.sum + b.sum, entries := a.entries ++ b.entries }⟩

/-- Off-diagonal coefficient, `/repo/src/OpenMps/Computer.hpp:1288-1297`. -/
def State.coef (cfg : Config) (s : State F D ω) (r : F) : F :=
  if cfg.hl then Scalar.ofInt ((5 - D : Nat) : Int) * s.env.re / s.env.n0 / (r * r * r)
  else (Scalar.ofInt ((2 * D : Nat) : Int) / s.env.lambda / s.env.n0) * W r s.env.re

/-- Interaction of the matrix loop, `/repo/src/OpenMps/Computer.hpp:1283-1320`. -/
def State.rowFunc (cfg : Config) (s : State F D ω) (i : Nat) (j : Int) (q : Particle F D) : RowAcc F :=
  if q.ty ≠ .dummy then
    let a := s.coef cfg (dist (s.ps i).x q.x)
    let offDiag : Bool := if cfg.spp then decide (0 ≤ j) else !s.isSurface cfg q.n
    { sum := -a, entries := if offDiag then [(j.toNat, a)] else [] }
  else { sum := 0, entries := [] }

/-- Read phase of the second loop of `SetPressurePoissonEquation` (OpenMP variant),
`/repo/src/OpenMps/Computer.hpp:1241-1327`: the list `a_ij[i]`. -/
def State.matCompute (cfg : Config) (s : State F D ω) (i : Nat) : List (Nat × F) :=
  if s.fixedRow cfg i then [(i, 1)]
  else
    let acc := s.accumulate cfg i ({ sum := 0, entries := [] } : RowAcc F) (s.rowFunc cfg i)
    acc.entries ++ [(i, acc.sum)]

/-- Commit phase. -/
def State.matCommit (i : Nat) (r : List (Nat × F)) (s : State F D ω) : State F D ω :=
  { s with ppe := { s.ppe with rows := upd s.ppe.rows i r } }

/-- The serial transfer of the rows into the cleared matrix, `/repo/src/OpenMps/Computer.hpp:1229, 1330-1350`
(`A(i, j) = a_ij`; later assignments overwrite earlier ones). -/
def assemble (n : Nat) (rows : Nat → List (Nat × F)) : Sparse F :=
  (List.range n).foldl (fun A i =>
    (rows i).foldl (fun A e => upd A i (upd (A i) e.1 (some e.2))) A) (fun _ _ => none)

/-- `SetPressurePoissonEquation`, `/repo/src/OpenMps/Computer.hpp:1145-1356`.  When the number of particles
changed the vectors are re-created (lines 1162-1183); all their elements are overwritten below, so only
the size is modelled.  `schB`, `schA`: schedules of the two parallel loops. -/
def State.setPpe (cfg : Config) (schB schA : List Ev) (s : State F D ω) : State F D ω :=
  let s := { s with ppe := { s.ppe with size := s.n } }
  let s := parLoop (State.rhsCompute cfg) State.rhsCommit schB s
  let s := parLoop (State.matCompute cfg) State.matCommit schA s
  { s with ppe := { s.ppe with A := assemble s.n s.ppe.rows } }

/-- `SolvePressurePoissonEquation`, `/repo/src/OpenMps/Computer.hpp:1359-1429`. -/
def State.solvePpe (eps : F) (s : State F D ω) : Res (State F D ω) :=
  let r := cgSolve s.ppe.size s.ppe.A s.ppe.b s.ppe.x eps
  let s := { s with ppe := { s.ppe with x := r.1 } }
  if r.2 then .ok s else .exn .solver s

/-- Read phase of the pressure assignment, `/repo/src/OpenMps/Computer.hpp:1085-1096`. -/
def State.presCompute (cfg : Config) (s : State F D ω) (i : Nat) : Option F :=
  if (s.ps i).ty.active then
    let p := s.ppe.x i
    some (if Scalar.lt p 0 || s.isSurface cfg (s.ps i).n then 0 else p)
  else none

/-- Read phase of the explicit pressure, `/repo/src/OpenMps/Computer.hpp:1056-1066` (all particles). -/
def State.eosCompute (s : State F D ω) (i : Nat) : Option F :=
  let rho0 := s.env.rho
  let rho := rho0 / s.env.n0 * (s.ps i).n
  some (if Scalar.le rho rho0 then 0 else s.env.c * s.env.c * (rho - rho0))

/-- Commit phase of the pressure loops. -/
def State.presCommit (i : Nat) (r : Option F) (s : State F D ω) : State F D ω :=
  match r with
  | some v => { s with ps := upd s.ps i { s.ps i with p := v } }
  | none => s

/-- Interaction of the pressure gradient without GC, `/repo/src/OpenMps/Computer.hpp:1504-1521`. -/
def State.gradFunc (s : State F D ω) (i : Nat) (_j : Int) (q : Particle F D) : Vec F D :=
  if q.ty ≠ .dummy then
    let dx := q.x - (s.ps i).x
    let r2 := dot dx dx
    smul ((q.p + (s.ps i).p) / r2 * W (Scalar.sqrt r2) s.env.re) dx
  else 0

/-- Interaction of the correction matrix (GC), `/repo/src/OpenMps/Computer.hpp:1459-1470`. -/
def State.gcMatFunc (s : State F D ω) (i : Nat) (_j : Int) (q : Particle F D) : Mat F D :=
  let dx := q.x - (s.ps i).x
  let r2 := dot dx dx
  msmul (W (dist q.x (s.ps i).x) s.env.re / r2) (outer dx dx)

/-- Interaction of the pressure gradient with GC, `/repo/src/OpenMps/Computer.hpp:1475-1499`. -/
def State.gcFunc (cfg : Config) (s : State F D ω) (i : Nat) (C : Mat F D) (_j : Int) (q : Particle F D) :
    Vec F D :=
  if q.ty ≠ .dummy then
    let pij := if cfg.midpoint then q.p + (s.ps i).p else q.p - (s.ps i).p
    let dx := q.x - (s.ps i).x
    let r2 := dot dx dx
    smul (pij / r2 * W (dist q.x (s.ps i).x) s.env.re) (matVec C dx)
  else 0

/-- Read phase of the first loop of `ModifyByPressureGradient`,
`/repo/src/OpenMps/Computer.hpp:1446-1540`. -/
def State.gradCompute (cfg : Config) (s : State F D ω) (i : Nat) : Option (Vec F D) :=
  if (s.ps i).ty = .incompressibleNewton then
    let dt := s.env.dt
    let rho := s.env.rho
    let n0 := s.env.n0
    if cfg.gc then
      let invC := s.accumulate cfg i (0 : Mat F D) (s.gcMatFunc i)
      let C := invertMatrix invC (Scalar.ofInt (D : Int) / n0)
      some (smul (-dt * (s.ps i).n / (rho * n0))
        (s.accumulate cfg i (0 : Vec F D) (s.gcFunc cfg i C)))
    else
      some (smul (-dt / rho * Scalar.ofInt (D : Int) / n0)
        (s.accumulate cfg i (0 : Vec F D) (s.gradFunc i)))
  else none

/-- Read phase of the second loops of `ModifyByPressureGradient` and `DynamicStabilize`,
`/repo/src/OpenMps/Computer.hpp:1553-1562, 1647-1654`. -/
def State.pushCompute (s : State F D ω) (i : Nat) : Option (Vec F D × Vec F D) :=
  if (s.ps i).ty = .incompressibleNewton then
    some ((s.ps i).x + vmul (s.du i) s.env.dt, (s.ps i).u + s.du i)
  else none

/-- Commit phase of these loops. -/
def State.pushCommit (i : Nat) (r : Option (Vec F D × Vec F D)) (s : State F D ω) : State F D ω :=
  match r with
  | some v => { s with ps := upd s.ps i { s.ps i with x := v.1, u := v.2 } }
  | none => s

/-- `ModifyByPressureGradient`, `/repo/src/OpenMps/Computer.hpp:1433-1564`. -/
def State.modifyByGradient (cfg : Config) (sch1 sch2 : List Ev) (s : State F D ω) : State F D ω :=
  let s := parLoop (State.gradCompute cfg) State.duCommit sch1 s
  parLoop State.pushCompute State.pushCommit sch2 s

/-- `ComputeImplicitForces`, `/repo/src/OpenMps/Computer.hpp:1043-1102`. -/
def State.computeImplicit (P : Params F D ω) (sch : Schedule) (s : State F D ω) : Res (State F D ω) :=
  let cfg := P.cfg
  let r : Res (State F D ω) :=
    if cfg.explicit then .ok (parLoop State.eosCompute State.presCommit (sch 8) s)
    else
      ((s.setPpe cfg (sch 6) (sch 7)).solvePpe P.eps).andThen (fun s =>
        .ok (parLoop (State.presCompute cfg) State.presCommit (sch 8) s))
  r.andThen (fun s => .ok (s.modifyByGradient cfg (sch 9) (sch 10)))

/-! ## Dynamic stabilisation -/

/-- Interaction of `DynamicStabilize`, `/repo/src/OpenMps/Computer.hpp:1593-1631`; `d2` is `d*d`. -/
def State.dsFunc (cfg : Config) (s : State F D ω) (i : Nat) (d2 : F) (j : Int) (q : Particle F D) : Vec F D :=
  if q.ty ≠ .dummy ∧ (cfg.spp = false ∨ 0 ≤ j) then
    let dx := q.x - (s.ps i).x
    let r2 := dot dx dx
    if Scalar.lt r2 d2 then
      let dx0 := s.origX j.toNat - s.origX i
      let e := vdiv dx0 (norm2 dx0)
      let rPar := dot dx e
      let dxPerp := dx - smul rPar e
      let rPerp2 := dot dxPerp dxPerp
      smul (Scalar.sqrt (d2 - rPerp2) - rPar) e
    else 0
  else 0

/-- Read phase of the first loop of `DynamicStabilize`, `/repo/src/OpenMps/Computer.hpp:1570-1634`. -/
def State.dsCompute (cfg : Config) (s : State F D ω) (i : Nat) : Option (Vec F D) :=
  if (s.ps i).ty = .incompressibleNewton then
    let d := s.env.l0 - s.env.maxDx
    some (smul (-(1 : F) / (Scalar.ofInt 2 * s.env.dt * s.env.n0))
      (s.accumulate cfg i (0 : Vec F D) (s.dsFunc cfg i (d * d))))
  else none

/-- `DynamicStabilize`, `/repo/src/OpenMps/Computer.hpp:1568-1656`. -/
def State.dynamicStabilize (cfg : Config) (sch1 sch2 : List Ev) (s : State F D ω) : State F D ω :=
  if cfg.ds then
    let s := parLoop (State.dsCompute cfg) State.duCommit sch1 s
    parLoop State.pushCompute State.pushCommit sch2 s
  else s

/-! ## Public interface -/

/-- `ForwardTime(dt)`, `/repo/src/OpenMps/Computer.hpp:1700-1742`. -/
def State.forwardTime (P : Params F D ω) (sch : Schedule) (dt : F) (s : State F D ω) : Res (State F D ω) :=
  let s := { s with env := { s.env with dt := dt } }
  let s := { s with env := s.env.setNextT }
  (s.searchNeighbor (sch 0)).andThen (fun s =>
    let s := s.computeDensities P.cfg (sch 1)
    let s := s.computeEcs P.cfg (sch 2)
    let s := s.computeExplicit P (sch 3) (sch 4)
    let s := s.computeDensities P.cfg (sch 5)
    let s := s.saveX P.cfg
    (s.computeImplicit P sch).andThen (fun s =>
      .ok (s.dynamicStabilize P.cfg (sch 11) (sch 12))))

/-- `ForwardTime()`, `/repo/src/OpenMps/Computer.hpp:1745-1751`. -/
def State.forwardTimeAuto (P : Params F D ω) (sch : Schedule) (s : State F D ω) : Res (State F D ω) :=
  match s.determineDt with
  | none => .ub
  | some dt => s.forwardTime P sch dt

/-- `AddParticles`, `/repo/src/OpenMps/Computer.hpp:1755-1777`.  The buffers are resized; their new elements are
never read before they are written (theorem C18), so their contents are left arbitrary. -/
def State.addParticles (src : List (Particle F D)) (s : State F D ω) : State F D ω :=
  { s with
    n := s.n + src.length
    ps := fun i => if i < s.n then s.ps i else src.getD (i - s.n) (s.ps i) }

/-- The constructor, `/repo/src/OpenMps/Computer.hpp:1674-1691`; `none`: undefined cast in the grid
constructor.  Buffers are empty. -/
def State.new? (env : Env F D) (w : ω) : Option (State F D ω) :=
  match Grid.mk? env.neighborLength env.l0 env.minX env.maxX with
  | none => none
  | some g =>
    some { n := 0, ps := fun _ => Particle.new .disabled, env := env, grid := g, nbr := fun _ _ => 0
           ppe := { size := 0, x := fun _ => 0, b := fun _ => 0, rows := fun _ => [], A := fun _ _ => none }
           du := fun _ => 0, ecs := fun _ => 0, origX := fun _ => 0, nNoSpp := fun _ => 0
           world := w, ub := false }

/-- `Particles()`, `/repo/src/OpenMps/Computer.hpp:1780-1783`. -/
def State.particles (s : State F D ω) : List (Particle F D) := (List.range s.n).map s.ps

end OpenMps
