import Verif.Model.Computer

/-!
# The build without OpenMP

Without `_OPENMP` the macro `OMP_PARALLEL_FOR` is empty (`/repo/src/OpenMps/Computer.hpp:49-51`), so the loops are plain `for` loops;
`Grid::Store` increments without `atomic capture` (`/repo/src/OpenMps/Grid.hpp:300-308`); the buffer `ppe.a_ij` does not exist
(`Computer.hpp:530-535, 1176-1182`) and `SetPressurePoissonEquation` writes each coefficient directly into the matrix while it visits the
neighbours (`Computer.hpp:1229-1327`, the `#else` branches); the transfer loop of lines 1330-1350 does not exist.

The state type is that of the OpenMP build; its field `ppe.rows` (the buffer `a_ij`) is neither read nor written here.
-/

namespace OpenMps

variable {F : Type} [Scalar F] {D : Nat} {ω : Type}

/-- `for (i = 0; i < n; i++)` whose body reads (`compute`) and then stores (`commit`). -/
def forLoop {S R : Type} (compute : S → Nat → R) (commit : Nat → R → S → S) (n : Nat) (s : S) : S :=
  (List.range n).foldl (fun s i => commit i (compute s i) s) s

/-- `AccumulateNeighbor`, `/repo/src/OpenMps/Computer.hpp:618-695`, with a `func` that also changes a captured object of type `M`
(the lambda of lines 1264-1320 captures the matrix by reference).  Same loop as `State.accumulate`, but the calls of `func` are
executed for their effect, in order: neighbours first, the SPP particle last. -/
def State.accumulateFx {A M : Type} [Add A] (cfg : Config) (s : State F D ω) (i : Nat) (zero : A) (m : M)
    (func : Int → Particle F D → M → A × M) : A × M :=
  let re := s.env.re
  let thisX := (s.ps i).x
  let r := (s.neighbors i).foldl (fun (acc : (A × Vec F D) × M) j =>
    if j ≠ i then
      let dx := (s.ps j).x - thisX
      let r2 := dot dx dx
      if Scalar.lt r2 (re * re) then
        let f := func (j : Int) (s.ps j) acc.2
        ((acc.1.1 + f.1, acc.1.2 + smul (W (Scalar.sqrt r2) re) dx), f.2)
      else acc
    else acc) ((zero, 0), m)
  if cfg.spp then
    match s.sppParticle i r.1.2 with
    | some q =>
      let f := func (-1) q r.2
      (r.1.1 + f.1, f.2)
    | none => (r.1.1, r.2)
  else (r.1.1, r.2)

/-- `A(i, j) = v`. -/
def Sparse.set (A : Sparse F) (i j : Nat) (v : F) : Sparse F := upd A i (upd (A i) j (some v))

/-- The lambda of `/repo/src/OpenMps/Computer.hpp:1264-1320` without OpenMP: returns its contribution to the diagonal and the changed
matrix (line 1310: `A(i, j) = a_ij`). -/
def State.rowFuncSerial (cfg : Config) (s : State F D ω) (i : Nat) (j : Int) (q : Particle F D) (A : Sparse F) : F × Sparse F :=
  if q.ty ≠ .dummy then
    let a := s.coef cfg (dist (s.ps i).x q.x)
    let offDiag : Bool := if cfg.spp then decide (0 ≤ j) else !s.isSurface cfg q.n
    (-a, if offDiag then A.set i j.toNat a else A)
  else (0, A)

/-- Body of the matrix loop, `/repo/src/OpenMps/Computer.hpp:1245-1327` without OpenMP. -/
def State.matRowSerial (cfg : Config) (s : State F D ω) (A : Sparse F) (i : Nat) : Sparse F :=
  if s.fixedRow cfg i then A.set i i 1
  else
    let r := s.accumulateFx cfg i (0 : F) A (s.rowFuncSerial cfg i)
    r.2.set i i r.1

/-- `SetPressurePoissonEquation` without OpenMP, `/repo/src/OpenMps/Computer.hpp:1145-1356`. -/
def State.setPpeSerial (cfg : Config) (s : State F D ω) : State F D ω :=
  let s := { s with ppe := { s.ppe with size := s.n } }
  let s := forLoop (State.rhsCompute cfg) State.rhsCommit s.n s
  { s with ppe := { s.ppe with A := (List.range s.n).foldl (s.matRowSerial cfg) (fun _ _ => none) } }

/-- `SearchNeighbor` without OpenMP, `/repo/src/OpenMps/Computer.hpp:698-756`. -/
def State.searchSerial (s : State F D ω) : Res (State F D ω) :=
  match s.grid.clear? with
  | none => .ub
  | some g =>
    (State.storeAll (List.range s.n) { s with grid := g }).andThen (fun s =>
      let s := forLoop State.rowCompute State.rowCommit s.n s
      if s.ub then .ub else .ok s)

/-- `ComputeNeighborDensities` without OpenMP, `/repo/src/OpenMps/Computer.hpp:780-833`. -/
def State.densitiesSerial (cfg : Config) (s : State F D ω) : State F D ω :=
  forLoop (State.densCompute cfg) (State.densCommit cfg) s.n s

/-- `ComputeErrorCorrection` without OpenMP, `/repo/src/OpenMps/Computer.hpp:877-910`. -/
def State.ecsSerial (cfg : Config) (s : State F D ω) : State F D ω :=
  if cfg.ecs then forLoop (State.ecsCompute cfg) State.ecsCommit s.n s else s

/-- `ComputeExplicitForces` without OpenMP, `/repo/src/OpenMps/Computer.hpp:914-1021`. -/
def State.explicitSerial (P : Params F D ω) (s : State F D ω) : State F D ω :=
  let s := forLoop (State.accelCompute P.cfg) State.duCommit s.n s
  let s := { s with world := P.walls.pre s.world s.env.t s.env.dt }
  forLoop (State.moveCompute P.walls) State.moveCommit s.n s

/-- `ModifyByPressureGradient` without OpenMP, `/repo/src/OpenMps/Computer.hpp:1433-1564`. -/
def State.gradientSerial (cfg : Config) (s : State F D ω) : State F D ω :=
  let s := forLoop (State.gradCompute cfg) State.duCommit s.n s
  forLoop State.pushCompute State.pushCommit s.n s

/-- `ComputeImplicitForces` without OpenMP, `/repo/src/OpenMps/Computer.hpp:1043-1102`. -/
def State.implicitSerial (P : Params F D ω) (s : State F D ω) : Res (State F D ω) :=
  let r : Res (State F D ω) :=
    if P.cfg.explicit then .ok (forLoop State.eosCompute State.presCommit s.n s)
    else
      ((s.setPpeSerial P.cfg).solvePpe P.eps).andThen (fun s =>
        .ok (forLoop (State.presCompute P.cfg) State.presCommit s.n s))
  r.andThen (fun s => .ok (s.gradientSerial P.cfg))

/-- `DynamicStabilize` without OpenMP, `/repo/src/OpenMps/Computer.hpp:1568-1656`. -/
def State.stabilizeSerial (cfg : Config) (s : State F D ω) : State F D ω :=
  if cfg.ds then
    let s := forLoop (State.dsCompute cfg) State.duCommit s.n s
    forLoop State.pushCompute State.pushCommit s.n s
  else s

/-- `ForwardTime(dt)` without OpenMP, `/repo/src/OpenMps/Computer.hpp:1700-1742`. -/
def State.forwardTimeSerial (P : Params F D ω) (dt : F) (s : State F D ω) : Res (State F D ω) :=
  let s := { s with env := { s.env with dt := dt } }
  let s := { s with env := s.env.setNextT }
  s.searchSerial.andThen (fun s =>
    let s := s.densitiesSerial P.cfg
    let s := s.ecsSerial P.cfg
    let s := s.explicitSerial P
    let s := s.densitiesSerial P.cfg
    let s := s.saveX P.cfg
    (s.implicitSerial P).andThen (fun s => .ok (s.stabilizeSerial P.cfg)))

/-- `ForwardTime()` without OpenMP, `/repo/src/OpenMps/Computer.hpp:1745-1751`. -/
def State.forwardTimeAutoSerial (P : Params F D ω) (s : State F D ω) : Res (State F D ω) :=
  match s.determineDt with
  | none => .ub
  | some dt => s.forwardTimeSerial P dt

end OpenMps
