import Verif.Model.Computer
import Mathlib.Logic.Relation

/-!
# Parallel loops at the level of single memory accesses

`Model/Par.lean` treats an iteration of an `OMP_PARALLEL_FOR` loop as one read phase and one commit phase.
Here the bodies of the parallel loops of `Computer.hpp` are written as programs of single loads and
stores, in the order of the source, and a loop is run by interleaving these accesses arbitrarily.  Any assignment of iterations
to threads and any order inside a thread is such an interleaving.

Simplifications: a vector (`D` doubles) and a row `a_ij[i]` (a `std::vector`) are one memory cell each, so a
conflict on a cell is reported at least as often as on its parts; the members which no parallel loop
writes (`environment`, `grid`, the size of `particles`, the state of the callbacks) are passed to the bodies as constants
(`Ro`); interleavings are sequentially consistent, which C++ guarantees for programs without data race (that is
what `C19_no_data_race` shows).
-/

namespace OpenMps

/-- Memory cells shared by the iterations of a parallel loop: the fields of `particles[i]`, the neighbour table, `du[i]`,
`ecs[i]`, `originalX[i]`, `nWithoutSpp[i]`, `ppe.x(i)`, `ppe.b(i)`, `ppe.a_ij[i]`
(`/repo/src/OpenMps/Computer.hpp:463-537`). -/
inductive Loc where
  | x (i : Nat)
  | u (i : Nat)
  | p (i : Nat)
  | n (i : Nat)
  | ty (i : Nat)
  | nbr (i c : Nat)
  | du (i : Nat)
  | ecs (i : Nat)
  | origX (i : Nat)
  | nNoSpp (i : Nat)
  | px (i : Nat)
  | pb (i : Nat)
  | rows (i : Nat)
deriving DecidableEq, Repr

/-- What a cell contains. -/
abbrev Val (F : Type) (D : Nat) : Loc → Type
  | .x _ => Vec F D
  | .u _ => Vec F D
  | .p _ => F
  | .n _ => F
  | .ty _ => PType
  | .nbr _ _ => Nat
  | .du _ => Vec F D
  | .ecs _ => F
  | .origX _ => Vec F D
  | .nNoSpp _ => F
  | .px _ => F
  | .pb _ => F
  | .rows _ => List (Nat × F)

variable {F : Type} {D : Nat} {ω : Type}

/-- The contents of a cell. -/
def State.get (s : State F D ω) : (l : Loc) → Val F D l
  | .x i => (s.ps i).x
  | .u i => (s.ps i).u
  | .p i => (s.ps i).p
  | .n i => (s.ps i).n
  | .ty i => (s.ps i).ty
  | .nbr i c => s.nbr i c
  | .du i => s.du i
  | .ecs i => s.ecs i
  | .origX i => s.origX i
  | .nNoSpp i => s.nNoSpp i
  | .px i => s.ppe.x i
  | .pb i => s.ppe.b i
  | .rows i => s.ppe.rows i

/-- Overwriting a cell. -/
def State.set (s : State F D ω) : (l : Loc) → Val F D l → State F D ω
  | .x i, v => { s with ps := upd s.ps i { s.ps i with x := v } }
  | .u i, v => { s with ps := upd s.ps i { s.ps i with u := v } }
  | .p i, v => { s with ps := upd s.ps i { s.ps i with p := v } }
  | .n i, v => { s with ps := upd s.ps i { s.ps i with n := v } }
  | .ty i, v => { s with ps := upd s.ps i { s.ps i with ty := v } }
  | .nbr i c, v => { s with nbr := upd s.nbr i (upd (s.nbr i) c v) }
  | .du i, v => { s with du := upd s.du i v }
  | .ecs i, v => { s with ecs := upd s.ecs i v }
  | .origX i, v => { s with origX := upd s.origX i v }
  | .nNoSpp i, v => { s with nNoSpp := upd s.nNoSpp i v }
  | .px i, v => { s with ppe := { s.ppe with x := upd s.ppe.x i v } }
  | .pb i, v => { s with ppe := { s.ppe with b := upd s.ppe.b i v } }
  | .rows i, v => { s with ppe := { s.ppe with rows := upd s.ppe.rows i v } }

/-- A program of single memory accesses; `crash` is undefined behaviour (an index outside its array). -/
inductive Prog (F : Type) (D : Nat) (A : Type) where
  | ret (a : A)
  | load (l : Loc) (k : Val F D l → Prog F D A)
  | store (l : Loc) (v : Val F D l) (k : Prog F D A)
  | crash

/-- Sequencing. -/
def Prog.bind {A B : Type} (f : A → Prog F D B) : Prog F D A → Prog F D B
  | .ret a => f a
  | .load l k => .load l (fun v => (k v).bind f)
  | .store l v k => .store l v (k.bind f)
  | .crash => .crash

instance : Monad (Prog F D) where
  pure := .ret
  bind p f := p.bind f

/-- Load a cell. -/
def rd (l : Loc) : Prog F D (Val F D l) := .load l .ret

/-- Store into a cell. -/
def wr (l : Loc) (v : Val F D l) : Prog F D Unit := .store l v (.ret ())

/-! ## Execution -/

/-- A running loop: the memory, and for every iteration what remains to be done. -/
structure Running (F : Type) (D : Nat) (ω : Type) where
  mem : State F D ω
  rest : Nat → Prog F D Unit

/-- One memory access by one of the `n` iterations. -/
inductive Access (n : Nat) : Running F D ω → Running F D ω → Prop
  | load {c : Running F D ω} {i : Nat} {l : Loc} {k : Val F D l → Prog F D Unit} (hi : i < n)
      (h : c.rest i = .load l k) :
      Access n c ⟨c.mem, upd c.rest i (k (c.mem.get l))⟩
  | store {c : Running F D ω} {i : Nat} {l : Loc} {v : Val F D l} {k : Prog F D Unit} (hi : i < n)
      (h : c.rest i = .store l v k) :
      Access n c ⟨c.mem.set l v, upd c.rest i k⟩
  | crash {c : Running F D ω} {i : Nat} (hi : i < n) (h : c.rest i = .crash) :
      Access n c ⟨{ c.mem with ub := true }, upd c.rest i (.ret ())⟩

/-- Any number of accesses. -/
def Accesses (n : Nat) : Running F D ω → Running F D ω → Prop := Relation.ReflTransGen (Access n)

/-- All iterations are finished (the barrier at the end of the loop). -/
def Running.Finished (n : Nat) (c : Running F D ω) : Prop := ∀ i, i < n → c.rest i = .ret ()

/-- `t` is a possible memory after the parallel loop with the given bodies, started with memory `s`. -/
def ParFor (body : Nat → Prog F D Unit) (s t : State F D ω) : Prop :=
  ∃ c, Accesses s.n ⟨s, body⟩ c ∧ c.Finished s.n ∧ c.mem = t

/-! ## The bodies of the parallel loops -/

/-- What the bodies may use without a load: members no parallel loop writes. -/
structure Ro (F : Type) (D : Nat) (ω : Type) where
  n : Nat
  env : Env F D
  grid : Grid F D
  world : ω

/-- The constants of a state. -/
def State.ro (s : State F D ω) : Ro F D ω := ⟨s.n, s.env, s.grid, s.world⟩

variable [Scalar F]

/-- The fields an interaction function asks for (`FIELDS...`, `/repo/src/OpenMps/Computer.hpp:58-213`). -/
structure Fields where
  x : Bool := false
  u : Bool := false
  p : Bool := false
  n : Bool := false
  ty : Bool := false

/-- `Field::Get(particles, j, getter)`: load the requested fields of particle `j` (others are left at a
default). -/
def fetch (f : Fields) (j : Nat) : Prog F D (Particle F D) := do
  let vx ← if f.x then rd (.x j) else pure 0
  let vu ← if f.u then rd (.u j) else pure 0
  let vp ← if f.p then rd (.p j) else pure 0
  let vn ← if f.n then rd (.n j) else pure 0
  let vt ← if f.ty then rd (.ty j) else pure .dummy
  pure { x := vx, u := vu, p := vp, n := vn, ty := vt }

/-- One round of the loop over the neighbours, `/repo/src/OpenMps/Computer.hpp:645-662`. -/
def pRound {A : Type} [Add A] (ro : Ro F D ω) (i : Nat) (f : Fields) (func : Int → Particle F D → Prog F D A)
    (thisX : Vec F D) (acc : A × Vec F D) (idx : Nat) : Prog F D (A × Vec F D) := do
  let j ← rd (.nbr i (1 + idx))
  if j ≠ i then
    let xj ← rd (.x j)
    let dx := xj - thisX
    let r2 := dot dx dx
    if Scalar.lt r2 (ro.env.re * ro.env.re) then
      let q ← fetch f j
      let v ← func (j : Int) q
      pure (acc.1 + v, acc.2 + smul (W (Scalar.sqrt r2) ro.env.re) dx)
    else pure acc
  else pure acc

/-- The loop over the neighbours. -/
def pRounds {A : Type} [Add A] (ro : Ro F D ω) (i : Nat) (f : Fields) (func : Int → Particle F D → Prog F D A)
    (thisX : Vec F D) : List Nat → A × Vec F D → Prog F D (A × Vec F D)
  | [], acc => pure acc
  | idx :: l, acc => do
    let acc' ← pRound ro i f func thisX acc idx
    pRounds ro i f func thisX l acc'

/-- `AccumulateNeighbor`, `/repo/src/OpenMps/Computer.hpp:618-695`. -/
def pAccumulate {A : Type} [Add A] (cfg : Config) (ro : Ro F D ω) (i : Nat) (zero : A) (f : Fields)
    (func : Int → Particle F D → Prog F D A) : Prog F D A := do
  let n ← rd (.nbr i 0)
  let thisX ← rd (.x i)
  let acc ← pRounds ro i f func thisX (List.range n) (zero, 0)
  if cfg.spp then
    let thisN ← rd (.nNoSpp i)
    let n0 := ro.env.n0
    let dxg := vdiv acc.2 n0
    if Scalar.lt thisN n0 then
      let rg := Scalar.sqrt (dot dxg dxg)
      if Scalar.lt Scalar.epsilon rg then
        let wSpp := n0 - thisN
        let rSpp := ro.env.re / (wSpp + 1)
        let xSpp := thisX - smul (rSpp / rg) dxg
        let u ← rd (.u i)
        let v ← func (-1) { x := xSpp, u := u, p := 0, n := 0, ty := .incompressibleNewton }
        pure (acc.1 + v)
      else pure acc.1
    else pure acc.1
  else pure acc.1

/-- The numbers met by the grid iteration, `/repo/src/OpenMps/Computer.hpp:735-750`: check the number and the room left in the
row, compare, store into the row. Result: the final `idx`. -/
def pVisit (ro : Ro F D ω) (i : Nat) : List Nat → Nat → Prog F D Nat
  | [], idx => pure idx
  | j :: l, idx =>
    if ro.n ≤ j then .crash
    else if j = i then pVisit ro i l idx
    else do
      let t ← rd (.ty j)
      if t = .disabled then pVisit ro i l idx
      else
        let xi ← rd (.x i)
        let xj ← rd (.x j)
        if Scalar.lt (dist xi xj) ro.env.neighborLength then
          if ro.grid.cap * lastNeighbor D ≤ idx then .crash
          else
            wr (.nbr i (1 + idx)) j
            pVisit ro i l (idx + 1)
        else pVisit ro i l idx

/-- Body of the second loop of `SearchNeighbor`, `/repo/src/OpenMps/Computer.hpp:728-754`. -/
def rowBody (ro : Ro F D ω) (i : Nat) : Prog F D Unit := do
  let t ← rd (.ty i)
  if t = .disabled then pure ()
  else
    let xi ← rd (.x i)
    match ro.grid.visit xi with
    | .done l =>
      let idx ← pVisit ro i l 0
      wr (.nbr i 0) idx
    | _ => .crash

/-- Body of `ComputeNeighborDensities`, `/repo/src/OpenMps/Computer.hpp:797-831`. -/
def densBody (cfg : Config) (ro : Ro F D ω) (i : Nat) : Prog F D Unit := do
  if cfg.spp then wr (.nNoSpp i) ro.env.n0 else pure ()
  let t ← rd (.ty i)
  if t.active then
    let thisN ← pAccumulate cfg ro i (0 : F) { x := true } (fun j q => do
      if cfg.spp && decide (j < 0) then pure 0
      else
        let thisX ← rd (.x i)
        pure (W (dist thisX q.x) ro.env.re))
    if cfg.spp then
      wr (.nNoSpp i) thisN
      wr (.n i) (stdMax thisN ro.env.n0)
    else wr (.n i) thisN
  else pure ()

/-- `NeighborDensityVariationSpeed`, `/repo/src/OpenMps/Computer.hpp:838-872`. -/
def pSpeed (cfg : Config) (ro : Ro F D ω) (i : Nat) : Prog F D F :=
  if cfg.hs then do
    let low ← if cfg.spp then (do let thisN ← rd (.nNoSpp i); pure (Scalar.lt thisN ro.env.n0)) else pure false
    if low then pure 0
    else
      let a ← pAccumulate cfg ro i (0 : F) { x := true, u := true } (fun _ q => do
        let thisX ← rd (.x i)
        let thisU ← rd (.u i)
        let dx := q.x - thisX
        let du := q.u - thisU
        let r := norm2 dx
        pure (dot dx du / (r * r * r)))
      pure (-ro.env.re * a)
  else do
    let thisN ← rd (.n i)
    pure ((thisN - ro.env.n0) / ro.env.dt)

/-- Body of `ComputeErrorCorrection`, `/repo/src/OpenMps/Computer.hpp:893-908`. -/
def ecsBody (cfg : Config) (ro : Ro F D ω) (i : Nat) : Prog F D Unit := do
  let t ← rd (.ty i)
  if t.active then
    let thisN ← rd (.n i)
    let speed ← pSpeed cfg ro i
    let error := (thisN - ro.env.n0) / ro.env.n0
    wr (.ecs i) (Scalar.abs error * speed + Scalar.abs speed * error)
  else pure ()

/-- Body of the first loop of `ComputeExplicitForces`, `/repo/src/OpenMps/Computer.hpp:944-990`: `a[i] = vis`, then
`a[i] += ...`. -/
def accelBody (cfg : Config) (ro : Ro F D ω) (i : Nat) : Prog F D Unit := do
  let t ← rd (.ty i)
  if t = .incompressibleNewton then
    let vis ← pAccumulate cfg ro i (0 : Vec F D) { u := true, x := true, ty := true } (fun _ q =>
      if q.ty ≠ .dummy then do
        let thisX ← rd (.x i)
        let thisU ← rd (.u i)
        let r := dist thisX q.x
        if cfg.hl then
          pure (smul (ro.env.nu * Scalar.ofInt ((5 - D : Nat) : Int) * ro.env.re / ro.env.n0 / (r * r * r))
            (q.u - thisU))
        else
          pure (smul (ro.env.nu * Scalar.ofInt 2 * Scalar.ofInt (D : Int) / ro.env.lambda / ro.env.n0
            * W r ro.env.re) (q.u - thisU))
      else pure 0)
    wr (.du i) vis
    if cfg.centralGravity then
      let x ← rd (.x i)
      let r := norm2 x
      let c : Vec F D :=
        if Scalar.lt r (ro.env.l0 * (Scalar.ofInt 1 / Scalar.ofInt 100)) then 0 else vdiv x r
      let g : F := (List.finRange D).foldl (fun z a => if a.val + 1 = D then ro.env.g a else z) 0
      let a ← rd (.du i)
      wr (.du i) (a + smul g c)
    else
      let a ← rd (.du i)
      wr (.du i) (a + ro.env.g)
  else pure ()

/-- Body of the second loop of `ComputeExplicitForces`, `/repo/src/OpenMps/Computer.hpp:1003-1019`: `U += a*dt`, then
`X += U*dt`; for the others `positionWall`. -/
def moveBody (w : Walls F D ω) (ro : Ro F D ω) (i : Nat) : Prog F D Unit := do
  let t ← rd (.ty i)
  if t = .incompressibleNewton then
    let u ← rd (.u i)
    let a ← rd (.du i)
    wr (.u i) (u + vmul a ro.env.dt)
    let x ← rd (.x i)
    let u' ← rd (.u i)
    wr (.x i) (x + vmul u' ro.env.dt)
  else
    let x := w.pos ro.world i ro.env.t ro.env.dt
    let x0 ← rd (.x i)
    let u := vdiv (x - x0) ro.env.dt
    wr (.x i) x
    wr (.u i) u

/-- The test for an identity row, `/repo/src/OpenMps/Computer.hpp:1195-1200, 1246-1251`. -/
def pFixed (cfg : Config) (ro : Ro F D ω) (i : Nat) : Prog F D Bool := do
  let t ← rd (.ty i)
  if t = .dummy ∨ t = .disabled then pure true
  else if cfg.spp then pure false
  else
    let n ← rd (.n i)
    pure (Scalar.lt (n / ro.env.n0) ro.env.surfaceRatio)

/-- Body of the first loop of `SetPressurePoissonEquation`, `/repo/src/OpenMps/Computer.hpp:1192-1221`. -/
def rhsBody (cfg : Config) (ro : Ro F D ω) (i : Nat) : Prog F D Unit := do
  let fixed ← pFixed cfg ro i
  if fixed then
    wr (.pb i) 0
    wr (.px i) 0
  else
    let speed ← pSpeed cfg ro i
    let k := -ro.env.rho / (ro.env.n0 * ro.env.dt)
    if cfg.ecs then
      let e ← rd (.ecs i)
      wr (.pb i) (k * (speed + e))
    else wr (.pb i) (k * speed)
    let xi ← rd (.p i)
    wr (.px i) xi

/-- `a_i.emplace_back(j, v)`. -/
def pPush (i : Nat) (e : Nat × F) : Prog F D Unit := do
  let l ← rd (.rows i)
  wr (.rows i) (l ++ [e])

/-- Body of the second loop of `SetPressurePoissonEquation`, `/repo/src/OpenMps/Computer.hpp:1239-1327`. -/
def matBody (cfg : Config) (ro : Ro F D ω) (i : Nat) : Prog F D Unit := do
  wr (.rows i) []
  let fixed ← pFixed cfg ro i
  if fixed then pPush i (i, 1)
  else
    let aii ← pAccumulate cfg ro i (0 : F) { n := !cfg.spp, x := true, ty := true } (fun j q =>
      if q.ty ≠ .dummy then do
        let thisX ← rd (.x i)
        let r := dist thisX q.x
        let aij : F :=
          if cfg.hl then Scalar.ofInt ((5 - D : Nat) : Int) * ro.env.re / ro.env.n0 / (r * r * r)
          else (Scalar.ofInt ((2 * D : Nat) : Int) / ro.env.lambda / ro.env.n0) * W r ro.env.re
        let off : Bool :=
          if cfg.spp then decide (0 ≤ j) else !Scalar.lt (q.n / ro.env.n0) ro.env.surfaceRatio
        if off then pPush i (j.toNat, aij) else pure ()
        pure (-aij)
      else pure 0)
    pPush i (i, aii)

/-- Body of the pressure assignment, `/repo/src/OpenMps/Computer.hpp:1083-1096`. -/
def presBody (cfg : Config) (ro : Ro F D ω) (i : Nat) : Prog F D Unit := do
  let t ← rd (.ty i)
  if t.active then
    let p ← rd (.px i)
    if Scalar.lt p 0 then wr (.p i) 0
    else if cfg.spp then wr (.p i) p
    else
      let n ← rd (.n i)
      wr (.p i) (if Scalar.lt (n / ro.env.n0) ro.env.surfaceRatio then 0 else p)
  else pure ()

/-- Body of the explicit pressure loop, `/repo/src/OpenMps/Computer.hpp:1054-1067`. -/
def eosBody (ro : Ro F D ω) (i : Nat) : Prog F D Unit := do
  let n ← rd (.n i)
  let rho := ro.env.rho / ro.env.n0 * n
  wr (.p i) (if Scalar.le rho ro.env.rho then 0 else ro.env.c * ro.env.c * (rho - ro.env.rho))

/-- Body of the first loop of `ModifyByPressureGradient`, `/repo/src/OpenMps/Computer.hpp:1444-1541`. -/
def gradBody (cfg : Config) (ro : Ro F D ω) (i : Nat) : Prog F D Unit := do
  let t ← rd (.ty i)
  if t = .incompressibleNewton then
    if cfg.gc then
      let invC ← pAccumulate cfg ro i (0 : Mat F D) { x := true } (fun _ q => do
        let thisX ← rd (.x i)
        let dx := q.x - thisX
        let r2 := dot dx dx
        pure (msmul (W (dist q.x thisX) ro.env.re / r2) (outer dx dx)))
      let C := invertMatrix invC (Scalar.ofInt (D : Int) / ro.env.n0)
      let n ← rd (.n i)
      let a ← pAccumulate cfg ro i (0 : Vec F D) { p := true, x := true, ty := true } (fun _ q =>
        if q.ty ≠ .dummy then do
          let thisP ← rd (.p i)
          let pij := if cfg.midpoint then q.p + thisP else q.p - thisP
          let thisX ← rd (.x i)
          let dx := q.x - thisX
          let r2 := dot dx dx
          pure (smul (pij / r2 * W (dist q.x thisX) ro.env.re) (matVec C dx))
        else pure 0)
      wr (.du i) (smul (-ro.env.dt * n / (ro.env.rho * ro.env.n0)) a)
    else
      let a ← pAccumulate cfg ro i (0 : Vec F D) { p := true, x := true, ty := true } (fun _ q =>
        if q.ty ≠ .dummy then do
          let thisP ← rd (.p i)
          let thisX ← rd (.x i)
          let dx := q.x - thisX
          let r2 := dot dx dx
          pure (smul ((q.p + thisP) / r2 * W (Scalar.sqrt r2) ro.env.re) dx)
        else pure 0)
      wr (.du i) (smul (-ro.env.dt / ro.env.rho * Scalar.ofInt (D : Int) / ro.env.n0) a)
  else pure ()

/-- Body of the second loops of `ModifyByPressureGradient` and `DynamicStabilize`,
`/repo/src/OpenMps/Computer.hpp:1551-1563, 1645-1655`. -/
def pushBody (ro : Ro F D ω) (i : Nat) : Prog F D Unit := do
  let t ← rd (.ty i)
  if t = .incompressibleNewton then
    let d ← rd (.du i)
    let u ← rd (.u i)
    wr (.u i) (u + d)
    let x ← rd (.x i)
    wr (.x i) (x + vmul d ro.env.dt)
  else pure ()

/-- Body of the first loop of `DynamicStabilize`, `/repo/src/OpenMps/Computer.hpp:1583-1634`. -/
def dsBody (cfg : Config) (ro : Ro F D ω) (i : Nat) : Prog F D Unit := do
  let t ← rd (.ty i)
  if t = .incompressibleNewton then
    let d := ro.env.l0 - ro.env.maxDx
    let d2 := d * d
    let a ← pAccumulate cfg ro i (0 : Vec F D) { x := true, ty := true } (fun j q =>
      if q.ty ≠ .dummy ∧ (cfg.spp = false ∨ 0 ≤ j) then do
        let thisX ← rd (.x i)
        let dx := q.x - thisX
        let r2 := dot dx dx
        if Scalar.lt r2 d2 then
          let xx0 ← rd (.origX j.toNat)
          let x0 ← rd (.origX i)
          let dx0 := xx0 - x0
          let e := vdiv dx0 (norm2 dx0)
          let rPar := dot dx e
          let dxPerp := dx - smul rPar e
          let rPerp2 := dot dxPerp dxPerp
          pure (smul (Scalar.sqrt (d2 - rPerp2) - rPar) e)
        else pure 0
      else pure 0)
    wr (.du i) (smul (-(1 : F) / (Scalar.ofInt 2 * ro.env.dt * ro.env.n0)) a)
  else pure ()

/-! ## A whole step -/

/-- `SearchNeighbor` with the accesses of its parallel loop interleaved arbitrarily. -/
def SearchRuns (s : State F D ω) (r : Res (State F D ω)) : Prop :=
  match s.grid.clear? with
  | none => r = .ub
  | some g =>
    match State.storeAll (List.range s.n) { s with grid := g } with
    | .ub => r = .ub
    | .exn e t => r = .exn e t
    | .ok t => ∃ t', ParFor (rowBody t.ro) t t' ∧ r = if t'.ub then .ub else .ok t'

/-- `ComputeImplicitForces` up to the pressures. -/
def PressureRuns (P : Params F D ω) (s : State F D ω) (r : Res (State F D ω)) : Prop :=
  if P.cfg.explicit then ∃ t, ParFor (eosBody s.ro) s t ∧ r = .ok t
  else ∃ t1 t2, ParFor (rhsBody P.cfg s.ro) { s with ppe := { s.ppe with size := s.n } } t1 ∧
    ParFor (matBody P.cfg t1.ro) t1 t2 ∧
    match State.solvePpe P.eps { t2 with ppe := { t2.ppe with A := assemble t2.n t2.ppe.rows } } with
    | .ub => r = .ub
    | .exn e t => r = .exn e t
    | .ok t3 => ∃ t4, ParFor (presBody P.cfg t3.ro) t3 t4 ∧ r = .ok t4

/-- `ForwardTime(dt)`, `/repo/src/OpenMps/Computer.hpp:1700-1742`, with the memory accesses of every parallel loop interleaved
arbitrarily: `r` is a possible outcome. -/
def StepRuns (P : Params F D ω) (dt : F) (s : State F D ω) (r : Res (State F D ω)) : Prop :=
  ∃ r1, SearchRuns { s with env := { s.env with dt := dt }.setNextT } r1 ∧
    match r1 with
    | .ub => r = .ub
    | .exn e t => r = .exn e t
    | .ok s1 => ∃ s2 s3 s4 s5 s6,
        ParFor (densBody P.cfg s1.ro) s1 s2 ∧
        (if P.cfg.ecs then ParFor (ecsBody P.cfg s2.ro) s2 s3 else s3 = s2) ∧
        ParFor (accelBody P.cfg s3.ro) s3 s4 ∧
        (let s4' := { s4 with world := P.walls.pre s4.world s4.env.t s4.env.dt }
         ParFor (moveBody P.walls s4'.ro) s4' s5) ∧
        ParFor (densBody P.cfg s5.ro) s5 s6 ∧
        ∃ r2, PressureRuns P (s6.saveX P.cfg) r2 ∧
          match r2 with
          | .ub => r = .ub
          | .exn e t => r = .exn e t
          | .ok s7 => ∃ s8 s9,
              ParFor (gradBody P.cfg s7.ro) s7 s8 ∧ ParFor (pushBody s8.ro) s8 s9 ∧
              if P.cfg.ds then
                ∃ s10 s11, ParFor (dsBody P.cfg s9.ro) s9 s10 ∧ ParFor (pushBody s10.ro) s10 s11 ∧ r = .ok s11
              else r = .ok s9

end OpenMps
