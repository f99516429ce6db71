import Verif.Model.Scalar

/-! # Conjugate gradient solver (`/repo/src/OpenMps/Computer.hpp:1359-1429`) -/

namespace OpenMps

variable {F : Type} [Scalar F]

/-- Sparse matrix: `none` = entry not stored. -/
abbrev Sparse (F : Type) := Nat → Nat → Option F

/-- `op::prod(A, v)`: row sums over the stored entries, in column order. -/
def sprod (n : Nat) (A : Sparse F) (v : Nat → F) : Nat → F := fun i =>
  (List.range n).foldl (fun s j => match A i j with | some a => s + a * v j | none => s) 0

/-- `op::inner_prod(v, w)` for vectors of length `n`. -/
def sdot (n : Nat) (v w : Nat → F) : F := (List.range n).foldl (fun s i => s + v i * w i) 0

/-- Variables of the iteration. -/
structure CgState (F : Type) where
  x : Nat → F
  r : Nat → F
  p : Nat → F
  rr : F
  conv : Bool

/-- Initial values, `/repo/src/OpenMps/Computer.hpp:1382-1389`; returns the state and `residual0`. -/
def cgInit (n : Nat) (A : Sparse F) (b x : Nat → F) (eps : F) : CgState F × F :=
  let Ap := sprod n A x
  let r := fun i => b i - Ap i
  let rr := sdot n r r
  let residual0 := rr * eps * eps
  ({ x := x, r := r, p := r, rr := rr, conv := Scalar.eq residual0 0 }, residual0)

/-- Loop body, `/repo/src/OpenMps/Computer.hpp:1400-1420`. -/
def cgStep (n : Nat) (A : Sparse F) (residual0 : F) (s : CgState F) : CgState F :=
  let Ap := sprod n A s.p
  let alpha := s.rr / sdot n s.p Ap
  let x := fun i => s.x i + alpha * s.p i
  let r := fun i => s.r i - alpha * Ap i
  let rrNew := sdot n r r
  let conv := Scalar.lt rrNew residual0
  if conv then { x := x, r := r, p := s.p, rr := s.rr, conv := true }
  else
    let beta := rrNew / s.rr
    { x := x, r := r, p := fun i => r i + beta * s.p i, rr := rrNew, conv := false }

/-- `for (i = 0; (i < n) && (!isConverged); i++)`, `/repo/src/OpenMps/Computer.hpp:1392`;
the first argument is the number of iterations left. -/
def cgLoop (n : Nat) (A : Sparse F) (residual0 : F) : Nat → CgState F → CgState F
  | 0, s => s
  | k + 1, s => if s.conv then s else cgLoop n A residual0 k (cgStep n A residual0 s)

/-- `SolvePressurePoissonEquation`, `/repo/src/OpenMps/Computer.hpp:1359-1429`: the final `x` and
whether the method converged (`false`: the exception of line 1427 is thrown).  The scratch vectors
`r`, `p`, `Ap` of `ppe.cg` are assigned before they are read and are therefore local here. -/
def cgSolve (n : Nat) (A : Sparse F) (b x : Nat → F) (eps : F) : (Nat → F) × Bool :=
  let i := cgInit n A b x eps
  let s := cgLoop n A i.2 n i.1
  (s.x, s.conv)

end OpenMps
