import Verif.Model.Scalar

/-! # Small matrices of the gradient correction (`/repo/src/OpenMps/Computer.hpp:215-431`, `MPS_GC`) -/

namespace OpenMps

/-- `CorrectiveMatrix`, `/repo/src/OpenMps/Computer.hpp:220`. -/
abbrev Mat (F : Type) (D : Nat) := Fin D → Fin D → F

variable {F : Type} [Scalar F] {D : Nat}

/-- `IdentityMatrix(val)`, `/repo/src/OpenMps/Computer.hpp:247-252, 281-287, 303-307`. -/
def identityMatrix (val : F) : Mat F D := fun i j => if i = j then val else Scalar.ofInt 0

/-- `InvertMatrix<2>::Det`, `/repo/src/OpenMps/Computer.hpp:320-326`. -/
def det2 (a b c d : F) : F := a * d - b * c

/-- `InvertMatrix<2>::Get`, `/repo/src/OpenMps/Computer.hpp:328-347`. -/
def invert2 (m : Mat F 2) (val : F) : Mat F 2 :=
  let a := m 0 0; let b := m 0 1
  let c := m 1 0; let d := m 1 1
  let det := det2 a b c d
  if Scalar.eq det 0 then identityMatrix val
  else fun i j =>
    if i = 0 then (if j = 0 then d / det else -b / det)
    else (if j = 0 then -c / det else a / det)

/-- `InvertMatrix<3>::Det`, `/repo/src/OpenMps/Computer.hpp:353-367`. -/
def det3 (a00 a01 a02 a10 a11 a12 a20 a21 a22 : F) : F :=
  a00 * a11 * a22 + a01 * a12 * a20 + a02 * a10 * a21
    - a00 * a12 * a21 - a01 * a10 * a22 - a02 * a11 * a20

/-- `InvertMatrix<3>::Get`, `/repo/src/OpenMps/Computer.hpp:369-421` (unary plus omitted). -/
def invert3 (m : Mat F 3) (val : F) : Mat F 3 :=
  let a00 := m 0 0; let a01 := m 0 1; let a02 := m 0 2
  let a10 := m 1 0; let a11 := m 1 1; let a12 := m 1 2
  let a20 := m 2 0; let a21 := m 2 1; let a22 := m 2 2
  let det := det3 a00 a01 a02 a10 a11 a12 a20 a21 a22
  if Scalar.eq det 0 then identityMatrix val
  else
    let A00 := det2 a11 a12 a21 a22
    let A01 := det2 a10 a12 a20 a22
    let A02 := det2 a10 a11 a20 a21
    let A10 := det2 a01 a02 a21 a22
    let A11 := det2 a00 a02 a20 a22
    let A12 := det2 a00 a01 a20 a21
    let A20 := det2 a01 a02 a11 a12
    let A21 := det2 a00 a02 a10 a12
    let A22 := det2 a00 a01 a10 a11
    fun i j =>
      if i = 0 then (if j = 0 then A00 / det else if j = 1 then -A01 / det else A02 / det)
      else if i = 1 then (if j = 0 then -A10 / det else if j = 1 then A11 / det else -A12 / det)
      else (if j = 0 then A20 / det else if j = 1 then -A21 / det else A22 / det)

/-- `InvertMatrix`, `/repo/src/OpenMps/Computer.hpp:426-429`; only `DIM = 2, 3` exist in the code. -/
def invertMatrix : {D : Nat} → Mat F D → F → Mat F D
  | 2, m, val => invert2 m val
  | 3, m, val => invert3 m val
  | _, m, _ => m

/-- `ublas::prod(C, v)`: rows times vector, accumulated from 0. -/
def matVec (m : Mat F D) (v : Vec F D) : Vec F D :=
  fun i => (List.finRange D).foldl (fun s j => s + m i j * v j) 0

/-- `ublas::outer_prod(v, w)`. -/
def outer (v w : Vec F D) : Mat F D := fun i j => v i * w j

/-- `c * M` for a scalar `c`. -/
def msmul (c : F) (m : Mat F D) : Mat F D := fun i j => c * m i j

end OpenMps
