import Mathlib.Algebra.Notation.Pi.Basic
import Mathlib.Data.Fin.Tuple.Basic
import Mathlib.Data.Fintype.Basic

/-!
# Scalars and vectors

`double` is modelled by an arbitrary type `F` with the operations the code uses and **no laws**.
Theorems stated for every `Scalar F` therefore hold for IEEE doubles (rounding, Inf, NaN) as well as
for exact reals.
-/

namespace OpenMps

/-- The operations on `double` used by the code.  There are no axioms about them.
* `lt`, `le`, `eq` are the C++ comparisons (for doubles: false as soon as a NaN is involved);
* `floorIdx v`, `ceilIdx v` model `static_cast<Index>(std::floor(v))` and
  `static_cast<Index>(std::ceil(v))` (`/repo/src/OpenMps/Grid.hpp:85-92`); `none` means that the
  conversion is undefined behaviour (NaN, infinity or not representable);
* `ofInt` is the implicit conversion from integer types;
* `epsilon` is `std::numeric_limits<double>::epsilon()`. -/
class Scalar (F : Type) extends Zero F, One F, Add F, Sub F, Mul F, Div F, Neg F where
  sqrt : F → F
  abs : F → F
  lt : F → F → Bool
  le : F → F → Bool
  eq : F → F → Bool
  ofInt : Int → F
  floorIdx : F → Option Int
  ceilIdx : F → Option Int
  epsilon : F

/-- `Vector`, `/repo/src/OpenMps/Vector.hpp:18` (`ublas::c_vector<double, DIM>`);
`+`, `-` and unary `-` act component-wise (`Pi` instances), `0` is `VectorZero`
(`Vector.hpp:74`). -/
abbrev Vec (F : Type) (D : Nat) := Fin D → F

section
variable {F : Type} [Scalar F] {D : Nat}

/-- `c * v` for a scalar `c` (uBLAS). -/
def smul (c : F) (v : Vec F D) : Vec F D := fun a => c * v a

/-- `v * c` for a scalar `c` (uBLAS). -/
def vmul (v : Vec F D) (c : F) : Vec F D := fun a => v a * c

/-- `v / c` for a scalar `c` (uBLAS). -/
def vdiv (v : Vec F D) (c : F) : Vec F D := fun a => v a / c

/-- `ublas::inner_prod(v, w)`: accumulates from 0, left to right. -/
def dot (v w : Vec F D) : F := (List.finRange D).foldl (fun s a => s + v a * w a) 0

/-- `ublas::norm_2(v)`: square root of the sum of the squared absolute values. -/
def norm2 (v : Vec F D) : F :=
  Scalar.sqrt ((List.finRange D).foldl (fun s a => s + Scalar.abs (v a) * Scalar.abs (v a)) 0)

/-- `Computer::R(x1, x2)`, `/repo/src/OpenMps/Computer.hpp:568-572`. -/
def dist (x1 x2 : Vec F D) : F := Scalar.sqrt (dot (x1 - x2) (x1 - x2))

/-- `std::min(a, b)`: returns `b` if `b < a`, else `a`. -/
def stdMin (a b : F) : F := if Scalar.lt b a then b else a

/-- `std::max(a, b)`: returns `b` if `a < b`, else `a`. -/
def stdMax (a b : F) : F := if Scalar.lt a b then b else a

/-- `Particle::W(r, r_e)`, `/repo/src/OpenMps/Particle.hpp:71-75`. -/
def W (r re : F) : F := if Scalar.lt 0 r && Scalar.lt r re then re / r - 1 else 0

end

/-- Pointwise update of an array (arrays are modelled as total functions together with a size kept
elsewhere; index checks are modelled separately). -/
def upd {α : Type} (f : Nat → α) (i : Nat) (v : α) : Nat → α := fun j => if j = i then v else f j

/-- Compile-time options, `/repo/src/OpenMps/defines.hpp`.
`midpoint` is `PRESSURE_GRADIENT_MIDPOINT`; without `gc` the code compiles only with `midpoint`
(`Computer.hpp:1522-1537` uses members that do not exist), so `midpoint` is consulted only when `gc`.
`ARTIFICIAL_COLLISION_FORCE` is not modelled (`Computer.hpp:1104-1134` does not compile). -/
structure Config where
  explicit : Bool
  hs : Bool
  hl : Bool
  ecs : Bool
  gc : Bool
  ds : Bool
  spp : Bool
  midpoint : Bool
  centralGravity : Bool
deriving DecidableEq, Repr

/-- The selection made by `/repo/src/OpenMps/defines.hpp:9-56`. -/
def Config.default : Config :=
  { explicit := false, hs := true, hl := true, ecs := true, gc := false, ds := true, spp := true,
    midpoint := true, centralGravity := false }

end OpenMps
