import Verif.Model.Double

/-! # Contraction of `a * b + c`

`/repo/src/OpenMps/Makefile:7` compiles with `-march=native`, so that on machines with a fused multiply-add instruction the compiler may evaluate
`a * b + c` with a single rounding (GCC's default is `-ffp-contract=fast`).  Which products it fuses is its choice, also from one occurrence of a
subexpression to the next.  `Model/Double.lean` evaluates operation by operation; here an arithmetic expression of the program is a tree, and
`Expr.Eval e r` says that `r` is one of the results the compiled program may compute for it.  Not modelled: reassociation (`-ffast-math` is not set). -/

namespace OpenMps

/-- `fma(x, y, z)` (IEEE 754, 5.4.1 fusedMultiplyAdd): `x * y + z` rounded once. -/
def Double.fma (x y z : Double) : Double :=
  if x.isFinite && y.isFinite then
    if z.isFinite then Double.round (x.value * y.value + z.value) ((x.neg != y.neg) && z.neg) else z
  else (x.mul y).add z

/-- An arithmetic expression whose leaves are numbers in memory. -/
inductive Expr
  | num (x : Double)
  | neg (a : Expr)
  | add (a b : Expr)
  | sub (a b : Expr)
  | mul (a b : Expr)
  | div (a b : Expr)
  | sqrt (a : Expr)

/-- Possible results of an expression. -/
inductive Expr.Eval : Expr → Double → Prop
  | num (x) : Eval (.num x) x
  | neg {a x} : Eval a x → Eval (.neg a) (-x)
  | add {a b x y} : Eval a x → Eval b y → Eval (.add a b) (x + y)
  | sub {a b x y} : Eval a x → Eval b y → Eval (.sub a b) (x - y)
  | mul {a b x y} : Eval a x → Eval b y → Eval (.mul a b) (x * y)
  | div {a b x y} : Eval a x → Eval b y → Eval (.div a b) (x / y)
  | sqrt {a x} : Eval a x → Eval (.sqrt a) (Scalar.sqrt x)
  /-- `a * b + c` -/
  | mulAdd {a b c x y z} : Eval a x → Eval b y → Eval c z → Eval (.add (.mul a b) c) (Double.fma x y z)
  /-- `c + a * b` -/
  | addMul {a b c x y z} : Eval a x → Eval b y → Eval c z → Eval (.add c (.mul a b)) (Double.fma x y z)
  /-- `a * b - c` -/
  | mulSub {a b c x y z} : Eval a x → Eval b y → Eval c z → Eval (.sub (.mul a b) c) (Double.fma x y (-z))
  /-- `c - a * b` -/
  | subMul {a b c x y z} : Eval a x → Eval b y → Eval c z → Eval (.sub c (.mul a b)) (Double.fma (-x) y z)

/-- `ublas::inner_prod(v, w)` (as `dot` in `Model/Scalar.lean`). -/
def Expr.inner (vw : List (Expr × Expr)) : Expr := vw.foldl (fun s p => .add s (.mul p.1 p.2)) (.num 0)

/-- `inner_prod(dx, dx)` with `dx = x - y` (`/repo/src/OpenMps/Computer.hpp:645-646`, `570-571`). -/
def Expr.sqDist {D : Nat} (x y : Vec Double D) : Expr :=
  Expr.inner ((List.finRange D).map fun a => (.sub (.num (x a)) (.num (y a)), .sub (.num (x a)) (.num (y a))))

/-- A component of `x + dt * u` (`/repo/src/OpenMps/Computer.hpp:1009-1010`). -/
def Expr.move (x u dt : Double) : Expr := .add (.num x) (.mul (.num u) (.num dt))

end OpenMps
