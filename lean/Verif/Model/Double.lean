import Verif.Model.Scalar
import Mathlib.Data.Rat.Floor
import Mathlib.Data.Nat.Sqrt
import Mathlib.Algebra.Order.Field.Basic

/-! # The type `double`

IEEE 754 binary64, which is what `double` is on the platforms of the program (all files of `/repo/src/OpenMps` use `double`
throughout), with the default rounding mode (to nearest, ties to even).  Operations are evaluated one by one in this format: no extended
precision, no `-ffast-math` (`/repo/src/OpenMps/Makefile:7` does not set it), no fused multiply-add.  (The Makefile sets `-march=native`, which
allows newer compilers to contract `a * b + c` on machines that have such an instruction; `-ffp-contract=off` excludes this.)

Not modelled: payloads and signs of NaN (one NaN is enough: nothing in the program looks at them), exception flags. -/

namespace OpenMps

/-- The 64 bits: the sign bit, and the exponent field (11 bits) followed by the fraction field (52 bits) read as one number. -/
structure Double where
  neg : Bool
  code : ℕ
  lt : code < 2 ^ 63
deriving DecidableEq

namespace Double

/-- Exponent field 2047, fraction 0: infinity.  Larger codes are NaN. -/
def infCode : ℕ := 2047 * 2 ^ 52

/-- The number with a given code: `fraction * 2^-1074` if the exponent field is 0 or 1 (with the hidden bit in the latter case), twice as much
for each further exponent.  (For `infCode` the formula gives `2^1024`, the number next to the largest one.) -/
def mag (c : ℕ) : ℚ := (c - (c / 2 ^ 52 - 1) * 2 ^ 52 : ℕ) * 2 ^ (c / 2 ^ 52 - 1) / 2 ^ 1074

/-- The number a finite datum stands for. -/
def value (x : Double) : ℚ := if x.neg then -mag x.code else mag x.code

def isFinite (x : Double) : Bool := decide (x.code < infCode)
def isInf (x : Double) : Bool := decide (x.code = infCode)
def isNan (x : Double) : Bool := decide (infCode < x.code)

def mk' (neg : Bool) (c : ℕ) : Double := ⟨neg, c % 2 ^ 63, Nat.mod_lt _ (by norm_num)⟩

def nan : Double := mk' false (infCode + 2 ^ 51)
def inf (neg : Bool) : Double := mk' neg infCode

/-- `n / d` rounded to the nearest integer, ties to even. -/
def nearestEven (n d : ℕ) : ℕ :=
  if 2 * (n % d) < d then n / d else if d < 2 * (n % d) then n / d + 1 else if n / d % 2 = 0 then n / d else n / d + 1

/-- The integral part of the binary logarithm of `n / d`. -/
def log2Div (n d : ℕ) : ℤ :=
  let l : ℤ := (Nat.log2 n : ℤ) - Nat.log2 d
  if d * 2 ^ l.toNat ≤ n * 2 ^ (-l).toNat then l else l - 1

/-- Code of the binary64 number nearest to `n / d`: 53 significant bits, or fewer if the last place would be below `2^-1074`. -/
def roundMag (n d : ℕ) : ℕ :=
  if n = 0 then 0 else
    let e := max (log2Div n d - 52) (-1074)
    min infCode ((e + 1074).toNat * 2 ^ 52 + nearestEven (n * 2 ^ (-e).toNat) (d * 2 ^ e.toNat))

/-- Rounding of an exact result; `z` is the sign of an exact zero. -/
def round (v : ℚ) (z : Bool) : Double := mk' (if v = 0 then z else decide (v < 0)) (roundMag v.num.natAbs v.den)

/-- Square root of `n / d` rounded to the nearest integer, ties to even. -/
def nearestEvenSqrt (n d : ℕ) : ℕ :=
  let m := Nat.sqrt (n / d)
  if 4 * n < (2 * m + 1) ^ 2 * d then m else if (2 * m + 1) ^ 2 * d < 4 * n then m + 1 else if m % 2 = 0 then m else m + 1

/-- Code of the number nearest to the square root of `n / d`. -/
def sqrtMag (n d : ℕ) : ℕ :=
  if n = 0 then 0 else
    let e := max (log2Div n d / 2 - 52) (-1074)
    min infCode ((e + 1074).toNat * 2 ^ 52 + nearestEvenSqrt (n * 4 ^ (-e).toNat) (d * 4 ^ e.toNat))

/-- `-x`. -/
def neg' (x : Double) : Double := ⟨!x.neg, x.code, x.lt⟩

/-- `x + y`. -/
def add (x y : Double) : Double :=
  if x.isNan || y.isNan then nan
  else if x.isInf then (if y.isInf && (x.neg != y.neg) then nan else x)
  else if y.isInf then y
  else round (x.value + y.value) (x.neg && y.neg)

/-- `x * y`. -/
def mul (x y : Double) : Double :=
  if x.isNan || y.isNan then nan
  else if x.isInf then (if y.code = 0 then nan else inf (x.neg != y.neg))
  else if y.isInf then (if x.code = 0 then nan else inf (x.neg != y.neg))
  else round (x.value * y.value) (x.neg != y.neg)

/-- `x / y`. -/
def div (x y : Double) : Double :=
  if x.isNan || y.isNan then nan
  else if x.isInf then (if y.isInf then nan else inf (x.neg != y.neg))
  else if y.isInf then mk' (x.neg != y.neg) 0
  else if y.code = 0 then (if x.code = 0 then nan else inf (x.neg != y.neg))
  else round (x.value / y.value) (x.neg != y.neg)

/-- `std::sqrt(x)`. -/
def sqrt (x : Double) : Double :=
  if x.isNan then nan
  else if x.code = 0 then x
  else if x.neg then nan
  else if x.isInf then x
  else mk' false (sqrtMag x.value.num.natAbs x.value.den)

/-- Position on the number line (`-0` and `0` coincide). -/
def key (x : Double) : ℤ := if x.neg then -x.code else x.code

/-- Conversion of an integral floating-point number to a signed 64-bit integer; undefined if it does not fit
(`static_cast<Index>(std::floor(v))`, `/repo/src/OpenMps/Grid.hpp:85-92`). -/
def toIndex (x : Double) (k : ℤ) : Option ℤ := if x.isFinite && decide (-2 ^ 63 ≤ k) && decide (k < 2 ^ 63) then some k else none

end Double

/-- `double`. -/
instance instScalarDouble : Scalar Double where
  zero := Double.mk' false 0
  one := Double.mk' false (1023 * 2 ^ 52)
  add := Double.add
  sub := fun x y => x.add y.neg'
  mul := Double.mul
  div := Double.div
  neg := Double.neg'
  sqrt := Double.sqrt
  abs := fun x => ⟨false, x.code, x.lt⟩
  lt := fun x y => !x.isNan && !y.isNan && decide (x.key < y.key)
  le := fun x y => !x.isNan && !y.isNan && decide (x.key ≤ y.key)
  eq := fun x y => !x.isNan && !y.isNan && decide (x.key = y.key)
  ofInt := fun k => Double.round k false
  floorIdx := fun x => x.toIndex ⌊x.value⌋
  ceilIdx := fun x => x.toIndex ⌈x.value⌉
  epsilon := Double.mk' false (971 * 2 ^ 52)

end OpenMps
