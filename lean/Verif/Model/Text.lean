import Verif.Model.Csv
import Mathlib.Data.Int.Log
import Mathlib.Data.Rat.Floor

/-! # Numbers in files

How `output << double` and `output << int` (`/repo/src/OpenMps/Main.cpp:49-59`) show numbers, how `std::stod` and `std::stoi`
(`/repo/src/OpenMps/stov.hpp:9-13, 45-49`) read them, and the names of the files (`Main.cpp:34`).  This is behaviour of the C++ library: a stream without
manipulators prints like `printf("%g")`, i.e. with six significant digits, rounded to nearest (ties to even), in fixed notation if the decimal exponent is between
-4 and 5 and in scientific notation otherwise, without trailing zeros.

Simplifications: numbers are elements of an ordered field (the values of finite doubles), so there is no negative zero, infinity or NaN; the exponents
are unbounded; `std::stod` reads decimal texts only (it would also accept hexadecimal ones, `inf` and `nan`) and skips no white space (the program has removed
blanks before); `std::stoi` does not refuse large numbers. -/

namespace OpenMps

/-- The character of a digit. -/
def digitChar (d : Nat) : Char := Char.ofNat (48 + d)

/-- The digits of a natural number, most significant first; `fuel` is at least the number of digits. -/
def natCharsAux : Nat → Nat → List Char
  | 0, _ => []
  | fuel + 1, n => if n < 10 then [digitChar n] else natCharsAux fuel (n / 10) ++ [digitChar (n % 10)]

/-- Decimal text of a natural number. -/
def natChars (n : Nat) : List Char := natCharsAux (n + 1) n

/-- `output << int`, `/repo/src/OpenMps/Main.cpp:49`. -/
def intChars (k : Int) : List Char := if k < 0 then '-' :: natChars k.natAbs else natChars k.natAbs

/-- Zeros in front up to a width. -/
def padZeros (w : Nat) (l : List Char) : List Char := List.replicate (w - l.length) '0' ++ l

/-- `boost::format("result/particles_%05d.csv") % outputCount`, `/repo/src/OpenMps/Main.cpp:34`. -/
def fileName (outputCount : Nat) : List Char := "result/particles_".toList ++ padZeros 5 (natChars outputCount) ++ ".csv".toList

section
variable {K : Type} [Field K] [LinearOrder K] [IsStrictOrderedRing K] [FloorRing K]

/-- Round to nearest, ties to even. -/
def roundEven (x : K) : Int :=
  let f := ⌊x⌋
  if x - f < 1 / 2 then f
  else if x - f = 1 / 2 then (if f % 2 = 0 then f else f + 1)
  else f + 1

/-- `%e` with five decimals: the six digits as one number, and the decimal exponent of the first of them. -/
def sixDigits (v : K) : Nat × Int :=
  let X := Int.log 10 v
  let d := (roundEven (v / (10 : K) ^ (X - 5))).toNat
  if d < 1000000 then (d, X) else (100000, X + 1)

/-- The digits of a number with six digits. -/
def digitList (d : Nat) : List Nat := [d / 100000 % 10, d / 10000 % 10, d / 1000 % 10, d / 100 % 10, d / 10 % 10, d % 10]

/-- Without the zeros at the end. -/
def dropZeros : List Nat → List Nat
  | [] => []
  | d :: ds => match dropZeros ds with
    | [] => if d = 0 then [] else [d]
    | r => d :: r

/-- Decimal point and decimals, if there are any. -/
def fracChars : List Nat → List Char
  | [] => []
  | ds => '.' :: ds.map digitChar

/-- Exponent with sign and at least two digits. -/
def expChars (X : Int) : List Char := (if X < 0 then '-' else '+') :: padZeros 2 (natChars X.natAbs)

/-- `%g` of a positive number with the digits `d` and the exponent `X`. -/
def layout (d : Nat) (X : Int) : List Char :=
  let ds := digitList d
  if X < -4 ∨ 6 ≤ X then
    (ds.take 1).map digitChar ++ fracChars (dropZeros (ds.drop 1)) ++ 'e' :: expChars X
  else if 0 ≤ X then
    (ds.take (X.toNat + 1)).map digitChar ++ fracChars (dropZeros (ds.drop (X.toNat + 1)))
  else
    '0' :: fracChars (List.replicate ((-X).toNat - 1) 0 ++ dropZeros ds)

/-- `output << double`, `/repo/src/OpenMps/Main.cpp:51-59`. -/
def numChars (v : K) : List Char :=
  if v = 0 then ['0']
  else if v < 0 then '-' :: layout (sixDigits (-v)).1 (sixDigits (-v)).2
  else layout (sixDigits v).1 (sixDigits v).2

/-- A sign, if there is one. -/
def readSign : List Char → Bool × List Char
  | '-' :: r => (true, r)
  | '+' :: r => (false, r)
  | r => (false, r)

/-- The digits at the beginning. -/
def spanDigits : List Char → List Nat × List Char
  | [] => ([], [])
  | c :: cs => if 48 ≤ c.toNat ∧ c.toNat ≤ 57 then ((c.toNat - 48) :: (spanDigits cs).1, (spanDigits cs).2) else ([], c :: cs)

/-- The number that digits show. -/
def natOf (ds : List Nat) : Nat := ds.foldl (fun a d => 10 * a + d) 0

/-- Decimals, if there is a point. -/
def readFrac : List Char → List Nat × List Char
  | '.' :: r => spanDigits r
  | r => ([], r)

/-- An exponent, if there is one. -/
def readExp : List Char → Int
  | [] => 0
  | c :: r =>
    if c = 'e' ∨ c = 'E' then
      let s := readSign r
      let ds := (spanDigits s.2).1
      if ds = [] then 0 else if s.1 then -(natOf ds : Int) else natOf ds
    else 0

/-- The number shown at the beginning of a text without sign. -/
def readUnsigned (t : List Char) : Option K :=
  let ip := spanDigits t
  let fp := readFrac ip.2
  if ip.1 ++ fp.1 = [] then none
  else some ((natOf (ip.1 ++ fp.1) : K) * (10 : K) ^ (readExp fp.2 - fp.1.length))

/-- The number shown at the beginning of a text. -/
def readDecimal (t : List Char) : Option K :=
  let s := readSign t
  (readUnsigned s.2).map (fun v => if s.1 then -v else v)

/-- What the conversion to `double` does with a number: the nearest double, and whether it is reported as out of range. -/
structure Strtod (K : Type) where
  rd : K → K
  inRange : K → Bool

/-- `std::stod`, `/repo/src/OpenMps/stov.hpp:48`; it throws if there is no number or the number is out of range. -/
def stod (st : Strtod K) (t : List Char) : Option K := (readDecimal t).bind (fun v => if st.inRange v then some (st.rd v) else none)

/-- `std::stoi`, `/repo/src/OpenMps/stov.hpp:12`. -/
def stoi (t : List Char) : Option Int :=
  let s := readSign t
  let ds := (spanDigits s.2).1
  if ds = [] then none else some (if s.1 then -(natOf ds : Int) else natOf ds)

/-- The conversions of the program. -/
def libPrinter : Printer K := ⟨intChars, numChars⟩

def libConv (st : Strtod K) : Conv K := ⟨stoi, stod st⟩

end

end OpenMps
