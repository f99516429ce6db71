import Verif.Model.Double
import Verif.Model.Text

/-! # `double` in files

`output << double` (`/repo/src/OpenMps/Main.cpp:51-59`) and `std::stod` (`/repo/src/OpenMps/stov.hpp:45-49`) for all bit patterns: negative zero, infinities and NaN, correct
rounding of what is read, and the range errors that make `std::stod` throw.

Behaviour of glibc and libstdc++.  Simplifications: hexadecimal texts (`0x1p3`), which `std::stod` accepts too, are not modelled; no white space is skipped (the program has
removed blanks before); the payload of a NaN is not read. -/

namespace OpenMps

namespace Double

/-- `output << x`, `/repo/src/OpenMps/Main.cpp:51-59`. -/
def print (x : Double) : List Char :=
  if x.isNan then (if x.neg then "-nan" else "nan").toList
  else if x.isInf then (if x.neg then "-inf" else "inf").toList
  else if x.code = 0 then (if x.neg then "-0" else "0").toList
  else numChars x.value

/-- Does the text begin with this word (in whatever case)? -/
def beginsWith (w : String) (t : List Char) : Bool := (t.take w.toList.length).map Char.toLower == w.toList

/-- The conversion of a number `v` (`z`: there was a minus sign).  `strtod` reports a range error, upon which `std::stod` throws `std::out_of_range`, if the result is infinite, and
if the number is tiny (would be less than `2^-1022` after rounding to 53 bits with unlimited exponents) and the result is not exact. -/
def fromDecimal (v : ℚ) (z : Bool) : Option Double :=
  let y := round v z
  if y.isInf then none
  else if |v| < 1 / 2 ^ 1022 - 1 / 2 ^ 1076 ∧ y.value ≠ v then none
  else some y

/-- `std::stod`, `/repo/src/OpenMps/stov.hpp:48`; `none`: it throws. -/
def read (t : List Char) : Option Double :=
  let s := readSign t
  if beginsWith "inf" s.2 then some (inf s.1)
  else if beginsWith "nan" s.2 then some (mk' s.1 (infCode + 2 ^ 51))
  else (readDecimal t).bind (fun v => fromDecimal v s.1)

end Double

/-- The conversions of the program. -/
def doublePrinter : Printer Double := ⟨intChars, Double.print⟩

def doubleConv : Conv Double := ⟨stoi, Double.read⟩

end OpenMps
