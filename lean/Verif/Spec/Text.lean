import Verif.Model.Text
import Verif.Model.Main
import Mathlib.Data.Nat.Digits.Defs

/-! # Specification vocabulary for numbers in files and names of files -/

namespace OpenMps

section
variable {K : Type} [Field K] [LinearOrder K] [IsStrictOrderedRing K]

/-- `x` is a decimal number with (at most) six significant digits. -/
def SixDigitDecimal (x : K) : Prop := ∃ (d : ℤ) (e : ℤ), |d| < 1000000 ∧ x = (d : K) * (10 : K) ^ e

/-- The exponent of a decimal text: sign and digits. -/
def exponentText : Option (Bool × List Nat) → List Char
  | none => []
  | some (eneg, l) => 'e' :: (if eneg then '-' else '+') :: l.map Nat.digitChar

/-- The decimal text `[-]ddd[.ddd][e±ddd]`: sign, digits before the point, digits after the point, sign and digits of the exponent. -/
def decimalText (neg : Bool) (ip fp : List Nat) (ex : Option (Bool × List Nat)) : List Char :=
  (if neg then ['-'] else []) ++ ip.map Nat.digitChar ++ (if fp = [] then [] else '.' :: fp.map Nat.digitChar) ++
    exponentText ex

/-- The exponent in such a text. -/
def exponentOf : Option (Bool × List Nat) → ℤ
  | none => 0
  | some (true, l) => -(Nat.ofDigits 10 l.reverse : ℤ)
  | some (false, l) => (Nat.ofDigits 10 l.reverse : ℤ)

/-- The number that the text `t` shows is `x` (most significant digit first). -/
def Shows (t : List Char) (x : K) : Prop :=
  ∃ (neg : Bool) (ip fp : List Nat) (ex : Option (Bool × List Nat)), t = decimalText neg ip fp ex ∧
    (∀ d ∈ ip, d < 10) ∧ ip ≠ [] ∧ (∀ d ∈ fp, d < 10) ∧ (∀ b l, ex = some (b, l) → (∀ d ∈ l, d < 10) ∧ l ≠ []) ∧
    x = (if neg then -1 else 1) * (Nat.ofDigits 10 (ip ++ fp).reverse : K) *
      (10 : K) ^ (exponentOf ex - fp.length)

/-- `w` differs from `v` by at most the fraction `ε` of `v`. -/
def RelClose (ε v w : K) : Prop := |w - v| ≤ ε * |v|

/-- Same type, all numbers close. -/
structure ParticleClose {D : Nat} (ε : K) (q q' : Particle K D) : Prop where
  ty : q'.ty = q.ty
  x : ∀ a, RelClose ε (q.x a) (q'.x a)
  u : ∀ a, RelClose ε (q.u a) (q'.u a)
  p : RelClose ε q.p q'.p
  n : RelClose ε q.n q'.n

/-- `v` is so far from the limits of the range of `double` that no number near it is out of range. -/
def WellInRange (st : Strtod K) (v : K) : Prop := ∀ x, RelClose (1 / 200000) v x → st.inRange x = true

/-- All numbers of the particle are well in range. -/
def ParticleInRange {D : Nat} (st : Strtod K) (q : Particle K D) : Prop :=
  (∀ a, WellInRange st (q.x a)) ∧ (∀ a, WellInRange st (q.u a)) ∧ WellInRange st q.p ∧ WellInRange st q.n

end

/-- What a file holds after some files were written one after the other: what was written to it last. -/
def contentOf {F : Type} (outs : List (OutRec F)) (name : List Char) : Option (List Char) :=
  ((outs.filter (fun r => fileName r.number == name)).getLast?).map OutRec.text

end OpenMps
