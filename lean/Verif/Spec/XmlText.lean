import Verif.Spec.Xml
import Verif.Model.XmlText
import Verif.Spec.Benchmark
import Mathlib.Data.Nat.Digits.Defs

/-! # How an XML document may be written

A grammar that does not mention the parser: which texts show which documents.  It is a part of XML 1.0 (no name spaces, no entities declared in the file). -/

namespace OpenMps

/-- White space. -/
def Blank (w : List Char) : Prop := ∀ c ∈ w, c ∈ [' ', '\n', '\r', '\t']

/-- A name: not empty, none of the characters of the syntax. -/
def NameText (n : List Char) : Prop := n ≠ [] ∧ ∀ c ∈ n, c ∉ " \n\r\t/<>=?!&'\"".toList

/-- Ways to write one character. -/
inductive CharText : Char → List Char → Prop
  | self (c : Char) : c ≠ '&' → CharText c [c]
  | amp : CharText '&' "&amp;".toList
  | apos : CharText '\'' "&apos;".toList
  | quot : CharText '"' "&quot;".toList
  | gt : CharText '>' "&gt;".toList
  | lt : CharText '<' "&lt;".toList
  | decimal (c : Char) (ds : List Nat) : ds ≠ [] → (∀ d ∈ ds, d < 10) → Nat.ofDigits 10 ds.reverse = c.toNat →
      CharText c ("&#".toList ++ ds.map Nat.digitChar ++ [';'])
  | hexadecimal (c : Char) (ds : List Nat) : ds ≠ [] → (∀ d ∈ ds, d < 16) → Nat.ofDigits 16 ds.reverse = c.toNat →
      CharText c ("&#x".toList ++ ds.map Nat.digitChar ++ [';'])

/-- Ways to write characters without the character `q`. -/
inductive EncText (q : Char) : List Char → List Char → Prop
  | nil : EncText q [] []
  | cons {c : Char} {t s r : List Char} : CharText c t → q ∉ t → EncText q s r → EncText q (c :: s) (t ++ r)

/-- Ways to write attributes. -/
inductive AttrsText : List (String × List Char) → List Char → Prop
  | nil : AttrsText [] []
  | cons {w n w1 w2 v t r : List Char} {q : Char} {as : List (String × List Char)} : w ≠ [] → Blank w → NameText n → Blank w1 → Blank w2 →
      q = '"' ∨ q = '\'' → EncText q v t → AttrsText as r →
      AttrsText ((String.ofList n, v) :: as) (w ++ n ++ w1 ++ ['='] ++ w2 ++ [q] ++ t ++ [q] ++ r)

/-- Ways to write nodes one after the other.  `b = true`: white space or a text may come first; `b = false`: nothing at all, or a tag comes first.  `E n m`: the
end tag `</m>` may close `<n>`. -/
inductive Writes (E : List Char → List Char → Prop) : (b : Bool) → List XNode → List Char → Prop
  | nil : Writes E false [] []
  | blank {w r : List Char} {xs : List XNode} : Blank w → Writes E false xs r → Writes E true xs (w ++ r)
  | text {s t r : List Char} {xs : List XNode} : EncText '<' s t → ¬ Blank t → Writes E false xs r → Writes E true (.text s :: xs) (t ++ r)
  | comment {s r : List Char} {xs : List XNode} : ¬ "-->".toList <:+: s → Writes E true xs r →
      Writes E false (.comment s :: xs) ("<!--".toList ++ s ++ "-->".toList ++ r)
  | cdata {s r : List Char} {xs : List XNode} : ¬ "]]>".toList <:+: s → Writes E true xs r →
      Writes E false (.text s :: xs) ("<![CDATA[".toList ++ s ++ "]]>".toList ++ r)
  | instruction {s r : List Char} {xs : List XNode} : ¬ "?>".toList <:+: s → Writes E true xs r → Writes E false xs ("<?".toList ++ s ++ "?>".toList ++ r)
  | doctype {s r : List Char} {xs : List XNode} : (∀ c ∈ s, c ∉ ['[', ']', '>']) → Writes E true xs r →
      Writes E false xs ("<!DOCTYPE ".toList ++ s ++ ">".toList ++ r)
  | empty {n t w r : List Char} {as : List (String × List Char)} {xs : List XNode} : NameText n → AttrsText as t → Blank w → Writes E true xs r →
      Writes E false (.elem (String.ofList n) as [] :: xs) ("<".toList ++ n ++ t ++ w ++ "/>".toList ++ r)
  | elem {n m t w w' b r : List Char} {as : List (String × List Char)} {body xs : List XNode} : NameText n → AttrsText as t → Blank w →
      Writes E true body b → E n m → Blank w' → Writes E true xs r →
      Writes E false (.elem (String.ofList n) as body :: xs)
        ("<".toList ++ n ++ t ++ w ++ ">".toList ++ b ++ "</".toList ++ m ++ w' ++ ">".toList ++ r)

/-- The node is a text. -/
def XNode.isText : XNode → Prop
  | .text _ => True
  | _ => False

/-- `file` is the document `doc` as XML.  There is no text outside of the elements; the character 0 does not occur. -/
def XmlFile (doc : List XNode) (file : List Char) : Prop :=
  Writes (fun n m => m = n) true doc file ∧ (∀ x ∈ doc, ¬ x.isText) ∧ '\x00' ∉ file

/-- The same, except that the names in the end tags may be anything. -/
def SloppyXmlFile (doc : List XNode) (file : List Char) : Prop :=
  Writes (fun _ m => ∀ c ∈ m, c ∉ " \n\r\t/>?".toList) true doc file ∧ (∀ x ∈ doc, ¬ x.isText) ∧ '\x00' ∉ file

/-- The input file of the program is this text. -/
def StartedText (shell : Int) (args : List String) (files : String → Option (List Char)) (text : List Char) : Prop :=
  0 ≤ shell ∧ ∃ name, inputFile args = some name ∧ files name = some text

mutual
/-- Names are names, comments can be written, and every element contains either one text that is not blank or elements and comments. -/
def XNode.plain : XNode → Prop
  | .text _ => False
  | .comment s => ¬ "-->".toList <:+: s
  | .elem n as body => NameText n.toList ∧ (∀ p ∈ as, NameText p.1.toList) ∧ ((∃ s, body = [.text s] ∧ ¬ Blank s) ∨ plainAll body)

def plainAll : List XNode → Prop
  | [] => True
  | x :: xs => x.plain ∧ plainAll xs
end

/-! ## Numbers in attributes -/

/-- White space of the C library. -/
def Spaces (w : List Char) : Prop := ∀ c ∈ w, c ∈ [' ', '\n', '\r', '\t', '\x0b', '\x0c']

/-- No sign, `-` or `+`. -/
def signText : Option Bool → List Char
  | none => []
  | some true => ['-']
  | some false => ['+']

/-- Digits of a number, most significant first. -/
def IsDigits (l : List Nat) : Prop := ∀ d ∈ l, d < 10

/-- The exponent: capital letter, sign, digits. -/
def exponentPart : Option (Bool × Option Bool × List Nat) → List Char
  | none => []
  | some (cap, sg, l) => (if cap then 'E' else 'e') :: (signText sg ++ l.map Nat.digitChar)

def exponentValue : Option (Bool × Option Bool × List Nat) → ℤ
  | none => 0
  | some (_, some true, l) => -(Nat.ofDigits 10 l.reverse : ℤ)
  | some (_, _, l) => (Nat.ofDigits 10 l.reverse : ℤ)

/-- `t` is the number `x` as text: `[+-]ddd[.ddd][e[+-]ddd]`, at least one digit before or after the point. -/
def NumberText {K : Type} [Field K] (t : List Char) (x : K) : Prop :=
  ∃ (sg : Option Bool) (ip fp : List Nat) (pt : Bool) (ex : Option (Bool × Option Bool × List Nat)),
    t = signText sg ++ ip.map Nat.digitChar ++ (if pt then '.' :: fp.map Nat.digitChar else []) ++ exponentPart ex ∧
    IsDigits ip ∧ IsDigits fp ∧ ip ++ fp ≠ [] ∧ (pt = false → fp = []) ∧ (∀ c s l, ex = some (c, s, l) → IsDigits l ∧ l ≠ []) ∧
    x = (if sg = some true then -1 else 1) * ((Nat.ofDigits 10 (ip ++ fp).reverse : ℕ) : K) * (10 : K) ^ (exponentValue ex - fp.length)

/-- `t` is a whole number with a sign or without one. -/
def WholeText (t : List Char) (neg : Bool) (n : Nat) : Prop :=
  ∃ (sg : Option Bool) (l : List Nat), t = signText sg ++ l.map Nat.digitChar ∧ IsDigits l ∧ l ≠ [] ∧ n = Nat.ofDigits 10 l.reverse ∧ (neg = true ↔ sg = some true)

end OpenMps
