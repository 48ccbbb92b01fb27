import Verif.Go.Bytes

/-!
# Specification: the text of derivation paths

Independent of the regular expression, of `strings.Split` and of `strconv`.
-/

namespace Bips.Spec

/-- A path component as written: its decimal digits and whether an apostrophe follows. -/
structure Comp where
  digits : Bytes
  hardened : Bool
  deriving DecidableEq, Repr

/-- `/digits` or `/digits'`. -/
def Comp.text (c : Comp) : Bytes := str "/" ++ c.digits ++ (if c.hardened then str "'" else [])

/-- The number written. -/
def decValue (digits : Bytes) : Nat := digits.foldl (fun a c => a * 10 + (c.toNat - 48)) 0

/-- Face value of a component: the number, plus 2³¹ when hardened. -/
def Comp.value (c : Comp) : Nat := decValue c.digits + (if c.hardened then 2 ^ 31 else 0)

/-- Non-empty string of ASCII digits. -/
def IsNumeral (d : Bytes) : Prop := d ≠ [] ∧ ∀ c ∈ d, 48 ≤ c.toNat ∧ c.toNat ≤ 57

/-- `s` is `m` or `M` followed by the components `cs`, all hardened ones before all others. -/
def PathText (s : Bytes) (cs : List Comp) : Prop :=
  (s = str "m" ++ cs.flatMap Comp.text ∨ s = str "M" ++ cs.flatMap Comp.text) ∧
  (∀ c ∈ cs, IsNumeral c.digits) ∧
  (∃ j k, cs.map Comp.hardened = List.replicate j true ++ List.replicate k false)

/-- ASCII white space as removed from paths: tab, newline, form feed, carriage return, space. -/
def stripSpace (s : Bytes) : Bytes := s.filter fun c => c ∉ str "\t\n\x0c\r "

/-- Up to eight ASCII digits, possibly none. -/
def Digits8 (d : Bytes) : Prop := (∀ c ∈ d, 48 ≤ c.toNat ∧ c.toNat ≤ 57) ∧ d.length ≤ 8

/-- The two-level text `m/d1'/d2'`. -/
def twoLevel (d1 d2 : Bytes) : Bytes := str "m/" ++ d1 ++ str "'/" ++ d2 ++ str "'"

end Bips.Spec
