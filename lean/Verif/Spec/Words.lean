import Verif.Go.Bytes

/-!
# Words and white space, stated without a decoder

`utf8` is the UTF-8 encoding of a code point; white space is Unicode's `White_Space` property.
-/

namespace Bips.Spec
open Bips

/-- The UTF-8 encoding of a code point. -/
def utf8 (c : Nat) : Bytes :=
  if c < 0x80 then [UInt8.ofNat c]
  else if c < 0x800 then [UInt8.ofNat (0xC0 + c / 64), UInt8.ofNat (0x80 + c % 64)]
  else if c < 0x10000 then
    [UInt8.ofNat (0xE0 + c / 4096), UInt8.ofNat (0x80 + c / 64 % 64), UInt8.ofNat (0x80 + c % 64)]
  else
    [UInt8.ofNat (0xF0 + c / 262144), UInt8.ofNat (0x80 + c / 4096 % 64), UInt8.ofNat (0x80 + c / 64 % 64),
      UInt8.ofNat (0x80 + c % 64)]

/-- The code points with Unicode's `White_Space` property. -/
def whiteSpace : List Nat :=
  [0x09, 0x0A, 0x0B, 0x0C, 0x0D, 0x20, 0x85, 0xA0, 0x1680, 0x2000, 0x2001, 0x2002, 0x2003, 0x2004, 0x2005, 0x2006,
    0x2007, 0x2008, 0x2009, 0x200A, 0x2028, 0x2029, 0x202F, 0x205F, 0x3000]

/-- Consists of white space only. -/
def IsWs (s : Bytes) : Prop := ∃ cs : List Nat, (∀ c ∈ cs, c ∈ whiteSpace) ∧ s = cs.flatMap utf8

/-- Contains no white space. -/
def NoWs (w : Bytes) : Prop := ∀ a c b, c ∈ whiteSpace → w ≠ a ++ utf8 c ++ b

/-- A word: not empty, no white space inside. -/
def IsWord (w : Bytes) : Prop := w ≠ [] ∧ NoWs w

/-- `s` consists of the words `ws`, in this order, separated by white space (at least one character between two
words), with optional white space at both ends. -/
inductive Layout : Bytes → List Bytes → Prop
  | nil {s} : IsWs s → Layout s []
  | last {pre w post} : IsWs pre → IsWord w → IsWs post → Layout (pre ++ w ++ post) [w]
  | cons {pre w sep rest ws} : IsWs pre → IsWord w → IsWs sep → sep ≠ [] → Layout rest ws →
      Layout (pre ++ w ++ sep ++ rest) (w :: ws)

end Bips.Spec
