import Verif.Model.Coin
import Verif.Spec.Words
import Verif.Spec.Path

/-!
# SLIP-44 coins

Registered coin types are below 2³¹; a path uses the hardened index, type + 2³¹ (SLIP-0044, BIP-44).
-/

namespace Bips.Spec
open Bips

/-- A sensible row: it has a label and the path component is the hardened type. -/
structure CoinOk (c : Coin) : Prop where
  label : ¬ (IsWs c.name ∧ IsWs c.symbol)
  type : c.type.toNat < 2 ^ 31
  component : c.pathComponent.toNat = c.type.toNat + 2 ^ 31

/-- `a` has the texts and the path component of `b`. -/
def SameRow (a b : Coin) : Prop := a.pathComponent = b.pathComponent ∧ a.symbol = b.symbol ∧ a.name = b.name

end Bips.Spec

/-! ### The SLIP-0044 document -/

namespace Bips.Spec
open Bips

/-- A text in a column: no bar, no line break, no white space at its ends. -/
structure CellText (s : Bytes) : Prop where
  bar : 124 ∉ s
  newline : 10 ∉ s
  left : ∀ c ∈ whiteSpace, ¬ utf8 c <+: s
  right : ∀ c ∈ whiteSpace, ¬ utf8 c <:+ s

/-- A line: for every column a bar and a blank, the text, and any number of blanks. -/
def mdLine (cells : List (Bytes × Nat)) : Bytes := cells.flatMap fun c => str "| " ++ c.1 ++ List.replicate c.2 32

/-- A file of such lines. -/
def mdFile (rows : List (List (Bytes × Nat))) : Bytes := rows.flatMap fun r => mdLine r ++ [10]

/-- Value of a hexadecimal digit. -/
def hexDigitVal (c : UInt8) : Nat :=
  if 48 ≤ c.toNat ∧ c.toNat ≤ 57 then c.toNat - 48
  else if 97 ≤ c.toNat ∧ c.toNat ≤ 102 then c.toNat - 87
  else c.toNat - 55

/-- `s` is a hexadecimal numeral. -/
def IsHexNumeral (s : Bytes) : Prop := s ≠ [] ∧ ∀ c ∈ s, c ∈ str "0123456789abcdefABCDEF"

/-- Value of a hexadecimal numeral. -/
def hexValue (s : Bytes) : Nat := s.foldl (fun n c => n * 16 + hexDigitVal c) 0

/-- The columns of a row that names a coin: type, path component, symbol and name, the name not `reserved`. -/
def namesCoin (cells : List Bytes) : Bool := cells.length == 4 && cells[3]? != some (str "reserved")

/-- The columns say what the coin says. -/
def RowReads (cells : List Bytes) (c : Coin) : Prop :=
  ∃ t h, cells = [t, str "0x" ++ h, c.symbol, c.name] ∧ IsNumeral t ∧ decValue t = c.type.toNat ∧
    IsHexNumeral h ∧ hexValue h = c.pathComponent.toNat

end Bips.Spec
