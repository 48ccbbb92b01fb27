import Verif.Spec.Address

/-!
# Specification: the table of SLIP-0132

The rows of the document have columns of fixed width, filled up with blanks on the right.
-/

namespace Bips.Spec

/-- A row of the table. -/
structure SlipRow where
  coin : Bytes
  pubFlag : UInt32
  pubPrefix : Bytes
  prvFlag : UInt32
  prvPrefix : Bytes
  encoding : Bytes
  path : Bytes

/-- The text can stand in a column of that width: it fits and does not end with a blank. -/
def FitsColumn (w : Nat) (s : Bytes) : Prop := s.length ≤ w ∧ s.getLast? ≠ some 32

/-- A column of that width. -/
def column (w : Nat) (s : Bytes) : Bytes := s ++ List.replicate (w - s.length) 32

/-- A flag and a prefix as in `` `0x0488b21e` - `xpub`   ``. -/
def flagColumn (flag : UInt32) (pre : Bytes) : Bytes :=
  str "`0x" ++ hex (ser32 flag.toNat) ++ str "` - `" ++ pre ++ str "`  "

/-- The line reads as the row. -/
def ReadsAs (line : Bytes) (r : SlipRow) : Prop :=
  FitsColumn 43 r.coin ∧ r.pubPrefix.length = 4 ∧ r.prvPrefix.length = 4 ∧ FitsColumn 34 r.encoding ∧
  FitsColumn 12 r.path ∧
  line = column 43 r.coin ++ flagColumn r.pubFlag r.pubPrefix ++ flagColumn r.prvFlag r.prvPrefix ++
    column 34 r.encoding ++ column 12 r.path

end Bips.Spec
