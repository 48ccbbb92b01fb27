import Verif.Model.Coin
import Verif.Data.Words.Check

/-! Rows of the coin table with texts as numbers, as in `Verif.Data.Words.Macro`. -/

namespace Bips

/-- A row of the table, the texts as numbers. -/
structure CoinCode where
  type : Nat
  pathComponent : Nat
  symbol : Nat
  name : Nat

/-- The number with the UTF-8 bytes of the text as digits. -/
def textCode (s : String) : Nat := s.toUTF8.foldl (fun n b => n * 256 + b.toNat) 0

/-- A row as written in the source. -/
macro "coin! " t:num p:num s:str n:str : term => do
  let sc := Lean.Syntax.mkNumLit (toString (textCode s.getString))
  let nc := Lean.Syntax.mkNumLit (toString (textCode n.getString))
  `(CoinCode.mk $t $p $sc $nc)

/-- The coin of a row. -/
def CoinCode.coin (c : CoinCode) : Coin :=
  ⟨UInt32.ofNat c.type, UInt32.ofNat c.pathComponent, codeWord c.symbol, codeWord c.name⟩

end Bips
