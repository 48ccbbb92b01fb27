import Verif.Data.CoinMacro

/-! Parts of source files, line by line, as numbers, as in `Verif.Data.Words.Macro`. -/

namespace Bips

/-- The lines of a text as the numbers with their bytes as digits. The text ends with a line break. -/
macro "text! " s:str : term => do
  let ls := s.getString.splitToList (· == '\n')
  let ts := ls.dropLast.toArray.map fun l => Lean.Syntax.mkNumLit (toString (textCode l))
  `([$ts,*])

/-- The line of such a number, up to 256 bytes, with the line break. -/
def codeLine (n : Nat) : Bytes := (natBytes 256 n []).map UInt8.ofNat ++ [10]

end Bips
