import Verif.Data.CoinMacro

/-! Lines of bip44/slip-0044.md with texts as numbers, as in `Verif.Data.Words.Macro`. -/

namespace Bips

/-- A line of the file: for every column the text, as a number, and the number of blanks behind it. -/
abbrev MdLine := List (Nat × Nat)

/-- A cell as written in the file. -/
macro "md! " s:str n:num : term => do
  let sc := Lean.Syntax.mkNumLit (toString (textCode s.getString))
  `((($sc : Nat), ($n : Nat)))

/-- The bytes of a line: every column is a bar, a blank, the text, and blanks. -/
def MdLine.bytes (l : MdLine) : Bytes := l.flatMap fun c => str "| " ++ codeWord c.1 ++ List.replicate c.2 32

end Bips
