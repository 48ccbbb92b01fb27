import Verif.Go.Strings
import Verif.Data.Words.ChineseSimplified
import Verif.Data.Words.ChineseTraditional
import Verif.Data.Words.Czech
import Verif.Data.Words.English
import Verif.Data.Words.French
import Verif.Data.Words.Italian
import Verif.Data.Words.Japanese
import Verif.Data.Words.Korean
import Verif.Data.Words.Portuguese
import Verif.Data.Words.Spanish

/-!
# bip39/wordlists/*.go

Each file declares a raw string, the exported list made from it, and an `init` that compares the string's CRC-32 with
a constant and panics on a mismatch.
-/

namespace Bips

/-- A file of the package: the raw string and the constant of its `init`. -/
structure WordFile where
  text : Bytes
  checksum : Bytes

/-- `var X = strings.Split(strings.TrimSpace(x), "\n")` (line 22 of each file). -/
def WordFile.list (f : WordFile) : List Bytes := splitByte 10 (trimSpace f.text)

/-- `func init()` (lines 9-18 of each file). -/
def WordFile.init (f : WordFile) : Outcome Unit :=
  if sprintfX (checksumIEEE f.text) ≠ f.checksum then .panic else .ok ()

/-- The raw string with one word per line. -/
def linesOf (codes : List Nat) : Bytes := (codes.map codeWord).flatMap (· ++ [10])

/-- bip39/wordlists/chinese_simplified.go:9-22. -/
def chineseSimplified : WordFile := ⟨linesOf Data.ChineseSimplified.codes, str "e3721bbf"⟩
/-- bip39/wordlists/chinese_traditional.go:9-22. -/
def chineseTraditional : WordFile := ⟨linesOf Data.ChineseTraditional.codes, str "3c20b443"⟩
/-- bip39/wordlists/czech.go:9-22. -/
def czech : WordFile := ⟨linesOf Data.Czech.codes, str "d1b5fda0"⟩
/-- bip39/wordlists/english.go:9-22. -/
def english : WordFile := ⟨linesOf Data.English.codes, str "c1dbd296"⟩
/-- bip39/wordlists/french.go:9-22. -/
def french : WordFile := ⟨linesOf Data.French.codes, str "3e56b216"⟩
/-- bip39/wordlists/italian.go:9-22. -/
def italian : WordFile := ⟨linesOf Data.Italian.codes, str "2fc7d07e"⟩
/-- bip39/wordlists/japanese.go:9-22. -/
def japanese : WordFile := ⟨linesOf Data.Japanese.codes, str "acc1419"⟩
/-- bip39/wordlists/korean.go:9-22. -/
def korean : WordFile := ⟨linesOf Data.Korean.codes, str "4ef461eb"⟩
/-- bip39/wordlists/portuguese.go:9-22. -/
def portuguese : WordFile := ⟨linesOf Data.Portuguese.codes, str "e627a546"⟩
/-- bip39/wordlists/spanish.go:9-22. -/
def spanish : WordFile := ⟨linesOf Data.Spanish.codes, str "266e4f3d"⟩

/-- All files of the package. -/
def wordFiles : List WordFile :=
  [chineseSimplified, chineseTraditional, czech, english, french, italian, japanese, korean, portuguese, spanish]

end Bips
