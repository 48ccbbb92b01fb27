import Verif.Data.Words.ChineseSimplified
import Verif.Data.Words.ChineseTraditional
import Verif.Data.Words.Czech
import Verif.Data.Words.English
import Verif.Data.Words.French
import Verif.Data.Words.Italian
import Verif.Data.Words.Japanese
import Verif.Data.Words.Korean
import Verif.Data.Words.Portuguese
import Verif.Data.Words.Spanish

/-!
# The word lists compared with each other

Evaluated by the kernel.
-/

namespace Bips.Data.Cross

/-- The kind of a byte: ASCII, Hangul Jamo, Kana, ideographs. -/
def kind (b : Nat) : Nat :=
  bif Nat.blt b 0x80 then 0 else bif Nat.beq b 0xE1 then 1 else bif Nat.beq b 0xE3 then 2 else bif Nat.ble 0xE4 b then 3 else 4

/-- The kind of the first byte of a word. -/
def kindOf (n : Nat) : Nat :=
  match natBytes 64 n [] with
  | [] => 5
  | b :: _ => kind b

/-- All words of a list begin with a byte of one kind. -/
def allOf (k : Nat) (codes : List Nat) : Bool := codes.all fun n => Nat.beq (kindOf n) k

theorem kindChineseSimplified : allOf 3 ChineseSimplified.codes = true := by decide +kernel
theorem kindChineseTraditional : allOf 3 ChineseTraditional.codes = true := by decide +kernel
theorem kindCzech : allOf 0 Czech.codes = true := by decide +kernel
theorem kindEnglish : allOf 0 English.codes = true := by decide +kernel
theorem kindFrench : allOf 0 French.codes = true := by decide +kernel
theorem kindItalian : allOf 0 Italian.codes = true := by decide +kernel
theorem kindJapanese : allOf 2 Japanese.codes = true := by decide +kernel
theorem kindKorean : allOf 1 Korean.codes = true := by decide +kernel
theorem kindPortuguese : allOf 0 Portuguese.codes = true := by decide +kernel
theorem kindSpanish : allOf 0 Spanish.codes = true := by decide +kernel

/-- The lists in Latin letters, without the French one, have no word in common. -/
theorem latin1 : distinct (Czech.codes ++ (English.codes ++ (Italian.codes ++ (Portuguese.codes ++ Spanish.codes)))) = true := by
  decide +kernel

/-- The lists in Latin letters, without the English one, have no word in common. -/
theorem latin2 : distinct (Czech.codes ++ (French.codes ++ (Italian.codes ++ (Portuguese.codes ++ Spanish.codes)))) = true := by
  decide +kernel

/-- The Chinese lists: the words of one list that differ from the word at the same position of the other are not in the other list. -/
theorem chinese : distinct (((ChineseSimplified.codes.zip ChineseTraditional.codes).filterMap fun p =>
    bif Nat.beq p.1 p.2 then none else some p.1) ++ ChineseTraditional.codes) = true := by decide +kernel

/-- The English and the French list differ at every position. -/
theorem english_french : (English.codes.zip French.codes).all (fun p => !Nat.beq p.1 p.2) = true := by decide +kernel

end Bips.Data.Cross
