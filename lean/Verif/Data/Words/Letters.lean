import Verif.Spec.Letters
import Verif.Data.Words.ChineseSimplified
import Verif.Data.Words.ChineseTraditional
import Verif.Data.Words.Czech
import Verif.Data.Words.English
import Verif.Data.Words.French
import Verif.Data.Words.Italian
import Verif.Data.Words.Japanese
import Verif.Data.Words.Korean
import Verif.Data.Words.Portuguese
import Verif.Data.Words.Spanish

/-!
# The first four letters of the words: the checks

Evaluated by the kernel.
-/

namespace Bips.Data.Letters
open Spec

/-- The code points of UTF-8 bytes, for code points of at most three bytes. -/
def decode : List Nat → List Nat
  | [] => []
  | x :: r =>
    bif Nat.blt x 0x80 then x :: decode r
    else match r with
      | [] => []
      | y :: r =>
        bif Nat.blt x 0xe0 then (x % 32 * 64 + y % 64) :: decode r
        else match r with
          | [] => []
          | z :: r => (x % 16 * 4096 + y % 64 * 64 + z % 64) :: decode r

/-- A number for a list of code points. -/
def number (cs : List Nat) : Nat := cs.foldl (fun a c => a * 2097152 + c) 0

/-- A number for the first four letters of a word. -/
def start (n : Nat) : Nat := number (firstLetters 4 (decode (natBytes 64 n [])))

theorem chineseSimplified : distinct (ChineseSimplified.codes.map start) = true := by decide +kernel
theorem chineseTraditional : distinct (ChineseTraditional.codes.map start) = true := by decide +kernel
theorem czech : distinct (Czech.codes.map start) = true := by decide +kernel
theorem english : distinct (English.codes.map start) = true := by decide +kernel
theorem french : distinct (French.codes.map start) = true := by decide +kernel
theorem italian : distinct (Italian.codes.map start) = true := by decide +kernel
theorem japanese : distinct (Japanese.codes.map start) = true := by decide +kernel
theorem korean : distinct (Korean.codes.map start) = true := by decide +kernel
theorem portuguese : distinct (Portuguese.codes.map start) = true := by decide +kernel
theorem spanish : distinct (Spanish.codes.map start) = true := by decide +kernel

end Bips.Data.Letters
