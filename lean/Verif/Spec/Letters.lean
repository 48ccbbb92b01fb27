import Verif.Spec.Nfkd

/-!
# Abbreviated words

Wallets and backup plates keep only the first four letters of each word. A letter is counted as a reader counts it: accents and voiced
sound marks are dropped, and a Korean syllable, written in NFKD as two or three Jamo, is one letter.
-/

namespace Bips.Spec
open Bips

/-- A combining mark: a diacritical mark, or the voiced or semi-voiced sound mark of Kana. -/
def isMark (c : Nat) : Bool := (Nat.ble 0x300 c && Nat.ble c 0x36f) || Nat.beq c 0x3099 || Nat.beq c 0x309a

/-- A vowel or final consonant inside a Hangul syllable. -/
def isInner (c : Nat) : Bool := Nat.ble 0x1161 c && Nat.ble c 0x11ff

/-- The code points of the first `n` letters, without marks. -/
def firstLetters : Nat → List Nat → List Nat
  | _, [] => []
  | 0, c :: cs => bif isMark c then firstLetters 0 cs else bif isInner c then c :: firstLetters 0 cs else []
  | n + 1, c :: cs =>
    bif isMark c then firstLetters (n + 1) cs else bif isInner c then c :: firstLetters (n + 1) cs else c :: firstLetters n cs

/-- Two texts with the same first four letters, up to marks. -/
def SameStart (w w' : Bytes) : Prop :=
  ∃ cs cs', (∀ c ∈ cs, Scalar c) ∧ (∀ c ∈ cs', Scalar c) ∧ w = utf8s cs ∧ w' = utf8s cs' ∧ firstLetters 4 cs = firstLetters 4 cs'

end Bips.Spec
