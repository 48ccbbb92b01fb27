import Verif.Spec.Bip39

/-! # Sentences whose words are of several lists -/

namespace Bips.Spec
open Bips

/-- `ws` is a sentence for the entropy `e` where `M w i` says that the word `w` may be at position `i`: each word has such a position, and the 11-bit groups of
the positions make up the bits of `e` with checksum. -/
def EncodesAt (sha256 : Bytes → Bytes) (M : Bytes → Nat → Prop) (e : Bytes) (ws : List Bytes) : Prop :=
  ∃ idx : List Nat, idx.length = ws.length ∧ (∀ i ∈ idx, i < 2048) ∧
    (∀ (k i : Nat) (w : Bytes), idx[k]? = some i → ws[k]? = some w → M w i) ∧ idx.flatMap (bitsN 11) = mnemonicBits sha256 e

/-- The word is at this position in one of the lists. -/
def Stands (A : List Bytes → Prop) (w : Bytes) (i : Nat) : Prop := ∃ l, A l ∧ l[i]? = some w

/-- `ws` is a sentence for the entropy `e` with words of any of the lists in `A`. -/
def EncodesAmong (sha256 : Bytes → Bytes) (A : List Bytes → Prop) (e : Bytes) (ws : List Bytes) : Prop := EncodesAt sha256 (Stands A) e ws

end Bips.Spec
