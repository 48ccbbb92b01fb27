import Verif.Spec.Words

/-!
# BIP-39, stated on bits

No arithmetic on big numbers: a sentence is right when the 11-bit groups of its words, written one after the
other, are the bits of the entropy followed by the first bits of its SHA-256.
-/

namespace Bips.Spec
open Bips

/-- The `k` low bits of `n`, most significant first. -/
def bitsN (k n : Nat) : List Bool := (List.range k).map fun i => n.testBit (k - 1 - i)

/-- The bits of a byte string. -/
def bits (b : Bytes) : List Bool := b.flatMap fun x => bitsN 8 x.toNat

/-- Entropy bits followed by the checksum: ENT/32 bits of the hash. -/
def mnemonicBits (sha256 : Bytes → Bytes) (e : Bytes) : List Bool :=
  bits e ++ (bits (sha256 e)).take ((bits e).length / 32)

/-- The five entropy sizes, in bytes. -/
def entropySizes : List Nat := [16, 20, 24, 28, 32]

/-- The five sentence lengths. -/
def sentenceLengths : List Nat := [12, 15, 18, 21, 24]

/-- `ws` is the sentence for the entropy `e`: its words are at the positions `idx` in the list, and the 11-bit
groups of the positions make up the bits of `e` with checksum. -/
def Encodes (sha256 : Bytes → Bytes) (list : List Bytes) (e : Bytes) (ws : List Bytes) : Prop :=
  ∃ idx : List Nat, (∀ i ∈ idx, i < 2048) ∧ ws.map some = idx.map (list[·]?) ∧
    idx.flatMap (bitsN 11) = mnemonicBits sha256 e

/-- A usable word list: 2048 distinct words without white space. -/
structure GoodList (list : List Bytes) : Prop where
  length : list.length = 2048
  nodup : list.Nodup
  word : ∀ w ∈ list, IsWord w

/-- RFC 8018, PBKDF2: `U_1 = PRF(S ‖ INT(i))`, `U_{j+1} = PRF(U_j)`. -/
def pbkdf2U (prf : Bytes → Bytes) (salt : Bytes) (i : Nat) : Nat → Bytes
  | 0 => prf (salt ++ beBytes 4 i)
  | j + 1 => prf (pbkdf2U prf salt i j)

/-- RFC 8018, PBKDF2: byte `x` of `T_i = U_1 ⊕ … ⊕ U_c`. -/
def pbkdf2T (prf : Bytes → Bytes) (salt : Bytes) (c i x : Nat) : UInt8 :=
  ((List.range c).map fun j => (pbkdf2U prf salt i j).getD x 0).foldr (· ^^^ ·) 0

end Bips.Spec
