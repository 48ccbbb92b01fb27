import Mathlib.Logic.Relation
import Verif.Spec.Bip39
import Verif.Crypto.Hashes

/-!
# BIP-39 seeds with the normalization BIP-39 asks for

BIP-39: "we use the PBKDF2 function with a mnemonic sentence (in UTF-8 NFKD) used as the password and the string
"mnemonic" + passphrase (again in UTF-8 NFKD) used as the salt". NFKD (Unicode Standard, 3.11): replace every code point by its
full compatibility decomposition, then put marks in canonical order by exchanging neighbours. The Unicode Character Database is a
parameter; `Unicode.Known` lists the entries used (Unicode 14, UnicodeData.txt).
-/

namespace Bips.Spec
open Bips

/-- The part of the Unicode Character Database that NFKD needs. -/
structure Unicode where
  /-- full compatibility decomposition -/
  decomp : Nat → List Nat
  /-- canonical combining class -/
  ccc : Nat → Nat

/-- D108/D109: a reorderable pair is exchanged. -/
inductive Unicode.Swap (U : Unicode) : List Nat → List Nat → Prop
  | mk (pre : List Nat) (a b : Nat) (post : List Nat) : U.ccc b < U.ccc a → 0 < U.ccc b →
      Swap U (pre ++ a :: b :: post) (pre ++ b :: a :: post)

/-- `t` is the NFKD form of `s`: decomposed, reordered, and nothing left to reorder. -/
def Unicode.Nfkd (U : Unicode) (s t : List Nat) : Prop :=
  Relation.ReflTransGen U.Swap (s.flatMap U.decomp) t ∧ ∀ t', ¬ U.Swap t t'

/-- The UTF-8 text of code points. -/
def utf8s (cs : List Nat) : Bytes := cs.flatMap utf8

/-- BIP-39, "From mnemonic to seed", for a mnemonic and a passphrase given as code points. -/
def IsSeed (U : Unicode) (H : Hashes) (m p : List Nat) (s : Bytes) : Prop :=
  ∃ m' p', U.Nfkd m m' ∧ U.Nfkd p p' ∧
    s = (List.range 64).map (pbkdf2T (H.hmacSha512 (utf8s m')) (str "mnemonic" ++ utf8s p') 2048 1)

/-- Ranges of starters that decompose to themselves: unified ideographs, Hangul Jamo, ASCII, Hiragana and Katakana without voiced
sound marks. -/
def starters : List (Nat × Nat) :=
  [(0x4e00, 0x9fff), (0x1100, 0x11ff), (0x20, 0x7e), (0x3041, 0x304b), (0x304d, 0x304d), (0x304f, 0x304f), (0x3051, 0x3051), (0x3053, 0x3053),
    (0x3055, 0x3055), (0x3057, 0x3057), (0x3059, 0x3059), (0x305b, 0x305b), (0x305d, 0x305d), (0x305f, 0x305f),
    (0x3061, 0x3061), (0x3063, 0x3064), (0x3066, 0x3066), (0x3068, 0x3068), (0x306a, 0x306f), (0x3072, 0x3072),
    (0x3075, 0x3075), (0x3078, 0x3078), (0x307b, 0x307b), (0x307e, 0x3093), (0x309d, 0x309d), (0x30a0, 0x30ab),
    (0x30ad, 0x30ad), (0x30af, 0x30af), (0x30c8, 0x30c8), (0x30ca, 0x30cf), (0x30de, 0x30f3), (0x30fb, 0x30fd)]

/-- In one of these ranges. -/
def Starter (c : Nat) : Prop := ∃ r ∈ starters, r.1 ≤ c ∧ c ≤ r.2

/-- Combining grave, acute, tilde (class 230); combining voiced and semi-voiced sound mark (class 8). -/
def marks : List Nat := [0x300, 0x301, 0x303, 0x3099, 0x309a]

/-- Some decompositions: ideographic space, é, SQUARE MEETORU, ガ, バ, ヴ, ぱ, ば, ぐ, ゞ, ぢ. -/
def decomps : List (Nat × List Nat) :=
  [(0x3000, [0x20]), (0xe9, [0x65, 0x301]), (0x334d, [0x30e1, 0x30fc, 0x30c8, 0x30eb]), (0x30ac, [0x30ab, 0x3099]),
    (0x30d0, [0x30cf, 0x3099]), (0x30f4, [0x30a6, 0x3099]), (0x3071, [0x306f, 0x309a]), (0x3070, [0x306f, 0x3099]),
    (0x3050, [0x304f, 0x3099]), (0x309e, [0x309d, 0x3099]), (0x3062, [0x3061, 0x3099])]

/-- A Unicode scalar value. -/
def Scalar (c : Nat) : Prop := c < 0x110000 ∧ ¬(0xD800 ≤ c ∧ c ≤ 0xDFFF)

/-- The entries of the database used here, and that decompositions consist of scalar values. -/
structure Unicode.Known (U : Unicode) : Prop where
  starter : ∀ c, Starter c → U.decomp c = [c] ∧ U.ccc c = 0
  mark : ∀ c ∈ marks, U.decomp c = [c] ∧ 0 < U.ccc c
  decomp : ∀ d ∈ decomps, U.decomp d.1 = d.2
  scalar : ∀ c, Scalar c → ∀ d ∈ U.decomp c, Scalar d

end Bips.Spec
