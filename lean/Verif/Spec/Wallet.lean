import Verif.Spec.Address
import Verif.Spec.Bip39
import Verif.Spec.Path
import Mathlib.Data.Nat.Digits.Defs

/-!
# Specification: a wallet, from the mnemonic to the texts shown

BIP-39 seed, BIP-32 master key and derivation, serialization, Base58Check. Written from the documents; nothing here refers
to the model of the Go code.
-/

namespace Bips.Spec

/-- The Base58 alphabet. -/
def base58Alphabet : Bytes := str "123456789ABCDEFGHJKLMNPQRSTUVWXYZabcdefghijkmnopqrstuvwxyz"

/-- `t` is the Base58 text of `b`: as many leading digits zero (`1`) as leading bytes zero, and the same number in base 58
as `b` in base 256. -/
def IsBase58 (t b : Bytes) : Prop :=
  ∃ ds : List Nat, (∀ d ∈ ds, d < 58) ∧ t = ds.map (fun d => base58Alphabet.getD d 0) ∧
    (ds.takeWhile (· = 0)).length = (b.takeWhile (· = 0)).length ∧
    Nat.ofDigits 58 ds.reverse = Nat.ofDigits 256 (b.reverse.map UInt8.toNat)

/-- Base58Check: four bytes of double SHA-256 appended. -/
def IsBase58Check (sha256 : Bytes → Bytes) (t b : Bytes) : Prop := IsBase58 t (b ++ (sha256 (sha256 b)).take 4)

/-- BIP-39: the seed of a sentence and a passphrase, 2048 rounds of PBKDF2, one block of 64 bytes. -/
def bip39Seed (hmac : Bytes → Bytes → Bytes) (mnemonic passphrase : Bytes) : Bytes :=
  (List.range 64).map (pbkdf2T (hmac mnemonic) (str "mnemonic" ++ passphrase) 2048 1)

/-- An extended private key of BIP-32. -/
structure Node where
  depth : Nat
  fingerPrint : Bytes
  childNumber : Nat
  chainCode : Bytes
  scalar : Nat

/-- BIP-32, master key generation; `none` is "the master key is invalid". -/
def masterNode (hmac : Bytes → Bytes → Bytes) (seed : Bytes) : Option Node :=
  let I := hmac (str "Bitcoin seed") seed
  let m := parse256 (I.take 32)
  if m = 0 ∨ secpN ≤ m then none else some ⟨0, [0, 0, 0, 0], 0, I.drop 32, m⟩

/-- The hash functions of the specification. -/
structure Suite where
  hmac : Bytes → Bytes → Bytes
  sha256 : Bytes → Bytes
  ripemd160 : Bytes → Bytes

/-- A child of a node. The serialization has one byte for the depth, so there is nothing below depth 255. -/
def Node.child (F : Suite) (n : Node) (i : Nat) : Option Node :=
  if n.depth = 255 then none
  else (ckdPriv F.hmac n.scalar n.chainCode i).map fun (k, c) =>
    ⟨n.depth + 1, (hash160 F.sha256 F.ripemd160 (serP (point n.scalar))).take 4, i, c, k⟩

/-- The node below a node along a list of indices. -/
def Node.descend (F : Suite) : Node → List Nat → Option Node
  | n, [] => some n
  | n, i :: is => (n.child F i).bind fun n' => n'.descend F is

/-- The 78 bytes of the extended private key (mainnet). -/
def Node.xprv (n : Node) : Bytes :=
  ser32 0x0488ade4 ++ beBytes 1 n.depth ++ n.fingerPrint ++ ser32 n.childNumber ++ n.chainCode ++ 0 :: ser256 n.scalar

/-- The 78 bytes of the extended public key (mainnet). -/
def Node.xpub (n : Node) : Bytes :=
  ser32 0x0488b21e ++ beBytes 1 n.depth ++ n.fingerPrint ++ ser32 n.childNumber ++ n.chainCode ++ serP (point n.scalar)

/-- A number in decimal, without leading zeros. -/
def decText (n : Nat) : Bytes := if n = 0 then str "0" else (Nat.digits 10 n).reverse.map fun d => UInt8.ofNat (48 + d)

/-- A path as written by the book: `m`, then the numbers with an apostrophe after the hardened ones. -/
def pathText (cs : List Comp) : Bytes :=
  str "m" ++ cs.flatMap fun c => str "/" ++ decText (decValue c.digits) ++ if c.hardened then str "'" else []

/-- What a wallet shows for a node: its path, the extended keys, the private and the public key in hex and the Ethereum
address; the address only where both coordinates of the public point fill 32 bytes (see C50). -/
def Shows (F : Suite) (keccak256 : Bytes → Bytes) (path : Bytes) (n : Node) (labels : List Bytes) : Prop :=
  ∃ xprv xpub addr, labels = [path, xprv, xpub, hex (ser256 n.scalar), hex (serP (point n.scalar)), addr] ∧
    IsBase58Check F.sha256 xprv n.xprv ∧ IsBase58Check F.sha256 xpub n.xpub ∧
    (256 ^ 31 ≤ (coords (point n.scalar)).1 → 256 ^ 31 ≤ (coords (point n.scalar)).2 →
      addr = ethAddress keccak256 (point n.scalar))

end Bips.Spec
