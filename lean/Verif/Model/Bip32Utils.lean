import Verif.Model.Secp
import Verif.Model.Err
import Verif.Crypto.Hashes

/-!
# bip32/utils.go
-/

namespace Bips

/-- `hashRipeMD160` (bip32/utils.go:21-28). Writing to a hash never fails, so the error is dropped. -/
def hashRipeMD160 (H : Hashes) (data : Bytes) : Bytes := H.ripemd160 data

/-- `HashRipeMD160onSha256` (bip32/utils.go:31-39); its error is always nil. -/
def hashRipeMD160onSha256 (H : Hashes) (data : Bytes) : Bytes := hashRipeMD160 H (H.sha256 data)

/-- `ChecksumDblSha256` (bip32/utils.go:41-44); its error is always nil.
`chainhash.DoubleHashB` is SHA-256 twice. -/
def checksumDblSha256 (H : Hashes) (data : Bytes) : Bytes := (H.sha256 (H.sha256 data)).take 4

/-- `AddChecksumDblSha256ToBytes` (bip32/utils.go:46-52); its error is always nil. The result value only;
that `append` may write into spare capacity of the argument is not part of this definition. -/
def addChecksumDblSha256ToBytes (H : Hashes) (data : Bytes) : Bytes := data ++ checksumDblSha256 H data

/-- `ValidatePrivateKey` (bip32/utils.go:54-60). `none` is the nil error. -/
def validatePrivateKey (key : Bytes) : Option Err :=
  if hexEncode key = List.replicate 64 48 ∨ bytesCompare key (bigBytes secpN) ≠ .lt then
    some .invalidPrivateKey
  else none

/-- `compressPublicKey` (bip32/utils.go:90-104). -/
def compressPublicKey (q : Nat × Nat) : Bytes :=
  (2 + UInt8.ofNat (q.2 % 2)) :: (List.replicate (33 - 1 - (bigBytes q.1).length) 0 ++ bigBytes q.1)

/-- `publicKeyForPrivateKey` (bip32/utils.go:63-65). -/
def publicKeyForPrivateKey (key : Bytes) : Bytes := compressPublicKey (scalarBaseMult key)

/-- `Y.ModSqrt(a, curveParams.P)` on a fresh `Y = 0` (called at bip32/utils.go:119). `math/big` tests the
Jacobi symbol: for a non-residue it returns nil and leaves `Y` at 0; for a residue and `P ≡ 3 mod 4` it
computes `a^((P+1)/4) mod P`. The Jacobi symbol is modelled by Euler's criterion. -/
def modSqrt (a : Nat) : Nat :=
  if a % secpP = 0 then 0
  else if powMod secpP (a % secpP) ((secpP - 1) / 2) = 1 then powMod secpP (a % secpP) ((secpP + 1) / 4)
  else 0

/-- `ExpandPublicKey` (bip32/utils.go:107-130) on a non-empty slice `key[0] :: key[1:]`.
`signY := uint64(key[0]) - 2` wraps around for `key[0] < 2`. -/
def expandCons (k0 : UInt8) (rest : Bytes) : Nat × Nat :=
  let X := setBytes rest
  let Y := modSqrt (X ^ 3 + secpB)
  let signY : UInt64 := UInt64.ofNat k0.toNat - 2
  if signY ≠ UInt64.ofNat (Y % 2) then (X, secpP - Y) else (X, Y)

/-- `ExpandPublicKey` (bip32/utils.go:107-130). Go panics on an empty slice (`key[1:]`); every call in the
repository passes 33 bytes, and this definition returns `(0,0)` there. See `expandPublicKeyGo` for the
exported function with its panic. -/
def expandPublicKey : Bytes → Nat × Nat
  | [] => (0, 0)
  | k0 :: rest => expandCons k0 rest

/-- The exported `ExpandPublicKey`, including the panic on an empty slice (bip32/utils.go:110). -/
def expandPublicKeyGo : Bytes → Outcome (Nat × Nat)
  | [] => .panic
  | k0 :: rest => .ok (expandCons k0 rest)

/-- `addPublicKeys` (bip32/utils.go:67-71). -/
def addPublicKeys (key1 key2 : Bytes) : Bytes :=
  compressPublicKey (curveAdd (expandPublicKey key1) (expandPublicKey key2))

/-- `addPrivateKeys` (bip32/utils.go:73-88). -/
def addPrivateKeys (key1 key2 : Bytes) : Bytes :=
  let b := bigBytes ((setBytes key1 + setBytes key2) % secpN)
  if b.length < 32 then List.replicate (32 - b.length) 0 ++ b else b

/-- `validateChildPublicKey` (bip32/utils.go:132-140). -/
def validateChildPublicKey (key : Bytes) : Option Err :=
  let q := expandPublicKey key
  if q.1 = 0 ∨ q.2 = 0 then some .invalidPublicKey else none

/-- `uint32Bytes` (bip32/utils.go:143-147). -/
def uint32Bytes (i : UInt32) : Bytes := putUint32 i

end Bips
