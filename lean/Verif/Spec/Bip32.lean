import Verif.Curve.Group

/-!
# Specification: BIP-32 key derivation

Written from the BIP-32 text, over Mathlib's group of points of secp256k1.  `hmac` is HMAC-SHA512.
Nothing here refers to the model of the Go code (only to the curve, its base point, its order, and the
big-endian conversions).
-/

namespace Bips.Spec

/-- `point(p)`: scalar multiple of the base point. -/
def point (k : Nat) : Pt := k • baseG

/-- `ser32(i)`: 4 bytes, most significant first. -/
def ser32 (i : Nat) : Bytes := beBytes 4 i

/-- `ser256(p)`: 32 bytes, most significant first. -/
def ser256 (p : Nat) : Bytes := beBytes 32 p

/-- `serP(P)`: SEC1 compressed form, `(0x02 or 0x03) ‖ ser256(x)`, the header byte giving the parity of
`y`.  The point at infinity has no such form. -/
def serP : Pt → Bytes
  | .zero => []
  | .some x y _ => (if y.val % 2 = 0 then 2 else 3) :: ser256 x.val

/-- `parse256(p)`: 32 bytes as a 256-bit number, most significant byte first. -/
def parse256 (b : Bytes) : Nat := setBytes b

/-- Private parent key → private child key: `CKDpriv((k, c), i)`; `none` is "the resulting key is invalid". -/
def ckdPriv (hmac : Bytes → Bytes → Bytes) (k : Nat) (c : Bytes) (i : Nat) : Option (Nat × Bytes) :=
  let I := if 2 ^ 31 ≤ i then hmac c (0 :: ser256 k ++ ser32 i) else hmac c (serP (point k) ++ ser32 i)
  let IL := parse256 (I.take 32)
  if secpN ≤ IL ∨ (IL + k) % secpN = 0 then none else some ((IL + k) % secpN, I.drop 32)

/-- Public parent key → public child key: `CKDpub((K, c), i)`, for non-hardened `i`; `none` is "the resulting
key is invalid". -/
def ckdPub (hmac : Bytes → Bytes → Bytes) (K : Pt) (c : Bytes) (i : Nat) : Option (Pt × Bytes) :=
  let I := hmac c (serP K ++ ser32 i)
  let IL := parse256 (I.take 32)
  if secpN ≤ IL ∨ point IL + K = 0 then none else some (point IL + K, I.drop 32)

end Bips.Spec
