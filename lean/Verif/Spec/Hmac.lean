import Verif.Go.Bytes

/-!
# Specification: HMAC

RFC 2104 for a hash function with blocks of 128 bytes.
-/

namespace Bips.Spec

/-- The key as it enters the hash function: hashed if longer than a block, then filled up with zeros to a block. -/
def hmacBlock (h : Bytes → Bytes) (key : Bytes) : Bytes :=
  let k := if key.length ≤ 128 then key else h key
  k ++ List.replicate (128 - k.length) 0

/-- `H(K ⊕ opad ‖ H(K ⊕ ipad ‖ text))`. -/
def hmac (h : Bytes → Bytes) (key text : Bytes) : Bytes :=
  h ((hmacBlock h key).map (· ^^^ 0x5c) ++ h ((hmacBlock h key).map (· ^^^ 0x36) ++ text))

end Bips.Spec
