import Verif.Go.Bytes

/-!
# Hash functions as parameters

The model is parametric in the cryptographic primitives (standard library and golang.org/x/crypto, not in
the repo).  The only facts assumed are their output lengths.  Every theorem is universally quantified over
`Hashes`, so it holds for the real functions.
-/

namespace Bips

structure Hashes where
  /-- `sha256.Sum256` -/
  sha256 : Bytes → Bytes
  /-- `hmac.New(sha512.New, key)`, `Write(msg)`, `Sum(nil)` -/
  hmacSha512 : Bytes → Bytes → Bytes
  /-- `ripemd160.New()`, `Write`, `Sum(nil)` -/
  ripemd160 : Bytes → Bytes
  /-- `sha3.NewLegacyKeccak256()`, `Write`, `Sum(nil)` -/
  keccak256 : Bytes → Bytes
  sha256_length : ∀ b, (sha256 b).length = 32
  hmacSha512_length : ∀ k m, (hmacSha512 k m).length = 64
  ripemd160_length : ∀ b, (ripemd160 b).length = 20
  keccak256_length : ∀ b, (keccak256 b).length = 32

attribute [simp] Hashes.sha256_length Hashes.hmacSha512_length Hashes.ripemd160_length Hashes.keccak256_length

end Bips
