import Verif.Go.Bytes

/-!
# `golang.org/x/crypto/pbkdf2.Key`

Third-party package (not in the repo); its algorithm is modelled over an arbitrary PRF. Called at
bip39/bip39.go:254.
-/

namespace Bips

/-- `T[x] ^= U[x]` for every `x` of `U`. -/
def xorBytes (t u : Bytes) : Bytes := List.zipWith (· ^^^ ·) t u

/-- `for n := 2; n <= iter; n++ { U = prf(U); T ^= U }`, with `k` rounds left. -/
def pbkdf2Rounds (prf : Bytes → Bytes) : Nat → Bytes → Bytes → Bytes
  | 0, _, t => t
  | k + 1, u, t =>
    let u' := prf u
    pbkdf2Rounds prf k u' (xorBytes t u')

/-- The body of the block loop: `buf` is the big-endian block number. -/
def pbkdf2Block (prf : Bytes → Bytes) (salt : Bytes) (iter block : Nat) : Bytes :=
  let u := prf (salt ++ beBytes 4 block)
  pbkdf2Rounds prf (iter - 1) u u

/-- `pbkdf2.Key(password, salt, iter, keyLen, h)` where `prf` is HMAC-h keyed with the password and `hashLen` its
output size. -/
def pbkdf2Key (prf : Bytes → Bytes) (hashLen : Nat) (salt : Bytes) (iter keyLen : Nat) : Bytes :=
  let numBlocks := (keyLen + hashLen - 1) / hashLen
  ((List.range numBlocks).flatMap fun b => pbkdf2Block prf salt iter (b + 1)).take keyLen

end Bips
