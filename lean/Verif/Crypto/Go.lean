import Verif.Crypto.Hashes
import Verif.Crypto.Ripemd

/-!
# The hash functions of the Go program

The theorems hold for arbitrary hash functions; this is the instance the program runs with. It lets the kernel run the
model on the test vectors of the repo (Props/Vectors).
-/

namespace Bips

/-- SHA-256, HMAC-SHA-512, RIPEMD-160 and Keccak-256. -/
def goHashes : Hashes where
  sha256 := sha256
  hmacSha512 := hmacSha512
  ripemd160 := ripemd160
  keccak256 := keccak256
  sha256_length := sha256_length
  hmacSha512_length := hmacSha512_length
  ripemd160_length := ripemd160_length
  keccak256_length := keccak256_length

end Bips
