import Verif.Go.Bytes

/-!
# SHA-256 and SHA-512 (FIPS 180-4)

Standard library (crypto/sha256, crypto/sha512), used through bip32/utils.go:30-41, bip32/bip32.go:81,191 and
bip39/bip39.go:254,294. Written by tools/gen_hashes.py. Numbers stand for words, so that the kernel can run the functions.
-/

namespace Bips

/-- `k n`, evaluating `n` first. -/
def force {α : Type} (n : Nat) (k : Nat → α) : α :=
  match n with
  | 0 => k 0
  | Nat.succ m => k (Nat.succ m)

/-- Rotation to the right of a `w`-bit word. -/
def rotr (w x n : Nat) : Nat := (x >>> n ||| x <<< (w - n)) % 2 ^ w

/-- What distinguishes SHA-256 and SHA-512. -/
structure Sha2 where
  /-- bits of a word -/
  w : Nat
  /-- round constants -/
  k : List Nat
  /-- rotations, three for each of Σ₀, Σ₁, σ₀, σ₁; the last one of σ is a shift -/
  big0 : Nat × Nat × Nat
  big1 : Nat × Nat × Nat
  small0 : Nat × Nat × Nat
  small1 : Nat × Nat × Nat

/-- Eight words. -/
structure Words8 where
  (a b c d e f g h : Nat)

/-- Σ. -/
def Sha2.sum (s : Sha2) (r : Nat × Nat × Nat) (x : Nat) : Nat := rotr s.w x r.1 ^^^ rotr s.w x r.2.1 ^^^ rotr s.w x r.2.2

/-- σ. -/
def Sha2.sig (s : Sha2) (r : Nat × Nat × Nat) (x : Nat) : Nat := rotr s.w x r.1 ^^^ rotr s.w x r.2.1 ^^^ (x >>> r.2.2)

/-- `Ch(e, f, g)`, written without complement. -/
def shaCh (e f g : Nat) : Nat := (e &&& f) ^^^ (e &&& g) ^^^ g

/-- `Maj(a, b, c)`. -/
def shaMaj (a b c : Nat) : Nat := (a &&& b) ^^^ (a &&& c) ^^^ (b &&& c)

/-- The rounds, over the round constants; the sixteen words are the next ones of the message schedule. -/
def Sha2.rounds (s : Sha2) : List Nat → Words8 →
    Nat → Nat → Nat → Nat → Nat → Nat → Nat → Nat → Nat → Nat → Nat → Nat → Nat → Nat → Nat → Nat → Words8
  | [], st, _, _, _, _, _, _, _, _, _, _, _, _, _, _, _, _ => st
  | k :: ks, st, w0, w1, w2, w3, w4, w5, w6, w7, w8, w9, w10, w11, w12, w13, w14, w15 =>
    force (st.h + s.sum s.big1 st.e + shaCh st.e st.f st.g + k + w0) fun t1 =>
    force ((t1 + s.sum s.big0 st.a + shaMaj st.a st.b st.c) % 2 ^ s.w) fun a =>
    force ((st.d + t1) % 2 ^ s.w) fun e =>
    force ((s.sig s.small1 w14 + w9 + s.sig s.small0 w1 + w0) % 2 ^ s.w) fun w16 =>
    s.rounds ks ⟨a, st.a, st.b, st.c, e, st.e, st.f, st.g⟩ w1 w2 w3 w4 w5 w6 w7 w8 w9 w10 w11 w12 w13 w14 w15 w16

/-- Word `i` of a block. -/
def blockWord (n : Nat) (block : Bytes) (i : Nat) : Nat := setBytes ((block.drop (i * n)).take n)

/-- The compression function on a block of sixteen words. -/
def Sha2.compress (s : Sha2) (st : Words8) (block : Bytes) : Words8 :=
  let n := s.w / 8
  force (blockWord n block 0) fun w0 => force (blockWord n block 1) fun w1 =>
  force (blockWord n block 2) fun w2 => force (blockWord n block 3) fun w3 =>
  force (blockWord n block 4) fun w4 => force (blockWord n block 5) fun w5 =>
  force (blockWord n block 6) fun w6 => force (blockWord n block 7) fun w7 =>
  force (blockWord n block 8) fun w8 => force (blockWord n block 9) fun w9 =>
  force (blockWord n block 10) fun w10 => force (blockWord n block 11) fun w11 =>
  force (blockWord n block 12) fun w12 => force (blockWord n block 13) fun w13 =>
  force (blockWord n block 14) fun w14 => force (blockWord n block 15) fun w15 =>
  let r := s.rounds s.k st w0 w1 w2 w3 w4 w5 w6 w7 w8 w9 w10 w11 w12 w13 w14 w15
  force ((st.a + r.a) % 2 ^ s.w) fun a => force ((st.b + r.b) % 2 ^ s.w) fun b =>
  force ((st.c + r.c) % 2 ^ s.w) fun c => force ((st.d + r.d) % 2 ^ s.w) fun d =>
  force ((st.e + r.e) % 2 ^ s.w) fun e => force ((st.f + r.f) % 2 ^ s.w) fun f =>
  force ((st.g + r.g) % 2 ^ s.w) fun g => force ((st.h + r.h) % 2 ^ s.w) fun h =>
  ⟨a, b, c, d, e, f, g, h⟩

/-- The blocks of a message, one after the other; the first argument is their number. -/
def Sha2.blocks (s : Sha2) : Nat → Words8 → Bytes → Words8
  | 0, st, _ => st
  | n + 1, st, m => s.blocks n (s.compress st (m.take (s.w * 2))) (m.drop (s.w * 2))

/-- Padding: a one bit, zero bits, the length in bits in two words. -/
def Sha2.pad (s : Sha2) (m : Bytes) : Bytes :=
  let blockLen := s.w * 2
  let lenLen := s.w / 4
  let z := (blockLen - (m.length + 1 + lenLen) % blockLen) % blockLen
  m ++ [0x80] ++ List.replicate z 0 ++ beBytes lenLen (m.length * 8)

/-- The digest. -/
def Sha2.digest (s : Sha2) (init : Words8) (m : Bytes) : Bytes :=
  let p := s.pad m
  let r := s.blocks (p.length / (s.w * 2)) init p
  let n := s.w / 8
  beBytes n r.a ++ beBytes n r.b ++ beBytes n r.c ++ beBytes n r.d ++ beBytes n r.e ++ beBytes n r.f ++ beBytes n r.g ++
    beBytes n r.h

/-- SHA-256: fractional parts of the cube roots of the first 64 primes. -/
def sha256Params : Sha2 where
  w := 32
  k := [0x428a2f98, 0x71374491, 0xb5c0fbcf, 0xe9b5dba5, 0x3956c25b, 0x59f111f1, 0x923f82a4, 0xab1c5ed5,
   0xd807aa98, 0x12835b01, 0x243185be, 0x550c7dc3, 0x72be5d74, 0x80deb1fe, 0x9bdc06a7, 0xc19bf174,
   0xe49b69c1, 0xefbe4786, 0xfc19dc6, 0x240ca1cc, 0x2de92c6f, 0x4a7484aa, 0x5cb0a9dc, 0x76f988da,
   0x983e5152, 0xa831c66d, 0xb00327c8, 0xbf597fc7, 0xc6e00bf3, 0xd5a79147, 0x6ca6351, 0x14292967,
   0x27b70a85, 0x2e1b2138, 0x4d2c6dfc, 0x53380d13, 0x650a7354, 0x766a0abb, 0x81c2c92e, 0x92722c85,
   0xa2bfe8a1, 0xa81a664b, 0xc24b8b70, 0xc76c51a3, 0xd192e819, 0xd6990624, 0xf40e3585, 0x106aa070,
   0x19a4c116, 0x1e376c08, 0x2748774c, 0x34b0bcb5, 0x391c0cb3, 0x4ed8aa4a, 0x5b9cca4f, 0x682e6ff3,
   0x748f82ee, 0x78a5636f, 0x84c87814, 0x8cc70208, 0x90befffa, 0xa4506ceb, 0xbef9a3f7, 0xc67178f2]
  big0 := (2, 13, 22)
  big1 := (6, 11, 25)
  small0 := (7, 18, 3)
  small1 := (17, 19, 10)

/-- SHA-512: fractional parts of the cube roots of the first 80 primes. -/
def sha512Params : Sha2 where
  w := 64
  k := [0x428a2f98d728ae22, 0x7137449123ef65cd, 0xb5c0fbcfec4d3b2f, 0xe9b5dba58189dbbc,
   0x3956c25bf348b538, 0x59f111f1b605d019, 0x923f82a4af194f9b, 0xab1c5ed5da6d8118,
   0xd807aa98a3030242, 0x12835b0145706fbe, 0x243185be4ee4b28c, 0x550c7dc3d5ffb4e2,
   0x72be5d74f27b896f, 0x80deb1fe3b1696b1, 0x9bdc06a725c71235, 0xc19bf174cf692694,
   0xe49b69c19ef14ad2, 0xefbe4786384f25e3, 0xfc19dc68b8cd5b5, 0x240ca1cc77ac9c65,
   0x2de92c6f592b0275, 0x4a7484aa6ea6e483, 0x5cb0a9dcbd41fbd4, 0x76f988da831153b5,
   0x983e5152ee66dfab, 0xa831c66d2db43210, 0xb00327c898fb213f, 0xbf597fc7beef0ee4,
   0xc6e00bf33da88fc2, 0xd5a79147930aa725, 0x6ca6351e003826f, 0x142929670a0e6e70,
   0x27b70a8546d22ffc, 0x2e1b21385c26c926, 0x4d2c6dfc5ac42aed, 0x53380d139d95b3df,
   0x650a73548baf63de, 0x766a0abb3c77b2a8, 0x81c2c92e47edaee6, 0x92722c851482353b,
   0xa2bfe8a14cf10364, 0xa81a664bbc423001, 0xc24b8b70d0f89791, 0xc76c51a30654be30,
   0xd192e819d6ef5218, 0xd69906245565a910, 0xf40e35855771202a, 0x106aa07032bbd1b8,
   0x19a4c116b8d2d0c8, 0x1e376c085141ab53, 0x2748774cdf8eeb99, 0x34b0bcb5e19b48a8,
   0x391c0cb3c5c95a63, 0x4ed8aa4ae3418acb, 0x5b9cca4f7763e373, 0x682e6ff3d6b2b8a3,
   0x748f82ee5defb2fc, 0x78a5636f43172f60, 0x84c87814a1f0ab72, 0x8cc702081a6439ec,
   0x90befffa23631e28, 0xa4506cebde82bde9, 0xbef9a3f7b2c67915, 0xc67178f2e372532b,
   0xca273eceea26619c, 0xd186b8c721c0c207, 0xeada7dd6cde0eb1e, 0xf57d4f7fee6ed178,
   0x6f067aa72176fba, 0xa637dc5a2c898a6, 0x113f9804bef90dae, 0x1b710b35131c471b,
   0x28db77f523047d84, 0x32caab7b40c72493, 0x3c9ebe0a15c9bebc, 0x431d67c49c100d4c,
   0x4cc5d4becb3e42b6, 0x597f299cfc657e2a, 0x5fcb6fab3ad6faec, 0x6c44198c4a475817]
  big0 := (28, 34, 39)
  big1 := (14, 18, 41)
  small0 := (1, 8, 7)
  small1 := (19, 61, 6)

/-- `sha256.Sum256`; the initial words are the fractional parts of the square roots of the first 8 primes. -/
def sha256 (m : Bytes) : Bytes := sha256Params.digest
  ⟨0x6a09e667, 0xbb67ae85, 0x3c6ef372, 0xa54ff53a, 0x510e527f, 0x9b05688c, 0x1f83d9ab, 0x5be0cd19⟩ m

/-- `sha512.Sum512`. -/
def sha512 (m : Bytes) : Bytes := sha512Params.digest
  ⟨0x6a09e667f3bcc908, 0xbb67ae8584caa73b, 0x3c6ef372fe94f82b, 0xa54ff53a5f1d36f1,
   0x510e527fade682d1, 0x9b05688c2b3e6c1f, 0x1f83d9abfb41bd6b, 0x5be0cd19137e2179⟩ m

/-- `hmac.New(sha512.New, key)`, `Write(m)`, `Sum(nil)` (RFC 2104, crypto/hmac). -/
def hmacSha512 (key m : Bytes) : Bytes :=
  let key := if key.length > 128 then sha512 key else key
  let key := key ++ List.replicate (128 - key.length) 0
  sha512 (key.map (· ^^^ 0x5c) ++ sha512 (key.map (· ^^^ 0x36) ++ m))

theorem sha256_length (m : Bytes) : (sha256 m).length = 32 := by
  simp [sha256, Sha2.digest, sha256Params, beBytes_length]

theorem sha512_length (m : Bytes) : (sha512 m).length = 64 := by
  simp [sha512, Sha2.digest, sha512Params, beBytes_length]

theorem hmacSha512_length (k m : Bytes) : (hmacSha512 k m).length = 64 := by
  unfold hmacSha512
  exact sha512_length _

end Bips
