import Verif.Crypto.Sha2

/-!
# RIPEMD-160 and Keccak-256

`golang.org/x/crypto/ripemd160` (bip32/utils.go:43-51) and `sha3.NewLegacyKeccak256` (util/key_path.go:22-24), by their
specifications. Numbers stand for words, so that the kernel can run the functions.
-/

namespace Bips

/-! ## RIPEMD-160 -/

/-- Little-endian bytes of a number. -/
def leBytes (k n : Nat) : Bytes := (beBytes k n).reverse

@[simp] theorem leBytes_length (k n : Nat) : (leBytes k n).length = k := by simp [leBytes]

/-- Rotation of a 32-bit word to the left. -/
def rotl32 (x n : Nat) : Nat := (x <<< n ||| x >>> (32 - n)) % 2 ^ 32

/-- Complement of a 32-bit word. -/
def not32 (x : Nat) : Nat := 0xffffffff ^^^ x

/-- The five functions. -/
def rmdF (i x y z : Nat) : Nat :=
  match i with
  | 0 => x ^^^ y ^^^ z
  | 1 => (x &&& y) ||| (not32 x &&& z)
  | 2 => (x ||| not32 y) ^^^ z
  | 3 => (x &&& z) ||| (y &&& not32 z)
  | _ => x ^^^ (y ||| not32 z)

/-- Message word and rotation of the sixteen steps of one round. -/
abbrev RmdRound := List (Nat × Nat)

/-- The left line: message words and rotations. -/
def rmdLeft : List (Nat × Nat × RmdRound) :=
  [(0, 0x00000000, [(0, 11), (1, 14), (2, 15), (3, 12), (4, 5), (5, 8), (6, 7), (7, 9), (8, 11), (9, 13), (10, 14), (11, 15),
    (12, 6), (13, 7), (14, 9), (15, 8)]),
   (1, 0x5a827999, [(7, 7), (4, 6), (13, 8), (1, 13), (10, 11), (6, 9), (15, 7), (3, 15), (12, 7), (0, 12), (9, 15), (5, 9),
    (2, 11), (14, 7), (11, 13), (8, 12)]),
   (2, 0x6ed9eba1, [(3, 11), (10, 13), (14, 6), (4, 7), (9, 14), (15, 9), (8, 13), (1, 15), (2, 14), (7, 8), (0, 13), (6, 6),
    (13, 5), (11, 12), (5, 7), (12, 5)]),
   (3, 0x8f1bbcdc, [(1, 11), (9, 12), (11, 14), (10, 15), (0, 14), (8, 15), (12, 9), (4, 8), (13, 9), (3, 14), (7, 5), (15, 6),
    (14, 8), (5, 6), (6, 5), (2, 12)]),
   (4, 0xa953fd4e, [(4, 9), (0, 15), (5, 5), (9, 11), (7, 6), (12, 8), (2, 13), (10, 12), (14, 5), (1, 12), (3, 13), (8, 14),
    (11, 11), (6, 8), (15, 5), (13, 6)])]

/-- The right line. -/
def rmdRight : List (Nat × Nat × RmdRound) :=
  [(4, 0x50a28be6, [(5, 8), (14, 9), (7, 9), (0, 11), (9, 13), (2, 15), (11, 15), (4, 5), (13, 7), (6, 7), (15, 8), (8, 11),
    (1, 14), (10, 14), (3, 12), (12, 6)]),
   (3, 0x5c4dd124, [(6, 9), (11, 13), (3, 15), (7, 7), (0, 12), (13, 8), (5, 9), (10, 11), (14, 7), (15, 7), (8, 12), (12, 7),
    (4, 6), (9, 15), (1, 13), (2, 11)]),
   (2, 0x6d703ef3, [(15, 9), (5, 7), (1, 15), (3, 11), (7, 8), (14, 6), (6, 6), (9, 14), (11, 12), (8, 13), (12, 5), (2, 14),
    (10, 13), (0, 13), (4, 7), (13, 5)]),
   (1, 0x7a6d76e9, [(8, 15), (6, 5), (4, 8), (1, 11), (3, 14), (11, 14), (15, 6), (0, 14), (5, 6), (12, 9), (2, 12), (13, 9),
    (9, 12), (7, 5), (10, 15), (14, 8)]),
   (0, 0x00000000, [(12, 8), (15, 5), (10, 12), (4, 9), (1, 12), (5, 5), (8, 14), (7, 6), (6, 8), (2, 13), (13, 6), (14, 5),
    (0, 15), (3, 13), (9, 11), (11, 11)])]

/-- Five words. -/
structure Words5 where
  (a b c d e : Nat)

/-- The steps of one round. -/
def rmdSteps (x : List Nat) (i k : Nat) : RmdRound → Words5 → Words5
  | [], s => s
  | (r, n) :: rest, s =>
    force ((rotl32 ((s.a + rmdF i s.b s.c s.d + x.getD r 0 + k) % 2 ^ 32) n + s.e) % 2 ^ 32) fun t =>
    force (rotl32 s.c 10) fun c => rmdSteps x i k rest ⟨s.e, t, s.b, c, s.d⟩

/-- One line. -/
def rmdLine (x : List Nat) : List (Nat × Nat × RmdRound) → Words5 → Words5
  | [], s => s
  | (i, k, r) :: rest, s => rmdLine x rest (rmdSteps x i k r s)

/-- The compression function on a block of 64 bytes. -/
def rmdCompress (s : Words5) (block : Bytes) : Words5 :=
  let x := (List.range 16).map fun i => setBytes ((block.drop (i * 4)).take 4).reverse
  let l := rmdLine x rmdLeft s
  let r := rmdLine x rmdRight s
  force ((s.b + l.c + r.d) % 2 ^ 32) fun a => force ((s.c + l.d + r.e) % 2 ^ 32) fun b =>
  force ((s.d + l.e + r.a) % 2 ^ 32) fun c => force ((s.e + l.a + r.b) % 2 ^ 32) fun d =>
  force ((s.a + l.b + r.c) % 2 ^ 32) fun e => ⟨a, b, c, d, e⟩

/-- The blocks of a message. -/
def rmdBlocks : Nat → Words5 → Bytes → Words5
  | 0, s, _ => s
  | n + 1, s, m => rmdBlocks n (rmdCompress s (m.take 64)) (m.drop 64)

/-- Padding: as in SHA-256, with the length in little-endian order. -/
def rmdPad (m : Bytes) : Bytes :=
  m ++ [0x80] ++ List.replicate ((64 - (m.length + 9) % 64) % 64) 0 ++ leBytes 8 (m.length * 8)

/-- `ripemd160.New()`, `Write(m)`, `Sum(nil)`. -/
def ripemd160 (m : Bytes) : Bytes :=
  let p := rmdPad m
  let r := rmdBlocks (p.length / 64) ⟨0x67452301, 0xefcdab89, 0x98badcfe, 0x10325476, 0xc3d2e1f0⟩ p
  leBytes 4 r.a ++ leBytes 4 r.b ++ leBytes 4 r.c ++ leBytes 4 r.d ++ leBytes 4 r.e

theorem ripemd160_length (m : Bytes) : (ripemd160 m).length = 20 := by simp [ripemd160]

/-! ## Keccak-256 -/

/-- Rotation of a 64-bit lane to the left. -/
def rotl64 (x n : Nat) : Nat := (x <<< n ||| x >>> (64 - n)) % 2 ^ 64

/-- Complement of a lane. -/
def not64 (x : Nat) : Nat := 0xffffffffffffffff ^^^ x

/-- A list with all numbers evaluated. -/
def forceList {α : Type} : List Nat → (List Nat → α) → α
  | [], k => k []
  | x :: xs, k => force x fun x => forceList xs fun xs => k (x :: xs)

/-- Rotations of ρ, lane `x + 5 y` at that index. -/
def keccakRho : List Nat :=
  [0, 1, 62, 28, 27, 36, 44, 6, 55, 20, 3, 10, 43, 25, 39, 41, 45, 15, 21, 8, 18, 2, 61, 56, 14]

/-- Round constants of ι. -/
def keccakRC : List Nat :=
  [0x0000000000000001, 0x0000000000008082, 0x800000000000808a, 0x8000000080008000, 0x000000000000808b, 0x0000000080000001,
   0x8000000080008081, 0x8000000000008009, 0x000000000000008a, 0x0000000000000088, 0x0000000080008009, 0x000000008000000a,
   0x000000008000808b, 0x800000000000008b, 0x8000000000008089, 0x8000000000008003, 0x8000000000008002, 0x8000000000000080,
   0x000000000000800a, 0x800000008000000a, 0x8000000080008081, 0x8000000000008080, 0x0000000080000001, 0x8000000080008008]

/-- One round: θ, ρ and π, χ, ι. -/
def keccakRound (s : List Nat) (rc : Nat) : List Nat :=
  forceList ((List.range 5).map fun x => s.getD x 0 ^^^ s.getD (x + 5) 0 ^^^ s.getD (x + 10) 0 ^^^ s.getD (x + 15) 0 ^^^
    s.getD (x + 20) 0) fun c =>
  forceList ((List.range 25).map fun i => s.getD i 0 ^^^ c.getD ((i + 4) % 5) 0 ^^^ rotl64 (c.getD ((i + 1) % 5) 0) 1) fun s =>
  -- lane (x, y) of the result is lane (x + 3 y, x) rotated
  forceList ((List.range 25).map fun i =>
    let j := (i % 5 + 3 * (i / 5)) % 5 + 5 * (i % 5)
    rotl64 (s.getD j 0) (keccakRho.getD j 0)) fun b =>
  forceList ((List.range 25).map fun i =>
    let y := 5 * (i / 5)
    b.getD i 0 ^^^ (not64 (b.getD ((i + 1) % 5 + y) 0) &&& b.getD ((i + 2) % 5 + y) 0) ^^^ (if i = 0 then rc else 0)) id

/-- Keccak-f[1600]. -/
def keccakF (s : List Nat) : List Nat := keccakRC.foldl keccakRound s

/-- Absorb one block of 136 bytes. -/
def keccakAbsorb (s : List Nat) (block : Bytes) : List Nat :=
  keccakF ((List.range 25).map fun i => s.getD i 0 ^^^ setBytes ((block.drop (i * 8)).take 8).reverse)

/-- The blocks of a message. -/
def keccakBlocks : Nat → List Nat → Bytes → List Nat
  | 0, s, _ => s
  | n + 1, s, m => keccakBlocks n (keccakAbsorb s (m.take 136)) (m.drop 136)

/-- The original padding `10*1` with rate 136. -/
def keccakPad (m : Bytes) : Bytes :=
  let q := 136 - m.length % 136
  if q = 1 then m ++ [0x81] else m ++ [1] ++ List.replicate (q - 2) 0 ++ [0x80]

/-- `sha3.NewLegacyKeccak256()`, `Write(m)`, `Sum(nil)`. -/
def keccak256 (m : Bytes) : Bytes :=
  let p := keccakPad m
  let s := keccakBlocks (p.length / 136) (List.replicate 25 0) p
  leBytes 8 (s.getD 0 0) ++ leBytes 8 (s.getD 1 0) ++ leBytes 8 (s.getD 2 0) ++ leBytes 8 (s.getD 3 0)

theorem keccak256_length (m : Bytes) : (keccak256 m).length = 32 := by simp [keccak256]

end Bips
