#!/usr/bin/env python3
"""Writes lean/Verif/Crypto/Sha2.lean: SHA-256 and SHA-512 (FIPS 180-4) with their constants."""
import os, math
def primes(n):
    r=[];k=2
    while len(r)<n:
        if all(k%p for p in r): r.append(k)
        k+=1
    return r
def iroot(n,k):
    lo,hi=0,1<<(n.bit_length()//k+2)
    while lo<hi:
        m=(lo+hi+1)//2
        if m**k<=n: lo=m
        else: hi=m-1
    return lo
def frac(p,k,bits): return iroot(p<<(bits*k),k) % (1<<bits)
def const(n,k,bits): return [frac(p,k,bits) for p in primes(n)]
def rows(l,per=4):
    s=", ".join(hex(x) for x in l).split(", ")
    return ",\n   ".join(", ".join(s[i:i+per]) for i in range(0,len(s),per))
k256,k512=const(64,3,32),const(80,3,64)
h256,h512=const(8,2,32),const(8,2,64)
out=f'''import Verif.Go.Bytes

/-!
# SHA-256 and SHA-512 (FIPS 180-4)

Standard library (crypto/sha256, crypto/sha512), used through bip32/utils.go:30-41, bip32/bip32.go:81,191 and
bip39/bip39.go:254,294. Written by tools/gen_hashes.py. Numbers stand for words, so that the kernel can run the functions.
-/

namespace Bips

/-- `k n`, evaluating `n` first. -/
def force {{α : Type}} (n : Nat) (k : Nat → α) : α :=
  match n with
  | 0 => k 0
  | Nat.succ m => k (Nat.succ m)

/-- Rotation to the right of a `w`-bit word. -/
def rotr (w x n : Nat) : Nat := (x >>> n ||| x <<< (w - n)) % 2 ^ w

/-- What distinguishes SHA-256 and SHA-512. -/
structure Sha2 where
  /-- bits of a word -/
  w : Nat
  /-- round constants -/
  k : List Nat
  /-- rotations, three for each of Σ₀, Σ₁, σ₀, σ₁; the last one of σ is a shift -/
  big0 : Nat × Nat × Nat
  big1 : Nat × Nat × Nat
  small0 : Nat × Nat × Nat
  small1 : Nat × Nat × Nat

/-- Eight words. -/
structure Words8 where
  (a b c d e f g h : Nat)

/-- Σ. -/
def Sha2.sum (s : Sha2) (r : Nat × Nat × Nat) (x : Nat) : Nat := rotr s.w x r.1 ^^^ rotr s.w x r.2.1 ^^^ rotr s.w x r.2.2

/-- σ. -/
def Sha2.sig (s : Sha2) (r : Nat × Nat × Nat) (x : Nat) : Nat := rotr s.w x r.1 ^^^ rotr s.w x r.2.1 ^^^ (x >>> r.2.2)

/-- `Ch(e, f, g)`, written without complement. -/
def shaCh (e f g : Nat) : Nat := (e &&& f) ^^^ (e &&& g) ^^^ g

/-- `Maj(a, b, c)`. -/
def shaMaj (a b c : Nat) : Nat := (a &&& b) ^^^ (a &&& c) ^^^ (b &&& c)

/-- The rounds, over the round constants; the sixteen words are the next ones of the message schedule. -/
def Sha2.rounds (s : Sha2) : List Nat → Words8 →
    Nat → Nat → Nat → Nat → Nat → Nat → Nat → Nat → Nat → Nat → Nat → Nat → Nat → Nat → Nat → Nat → Words8
  | [], st, _, _, _, _, _, _, _, _, _, _, _, _, _, _, _, _ => st
  | k :: ks, st, w0, w1, w2, w3, w4, w5, w6, w7, w8, w9, w10, w11, w12, w13, w14, w15 =>
    force (st.h + s.sum s.big1 st.e + shaCh st.e st.f st.g + k + w0) fun t1 =>
    force ((t1 + s.sum s.big0 st.a + shaMaj st.a st.b st.c) % 2 ^ s.w) fun a =>
    force ((st.d + t1) % 2 ^ s.w) fun e =>
    force ((s.sig s.small1 w14 + w9 + s.sig s.small0 w1 + w0) % 2 ^ s.w) fun w16 =>
    s.rounds ks ⟨a, st.a, st.b, st.c, e, st.e, st.f, st.g⟩ w1 w2 w3 w4 w5 w6 w7 w8 w9 w10 w11 w12 w13 w14 w15 w16

/-- Word `i` of a block. -/
def blockWord (n : Nat) (block : Bytes) (i : Nat) : Nat := setBytes ((block.drop (i * n)).take n)

/-- The compression function on a block of sixteen words. -/
def Sha2.compress (s : Sha2) (st : Words8) (block : Bytes) : Words8 :=
  let n := s.w / 8
  {" ".join(f"force (blockWord n block {i}) fun w{i} =>" + (chr(10)+"  " if i%2 else "") for i in range(16)).replace(chr(10)+"   ",chr(10)+"  ").rstrip()}
  let r := s.rounds s.k st w0 w1 w2 w3 w4 w5 w6 w7 w8 w9 w10 w11 w12 w13 w14 w15
  {" ".join(f"force ((st.{x} + r.{x}) % 2 ^ s.w) fun {x} =>" + (chr(10)+"  " if i%2 else "") for i,x in enumerate("abcdefgh")).replace(chr(10)+"   ",chr(10)+"  ").rstrip()}
  ⟨a, b, c, d, e, f, g, h⟩

/-- The blocks of a message, one after the other; the first argument is their number. -/
def Sha2.blocks (s : Sha2) : Nat → Words8 → Bytes → Words8
  | 0, st, _ => st
  | n + 1, st, m => s.blocks n (s.compress st (m.take (s.w * 2))) (m.drop (s.w * 2))

/-- Padding: a one bit, zero bits, the length in bits in two words. -/
def Sha2.pad (s : Sha2) (m : Bytes) : Bytes :=
  let blockLen := s.w * 2
  let lenLen := s.w / 4
  let z := (blockLen - (m.length + 1 + lenLen) % blockLen) % blockLen
  m ++ [0x80] ++ List.replicate z 0 ++ beBytes lenLen (m.length * 8)

/-- The digest. -/
def Sha2.digest (s : Sha2) (init : Words8) (m : Bytes) : Bytes :=
  let p := s.pad m
  let r := s.blocks (p.length / (s.w * 2)) init p
  let n := s.w / 8
  beBytes n r.a ++ beBytes n r.b ++ beBytes n r.c ++ beBytes n r.d ++ beBytes n r.e ++ beBytes n r.f ++ beBytes n r.g ++
    beBytes n r.h

/-- SHA-256: fractional parts of the cube roots of the first 64 primes. -/
def sha256Params : Sha2 where
  w := 32
  k := [{rows(k256,8)}]
  big0 := (2, 13, 22)
  big1 := (6, 11, 25)
  small0 := (7, 18, 3)
  small1 := (17, 19, 10)

/-- SHA-512: fractional parts of the cube roots of the first 80 primes. -/
def sha512Params : Sha2 where
  w := 64
  k := [{rows(k512,4)}]
  big0 := (28, 34, 39)
  big1 := (14, 18, 41)
  small0 := (1, 8, 7)
  small1 := (19, 61, 6)

/-- `sha256.Sum256`; the initial words are the fractional parts of the square roots of the first 8 primes. -/
def sha256 (m : Bytes) : Bytes := sha256Params.digest
  ⟨{", ".join(hex(x) for x in h256)}⟩ m

/-- `sha512.Sum512`. -/
def sha512 (m : Bytes) : Bytes := sha512Params.digest
  ⟨{", ".join(hex(x) for x in h512[:4])},
   {", ".join(hex(x) for x in h512[4:])}⟩ m

/-- `hmac.New(sha512.New, key)`, `Write(m)`, `Sum(nil)` (RFC 2104, crypto/hmac). -/
def hmacSha512 (key m : Bytes) : Bytes :=
  let key := if key.length > 128 then sha512 key else key
  let key := key ++ List.replicate (128 - key.length) 0
  sha512 (key.map (· ^^^ 0x5c) ++ sha512 (key.map (· ^^^ 0x36) ++ m))

theorem sha256_length (m : Bytes) : (sha256 m).length = 32 := by
  simp [sha256, Sha2.digest, sha256Params, beBytes_length]

theorem sha512_length (m : Bytes) : (sha512 m).length = 64 := by
  simp [sha512, Sha2.digest, sha512Params, beBytes_length]

theorem hmacSha512_length (k m : Bytes) : (hmacSha512 k m).length = 64 := by
  unfold hmacSha512
  exact sha512_length _

end Bips
'''
p=os.path.join(os.path.dirname(os.path.abspath(__file__)),"../lean/Verif/Crypto/Sha2.lean")
open(p,"w").write(out)
