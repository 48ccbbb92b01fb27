import Verif.Crypto.Go
import Verif.Model.Bip39

/-!
# Running PBKDF2 in the kernel

`pbkdf2.Key` with 2048 rounds of HMAC-SHA-512 takes 4096 runs of the compression function. Here this loop is written with
recursors and `Nat` functions only, on words in place of bytes, and proved equal to the definitions of `Crypto/Sha2` and
`Model/Pbkdf2`, so that the kernel can run it (Vectors/Seed). Nothing here models code of the repo.
-/

namespace Bips.Fast

/-- 2^64, and 2^64 + 1: the product with the latter repeats a word. -/
abbrev M : Nat := 18446744073709551616
abbrev D : Nat := 18446744073709551617

deriving instance DecidableEq for Words8

/-- As `Bips.force`. -/
def ev {α : Type} (n : Nat) (k : Nat → α) : α := Nat.rec (k 0) (fun m _ => k (Nat.succ m)) n

theorem ev_eq {α : Type} (n : Nat) (k : Nat → α) : ev n k = k n := by cases n <;> rfl

theorem force_eq' {α : Type} (n : Nat) (k : Nat → α) : force n k = k n := by cases n <;> rfl

/-- `Sha2.rounds` for SHA-512. -/
noncomputable def rounds (l : List Nat) : Nat → Nat → Nat → Nat → Nat → Nat → Nat → Nat →
    Nat → Nat → Nat → Nat → Nat → Nat → Nat → Nat → Nat → Nat → Nat → Nat → Nat → Nat → Nat → Nat → Words8 :=
  List.rec (fun a b c d e f g h _ _ _ _ _ _ _ _ _ _ _ _ _ _ _ _ => Words8.mk a b c d e f g h)
    (fun k _ ih a b c d e f g h w0 w1 w2 w3 w4 w5 w6 w7 w8 w9 w10 w11 w12 w13 w14 w15 =>
      ev (Nat.add (Nat.add (Nat.add (Nat.add h (Nat.mod (Nat.xor (Nat.xor (Nat.shiftRight (Nat.mul e D) 14)
        (Nat.shiftRight (Nat.mul e D) 18)) (Nat.shiftRight (Nat.mul e D) 41)) M))
        (Nat.xor g (Nat.land e (Nat.xor f g)))) k) w0) fun t1 =>
      ev (Nat.mod (Nat.add (Nat.add t1 (Nat.mod (Nat.xor (Nat.xor (Nat.shiftRight (Nat.mul a D) 28)
        (Nat.shiftRight (Nat.mul a D) 34)) (Nat.shiftRight (Nat.mul a D) 39)) M))
        (Nat.lor (Nat.land a b) (Nat.land c (Nat.lor a b)))) M) fun a' =>
      ev (Nat.mod (Nat.add d t1) M) fun e' =>
      ev (Nat.mod (Nat.add (Nat.add (Nat.add
        (Nat.xor (Nat.mod (Nat.xor (Nat.shiftRight (Nat.mul w14 D) 19) (Nat.shiftRight (Nat.mul w14 D) 61)) M)
          (Nat.shiftRight w14 6)) w9)
        (Nat.xor (Nat.mod (Nat.xor (Nat.shiftRight (Nat.mul w1 D) 1) (Nat.shiftRight (Nat.mul w1 D) 8)) M)
          (Nat.shiftRight w1 7))) w0) M) fun w16 =>
      ih a' a b c e' e f g w1 w2 w3 w4 w5 w6 w7 w8 w9 w10 w11 w12 w13 w14 w15 w16) l

theorem rounds_cons (k : Nat) (ks : List Nat) (a b c d e f g h w0 w1 w2 w3 w4 w5 w6 w7 w8 w9 w10 w11 w12 w13 w14 w15 : Nat) :
    rounds (k :: ks) a b c d e f g h w0 w1 w2 w3 w4 w5 w6 w7 w8 w9 w10 w11 w12 w13 w14 w15 =
      ev (Nat.add (Nat.add (Nat.add (Nat.add h (Nat.mod (Nat.xor (Nat.xor (Nat.shiftRight (Nat.mul e D) 14)
        (Nat.shiftRight (Nat.mul e D) 18)) (Nat.shiftRight (Nat.mul e D) 41)) M))
        (Nat.xor g (Nat.land e (Nat.xor f g)))) k) w0) fun t1 =>
      ev (Nat.mod (Nat.add (Nat.add t1 (Nat.mod (Nat.xor (Nat.xor (Nat.shiftRight (Nat.mul a D) 28)
        (Nat.shiftRight (Nat.mul a D) 34)) (Nat.shiftRight (Nat.mul a D) 39)) M))
        (Nat.lor (Nat.land a b) (Nat.land c (Nat.lor a b)))) M) fun a' =>
      ev (Nat.mod (Nat.add d t1) M) fun e' =>
      ev (Nat.mod (Nat.add (Nat.add (Nat.add
        (Nat.xor (Nat.mod (Nat.xor (Nat.shiftRight (Nat.mul w14 D) 19) (Nat.shiftRight (Nat.mul w14 D) 61)) M)
          (Nat.shiftRight w14 6)) w9)
        (Nat.xor (Nat.mod (Nat.xor (Nat.shiftRight (Nat.mul w1 D) 1) (Nat.shiftRight (Nat.mul w1 D) 8)) M)
          (Nat.shiftRight w1 7))) w0) M) fun w16 =>
      rounds ks a' a b c e' e f g w1 w2 w3 w4 w5 w6 w7 w8 w9 w10 w11 w12 w13 w14 w15 w16 := rfl

theorem rotr_fast {x : Nat} (hx : x < 2 ^ 64) {n : Nat} (hn : n ≤ 64) : rotr 64 x n = (x * D) >>> n % 2 ^ 64 := by
  have hd : x * D = x <<< 64 ||| x := by
    rw [← Nat.shiftLeft_add_eq_or_of_lt hx, Nat.shiftLeft_eq]
    show x * (2 ^ 64 + 1) = _
    ring
  apply Nat.eq_of_testBit_eq
  intro i
  rw [rotr, hd]
  simp only [Nat.testBit_mod_two_pow, Nat.testBit_or, Nat.testBit_shiftRight, Nat.testBit_shiftLeft]
  by_cases hi : i < 64
  · simp only [hi, decide_true, Bool.true_and]
    by_cases h1 : 64 ≤ n + i
    · have h2 : x.testBit (n + i) = false := Nat.testBit_lt_two_pow (lt_of_lt_of_le hx (Nat.pow_le_pow_right (by omega) h1))
      rw [h2]
      have h3 : i - (64 - n) = n + i - 64 := by omega
      rw [h3]
      simp [show 64 - n ≤ i by omega, h1]
    · simp [show ¬ 64 - n ≤ i by omega, h1]
  · simp [hi]

theorem xor_mod (x y k : Nat) : (x ^^^ y) % 2 ^ k = (x % 2 ^ k) ^^^ (y % 2 ^ k) := by
  apply Nat.eq_of_testBit_eq
  intro i
  simp only [Nat.testBit_mod_two_pow, Nat.testBit_xor]
  by_cases hi : i < k <;> simp [hi]

theorem ch_fast (e f g : Nat) : shaCh e f g = g ^^^ (e &&& (f ^^^ g)) := by
  apply Nat.eq_of_testBit_eq
  intro i
  simp only [shaCh, Nat.testBit_xor, Nat.testBit_and]
  cases e.testBit i <;> cases f.testBit i <;> cases g.testBit i <;> rfl

theorem maj_fast (a b c : Nat) : shaMaj a b c = (a &&& b) ||| (c &&& (a ||| b)) := by
  apply Nat.eq_of_testBit_eq
  intro i
  simp only [shaMaj, Nat.testBit_xor, Nat.testBit_and, Nat.testBit_or]
  cases a.testBit i <;> cases b.testBit i <;> cases c.testBit i <;> rfl

theorem sum_fast {x : Nat} (hx : x < 2 ^ 64) (s : Sha2) (hs : s.w = 64) (r : Nat × Nat × Nat) (h1 : r.1 ≤ 64) (h2 : r.2.1 ≤ 64)
    (h3 : r.2.2 ≤ 64) :
    s.sum r x = ((x * D) >>> r.1 ^^^ (x * D) >>> r.2.1 ^^^ (x * D) >>> r.2.2) % 2 ^ 64 := by
  rw [Sha2.sum, hs, rotr_fast hx h1, rotr_fast hx h2, rotr_fast hx h3, xor_mod, xor_mod]

theorem sig_fast {x : Nat} (hx : x < 2 ^ 64) (s : Sha2) (hs : s.w = 64) (r : Nat × Nat × Nat) (h1 : r.1 ≤ 64) (h2 : r.2.1 ≤ 64) :
    s.sig r x = ((x * D) >>> r.1 ^^^ (x * D) >>> r.2.1) % 2 ^ 64 ^^^ (x >>> r.2.2) := by
  rw [Sha2.sig, hs, rotr_fast hx h1, rotr_fast hx h2, xor_mod]

theorem rounds_eq (l : List Nat) : ∀ (st : Words8) (w0 w1 w2 w3 w4 w5 w6 w7 w8 w9 w10 w11 w12 w13 w14 w15 : Nat),
    st.a < 2 ^ 64 → st.e < 2 ^ 64 → w1 < 2 ^ 64 → w2 < 2 ^ 64 → w3 < 2 ^ 64 → w4 < 2 ^ 64 → w5 < 2 ^ 64 → w6 < 2 ^ 64 →
    w7 < 2 ^ 64 → w8 < 2 ^ 64 → w9 < 2 ^ 64 → w10 < 2 ^ 64 → w11 < 2 ^ 64 → w12 < 2 ^ 64 → w13 < 2 ^ 64 → w14 < 2 ^ 64 →
    w15 < 2 ^ 64 →
    sha512Params.rounds l st w0 w1 w2 w3 w4 w5 w6 w7 w8 w9 w10 w11 w12 w13 w14 w15 =
      rounds l st.a st.b st.c st.d st.e st.f st.g st.h w0 w1 w2 w3 w4 w5 w6 w7 w8 w9 w10 w11 w12 w13 w14 w15 := by
  induction l with
  | nil => intros; rfl
  | cons k ks ih =>
    intro st w0 w1 w2 w3 w4 w5 w6 w7 w8 w9 w10 w11 w12 w13 w14 w15 ha he h1 h2 h3 h4 h5 h6 h7 h8 h9 h10 h11 h12 h13 h14 h15
    rw [Sha2.rounds, force_eq', force_eq', force_eq', force_eq']
    have hw : sha512Params.w = 64 := rfl
    have hlt : ∀ n : Nat, n % 2 ^ 64 < 2 ^ 64 := fun n => Nat.mod_lt _ (by decide)
    rw [hw, ih _ _ _ _ _ _ _ _ _ _ _ _ _ _ _ _ _ (hlt _) (hlt _) h2 h3 h4 h5 h6 h7 h8 h9 h10 h11 h12 h13 h14 h15 (hlt _)]
    rw [sum_fast he _ hw _ (by decide) (by decide) (by decide), sum_fast ha _ hw _ (by decide) (by decide) (by decide),
      sig_fast h14 _ hw _ (by decide) (by decide), sig_fast h1 _ hw _ (by decide) (by decide), ch_fast, maj_fast]
    rw [rounds_cons, ev_eq, ev_eq, ev_eq, ev_eq]
    rfl

/-- Sum, word by word. -/
noncomputable def add8 (s m : Words8) : Words8 :=
  Words8.rec (fun a b c d e f g h => Words8.rec (fun a1 b1 c1 d1 e1 f1 g1 h1 =>
    ev (Nat.mod (Nat.add a a1) M) fun a2 => ev (Nat.mod (Nat.add b b1) M) fun b2 =>
    ev (Nat.mod (Nat.add c c1) M) fun c2 => ev (Nat.mod (Nat.add d d1) M) fun d2 =>
    ev (Nat.mod (Nat.add e e1) M) fun e2 => ev (Nat.mod (Nat.add f f1) M) fun f2 =>
    ev (Nat.mod (Nat.add g g1) M) fun g2 => ev (Nat.mod (Nat.add h h1) M) fun h2 =>
    Words8.mk a2 b2 c2 d2 e2 f2 g2 h2) m) s

/-- `Sha2.compress` for SHA-512 with the round constants `ks`, on a block that is the last one of a message of 192 bytes: eight
words and the padding. -/
noncomputable def compressWith (ks : List Nat) (s m : Words8) : Words8 :=
  Words8.rec (fun a b c d e f g h => Words8.rec (fun w0 w1 w2 w3 w4 w5 w6 w7 =>
    add8 (Words8.mk a b c d e f g h)
      (rounds ks a b c d e f g h w0 w1 w2 w3 w4 w5 w6 w7 9223372036854775808 0 0 0 0 0 0 1536)) m) s

/-- The same with those of SHA-512. -/
noncomputable def compress (s m : Words8) : Words8 := compressWith sha512Params.k s m

/-- Exclusive or, word by word. -/
noncomputable def xor8 (s m : Words8) : Words8 :=
  Words8.rec (fun a b c d e f g h => Words8.rec (fun a1 b1 c1 d1 e1 f1 g1 h1 =>
    ev (Nat.xor a a1) fun a2 => ev (Nat.xor b b1) fun b2 => ev (Nat.xor c c1) fun c2 => ev (Nat.xor d d1) fun d2 =>
    ev (Nat.xor e e1) fun e2 => ev (Nat.xor f f1) fun f2 => ev (Nat.xor g g1) fun g2 => ev (Nat.xor h h1) fun h2 =>
    Words8.mk a2 b2 c2 d2 e2 f2 g2 h2) m) s

/-- `k s`, evaluating `s` first. -/
noncomputable def ev8 {α : Type} (s : Words8) (k : Words8 → α) : α := Words8.rec (fun a b c d e f g h => k (Words8.mk a b c d e f g h)) s

/-- `n` rounds of PBKDF2, with the states `i` and `o` of the inner and outer hash after the key. -/
noncomputable def iter (n : Nat) (i o : Words8) : Words8 → Words8 → Words8 × Words8 :=
  Nat.rec (fun u t => (u, t)) (fun _ ih u t =>
    ev8 (compress i u) fun x => ev8 (compress o x) fun y => ev8 (xor8 t y) fun z => ih y z) n

/-- All words are below 2^64. -/
structure Small (s : Words8) : Prop where
  (a : s.a < 2 ^ 64) (b : s.b < 2 ^ 64) (c : s.c < 2 ^ 64) (d : s.d < 2 ^ 64)
  (e : s.e < 2 ^ 64) (f : s.f < 2 ^ 64) (g : s.g < 2 ^ 64) (h : s.h < 2 ^ 64)

/-- The bytes of words. -/
def wordBytes (l : List Nat) : Bytes := l.flatMap (beBytes 8)

/-- The bytes of a state, as in `Sha2.digest`. -/
def bytesOf (s : Words8) : Bytes := wordBytes [s.a, s.b, s.c, s.d, s.e, s.f, s.g, s.h]

theorem wordBytes_length (l : List Nat) : (wordBytes l).length = l.length * 8 := by
  induction l with
  | nil => rfl
  | cons x l ih => rw [wordBytes, List.flatMap_cons, List.length_append, beBytes_length, ← wordBytes, ih, List.length_cons]; ring

theorem blockWord_wordBytes (l : List Nat) : ∀ i (hi : i < l.length), blockWord 8 (wordBytes l) i = l[i] % 2 ^ 64 := by
  induction l with
  | nil => intro i hi; simp at hi
  | cons x l ih =>
    intro i hi
    rw [blockWord, wordBytes, List.flatMap_cons]
    cases i with
    | zero =>
      rw [Nat.zero_mul, List.drop_zero, List.take_append_of_le_length (by simp), List.take_of_length_le (by simp), setBytes_beBytes]
      rfl
    | succ i =>
      have e : (i + 1) * 8 = (beBytes 8 x).length + i * 8 := by simp; ring
      rw [e, List.drop_append, List.drop_of_length_le (by omega), List.nil_append, Nat.add_sub_cancel_left]
      exact ih i (by simpa using hi)

theorem add8_eq (s m : Words8) :
    add8 s m = ⟨(s.a + m.a) % 2 ^ 64, (s.b + m.b) % 2 ^ 64, (s.c + m.c) % 2 ^ 64, (s.d + m.d) % 2 ^ 64, (s.e + m.e) % 2 ^ 64,
      (s.f + m.f) % 2 ^ 64, (s.g + m.g) % 2 ^ 64, (s.h + m.h) % 2 ^ 64⟩ := by
  obtain ⟨a, b, c, d, e, f, g, h⟩ := s
  obtain ⟨w0, w1, w2, w3, w4, w5, w6, w7⟩ := m
  rw [add8]
  simp only [ev_eq]
  rfl

theorem compressWith_eq (ks : List Nat) (s m : Words8) :
    compressWith ks s m = add8 s (rounds ks s.a s.b s.c s.d s.e s.f s.g s.h m.a m.b m.c m.d m.e m.f m.g m.h
      9223372036854775808 0 0 0 0 0 0 1536) := by
  obtain ⟨a, b, c, d, e, f, g, h⟩ := s
  obtain ⟨w0, w1, w2, w3, w4, w5, w6, w7⟩ := m
  rfl

theorem compress_small (s m : Words8) : Small (compress s m) := by
  rw [compress, compressWith_eq, add8_eq]
  have hlt : ∀ n : Nat, n % 2 ^ 64 < 2 ^ 64 := fun n => Nat.mod_lt _ (by decide)
  exact ⟨hlt _, hlt _, hlt _, hlt _, hlt _, hlt _, hlt _, hlt _⟩

theorem compress_eq {st u : Words8} (hs : Small st) (hu : Small u) :
    sha512Params.compress st (wordBytes [u.a, u.b, u.c, u.d, u.e, u.f, u.g, u.h, 9223372036854775808, 0, 0, 0, 0, 0, 0, 1536]) =
      compress st u := by
  rw [Sha2.compress, compress, compressWith_eq, add8_eq]
  simp only [force_eq']
  have hn : sha512Params.w / 8 = 8 := rfl
  have hw : sha512Params.w = 64 := rfl
  rw [hn, hw]
  generalize hl : [u.a, u.b, u.c, u.d, u.e, u.f, u.g, u.h, 9223372036854775808, 0, 0, 0, 0, 0, 0, 1536] = l
  have hb : ∀ i (v : Nat), l[i]? = some v → v < 2 ^ 64 → blockWord 8 (wordBytes l) i = v := by
    intro i v h1 h2
    obtain ⟨h3, h4⟩ := List.getElem?_eq_some_iff.1 h1
    rw [blockWord_wordBytes l i h3, h4, Nat.mod_eq_of_lt h2]
  subst hl
  rw [hb 0 u.a rfl hu.a, hb 1 u.b rfl hu.b, hb 2 u.c rfl hu.c, hb 3 u.d rfl hu.d, hb 4 u.e rfl hu.e, hb 5 u.f rfl hu.f,
    hb 6 u.g rfl hu.g, hb 7 u.h rfl hu.h, hb 8 _ rfl (by decide), hb 9 _ rfl (by decide), hb 10 _ rfl (by decide),
    hb 11 _ rfl (by decide), hb 12 _ rfl (by decide), hb 13 _ rfl (by decide), hb 14 _ rfl (by decide), hb 15 _ rfl (by decide)]
  rw [rounds_eq _ _ _ _ _ _ _ _ _ _ _ _ _ _ _ _ _ _ hs.a hs.e hu.b hu.c hu.d hu.e hu.f hu.g hu.h (by decide) (by decide)
    (by decide) (by decide) (by decide) (by decide) (by decide) (by decide)]

/-- The initial words of SHA-512. -/
def init : Words8 :=
  ⟨0x6a09e667f3bcc908, 0xbb67ae8584caa73b, 0x3c6ef372fe94f82b, 0xa54ff53a5f1d36f1,
   0x510e527fade682d1, 0x9b05688c2b3e6c1f, 0x1f83d9abfb41bd6b, 0x5be0cd19137e2179⟩

/-- The state after the first block of the keyed hash. -/
def keyed (key : Bytes) (x : UInt8) : Words8 :=
  let key := if key.length > 128 then sha512 key else key
  sha512Params.compress init ((key ++ List.replicate (128 - key.length) 0).map (· ^^^ x))

theorem sha512_block {b : Bytes} (hb : b.length = 128) (hs : Small (sha512Params.compress init b)) {u : Words8} (hu : Small u) :
    sha512 (b ++ bytesOf u) = bytesOf (compress (sha512Params.compress init b) u) := by
  have hl : (b ++ bytesOf u).length = 192 := by rw [List.length_append, hb, bytesOf, wordBytes_length]; rfl
  have hp : sha512Params.pad (b ++ bytesOf u) =
      b ++ wordBytes [u.a, u.b, u.c, u.d, u.e, u.f, u.g, u.h, 9223372036854775808, 0, 0, 0, 0, 0, 0, 1536] := by
    rw [Sha2.pad, hl]
    show b ++ bytesOf u ++ [0x80] ++ List.replicate 47 0 ++ beBytes 16 1536 = _
    have ht : [0x80] ++ List.replicate 47 0 ++ beBytes 16 1536 = wordBytes [9223372036854775808, 0, 0, 0, 0, 0, 0, 1536] := by
      decide +kernel
    rw [List.append_assoc, List.append_assoc, List.append_assoc, ← List.append_assoc [0x80], ht, bytesOf]
    simp only [wordBytes, List.flatMap_cons, List.flatMap_nil, List.append_assoc, List.append_nil]
  have hq : (sha512Params.pad (b ++ bytesOf u)).length / (sha512Params.w * 2) = 2 := by
    rw [hp, List.length_append, hb, wordBytes_length]
    simp only [List.length_cons, List.length_nil]
    rfl
  have hw : sha512Params.w * 2 = 128 := rfl
  show sha512Params.digest init _ = _
  rw [Sha2.digest, hq, hp]
  rw [show sha512Params.blocks 2 = sha512Params.blocks (1 + 1) from rfl, Sha2.blocks, Sha2.blocks, Sha2.blocks, hw,
    List.take_append_of_le_length (by omega), List.take_of_length_le (by omega), List.drop_append,
    List.drop_of_length_le (by omega), hb, Nat.sub_self, List.nil_append, List.drop_zero,
    List.take_of_length_le (by rw [wordBytes_length]; simp), compress_eq hs hu, bytesOf]
  simp only [wordBytes, List.flatMap_cons, List.flatMap_nil, List.append_assoc, List.append_nil]
  rfl

theorem hmac_eq {key : Bytes} {i o : Words8} (hi : keyed key 0x36 = i) (ho : keyed key 0x5c = o) (si : Small i) (so : Small o)
    {u : Words8} (hu : Small u) : hmacSha512 key (bytesOf u) = bytesOf (compress o (compress i u)) := by
  have hkl : (if key.length > 128 then sha512 key else key).length ≤ 128 := by
    split
    · rw [sha512_length]; decide
    · omega
  rw [keyed] at hi ho
  rw [hmacSha512]
  generalize (if key.length > 128 then sha512 key else key) = k at *
  have hl : ∀ x : UInt8, ((k ++ List.replicate (128 - k.length) 0).map (· ^^^ x)).length = 128 := by
    intro x; simp; omega
  subst hi
  subst ho
  rw [sha512_block (hl _) si hu, sha512_block (hl _) so (compress_small _ _)]

theorem beBytes_xor (k a b : Nat) : xorBytes (beBytes k a) (beBytes k b) = beBytes k (a ^^^ b) := by
  induction k generalizing a b with
  | zero => rfl
  | succ k ih =>
    have hd : (a ^^^ b) / 256 = (a / 256) ^^^ (b / 256) := by
      rw [show 256 = 2 ^ 8 from rfl, ← Nat.shiftRight_eq_div_pow, ← Nat.shiftRight_eq_div_pow, ← Nat.shiftRight_eq_div_pow,
        Nat.shiftRight_xor_distrib]
    have hm : UInt8.ofNat ((a ^^^ b) % 256) = UInt8.ofNat (a % 256) ^^^ UInt8.ofNat (b % 256) := by
      apply UInt8.toNat_inj.1
      rw [UInt8.toNat_xor]
      simp only [UInt8.toNat_ofNat', Nat.mod_mod]
      exact xor_mod a b 8
    rw [beBytes, beBytes, beBytes, hd, hm, ← ih, xorBytes, xorBytes, List.zipWith_append (by simp)]
    rfl

theorem xorBytes_append {a b c d : Bytes} (h : a.length = c.length) :
    xorBytes (a ++ b) (c ++ d) = xorBytes a c ++ xorBytes b d := by
  rw [xorBytes, List.zipWith_append h]; rfl

theorem xor8_eq (s m : Words8) :
    xor8 s m = ⟨s.a ^^^ m.a, s.b ^^^ m.b, s.c ^^^ m.c, s.d ^^^ m.d, s.e ^^^ m.e, s.f ^^^ m.f, s.g ^^^ m.g, s.h ^^^ m.h⟩ := by
  obtain ⟨a, b, c, d, e, f, g, h⟩ := s
  obtain ⟨w0, w1, w2, w3, w4, w5, w6, w7⟩ := m
  rw [xor8]
  simp only [ev_eq]
  rfl

theorem bytesOf_xor (s m : Words8) : xorBytes (bytesOf s) (bytesOf m) = bytesOf (xor8 s m) := by
  rw [xor8_eq, bytesOf, bytesOf, bytesOf]
  simp only [wordBytes, List.flatMap_cons, List.flatMap_nil, List.append_nil]
  simp only [xorBytes_append (show (beBytes 8 _).length = (beBytes 8 _).length by simp), beBytes_xor]

theorem ev8_eq {α : Type} (s : Words8) (k : Words8 → α) : ev8 s k = k s := by cases s; rfl

theorem iter_succ (n : Nat) (i o u t : Words8) :
    iter (n + 1) i o u t = iter n i o (compress o (compress i u)) (xor8 t (compress o (compress i u))) := by
  have h : iter (n + 1) i o u t =
    ev8 (compress i u) fun x => ev8 (compress o x) fun y => ev8 (xor8 t y) fun z => iter n i o y z := rfl
  rw [h, ev8_eq, ev8_eq, ev8_eq]

theorem iter_add (m n : Nat) (i o u t : Words8) :
    iter (m + n) i o u t = iter n i o (iter m i o u t).1 (iter m i o u t).2 := by
  induction m generalizing u t with
  | zero => rw [Nat.zero_add]; rfl
  | succ m ih => rw [Nat.add_right_comm, iter_succ, ih, iter_succ]

/-- One after the other. -/
theorem iter_trans {m n : Nat} (k : Nat) (hk : m + n = k) {i o u t u' t' u'' t'' : Words8} (h1 : iter m i o u t = (u', t'))
    (h2 : iter n i o u' t' = (u'', t'')) : iter k i o u t = (u'', t'') := by
  rw [← hk, iter_add, h1, h2]

theorem pbkdf2Rounds_eq {key : Bytes} {i o : Words8} (hi : keyed key 0x36 = i) (ho : keyed key 0x5c = o) (si : Small i)
    (so : Small o) (n : Nat) {u : Words8} (t : Words8) (hu : Small u) :
    pbkdf2Rounds (hmacSha512 key) n (bytesOf u) (bytesOf t) = bytesOf (iter n i o u t).2 := by
  induction n generalizing u t with
  | zero => rfl
  | succ n ih =>
    rw [pbkdf2Rounds, hmac_eq hi ho si so hu, bytesOf_xor, iter_succ]
    exact ih _ (compress_small _ _)

/-- `bip39.NewSeed` from the states of the two hashes, the first block, and the loop. -/
theorem newSeed_eq {m p : Bytes} {i o u v t : Words8} (hi : keyed m 0x36 = i) (ho : keyed m 0x5c = o) (si : Small i)
    (so : Small o) (su : Small u) (hu : hmacSha512 m (str "mnemonic" ++ p ++ [0, 0, 0, 1]) = bytesOf u)
    (ht : iter 2047 i o u u = (v, t)) : newSeed goHashes m p = bytesOf t := by
  rw [newSeed, pbkdf2Key]
  show ((List.range 1).flatMap fun b => pbkdf2Block (hmacSha512 m) (str "mnemonic" ++ p) 2048 (b + 1)).take 64 = _
  rw [List.range_one, List.flatMap_singleton, pbkdf2Block]
  have hb : beBytes 4 (0 + 1) = [0, 0, 0, 1] := by decide
  rw [hb, hu, show 2048 - 1 = 2047 from rfl, pbkdf2Rounds_eq hi ho si so _ _ su, ht,
    List.take_of_length_le (by rw [bytesOf, wordBytes_length]; simp)]

end Bips.Fast
