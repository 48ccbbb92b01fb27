import Verif.Model.Bip39
import Verif.Spec.Bip39
import Verif.Lemmas.Utf8
import Mathlib.Data.List.Nodup
import Mathlib.Data.Nat.Bitwise

/-! # Lemmas for bip39 -/

namespace Bips
open Spec

/-! ### Bits and numbers -/

/-- Value of a bit list, most significant bit first. -/
def bv (l : List Bool) : Nat := ofDigitsBE 2 (l.map Bool.toNat)

theorem bv_append (a b : List Bool) : bv (a ++ b) = bv a * 2 ^ b.length + bv b := by
  simp [bv, ofDigitsBE_append]

theorem bv_lt (l : List Bool) : bv l < 2 ^ l.length := by
  have := ofDigitsBE_lt 2 (l.map Bool.toNat) (by
    intro d hd
    obtain ⟨b, -, rfl⟩ := List.mem_map.1 hd
    cases b <;> decide)
  simpa [bv] using this

theorem bv_inj {a b : List Bool} (hl : a.length = b.length) (h : bv a = bv b) : a = b := by
  have hlt : ∀ l : List Bool, ∀ d ∈ l.map Bool.toNat, d < 2 := by
    intro l d hd
    obtain ⟨b, -, rfl⟩ := List.mem_map.1 hd
    cases b <;> decide
  have := ofDigitsBE_inj 2 (a.map Bool.toNat) (b.map Bool.toNat) (by simpa using hl) (hlt a) (hlt b) h
  refine List.map_injective_iff.2 ?_ this
  intro x y; cases x <;> cases y <;> decide

@[simp] theorem bitsN_length (k n : Nat) : (bitsN k n).length = k := by simp [bitsN]

theorem bitsN_succ (k n : Nat) : bitsN (k + 1) n = bitsN k (n / 2) ++ [n.testBit 0] := by
  unfold bitsN
  rw [List.range_succ, List.map_append, List.map_singleton]
  congr 1
  · apply List.map_congr_left
    intro i hi
    rw [List.mem_range] at hi
    rw [← Nat.testBit_succ]
    congr 1; omega
  · simp

theorem bv_bitsN (k n : Nat) : bv (bitsN k n) = n % 2 ^ k := by
  induction k generalizing n with
  | zero => simp [bitsN, bv, Nat.mod_one]
  | succ k ih =>
    rw [bitsN_succ, bv_append, ih, List.length_singleton]
    have h1 : bv [n.testBit 0] = n % 2 := by
      rw [Nat.testBit_zero]
      rcases Nat.mod_two_eq_zero_or_one n with h | h <;> rw [h] <;> rfl
    rw [h1, pow_succ' 2 k, Nat.mod_mul]; omega

theorem bits_length (b : Bytes) : (bits b).length = 8 * b.length := by
  induction b with
  | nil => rfl
  | cons x b ih =>
    have : bits (x :: b) = bitsN 8 x.toNat ++ bits b := rfl
    rw [this, List.length_append, ih, bitsN_length, List.length_cons]; omega

theorem bv_bits (b : Bytes) : bv (bits b) = setBytes b := by
  induction b with
  | nil => rfl
  | cons x b ih =>
    have : bits (x :: b) = bitsN 8 x.toNat ++ bits b := rfl
    rw [this, bv_append, ih, bv_bitsN, setBytes_cons, bits_length, pow_mul,
      Nat.mod_eq_of_lt (show x.toNat < 2 ^ 8 from x.toNat_lt), show (2 : Nat) ^ 8 = 256 from rfl]

theorem flatMap_bitsN_length (k : Nat) (idx : List Nat) : (idx.flatMap (bitsN k)).length = k * idx.length := by
  induction idx with
  | nil => rfl
  | cons i idx ih => rw [List.flatMap_cons, List.length_append, ih, bitsN_length, List.length_cons]; ring

theorem bv_idx (idx : List Nat) (h : ∀ i ∈ idx, i < 2048) : bv (idx.flatMap (bitsN 11)) = ofDigitsBE 2048 idx := by
  induction idx with
  | nil => rfl
  | cons i idx ih =>
    rw [List.flatMap_cons, bv_append, ih (fun j hj => h j (by simp [hj])), bv_bitsN, ofDigitsBE_cons,
      flatMap_bitsN_length, pow_mul, Nat.mod_eq_of_lt (show i < 2 ^ 11 from h i (by simp)),
      show (2 : Nat) ^ 11 = 2048 from rfl]

theorem bv_take (l : List Bool) (k : Nat) : bv (l.take k) = bv l / 2 ^ (l.length - k) := by
  have h1 := bv_append (l.take k) (l.drop k)
  rw [List.take_append_drop, List.length_drop] at h1
  have h2 := bv_lt (l.drop k)
  rw [List.length_drop] at h2
  rw [h1, Nat.mul_comm, Nat.mul_add_div (by positivity), Nat.div_eq_of_lt h2, add_zero]

/-- The checksum bits are the top bits of the first hash byte. -/
theorem bv_checksum (h : Bytes) (hl : h.length = 32) (k : Nat) (hk : k ≤ 8) :
    bv ((bits h).take k) = (h.headD 0).toNat / 2 ^ (8 - k) ∧ ((bits h).take k).length = k := by
  cases h with
  | nil => simp at hl
  | cons c l =>
    have : bits (c :: l) = bitsN 8 c.toNat ++ bits l := rfl
    rw [this, List.take_append_of_le_length (by simpa using hk), bv_take, bv_bitsN,
      bitsN_length, Nat.mod_eq_of_lt (show c.toNat < 2 ^ 8 from c.toNat_lt)]
    refine ⟨rfl, by simpa using hk⟩

/-- `Encodes` as an equation between numbers. -/
theorem encodes_bits_iff (H : Hashes) (e : Bytes) (k : Nat) (he : e.length = 4 * k) (hk : k ≤ 8) (idx : List Nat)
    (hidx : ∀ i ∈ idx, i < 2048) :
    idx.flatMap (bitsN 11) = mnemonicBits H.sha256 e ↔
      idx.length = 3 * k ∧
      ofDigitsBE 2048 idx = setBytes e * 2 ^ k + ((H.sha256 e).headD 0).toNat / 2 ^ (8 - k) := by
  obtain ⟨c1, c2⟩ := bv_checksum (H.sha256 e) (H.sha256_length e) k hk
  have hk' : (bits e).length / 32 = k := by rw [bits_length, he]; omega
  have hM : bv (mnemonicBits H.sha256 e) = setBytes e * 2 ^ k + ((H.sha256 e).headD 0).toNat / 2 ^ (8 - k) := by
    rw [mnemonicBits, hk', bv_append, bv_bits, c1, c2]
  have hL : (mnemonicBits H.sha256 e).length = 11 * (3 * k) := by
    rw [mnemonicBits, hk', List.length_append, c2, bits_length, he]; ring
  rw [← hM, ← bv_idx idx hidx]
  constructor
  · intro h
    refine ⟨?_, by rw [h]⟩
    have := congrArg List.length h
    rw [flatMap_bitsN_length, hL] at this
    omega
  · rintro ⟨h1, h2⟩
    exact bv_inj (by rw [flatMap_bitsN_length, hL, h1]) h2

/-! ### The reverse map -/

theorem fillWordMap_some (l : List Bytes) (i : Nat) (m : Bytes → Option Nat) (w : Bytes) (j : Nat) :
    fillWordMap l i m w = some j ↔
      (∃ p, l[p]? = some w ∧ j = i + p ∧ ∀ q, p < q → l[q]? ≠ some w) ∨ (w ∉ l ∧ m w = some j) := by
  induction l generalizing i m with
  | nil => simp [fillWordMap]
  | cons v l ih =>
    rw [fillWordMap, ih]
    by_cases hv : w = v
    · subst hv
      rw [if_pos rfl]
      constructor
      · rintro (⟨p, h1, h2, h3⟩ | ⟨h1, h2⟩)
        · left
          refine ⟨p + 1, by simpa using h1, by omega, ?_⟩
          intro q hq
          obtain ⟨q, rfl⟩ : ∃ r, q = r + 1 := ⟨q - 1, by omega⟩
          simpa using h3 q (by omega)
        · left
          refine ⟨0, rfl, by simpa using h2.symm, ?_⟩
          intro q hq e
          obtain ⟨q, rfl⟩ : ∃ r, q = r + 1 := ⟨q - 1, by omega⟩
          rw [List.getElem?_cons_succ] at e
          exact h1 (List.mem_of_getElem? e)
      · rintro (⟨p, h1, h2, h3⟩ | ⟨h1, h2⟩)
        · cases p with
          | zero =>
            right
            refine ⟨?_, by simpa using h2.symm⟩
            intro hw
            obtain ⟨q, hq⟩ := List.getElem?_of_mem hw
            exact h3 (q + 1) (by omega) (by simpa using hq)
          | succ p =>
            left
            refine ⟨p, by simpa using h1, by omega, fun q hq => ?_⟩
            simpa using h3 (q + 1) (by omega)
        · simp at h1
    · rw [if_neg hv]
      constructor
      · rintro (⟨p, h1, h2, h3⟩ | ⟨h1, h2⟩)
        · left
          refine ⟨p + 1, by simpa using h1, by omega, ?_⟩
          intro q hq
          obtain ⟨q, rfl⟩ : ∃ r, q = r + 1 := ⟨q - 1, by omega⟩
          simpa using h3 q (by omega)
        · right
          exact ⟨by simp [hv, h1], h2⟩
      · rintro (⟨p, h1, h2, h3⟩ | ⟨h1, h2⟩)
        · cases p with
          | zero => simp at h1; exact absurd h1.symm hv
          | succ p =>
            left
            refine ⟨p, by simpa using h1, by omega, fun q hq => ?_⟩
            simpa using h3 (q + 1) (by omega)
        · right
          exact ⟨fun h => h1 (by simp [h]), h2⟩

/-- The reverse index holds the last position of a word. -/
theorem setWordList_map_some (l : List Bytes) (w : Bytes) (i : Nat) :
    (setWordList l).map w = some i ↔ l[i]? = some w ∧ ∀ q, i < q → l[q]? ≠ some w := by
  change fillWordMap l 0 (fun _ => none) w = some i ↔ _
  rw [fillWordMap_some]
  constructor
  · rintro (⟨p, h1, h2, h3⟩ | ⟨-, h⟩)
    · rw [Nat.zero_add] at h2; subst h2; exact ⟨h1, h3⟩
    · simp at h
  · rintro ⟨h1, h2⟩
    exact Or.inl ⟨i, h1, by simp, h2⟩

theorem setWordList_map_none (l : List Bytes) (w : Bytes) : (setWordList l).map w = none ↔ w ∉ l := by
  constructor
  · intro h hw
    -- the last occurrence
    obtain ⟨i, hi⟩ := List.getElem?_of_mem hw
    have : ∃ i : Nat, l[i]? = some w ∧ ∀ q, i < q → l[q]? ≠ some w := by
      by_contra hcon
      push Not at hcon
      have : ∀ n : Nat, ∃ j : Nat, n ≤ j ∧ l[j]? = some w := by
        intro n
        induction n with
        | zero => exact ⟨i, by omega, hi⟩
        | succ n ih =>
          obtain ⟨j, hj, hjw⟩ := ih
          obtain ⟨q, hq, hqw⟩ := hcon j hjw
          exact ⟨q, by omega, hqw⟩
      obtain ⟨j, hj, hjw⟩ := this l.length
      rw [List.getElem?_eq_none hj] at hjw
      simp at hjw
    obtain ⟨i, hi⟩ := this
    rw [(setWordList_map_some l w i).2 hi] at h
    simp at h
  · intro h
    cases hm : (setWordList l).map w with
    | none => rfl
    | some i => exact absurd (List.mem_of_getElem? ((setWordList_map_some l w i).1 hm).1) h

/-- Without duplicates, the only position. -/
theorem setWordList_map_nodup {l : List Bytes} (hn : l.Nodup) (w : Bytes) (i : Nat) :
    (setWordList l).map w = some i ↔ l[i]? = some w := by
  rw [setWordList_map_some]
  refine ⟨fun h => h.1, fun h => ⟨h, ?_⟩⟩
  intro q hq e
  obtain ⟨h1, h2⟩ := List.getElem?_eq_some_iff.1 h
  obtain ⟨h3, h4⟩ := List.getElem?_eq_some_iff.1 e
  have := (List.Nodup.getElem_inj_iff hn (hi := h1) (hj := h3)).1 (h2.trans h4.symm)
  omega

/-! ### Decoding words -/

theorem mul_or_eq_add (b i : Nat) (h : i < 2048) : (b * 2048) ||| i = b * 2048 + i := by
  have := Nat.two_pow_add_eq_or_of_lt (i := 11) (b := i) h b
  rw [Nat.mul_comm]; exact this.symm

/-- Successful decoding against a good list. -/
theorem decodeWords_inl {l : List Bytes} (hn : l.Nodup) (hl : l.length = 2048) (ws : List Bytes) (b N : Nat) :
    decodeWords (setWordList l).map ws b = .inl N ↔
      ∃ idx : List Nat, (∀ i ∈ idx, i < 2048) ∧ ws.map some = idx.map (l[·]?) ∧
        N = b * 2048 ^ idx.length + ofDigitsBE 2048 idx := by
  induction ws generalizing b with
  | nil =>
    simp only [decodeWords, Sum.inl.injEq, List.map_nil]
    constructor
    · rintro rfl; exact ⟨[], by simp⟩
    · rintro ⟨idx, -, h, rfl⟩
      have : idx = [] := by simpa using h.symm
      subst this; simp
  | cons w ws ih =>
    rw [decodeWords]
    cases hm : (setWordList l).map w with
    | none =>
      simp only [reduceCtorEq, false_iff]
      rintro ⟨idx, -, h, -⟩
      cases idx with
      | nil => simp at h
      | cons i idx =>
        simp only [List.map_cons, List.cons.injEq] at h
        exact (setWordList_map_none l w).1 hm (List.mem_of_getElem? h.1.symm)
    | some i =>
      have hi := (setWordList_map_nodup hn w i).1 hm
      have hil : i < 2048 := by
        rw [← hl]; exact (List.getElem?_eq_some_iff.1 hi).1
      have e1 : setBytes (beBytes 2 (i % 65536)) = i := by
        rw [setBytes_beBytes]; omega
      dsimp only
      rw [e1, mul_or_eq_add b i hil, ih]
      constructor
      · rintro ⟨idx, h1, h2, h3⟩
        refine ⟨i :: idx, by simpa [hil] using h1, by simp [h2, hi], ?_⟩
        rw [h3, ofDigitsBE_cons, List.length_cons, pow_succ']; ring
      · rintro ⟨idx, h1, h2, h3⟩
        cases idx with
        | nil => simp at h2
        | cons j idx =>
          simp only [List.map_cons, List.cons.injEq] at h2
          obtain ⟨h4, h5⟩ := h2
          have hji : j = i := by
            have := (setWordList_map_nodup hn w j).2 h4.symm
            rw [hm] at this
            exact (Option.some.inj this).symm
          subst hji
          refine ⟨idx, fun x hx => h1 x (by simp [hx]), h5, ?_⟩
          rw [h3, ofDigitsBE_cons, List.length_cons, pow_succ']; ring

/-- The first unknown word is reported. -/
theorem decodeWords_inr (m : Bytes → Option Nat) (ws : List Bytes) (b : Nat) (e : Err) :
    decodeWords m ws b = .inr e ↔ ∃ pre w post, ws = pre ++ w :: post ∧ (∀ v ∈ pre, m v ≠ none) ∧ m w = none ∧
      e = .unknownWord w := by
  induction ws generalizing b with
  | nil => simp [decodeWords]
  | cons v ws ih =>
    rw [decodeWords]
    cases hm : m v with
    | none =>
      simp only [Sum.inr.injEq]
      constructor
      · rintro rfl; exact ⟨[], v, ws, rfl, by simp, hm, rfl⟩
      · rintro ⟨pre, w, post, h1, h2, h3, rfl⟩
        cases pre with
        | nil => simp only [List.nil_append, List.cons.injEq] at h1; rw [h1.1]
        | cons p pre =>
          simp only [List.cons_append, List.cons.injEq] at h1
          exact absurd hm (h1.1 ▸ h2 p (by simp))
    | some i =>
      dsimp only
      rw [ih]
      constructor
      · rintro ⟨pre, w, post, h1, h2, h3, h4⟩
        refine ⟨v :: pre, w, post, by simp [h1], ?_, h3, h4⟩
        intro x hx
        rcases List.mem_cons.1 hx with rfl | hx
        · rw [hm]; simp
        · exact h2 x hx
      · rintro ⟨pre, w, post, h1, h2, h3, h4⟩
        cases pre with
        | nil =>
          simp only [List.nil_append, List.cons.injEq] at h1
          rw [← h1.1, hm] at h3; simp at h3
        | cons p pre =>
          simp only [List.cons_append, List.cons.injEq] at h1
          exact ⟨pre, w, post, h1.2, fun x hx => h2 x (by simp [hx]), h3, h4⟩

/-! ### Adding the checksum -/

theorem bit_and (c i : Nat) : (c &&& 2 ^ (7 - i) > 0) ↔ c / 2 ^ (7 - i) % 2 = 1 := by
  rw [Nat.and_two_pow]
  have ht : c.testBit (7 - i) = decide (c / 2 ^ (7 - i) % 2 = 1) := Nat.testBit_eq_decide_div_mod_eq
  rw [ht]
  by_cases h : c / 2 ^ (7 - i) % 2 = 1
  · simp [h]
  · simp [h]

theorem double_or_one (d : Nat) : d * 2 ||| 1 = d * 2 + 1 := by
  have := Nat.two_pow_add_eq_or_of_lt (i := 1) (b := 1) (by decide) d
  rw [Nat.mul_comm]; exact this.symm

theorem addChecksumLoop_eq (c : UInt8) (k i d : Nat) (h : i + k ≤ 8) :
    addChecksumLoop c k i (d * 2 ^ i + c.toNat / 2 ^ (8 - i)) = d * 2 ^ (i + k) + c.toNat / 2 ^ (8 - (i + k)) := by
  induction k generalizing i with
  | zero => rfl
  | succ k ih =>
    rw [addChecksumLoop]
    simp only [show i ≤ 7 by omega, if_true]
    have hstep : (if c.toNat &&& 2 ^ (7 - i) > 0 then (d * 2 ^ i + c.toNat / 2 ^ (8 - i)) * 2 ||| 1
        else (d * 2 ^ i + c.toNat / 2 ^ (8 - i)) * 2) = d * 2 ^ (i + 1) + c.toNat / 2 ^ (8 - (i + 1)) := by
      have e1 : c.toNat / 2 ^ (8 - i) = c.toNat / 2 ^ (7 - i) / 2 := by
        rw [Nat.div_div_eq_div_mul, ← pow_succ, show 7 - i + 1 = 8 - i by omega]
      have e2 : 8 - (i + 1) = 7 - i := by omega
      rw [e2, e1, pow_succ, ← Nat.mul_assoc]
      generalize hx : d * 2 ^ i = x
      have hb := bit_and c.toNat i
      generalize c.toNat / 2 ^ (7 - i) = y at hb ⊢
      by_cases hy : y % 2 = 1
      · rw [if_pos (hb.2 hy), double_or_one]; omega
      · rw [if_neg (fun hh => hy (hb.1 hh))]; omega
    rw [hstep, ih (i + 1) (by omega), show i + 1 + k = i + (k + 1) by omega]

theorem setBytes_addChecksum (H : Hashes) (e : Bytes) (k : Nat) (he : e.length = 4 * k) (hk : k ≤ 8) :
    setBytes (addChecksum H e) = setBytes e * 2 ^ k + ((H.sha256 e).headD 0).toNat / 2 ^ (8 - k) := by
  rw [addChecksum, setBytes_bigBytes, show e.length / 4 = k by omega]
  have := addChecksumLoop_eq ((computeChecksum H e).headD 0) k 0 (setBytes e) (by omega)
  rw [Nat.zero_add, pow_zero, Nat.mul_one, Nat.sub_zero] at this
  have hc : ((computeChecksum H e).headD 0).toNat / 2 ^ 8 = 0 :=
    Nat.div_eq_of_lt ((computeChecksum H e).headD 0).toNat_lt
  rw [hc, add_zero] at this
  exact this

/-! ### Encoding words -/

theorem padByteSlice_eq (s : Bytes) (n : Nat) : padByteSlice s n = padLeft n s := by
  unfold padByteSlice padLeft
  split
  · rw [show n - s.length = 0 by omega]; rfl
  · rfl

theorem encodeWords_spec {l : List Bytes} (hl : 2048 ≤ l.length) (k N : Nat) (acc : List Bytes) :
    ∃ idx : List Nat, ∃ ws, idx.length = k ∧ (∀ i ∈ idx, i < 2048) ∧ ofDigitsBE 2048 idx = N % 2048 ^ k ∧
      ws.map some = idx.map (l[·]?) ∧ encodeWords l k N acc = .ok (ws ++ acc) := by
  induction k generalizing N acc with
  | zero => exact ⟨[], [], rfl, by simp, by simp [Nat.mod_one], rfl, rfl⟩
  | succ k ih =>
    have hword : setBytes (padByteSlice (bigBytes (N &&& 2047)) 2) = N % 2048 := by
      rw [padByteSlice_eq, setBytes_padLeft, setBytes_bigBytes]
      exact Nat.and_two_pow_sub_one_eq_mod N 11
    have hlt : N % 2048 < 2048 := Nat.mod_lt _ (by omega)
    have hget : l[N % 2048]? = some l[N % 2048] := List.getElem?_eq_getElem (by omega)
    obtain ⟨idx, ws, h1, h2, h3, h4, h5⟩ := ih (N / 2048) (l[N % 2048] :: acc)
    refine ⟨idx ++ [N % 2048], ws ++ [l[N % 2048]], by simp [h1], ?_, ?_, ?_, ?_⟩
    · intro i hi
      rcases List.mem_append.1 hi with h | h
      · exact h2 i h
      · rw [List.mem_singleton.1 h]; exact hlt
    · rw [ofDigitsBE_concat, h3, pow_succ' 2048 k, Nat.mod_mul]; omega
    · simp [h4, hget]
    · rw [encodeWords]
      rw [hword, hget]
      dsimp only
      rw [h5]; simp

/-! ### Lengths -/

theorem validate_none_iff (n : Nat) : validateEntropyBitSize ((n * 8 : Nat) : Int) = none ↔ n ∈ entropySizes := by
  unfold validateEntropyBitSize
  have : ((n * 8 : Nat) : Int).tmod 32 = ((n * 8 % 32 : Nat) : Int) := rfl
  rw [this]
  constructor
  · intro h
    split at h
    · simp at h
    · simp only [entropySizes, List.mem_cons, List.not_mem_nil, or_false]; omega
  · intro h
    simp only [entropySizes, List.mem_cons, List.not_mem_nil, or_false] at h
    rw [if_neg (by omega)]

theorem entropySizes_iff (n : Nat) : n ∈ entropySizes ↔ ∃ k, n = 4 * k ∧ 4 ≤ k ∧ k ≤ 8 := by
  simp only [entropySizes, List.mem_cons, List.not_mem_nil, or_false]
  constructor
  · rintro (rfl | rfl | rfl | rfl | rfl)
    exacts [⟨4, by omega⟩, ⟨5, by omega⟩, ⟨6, by omega⟩, ⟨7, by omega⟩, ⟨8, by omega⟩]
  · rintro ⟨k, rfl, h1, h2⟩; omega

theorem sentenceLengths_iff (n : Nat) : n ∈ sentenceLengths ↔ ∃ k, n = 3 * k ∧ 4 ≤ k ∧ k ≤ 8 := by
  simp only [sentenceLengths, List.mem_cons, List.not_mem_nil, or_false]
  constructor
  · rintro (rfl | rfl | rfl | rfl | rfl)
    exacts [⟨4, by omega⟩, ⟨5, by omega⟩, ⟨6, by omega⟩, ⟨7, by omega⟩, ⟨8, by omega⟩]
  · rintro ⟨k, rfl, h1, h2⟩; omega

theorem splitMnemonicWords_eq (s : Bytes) :
    splitMnemonicWords s = if (fields s).length ∈ sentenceLengths then (fields s, true) else ([], false) := by
  unfold splitMnemonicWords
  dsimp only
  by_cases h : (fields s).length ∈ sentenceLengths
  · rw [if_pos h, if_neg]
    obtain ⟨k, hk, h1, h2⟩ := (sentenceLengths_iff _).1 h
    omega
  · rw [if_neg h, if_pos]
    by_contra hcon
    apply h
    simp only [sentenceLengths, List.mem_cons, List.not_mem_nil, or_false]
    omega

/-- The tables for a sentence of `3k` words. -/
theorem checksumTables (k : Nat) (h1 : 4 ≤ k) (h2 : k ≤ 8) : checksumMask (3 * k) = some (2 ^ k - 1) ∧
    (3 * k ≠ 24 → checksumShift (3 * k) = some (2 ^ (8 - k))) ∧ (3 * k = 24 → 2 ^ (8 - k) = 1) := by
  obtain rfl | rfl | rfl | rfl | rfl : k = 4 ∨ k = 5 ∨ k = 6 ∨ k = 7 ∨ k = 8 := by omega
  all_goals decide

/-- `EntropyFromMnemonic` once the words decode to the number `N`. -/
theorem entropy_of_number (H : Hashes) (S : WordState) (s : Bytes) (k N : Nat) (hk1 : 4 ≤ k) (hk2 : k ≤ 8)
    (hw : (fields s).length = 3 * k) (hN : decodeWords S.map (fields s) 0 = .inl N) (hlt : N < 2048 ^ (3 * k)) :
    entropyFromMnemonic H S s =
      if N % 2 ^ k = ((H.sha256 (beBytes (4 * k) (N / 2 ^ k))).headD 0).toNat / 2 ^ (8 - k)
      then .ok (beBytes (4 * k) (N / 2 ^ k), none) else .ok ([], some .checksumIncorrect) := by
  obtain ⟨t1, t2, t3⟩ := checksumTables k hk1 hk2
  have hpos : 0 < 2 ^ k := by positivity
  have hent : padByteSlice (bigBytes (N / (2 ^ k - 1 + 1))) (3 * k / 3 * 4) = beBytes (4 * k) (N / 2 ^ k) := by
    rw [padByteSlice_eq, show 3 * k / 3 * 4 = 4 * k by omega, show 2 ^ k - 1 + 1 = 2 ^ k by omega]
    apply padLeft_bigBytes
    apply Nat.div_lt_of_lt_mul
    calc N < 2048 ^ (3 * k) := hlt
      _ = 2 ^ k * 256 ^ (4 * k) := by
        rw [show (2048 : Nat) = 2 ^ 11 by rfl, show (256 : Nat) = 2 ^ 8 by rfl, ← pow_mul, ← pow_mul, ← pow_add]
        congr 1; ring
  rw [entropyFromMnemonic, splitMnemonicWords_eq, if_pos ((sentenceLengths_iff _).2 ⟨k, hw, hk1, hk2⟩)]
  dsimp only
  rw [hN, hw, t1]
  dsimp only
  rw [hent, Nat.and_two_pow_sub_one_eq_mod, computeChecksum]
  by_cases h24 : 3 * k = 24
  · rw [if_neg (by simpa using h24), t3 h24, Nat.div_one]
    by_cases hc : N % 2 ^ k = ((H.sha256 (beBytes (4 * k) (N / 2 ^ k))).headD 0).toNat
    · rw [if_pos hc, if_neg (by simpa using hc)]
    · rw [if_neg hc, if_pos (by simpa using hc)]
  · rw [if_pos h24, t2 h24]
    dsimp only
    by_cases hc : N % 2 ^ k = ((H.sha256 (beBytes (4 * k) (N / 2 ^ k))).headD 0).toNat / 2 ^ (8 - k)
    · rw [if_pos hc, if_neg (by simpa using hc)]
    · rw [if_neg hc, if_pos (by simpa using hc)]

end Bips
