import Verif.Lemmas.Bip39
import Verif.Lemmas.Path

/-!
# C01–C08: mnemonics

`GoodList`, `Encodes`, `Layout` and the bit-level statement of BIP-39 are in Spec/Bip39 and Spec/Words.
-/

namespace Bips
open Spec

/-- Words with one separator between them. -/
theorem layout_intercalate {c : Nat} (hc : c ∈ whiteSpace) (ws : List Bytes) (h : ∀ w ∈ ws, IsWord w) :
    Layout ((utf8 c).intercalate ws) ws := by
  induction ws with
  | nil => exact .nil isWs_nil
  | cons w ws ih =>
    cases ws with
    | nil =>
      have := Layout.last isWs_nil (h w (by simp)) isWs_nil
      simpa [List.intercalate] using this
    | cons v ws =>
      have := Layout.cons isWs_nil (h w (by simp)) (sep := utf8 c) (by simpa using isWs_cons hc isWs_nil)
        (utf8_ne_nil c) (ih fun x hx => h x (by simp [hx]))
      simpa [List.intercalate, List.append_assoc] using this

theorem joinByte_eq_intercalate (b : UInt8) (ws : List Bytes) : joinByte b ws = [b].intercalate ws := by
  induction ws with
  | nil => rfl
  | cons w ws ih =>
    cases ws with
    | nil => simp [joinByte, List.intercalate]
    | cons v ws =>
      rw [joinByte, ih]
      · simp [List.intercalate]
      · simp

theorem utf8_space : utf8 0x20 = [32] := rfl

theorem fields_join (ws : List Bytes) (h : ∀ w ∈ ws, IsWord w) : fields ([32].intercalate ws) = ws :=
  fields_layout (layout_intercalate (c := 0x20) (by decide) ws h)

section
variable (H : Hashes) {l : List Bytes} (hg : GoodList l)
include hg

omit hg in
theorem words_of_idx {ws : List Bytes} {idx : List Nat} (h : ws.map some = idx.map (l[·]?)) : ∀ w ∈ ws, w ∈ l := by
  intro w hw
  have : some w ∈ idx.map (l[·]?) := by rw [← h]; exact List.mem_map_of_mem hw
  obtain ⟨i, -, hi⟩ := List.mem_map.1 this
  exact List.mem_of_getElem? hi

theorem idx_of_words (ws : List Bytes) (h : ∀ w ∈ ws, w ∈ l) :
    ∃ idx : List Nat, (∀ i ∈ idx, i < 2048) ∧ ws.map some = idx.map (l[·]?) := by
  induction ws with
  | nil => exact ⟨[], by simp⟩
  | cons w ws ih =>
    obtain ⟨idx, h1, h2⟩ := ih fun x hx => h x (by simp [hx])
    obtain ⟨i, hi⟩ := List.getElem?_of_mem (h w (by simp))
    refine ⟨i :: idx, ?_, by simp [h2, hi]⟩
    intro j hj
    rcases List.mem_cons.1 hj with rfl | hj
    · rw [← hg.length]; exact (List.getElem?_eq_some_iff.1 hi).1
    · exact h1 j hj

omit hg in
theorem idx_lt {idx : List Nat} (h : ∀ i ∈ idx, i < 2048) : ofDigitsBE 2048 idx < 2048 ^ idx.length :=
  ofDigitsBE_lt 2048 idx h

/-- The words at positions `idx`, decoded. -/
theorem entropy_of_idx {s : Bytes} {k : Nat} (hk1 : 4 ≤ k) (hk2 : k ≤ 8) {idx : List Nat} (h1 : ∀ i ∈ idx, i < 2048)
    (h2 : (fields s).map some = idx.map (l[·]?)) (hlen : idx.length = 3 * k) :
    let N := ofDigitsBE 2048 idx
    entropyFromMnemonic H (setWordList l) s =
      if N % 2 ^ k = ((H.sha256 (beBytes (4 * k) (N / 2 ^ k))).headD 0).toNat / 2 ^ (8 - k)
      then .ok (beBytes (4 * k) (N / 2 ^ k), none) else .ok ([], some .checksumIncorrect) := by
  have hw : (fields s).length = 3 * k := by
    have := congrArg List.length h2
    simpa [hlen] using this
  have hd := (decodeWords_inl hg.nodup hg.length (fields s) 0 (ofDigitsBE 2048 idx)).2
    ⟨idx, h1, h2, by simp⟩
  exact entropy_of_number H _ s k _ hk1 hk2 hw hd (by rw [← hlen]; exact idx_lt h1)

theorem entropy_iff (s e : Bytes) :
    entropyFromMnemonic H (setWordList l) s = .ok (e, none) ↔
      ∃ ws, Layout s ws ∧ e.length ∈ entropySizes ∧ Encodes H.sha256 l e ws := by
  constructor
  · intro h
    by_cases hc : (fields s).length ∈ sentenceLengths
    swap
    · rw [entropyFromMnemonic, splitMnemonicWords_eq, if_neg hc] at h
      simp at h
    obtain ⟨k, hk, hk1, hk2⟩ := (sentenceLengths_iff _).1 hc
    cases hd : decodeWords (setWordList l).map (fields s) 0 with
    | inr er =>
      rw [entropyFromMnemonic, splitMnemonicWords_eq, if_pos hc] at h
      dsimp only at h
      rw [hd] at h
      simp at h
    | inl N =>
      obtain ⟨idx, h1, h2, -⟩ := (decodeWords_inl hg.nodup hg.length _ _ _).1 hd
      have hlen : idx.length = 3 * k := by
        have := congrArg List.length h2
        rw [← hk]; simpa using this.symm
      have hN := entropy_of_idx H hg hk1 hk2 h1 h2 hlen
      rw [h] at hN
      dsimp only at hN
      split at hN
      · rename_i hcs
        simp only [Outcome.ok.injEq, Prod.mk.injEq, and_true] at hN
        have he : e.length = 4 * k := by rw [hN]; simp
        refine ⟨fields s, layout_fields s, (entropySizes_iff _).2 ⟨k, he, hk1, hk2⟩, idx, h1, h2, ?_⟩
        rw [encodes_bits_iff H e k he hk2 idx h1]
        refine ⟨hlen, ?_⟩
        have hse : setBytes e = ofDigitsBE 2048 idx / 2 ^ k := by
          rw [hN, setBytes_beBytes]
          apply Nat.mod_eq_of_lt
          apply Nat.div_lt_of_lt_mul
          have := idx_lt h1
          rw [hlen] at this
          calc ofDigitsBE 2048 idx < 2048 ^ (3 * k) := this
            _ = 2 ^ k * 256 ^ (4 * k) := by
              rw [show (2048 : Nat) = 2 ^ 11 by rfl, show (256 : Nat) = 2 ^ 8 by rfl, ← pow_mul, ← pow_mul, ← pow_add]
              congr 1; ring
        rw [← hN] at hcs
        rw [hse, ← hcs, Nat.mul_comm, Nat.div_add_mod]
      · simp at hN
  · rintro ⟨ws, hs, he, idx, h1, h2, h3⟩
    obtain ⟨k, he, hk1, hk2⟩ := (entropySizes_iff _).1 he
    obtain ⟨hlen, hv⟩ := (encodes_bits_iff H e k he hk2 idx h1).1 h3
    have hf := fields_layout hs
    have hc : ((H.sha256 e).headD 0).toNat / 2 ^ (8 - k) < 2 ^ k := by
      apply Nat.div_lt_of_lt_mul
      rw [← pow_add, show 8 - k + k = 8 by omega]
      exact ((H.sha256 e).headD 0).toNat_lt
    have hdiv : ofDigitsBE 2048 idx / 2 ^ k = setBytes e := by
      rw [hv, Nat.mul_comm, Nat.mul_add_div (by positivity), Nat.div_eq_of_lt hc, add_zero]
    have hmod : ofDigitsBE 2048 idx % 2 ^ k = ((H.sha256 e).headD 0).toNat / 2 ^ (8 - k) := by
      rw [hv, Nat.mul_comm, Nat.mul_add_mod, Nat.mod_eq_of_lt hc]
    have hbe : beBytes (4 * k) (setBytes e) = e := by rw [← he]; exact beBytes_setBytes e
    have := entropy_of_idx H hg (s := s) hk1 hk2 h1 (by rw [hf]; exact h2) hlen
    dsimp only at this
    rw [this, hdiv, hbe, if_pos hmod]

theorem newMnemonic_eq (e : Bytes) (he : e.length ∈ entropySizes) :
    ∃ ws, newMnemonic H (setWordList l) e = .ok ([32].intercalate ws, none) ∧ Encodes H.sha256 l e ws ∧
      ws.length = 3 * e.length / 4 := by
  obtain ⟨k, hek, hk1, hk2⟩ := (entropySizes_iff _).1 he
  have hlen : (e.length * 8 + e.length * 8 / 32) / 11 = 3 * k := by omega
  obtain ⟨idx, ws, h1, h2, h3, h4, h5⟩ := encodeWords_spec (l := l) (by rw [hg.length]) (3 * k)
    (setBytes (addChecksum H e)) []
  have hN := setBytes_addChecksum H e k hek hk2
  have hlt : setBytes (addChecksum H e) < 2048 ^ (3 * k) := by
    have hc : ((H.sha256 e).headD 0).toNat / 2 ^ (8 - k) < 2 ^ k := by
      apply Nat.div_lt_of_lt_mul
      rw [← pow_add, show 8 - k + k = 8 by omega]
      exact ((H.sha256 e).headD 0).toNat_lt
    have hse := setBytes_lt e
    rw [hek] at hse
    rw [hN]
    calc setBytes e * 2 ^ k + _ < setBytes e * 2 ^ k + 2 ^ k := by omega
      _ = (setBytes e + 1) * 2 ^ k := by ring
      _ ≤ 256 ^ (4 * k) * 2 ^ k := Nat.mul_le_mul_right _ hse
      _ = 2048 ^ (3 * k) := by
        rw [show (2048 : Nat) = 2 ^ 11 by rfl, show (256 : Nat) = 2 ^ 8 by rfl, ← pow_mul, ← pow_mul, ← pow_add]
        congr 1; ring
  rw [Nat.mod_eq_of_lt hlt, hN] at h3
  refine ⟨ws, ?_, ⟨idx, h2, h4, (encodes_bits_iff H e k hek hk2 idx h2).2 ⟨h1, h3⟩⟩, ?_⟩
  · rw [newMnemonic]
    rw [(validate_none_iff e.length).2 he]
    have hS : (setWordList l).list = l := rfl
    rw [hlen, hS, h5, List.append_nil, ← joinByte_eq_intercalate]
  · have := congrArg List.length h4
    simp only [List.length_map] at this
    rw [this, h1, hek]; omega

omit hg in
/-- A sentence is determined by the entropy. -/
theorem encodes_unique {e : Bytes} {ws ws' : List Bytes} (h : Encodes H.sha256 l e ws) (h' : Encodes H.sha256 l e ws') :
    ws = ws' := by
  obtain ⟨idx, a1, a2, a3⟩ := h
  obtain ⟨idx', b1, b2, b3⟩ := h'
  have hlen : idx.length = idx'.length := by
    have := congrArg List.length (a3.trans b3.symm)
    rw [flatMap_bitsN_length, flatMap_bitsN_length] at this
    omega
  have hv : ofDigitsBE 2048 idx = ofDigitsBE 2048 idx' := by
    rw [← bv_idx idx a1, ← bv_idx idx' b1, a3, b3]
  obtain rfl := ofDigitsBE_inj 2048 idx idx' hlen a1 b1 hv
  exact List.map_injective_iff.2 (Option.some_injective _) (a2.trans b2.symm)

theorem encodes_words {e : Bytes} {ws : List Bytes} (h : Encodes H.sha256 l e ws) : ∀ w ∈ ws, IsWord w := by
  obtain ⟨idx, -, a2, -⟩ := h
  exact fun w hw => hg.word w (words_of_idx a2 w hw)

/-- The entropy is determined by the sentence. -/
theorem encodes_unique_entropy {e e' : Bytes} {ws : List Bytes} (he : e.length ∈ entropySizes)
    (he' : e'.length ∈ entropySizes) (h : Encodes H.sha256 l e ws) (h' : Encodes H.sha256 l e' ws) : e = e' := by
  have hl := layout_intercalate (c := 0x20) (by decide) ws (encodes_words H hg h)
  have h1 := (entropy_iff H hg _ e).2 ⟨ws, hl, he, h⟩
  have h2 := (entropy_iff H hg _ e').2 ⟨ws, hl, he', h'⟩
  rw [h1] at h2
  simpa using h2

/-- **C01.** Every entropy of a valid size survives the trip through a mnemonic. -/
theorem C01_roundtrip (e : Bytes) (he : e.length ∈ entropySizes) :
    ∃ m, newMnemonic H (setWordList l) e = .ok (m, none) ∧
      entropyFromMnemonic H (setWordList l) m = .ok (e, none) ∧ isMnemonicValid H (setWordList l) m = .ok true := by
  obtain ⟨ws, h1, h2, -⟩ := newMnemonic_eq H hg e he
  have := (entropy_iff H hg ([32].intercalate ws) e).2
    ⟨ws, layout_intercalate (c := 0x20) (by decide) ws (encodes_words H hg h2), he, h2⟩
  exact ⟨_, h1, this, by rw [isMnemonicValid, this]; rfl⟩

/-- **C02.** An accepted string is, up to white space, the mnemonic of its entropy; two accepted strings give the
same entropy exactly when they have the same words. -/
theorem C02_canonical (s e : Bytes) (h : entropyFromMnemonic H (setWordList l) s = .ok (e, none)) :
    (∃ ws, Layout s ws ∧ newMnemonic H (setWordList l) e = .ok ([32].intercalate ws, none)) ∧
    ∀ s' e' ws ws', entropyFromMnemonic H (setWordList l) s' = .ok (e', none) → Layout s ws → Layout s' ws' →
      (e = e' ↔ ws = ws') := by
  obtain ⟨ws, hs, he, hE⟩ := (entropy_iff H hg s e).1 h
  obtain ⟨ws', h1, h2, -⟩ := newMnemonic_eq H hg e he
  refine ⟨⟨ws, hs, by rw [h1, encodes_unique H h2 hE]⟩, ?_⟩
  intro s' e' us us' h' hu hu'
  obtain ⟨vs, hs', he', hE'⟩ := (entropy_iff H hg s' e').1 h'
  have e1 : us = ws := (fields_layout hu).symm.trans (fields_layout hs)
  have e2 : us' = vs := (fields_layout hu').symm.trans (fields_layout hs')
  subst e1; subst e2
  constructor
  · rintro rfl; exact encodes_unique H hE hE'
  · rintro rfl; exact encodes_unique_entropy H hg he he' hE hE'

/-- **C03.** The mnemonic of an entropy is its BIP-39 sentence, joined by single spaces. -/
theorem C03_bip39_encoding (e : Bytes) (he : e.length ∈ entropySizes) :
    ∃ ws, newMnemonic H (setWordList l) e = .ok ([32].intercalate ws, none) ∧ Encodes H.sha256 l e ws ∧
      ∀ ws', Encodes H.sha256 l e ws' → ws' = ws := by
  obtain ⟨ws, h1, h2, -⟩ := newMnemonic_eq H hg e he
  exact ⟨ws, h1, h2, fun ws' h' => encodes_unique H h' h2⟩

/-- **C04.** Exactly the valid BIP-39 sentences are accepted, with their entropy. -/
theorem C04_accepts_exactly (s e : Bytes) :
    entropyFromMnemonic H (setWordList l) s = .ok (e, none) ↔
      ∃ ws, Layout s ws ∧ ws.length ∈ sentenceLengths ∧ e.length ∈ entropySizes ∧ Encodes H.sha256 l e ws := by
  rw [entropy_iff H hg]
  constructor
  · rintro ⟨ws, h1, h2, h3⟩
    refine ⟨ws, h1, ?_, h2, h3⟩
    obtain ⟨k, hk, hk1, hk2⟩ := (entropySizes_iff _).1 h2
    obtain ⟨idx, i1, i2, i3⟩ := h3
    have := ((encodes_bits_iff H e k hk hk2 idx i1).1 i3).1
    have hl := congrArg List.length i2
    simp only [List.length_map] at hl
    exact (sentenceLengths_iff _).2 ⟨k, by omega, hk1, hk2⟩
  · rintro ⟨ws, h1, -, h2, h3⟩
    exact ⟨ws, h1, h2, h3⟩

/-- **C04**, the errors: never a panic; a bad word count is reported first, then the first unknown word, then a wrong
checksum. -/
theorem C04_errors (s : Bytes) (ws : List Bytes) (hs : Layout s ws) :
    (ws.length ∉ sentenceLengths →
      entropyFromMnemonic H (setWordList l) s = .ok ([], some .invalidMnemonic)) ∧
    (∀ pre w post, ws.length ∈ sentenceLengths → ws = pre ++ w :: post → (∀ v ∈ pre, v ∈ l) → w ∉ l →
      entropyFromMnemonic H (setWordList l) s = .ok ([], some (.unknownWord w))) ∧
    (ws.length ∈ sentenceLengths → (∀ w ∈ ws, w ∈ l) → (¬ ∃ e, e.length ∈ entropySizes ∧ Encodes H.sha256 l e ws) →
      entropyFromMnemonic H (setWordList l) s = .ok ([], some .checksumIncorrect)) ∧
    entropyFromMnemonic H (setWordList l) s ≠ .panic := by
  have hf := fields_layout hs
  have hbad : ws.length ∉ sentenceLengths →
      entropyFromMnemonic H (setWordList l) s = .ok ([], some .invalidMnemonic) := by
    intro h
    rw [entropyFromMnemonic, splitMnemonicWords_eq, hf, if_neg h]
  have hunk : ∀ pre w post, ws.length ∈ sentenceLengths → ws = pre ++ w :: post → (∀ v ∈ pre, v ∈ l) → w ∉ l →
      entropyFromMnemonic H (setWordList l) s = .ok ([], some (.unknownWord w)) := by
    intro pre w post h h1 h2 h3
    have := (decodeWords_inr (setWordList l).map ws 0 (.unknownWord w)).2
      ⟨pre, w, post, h1, fun v hv e => (setWordList_map_none l v).1 e (h2 v hv), (setWordList_map_none l w).2 h3, rfl⟩
    rw [entropyFromMnemonic, splitMnemonicWords_eq, hf, if_pos h]
    dsimp only
    rw [this]
  have hknown : ws.length ∈ sentenceLengths → (∀ w ∈ ws, w ∈ l) →
      (∃ e, entropyFromMnemonic H (setWordList l) s = .ok (e, none)) ∨
      entropyFromMnemonic H (setWordList l) s = .ok ([], some .checksumIncorrect) := by
    intro h h1
    obtain ⟨k, hk, hk1, hk2⟩ := (sentenceLengths_iff _).1 h
    obtain ⟨idx, i1, i2⟩ := idx_of_words hg ws h1
    have hlen : idx.length = 3 * k := by
      have := congrArg List.length i2
      rw [← hk]; simpa using this.symm
    have := entropy_of_idx H hg (s := s) hk1 hk2 i1 (by rw [hf]; exact i2) hlen
    dsimp only at this
    rw [this]
    split
    · exact Or.inl ⟨_, rfl⟩
    · exact Or.inr rfl
  refine ⟨hbad, hunk, ?_, ?_⟩
  · intro h h1 h2
    rcases hknown h h1 with ⟨e, he⟩ | he
    · exfalso
      obtain ⟨us, hu, h3, h4⟩ := (entropy_iff H hg s e).1 he
      have : us = ws := (fields_layout hu).symm.trans hf
      subst this
      exact h2 ⟨e, h3, h4⟩
    · exact he
  · by_cases h : ws.length ∈ sentenceLengths
    swap
    · rw [hbad h]; simp
    by_cases h1 : ∀ w ∈ ws, w ∈ l
    · rcases hknown h h1 with ⟨e, he⟩ | he <;> rw [he] <;> simp
    · cases hd : decodeWords (setWordList l).map ws 0 with
      | inl N =>
        obtain ⟨idx, -, i2, -⟩ := (decodeWords_inl hg.nodup hg.length _ _ _).1 hd
        exact absurd (words_of_idx i2) h1
      | inr e =>
        rw [entropyFromMnemonic, splitMnemonicWords_eq, hf, if_pos h]
        dsimp only
        rw [hd]; simp

/-- **C04.** `IsMnemonicValid` says which sentences are accepted: true exactly for the valid ones, false for all others. -/
theorem C04_isMnemonicValid (s : Bytes) :
    (isMnemonicValid H (setWordList l) s = .ok true ↔
      ∃ e ws, Layout s ws ∧ ws.length ∈ sentenceLengths ∧ e.length ∈ entropySizes ∧ Encodes H.sha256 l e ws) ∧
    (isMnemonicValid H (setWordList l) s = .ok false ↔
      ¬ ∃ e ws, Layout s ws ∧ ws.length ∈ sentenceLengths ∧ e.length ∈ entropySizes ∧ Encodes H.sha256 l e ws) := by
  have key : (∃ e ws, Layout s ws ∧ ws.length ∈ sentenceLengths ∧ e.length ∈ entropySizes ∧ Encodes H.sha256 l e ws) ↔
      ∃ e, entropyFromMnemonic H (setWordList l) s = .ok (e, none) :=
    exists_congr fun e => (C04_accepts_exactly H hg s e).symm
  rw [key, isMnemonicValid]
  cases h : entropyFromMnemonic H (setWordList l) s with
  | panic => exact absurd h (C04_errors H hg s _ (layout_fields s)).2.2.2
  | ok r =>
    obtain ⟨a, e⟩ := r
    cases e <;> simp

/-- **C05.** Size validation is exact: `NewEntropy` for every integer, `NewMnemonic` for every byte string. -/
theorem C05_sizes (read : Nat → Bytes) (hread : ∀ n, (read n).length = n) (n : Int) (e : Bytes) :
    (n ∈ [128, 160, 192, 224, 256] →
      (newEntropy read n).2 = none ∧ ((newEntropy read n).1.length : Int) = n / 8 ∧
      (newEntropy read n).1 = read (n / 8).toNat) ∧
    (n ∉ [128, 160, 192, 224, 256] → newEntropy read n = ([], some .entropyLengthInvalid)) ∧
    (e.length ∈ entropySizes → ∃ ws, newMnemonic H (setWordList l) e = .ok ([32].intercalate ws, none) ∧
      Layout ([32].intercalate ws) ws ∧ 4 * ws.length = 3 * e.length) ∧
    (e.length ∉ entropySizes → newMnemonic H (setWordList l) e = .ok ([], some .entropyLengthInvalid)) := by
  refine ⟨?_, ?_, ?_, ?_⟩
  · intro h
    simp only [List.mem_cons, List.not_mem_nil, or_false] at h
    rcases h with rfl | rfl | rfl | rfl | rfl <;>
      exact ⟨rfl, by change ((read _).length : Int) = _; rw [hread]; rfl, rfl⟩
  · intro h
    have : validateEntropyBitSize n = some .entropyLengthInvalid := by
      unfold validateEntropyBitSize
      rw [if_pos]
      by_contra hcon
      push Not at hcon
      apply h
      have h0 : n.tmod 32 = n % 32 := Int.tmod_eq_emod_of_nonneg (by omega)
      rw [h0] at hcon
      simp only [List.mem_cons, List.not_mem_nil, or_false]
      omega
    rw [newEntropy, this]
  · intro h
    obtain ⟨ws, h1, h2, h3⟩ := newMnemonic_eq H hg e h
    refine ⟨ws, h1, layout_intercalate (c := 0x20) (by decide) ws (encodes_words H hg h2), ?_⟩
    obtain ⟨k, hk, -, -⟩ := (entropySizes_iff _).1 h
    omega
  · intro h
    have : validateEntropyBitSize ((e.length * 8 : Nat) : Int) = some .entropyLengthInvalid := by
      cases hv : validateEntropyBitSize ((e.length * 8 : Nat) : Int) with
      | none => exact absurd ((validate_none_iff _).1 hv) h
      | some er =>
        unfold validateEntropyBitSize at hv
        split at hv <;> simp_all
    rw [newMnemonic]
    rw [this]

omit hg in
/-- **C06.** Acceptance and entropy depend only on the words, whatever the white space between and around them; this
holds in every state of the package. -/
theorem C06_layout_irrelevant (S : WordState) (s t : Bytes) (ws : List Bytes) (hs : Layout s ws) (ht : Layout t ws) :
    entropyFromMnemonic H S s = entropyFromMnemonic H S t ∧ isMnemonicValid H S s = isMnemonicValid H S t := by
  have : entropyFromMnemonic H S s = entropyFromMnemonic H S t := by
    rw [entropyFromMnemonic, entropyFromMnemonic, splitMnemonicWords_eq, splitMnemonicWords_eq, fields_layout hs,
      fields_layout ht]
  exact ⟨this, by rw [isMnemonicValid, isMnemonicValid, this]⟩

omit hg in
/-- **C06**, ideographic space: joining words with U+3000 or with ASCII spaces makes no difference. -/
theorem C06_ideographic (S : WordState) (ws : List Bytes) (h : ∀ w ∈ ws, IsWord w) :
    entropyFromMnemonic H S ((utf8 0x3000).intercalate ws) = entropyFromMnemonic H S ([32].intercalate ws) :=
  (C06_layout_irrelevant H S _ _ ws (layout_intercalate (by decide) ws h)
    (layout_intercalate (c := 0x20) (by decide) ws h)).1

/-! ### C07 -/

omit hg in
theorem entropy_err_nil (S : WordState) (s e : Bytes) (er : Err)
    (h : entropyFromMnemonic H S s = .ok (e, some er)) : e = [] := by
  unfold entropyFromMnemonic at h
  split at h
  · simp at h; exact h.1
  · split at h
    · simp at h; exact h.1
    · split at h
      · simp at h
      · dsimp only at h
        split at h
        · split at h
          · simp at h
          · split at h <;> simp at h
            exact h.1
        · split at h <;> simp at h
          exact h.1

omit hg in
/-- **C07**, `raw = true`: the same result as `EntropyFromMnemonic`, in every state and for every string. -/
theorem C07_raw (S : WordState) (s : Bytes) (more : List Bool) :
    mnemonicToByteArray H S s (true :: more) = entropyFromMnemonic H S s := by
  rw [mnemonicToByteArray]
  cases h : entropyFromMnemonic H S s with
  | panic => rfl
  | ok r =>
    obtain ⟨e, er⟩ := r
    cases er with
    | none => simp
    | some er => rw [entropy_err_nil H S s e er h]

/-- The padding width that `MnemonicToByteArray` computes from the number of pieces of `strings.Split(s, " ")`. -/
def paddedSize (s : Bytes) : Nat :=
  let n := 11 * ((s.filter (· == 32)).length + 1)
  (n - n % 32) / 8 + 1

omit hg in
theorem splitByte_length (s : Bytes) : (splitByte 32 s).length = (s.filter (· == 32)).length + 1 := by
  induction s with
  | nil => rfl
  | cons c s ih =>
    rw [splitByte]
    by_cases hc : c = 32
    · rw [if_pos hc, List.length_cons, ih, hc]; simp
    · rw [if_neg hc]
      have hne := splitByte_ne_nil 32 s
      cases hs : splitByte 32 s with
      | nil => exact absurd hs hne
      | cons w ws =>
        rw [hs] at ih
        simp only [List.length_cons] at ih ⊢
        rw [ih]
        simp [hc]

/-- **C07**, exact form for every accepted string: the number (entropy bits ++ checksum bits), without leading zero
bytes, left-padded to a width that depends on the number of ASCII spaces in the string. -/
theorem C07_bytes_exact (s e : Bytes) (h : entropyFromMnemonic H (setWordList l) s = .ok (e, none)) :
    ∃ r, mnemonicToByteArray H (setWordList l) s = .ok (r, none) ∧
      setBytes r = bv (mnemonicBits H.sha256 e) ∧
      r = padLeft (paddedSize s) (bigBytes (bv (mnemonicBits H.sha256 e))) := by
  obtain ⟨ws, hs, he, hE⟩ := (entropy_iff H hg s e).1 h
  obtain ⟨k, hek, hk1, hk2⟩ := (entropySizes_iff _).1 he
  obtain ⟨idx, i1, i2, i3⟩ := hE
  have hv : bv (mnemonicBits H.sha256 e) = setBytes (addChecksum H e) := by
    rw [← i3, bv_idx idx i1, ((encodes_bits_iff H e k hek hk2 idx i1).1 i3).2, setBytes_addChecksum H e k hek hk2]
  have hb : bigBytes (bv (mnemonicBits H.sha256 e)) = addChecksum H e := by
    rw [hv, addChecksum, setBytes_bigBytes]
  refine ⟨padLeft (paddedSize s) (addChecksum H e), ?_, ?_, by rw [hb]⟩
  · rw [mnemonicToByteArray, h]
    dsimp only
    rw [if_neg (by simp), padByteSlice_eq, splitByte_length, Nat.mul_comm _ 11]
    rfl
  · rw [hv, setBytes_padLeft]

/-- **C07**, without `raw`, for every accepted string whose number of ASCII spaces is one less than its number of
words (for instance single spaces between the words): the big-endian number (entropy bits ++ checksum bits) in
`len(entropy)+1` bytes. The claim for an arbitrary layout is false, see `C07_layout_matters`; the result for
an arbitrary layout is `C07_bytes_exact`. -/
theorem C07_bytes_partial (s e : Bytes) (ws : List Bytes) (hs : Layout s ws)
    (hsp : (s.filter (· == 32)).length + 1 = ws.length)
    (h : entropyFromMnemonic H (setWordList l) s = .ok (e, none)) :
    mnemonicToByteArray H (setWordList l) s =
      .ok (beBytes (e.length + 1) (bv (mnemonicBits H.sha256 e)), none) ∧
    bv (mnemonicBits H.sha256 e) < 256 ^ (e.length + 1) := by
  obtain ⟨us, hu, hul, he, -⟩ := (C04_accepts_exactly H hg s e).1 h
  obtain rfl : us = ws := (fields_layout hu).symm.trans (fields_layout hs)
  obtain ⟨r, h1, -, h3⟩ := C07_bytes_exact H hg s e h
  obtain ⟨k, hek, hk1, hk2⟩ := (entropySizes_iff _).1 he
  have hlen : us.length = 3 * k := by
    obtain ⟨vs, hv, -, hE⟩ := (entropy_iff H hg s e).1 h
    obtain rfl : us = vs := (fields_layout hu).symm.trans (fields_layout hv)
    obtain ⟨idx, i1, i2, i3⟩ := hE
    have := ((encodes_bits_iff H e k hek hk2 idx i1).1 i3).1
    have hl := congrArg List.length i2
    simp only [List.length_map] at hl
    omega
  have hp : paddedSize s = e.length + 1 := by
    unfold paddedSize
    dsimp only
    rw [hsp, hlen, hek]
    obtain rfl | rfl | rfl | rfl | rfl : k = 4 ∨ k = 5 ∨ k = 6 ∨ k = 7 ∨ k = 8 := by omega
    all_goals rfl
  have hlt : bv (mnemonicBits H.sha256 e) < 256 ^ (e.length + 1) := by
    refine lt_of_lt_of_le (bv_lt _) ?_
    rw [show (256 : Nat) = 2 ^ 8 by rfl, ← pow_mul]
    apply Nat.pow_le_pow_right (by norm_num)
    rw [mnemonicBits, List.length_append, List.length_take, bits_length]
    omega
  rw [h1, h3, hp, padLeft_bigBytes hlt]
  exact ⟨rfl, hlt⟩

omit hg in
theorem word_no_space {w : Bytes} (h : IsWord w) : (32 : UInt8) ∉ w := by
  intro hm
  obtain ⟨a, b, rfl⟩ := List.append_of_mem hm
  exact h.2 a 0x20 b (by decide) (by rw [utf8_space]; simp)

omit hg in
theorem spaces_intercalate (sep : Bytes) (ws : List Bytes) (h : ∀ w ∈ ws, IsWord w) (hne : ws ≠ []) :
    (((sep.intercalate ws).filter (· == 32)).length) = (ws.length - 1) * (sep.filter (· == 32)).length := by
  induction ws with
  | nil => exact absurd rfl hne
  | cons w ws ih =>
    have hw : w.filter (· == 32) = [] := by
      rw [List.filter_eq_nil_iff]
      intro c hc e
      have : c = 32 := by simpa using e
      exact word_no_space (h w (by simp)) (this ▸ hc)
    cases ws with
    | nil => simp [List.intercalate, hw]
    | cons v ws =>
      have hi := ih (fun x hx => h x (by simp [hx])) (by simp)
      have : sep.intercalate (w :: v :: ws) = w ++ (sep ++ sep.intercalate (v :: ws)) := by simp [List.intercalate]
      rw [this, List.filter_append, List.filter_append, hw, List.nil_append, List.length_append, hi]
      simp only [List.length_cons, Nat.add_sub_cancel]
      ring

/-- **C07**, the layout matters: for every 16-byte entropy, the same words with two spaces between them give 29 bytes
instead of 17, whatever the word list and the hash. -/
theorem C07_layout_matters (e : Bytes) (he : e.length = 16) :
    ∃ s t : Bytes, ∃ ws, Layout s ws ∧ Layout t ws ∧
      ∃ r r', mnemonicToByteArray H (setWordList l) s = .ok (r, none) ∧ r.length = 17 ∧
        mnemonicToByteArray H (setWordList l) t = .ok (r', none) ∧ r'.length = 29 := by
  have he' : e.length ∈ entropySizes := by rw [he]; decide
  obtain ⟨ws, -, hE, hwl⟩ := newMnemonic_eq H hg e he'
  have hw := encodes_words H hg hE
  have hl1 := layout_intercalate (c := 0x20) (by decide) ws hw
  rw [utf8_space] at hl1
  have hlen : ws.length = 12 := by rw [hwl, he]
  have hne : ws ≠ [] := by intro h; rw [h] at hlen; simp at hlen
  have hl2 : ∀ us : List Bytes, (∀ w ∈ us, IsWord w) → Layout ([32, 32].intercalate us) us := by
    intro us hus
    induction us with
    | nil => exact .nil isWs_nil
    | cons w us ih =>
      cases us with
      | nil =>
        have := Layout.last isWs_nil (hus w (by simp)) isWs_nil
        simpa [List.intercalate] using this
      | cons v us =>
        have hsep : IsWs [32, 32] := ⟨[0x20, 0x20], by decide, rfl⟩
        have := Layout.cons isWs_nil (hus w (by simp)) (sep := [32, 32]) hsep
          (by simp) (ih fun x hx => hus x (by simp [hx]))
        simpa [List.intercalate, List.append_assoc] using this
  have hl2 := hl2 ws hw
  have a1 := (entropy_iff H hg _ e).2 ⟨ws, hl1, he', hE⟩
  have a2 := (entropy_iff H hg _ e).2 ⟨ws, hl2, he', hE⟩
  have s1 := spaces_intercalate [32] ws hw hne
  have s2 := spaces_intercalate [32, 32] ws hw hne
  obtain ⟨b1, blt⟩ := C07_bytes_partial H hg _ e ws hl1 (by rw [s1, hlen]; rfl) a1
  obtain ⟨r', b2, -, b3⟩ := C07_bytes_exact H hg _ e a2
  refine ⟨_, _, ws, hl1, hl2, _, r', b1, ?_, b2, ?_⟩
  · rw [beBytes_length, he]
  · have hp : paddedSize ([32, 32].intercalate ws) = 29 := by
      unfold paddedSize
      dsimp only
      rw [s2, hlen]; rfl
    rw [b3, hp, padLeft_length]
    refine le_trans (bigBytes_length_le blt) ?_
    rw [he]; norm_num

/-! ### C11 -/

omit hg in
/-- In every block of length `b` exactly one number hits its target. -/
theorem countP_range_blocks (g : Nat → Nat) (b : Nat) (hb : 0 < b) (hg : ∀ i, g i < b) (a : Nat) :
    (List.range (a * b)).countP (fun j => j % b = g (j / b)) = a := by
  induction a with
  | zero => simp
  | succ a ih =>
    rw [Nat.succ_mul, List.range_add, List.countP_append, ih, List.countP_map]
    congr 1
    have : List.countP ((fun j => decide (j % b = g (j / b))) ∘ fun x => a * b + x) (List.range b)
        = List.countP (fun x => x == g a) (List.range b) := by
      apply List.countP_congr
      intro x hx
      have hx := List.mem_range.1 hx
      have h1 : (a * b + x) % b = x := by rw [Nat.mul_comm, Nat.mul_add_mod, Nat.mod_eq_of_lt hx]
      have h2 : (a * b + x) / b = a := by
        rw [Nat.mul_comm, Nat.mul_add_div hb, Nat.div_eq_of_lt hx, add_zero]
      simp [h1, h2]
    rw [this]
    exact (List.nodup_range.count (a := g a)).trans (if_pos (List.mem_range.2 (hg a)))

omit hg in
theorem block_arith (P j k : Nat) (hk : k ≤ 11) : (P * 2048 + j) % 2 ^ k = j % 2 ^ k ∧
    (P * 2048 + j) / 2 ^ k = P * 2 ^ (11 - k) + j / 2 ^ k := by
  have h : P * 2048 = 2 ^ k * (P * 2 ^ (11 - k)) := by
    rw [Nat.mul_left_comm, ← pow_add, show k + (11 - k) = 11 by omega]; rfl
  rw [h, Nat.mul_add_mod, Nat.mul_add_div (by positivity)]
  exact ⟨rfl, rfl⟩

/-- **C11.** Exactly `2^(11-w/3)` of the 2048 candidates for the last word complete a sentence of `w` words. -/
theorem C11_last_words (pre : List Bytes) (hpre : ∀ w ∈ pre, w ∈ l) (hlen : pre.length + 1 ∈ sentenceLengths) :
    l.countP (fun w => isMnemonicValid H (setWordList l) ([32].intercalate (pre ++ [w])) = .ok true) =
      2 ^ (11 - (pre.length + 1) / 3) := by
  obtain ⟨k, hk, hk1, hk2⟩ := (sentenceLengths_iff _).1 hlen
  obtain ⟨pidx, p1, p2⟩ := idx_of_words hg pre hpre
  have hpl : pidx.length = pre.length := by
    have := congrArg List.length p2
    simpa using this.symm
  let N : Nat → Nat := fun j => ofDigitsBE 2048 pidx * 2048 + j
  let g : Nat → Nat := fun i => ((H.sha256 (beBytes (4 * k) (ofDigitsBE 2048 pidx * 2 ^ (11 - k) + i))).headD 0).toNat / 2 ^ (8 - k)
  have hg' : ∀ i, g i < 2 ^ k := by
    intro i
    apply Nat.div_lt_of_lt_mul
    rw [← pow_add, show 8 - k + k = 8 by omega]
    exact ((H.sha256 _).headD 0).toNat_lt
  have hl : l = (List.range 2048).map (fun j => l.getD j []) := by
    apply List.ext_getElem
    · simp [hg.length]
    · intro i h1 h2
      simp [List.getD_eq_getElem?_getD, h1]
  have hone : ∀ j, j < 2048 → ((isMnemonicValid H (setWordList l) ([32].intercalate (pre ++ [l.getD j []])) = .ok true) ↔
      j % 2 ^ k = g (j / 2 ^ k)) := by
    intro j hj
    have hj' : j < l.length := by rw [hg.length]; exact hj
    have hw : l.getD j [] ∈ l := by
      rw [List.getD_eq_getElem?_getD, List.getElem?_eq_getElem hj']
      exact List.getElem_mem hj'
    have hws : ∀ w ∈ pre ++ [l.getD j []], IsWord w := by
      intro w hw'
      rcases List.mem_append.1 hw' with h | h
      · exact hg.word w (hpre w h)
      · rw [List.mem_singleton.1 h]; exact hg.word _ hw
    have hf := fields_join _ hws
    have hE := entropy_of_idx H hg (s := [32].intercalate (pre ++ [l.getD j []])) hk1 hk2 (idx := pidx ++ [j])
      (by
        intro i hi
        rcases List.mem_append.1 hi with h | h
        · exact p1 i h
        · rw [List.mem_singleton.1 h]; exact hj)
      (by
        rw [hf, List.map_append, List.map_append, p2]
        congr 1
        simp [List.getD_eq_getElem?_getD, hj'])
      (by simp; omega)
    dsimp only at hE
    have hN : ofDigitsBE 2048 (pidx ++ [j]) = ofDigitsBE 2048 pidx * 2048 + j := by
      rw [ofDigitsBE_append]; simp [ofDigitsBE]
    obtain ⟨hmod, hdiv⟩ := block_arith (ofDigitsBE 2048 pidx) j k (by omega)
    rw [hN, hmod, hdiv] at hE
    rw [isMnemonicValid, hE]
    by_cases hc : j % 2 ^ k = g (j / 2 ^ k)
    · rw [if_pos hc]; simp [hc]
    · rw [if_neg hc]; simp [hc]
  have hcount : ∀ p : Bytes → Bool, l.countP p = (List.range 2048).countP (fun j => p (l.getD j [])) := by
    intro p
    conv_lhs => rw [hl]
    rw [List.countP_map]
    rfl
  rw [hcount]
  have : (List.range 2048).countP (fun j => decide (isMnemonicValid H (setWordList l)
      ([32].intercalate (pre ++ [l.getD j []])) = .ok true)) =
      (List.range (2 ^ (11 - k) * 2 ^ k)).countP (fun j => j % 2 ^ k = g (j / 2 ^ k)) := by
    rw [show 2 ^ (11 - k) * 2 ^ k = 2048 by rw [← pow_add, show 11 - k + k = 11 by omega]; rfl]
    apply List.countP_congr
    intro j hj
    have := hone j (List.mem_range.1 hj)
    simp only [decide_eq_true_eq]
    exact this
  have hexp : (pre.length + 1) / 3 = k := by omega
  rw [this, countP_range_blocks g _ (by positivity) hg', hexp]

/-! ### C08 -/

omit hg in
theorem xor_rounds (prf : Bytes → Bytes) (n : Nat) (hprf : ∀ b, (prf b).length = n) (salt : Bytes) (i x : Nat)
    (k : Nat) : ∀ (j : Nat) (t : Bytes), t.length = n →
    (pbkdf2Rounds prf k (pbkdf2U prf salt i j) t).length = n ∧
    (pbkdf2Rounds prf k (pbkdf2U prf salt i j) t).getD x 0 =
      t.getD x 0 ^^^ ((List.range k).map fun q => (pbkdf2U prf salt i (j + 1 + q)).getD x 0).foldr (· ^^^ ·) 0 := by
  induction k with
  | zero => intro j t ht; exact ⟨ht, by simp [pbkdf2Rounds]⟩
  | succ k ih =>
    intro j t ht
    have hu : prf (pbkdf2U prf salt i j) = pbkdf2U prf salt i (j + 1) := rfl
    have hxl : (xorBytes t (pbkdf2U prf salt i (j + 1))).length = n := by
      rw [← hu]; simp [xorBytes, ht, hprf]
    obtain ⟨h1, h2⟩ := ih (j + 1) (xorBytes t (pbkdf2U prf salt i (j + 1))) hxl
    rw [pbkdf2Rounds, hu]
    refine ⟨h1, ?_⟩
    rw [h2, List.range_succ_eq_map, List.map_cons, List.foldr_cons, List.map_map, ← UInt8.xor_assoc]
    congr 1
    · simp only [add_zero]
      have hul : (pbkdf2U prf salt i (j + 1)).length = n := by rw [← hu]; exact hprf _
      by_cases hx : x < n
      · simp [xorBytes, List.getD_eq_getElem?_getD, ht, hul, hx]
      · simp [xorBytes, List.getD_eq_getElem?_getD, ht, hul, hx]
    · congr 2
      funext q
      simp only [Function.comp_apply]
      congr 2
      omega

omit hg in
/-- The Go package computes RFC 8018's PBKDF2 when one block is asked for. -/
theorem pbkdf2_one_block (prf : Bytes → Bytes) (n : Nat) (hn : 0 < n) (hprf : ∀ b, (prf b).length = n) (salt : Bytes)
    (c : Nat) (hc : 0 < c) : pbkdf2Key prf n salt c n = (List.range n).map (pbkdf2T prf salt c 1) := by
  have hblocks : (n + n - 1) / n = 1 := by
    rw [show n + n - 1 = n * 1 + (n - 1) by omega, Nat.mul_add_div hn, Nat.div_eq_of_lt (by omega)]
  have hU : prf (salt ++ beBytes 4 1) = pbkdf2U prf salt 1 0 := rfl
  have hr := fun x => xor_rounds prf n hprf salt 1 x (c - 1) 0 (pbkdf2U prf salt 1 0) (by rw [← hU]; exact hprf _)
  unfold pbkdf2Key
  dsimp only
  rw [hblocks]
  simp only [List.range_one, List.flatMap_cons, List.flatMap_nil, List.append_nil, zero_add]
  unfold pbkdf2Block
  dsimp only
  rw [hU]
  have hlen := (hr 0).1
  rw [List.take_of_length_le (by omega)]
  apply List.ext_getElem
  · simp [hlen]
  · intro x h1 h2
    have := (hr x).2
    rw [List.getD_eq_getElem?_getD, List.getElem?_eq_getElem h1, Option.getD_some] at this
    rw [this, List.getElem_map, List.getElem_range]
    unfold pbkdf2T
    obtain ⟨c, rfl⟩ : ∃ d, c = d + 1 := ⟨c - 1, by omega⟩
    rw [List.range_succ_eq_map, List.map_cons, List.foldr_cons, List.map_map]
    simp only [Nat.add_sub_cancel]
    congr 3
    funext q
    simp only [Function.comp_apply]
    congr 2
    omega

omit hg in
/-- **C08.** Checked seed derivation succeeds exactly on valid mnemonics; the seed is RFC 8018's
PBKDF2-HMAC-SHA512 (2048 rounds, 64 bytes: block 1) with salt "mnemonic" followed by the passphrase. The mnemonic is
used as given. Holds in every state of the package. -/
theorem C08_seed (S : WordState) (m p : Bytes) :
    (isMnemonicValid H S m = .ok true → newSeedWithErrorChecking H S m p = .ok (newSeed H m p, none)) ∧
    (isMnemonicValid H S m = .ok false → ∃ e, newSeedWithErrorChecking H S m p = .ok ([], some e)) ∧
    newSeed H m p = (List.range 64).map (pbkdf2T (H.hmacSha512 m) (str "mnemonic" ++ p) 2048 1) ∧
    (newSeed H m p).length = 64 := by
  have hseed : newSeed H m p = (List.range 64).map (pbkdf2T (H.hmacSha512 m) (str "mnemonic" ++ p) 2048 1) :=
    pbkdf2_one_block _ 64 (by norm_num) (fun b => H.hmacSha512_length m b) _ 2048 (by norm_num)
  refine ⟨?_, ?_, hseed, by rw [hseed]; simp⟩
  · intro h
    rw [isMnemonicValid] at h
    rw [newSeedWithErrorChecking, mnemonicToByteArray]
    cases he : entropyFromMnemonic H S m with
    | panic => rw [he] at h; simp at h
    | ok r =>
      obtain ⟨e, er⟩ := r
      rw [he] at h
      cases er with
      | none => simp
      | some er => simp at h
  · intro h
    rw [isMnemonicValid] at h
    rw [newSeedWithErrorChecking, mnemonicToByteArray]
    cases he : entropyFromMnemonic H S m with
    | panic => rw [he] at h; simp at h
    | ok r =>
      obtain ⟨e, er⟩ := r
      rw [he] at h
      cases er with
      | none => simp at h
      | some er => exact ⟨er, by simp⟩

/-! ### C09 -/

omit hg in
/-- **C09.** After any history of calls, ending with `SetWordList(last)`, from any state: the list is `last`; the index
of a word is its last position in it, and `(0, false)` exactly for the words that are not in it. -/
theorem C09_history (S : WordState) (history : List (List Bytes)) (last : List Bytes) (w : Bytes) :
    let T := (history ++ [last]).foldl setWordListFrom S
    getWordList T = last ∧
    (∀ i, getWordIndex T w = (i, true) ↔ last[i]? = some w ∧ ∀ q, i < q → last[q]? ≠ some w) ∧
    (w ∉ last → getWordIndex T w = (0, false)) ∧ (w ∈ last → ∃ i, getWordIndex T w = (i, true)) := by
  have hT : (history ++ [last]).foldl setWordListFrom S = setWordList last := by
    rw [List.foldl_append]; rfl
  dsimp only
  rw [hT]
  refine ⟨rfl, ?_, ?_, ?_⟩
  · intro i
    rw [← setWordList_map_some, getWordIndex]
    cases h : (setWordList last).map w <;> simp
  · intro h
    rw [getWordIndex, (setWordList_map_none last w).2 h]
  · intro h
    rw [getWordIndex]
    cases h' : (setWordList last).map w with
    | none => exact absurd h ((setWordList_map_none last w).1 h')
    | some i => exact ⟨i, rfl⟩

omit hg in
/-- **C09**, duplicate-free lists: list and index are inverse to each other. -/
theorem C09_inverse (S : WordState) (history : List (List Bytes)) (last : List Bytes) (hn : last.Nodup) (w : Bytes)
    (i : Nat) :
    let T := (history ++ [last]).foldl setWordListFrom S
    getWordIndex T w = (i, true) ↔ (getWordList T)[i]? = some w := by
  have hT : (history ++ [last]).foldl setWordListFrom S = setWordList last := by
    rw [List.foldl_append]; rfl
  dsimp only
  rw [hT]
  change _ ↔ last[i]? = some w
  rw [← setWordList_map_nodup hn, getWordIndex]
  cases h : (setWordList last).map w <;> simp

end
end Bips
