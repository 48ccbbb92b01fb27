import Verif.Model.Util
import Verif.Props.Bip39
import Verif.Props.Tree

/-!
# C42–C44: mnemonics, seeds and root keys of package util
-/

namespace Bips
open Spec

/-! ### C42 -/

/-- **C42.** Only the five sentence lengths are accepted; for those, whatever the random source returns, the result is
a sentence of exactly that many words which is valid and whose entropy is the random bytes. -/
theorem C42_generate (H : Hashes) {l : List Bytes} (hg : GoodList l) (read : Nat → Bytes)
    (hread : ∀ n, (read n).length = n) (w : UInt8) :
    (w.toNat ∉ [12, 15, 18, 21, 24] →
      generateMnemonic H (setWordList l) read w = .ok ([], some .invalidMnemonicWordsCount)) ∧
    (w.toNat ∈ [12, 15, 18, 21, 24] → ∃ m ws, generateMnemonic H (setWordList l) read w = .ok (m, none) ∧
      Layout m ws ∧ ws.length = w.toNat ∧ isMnemonicValid H (setWordList l) m = .ok true ∧
      entropyFromMnemonic H (setWordList l) m = .ok (read (4 * w.toNat / 3), none)) := by
  have hw : ∀ n : Nat, n < 256 → ((w = UInt8.ofNat n) ↔ w.toNat = n) := by
    intro n hn
    rw [← UInt8.toNat_inj, toNat_ofNat_lt hn]
  have go : ∀ n : Nat, n ∈ entropySizes → (newEntropy read (8 * n : Int)) = (read n, none) →
      ∃ m ws, (match newEntropy read (8 * n : Int) with
        | (_, some e) => Outcome.ok (([] : Bytes), some e)
        | (bs, none) => match newMnemonic H (setWordList l) bs with
          | .panic => .panic
          | .ok (_, some e) => .ok ([], some e)
          | .ok (mnemonic, none) => .ok (mnemonic, none)) = .ok (m, none) ∧
        Layout m ws ∧ 4 * ws.length = 3 * n ∧ isMnemonicValid H (setWordList l) m = .ok true ∧
        entropyFromMnemonic H (setWordList l) m = .ok (read n, none) := by
    intro n hn he
    have hl : (read n).length ∈ entropySizes := by rw [hread]; exact hn
    obtain ⟨m, h1, h2, h3⟩ := C01_roundtrip H hg (read n) hl
    obtain ⟨ws, h4, h5, h6⟩ := (C05_sizes H hg read hread 0 (read n)).2.2.1 hl
    rw [h1] at h4
    obtain rfl : m = _ := (Prod.mk.inj (Outcome.ok.inj h4)).1
    refine ⟨_, ws, ?_, h5, by rw [h6, hread], h3, h2⟩
    rw [he]
    dsimp only
    rw [h1]
  constructor
  · intro h
    simp only [List.mem_cons, List.not_mem_nil, or_false, not_or] at h
    unfold generateMnemonic
    dsimp only
    rw [if_neg (show ¬ w = 12 from fun e => h.1 ((hw 12 (by decide)).1 e)),
      if_neg (show ¬ w = 15 from fun e => h.2.1 ((hw 15 (by decide)).1 e)),
      if_neg (show ¬ w = 18 from fun e => h.2.2.1 ((hw 18 (by decide)).1 e)),
      if_neg (show ¬ w = 21 from fun e => h.2.2.2.1 ((hw 21 (by decide)).1 e)),
      if_neg (show ¬ w = 24 from fun e => h.2.2.2.2 ((hw 24 (by decide)).1 e))]
  · intro h
    simp only [List.mem_cons, List.not_mem_nil, or_false] at h
    rcases h with h | h | h | h | h <;> rw [h]
    · obtain rfl := (hw 12 (by decide)).2 h
      obtain ⟨m, ws, h1, h2, h3, h4⟩ := go 16 (by decide) rfl
      exact ⟨m, ws, h1, h2, by omega, h4⟩
    · obtain rfl := (hw 15 (by decide)).2 h
      obtain ⟨m, ws, h1, h2, h3, h4⟩ := go 20 (by decide) rfl
      exact ⟨m, ws, h1, h2, by omega, h4⟩
    · obtain rfl := (hw 18 (by decide)).2 h
      obtain ⟨m, ws, h1, h2, h3, h4⟩ := go 24 (by decide) rfl
      exact ⟨m, ws, h1, h2, by omega, h4⟩
    · obtain rfl := (hw 21 (by decide)).2 h
      obtain ⟨m, ws, h1, h2, h3, h4⟩ := go 28 (by decide) rfl
      exact ⟨m, ws, h1, h2, by omega, h4⟩
    · obtain rfl := (hw 24 (by decide)).2 h
      obtain ⟨m, ws, h1, h2, h3, h4⟩ := go 32 (by decide) rfl
      exact ⟨m, ws, h1, h2, by omega, h4⟩

/-! ### C43 -/

theorem hexEncode_lower (b : Bytes) : ∀ c ∈ hexEncode b, c ∈ str "0123456789abcdef" := by
  have hd : ∀ n : Fin 16, hexDigit n.1 ∈ str "0123456789abcdef" := by decide +kernel
  intro c hc
  obtain ⟨x, -, hx⟩ := List.mem_flatMap.1 hc
  have hx256 := x.toNat_lt
  simp only [List.mem_cons, List.not_mem_nil, or_false] at hx
  rcases hx with rfl | rfl
  · exact hd ⟨x.toNat / 16, by omega⟩
  · exact hd ⟨x.toNat % 16, by omega⟩

/-- **C43.** A valid mnemonic gives 128 lower-case hex characters that decode to the BIP-39 seed; an invalid one gives
the decoder's error and no text. With a good word list there is no third case. -/
theorem C43_seed_text (H : Hashes) {l : List Bytes} (hg : GoodList l) (m p : Bytes) :
    (isMnemonicValid H (setWordList l) m = .ok true →
      ∃ t, deriveSeedFromMnemonic H (setWordList l) m p = .ok (t, none) ∧ t.length = 128 ∧
        (∀ c ∈ t, c ∈ str "0123456789abcdef") ∧ hexDecode t = some (newSeed H m p) ∧
        hexDecode t = some ((List.range 64).map (pbkdf2T (H.hmacSha512 m) (str "mnemonic" ++ p) 2048 1))) ∧
    (isMnemonicValid H (setWordList l) m = .ok false → ∃ e,
      entropyFromMnemonic H (setWordList l) m = .ok ([], some e) ∧
      deriveSeedFromMnemonic H (setWordList l) m p = .ok ([], some e)) ∧
    (isMnemonicValid H (setWordList l) m = .ok true ∨ isMnemonicValid H (setWordList l) m = .ok false) := by
  have hseed := (C08_seed H (setWordList l) m p).2.2
  cases h : entropyFromMnemonic H (setWordList l) m with
  | panic => exact absurd h (C04_errors H hg m _ (layout_fields m)).2.2.2
  | ok r =>
    obtain ⟨e, er⟩ := r
    cases er with
    | none =>
      have hv : isMnemonicValid H (setWordList l) m = .ok true := by rw [isMnemonicValid, h]; rfl
      rw [hv]
      refine ⟨fun _ => ⟨hexEncode (newSeed H m p), ?_, ?_, hexEncode_lower _, hexDecode_hexEncode _, ?_⟩,
        fun h => by simp at h, .inl rfl⟩
      · rw [deriveSeedFromMnemonic, h]
      · rw [hexEncode_length, hseed.2]
      · rw [hexDecode_hexEncode, ← hseed.1]
    | some er =>
      have hv : isMnemonicValid H (setWordList l) m = .ok false := by rw [isMnemonicValid, h]; rfl
      rw [hv]
      obtain rfl := entropy_err_nil H _ m e er h
      exact ⟨fun h => by simp at h, fun _ => ⟨er, rfl, by rw [deriveSeedFromMnemonic, h]⟩, .inr rfl⟩

/-! ### C44 -/

/-- Text that `hex.DecodeString` rejects: odd length or a character that is no hex digit. -/
theorem hexDecode_none_iff (s : Bytes) :
    hexDecode s = none ↔ s.length % 2 = 1 ∨ ∃ c ∈ s, c ∉ str "0123456789abcdefABCDEF" := by
  have hc : ∀ c : UInt8, fromHexChar c = none ↔ c ∉ str "0123456789abcdefABCDEF" := by
    have : ∀ n : Fin 256, fromHexChar (UInt8.ofNat n.1) = none ↔ UInt8.ofNat n.1 ∉ str "0123456789abcdefABCDEF" := by
      decide +kernel
    intro c
    have := this ⟨c.toNat, c.toNat_lt⟩
    simpa using this
  fun_induction hexDecode s with
  | case1 => simp
  | case2 a => simp
  | case3 a b rest x y r hr hx hy ih =>
    rw [hr] at ih
    have ha : ¬ a ∉ str "0123456789abcdefABCDEF" := fun h => by rw [(hc a).2 h] at hy; simp at hy
    have hb : ¬ b ∉ str "0123456789abcdefABCDEF" := fun h => by rw [(hc b).2 h] at hx; simp at hx
    have h0 : ¬ (rest.length % 2 = 1 ∨ ∃ c ∈ rest, c ∉ str "0123456789abcdefABCDEF") := fun h => by simpa using ih.2 h
    simp only [List.length_cons, List.mem_cons, exists_eq_or_imp]
    constructor
    · simp
    · rintro (h | h | h | h)
      · exact absurd (Or.inl (by omega)) h0
      · exact absurd h ha
      · exact absurd h hb
      · exact absurd (Or.inr h) h0
  | case4 a b rest hn ih =>
    simp only [true_iff, List.length_cons, List.mem_cons, exists_eq_or_imp]
    cases hx : fromHexChar a with
    | none => exact .inr (.inl ((hc a).1 hx))
    | some x =>
      cases hy : fromHexChar b with
      | none => exact .inr (.inr (.inl ((hc b).1 hy)))
      | some y =>
        cases hr : hexDecode rest with
        | none =>
          rcases ih.1 hr with h | h
          · exact .inl (by omega)
          · exact .inr (.inr (.inr h))
        | some r => exact absurd hr (hn x y r hx hy)

/-- **C44**, what the code does, for every text and every hash: the two input errors; for at least 16 bytes the
BIP-32 master key when `IL` is a valid scalar, and a panic when it is not. -/
theorem C44_root_key_exact (H : Hashes) (seed : Bytes) :
    ((seed.length % 2 = 1 ∨ ∃ c ∈ seed, c ∉ str "0123456789abcdefABCDEF") →
      rootKeyFromSeed H seed = .ok (Key.zero, some .hexDecode)) ∧
    (∀ b, hexDecode seed = some b → b.length < 16 → rootKeyFromSeed H seed = .ok (Key.zero, some .invalidBIP39Seed)) ∧
    (∀ b, hexDecode seed = some b → 16 ≤ b.length →
      let I := H.hmacSha512 (str "Bitcoin seed") b
      let m := parse256 (I.take 32)
      (m = 0 ∨ secpN ≤ m → rootKeyFromSeed H seed = .panic) ∧
      (¬ (m = 0 ∨ secpN ≤ m) → ∃ k, rootKeyFromSeed H seed = .ok (k, none) ∧
        k.fields = { version := 0x0488ade4, depth := [0], fingerPrint := [0, 0, 0, 0], childNumber := [0, 0, 0, 0],
                     chainCode := I.drop 32, keyBytes := 0 :: ser256 m })) := by
  refine ⟨?_, ?_, ?_⟩
  · intro h
    rw [rootKeyFromSeed, (hexDecode_none_iff seed).2 h]
  · intro b hb hl
    rw [rootKeyFromSeed, hb]
    exact if_pos hl
  · intro b hb hl I m
    have hm := C21_master_key H b
    constructor
    · intro h
      rw [rootKeyFromSeed, hb]
      dsimp only
      rw [if_neg (by omega), hm.1.2 h]
    · intro h
      obtain ⟨k, h1, h2⟩ := hm.2 h
      refine ⟨k, ?_, h2⟩
      have hne : k.bytes ≠ List.replicate 78 0 := by
        intro e
        have : k = Key.zero := Key.ext' e
        rw [this, zero_fields] at h2
        have : (0 : UInt32) = 0x0488ade4 := congrArg KeyFields.version h2
        revert this
        decide
      rw [rootKeyFromSeed, hb]
      dsimp only
      rw [if_neg (by omega), h1]
      dsimp only
      have hv := (C18_isValid_iff H k).2 hne
      rw [Key.isValid] at hv
      rcases hs : k.serialize H with ⟨ser, _ | e⟩
      · rw [hs] at hv
        dsimp only at hv ⊢
        rcases hd : deserialize H ser with ⟨k', _ | e⟩
        · rfl
        · rw [hd] at hv; simp at hv
      · rw [hs] at hv; simp at hv

/-- **C44**, the deviation: every text of at least 16 hex bytes makes `RootKeyFromSeed` panic under some HMAC
behaviour, namely when the left half is not a valid scalar. The property demands an error. -/
theorem C44_panics (seed b : Bytes) (hb : hexDecode seed = some b) (hl : 16 ≤ b.length) :
    ∃ H, (newMasterKey H b).2 = some .invalidPrivateKey ∧ rootKeyFromSeed H seed = .panic := by
  have h0 : parse256 (((hashesIL 0).hmacSha512 (str "Bitcoin seed") b).take 32) = 0 := by
    rw [hashesIL_take]; decide +kernel
  refine ⟨hashesIL 0, ?_, ((C44_root_key_exact (hashesIL 0) seed).2.2 b hb hl).1 (.inl h0)⟩
  rw [(C21_master_key (hashesIL 0) b).1.2 (.inl h0)]

/-- **C44** for all inputs whose HMAC left half is a valid scalar (or which are too short or not hex): an answer, never
a panic, and it is the master key exactly when the text is at least 16 bytes of hex. -/
theorem C44_root_key_partial (H : Hashes) (seed : Bytes)
    (h : ∀ b, hexDecode seed = some b → 16 ≤ b.length →
      parse256 ((H.hmacSha512 (str "Bitcoin seed") b).take 32) ≠ 0 ∧
      parse256 ((H.hmacSha512 (str "Bitcoin seed") b).take 32) < secpN) :
    ∃ k e, rootKeyFromSeed H seed = .ok (k, e) ∧
      (e = none ↔ ∃ b, hexDecode seed = some b ∧ 16 ≤ b.length ∧ newMasterKey H b = (some k, none)) := by
  have ex := C44_root_key_exact H seed
  cases hd : hexDecode seed with
  | none => exact ⟨_, _, ex.1 ((hexDecode_none_iff _).1 hd), by simp⟩
  | some b =>
    by_cases hl : b.length < 16
    · refine ⟨_, _, ex.2.1 b hd hl, by simp, ?_⟩
      rintro ⟨b', hb', hl', -⟩
      obtain rfl := Option.some.inj hb'
      omega
    · have hh := h b hd (by omega)
      have hnot : ¬ (parse256 ((H.hmacSha512 (str "Bitcoin seed") b).take 32) = 0 ∨
          secpN ≤ parse256 ((H.hmacSha512 (str "Bitcoin seed") b).take 32)) := by
        rintro (h0 | h0)
        · exact hh.1 h0
        · exact absurd hh.2 (Nat.not_lt.2 h0)
      obtain ⟨k, h1, h2⟩ := (ex.2.2 b hd (by omega)).2 hnot
      obtain ⟨k', h3, h4⟩ := (C21_master_key H b).2 hnot
      have : k' = k := Key.fields_inj (h4.trans h2.symm)
      subst this
      exact ⟨_, _, h1, by simp only [true_iff]; exact ⟨b, rfl, by omega, h3⟩⟩

/-- The three cases of C44 occur. -/
example : hexDecode (str "000102030405060708090a0b0c0d0E0F") = some [0, 1, 2, 3, 4, 5, 6, 7, 8, 9, 10, 11, 12, 13, 14, 15] ∧
    hexDecode (str "00ff") = some [0, 255] ∧ (∃ c ∈ str "0g", c ∉ str "0123456789abcdefABCDEF") := by decide +kernel

/-- A seed as in C44. -/
theorem example_root : ∃ k, rootKeyFromSeed (hashesIL 5) (str "000102030405060708090a0b0c0d0E0F") = .ok (k, none) := by
  have h5 : ¬ (parse256 (((hashesIL 5).hmacSha512 (str "Bitcoin seed")
      [0, 1, 2, 3, 4, 5, 6, 7, 8, 9, 10, 11, 12, 13, 14, 15]).take 32) = 0 ∨ secpN ≤ parse256 (((hashesIL 5).hmacSha512
      (str "Bitcoin seed") [0, 1, 2, 3, 4, 5, 6, 7, 8, 9, 10, 11, 12, 13, 14, 15]).take 32)) := by
    rw [hashesIL_take]; decide +kernel
  obtain ⟨k, h, -⟩ := ((C44_root_key_exact (hashesIL 5) (str "000102030405060708090a0b0c0d0E0F")).2.2
    [0, 1, 2, 3, 4, 5, 6, 7, 8, 9, 10, 11, 12, 13, 14, 15] (by decide +kernel) (by decide)).2 h5
  exact ⟨k, h⟩

end Bips
