import Verif.Props.Bip39
import Verif.Model.Util
import Verif.Props.Child

/-!
# C80: word lists of the caller

`SetWordList` takes any list. Nothing is assumed of the list here: any number of entries, the same entry twice, entries that are empty
or contain white space.
-/

namespace Bips
open Spec

/-- The word loop with any list: the positions are the base-2048 digits of the number; a position outside of the list panics. -/
theorem encodeWords_total (l : List Bytes) (k N : Nat) (acc : List Bytes) :
    ∃ idx : List Nat, idx.length = k ∧ (∀ i ∈ idx, i < 2048) ∧ ofDigitsBE 2048 idx = N % 2048 ^ k ∧
      ((∀ i ∈ idx, i < l.length) → ∃ ws, ws.map some = idx.map (l[·]?) ∧ encodeWords l k N acc = .ok (ws ++ acc)) ∧
      ((∃ i ∈ idx, l.length ≤ i) → encodeWords l k N acc = .panic) := by
  induction k generalizing N acc with
  | zero => exact ⟨[], rfl, by simp, by simp [Nat.mod_one], fun _ => ⟨[], rfl, rfl⟩, by simp⟩
  | succ k ih =>
    have hword : setBytes (padByteSlice (bigBytes (N &&& 2047)) 2) = N % 2048 := by
      rw [padByteSlice_eq, setBytes_padLeft, setBytes_bigBytes]
      exact Nat.and_two_pow_sub_one_eq_mod N 11
    have hlt : N % 2048 < 2048 := Nat.mod_lt _ (by omega)
    have hdig : ∀ idx : List Nat, ofDigitsBE 2048 idx = N / 2048 % 2048 ^ k →
        ofDigitsBE 2048 (idx ++ [N % 2048]) = N % 2048 ^ (k + 1) := by
      intro idx h
      rw [ofDigitsBE_concat, h, pow_succ' 2048 k, Nat.mod_mul]; omega
    by_cases hin : N % 2048 < l.length
    · have hget : l[N % 2048]? = some l[N % 2048] := List.getElem?_eq_getElem hin
      obtain ⟨idx, h1, h2, h3, h4, h5⟩ := ih (N / 2048) (l[N % 2048] :: acc)
      have hstep : encodeWords l (k + 1) N acc = encodeWords l k (N / 2048) (l[N % 2048] :: acc) := by
        rw [encodeWords]; rw [hword, hget]
      refine ⟨idx ++ [N % 2048], by simp [h1], ?_, hdig idx h3, ?_, ?_⟩
      · intro i hi
        rcases List.mem_append.1 hi with h | h
        · exact h2 i h
        · rw [List.mem_singleton.1 h]; exact hlt
      · intro h
        obtain ⟨ws, w1, w2⟩ := h4 fun i hi => h i (by simp [hi])
        exact ⟨ws ++ [l[N % 2048]], by simp [w1, hget], by rw [hstep, w2]; simp⟩
      · rintro ⟨i, hi, hle⟩
        rw [hstep]
        refine h5 ⟨i, ?_, hle⟩
        rcases List.mem_append.1 hi with h | h
        · exact h
        · rw [List.mem_singleton.1 h] at hle; omega
    · obtain ⟨idx, h1, h2, h3, -, -⟩ := ih (N / 2048) acc
      have hpan : encodeWords l (k + 1) N acc = .panic := by
        rw [encodeWords]; rw [hword, List.getElem?_eq_none (by omega)]
      refine ⟨idx ++ [N % 2048], by simp [h1], ?_, hdig idx h3, ?_, fun _ => hpan⟩
      · intro i hi
        rcases List.mem_append.1 hi with h | h
        · exact h2 i h
        · rw [List.mem_singleton.1 h]; exact hlt
      · intro h
        exact absurd (h (N % 2048) (by simp)) hin

/-- `NewMnemonic` with any list. -/
theorem newMnemonic_total (H : Hashes) (S : WordState) (e : Bytes) (he : e.length ∈ entropySizes) :
    ∃ idx : List Nat, (∀ i ∈ idx, i < 2048) ∧ idx.flatMap (bitsN 11) = mnemonicBits H.sha256 e ∧
      ((∀ i ∈ idx, i < S.list.length) → ∃ ws, ws.map some = idx.map (S.list[·]?) ∧
        newMnemonic H S e = .ok ([32].intercalate ws, none)) ∧
      ((∃ i ∈ idx, S.list.length ≤ i) → newMnemonic H S e = .panic) := by
  obtain ⟨k, hek, hk1, hk2⟩ := (entropySizes_iff _).1 he
  have hlen : (e.length * 8 + e.length * 8 / 32) / 11 = 3 * k := by omega
  obtain ⟨idx, h1, h2, h3, h4, h5⟩ := encodeWords_total S.list (3 * k) (setBytes (addChecksum H e)) []
  have hN := setBytes_addChecksum H e k hek hk2
  have hlt : setBytes (addChecksum H e) < 2048 ^ (3 * k) := by
    have hc : ((H.sha256 e).headD 0).toNat / 2 ^ (8 - k) < 2 ^ k := by
      apply Nat.div_lt_of_lt_mul
      rw [← pow_add, show 8 - k + k = 8 by omega]
      exact ((H.sha256 e).headD 0).toNat_lt
    have hse := setBytes_lt e
    rw [hek] at hse
    rw [hN]
    calc setBytes e * 2 ^ k + _ < setBytes e * 2 ^ k + 2 ^ k := by omega
      _ = (setBytes e + 1) * 2 ^ k := by ring
      _ ≤ 256 ^ (4 * k) * 2 ^ k := Nat.mul_le_mul_right _ hse
      _ = 2048 ^ (3 * k) := by
        rw [show (2048 : Nat) = 2 ^ 11 by rfl, show (256 : Nat) = 2 ^ 8 by rfl, ← pow_mul, ← pow_mul, ← pow_add]
        congr 1; ring
  rw [Nat.mod_eq_of_lt hlt, hN] at h3
  have hnew : newMnemonic H S e = match encodeWords S.list (3 * k) (setBytes (addChecksum H e)) [] with
      | .panic => .panic
      | .ok words => .ok (joinByte 32 words, none) := by
    rw [newMnemonic]
    rw [(validate_none_iff e.length).2 he, hlen]
    rfl
  refine ⟨idx, h2, (encodes_bits_iff H e k hek hk2 idx h2).2 ⟨h1, h3⟩, fun h => ?_, fun h => ?_⟩
  · obtain ⟨ws, w1, w2⟩ := h4 h
    refine ⟨ws, w1, ?_⟩
    rw [hnew, w2, List.append_nil, ← joinByte_eq_intercalate]
  · rw [hnew, h5 h]

/-- The positions of a sentence are determined by its bits. -/
theorem idx_unique {idx idx' : List Nat} (h : ∀ i ∈ idx, i < 2048) (h' : ∀ i ∈ idx', i < 2048)
    (hb : idx.flatMap (bitsN 11) = idx'.flatMap (bitsN 11)) (H : Hashes) (e : Bytes) (he : e.length ∈ entropySizes)
    (hm : idx.flatMap (bitsN 11) = mnemonicBits H.sha256 e) : idx = idx' := by
  obtain ⟨k, hek, hk1, hk2⟩ := (entropySizes_iff _).1 he
  obtain ⟨a1, a2⟩ := (encodes_bits_iff H e k hek hk2 idx h).1 hm
  obtain ⟨b1, b2⟩ := (encodes_bits_iff H e k hek hk2 idx' h').1 (hb ▸ hm)
  exact ofDigitsBE_inj 2048 idx idx' (a1.trans b1.symm) h h' (a2.trans b2.symm)

/-- **C80.** `NewMnemonic` with any word list: an error exactly for a bad size; otherwise the BIP-39 sentence if the list has one, and a
panic if it has none, that is, if the sentence needs a word behind the end of the list. -/
theorem C80_newMnemonic (H : Hashes) (S : WordState) (e : Bytes) :
    (e.length ∉ entropySizes → newMnemonic H S e = .ok ([], some .entropyLengthInvalid)) ∧
    (∀ ws, e.length ∈ entropySizes → Encodes H.sha256 S.list e ws → newMnemonic H S e = .ok ([32].intercalate ws, none)) ∧
    (newMnemonic H S e = .panic ↔ e.length ∈ entropySizes ∧ ∀ ws, ¬ Encodes H.sha256 S.list e ws) := by
  have hbad : e.length ∉ entropySizes → newMnemonic H S e = .ok ([], some .entropyLengthInvalid) := by
    intro h
    have : validateEntropyBitSize ((e.length * 8 : Nat) : Int) = some .entropyLengthInvalid := by
      cases hv : validateEntropyBitSize ((e.length * 8 : Nat) : Int) with
      | none => exact absurd ((validate_none_iff _).1 hv) h
      | some x =>
        unfold validateEntropyBitSize at hv
        split at hv
        · rw [← hv]
        · simp at hv
    rw [newMnemonic]
    rw [this]
  have hgood : ∀ ws, e.length ∈ entropySizes → Encodes H.sha256 S.list e ws →
      newMnemonic H S e = .ok ([32].intercalate ws, none) := by
    intro ws he hE
    obtain ⟨idx, h1, h2, h3, -⟩ := newMnemonic_total H S e he
    obtain ⟨idx', i1, i2, i3⟩ := hE
    have : idx' = idx := idx_unique i1 h1 (i3.trans h2.symm) H e he i3
    subst this
    obtain ⟨ws', w1, w2⟩ := h3 fun i hi => by
      have : S.list[i]? ∈ idx'.map (S.list[·]?) := List.mem_map_of_mem hi
      rw [← i2] at this
      obtain ⟨w, -, hw⟩ := List.mem_map.1 this
      exact (List.getElem?_eq_some_iff.1 hw.symm).1
    rw [w2, List.map_injective_iff.2 (Option.some_injective _) (w1.trans i2.symm)]
  refine ⟨hbad, hgood, ?_⟩
  constructor
  · intro h
    by_cases he : e.length ∈ entropySizes
    · refine ⟨he, fun ws hE => ?_⟩
      rw [hgood ws he hE] at h
      cases h
    · rw [hbad he] at h; cases h
  · rintro ⟨he, hno⟩
    obtain ⟨idx, h1, h2, h3, h4⟩ := newMnemonic_total H S e he
    by_cases hall : ∀ i ∈ idx, i < S.list.length
    · obtain ⟨ws, w1, -⟩ := h3 hall
      exact absurd ⟨idx, h1, w1, h2⟩ (hno ws)
    · push Not at hall
      exact h4 hall

/-- **C80.** Decoding never panics, whatever is in the package variables. -/
theorem C80_no_panic (H : Hashes) (S : WordState) (m p : Bytes) (raw : List Bool) :
    entropyFromMnemonic H S m ≠ .panic ∧ mnemonicToByteArray H S m raw ≠ .panic ∧ newSeedWithErrorChecking H S m p ≠ .panic ∧
    isMnemonicValid H S m ≠ .panic ∧ deriveSeedFromMnemonic H S m p ≠ .panic := by
  have h1 : entropyFromMnemonic H S m ≠ .panic := by
    rw [entropyFromMnemonic, splitMnemonicWords_eq]
    by_cases hc : (fields m).length ∈ sentenceLengths
    swap
    · rw [if_neg hc]; simp
    obtain ⟨k, hk, hk1, hk2⟩ := (sentenceLengths_iff _).1 hc
    obtain ⟨t1, t2, -⟩ := checksumTables k hk1 hk2
    rw [if_pos hc]
    dsimp only
    cases decodeWords S.map (fields m) 0 with
    | inr e => simp
    | inl b =>
      dsimp only
      rw [hk, t1]
      dsimp only
      by_cases h24 : 3 * k = 24
      · rw [if_neg (by simpa using h24)]; split <;> simp
      · rw [if_pos h24, t2 h24]; dsimp only; split <;> simp
  have h2 : ∀ raw, mnemonicToByteArray H S m raw ≠ .panic := by
    intro raw
    rw [mnemonicToByteArray]
    rcases h : entropyFromMnemonic H S m with ⟨a, _ | e⟩ | _
    · dsimp only; split <;> simp
    · simp
    · exact absurd h h1
  refine ⟨h1, h2 raw, ?_, ?_, ?_⟩
  · rw [newSeedWithErrorChecking]
    rcases h : mnemonicToByteArray H S m with ⟨a, _ | e⟩ | _
    · simp
    · simp
    · exact absurd h (h2 _)
  · rw [isMnemonicValid]
    rcases h : entropyFromMnemonic H S m with ⟨a, _ | e⟩ | _
    · simp
    · simp
    · exact absurd h h1
  · rw [deriveSeedFromMnemonic]
    rcases h : entropyFromMnemonic H S m with ⟨a, _ | e⟩ | _
    · simp
    · simp
    · exact absurd h h1

/-! ### Which lists are safe -/

/-- White space before and words after. -/
theorem layout_isWs_left {p s : Bytes} {ws : List Bytes} (hp : IsWs p) (h : Layout s ws) : Layout (p ++ s) ws := by
  obtain ⟨cs, hcs, rfl⟩ := hp
  induction cs with
  | nil => simpa using h
  | cons c cs ih =>
    have := layout_ws_left (hcs c (by simp)) (ih fun x hx => hcs x (by simp [hx]))
    simpa [List.append_assoc] using this

/-- Two texts with a space between them. -/
theorem layout_append {s t : Bytes} {ws us : List Bytes} (h : Layout s ws) (ht : Layout t us) :
    Layout (s ++ [32] ++ t) (ws ++ us) := by
  have hsp : IsWs [32] := isWs_cons (c := 0x20) (by decide) isWs_nil
  induction h with
  | nil h => exact layout_isWs_left (isWs_append h hsp) ht
  | @last pre w post h1 h2 h3 =>
    have := Layout.cons h1 h2 (isWs_append h3 hsp) (by simp) ht
    simpa [List.append_assoc] using this
  | @cons pre w sep rest ws h1 h2 h3 h4 _ ih =>
    have := Layout.cons h1 h2 h3 h4 ih
    simpa [List.append_assoc] using this

theorem fields_intercalate (ws : List Bytes) (h : ws ≠ []) : fields ([32].intercalate ws) = ws.flatMap fields := by
  induction ws with
  | nil => exact absurd rfl h
  | cons w ws ih =>
    cases ws with
    | nil => simp [List.intercalate]
    | cons v ws =>
      have := fields_layout (layout_append (layout_fields w) (layout_fields ([32].intercalate (v :: ws))))
      rw [ih (by simp)] at this
      rw [show [32].intercalate (w :: v :: ws) = w ++ [32] ++ [32].intercalate (v :: ws) by simp [List.intercalate], this]
      rfl

/-- Successful decoding when the map has values below 2048 only. -/
theorem decodeWords_small {m : Bytes → Option Nat} (hm : ∀ w i, m w = some i → i < 2048) (ws : List Bytes) (b N : Nat)
    (h : decodeWords m ws b = .inl N) :
    ∃ idx : List Nat, (∀ i ∈ idx, i < 2048) ∧ ws.map m = idx.map some ∧ N = b * 2048 ^ idx.length + ofDigitsBE 2048 idx := by
  induction ws generalizing b with
  | nil =>
    rw [decodeWords, Sum.inl.injEq] at h
    exact ⟨[], by simp, rfl, by simp [h]⟩
  | cons w ws ih =>
    rw [decodeWords] at h
    cases hw : m w with
    | none => rw [hw] at h; simp at h
    | some i =>
      rw [hw] at h
      have hi := hm w i hw
      dsimp only at h
      rw [show setBytes (beBytes 2 (i % 65536)) = i by rw [setBytes_beBytes]; omega, mul_or_eq_add b i hi] at h
      obtain ⟨idx, h1, h2, h3⟩ := ih _ h
      refine ⟨i :: idx, by simpa [hi] using h1, by simp [h2, hw], ?_⟩
      rw [h3, ofDigitsBE_cons, List.length_cons, pow_succ']; ring

/-- An entropy whose sentence begins with the word `i` eleven times. -/
def repeated (i : Nat) : Bytes := beBytes 16 (ofDigitsBE 2048 (List.replicate 11 i) * 128)

theorem repeated_length (i : Nat) : (repeated i).length = 16 := by simp [repeated]

theorem repeated_idx (H : Hashes) {i : Nat} (hi : i < 2048) {idx : List Nat} (h1 : ∀ j ∈ idx, j < 2048)
    (h2 : idx.flatMap (bitsN 11) = mnemonicBits H.sha256 (repeated i)) :
    ∃ c, c < 2048 ∧ idx = List.replicate 11 i ++ [c] := by
  obtain ⟨a1, a2⟩ := (encodes_bits_iff H (repeated i) 4 (repeated_length i) (by omega) idx h1).1 h2
  have hR : ofDigitsBE 2048 (List.replicate 11 i) < 2048 ^ 11 := by
    have := ofDigitsBE_lt 2048 (List.replicate 11 i) (fun d hd => by rw [List.eq_of_mem_replicate hd]; exact hi)
    simpa using this
  have hs : setBytes (repeated i) = ofDigitsBE 2048 (List.replicate 11 i) * 128 := by
    rw [repeated, setBytes_beBytes, Nat.mod_eq_of_lt]
    calc ofDigitsBE 2048 (List.replicate 11 i) * 128 < 2048 ^ 11 * 128 := by omega
      _ = 256 ^ 16 := by norm_num
  have hc : ((H.sha256 (repeated i)).headD 0).toNat / 2 ^ (8 - 4) < 16 := by
    have := ((H.sha256 (repeated i)).headD 0).toNat_lt
    omega
  generalize ((H.sha256 (repeated i)).headD 0).toNat / 2 ^ (8 - 4) = c at hc a2
  refine ⟨c, by omega, ?_⟩
  apply ofDigitsBE_inj 2048 _ _ (by simp [a1]) h1
  · intro d hd
    rcases List.mem_append.1 hd with h | h
    · rw [List.eq_of_mem_replicate h]; exact hi
    · rw [List.mem_singleton.1 h]; omega
  · rw [a2, ofDigitsBE_concat, hs]; ring

/-- **C80.** A list of at most 2048 entries is safe, that is, every entropy survives the way to the mnemonic and back, exactly when it has
2048 different entries, none of them empty and none containing white space. -/
theorem C80_safe_iff (H : Hashes) (l : List Bytes) (hl : l.length ≤ 2048) :
    (∀ e, e.length ∈ entropySizes → ∃ m, newMnemonic H (setWordList l) e = .ok (m, none) ∧
      entropyFromMnemonic H (setWordList l) m = .ok (e, none)) ↔ GoodList l := by
  constructor
  swap
  · intro hg e he
    obtain ⟨m, h1, h2, -⟩ := C01_roundtrip H hg e he
    exact ⟨m, h1, h2⟩
  intro hall
  have hsmall : ∀ w i, (setWordList l).map w = some i → i < 2048 := fun w i h =>
    (List.getElem?_eq_some_iff.1 ((setWordList_map_some l w i).1 h).1).1.trans_le hl
  have h16 : (16 : Nat) ∈ entropySizes := by decide
  -- the sentence of `repeated i` and its decoding
  have step : ∀ i, i < 2048 → ∃ c, c < 2048 ∧ i < l.length ∧ ∃ w u, l[i]? = some w ∧ l[c]? = some u ∧
      entropyFromMnemonic H (setWordList l) ([32].intercalate (List.replicate 11 w ++ [u])) = .ok (repeated i, none) := by
    intro i hi
    obtain ⟨m, m1, m2⟩ := hall (repeated i) (by rw [repeated_length]; exact h16)
    obtain ⟨idx, h1, h2, h3, h4⟩ := newMnemonic_total H (setWordList l) (repeated i) (by rw [repeated_length]; exact h16)
    obtain ⟨c, hc, rfl⟩ := repeated_idx H hi h1 h2
    have hin : ∀ j ∈ List.replicate 11 i ++ [c], j < l.length := by
      by_contra hcon
      push Not at hcon
      rw [h4 hcon] at m1
      cases m1
    have hi' := hin i (by simp)
    have hc' := hin c (by simp)
    obtain ⟨ws, w1, w2⟩ := h3 hin
    refine ⟨c, hc, hi', l[i], l[c], List.getElem?_eq_getElem hi', List.getElem?_eq_getElem hc', ?_⟩
    have hS : (setWordList l).list = l := rfl
    have hws : ws = List.replicate 11 l[i] ++ [l[c]] := by
      apply List.map_injective_iff.2 (Option.some_injective _)
      rw [w1, hS]
      simp [List.getElem?_eq_getElem hi', List.getElem?_eq_getElem hc']
    rw [m1, hws] at w2
    rw [← (Prod.mk.inj (Outcome.ok.inj w2)).1]
    exact m2
  have hlen : l.length = 2048 := by
    obtain ⟨-, -, h, -⟩ := step 2047 (by omega)
    omega
  -- what acceptance means
  have acc : ∀ i s, i < 2048 → entropyFromMnemonic H (setWordList l) s = .ok (repeated i, none) →
      ∃ c, (fields s).map (setWordList l).map = List.replicate 11 (some i) ++ [some c] := by
    intro i s hi h
    by_cases hc : (fields s).length ∈ sentenceLengths
    swap
    · rw [entropyFromMnemonic, splitMnemonicWords_eq, if_neg hc] at h
      simp at h
    obtain ⟨k, hk, hk1, hk2⟩ := (sentenceLengths_iff _).1 hc
    cases hd : decodeWords (setWordList l).map (fields s) 0 with
    | inr er =>
      rw [entropyFromMnemonic, splitMnemonicWords_eq, if_pos hc] at h
      dsimp only at h
      rw [hd] at h
      simp at h
    | inl N =>
      obtain ⟨idx, h1, h2, h3⟩ := decodeWords_small hsmall _ _ _ hd
      rw [Nat.zero_mul, Nat.zero_add] at h3
      have hil : idx.length = 3 * k := by
        have := congrArg List.length h2
        simpa [hk] using this.symm
      have hlt : N < 2048 ^ (3 * k) := by rw [h3, ← hil]; exact ofDigitsBE_lt 2048 idx h1
      rw [entropy_of_number H _ s k N hk1 hk2 hk hd hlt] at h
      split at h
      swap
      · simp at h
      have he := (Prod.mk.inj (Outcome.ok.inj h)).1
      have hk4 : k = 4 := by
        have := congrArg List.length he
        rw [repeated_length] at this
        simp at this
        omega
      subst hk4
      have hval : N / 2048 = ofDigitsBE 2048 (List.replicate 11 i) := by
        have hR : ofDigitsBE 2048 (List.replicate 11 i) < 2048 ^ 11 := by
          have := ofDigitsBE_lt 2048 (List.replicate 11 i) (fun d hd => by rw [List.eq_of_mem_replicate hd]; exact hi)
          simpa using this
        have := congrArg setBytes he
        rw [repeated, setBytes_beBytes, setBytes_beBytes, Nat.mod_eq_of_lt, Nat.mod_eq_of_lt] at this
        · omega
        · omega
        · omega
      obtain ⟨init, c, rfl⟩ : ∃ init c, idx = init ++ [c] := by
        have : idx ≠ [] := by intro e; rw [e] at hil; simp at hil
        exact ⟨_, _, (List.dropLast_append_getLast this).symm⟩
      rw [ofDigitsBE_concat] at h3
      have hclt := h1 c (by simp)
      have hinit : init = List.replicate 11 i := by
        apply ofDigitsBE_inj 2048 _ _ (by simp at hil; simp; omega) (fun d hd => h1 d (by simp [hd]))
          (fun d hd => by rw [List.eq_of_mem_replicate hd]; exact hi)
        rw [← hval]; omega
      refine ⟨c, ?_⟩
      rw [h2, hinit]; simp
  have count : ∀ i, i < 2048 → ∃ c, c < 2048 ∧ ∃ w u x, l[i]? = some w ∧ l[c]? = some u ∧
      ((List.replicate 11 w ++ [u]).flatMap fields).map (setWordList l).map = List.replicate 11 (some i) ++ [some x] := by
    intro i hi
    obtain ⟨c, hc, -, w, u, hw, hu, h⟩ := step i hi
    obtain ⟨x, hx⟩ := acc i _ hi h
    rw [fields_intercalate _ (by simp)] at hx
    exact ⟨c, hc, w, u, x, hw, hu, hx⟩
  have hle : ∀ i w, i < 2048 → l[i]? = some w → (fields w).length ≤ 1 := by
    intro i w hi hw
    obtain ⟨c, -, w', u, x, hw', -, h⟩ := count i hi
    rw [hw] at hw'
    obtain rfl := Option.some.inj hw'
    have := congrArg List.length h
    simp at this
    omega
  have hone : ∀ i w, i < 2048 → l[i]? = some w → ∃ v, fields w = [v] ∧ (setWordList l).map v = some i := by
    intro i w hi hw
    obtain ⟨c, hc, w', u, x, hw', hu, h⟩ := count i hi
    rw [hw] at hw'
    obtain rfl := Option.some.inj hw'
    have hlen' := congrArg List.length h
    simp at hlen'
    have h1 := hle i w hi hw
    have h2 := hle c u hc hu
    obtain ⟨v, hv⟩ := List.length_eq_one_iff.1 (show (fields w).length = 1 by omega)
    refine ⟨v, hv, ?_⟩
    have := congrArg List.head? h
    simpa [List.replicate_succ, hv] using this
  refine ⟨hlen, ?_, ?_⟩
  · rw [List.nodup_iff_getElem?_ne_getElem?]
    intro i j hij hj e
    have hi' : i < l.length := by omega
    obtain ⟨v, v1, v2⟩ := hone i _ (by omega) (List.getElem?_eq_getElem hi')
    obtain ⟨v', v3, v4⟩ := hone j _ (by omega) (List.getElem?_eq_getElem hj)
    rw [List.getElem?_eq_getElem hi', List.getElem?_eq_getElem hj] at e
    rw [Option.some.inj e, v3] at v1
    rw [← (List.cons.inj v1).1, v4] at v2
    have := Option.some.inj v2
    omega
  · intro w hw
    obtain ⟨i, hi⟩ := List.getElem?_of_mem hw
    have hi2 := (List.getElem?_eq_some_iff.1 hi).1
    obtain ⟨v, v1, v2⟩ := hone i w (by omega) hi
    have h1 := ((setWordList_map_some l v i).1 v2).1
    rw [hi] at h1
    have hvw : w = v := Option.some.inj h1
    have hL := layout_fields w
    rw [v1] at hL
    rw [hvw]
    cases hL with
    | last _ h _ => exact h
    | cons _ h _ _ _ => exact h

/-! ### Cases -/

/-- A list of one word: the entropy whose sentence begins with word 2047 panics, whatever the hash function is. -/
example (H : Hashes) : newMnemonic H (setWordList [str "a"]) (repeated 2047) = .panic := by
  have h16 : (repeated 2047).length ∈ entropySizes := by rw [repeated_length]; decide
  refine (C80_newMnemonic H _ _).2.2.2 ⟨h16, ?_⟩
  rintro ws ⟨idx, h1, h2, h3⟩
  obtain ⟨c, -, rfl⟩ := repeated_idx H (by omega) h1 h3
  have := congrArg List.head? h2
  simp [List.replicate_succ, setWordList, setWordListFrom] at this

/-- The same list has a sentence for the zero entropy when its checksum is zero: no panic. -/
example : newMnemonic (hashesIL 1) (setWordList [str "a"]) (List.replicate 16 0) =
    .ok (str "a a a a a a a a a a a a", none) := by decide +kernel

/-- 2048 times the same word: some entropy is lost. -/
example (H : Hashes) : ¬ ∀ e, e.length ∈ entropySizes → ∃ m,
    newMnemonic H (setWordList (List.replicate 2048 (str "a"))) e = .ok (m, none) ∧
    entropyFromMnemonic H (setWordList (List.replicate 2048 (str "a"))) m = .ok (e, none) := by
  rw [C80_safe_iff H _ (List.length_replicate).le]
  intro h
  have := List.nodup_replicate.1 h.nodup
  omega

end Bips
