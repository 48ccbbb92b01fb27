import Verif.Spec.Random
import Verif.Props.Util
import Verif.Props.Seed

/-!
# C77, C78: what happens when the random source fails
-/

namespace Bips
open Spec

/-- What `readLoop` delivers. -/
theorem readLoop_spec (src : Source) (n : Nat) :
    (n ≤ (stream src).1.length → (readLoop src n).1 = (stream src).1.take n ∧ (readLoop src n).2.1 = none) ∧
    ((stream src).1.length < n → (readLoop src n).1 = (stream src).1 ∧ (readLoop src n).2.1 = some (stream src).2) ∧
    (readLoop src n).1 ++ allBytes (readLoop src n).2.2 = allBytes src := by
  induction src generalizing n with
  | nil => cases n <;> simp [readLoop, stream, allBytes]
  | cons r src ih =>
    obtain ⟨b, e⟩ := r
    cases n with
    | zero => simp [readLoop.eq_def]
    | succ n =>
      have ha : allBytes ((b, e) :: src) = b ++ allBytes src := by simp [allBytes]
      rw [readLoop.eq_def]
      dsimp only
      by_cases h1 : n + 1 < b.length
      · rw [if_pos h1]
        refine ⟨fun _ => ⟨?_, rfl⟩, fun h => ?_, ?_⟩
        · cases e with
          | some e => rfl
          | none =>
            show _ = (b ++ _).take _
            rw [List.take_append_of_le_length (by omega)]
        · exfalso
          cases e with
          | some e => simp only [stream] at h; omega
          | none => simp only [stream, List.length_append] at h; omega
        · simp [allBytes, ← List.append_assoc]
      · rw [if_neg h1]
        by_cases h2 : n + 1 = b.length
        · rw [if_pos h2]
          refine ⟨fun _ => ⟨?_, rfl⟩, fun h => ?_, ha.symm⟩
          · cases e with
            | some e => rw [h2]; simp [stream]
            | none =>
              show _ = (b ++ _).take _
              rw [h2]; simp
          · exfalso
            cases e with
            | some e => simp only [stream] at h; omega
            | none => simp only [stream, List.length_append] at h; omega
        · rw [if_neg h2]
          cases e with
          | some e =>
            refine ⟨fun h => ?_, fun _ => ⟨rfl, rfl⟩, ha.symm⟩
            simp only [stream] at h
            omega
          | none =>
            obtain ⟨i1, i2, i3⟩ := ih (n + 1 - b.length)
            refine ⟨fun h => ?_, fun h => ?_, ?_⟩
            · simp only [stream, List.length_append] at h
              obtain ⟨j1, j2⟩ := i1 (by omega)
              refine ⟨?_, j2⟩
              show b ++ _ = (b ++ _).take _
              rw [j1, List.take_append, List.take_of_length_le (l := b) (by omega)]
            · simp only [stream, List.length_append] at h
              obtain ⟨j1, j2⟩ := i2 (by omega)
              exact ⟨congrArg _ j1, j2⟩
            · rw [ha, ← i3, ← List.append_assoc]

/-- What `rand.Read` does to a new buffer, exactly. -/
theorem randRead_spec (src : Source) (n : Nat) :
    (randRead src n).1.length = n ∧
    (randRead src n).1 = (stream src).1.take n ++ List.replicate (n - (stream src).1.length) 0 ∧
    ((randRead src n).2.1 = none ↔ n ≤ (stream src).1.length) ∧
    ((stream src).1.length < n → (randRead src n).2.1 =
      some (if (stream src).1 ≠ [] ∧ (stream src).2 = .eof then .unexpectedEOF else (stream src).2)) ∧
    ((randRead src n).2.1 = none → (randRead src n).1 ++ allBytes (randRead src n).2.2 = allBytes src) := by
  obtain ⟨h1, h2, h3⟩ := readLoop_spec src n
  have hr : randRead src n = ((readLoop src n).1 ++ List.replicate (n - (readLoop src n).1.length) 0,
    (if (readLoop src n).1 ≠ [] ∧ (readLoop src n).2.1 = some .eof then some .unexpectedEOF else (readLoop src n).2.1),
    (readLoop src n).2.2) := rfl
  rw [hr]
  dsimp only
  rcases Nat.lt_or_ge (stream src).1.length n with h | h
  · obtain ⟨j1, j2⟩ := h2 h
    rw [j1, j2]
    have e : (stream src).1.take n = (stream src).1 := List.take_of_length_le (by omega)
    have hs : (if (stream src).1 ≠ [] ∧ some (stream src).2 = some IoErr.eof then some IoErr.unexpectedEOF else some (stream src).2) =
        some (if (stream src).1 ≠ [] ∧ (stream src).2 = .eof then .unexpectedEOF else (stream src).2) := by
      simp only [Option.some.injEq]
      split <;> rfl
    rw [hs]
    refine ⟨by simp; omega, by rw [e], ?_, fun _ => rfl, fun h => by simp at h⟩
    simp; omega
  · obtain ⟨j1, j2⟩ := h1 h
    rw [j2, if_neg (by simp)]
    have hz : n - (readLoop src n).1.length = 0 := by rw [j1]; simp; omega
    rw [hz]
    refine ⟨by rw [j1]; simp; omega, by rw [Nat.sub_eq_zero_of_le h, j1], by simp [h], fun hh => by omega, fun _ => ?_⟩
    simpa using h3

/-! ### C77 -/

/-- **C77.** `NewSeed` of package bip32 returns the next 256 bytes of the source; it reports an error exactly when the source
fails before that, and then the bytes missing are zero. Bytes used are not used again. -/
theorem C77_seed_partial (src : Source) :
    (256 ≤ (stream src).1.length → (newSeed32 src).1 = (stream src).1.take 256 ∧ (newSeed32 src).2.1 = none ∧
      (newSeed32 src).1 ++ allBytes (newSeed32 src).2.2 = allBytes src) ∧
    ((stream src).1.length < 256 →
      (newSeed32 src).1 = (stream src).1 ++ List.replicate (256 - (stream src).1.length) 0 ∧ (newSeed32 src).2.1 =
        some (if (stream src).1 ≠ [] ∧ (stream src).2 = .eof then .unexpectedEOF else (stream src).2)) := by
  obtain ⟨-, h2, h3, h4, h5⟩ := randRead_spec src 256
  refine ⟨fun h => ⟨?_, h3.2 h, h5 (h3.2 h)⟩, fun h => ⟨?_, h4 h⟩⟩
  · show (randRead src 256).1 = _
    rw [h2, Nat.sub_eq_zero_of_le h]; simp
  · show (randRead src 256).1 = _
    rw [h2, List.take_of_length_le (by omega)]

/-- **C77**, the claim is false: BIP-32 asks for 128 to 512 bits, and no seed this function returns is that short. -/
theorem C77_too_long (src : Source) : 8 * (newSeed32 src).1.length = 2048 ∧
    ¬ (128 ≤ 8 * (newSeed32 src).1.length ∧ 8 * (newSeed32 src).1.length ≤ 512) := by
  have h : (newSeed32 src).1.length = 256 := (randRead_spec src 256).1
  omega

/-- **C77.** The master key of such a seed is defined by BIP-32's formula, and `RootKeyFromSeed` on its hex text gives the same
key; unless the formula gives no key, where one reports an error and the other panics. -/
theorem C77_master (H : Hashes) (src : Source) :
    let m := parse256 ((H.hmacSha512 (str "Bitcoin seed") (newSeed32 src).1).take 32)
    (¬ (m = 0 ∨ secpN ≤ m) → ∃ k, newMasterKey H (newSeed32 src).1 = (some k, none) ∧
      rootKeyFromSeed H (hexEncode (newSeed32 src).1) = .ok (k, none)) ∧
    (m = 0 ∨ secpN ≤ m → newMasterKey H (newSeed32 src).1 = (none, some .invalidPrivateKey) ∧
      rootKeyFromSeed H (hexEncode (newSeed32 src).1) = .panic) := by
  intro m
  have hl : (newSeed32 src).1.length = 256 := (randRead_spec src 256).1
  have hd : hexDecode (hexEncode (newSeed32 src).1) = some (newSeed32 src).1 := hexDecode_hexEncode _
  obtain ⟨-, -, h⟩ := C44_root_key_exact H (hexEncode (newSeed32 src).1)
  obtain ⟨h1, h2⟩ := h _ hd (by omega)
  obtain ⟨g1, g2⟩ := C21_master_key H (newSeed32 src).1
  constructor
  · intro hm
    obtain ⟨k, k1, k2⟩ := g2 hm
    obtain ⟨k', k1', k2'⟩ := h2 hm
    have : k' = k := C20_fields_determine_key _ _ (by rw [k2', k2])
    exact ⟨k, k1, this ▸ k1'⟩
  · intro hm
    exact ⟨g1.2 hm, h1 hm⟩

/-- A source of three chunks: the seed ends inside the third. -/
example : (newSeed32 [(List.replicate 100 1, none), (List.replicate 100 2, none), (List.replicate 100 3, some (.other 5))]).1 =
      List.replicate 100 1 ++ List.replicate 100 2 ++ List.replicate 56 3 ∧
    (newSeed32 [(List.replicate 100 1, none), (List.replicate 100 2, none), (List.replicate 100 3, some (.other 5))]).2 =
      (none, [(List.replicate 44 3, some (.other 5))]) ∧
    (newSeed32 [(List.replicate 100 1, none), (List.replicate 100 2, none)]).2.1 = some .unexpectedEOF ∧
    (newSeed32 [(List.replicate 100 1, some (.other 5))]).2.1 = some (.other 5) := by decide +kernel

/-! ### C78 -/

theorem newEntropyFrom_eq (src : Source) {n : Nat} (hn : n ∈ entropySizes) :
    newEntropyFrom src (8 * n) = (((randRead src n).1, none), (randRead src n).2.2) := by
  simp only [entropySizes, List.mem_cons, List.not_mem_nil, or_false] at hn
  rcases hn with rfl | rfl | rfl | rfl | rfl <;> rfl

/-- **C78.** `NewEntropy` with a source that delivers: the next bytes of the source, none of them used again. -/
theorem C78_entropy_partial (src : Source) {n : Nat} (hn : n ∈ entropySizes) (h : n ≤ (stream src).1.length) :
    (newEntropyFrom src (8 * n)).1 = ((stream src).1.take n, none) ∧
    (stream src).1.take n ++ allBytes (newEntropyFrom src (8 * n)).2 = allBytes src := by
  obtain ⟨-, h2, h3, -, h5⟩ := randRead_spec src n
  rw [newEntropyFrom_eq src hn]
  have e : (randRead src n).1 = (stream src).1.take n := by rw [h2, Nat.sub_eq_zero_of_le h]; simp
  exact ⟨by rw [e], by rw [← e]; exact h5 (h3.2 h)⟩

/-- **C78**, the claim is false: no failure of the source is reported, and the bytes missing are zero. -/
theorem C78_silent (src : Source) {n : Nat} (hn : n ∈ entropySizes) :
    (newEntropyFrom src (8 * n)).1 =
      ((stream src).1.take n ++ List.replicate (n - (stream src).1.length) 0, none) := by
  rw [newEntropyFrom_eq src hn, (randRead_spec src n).2.1]

/-- **C78**, exactly: the entropy is made of bytes of the source alone if and only if the source delivers enough of them. -/
theorem C78_entropy_iff (src : Source) {n : Nat} (hn : n ∈ entropySizes) :
    (newEntropyFrom src (8 * n)).1 = ((stream src).1.take n, none) ↔ n ≤ (stream src).1.length := by
  rw [C78_silent src hn]
  constructor
  · intro h
    have := congrArg (fun r : Bytes × Option Err => r.1.length) h
    simp at this
    omega
  · intro h
    rw [Nat.sub_eq_zero_of_le h]; simp

/-- Sizes BIP-39 does not know use no randomness. -/
theorem C78_invalid_size (src : Source) (n : Int) (hn : n ∉ [128, 160, 192, 224, 256]) :
    newEntropyFrom src n = (([], some .entropyLengthInvalid), src) := by
  have := (C05_sizes (hashesIL 0) english_list_good (fun n => List.replicate n 0) (by simp) n []).2.1 hn
  rw [newEntropy] at this
  rw [newEntropyFrom]
  cases h : validateEntropyBitSize n with
  | none => rw [h] at this; simp at this
  | some e => rw [h] at this; simp at this; rw [this]

/-- `GenerateMnemonic` of this module is the one of the others. -/
theorem generateMnemonicFrom_eq (H : Hashes) (S : WordState) (src : Source) (w : UInt8) :
    (generateMnemonicFrom H S src w).1 = generateMnemonic H S (fun n => (randRead src n).1) w := by
  have go : ∀ r : Outcome (Bytes × Option Err), ∀ s : Source,
      (match r with
        | .panic => (Outcome.panic, s)
        | .ok (_, some e) => (.ok ([], some e), s)
        | .ok (mnemonic, none) => (.ok (mnemonic, none), s)).1 =
      match r with
        | .panic => .panic
        | .ok (_, some e) => .ok ([], some e)
        | .ok (mnemonic, none) => .ok (mnemonic, none) := by
    rintro (⟨m, _ | e⟩ | _) s <;> rfl
  unfold generateMnemonicFrom generateMnemonic
  dsimp only
  split_ifs
  · exact go (newMnemonic H S (randRead src 16).1) _
  · exact go (newMnemonic H S (randRead src 20).1) _
  · exact go (newMnemonic H S (randRead src 24).1) _
  · exact go (newMnemonic H S (randRead src 28).1) _
  · exact go (newMnemonic H S (randRead src 32).1) _
  · rfl

/-- **C78** for mnemonics: whatever the source does, the result is a valid mnemonic without an error; its entropy is what the
source delivered, filled up with zeros. -/
theorem C78_generate (H : Hashes) {l : List Bytes} (hg : GoodList l) (src : Source) (w : UInt8)
    (hw : w.toNat ∈ [12, 15, 18, 21, 24]) :
    ∃ m, (generateMnemonicFrom H (setWordList l) src w).1 = .ok (m, none) ∧ isMnemonicValid H (setWordList l) m = .ok true ∧
      entropyFromMnemonic H (setWordList l) m = .ok ((stream src).1.take (4 * w.toNat / 3) ++
        List.replicate (4 * w.toNat / 3 - (stream src).1.length) 0, none) := by
  rw [generateMnemonicFrom_eq]
  obtain ⟨m, ws, h1, -, -, h2, h3⟩ :=
    (C42_generate H hg (fun n => (randRead src n).1) (fun n => (randRead_spec src n).1) w).2 hw
  exact ⟨m, h1, h2, by rw [h3, (randRead_spec src _).2.1]⟩

/-- **C78**, consequence: when the source fails at once, everyone gets the same words. With the English list and the hash
functions of the program, twelve of them are the well-known test mnemonic. -/
theorem C78_same_for_all (src : Source) (h : (stream src).1 = []) :
    (generateMnemonicFrom goHashes (setWordList english.list) src 12).1 =
      .ok (str "abandon abandon abandon abandon abandon abandon abandon abandon abandon abandon abandon about", none) := by
  have he : ([32] : Bytes).intercalate (List.replicate 11 (str "abandon") ++ [str "about"]) =
    str "abandon abandon abandon abandon abandon abandon abandon abandon abandon abandon abandon about" := by decide +kernel
  rw [generateMnemonicFrom_eq]
  have hr : (randRead src 16).1 = List.replicate 16 0 := by rw [(randRead_spec src 16).2.1, h]; rfl
  have hm : newMnemonic goHashes (setWordList english.list) (randRead src 16).1 =
      .ok (str "abandon abandon abandon abandon abandon abandon abandon abandon abandon abandon abandon about", none) := by
    rw [hr]
    obtain ⟨ws, h1, -, h2⟩ := C03_bip39_encoding goHashes english_list_good (List.replicate 16 0) (by decide)
    rw [h1, ← h2 _ (encodes_zero english_first_last.1 english_first_last.2.2), he]
  have hE : newEntropy (fun n => (randRead src n).1) 128 = ((randRead src 16).1, none) := rfl
  rw [generateMnemonic]
  dsimp only
  rw [if_pos rfl, hE]
  dsimp only
  rw [hm]

/-- **C78.** Two mnemonics made one after the other use different bytes of the source. -/
theorem C78_two (H : Hashes) {l : List Bytes} (hg : GoodList l) (src : Source) (w v : UInt8)
    (hw : w.toNat ∈ [12, 15, 18, 21, 24]) (hv : v.toNat ∈ [12, 15, 18, 21, 24])
    (h1 : 4 * w.toNat / 3 ≤ (stream src).1.length)
    (h2 : 4 * v.toNat / 3 ≤ (stream (generateMnemonicFrom H (setWordList l) src w).2).1.length) :
    ∃ m m' e e', (generateMnemonicFrom H (setWordList l) src w).1 = .ok (m, none) ∧
      (generateMnemonicFrom H (setWordList l) (generateMnemonicFrom H (setWordList l) src w).2 v).1 = .ok (m', none) ∧
      entropyFromMnemonic H (setWordList l) m = .ok (e, none) ∧ entropyFromMnemonic H (setWordList l) m' = .ok (e', none) ∧
      e.length = 4 * w.toNat / 3 ∧ e'.length = 4 * v.toNat / 3 ∧ e ++ e' <+: allBytes src := by
  have key : ∀ (src : Source) (w : UInt8), w.toNat ∈ [12, 15, 18, 21, 24] → 4 * w.toNat / 3 ≤ (stream src).1.length →
      ∃ m e, (generateMnemonicFrom H (setWordList l) src w).1 = .ok (m, none) ∧
        entropyFromMnemonic H (setWordList l) m = .ok (e, none) ∧ e.length = 4 * w.toNat / 3 ∧
        e ++ allBytes (generateMnemonicFrom H (setWordList l) src w).2 = allBytes src := by
    intro src w hw h
    obtain ⟨m, g1, -, g2⟩ := C78_generate H hg src w hw
    rw [Nat.sub_eq_zero_of_le h, List.replicate_zero, List.append_nil] at g2
    refine ⟨m, _, g1, g2, by simp; omega, ?_⟩
    have hs : (generateMnemonicFrom H (setWordList l) src w).2 = (randRead src (4 * w.toNat / 3)).2.2 := by
      have hw' : ∀ n : Nat, n < 256 → w.toNat = n → w = UInt8.ofNat n := by
        intro n hn e
        rw [← UInt8.toNat_inj, toNat_ofNat_lt hn, e]
      have go : ∀ n : Nat, n ∈ entropySizes →
          (match newEntropyFrom src (8 * n : Int) with
            | ((_, some e), src) => (Outcome.ok (([] : Bytes), some e), src)
            | ((bs, none), src) =>
              match newMnemonic H (setWordList l) bs with
              | .panic => (.panic, src)
              | .ok (_, some e) => (.ok ([], some e), src)
              | .ok (mnemonic, none) => (.ok (mnemonic, none), src)).2 = (randRead src n).2.2 := by
        intro n hn
        rw [newEntropyFrom_eq src hn]
        dsimp only
        split <;> rfl
      simp only [List.mem_cons, List.not_mem_nil, or_false] at hw
      rcases hw with e | e | e | e | e
      · obtain rfl := hw' 12 (by decide) e; exact go 16 (by decide)
      · obtain rfl := hw' 15 (by decide) e; exact go 20 (by decide)
      · obtain rfl := hw' 18 (by decide) e; exact go 24 (by decide)
      · obtain rfl := hw' 21 (by decide) e; exact go 28 (by decide)
      · obtain rfl := hw' 24 (by decide) e; exact go 32 (by decide)
    obtain ⟨-, r2, r3, -, r5⟩ := randRead_spec src (4 * w.toNat / 3)
    have e : (randRead src (4 * w.toNat / 3)).1 = (stream src).1.take (4 * w.toNat / 3) := by
      rw [r2, Nat.sub_eq_zero_of_le h]; simp
    rw [hs, ← e]
    exact r5 (r3.2 h)
  obtain ⟨m, e, a1, a2, a3, a4⟩ := key src w hw h1
  obtain ⟨m', e', b1, b2, b3, b4⟩ := key _ v hv h2
  exact ⟨m, m', e, e', a1, b1, a2, b2, a3, b3, ⟨_, by rw [List.append_assoc, b4, a4]⟩⟩

/-- A source that delivers five bytes and fails: entropy of five bytes, the rest zero, no error. -/
example : (newEntropyFrom [([1, 2, 3], none), ([4, 5], some (.other 1))] 128).1 =
    ([1, 2, 3, 4, 5] ++ List.replicate 11 0, none) := by decide +kernel

/-- Sources as `C78_two` needs them exist. -/
example : 4 * (12 : UInt8).toNat / 3 ≤ (stream [(List.replicate 20 7, none), (List.replicate 40 8, none)]).1.length ∧
    4 * (24 : UInt8).toNat / 3 ≤ (stream [(List.replicate 4 7, none), (List.replicate 40 8, none)]).1.length ∧
    (randRead [(List.replicate 20 7, none), (List.replicate 40 8, none)] 16).2.2 =
      [(List.replicate 4 7, none), (List.replicate 40 8, none)] := by decide +kernel

end Bips
