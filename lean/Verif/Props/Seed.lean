import Verif.Data.Words.Stable
import Verif.Props.WordsExamples
import Verif.Vectors.Seed.Plain
import Verif.Vectors.Seed.Space
import Verif.Vectors.Seed.Japanese
import Verif.Vectors.Seed.JapaneseNfkd

/-!
# C75, C76: the seed and the text of the mnemonic

`NewSeed` hashes the bytes it is given. BIP-39 hashes the NFKD form.
-/

namespace Bips
open Spec

/-! ### A hash function that tells one mnemonic and passphrase from all others -/

/-- HMAC answers 1s for this key and this first message, 0s otherwise. -/
def hashesTell (k m : Bytes) : Hashes where
  sha256 _ := List.replicate 32 0
  hmacSha512 k' m' := if k' = k ∧ m' = m then List.replicate 64 1 else List.replicate 64 0
  ripemd160 _ := List.replicate 20 0
  keccak256 _ := List.replicate 32 0
  sha256_length := by simp
  hmacSha512_length := by intro k' m'; split <;> simp
  ripemd160_length := by simp
  keccak256_length := by simp

theorem rounds_zero {prf : Bytes → Bytes} (hz : prf (List.replicate 64 0) = List.replicate 64 0) (n : Nat) {u t : Bytes}
    (hu : prf u = List.replicate 64 0) (ht : t.length = 64) : pbkdf2Rounds prf n u t = t := by
  induction n generalizing u with
  | zero => rfl
  | succ n ih =>
    rw [pbkdf2Rounds, hu]
    have : xorBytes t (List.replicate 64 0) = t := by
      rw [xorBytes, ← ht]
      clear ih hu ht
      induction t with
      | nil => rfl
      | cons x t ih => rw [List.length_cons, List.replicate_succ, List.zipWith_cons_cons, ih]; simp
    rw [this]
    exact ih hz

theorem newSeed_tell (k p k' p' : Bytes) :
    newSeed (hashesTell k (str "mnemonic" ++ p ++ [0, 0, 0, 1])) k' p' =
      if k' = k ∧ p' = p then List.replicate 64 1 else List.replicate 64 0 := by
  have hm : str "mnemonic" = [109, 110, 101, 109, 111, 110, 105, 99] := by decide +kernel
  have hb : beBytes 4 (0 + 1) = [0, 0, 0, 1] := by decide
  rw [newSeed, pbkdf2Key]
  show ((List.range 1).flatMap fun b => pbkdf2Block _ _ 2048 (b + 1)).take 64 = _
  rw [List.range_one, List.flatMap_singleton, pbkdf2Block, hb]
  have hz : ∀ q, (hashesTell k (str "mnemonic" ++ p ++ [0, 0, 0, 1])).hmacSha512 q (List.replicate 64 0) = List.replicate 64 0 := by
    intro q
    show (if _ ∧ _ then _ else _) = _
    rw [if_neg]
    rintro ⟨-, h⟩
    rw [hm] at h
    have := congrArg List.head? h
    simp at this
  have ho : ∀ q, (hashesTell k (str "mnemonic" ++ p ++ [0, 0, 0, 1])).hmacSha512 q (List.replicate 64 1) = List.replicate 64 0 := by
    intro q
    show (if _ ∧ _ then _ else _) = _
    rw [if_neg]
    rintro ⟨-, h⟩
    rw [hm] at h
    have := congrArg List.head? h
    simp at this
  have hu : (hashesTell k (str "mnemonic" ++ p ++ [0, 0, 0, 1])).hmacSha512 k' (str "mnemonic" ++ p' ++ [0, 0, 0, 1]) =
      if k' = k ∧ p' = p then List.replicate 64 1 else List.replicate 64 0 := by
    show (if _ ∧ _ then _ else _) = _
    have e : (str "mnemonic" ++ p' ++ [0, 0, 0, 1] = str "mnemonic" ++ p ++ [0, 0, 0, 1]) ↔ p' = p := by
      constructor
      · intro h
        exact List.append_cancel_left (List.append_cancel_right h)
      · rintro rfl; rfl
    simp only [e]
  rw [hu]
  split
  · rw [rounds_zero (hz k') _ (ho k') (by simp)]; rfl
  · rw [rounds_zero (hz k') _ (hz k') (by simp)]; rfl

/-! ### C75: the layout of the words -/

/-- **C75.** Mnemonics written with single spaces give the same seeds if they encode the same entropy. -/
theorem C75_seed_partial (H : Hashes) {l : List Bytes} (hg : GoodList l) {s t e : Bytes} {ws vs : List Bytes}
    (hs : Layout s ws) (ht : Layout t vs) (hs1 : s = [32].intercalate ws) (ht1 : t = [32].intercalate vs)
    (h1 : entropyFromMnemonic H (setWordList l) s = .ok (e, none))
    (h2 : entropyFromMnemonic H (setWordList l) t = .ok (e, none)) (p : Bytes) : newSeed H s p = newSeed H t p := by
  have := ((C02_canonical H hg s e h1).2 t e ws vs h2 hs ht).1 rfl
  rw [hs1, ht1, this]

/-- **C75**, exactly: the seed depends on every byte of the mnemonic. -/
theorem C75_seed_iff (s t : Bytes) : (∀ H p, newSeed H s p = newSeed H t p) ↔ s = t := by
  constructor
  · intro h
    by_contra hne
    have := h (hashesTell s (str "mnemonic" ++ [] ++ [0, 0, 0, 1])) []
    rw [newSeed_tell, newSeed_tell, if_pos ⟨rfl, rfl⟩, if_neg (fun hh => hne hh.1.symm)] at this
    exact absurd this (by decide)
  · rintro rfl H p; rfl

/-- The words of both texts. -/
theorem plain_layout : Layout Seed.Plain.mnemonic (List.replicate 11 (str "abandon") ++ [str "about"]) ∧
    Layout Seed.Space.mnemonic (List.replicate 11 (str "abandon") ++ [str "about"]) :=
  ⟨(layout_iff _ _).2 (by decide +kernel), (layout_iff _ _).2 (by decide +kernel)⟩

/-- Eleven times the first word and once the fourth encode sixteen zero bytes. -/
theorem encodes_zero {l : List Bytes} {a b : Bytes} (ha : l[0]? = some a) (hb : l[3]? = some b) :
    Encodes goHashes.sha256 l (List.replicate 16 0) (List.replicate 11 a ++ [b]) := by
  refine ⟨List.replicate 11 0 ++ [3], by decide, ?_, by decide +kernel⟩
  simp [ha, hb]

/-- **C75**, the claim is false: with the hash functions of the program and the English list, the first test vector of BIP-39 and
the same words followed by a space are both accepted and encode the same entropy, but have different seeds. -/
theorem C75_space_changes_seed :
    entropyFromMnemonic goHashes (setWordList english.list) Seed.Plain.mnemonic = .ok (List.replicate 16 0, none) ∧
    entropyFromMnemonic goHashes (setWordList english.list) Seed.Space.mnemonic = .ok (List.replicate 16 0, none) ∧
    newSeed goHashes Seed.Plain.mnemonic (str "TREZOR") ≠ newSeed goHashes Seed.Space.mnemonic (str "TREZOR") := by
  have he := encodes_zero english_first_last.1 english_first_last.2.2
  refine ⟨(C04_accepts_exactly goHashes english_list_good _ _).2 ⟨_, plain_layout.1, by decide, by decide, he⟩,
    (C04_accepts_exactly goHashes english_list_good _ _).2 ⟨_, plain_layout.2, by decide, by decide, he⟩, ?_⟩
  have h1 : newSeed goHashes Seed.Plain.mnemonic (str "TREZOR") = Seed.Plain.seed := Seed.Plain.newSeed_eq
  have h2 : newSeed goHashes Seed.Space.mnemonic (str "TREZOR") = Seed.Space.seed := Seed.Space.newSeed_eq
  rw [h1, h2]
  decide +kernel

/-! ### C76: normalization -/

theorem stable_of_lines {codes : List Nat} (hg : GoodList (codes.map codeWord)) (h : stableCodes codes = true) (c w : Bytes)
    (hw : w ∈ (WordFile.mk (linesOf codes) c).list) : ∃ cs, w = utf8s cs ∧ Isolated true cs := by
  rw [list_of_lines hg] at hw
  exact stableCodes_spec h w hw

/-- Every word of every shipped list is in NFKD, and stays so between spaces. -/
theorem words_stable (f : WordFile) (hf : f ∈ wordFiles) (w : Bytes) (hw : w ∈ f.list) :
    ∃ cs, w = utf8s cs ∧ Isolated true cs := by
  simp only [wordFiles, List.mem_cons, List.not_mem_nil, or_false] at hf
  rcases hf with rfl | rfl | rfl | rfl | rfl | rfl | rfl | rfl | rfl | rfl
  · exact stable_of_lines chineseSimplified_good stable_chineseSimplified _ w hw
  · exact stable_of_lines chineseTraditional_good stable_chineseTraditional _ w hw
  · exact stable_of_lines czech_good stable_czech _ w hw
  · exact stable_of_lines english_good stable_english _ w hw
  · exact stable_of_lines french_good stable_french _ w hw
  · exact stable_of_lines italian_good stable_italian _ w hw
  · exact stable_of_lines japanese_good stable_japanese _ w hw
  · exact stable_of_lines korean_good stable_korean _ w hw
  · exact stable_of_lines portuguese_good stable_portuguese _ w hw
  · exact stable_of_lines spanish_good stable_spanish _ w hw

theorem sentence_stable (ws : List Bytes) (h : ∀ w ∈ ws, ∃ cs, w = utf8s cs ∧ Isolated true cs) :
    ∃ cs, [32].intercalate ws = utf8s cs ∧ Isolated true cs := by
  induction ws with
  | nil => exact ⟨[], rfl, trivial⟩
  | cons w ws ih =>
    obtain ⟨cs, rfl, h1⟩ := h w (by simp)
    cases ws with
    | nil => exact ⟨cs, by simp [List.intercalate], h1⟩
    | cons v vs =>
      obtain ⟨ds, h2, h3⟩ := ih fun w hw => h w (by simp [hw])
      refine ⟨cs ++ 0x20 :: ds, ?_, h1.append (.inl ⟨⟨(0x20, 0x7e), by decide, by decide, by decide⟩, h3.weaken⟩)⟩
      have e : [32].intercalate (utf8s cs :: v :: vs) = utf8s cs ++ [32] ++ [32].intercalate (v :: vs) := by
        simp [List.intercalate]
      rw [e, h2, utf8s_append, utf8s_cons, List.append_assoc]
      rfl

theorem newSeed_pbkdf2 (H : Hashes) (m p : Bytes) :
    newSeed H m p = (List.range 64).map (pbkdf2T (H.hmacSha512 m) (str "mnemonic" ++ p) 2048 1) :=
  (C08_seed H (setWordList []) m p).2.2.1

variable {U : Unicode}

/-- **C76.** For every mnemonic made from a shipped list and every passphrase in NFKD, the seed is the one BIP-39 defines. -/
theorem C76_shipped_partial (hU : U.Known) (H : Hashes) (f : WordFile) (hf : f ∈ wordFiles) (e : Bytes)
    (he : e.length ∈ entropySizes) :
    ∃ cs, newMnemonic H (setWordList f.list) e = .ok (utf8s cs, none) ∧
      ∀ p, U.Nfkd p p → ∀ s, IsSeed U H cs p s ↔ s = newSeed H (utf8s cs) (utf8s p) := by
  obtain ⟨ws, h1, ⟨idx, -, h2, -⟩, -⟩ := C03_bip39_encoding H (C10_lists_good f hf) e he
  have hw : ∀ w ∈ ws, w ∈ f.list := by
    intro w hw
    have : some w ∈ ws.map some := List.mem_map_of_mem hw
    rw [h2, List.mem_map] at this
    obtain ⟨i, -, hi⟩ := this
    exact List.mem_of_getElem? hi
  obtain ⟨cs, h3, h4⟩ := sentence_stable ws fun w h => words_stable f hf w (hw w h)
  refine ⟨cs, by rw [h1, h3], fun p hp s => ?_⟩
  rw [newSeed_pbkdf2]
  constructor
  · rintro ⟨m', p', hm', hp', rfl⟩
    rw [(nfkd_iff hU (h4.decomp hU) h4 m').1 hm', nfkd_unique hp' hp]
  · rintro rfl
    exact ⟨cs, p, (nfkd_iff hU (h4.decomp hU) h4 cs).2 rfl, hp, rfl⟩

/-- **C76**, exactly: whatever the hash functions, the seed is the one BIP-39 defines if and only if mnemonic and passphrase are
in NFKD already. -/
theorem C76_seed_iff (hU : U.Known) {m p : List Nat} (hm : ∀ c ∈ m, Scalar c) (hp : ∀ c ∈ p, Scalar c) :
    (∀ H, IsSeed U H m p (newSeed H (utf8s m) (utf8s p))) ↔ U.Nfkd m m ∧ U.Nfkd p p := by
  constructor
  · intro h
    obtain ⟨m', p', h1, h2, h3⟩ := h (hashesTell (utf8s m) (str "mnemonic" ++ utf8s p ++ [0, 0, 0, 1]))
    rw [← newSeed_pbkdf2, newSeed_tell, newSeed_tell, if_pos ⟨rfl, rfl⟩] at h3
    split at h3
    · rename_i hh
      rw [utf8s_inj (nfkd_scalar hU hm h1) hm hh.1] at h1
      rw [utf8s_inj (nfkd_scalar hU hp h2) hp hh.2] at h2
      exact ⟨h1, h2⟩
    · exact absurd h3 (by decide)
  · rintro ⟨h1, h2⟩ H
    exact ⟨m, p, h1, h2, newSeed_pbkdf2 H _ _⟩

/-- The first Japanese test vector of BIP-39, as code points. -/
def japaneseMnemonic : List Nat :=
  [0x3000].intercalate (List.replicate 11 [0x3042, 0x3044, 0x3053, 0x304f, 0x3057, 0x3093] ++ [[0x3042, 0x304a, 0x305d, 0x3099, 0x3089]])

/-- Its passphrase. -/
def japanesePassphrase : List Nat :=
  [0x334d, 0x30ac, 0x30d0, 0x30f4, 0x30a1, 0x3071, 0x3070, 0x3050, 0x309e, 0x3061, 0x3062, 0x5341, 0x4eba, 0x5341, 0x8272]

/-- After decomposition. -/
def japaneseMnemonicNfkd : List Nat :=
  [0x20].intercalate (List.replicate 11 [0x3042, 0x3044, 0x3053, 0x304f, 0x3057, 0x3093] ++ [[0x3042, 0x304a, 0x305d, 0x3099, 0x3089]])

/-- After decomposition. -/
def japanesePassphraseNfkd : List Nat :=
  [0x30e1, 0x30fc, 0x30c8, 0x30eb, 0x30ab, 0x3099, 0x30cf, 0x3099, 0x30a6, 0x3099, 0x30a1, 0x306f, 0x309a, 0x306f, 0x3099,
    0x304f, 0x3099, 0x309d, 0x3099, 0x3061, 0x3061, 0x3099, 0x5341, 0x4eba, 0x5341, 0x8272]

/-- `Isolated`, on code points. -/
def isolatedB : Bool → List Nat → Bool
  | _, [] => true
  | m, c :: cs => bif marks.contains c then !m && isolatedB true cs
      else starters.any (fun r => Nat.ble r.1 c && Nat.ble c r.2) && isolatedB false cs

theorem isolatedB_spec {cs : List Nat} : ∀ {m : Bool}, isolatedB m cs = true → Isolated m cs := by
  induction cs with
  | nil => intros; trivial
  | cons c cs ih =>
    intro m h
    rw [isolatedB] at h
    cases hc : marks.contains c with
    | true =>
      rw [hc, cond_true, Bool.and_eq_true] at h
      exact .inr ⟨by simpa using hc, by simpa using h.1, ih h.2⟩
    | false =>
      rw [hc, cond_false, Bool.and_eq_true, List.any_eq_true] at h
      obtain ⟨⟨r, h1, h2⟩, h3⟩ := h
      rw [Bool.and_eq_true] at h2
      exact .inl ⟨⟨r, h1, Nat.le_of_ble_eq_true h2.1, Nat.le_of_ble_eq_true h2.2⟩, ih h3⟩

/-- The decompositions in `decomps`, and none for other code points. -/
def decompB (c : Nat) : List Nat := (decomps.lookup c).getD [c]

theorem decompB_spec (hU : U.Known) {s : List Nat}
    (h : (s.all fun c => (decomps.lookup c).isSome || marks.contains c || starters.any (fun r => Nat.ble r.1 c && Nat.ble c r.2)) = true) :
    s.flatMap U.decomp = s.flatMap decompB := by
  apply List.flatMap_congr
  intro c hc
  have h := List.all_eq_true.1 h c hc
  rw [decompB]
  cases hl : decomps.lookup c with
  | some d =>
    have hm : (c, d) ∈ decomps := by
      obtain ⟨l1, l2, he, -⟩ := List.lookup_eq_some_iff.1 hl
      rw [he]; simp
    exact hU.decomp _ hm
  | none =>
    rw [hl] at h
    simp only [Option.isSome_none, Bool.false_or, Bool.or_eq_true, List.any_eq_true] at h
    rcases h with h | ⟨r, h1, h2⟩
    · exact (hU.mark c (by simpa using h)).1
    · rw [Bool.and_eq_true] at h2
      exact (hU.starter c ⟨r, h1, Nat.le_of_ble_eq_true h2.1, Nat.le_of_ble_eq_true h2.2⟩).1

theorem japanese_nfkd (hU : U.Known) (t : List Nat) :
    (U.Nfkd japaneseMnemonic t ↔ t = japaneseMnemonicNfkd) ∧ (U.Nfkd japanesePassphrase t ↔ t = japanesePassphraseNfkd) := by
  constructor
  · refine nfkd_iff hU ?_ (m := true) (isolatedB_spec (by decide +kernel)) t
    rw [decompB_spec hU (by decide +kernel)]
    decide +kernel
  · refine nfkd_iff hU ?_ (m := true) (isolatedB_spec (by decide +kernel)) t
    rw [decompB_spec hU (by decide +kernel)]
    decide +kernel

/-- The code points are the texts. -/
theorem japanese_text : utf8s japaneseMnemonic = Seed.Japanese.mnemonic ∧ utf8s japanesePassphrase = Seed.Japanese.passphrase ∧
    utf8s japaneseMnemonicNfkd = Seed.JapaneseNfkd.mnemonic ∧ utf8s japanesePassphraseNfkd = Seed.JapaneseNfkd.passphrase := by
  refine ⟨?_, ?_, ?_, ?_⟩ <;> decide +kernel

theorem japanese_words : japanese.list[0]? = some (utf8s [0x3042, 0x3044, 0x3053, 0x304f, 0x3057, 0x3093]) ∧
    japanese.list[3]? = some (utf8s [0x3042, 0x304a, 0x305d, 0x3099, 0x3089]) := by
  rw [japanese_list]
  exact ⟨by decide +kernel, by decide +kernel⟩

/-- **C76**, the claim is false: with the hash functions of the program and the Japanese list, the first Japanese test vector of
BIP-39 (words separated by ideographic spaces) is accepted, its seed is by BIP-39 the published one, a262d6fb…, and the code
computes another. -/
theorem C76_japanese_vector (hU : U.Known) :
    entropyFromMnemonic goHashes (setWordList japanese.list) (utf8s japaneseMnemonic) = .ok (List.replicate 16 0, none) ∧
    (∀ s, IsSeed U goHashes japaneseMnemonic japanesePassphrase s ↔ s = Seed.JapaneseNfkd.seed) ∧
    newSeed goHashes (utf8s japaneseMnemonic) (utf8s japanesePassphrase) = Seed.Japanese.seed ∧
    Seed.Japanese.seed ≠ Seed.JapaneseNfkd.seed := by
  refine ⟨?_, fun s => ?_, ?_, by decide +kernel⟩
  · refine (C04_accepts_exactly goHashes japanese_list_good _ _).2
      ⟨_, ?_, by decide, by decide, encodes_zero japanese_words.1 japanese_words.2⟩
    rw [japanese_text.1]
    exact (layout_iff _ _).2 (by decide +kernel)
  · have hs : newSeed goHashes (utf8s japaneseMnemonicNfkd) (utf8s japanesePassphraseNfkd) = Seed.JapaneseNfkd.seed := by
      rw [japanese_text.2.2.1, japanese_text.2.2.2]; exact Seed.JapaneseNfkd.newSeed_eq
    rw [← hs, newSeed_pbkdf2]
    constructor
    · rintro ⟨m', p', hm, hp, rfl⟩
      rw [((japanese_nfkd hU m').1).1 hm, ((japanese_nfkd hU p').2).1 hp]
    · rintro rfl
      exact ⟨_, _, ((japanese_nfkd hU _).1).2 rfl, ((japanese_nfkd hU _).2).2 rfl, rfl⟩
  · rw [japanese_text.1, japanese_text.2.1]; exact Seed.Japanese.newSeed_eq

/-- A database with the entries used exists: the hypothesis of C76 can be met. -/
def sampleUnicode : Unicode where
  decomp := decompB
  ccc c := if c ∈ marks then (if c < 0x3000 then 230 else 8) else 0

example : sampleUnicode.Known where
  starter c h := by
    obtain ⟨r, h1, h2, h3⟩ := h
    have hm : c ∉ marks := by
      have : ∀ r ∈ starters, ∀ m ∈ marks, ¬ (r.1 ≤ m ∧ m ≤ r.2) := by decide +kernel
      exact fun hc => this r h1 c hc ⟨h2, h3⟩
    have hd : decomps.lookup c = none := by
      rw [List.lookup_eq_none_iff]
      have : ∀ r ∈ starters, ∀ d ∈ decomps, ¬ (r.1 ≤ d.1 ∧ d.1 ≤ r.2) := by decide +kernel
      intro d hd
      have := this r h1 d hd
      simp only [bne_iff_ne, ne_eq]
      rintro rfl
      exact this ⟨h2, h3⟩
    exact ⟨by show decompB c = _; rw [decompB, hd]; rfl, if_neg hm⟩
  mark := by decide +kernel
  decomp := by decide +kernel
  scalar c h d hd := by
    have key : ∀ e ∈ decomps, ∀ d ∈ e.2, d < 0x110000 ∧ ¬(0xD800 ≤ d ∧ d ≤ 0xDFFF) := by decide +kernel
    change d ∈ decompB c at hd
    rw [decompB] at hd
    cases hl : decomps.lookup c with
    | some l =>
      rw [hl] at hd
      obtain ⟨l1, l2, he, -⟩ := List.lookup_eq_some_iff.1 hl
      exact key (c, l) (by rw [he]; simp) d hd
    | none =>
      rw [hl] at hd
      obtain rfl : d = c := by simpa using hd
      exact h

/-- A passphrase in NFKD with an accent, as C76 asks for. -/
example (hU : U.Known) : U.Nfkd [0x63, 0x61, 0x66, 0x65, 0x301] [0x63, 0x61, 0x66, 0x65, 0x301] :=
  (nfkd_iff hU (Isolated.decomp hU (m := true) (isolatedB_spec (by decide +kernel))) (m := true)
    (isolatedB_spec (by decide +kernel)) _).2 rfl

/-- And one that is not: é as one code point. -/
example (hU : U.Known) : ¬ U.Nfkd [0xe9] [0xe9] := by
  intro h
  have hd : [0xe9].flatMap U.decomp = [0x65, 0x301] := by
    rw [List.flatMap_singleton]; exact hU.decomp (0xe9, [0x65, 0x301]) (by decide)
  have := (nfkd_iff hU hd (m := true) (isolatedB_spec (by decide +kernel)) _).1 h
  exact absurd this (by decide)

end Bips
