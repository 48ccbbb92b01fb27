import Verif.Spec.Hmac
import Verif.Crypto.Go
import Verif.Props.Seed

/-!
# C91: which mnemonics share their seeds

`NewSeed` uses the mnemonic as the key of HMAC-SHA512, and HMAC does not tell all keys apart. `sha` is the hash function inside
HMAC; the program has SHA-512 (`goHashes_hmac`).
-/

namespace Bips
open Spec

/-- The HMAC of the program is that of RFC 2104 with SHA-512. -/
theorem goHashes_hmac (k m : Bytes) : goHashes.hmacSha512 k m = hmac sha512 k m := by
  have h : (if k.length > 128 then sha512 k else k) = if k.length ≤ 128 then k else sha512 k := by
    by_cases hk : k.length ≤ 128
    · rw [if_pos hk, if_neg (by omega)]
    · rw [if_neg hk, if_pos (by omega)]
  show hmacSha512 k m = _
  unfold hmacSha512 hmac hmacBlock
  rw [h]

section
variable {H : Hashes} {sha : Bytes → Bytes} (hH : ∀ k m, H.hmacSha512 k m = hmac sha k m)

include hH in
/-- **C91.** Mnemonics with the same key block have the same seeds, whatever the passphrase. -/
theorem C91_same_block {s t : Bytes} (h : hmacBlock sha s = hmacBlock sha t) (p : Bytes) : newSeed H s p = newSeed H t p := by
  have : H.hmacSha512 s = H.hmacSha512 t := by
    funext m
    rw [hH, hH, hmac, hmac, h]
  rw [newSeed, newSeed, this]

/-- Zero bytes at the end of a text of at most 128 bytes are not seen. -/
theorem hmacBlock_zeros (s : Bytes) (n : Nat) (h : s.length + n ≤ 128) :
    hmacBlock sha (s ++ List.replicate n 0) = hmacBlock sha s := by
  unfold hmacBlock
  rw [if_pos (by simp only [List.length_append, List.length_replicate]; omega), if_pos (by omega)]
  simp only [List.length_append, List.length_replicate]
  rw [List.append_assoc, List.replicate_append_replicate]
  congr 2
  omega

include hH in
/-- **C91.** `NewSeed` does not see zero bytes at the end of a text of at most 128 bytes. -/
theorem C91_zeros (s p : Bytes) (n : Nat) (h : s.length + n ≤ 128) :
    newSeed H (s ++ List.replicate n 0) p = newSeed H s p :=
  C91_same_block hH (hmacBlock_zeros s n h) p

variable (hs : ∀ b, (sha b).length = 64)

include hs in
theorem hmacBlock_length (s : Bytes) : (hmacBlock sha s).length = 128 := by
  unfold hmacBlock
  by_cases h : s.length ≤ 128
  · rw [if_pos h]; simp; omega
  · rw [if_neg h]; simp [hs]

include hH hs in
/-- **C91.** A text longer than 128 bytes has the seeds of its SHA-512 digest. -/
theorem C91_long (s p : Bytes) (h : 128 < s.length) : newSeed H s p = newSeed H (sha s) p := by
  refine C91_same_block hH ?_ p
  unfold hmacBlock
  rw [if_neg (by omega), if_pos (by rw [hs]; omega)]

/-- Texts without zero bytes can be told apart after filling them up with zeros. -/
theorem pad_inj {s t : Bytes} (hs0 : 0 ∉ s) (ht0 : 0 ∉ t) {m n : Nat} (h : s ++ List.replicate m 0 = t ++ List.replicate n 0) :
    s = t := by
  induction s generalizing t with
  | nil =>
    cases t with
    | nil => rfl
    | cons b t =>
      cases m with
      | zero => simp at h
      | succ m =>
        rw [List.nil_append, List.replicate_succ, List.cons_append] at h
        exact absurd (List.cons.inj h).1.symm (fun e => ht0 (by rw [e]; simp))
  | cons a s ih =>
    cases t with
    | nil =>
      cases n with
      | zero => simp at h
      | succ n =>
        rw [List.nil_append, List.replicate_succ, List.cons_append] at h
        exact absurd (List.cons.inj h).1 (fun e => hs0 (by rw [e]; simp))
    | cons b t =>
      rw [List.cons_append, List.cons_append] at h
      obtain ⟨h1, h2⟩ := List.cons.inj h
      rw [h1, ih (fun e => hs0 (by simp [e])) (fun e => ht0 (by simp [e])) h2]

include hs in
/-- Texts without zero bytes and their key blocks: equal blocks are equal texts or a coincidence of the hash function. -/
theorem hmacBlock_iff {s t : Bytes} (hs0 : 0 ∉ s) (ht0 : 0 ∉ t) : hmacBlock sha s = hmacBlock sha t ↔
    s = t ∨ (128 < s.length ∧ 128 < t.length ∧ sha s = sha t) ∨
    (128 < s.length ∧ t.length ≤ 64 ∧ sha s = t ++ List.replicate (64 - t.length) 0) ∨
    (128 < t.length ∧ s.length ≤ 64 ∧ sha t = s ++ List.replicate (64 - s.length) 0) := by
  have long : ∀ {a : Bytes}, 128 < a.length → hmacBlock sha a = sha a ++ List.replicate 64 0 := by
    intro a ha
    unfold hmacBlock
    rw [if_neg (by omega)]
    dsimp only
    rw [hs]
  have short : ∀ {a : Bytes}, a.length ≤ 128 → hmacBlock sha a = a ++ List.replicate (128 - a.length) 0 := by
    intro a ha
    unfold hmacBlock
    rw [if_pos ha]
  have mixed : ∀ {a b : Bytes}, 0 ∉ b → 128 < a.length → b.length ≤ 128 →
      (hmacBlock sha a = hmacBlock sha b ↔ b.length ≤ 64 ∧ sha a = b ++ List.replicate (64 - b.length) 0) := by
    intro a b hb0 ha hb
    rw [long ha, short hb]
    constructor
    · intro h
      have hl : b.length ≤ 64 := by
        by_contra hc
        have h1 : (sha a ++ List.replicate 64 (0 : UInt8))[64]? = some 0 := by
          rw [List.getElem?_append_right (by rw [hs]), hs]; rfl
        rw [h, List.getElem?_append_left (by omega)] at h1
        exact hb0 (List.mem_of_getElem? h1)
      refine ⟨hl, ?_⟩
      have e : b ++ List.replicate (128 - b.length) 0 = (b ++ List.replicate (64 - b.length) 0) ++ List.replicate 64 0 := by
        rw [List.append_assoc, List.replicate_append_replicate]
        congr 2
        omega
      rw [e] at h
      exact List.append_cancel_right h
    · rintro ⟨hl, h⟩
      rw [h, List.append_assoc, List.replicate_append_replicate]
      congr 2
      omega
  by_cases h1 : s.length ≤ 128 <;> by_cases h2 : t.length ≤ 128
  · rw [short h1, short h2]
    constructor
    · intro h; exact .inl (pad_inj hs0 ht0 h)
    · rintro (h | h | h | h)
      · rw [h]
      · omega
      · omega
      · omega
  · rw [eq_comm, mixed hs0 (by omega) h1]
    constructor
    · intro h; exact .inr (.inr (.inr ⟨by omega, h⟩))
    · rintro (h | h | h | h)
      · rw [h] at h1; omega
      · omega
      · omega
      · exact h.2
  · rw [mixed ht0 (by omega) h2]
    constructor
    · intro h; exact .inr (.inr (.inl ⟨by omega, h⟩))
    · rintro (h | h | h | h)
      · rw [h] at h1; omega
      · omega
      · exact h.2
      · omega
  · rw [long (by omega), long (by omega)]
    constructor
    · intro h; exact .inr (.inl ⟨by omega, by omega, List.append_cancel_right h⟩)
    · rintro (h | h | h | h)
      · rw [h]
      · rw [h.2.2]
      · omega
      · omega

end

/-! ### Accepted texts have no zero bytes -/

theorem utf8_no_zero {c : Nat} (h1 : c ≠ 0) (h2 : c < 0x110000) : (0 : UInt8) ∉ utf8 c := by
  have key : ∀ n : Nat, n < 256 → n ≠ 0 → (0 : UInt8) ≠ UInt8.ofNat n := by
    intro n hn h0 e
    have := congrArg UInt8.toNat e
    rw [UInt8.toNat_ofNat_of_lt' (by simpa using hn)] at this
    exact h0 this.symm
  unfold utf8
  split
  · simp only [List.mem_singleton]; exact key _ (by omega) h1
  · split
    · simp only [List.mem_cons, List.not_mem_nil, or_false, not_or]
      exact ⟨key _ (by omega) (by omega), key _ (by omega) (by omega)⟩
    · split
      · simp only [List.mem_cons, List.not_mem_nil, or_false, not_or]
        exact ⟨key _ (by omega) (by omega), key _ (by omega) (by omega), key _ (by omega) (by omega)⟩
      · simp only [List.mem_cons, List.not_mem_nil, or_false, not_or]
        exact ⟨key _ (by omega) (by omega), key _ (by omega) (by omega), key _ (by omega) (by omega), key _ (by omega) (by omega)⟩

theorem ws_no_zero {s : Bytes} (h : IsWs s) : (0 : UInt8) ∉ s := by
  obtain ⟨cs, hc, rfl⟩ := h
  simp only [List.mem_flatMap, not_exists, not_and]
  intro c hcs
  have : ∀ c ∈ whiteSpace, c ≠ 0 ∧ c < 0x110000 := by decide
  exact utf8_no_zero (this c (hc c hcs)).1 (this c (hc c hcs)).2

theorem layout_no_zero {s : Bytes} {ws : List Bytes} (h : Layout s ws) (hw : ∀ w ∈ ws, (0 : UInt8) ∉ w) : (0 : UInt8) ∉ s := by
  induction h with
  | nil h => exact ws_no_zero h
  | last h1 _ h3 =>
    simp only [List.mem_append, not_or]
    exact ⟨⟨ws_no_zero h1, hw _ (by simp)⟩, ws_no_zero h3⟩
  | cons h1 _ h3 _ _ ih =>
    simp only [List.mem_append, not_or]
    exact ⟨⟨⟨ws_no_zero h1, hw _ (by simp)⟩, ws_no_zero h3⟩, ih fun w h => hw w (by simp [h])⟩

theorem isolated_no_zero {cs : List Nat} {m : Bool} (h : Isolated m cs) : (0 : UInt8) ∉ utf8s cs := by
  have hst : ∀ r ∈ starters, 0 < r.1 ∧ r.2 < 0x110000 := by decide +kernel
  have hmk : ∀ c ∈ marks, c ≠ 0 ∧ c < 0x110000 := by decide +kernel
  induction cs generalizing m with
  | nil => simp [utf8s]
  | cons c cs ih =>
    rw [utf8s_cons, List.mem_append, not_or]
    rcases h with ⟨⟨r, hr, h1, h2⟩, h⟩ | ⟨hm, -, h⟩
    · have := hst r hr
      exact ⟨utf8_no_zero (by omega) (by omega), ih h⟩
    · exact ⟨utf8_no_zero (hmk c hm).1 (hmk c hm).2, ih h⟩

theorem word_no_zero (f : WordFile) (hf : f ∈ wordFiles) (w : Bytes) (hw : w ∈ f.list) : (0 : UInt8) ∉ w := by
  obtain ⟨cs, rfl, h⟩ := words_stable f hf w hw
  exact isolated_no_zero h

/-- **C91.** A text with a zero byte is no mnemonic of a shipped list: with checking, the zeros of `C91_zeros` are refused. -/
theorem C91_zero_refused (H : Hashes) (f : WordFile) (hf : f ∈ wordFiles) (s e : Bytes)
    (h : entropyFromMnemonic H (setWordList f.list) s = .ok (e, none)) : (0 : UInt8) ∉ s := by
  obtain ⟨ws, h1, -, -, idx, -, h5, -⟩ := (C04_accepts_exactly H (C10_lists_good f hf) s e).1 h
  refine layout_no_zero h1 fun w hw => word_no_zero f hf w ?_
  have : some w ∈ ws.map some := List.mem_map_of_mem hw
  rw [h5, List.mem_map] at this
  obtain ⟨i, -, hi⟩ := this
  exact List.mem_of_getElem? hi

/-- **C91.** So `NewSeedWithErrorChecking` gives no seed for it. -/
theorem C91_zero_no_seed (H : Hashes) (f : WordFile) (hf : f ∈ wordFiles) (s p : Bytes) (h : (0 : UInt8) ∈ s) :
    ∃ e, newSeedWithErrorChecking H (setWordList f.list) s p = .ok ([], some e) := by
  refine (C08_seed H _ s p).2.1 ((C04_isMnemonicValid H (C10_lists_good f hf) s).2.2 ?_)
  rintro ⟨e, ws, h1, h2, h3, h4⟩
  exact C91_zero_refused H f hf s e ((C04_accepts_exactly H (C10_lists_good f hf) s e).2 ⟨ws, h1, h2, h3, h4⟩) h

/-- **C91**, exactly: texts that are mnemonics of shipped lists, the same or different ones, have the same HMAC key only if they are
the same text, or through one of three coincidences of SHA-512: two of them have the same digest, or the digest of one is the other
filled up with zeros. -/
theorem C91_accepted_iff (H : Hashes) (sha : Bytes → Bytes) (hs : ∀ b, (sha b).length = 64) (f g : WordFile) (hf : f ∈ wordFiles)
    (hg : g ∈ wordFiles) (s t d e : Bytes) (h1 : entropyFromMnemonic H (setWordList f.list) s = .ok (d, none))
    (h2 : entropyFromMnemonic H (setWordList g.list) t = .ok (e, none)) :
    hmacBlock sha s = hmacBlock sha t ↔
      s = t ∨ (128 < s.length ∧ 128 < t.length ∧ sha s = sha t) ∨
      (128 < s.length ∧ t.length ≤ 64 ∧ sha s = t ++ List.replicate (64 - t.length) 0) ∨
      (128 < t.length ∧ s.length ≤ 64 ∧ sha t = s ++ List.replicate (64 - s.length) 0) :=
  hmacBlock_iff hs (C91_zero_refused H f hf s d h1) (C91_zero_refused H g hg t e h2)

/-- **C91**, with the hash functions of the program: the first test vector of BIP-39 and the same text followed by a zero byte have
the same seed. -/
theorem C91_vector : newSeed goHashes (Seed.Plain.mnemonic ++ [0]) (str "TREZOR") = Seed.Plain.seed := by
  have := C91_zeros goHashes_hmac Seed.Plain.mnemonic (str "TREZOR") 1 (by decide +kernel)
  rw [show [0] = List.replicate 1 (0 : UInt8) from rfl, this]
  exact Seed.Plain.newSeed_eq

/-- A mnemonic longer than 128 bytes: 32 zero bytes in English. -/
def longMnemonic : Bytes := [32].intercalate (List.replicate 23 (str "abandon") ++ [str "art"])

/-- It is accepted, and has the same seeds as the 64 bytes of its digest. -/
example : 128 < longMnemonic.length ∧
    entropyFromMnemonic goHashes (setWordList english.list) longMnemonic = .ok (List.replicate 32 0, none) ∧
    ∀ p, newSeed goHashes longMnemonic p = newSeed goHashes (sha512 longMnemonic) p := by
  refine ⟨by decide +kernel, ?_, fun p => C91_long goHashes_hmac sha512_length _ p (by decide +kernel)⟩
  refine (C04_accepts_exactly goHashes english_list_good _ _).2 ⟨List.replicate 23 (str "abandon") ++ [str "art"],
    (layout_iff _ _).2 (by decide +kernel), by decide, by decide, List.replicate 23 0 ++ [102], by decide, ?_, by decide +kernel⟩
  have h102 : english.list[102]? = some (str "art") := by rw [english_list]; decide +kernel
  simp [english_first_last.1, h102]

end Bips
