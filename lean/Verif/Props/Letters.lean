import Verif.Props.Lang
import Verif.Props.Seed
import Verif.Data.Words.Letters

/-!
# C82: the first four letters identify a word

BIP-39, "Wordlist": "the wordlist is created in such a way that it's enough to type the first four letters to unambiguously identify the
word". The package ships ten lists; a user who keeps only four letters of each word relies on it for the list they use.
-/

namespace Bips
open Spec

theorem Isolated.scalar {cs : List Nat} {m : Bool} (h : Isolated m cs) : ∀ c ∈ cs, Scalar c := by
  induction cs generalizing m with
  | nil => simp
  | cons c cs ih =>
    have hc : Scalar c := by
      rcases h with ⟨⟨r, hr, h1, h2⟩, -⟩ | ⟨hm, -⟩
      · have : ∀ r ∈ starters, r.2 < 0xD800 := by decide
        have := this r hr
        exact ⟨by omega, by omega⟩
      · revert hm
        have : ∀ c ∈ marks, c < 0xD800 := by decide
        intro hm
        have := this c hm
        exact ⟨by omega, by omega⟩
    intro d hd
    rcases List.mem_cons.1 hd with rfl | hd
    · exact hc
    · rcases h with ⟨-, h⟩ | ⟨-, -, h⟩ <;> exact ih h d hd

theorem Isolated.small {cs : List Nat} {m : Bool} (h : Isolated m cs) : ∀ c ∈ cs, c < 0x10000 := by
  induction cs generalizing m with
  | nil => simp
  | cons c cs ih =>
    have hc : c < 0x10000 := by
      rcases h with ⟨⟨r, hr, h1, h2⟩, -⟩ | ⟨hm, -⟩
      · have : ∀ r ∈ starters, r.2 < 0x10000 := by decide
        have := this r hr
        omega
      · have : ∀ c ∈ marks, c < 0x10000 := by decide
        exact this c hm
    intro d hd
    rcases List.mem_cons.1 hd with rfl | hd
    · exact hc
    · rcases h with ⟨-, h⟩ | ⟨-, -, h⟩ <;> exact ih h d hd

theorem decode_utf8s {cs : List Nat} (h : ∀ c ∈ cs, c < 0x10000) : Data.Letters.decode ((utf8s cs).map UInt8.toNat) = cs := by
  induction cs with
  | nil => rfl
  | cons c cs ih =>
    have hc := h c (by simp)
    have ih := ih fun d hd => h d (by simp [hd])
    have bt : ∀ a b : Nat, a < b → Nat.blt a b = true := fun a b hab => Nat.ble_eq_true_of_le hab
    have bf : ∀ a b : Nat, b ≤ a → Nat.blt a b = false := by
      intro a b hab
      rw [← Bool.not_eq_true]; intro hh
      have : a < b := Nat.le_of_ble_eq_true hh
      omega
    rw [utf8s_cons, List.map_append, utf8]
    by_cases h1 : c < 0x80
    · rw [if_pos h1]
      simp only [List.map_cons, List.map_nil, List.cons_append, List.nil_append, toNat_ofNat_lt (show c < 256 by omega)]
      rw [Data.Letters.decode.eq_def]; dsimp only
      rw [bt _ _ h1, cond_true, ih]
    · rw [if_neg h1]
      by_cases h2 : c < 0x800
      · rw [if_pos h2]
        simp only [List.map_cons, List.map_nil, List.cons_append, List.nil_append, toNat_ofNat_lt (show 0xC0 + c / 64 < 256 by omega),
          toNat_ofNat_lt (show 0x80 + c % 64 < 256 by omega)]
        rw [Data.Letters.decode.eq_def]; dsimp only
        rw [bf _ _ (by omega), cond_false, bt _ _ (by omega), cond_true, ih]
        congr 1
        omega
      · rw [if_neg h2, if_pos hc]
        simp only [List.map_cons, List.map_nil, List.cons_append, List.nil_append, toNat_ofNat_lt (show 0xE0 + c / 4096 < 256 by omega),
          toNat_ofNat_lt (show 0x80 + c / 64 % 64 < 256 by omega), toNat_ofNat_lt (show 0x80 + c % 64 < 256 by omega)]
        rw [Data.Letters.decode.eq_def]; dsimp only
        rw [bf _ _ (by omega), cond_false, bf _ _ (by omega), cond_false, ih]
        congr 1
        omega

theorem Lang.starts (a : Lang) : distinct (a.codes.map Data.Letters.start) = true := by
  cases a
  exacts [Data.Letters.chineseSimplified, Data.Letters.chineseTraditional, Data.Letters.czech, Data.Letters.english,
    Data.Letters.french, Data.Letters.italian, Data.Letters.japanese, Data.Letters.korean, Data.Letters.portuguese,
    Data.Letters.spanish]

/-- The number of the first four letters of a shipped word. -/
theorem start_eq (a : Lang) {n : Nat} (hn : n ∈ a.codes) {cs : List Nat} (hs : ∀ c ∈ cs, Scalar c) (h : codeWord n = utf8s cs) :
    Data.Letters.start n = Data.Letters.number (firstLetters 4 cs) := by
  obtain ⟨ds, h1, h2⟩ := words_stable a.file a.file_mem (codeWord n) (by rw [a.list_eq]; exact List.mem_map_of_mem hn)
  obtain rfl := utf8s_inj hs h2.scalar (h.symm.trans h1)
  rw [Data.Letters.start, ← codeWord_toNat, h, decode_utf8s h2.small]

/-- **C82.** In each of the ten lists a word is known from its first four letters, even when accents and voiced sound marks are left out. -/
theorem C82_first_four (f : WordFile) (hf : f ∈ wordFiles) (w w' : Bytes) (hw : w ∈ f.list) (hw' : w' ∈ f.list) (h : SameStart w w') :
    w = w' := by
  obtain ⟨a, rfl⟩ := Lang.exists_of_mem f hf
  obtain ⟨cs, cs', s1, s2, e1, e2, h⟩ := h
  rw [a.list_eq] at hw hw'
  obtain ⟨m, hm, rfl⟩ := List.mem_map.1 hw
  obtain ⟨n, hn, rfl⟩ := List.mem_map.1 hw'
  have hmn : Data.Letters.start m = Data.Letters.start n := by rw [start_eq a hm s1 e1, start_eq a hn s2 e2, h]
  rw [List.inj_on_of_nodup_map (distinct_nodup a.starts) hm hn hmn]

/-- **C82.** Two sentences accepted under the same shipped list whose words agree in their first four letters have the same words and the
same entropy. So four letters of each word, kept on a backup, stand for one wallet. -/
theorem C82_backup (H : Hashes) (f : WordFile) (hf : f ∈ wordFiles) (s s' e e' : Bytes) (ws ws' : List Bytes) (hs : Layout s ws)
    (hs' : Layout s' ws') (h : entropyFromMnemonic H (setWordList f.list) s = .ok (e, none))
    (h' : entropyFromMnemonic H (setWordList f.list) s' = .ok (e', none)) (hw : List.Forall₂ SameStart ws ws') : ws = ws' ∧ e = e' := by
  have hg := C10_lists_good f hf
  obtain ⟨us, h1, -, -, idx, -, i2, -⟩ := (C04_accepts_exactly H hg s e).1 h
  obtain ⟨us', h1', -, -, idx', -, j2, -⟩ := (C04_accepts_exactly H hg s' e').1 h'
  obtain rfl : us = ws := (fields_layout h1).symm.trans (fields_layout hs)
  obtain rfl : us' = ws' := (fields_layout h1').symm.trans (fields_layout hs')
  have hm := words_of_idx i2
  have hm' := words_of_idx j2
  have hu : us = us' := by
    clear h h' h1 h1' i2 j2 hs hs'
    induction hw with
    | nil => rfl
    | cons hab _ ih =>
      rw [C82_first_four f hf _ _ (hm _ (by simp)) (hm' _ (by simp)) hab, ih (fun w hw => hm w (by simp [hw])) fun w hw => hm' w (by simp [hw])]
  exact ⟨hu, ((C02_canonical H hg s e h).2 s' e' us us' h' hs hs').2 hu⟩

/-- **C82.** Hence the sentences made from two different entropies differ in the first four letters of some word. -/
theorem C82_entropies (H : Hashes) (f : WordFile) (hf : f ∈ wordFiles) (e e' : Bytes) (h : e.length ∈ entropySizes)
    (h' : e'.length ∈ entropySizes) (he : e ≠ e') : ∃ m m' ws ws', newMnemonic H (setWordList f.list) e = .ok (m, none) ∧
      newMnemonic H (setWordList f.list) e' = .ok (m', none) ∧ Layout m ws ∧ Layout m' ws' ∧ ¬ List.Forall₂ SameStart ws ws' := by
  obtain ⟨m, h1, h2, -⟩ := C01_roundtrip H (C10_lists_good f hf) e h
  obtain ⟨m', h1', h2', -⟩ := C01_roundtrip H (C10_lists_good f hf) e' h'
  exact ⟨m, m', _, _, h1, h1', layout_fields m, layout_fields m', fun hw =>
    he (C82_backup H f hf m m' e e' _ _ (layout_fields m) (layout_fields m') h2 h2' hw).2⟩

/-! ### Cases -/

/-- The code points of a text in ASCII. -/
theorem sameStart_codes {cs cs' : List Nat} (h1 : ∀ c ∈ cs, c < 0x80) (h2 : ∀ c ∈ cs', c < 0x80)
    (h : firstLetters 4 cs = firstLetters 4 cs') : SameStart (utf8s cs) (utf8s cs') :=
  ⟨cs, cs', fun c hc => ⟨by have := h1 c hc; omega, by have := h1 c hc; omega⟩,
    fun c hc => ⟨by have := h2 c hc; omega, by have := h2 c hc; omega⟩, rfl, rfl, h⟩

/-- An abbreviation is as good as the word: "aban" is enough for "abandon". -/
example : SameStart (str "abandon") (str "aban") :=
  sameStart_codes (cs := [97, 98, 97, 110, 100, 111, 110]) (cs' := [97, 98, 97, 110]) (by decide) (by decide) (by decide)

/-- Accents do not count: the letters of "abaïs", written in NFKD. -/
example : firstLetters 4 [0x61, 0x62, 0x61, 0x69, 0x308, 0x73] = [0x61, 0x62, 0x61, 0x69] := by decide

/-- A Korean word: two syllables, five Jamo. -/
example : firstLetters 2 [0x1100, 0x1161, 0x1100, 0x1167, 0x11a8] = [0x1100, 0x1161, 0x1100, 0x1167, 0x11a8] ∧
    firstLetters 1 [0x1100, 0x1161, 0x1100, 0x1167, 0x11a8] = [0x1100, 0x1161] := by decide

set_option maxRecDepth 100000 in
/-- Three letters are not enough: "absent" and "absorb" are both English words. -/
example : str "absent" ∈ english.list ∧ str "absorb" ∈ english.list ∧ (str "absent").take 3 = (str "absorb").take 3 := by
  have h : ∀ i n, Data.English.codes[i]? = some n → codeWord n ∈ english.list := fun i n h =>
    List.mem_of_getElem? ((Lang.getElem?_list .english i _).2 ⟨n, h, rfl⟩)
  exact ⟨h 5 0x616273656e74 (by decide +kernel), h 6 0x6162736f7262 (by decide +kernel), by decide⟩

/-- C82_entropies at work. -/
example (H : Hashes) := C82_entropies H korean (Lang.file_mem .korean) (List.replicate 16 0) (List.replicate 16 1) (by decide) (by decide)
  (by decide)

end Bips
