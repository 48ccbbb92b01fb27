import Verif.Props.WordsExamples
import Verif.Crypto.Go
import Verif.Data.Words.Cross

/-!
# C81: a mnemonic and the wrong language

The package has one list for all callers (`SetWordList`). What happens to a mnemonic of one shipped list when another shipped list is set?
-/

namespace Bips
open Spec

/-! ### Any two lists -/

section
variable (H : Hashes) {l l' : List Bytes} (hg : GoodList l) (hg' : GoodList l')
include hg hg'

/-- Lists without a common word: the first word is reported. -/
theorem refused_of_disjoint (hd : ∀ w ∈ l, w ∉ l') {s e : Bytes} (h : entropyFromMnemonic H (setWordList l) s = .ok (e, none)) :
    ∃ w ws, Layout s (w :: ws) ∧ entropyFromMnemonic H (setWordList l') s = .ok ([], some (.unknownWord w)) := by
  obtain ⟨ws, h1, h2, -, idx, -, h3, -⟩ := (C04_accepts_exactly H hg s e).1 h
  cases ws with
  | nil => exact absurd h2 (by decide)
  | cons w ws =>
    exact ⟨w, ws, h1, (C04_errors H hg' s _ h1).2.1 [] w ws h2 rfl (by simp) (hd w (words_of_idx h3 w (by simp)))⟩

/-- Lists whose common words are at the same positions: what both accept has the same entropy. -/
theorem same_of_aligned (ha : ∀ (i j : Nat) (w : Bytes), l[i]? = some w → l'[j]? = some w → i = j) {s e : Bytes}
    (h : entropyFromMnemonic H (setWordList l) s = .ok (e, none)) {ws : List Bytes} (hs : Layout s ws) (hw : ∀ w ∈ ws, w ∈ l') :
    entropyFromMnemonic H (setWordList l') s = .ok (e, none) := by
  obtain ⟨us, h1, h2, h3, idx, i1, i2, i3⟩ := (C04_accepts_exactly H hg s e).1 h
  obtain rfl : us = ws := (fields_layout h1).symm.trans (fields_layout hs)
  refine (C04_accepts_exactly H hg' s e).2 ⟨us, h1, h2, h3, idx, i1, ?_, i3⟩
  clear h h1 h2 h3 i1 i3 hs
  induction us generalizing idx with
  | nil => cases idx <;> simp_all
  | cons u us ih =>
    cases idx with
    | nil => simp at i2
    | cons i idx =>
      simp only [List.map_cons, List.cons.injEq] at i2 ⊢
      refine ⟨?_, ih idx i2.2 fun w hw' => hw w (List.mem_cons_of_mem _ hw')⟩
      obtain ⟨j, hj⟩ := List.getElem?_of_mem (hw u (by simp))
      rw [ha i j u i2.1.symm hj, hj]

/-- Lists that differ at every position: what both accept has two different entropies. -/
theorem differ_of_misaligned (ha : ∀ i : Nat, i < 2048 → l[i]? ≠ l'[i]?) {s e e' : Bytes}
    (h : entropyFromMnemonic H (setWordList l) s = .ok (e, none))
    (h' : entropyFromMnemonic H (setWordList l') s = .ok (e', none)) : e.length = e'.length ∧ e ≠ e' := by
  obtain ⟨us, h1, -, h3, idx, i1, i2, i3⟩ := (C04_accepts_exactly H hg s e).1 h
  obtain ⟨us', h1', -, h3', idx', j1, j2, j3⟩ := (C04_accepts_exactly H hg' s e').1 h'
  obtain rfl : us = us' := (fields_layout h1).symm.trans (fields_layout h1')
  obtain ⟨k, hk, hk1, hk2⟩ := (entropySizes_iff _).1 h3
  obtain ⟨k', hk', hk1', hk2'⟩ := (entropySizes_iff _).1 h3'
  have a := ((encodes_bits_iff H e k hk hk2 idx i1).1 i3)
  have b := ((encodes_bits_iff H e' k' hk' hk2' idx' j1).1 j3)
  have la := congrArg List.length i2
  have lb := congrArg List.length j2
  simp only [List.length_map] at la lb
  refine ⟨by omega, ?_⟩
  rintro rfl
  have hkk : k = k' := by omega
  subst hkk
  obtain rfl := ofDigitsBE_inj 2048 idx idx' (by omega) i1 j1 (a.2.trans b.2.symm)
  cases idx with
  | nil => simp at a; omega
  | cons i idx =>
    rw [i2] at j2
    exact ha i (i1 i (by simp)) (List.cons.inj j2).1

end

/-! ### The shipped lists -/

/-- The ten files. -/
inductive Lang
  | chineseSimplified | chineseTraditional | czech | english | french | italian | japanese | korean | portuguese | spanish
  deriving DecidableEq

namespace Lang

def file : Lang → WordFile
  | chineseSimplified => Bips.chineseSimplified
  | chineseTraditional => Bips.chineseTraditional
  | czech => Bips.czech
  | english => Bips.english
  | french => Bips.french
  | italian => Bips.italian
  | japanese => Bips.japanese
  | korean => Bips.korean
  | portuguese => Bips.portuguese
  | spanish => Bips.spanish

/-- Every file of the package has a name here. -/
theorem file_mem (a : Lang) : a.file ∈ wordFiles := by
  cases a <;> simp only [wordFiles, file, List.mem_cons, true_or, or_true]

theorem exists_of_mem (f : WordFile) (hf : f ∈ wordFiles) : ∃ a : Lang, a.file = f := by
  simp only [wordFiles, List.mem_cons, List.not_mem_nil, or_false] at hf
  rcases hf with rfl | rfl | rfl | rfl | rfl | rfl | rfl | rfl | rfl | rfl
  exacts [⟨chineseSimplified, rfl⟩, ⟨chineseTraditional, rfl⟩, ⟨czech, rfl⟩, ⟨english, rfl⟩, ⟨french, rfl⟩, ⟨italian, rfl⟩,
    ⟨japanese, rfl⟩, ⟨korean, rfl⟩, ⟨portuguese, rfl⟩, ⟨spanish, rfl⟩]

def codes : Lang → List Nat
  | chineseSimplified => Data.ChineseSimplified.codes
  | chineseTraditional => Data.ChineseTraditional.codes
  | czech => Data.Czech.codes
  | english => Data.English.codes
  | french => Data.French.codes
  | italian => Data.Italian.codes
  | japanese => Data.Japanese.codes
  | korean => Data.Korean.codes
  | portuguese => Data.Portuguese.codes
  | spanish => Data.Spanish.codes

theorem good (a : Lang) : GoodList a.file.list := C10_lists_good _ a.file_mem

theorem list_eq (a : Lang) : a.file.list = a.codes.map codeWord := by
  cases a
  exacts [list_of_lines chineseSimplified_good _, list_of_lines chineseTraditional_good _, list_of_lines czech_good _,
    list_of_lines english_good _, list_of_lines french_good _, list_of_lines italian_good _, list_of_lines japanese_good _,
    list_of_lines korean_good _, list_of_lines portuguese_good _, list_of_lines spanish_good _]

theorem code_lt (a : Lang) : ∀ n ∈ a.codes, n < 256 ^ 64 := by
  intro n hn
  cases a
  exacts [(goodCode_iff (List.all_eq_true.1 Data.ChineseSimplified.good n hn)).1,
    (goodCode_iff (List.all_eq_true.1 Data.ChineseTraditional.good n hn)).1,
    (goodCode_iff (List.all_eq_true.1 Data.Czech.good n hn)).1,
    (goodCode_iff (List.all_eq_true.1 Data.English.good n hn)).1,
    (goodCode_iff (List.all_eq_true.1 Data.French.good n hn)).1,
    (goodCode_iff (List.all_eq_true.1 Data.Italian.good n hn)).1,
    (goodCode_iff (List.all_eq_true.1 Data.Japanese.good n hn)).1,
    (goodCode_iff (List.all_eq_true.1 Data.Korean.good n hn)).1,
    (goodCode_iff (List.all_eq_true.1 Data.Portuguese.good n hn)).1,
    (goodCode_iff (List.all_eq_true.1 Data.Spanish.good n hn)).1]

theorem codeWord_inj (a b : Lang) {m n : Nat} (hm : m ∈ a.codes) (hn : n ∈ b.codes) (h : codeWord m = codeWord n) : m = n := by
  rw [← setBytes_codeWord (a.code_lt m hm), h, setBytes_codeWord (b.code_lt n hn)]

/-- Scripts: the kind of the first byte of a word. -/
def script : Lang → Nat
  | chineseSimplified | chineseTraditional => 3
  | japanese => 2
  | korean => 1
  | _ => 0

theorem script_all (a : Lang) : Data.Cross.allOf a.script a.codes = true := by
  cases a
  exacts [Data.Cross.kindChineseSimplified, Data.Cross.kindChineseTraditional, Data.Cross.kindCzech, Data.Cross.kindEnglish,
    Data.Cross.kindFrench, Data.Cross.kindItalian, Data.Cross.kindJapanese, Data.Cross.kindKorean, Data.Cross.kindPortuguese,
    Data.Cross.kindSpanish]

/-- The pairs of lists with common words. -/
def sharing : List (Lang × Lang) :=
  [(chineseSimplified, chineseTraditional), (chineseTraditional, chineseSimplified), (english, french), (french, english)]

theorem codes_disjoint (a b : Lang) (h : a ≠ b) (hs : (a, b) ∉ sharing) : ∀ n ∈ a.codes, n ∉ b.codes := by
  intro n ha hb
  by_cases hk : a.script = b.script
  swap
  · have h1 := Nat.eq_of_beq_eq_true (List.all_eq_true.1 a.script_all n ha)
    have h2 := Nat.eq_of_beq_eq_true (List.all_eq_true.1 b.script_all n hb)
    exact hk (h1.symm.trans h2)
  have n1 := distinct_nodup Data.Cross.latin1
  have n2 := distinct_nodup Data.Cross.latin2
  generalize hC : Data.Czech.codes = C at n1 n2
  generalize hE : Data.English.codes = E at n1
  generalize hF : Data.French.codes = F at n2
  generalize hI : Data.Italian.codes = I at n1 n2
  generalize hP : Data.Portuguese.codes = P at n1 n2
  generalize hS : Data.Spanish.codes = S at n1 n2
  simp only [List.nodup_append, List.mem_append] at n1 n2
  cases a <;> cases b <;> first | exact absurd rfl h | exact absurd hk (by decide) | exact absurd (by decide) hs | skip
  all_goals simp only [codes, hC, hE, hF, hI, hP, hS] at ha hb
  all_goals grind

theorem list_disjoint (a b : Lang) (h : a ≠ b) (hs : (a, b) ∉ sharing) : ∀ w ∈ a.file.list, w ∉ b.file.list := by
  rw [list_eq, list_eq]
  intro w ha hb
  obtain ⟨m, hm, rfl⟩ := List.mem_map.1 ha
  obtain ⟨n, hn, he⟩ := List.mem_map.1 hb
  obtain rfl := codeWord_inj b a hn hm he
  exact codes_disjoint a b h hs _ hm hn

theorem getElem?_list (a : Lang) (i : Nat) (w : Bytes) : a.file.list[i]? = some w ↔ ∃ n, a.codes[i]? = some n ∧ codeWord n = w := by
  rw [list_eq, List.getElem?_map, Option.map_eq_some_iff]

theorem chinese_aligned (i j : Nat) (w : Bytes) (h : chineseSimplified.file.list[i]? = some w)
    (h' : chineseTraditional.file.list[j]? = some w) : i = j := by
  obtain ⟨m, hm, rfl⟩ := (getElem?_list _ _ _).1 h
  obtain ⟨n, hn, he⟩ := (getElem?_list _ _ _).1 h'
  obtain rfl := codeWord_inj _ _ (List.mem_of_getElem? hn) (List.mem_of_getElem? hm) he
  have hd := distinct_nodup Data.Cross.chinese
  have hT : chineseTraditional.codes.Nodup := (List.nodup_append.1 hd).2.1
  have hi : i < chineseTraditional.codes.length := by
    have h1 := (List.getElem?_eq_some_iff.1 hm).1
    have h2 : chineseSimplified.codes.length = 2048 := Data.ChineseSimplified.length
    have h3 : chineseTraditional.codes.length = 2048 := Data.ChineseTraditional.length
    omega
  by_cases hx : n = chineseTraditional.codes[i]
  · have hj := (List.getElem?_eq_some_iff.1 hn)
    exact (hT.getElem_inj_iff (hi := hi) (hj := hj.1)).1 (hx.symm.trans hj.2.symm)
  · exfalso
    refine (List.nodup_append.1 hd).2.2 n (List.mem_filterMap.2 ⟨(n, chineseTraditional.codes[i]), ?_, ?_⟩) n
      (List.mem_of_getElem? hn) rfl
    · refine List.mem_of_getElem? (i := i) ?_
      rw [List.getElem?_zip_eq_some]
      exact ⟨hm, List.getElem?_eq_getElem hi⟩
    · have : Nat.beq n chineseTraditional.codes[i] = false :=
        Bool.eq_false_iff.2 fun hb => hx (Nat.eq_of_beq_eq_true hb)
      simp only [this, cond_false]

theorem english_french_misaligned (i : Nat) (hi : i < 2048) : english.file.list[i]? ≠ french.file.list[i]? := by
  have h1 : i < english.codes.length := hi.trans_eq Data.English.length.symm
  obtain ⟨m, hm⟩ : ∃ m, english.codes[i]? = some m := ⟨_, List.getElem?_eq_getElem h1⟩
  intro h
  have h3 := (getElem?_list english i _).2 ⟨m, hm, rfl⟩
  rw [h] at h3
  obtain ⟨n, hn, he⟩ := (getElem?_list french _ _).1 h3
  obtain rfl := codeWord_inj french english (List.mem_of_getElem? hn) (List.mem_of_getElem? hm) he
  have hz : (n, n) ∈ english.codes.zip french.codes :=
    List.mem_of_getElem? (i := i) (List.getElem?_zip_eq_some.2 ⟨hm, hn⟩)
  have := List.all_eq_true.1 Data.Cross.english_french _ hz
  rw [show Nat.beq (n, n).1 (n, n).2 = true from Nat.beq_refl n] at this
  exact absurd this (by decide)

end Lang

/-- **C81.** A mnemonic of one shipped list is refused under any other shipped list, with its first word reported as unknown, unless the
two lists are the Chinese ones or English and French. -/
theorem C81_refused (H : Hashes) (a b : Lang) (h : a ≠ b) (hs : (a, b) ∉ Lang.sharing) (s e : Bytes)
    (ha : entropyFromMnemonic H (setWordList a.file.list) s = .ok (e, none)) :
    ∃ w ws, Layout s (w :: ws) ∧ entropyFromMnemonic H (setWordList b.file.list) s = .ok ([], some (.unknownWord w)) :=
  refused_of_disjoint H a.good b.good (Lang.list_disjoint a b h hs) ha

/-- **C81.** The Chinese lists: a mnemonic of one that has only words of the other is accepted under the other, with the same entropy; every
other mnemonic is refused there. So the two never disagree. -/
theorem C81_chinese (H : Hashes) (a b : Lang)
    (hab : (a, b) = (.chineseSimplified, .chineseTraditional) ∨ (a, b) = (.chineseTraditional, .chineseSimplified)) (s e : Bytes)
    (ha : entropyFromMnemonic H (setWordList a.file.list) s = .ok (e, none)) :
    (∀ ws, Layout s ws → (∀ w ∈ ws, w ∈ b.file.list) → entropyFromMnemonic H (setWordList b.file.list) s = .ok (e, none)) ∧
    (∀ ws, Layout s ws → (∃ w ∈ ws, w ∉ b.file.list) → ∃ w ∈ ws, w ∉ b.file.list ∧
      entropyFromMnemonic H (setWordList b.file.list) s = .ok ([], some (.unknownWord w))) := by
  have hal : ∀ (i j : Nat) (w : Bytes), a.file.list[i]? = some w → b.file.list[j]? = some w → i = j := by
    rcases hab with h | h
    · obtain ⟨rfl, rfl⟩ := Prod.mk.inj h
      exact Lang.chinese_aligned
    · obtain ⟨rfl, rfl⟩ := Prod.mk.inj h
      exact fun i j w h1 h2 => (Lang.chinese_aligned j i w h2 h1).symm
  refine ⟨fun ws hs hw => same_of_aligned H a.good b.good hal ha hs hw, ?_⟩
  intro ws hs hw
  obtain ⟨us, h1, h2, -⟩ := (C04_accepts_exactly H a.good s e).1 ha
  obtain rfl : us = ws := (fields_layout h1).symm.trans (fields_layout hs)
  -- the first word that is not in the list
  have : ∃ pre w post, us = pre ++ w :: post ∧ (∀ v ∈ pre, v ∈ b.file.list) ∧ w ∉ b.file.list := by
    clear h1 h2 hs ha
    induction us with
    | nil => obtain ⟨w, hw, -⟩ := hw; simp at hw
    | cons u us ih =>
      by_cases hu : u ∈ b.file.list
      · obtain ⟨w, hw, hn⟩ := hw
        rcases List.mem_cons.1 hw with rfl | hw
        · exact absurd hu hn
        obtain ⟨pre, v, post, e1, e2, e3⟩ := ih ⟨w, hw, hn⟩
        refine ⟨u :: pre, v, post, by rw [e1]; rfl, ?_, e3⟩
        intro x hx
        rcases List.mem_cons.1 hx with rfl | hx
        · exact hu
        · exact e2 x hx
      · exact ⟨[], u, us, rfl, by simp, hu⟩
  obtain ⟨pre, w, post, e1, e2, e3⟩ := this
  exact ⟨w, by rw [e1]; simp, e3, (C04_errors H b.good s us h1).2.1 pre w post h2 e1 e2 e3⟩

/-- **C81.** English and French: a mnemonic accepted under both lists stands for two different entropies. -/
theorem C81_english_french (H : Hashes) (s e e' : Bytes)
    (h : entropyFromMnemonic H (setWordList english.list) s = .ok (e, none))
    (h' : entropyFromMnemonic H (setWordList french.list) s = .ok (e', none)) : e.length = e'.length ∧ e ≠ e' :=
  differ_of_misaligned H (Lang.good .english) (Lang.good .french) Lang.english_french_misaligned h h'

/-! ### Cases -/

/-- Positions of words given by their numbers. -/
theorem encodes_of_positions (a : Lang) (sha : Bytes → Bytes) (e : Bytes) (idx codes : List Nat) (h1 : idx.all (· < 2048) = true)
    (h2 : idx.map (a.codes[·]?) = codes.map some) (h3 : idx.flatMap (bitsN 11) = mnemonicBits sha e) :
    Encodes sha a.file.list e (codes.map codeWord) := by
  refine ⟨idx, fun i hi => by simpa using List.all_eq_true.1 h1 i hi, ?_, h3⟩
  rw [Lang.list_eq]
  have : idx.map ((a.codes.map codeWord)[·]?) = (idx.map (a.codes[·]?)).map (Option.map codeWord) := by
    simp [List.map_map, Function.comp_def]
  rw [this, h2]
  simp [List.map_map, Function.comp_def]

/-- A sentence of twelve words that both lists have. -/
def bilingual : Bytes := str "civil festival festival palace rival concert distance panda junior unique spatial science"

set_option maxRecDepth 100000 in
/-- **C81.** The sentence is accepted under both lists, with the SHA-256 of the program. -/
theorem C81_bilingual :
    entropyFromMnemonic goHashes (setWordList english.list) bilingual = .ok (beBytes 16 0x298aa554cf9baa5d4fecfb793db34260, none) ∧
    entropyFromMnemonic goHashes (setWordList french.list) bilingual = .ok (beBytes 16 0x326cb196583d0e6d11ed8888be7386eb, none) := by
  have hl : Layout bilingual (words! "civil festival festival palace rival concert distance panda junior unique spatial science" |>.map codeWord) :=
    (layout_iff _ _).2 (by decide +kernel)
  constructor
  · refine (C04_accepts_exactly goHashes (Lang.good .english) _ _).2 ⟨_, hl, by decide, by decide, ?_⟩
    exact encodes_of_positions .english _ _ [332, 681, 681, 1273, 1493, 373, 509, 1275, 969, 1900, 1668, 1543] _ (by decide +kernel) (by decide +kernel) (by decide +kernel)
  · refine (C04_accepts_exactly goHashes (Lang.good .french) _ _).2 ⟨_, hl, by decide, by decide, ?_⟩
    exact encodes_of_positions .french _ _ [403, 812, 812, 1411, 1671, 436, 573, 1416, 1093, 1948, 1805, 1727] _ (by decide +kernel) (by decide +kernel) (by decide +kernel)

/-- Other cases of C81: the all-zero entropy written in Spanish, read with the Czech list. -/
example (H : Hashes) : ∃ m w ws, newMnemonic H (setWordList spanish.list) (List.replicate 16 0) = .ok (m, none) ∧ Layout m (w :: ws) ∧
    entropyFromMnemonic H (setWordList czech.list) m = .ok ([], some (.unknownWord w)) := by
  obtain ⟨m, h1, h2, -⟩ := C01_roundtrip H (Lang.good .spanish) (List.replicate 16 0) (by decide)
  obtain ⟨w, ws, h3, h4⟩ := C81_refused H .spanish .czech (by decide) (by decide) _ _ h2
  exact ⟨m, w, ws, h1, h3, h4⟩

/-- The first word of the Chinese lists is the same. -/
example : Lang.chineseSimplified.file.list[0]? = some (str "的") ∧ Lang.chineseTraditional.file.list[0]? = some (str "的") := by
  rw [Lang.list_eq, Lang.list_eq]
  exact ⟨by decide +kernel, by decide +kernel⟩

end Bips
