import Verif.Model.Wordlists
import Verif.Props.Bip39

/-! # C10: the shipped word lists -/

namespace Bips
open Spec

/-- Decoding a concatenation of words and line feeds. -/
theorem runes_lines (ws : List Bytes) : runes (ws.flatMap (· ++ [10])) =
    ws.flatMap fun w => runes w ++ [(10, [10])] := by
  induction ws with
  | nil => rfl
  | cons w ws ih =>
    rw [List.flatMap_cons, List.flatMap_cons, List.append_assoc, ← ih]
    have h10 : utf8 10 = [10] := rfl
    have hsc : IsScalar 10 := ⟨by norm_num, by norm_num⟩
    have hst : StartsRune ([10] ++ List.flatMap (fun x => x ++ [10]) ws) :=
      startsRune_ws (cs := [10]) (by decide) _ (Or.inl (by simp))
    have hu := runes_utf8 hsc (List.flatMap (fun x => x ++ [10]) ws)
    rw [h10] at hu
    rw [runes_append w _ hst, hu, List.append_assoc]
    rfl

theorem dropWhile_head {α} (p : α → Bool) (l : List α) (h : ∀ x ∈ l.head?, p x = false) : l.dropWhile p = l := by
  cases l with
  | nil => rfl
  | cons x l => rw [List.dropWhile_cons, h x rfl]; rfl

/-- Trimming a text with one word per line removes exactly the last line feed. -/
theorem trimSpace_lines (ws : List Bytes) (h : ∀ w ∈ ws, IsWord w) (hne : ws ≠ []) :
    trimSpace (ws.flatMap (· ++ [10])) = [10].intercalate ws := by
  have hword : ∀ w ∈ ws, runes w ≠ [] ∧ ∀ p ∈ runes w, isSpace p.1 = false :=
    fun w hw => ⟨runes_ne_nil (h w hw).1, (noWs_iff w).1 (h w hw).2⟩
  rw [trimSpace, runes_lines]
  have h1 : (ws.flatMap fun w => runes w ++ [(10, [10])]).dropWhile (fun r => isSpace r.1) =
      ws.flatMap fun w => runes w ++ [(10, ([10] : Bytes))] := by
    apply dropWhile_head
    cases ws with
    | nil => simp
    | cons w ws =>
      obtain ⟨a, b⟩ := hword w (by simp)
      cases hr : runes w with
      | nil => exact absurd hr a
      | cons p l =>
        intro x hx
        rw [List.flatMap_cons, hr] at hx
        have : x = p := by simpa using hx.symm
        exact b x (by rw [hr, this]; simp)
  rw [h1]
  obtain ⟨init, last, rfl⟩ : ∃ init last, ws = init ++ [last] := by
    rw [← List.dropLast_append_getLast hne]; exact ⟨_, _, rfl⟩
  have h2 : ((init ++ [last]).flatMap fun w => runes w ++ [(10, ([10] : Bytes))]) =
      ((init.flatMap fun w => runes w ++ [(10, ([10] : Bytes))]) ++ runes last) ++ [(10, [10])] := by simp
  have h10 : isSpace 10 = true := by decide
  rw [h2, List.reverse_append]
  have h3 : ([(10, ([10] : Bytes))].reverse ++ ((init.flatMap fun w => runes w ++ [(10, ([10] : Bytes))]) ++ runes last).reverse).dropWhile
      (fun r => isSpace r.1) = ((init.flatMap fun w => runes w ++ [(10, ([10] : Bytes))]) ++ runes last).reverse := by
    rw [List.reverse_singleton, List.singleton_append, List.dropWhile_cons]
    simp only [h10, if_true]
    apply dropWhile_head
    obtain ⟨a, b⟩ := hword last (by simp)
    intro x hx
    rw [List.reverse_append] at hx
    have hne : (runes last).reverse ≠ [] := by simpa using a
    cases hr : (runes last).reverse with
    | nil => exact absurd hr hne
    | cons p l =>
      rw [hr] at hx
      have hxp : x = p := by simpa using hx.symm
      refine b x ?_
      rw [← List.mem_reverse, hr, hxp]; simp
  rw [h3, List.reverse_reverse, List.flatMap_append, runes_flatten]
  clear h1 h2 h3 hne hword h
  induction init with
  | nil => simp [List.intercalate]
  | cons w init ih =>
    rw [List.flatMap_cons, List.flatMap_append, List.append_assoc, ih, List.flatMap_append, runes_flatten]
    cases init <;> simp [List.intercalate]

/-- A file with one word per line yields exactly its words. -/
theorem list_of_lines {codes : List Nat} (hg : GoodList (codes.map codeWord)) (c : Bytes) :
    (WordFile.mk (linesOf codes) c).list = codes.map codeWord := by
  have hne : codes.map codeWord ≠ [] := by
    intro h
    have := hg.length
    rw [h] at this
    simp at this
  rw [WordFile.list, linesOf, trimSpace_lines _ hg.word hne, ← joinByte_eq_intercalate, splitByte_joinByte _ _ hne]
  intro w hw hm
  obtain ⟨a, b, rfl⟩ := List.append_of_mem hm
  exact (hg.word _ hw).2 a 10 b (by decide) (by simp [utf8])

theorem chineseSimplified_good : GoodList (Data.ChineseSimplified.codes.map codeWord) :=
  goodList_of_checks Data.ChineseSimplified.length Data.ChineseSimplified.distinct Data.ChineseSimplified.good
theorem chineseTraditional_good : GoodList (Data.ChineseTraditional.codes.map codeWord) :=
  goodList_of_checks Data.ChineseTraditional.length Data.ChineseTraditional.distinct Data.ChineseTraditional.good
theorem czech_good : GoodList (Data.Czech.codes.map codeWord) :=
  goodList_of_checks Data.Czech.length Data.Czech.distinct Data.Czech.good
theorem english_good : GoodList (Data.English.codes.map codeWord) :=
  goodList_of_checks Data.English.length Data.English.distinct Data.English.good
theorem french_good : GoodList (Data.French.codes.map codeWord) :=
  goodList_of_checks Data.French.length Data.French.distinct Data.French.good
theorem italian_good : GoodList (Data.Italian.codes.map codeWord) :=
  goodList_of_checks Data.Italian.length Data.Italian.distinct Data.Italian.good
theorem japanese_good : GoodList (Data.Japanese.codes.map codeWord) :=
  goodList_of_checks Data.Japanese.length Data.Japanese.distinct Data.Japanese.good
theorem korean_good : GoodList (Data.Korean.codes.map codeWord) :=
  goodList_of_checks Data.Korean.length Data.Korean.distinct Data.Korean.good
theorem portuguese_good : GoodList (Data.Portuguese.codes.map codeWord) :=
  goodList_of_checks Data.Portuguese.length Data.Portuguese.distinct Data.Portuguese.good
theorem spanish_good : GoodList (Data.Spanish.codes.map codeWord) :=
  goodList_of_checks Data.Spanish.length Data.Spanish.distinct Data.Spanish.good

/-- **C10**, the lists: each exported list has 2048 distinct words without white space. -/
theorem C10_lists_good (f : WordFile) (hf : f ∈ wordFiles) : GoodList f.list := by
  simp only [wordFiles, List.mem_cons, List.not_mem_nil, or_false] at hf
  rcases hf with rfl | rfl | rfl | rfl | rfl | rfl | rfl | rfl | rfl | rfl
  · exact (list_of_lines chineseSimplified_good _).symm ▸ chineseSimplified_good
  · exact (list_of_lines chineseTraditional_good _).symm ▸ chineseTraditional_good
  · exact (list_of_lines czech_good _).symm ▸ czech_good
  · exact (list_of_lines english_good _).symm ▸ english_good
  · exact (list_of_lines french_good _).symm ▸ french_good
  · exact (list_of_lines italian_good _).symm ▸ italian_good
  · exact (list_of_lines japanese_good _).symm ▸ japanese_good
  · exact (list_of_lines korean_good _).symm ▸ korean_good
  · exact (list_of_lines portuguese_good _).symm ▸ portuguese_good
  · exact (list_of_lines spanish_good _).symm ▸ spanish_good

theorem init_ok {codes : List Nat} {c : Nat} {k : Bytes} (h : crcCodes codes 0xffffffff = c)
    (hk : sprintfX (c ^^^ 0xffffffff) = k) : (WordFile.mk (linesOf codes) k).init = .ok () := by
  rw [WordFile.init, linesOf, checksum_of_codes h, hk, if_neg (by simp)]

/-- **C10**, the `init` functions: no file panics when the package is loaded, i.e. the CRC-32 of every text is the
one in the source. -/
theorem C10_init_ok (f : WordFile) (hf : f ∈ wordFiles) : f.init = .ok () := by
  simp only [wordFiles, List.mem_cons, List.not_mem_nil, or_false] at hf
  rcases hf with rfl | rfl | rfl | rfl | rfl | rfl | rfl | rfl | rfl | rfl
  · exact init_ok Data.ChineseSimplified.crc (by decide +kernel)
  · exact init_ok Data.ChineseTraditional.crc (by decide +kernel)
  · exact init_ok Data.Czech.crc (by decide +kernel)
  · exact init_ok Data.English.crc (by decide +kernel)
  · exact init_ok Data.French.crc (by decide +kernel)
  · exact init_ok Data.Italian.crc (by decide +kernel)
  · exact init_ok Data.Japanese.crc (by decide +kernel)
  · exact init_ok Data.Korean.crc (by decide +kernel)
  · exact init_ok Data.Portuguese.crc (by decide +kernel)
  · exact init_ok Data.Spanish.crc (by decide +kernel)

/-- **C10**, the consequence: with any shipped list, set after any history of other lists, every entropy of a valid
size survives the round trip, and every accepted string is the mnemonic of its entropy up to white space. -/
theorem C10_lossless (H : Hashes) (f : WordFile) (hf : f ∈ wordFiles) (S : WordState) (history : List (List Bytes)) :
    let T := (history ++ [f.list]).foldl setWordListFrom S
    (∀ e, e.length ∈ entropySizes → ∃ m, newMnemonic H T e = .ok (m, none) ∧
      entropyFromMnemonic H T m = .ok (e, none)) ∧
    (∀ s e, entropyFromMnemonic H T s = .ok (e, none) → ∃ ws, Layout s ws ∧
      newMnemonic H T e = .ok ([32].intercalate ws, none)) := by
  have hT : (history ++ [f.list]).foldl setWordListFrom S = setWordList f.list := by rw [List.foldl_append]; rfl
  dsimp only
  rw [hT]
  have hg := C10_lists_good f hf
  refine ⟨fun e he => ?_, fun s e h => (C02_canonical H hg s e h).1⟩
  obtain ⟨m, h1, h2, -⟩ := C01_roundtrip H hg e he
  exact ⟨m, h1, h2⟩

end Bips
