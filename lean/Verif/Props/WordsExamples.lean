import Verif.Props.Words
import Verif.Props.WordAlias
import Verif.Props.WordRace
import Verif.Props.RaceExact
import Verif.Props.SafeState
import Verif.Props.Util

/-!
# Instances of the theorems on mnemonics

The hypotheses of C01–C13 are met by the English list (and the others, `C10_lists_good`), by every entropy of 16 to
32 bytes, and by concrete strings.
-/

namespace Bips
open Spec

theorem english_list : english.list = Data.English.codes.map codeWord := list_of_lines english_good _

theorem japanese_list : japanese.list = Data.Japanese.codes.map codeWord := list_of_lines japanese_good _

theorem english_list_good : GoodList english.list := C10_lists_good _ (by simp [wordFiles])

theorem japanese_list_good : GoodList japanese.list := C10_lists_good _ (by simp [wordFiles])

/-- The list starts and ends as expected. -/
theorem english_first_last : english.list[0]? = some (str "abandon") ∧ english.list[2047]? = some (str "zoo") ∧
    english.list[3]? = some (str "about") := by
  rw [english_list]
  exact ⟨by decide +kernel, by decide +kernel, by decide +kernel⟩

/-- C01 with an entropy that starts and ends with zero bytes. -/
example (H : Hashes) : ∃ m, newMnemonic H (setWordList english.list) (0 :: 0 :: List.replicate 13 7 ++ [0]) = .ok (m, none) ∧
    entropyFromMnemonic H (setWordList english.list) m = .ok (0 :: 0 :: List.replicate 13 7 ++ [0], none) ∧
    isMnemonicValid H (setWordList english.list) m = .ok true :=
  C01_roundtrip H english_list_good _ (by decide)

/-- The mnemonic of an entropy is an accepted string: the hypothesis of C02, C07 and C13. -/
theorem accepted_exists (H : Hashes) : ∃ s e, entropyFromMnemonic H (setWordList english.list) s = .ok (e, none) := by
  obtain ⟨m, -, h, -⟩ := C01_roundtrip H english_list_good (List.replicate 32 255) (by decide)
  exact ⟨m, _, h⟩

theorem not_english {w : Bytes} (h : (Data.English.codes.all fun n => !Nat.beq n (setBytes w)) = true) :
    w ∉ english.list := by
  rw [english_list]
  intro hm
  obtain ⟨n, hn, he⟩ := List.mem_map.1 hm
  have h1 := List.all_eq_true.1 h n hn
  have h2 := setBytes_codeWord (goodCode_iff (List.all_eq_true.1 Data.English.good n hn)).1
  rw [he] at h2
  rw [h2] at h1
  simp at h1

/-- C04: an unknown word after four known ones, and a string that is too short. -/
example (H : Hashes) : entropyFromMnemonic H (setWordList english.list)
    (str "abandon zoo about zoo  abandonn zoo zoo zoo zoo zoo zoo zoo") =
      .ok ([], some (.unknownWord (str "abandonn"))) ∧
    entropyFromMnemonic H (setWordList english.list) (str "zoo zoo") = .ok ([], some .invalidMnemonic) := by
  obtain ⟨ha, hz, hb⟩ := english_first_last
  have ha := List.mem_of_getElem? ha
  have hz := List.mem_of_getElem? hz
  have hb := List.mem_of_getElem? hb
  have hn : str "abandonn" ∉ english.list := not_english (by decide +kernel)
  constructor
  · refine (C04_errors H english_list_good _ _ ((layout_iff _ _).2 rfl)).2.1
      [str "abandon", str "zoo", str "about", str "zoo"] (str "abandonn")
      [str "zoo", str "zoo", str "zoo", str "zoo", str "zoo", str "zoo", str "zoo"] (by decide +kernel) (by decide +kernel) ?_ hn
    intro v hv
    simp only [List.mem_cons, List.not_mem_nil, or_false] at hv
    rcases hv with rfl | rfl | rfl | rfl <;> assumption
  · exact (C04_errors H english_list_good _ _ ((layout_iff _ _).2 rfl)).1 (by decide +kernel)

/-- C11: for eleven times "zoo", 128 of the 2048 words complete the sentence. -/
example (H : Hashes) : english.list.countP (fun w => isMnemonicValid H (setWordList english.list)
    ([32].intercalate (List.replicate 11 (str "zoo") ++ [w])) = .ok true) = 128 := by
  have h := C11_last_words H english_list_good (List.replicate 11 (str "zoo"))
    (by intro w hw; rw [(List.mem_replicate.1 hw).2]; exact List.mem_of_getElem? english_first_last.2.1) (by decide)
  rw [h]
  rfl

/-- C12: after overwriting "abandon" by "zzz" in the list returned by `GetWordList`. -/
example (H : Hashes) (st : AliasState) :=
  C12_corrupts H st english.list english_list_good (str "zzz")
    ⟨by decide +kernel, (noWs_iff _).2 (by decide +kernel)⟩ (not_english (by decide +kernel))

/-- The English and the Japanese list have no word in common. -/
theorem english_japanese_disjoint : ∀ w ∈ english.list, w ∉ japanese.list := by
  have hd : distinct (Data.English.codes ++ Data.Japanese.codes) = true := by decide +kernel
  have hn := distinct_nodup hd
  rw [english_list, japanese_list]
  intro w hw hw'
  obtain ⟨a, ha, rfl⟩ := List.mem_map.1 hw
  obtain ⟨b, hb, he⟩ := List.mem_map.1 hw'
  have h1 := setBytes_codeWord (goodCode_iff (List.all_eq_true.1 Data.English.good a ha)).1
  have h2 := setBytes_codeWord (goodCode_iff (List.all_eq_true.1 Data.Japanese.good b hb)).1
  rw [he, h1] at h2
  subst h2
  exact (List.nodup_append.1 hn).2.2 a ha a hb rfl

/-- C13: switching from English to Japanese. -/
example (H : Hashes) := C13_mixed H english.list japanese.list english_list_good japanese_list_good
  english_japanese_disjoint (List.replicate 32 170) (by decide)

/-- C13 for `NewMnemonic`: five Japanese words followed by seven English ones. -/
example (H : Hashes) := C13_newMnemonic_mixed H english.list japanese.list english_list_good japanese_list_good
  english_japanese_disjoint (List.replicate 16 170) (by decide) 5 (by decide) (by decide)

/-- C13 for `NewMnemonic`: the English list set again while a sentence is being made. -/
example (H : Hashes) := C13_newMnemonic_same H english.list english_list_good (List.replicate 16 170) (by decide)
  [0, 0, 1, 1, 1, 2, 3, 4, 5, 6, 7, 8] ⟨by decide, by decide, by
    rw [writerSteps, english_list_good.length]; decide⟩

/-- C13: eleven reads before the map is replaced and one after the call has returned are a schedule that is not safe. -/
example : ¬ ∀ (H : Hashes) (l l' : List Bytes) (s : Bytes), GoodList l → GoodList l' → (fields s).length = 12 →
    entropyScheduled H (setWordList l) l' (List.replicate 11 1 ++ [2050]) s = entropyFromMnemonic H (setWordList l) s ∨
    entropyScheduled H (setWordList l) l' (List.replicate 11 1 ++ [2050]) s = entropyFromMnemonic H (setWordList l') s := by
  rw [C13_schedule_iff english.list english_list_good 12 (by decide) _ ⟨by decide, by decide, by
    rw [writerSteps, english_list_good.length]; decide⟩]
  decide

/-- C13 for `NewMnemonic`: the list is replaced before the first read, and the index filled during the others. -/
example := (C13_newMnemonic_iff english.list english_list_good 12 (by decide) [1, 1, 1, 1, 1, 2, 3, 4, 5, 6, 7, 8]
  ⟨by decide, by decide, by rw [writerSteps, english_list_good.length]; decide⟩).2 (Or.inr (by decide))

/-- C13: the first word is looked up while the index is empty, the others later: an error although the word is in both
lists. -/
example (H : Hashes) (v : Bytes) (c : List Bytes) (s : Bytes) (hs : Layout s (v :: c)) (hc : c.length = 11) :=
  (C13_entropy_exact H english.list english.list english_list_good english_list_good s (v :: c) hs (by simp [hc, sentenceLengths])
    (2 :: List.replicate 11 2050) ⟨by simp [hc], by decide, by rw [writerSteps, english_list_good.length]; decide⟩).2
    [] v c rfl (by simp) (by
      intro t i h
      obtain rfl : 2 = t := by simpa using h
      rintro (⟨h, -⟩ | ⟨-, -, h⟩) <;> omega)

/-- C80: one more word behind the English list does no harm if it is new, and loses entropies if it is not. -/
example (H : Hashes) := (C80_longer_iff H english.list [str "zzz"] english_list_good (by
  rw [List.length_append, english_list_good.length]; decide)).2 (by
  intro w hw h
  rw [List.mem_singleton.1 h] at hw
  exact not_english (by decide +kernel) hw)
example (H : Hashes) : ¬ ∀ e, e.length ∈ entropySizes → ∃ m,
    newMnemonic H (setWordList (english.list ++ [str "abandon"])) e = .ok (m, none) ∧
    entropyFromMnemonic H (setWordList (english.list ++ [str "abandon"])) m = .ok (e, none) := by
  rw [C80_longer_iff H english.list [str "abandon"] english_list_good (by
    rw [List.length_append, english_list_good.length]; decide)]
  intro h
  exact h _ (List.mem_of_getElem? english_first_last.1) (by simp)

/-- C42 and C43: with the English list and a random source of zeros, 15 words are generated, and they have a seed. -/
example (H : Hashes) : ∃ m ws t, generateMnemonic H (setWordList english.list) (fun n => List.replicate n 0) 15 = .ok (m, none) ∧
    Layout m ws ∧ ws.length = 15 ∧ deriveSeedFromMnemonic H (setWordList english.list) m (str "TREZOR") = .ok (t, none) ∧
    t.length = 128 := by
  obtain ⟨m, ws, h1, h2, h3, h4, -⟩ := (C42_generate H english_list_good (fun n => List.replicate n 0) (by simp) 15).2
    (by decide)
  obtain ⟨t, h5, h6, -⟩ := (C43_seed_text H english_list_good m (str "TREZOR")).1 h4
  exact ⟨m, ws, t, h1, h2, h3, h5, h6⟩

/-- C43: an invalid mnemonic has no seed. -/
example (H : Hashes) : deriveSeedFromMnemonic H (setWordList english.list) (str "zoo zoo") [] =
    .ok ([], some .invalidMnemonic) := rfl

end Bips
