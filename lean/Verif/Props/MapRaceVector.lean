import Verif.Props.MapZero
import Verif.Vectors.Mnemonic

/-! # C101 on a sentence of the English list, with the real hash function -/

namespace Bips
open Spec

/-- A valid sentence. -/
def abstractSentence : Bytes := str "abstract abandon abandon abandon abandon abandon abandon abandon abandon abandon abandon about"

theorem abstract_good : Vectors.Good (beBytes 16 0x00e00000000000000000000000000000) abstractSentence :=
  Vectors.good_of [7, 0, 0, 0, 0, 0, 0, 0, 0, 0, 0, 3]
    (words! "abstract abandon abandon abandon abandon abandon abandon abandon abandon abandon abandon about") (by decide)
    (by decide +kernel) (by decide +kernel) (by decide +kernel) (by decide +kernel)

/-- **C101**, concretely: a valid English sentence is read while the English list, in force already, is set once more. The program may
end; or the entropy may come out as sixteen zeros, without an error, although it is another one. -/
theorem C101_abstract :
    entropyFromMnemonic goHashes (setWordList english.list) abstractSentence = .ok (beBytes 16 0x00e00000000000000000000000000000, none) ∧
    (∃ schedule, ((MapRun.begin (setWordList english.list) 2048 [english.list] [lookedUp abstractSentence]).run schedule).fatal = true) ∧
    ∃ schedule got,
      ((MapRun.begin (setWordList english.list) 2048 [english.list] [lookedUp abstractSentence]).run schedule).fatal = false ∧
      ((MapRun.begin (setWordList english.list) 2048 [english.list] [lookedUp abstractSentence]).run schedule).pcs =
        [.done, .reads [] got] ∧
      entropyLookups goHashes got abstractSentence = .ok (List.replicate 16 0, none) := by
  have hf : fields abstractSentence = str "abstract" :: (List.replicate 10 (str "abandon") ++ [str "about"]) := by decide +kernel
  have hL : Layout abstractSentence ([] ++ str "abstract" :: (List.replicate 10 (str "abandon") ++ [str "about"])) := by
    have := layout_fields abstractSentence
    rwa [hf] at this
  have hmem : ∀ x ∈ [] ++ str "abstract" :: (List.replicate 10 (str "abandon") ++ [str "about"]), x ∈ english.list := by
    have h := Vectors.mem_of_positions (idx := [7, 0, 3]) (codes := words! "abstract abandon about") (by decide +kernel)
    have hc : (words! "abstract abandon about").map codeWord = [str "abstract", str "abandon", str "about"] := by decide +kernel
    rw [hc] at h
    intro x hx
    refine h x ?_
    simp only [List.nil_append, List.mem_cons, List.mem_append, List.mem_replicate, List.not_mem_nil, or_false] at hx ⊢
    rcases hx with hx | hx | hx
    · exact .inl hx
    · exact .inr (.inl hx.2)
    · exact .inr (.inr hx)
  have hz : english.list[0]? = some (str "abandon") :=
    (Lang.getElem?_list .english 0 _).2 ⟨setBytes (str "abandon"), by decide +kernel, by decide +kernel⟩
  have hlook : lookedUp abstractSentence = str "abstract" :: (List.replicate 10 (str "abandon") ++ [str "about"]) := by
    rw [lookedUp, splitMnemonicWords_eq, hf, if_pos (by decide)]
  refine ⟨abstract_good.entropy, ?_, ?_⟩
  · refine (C101_fatal_iff _ _ _ _).2 ⟨⟨english.list, by simp, ?_⟩, .inr ⟨lookedUp abstractSentence, by simp, by rw [hlook]; simp⟩⟩
    rintro h
    rw [h] at hz
    simp at hz
  · obtain ⟨sch, got, h1, h2, h3⟩ := C101_zero goHashes english.list english_list_good 2048 abstractSentence [] _ _ _ hL (by decide) hmem hz
    refine ⟨sch, got, h1, h2, ?_⟩
    rw [h3]
    have hj : [32].intercalate ([] ++ str "abandon" :: (List.replicate 10 (str "abandon") ++ [str "about"])) =
        str "abandon abandon abandon abandon abandon abandon abandon abandon abandon abandon abandon about" := by decide +kernel
    rw [hj, Vectors.good_0.entropy]
    rfl

end Bips
