import Verif.Src.Rules
import Verif.Props.Crc

/-!
# bip39/wordlists, from the text

The variable with the text of the list is a parameter.
-/

namespace Bips.Src

open Bips (str)

set_option linter.unusedSimpArgs false

variable (W : World) (L : Nat)

theorem checksum_lt (t : Bytes) : checksumIEEE t < 2 ^ 32 := Nat.xor_lt_two_pow (crcRun_lt (by norm_num) _) (by norm_num)

theorem checksum_format (t : Bytes) : sprintf (str "%x") [.u32 (UInt32.ofNat (checksumIEEE t))] = some (sprintfX (checksumIEEE t)) := by
  have h1 : str "%x" = [37, 120] := by decide +kernel
  have h2 : (UInt32.ofNat (checksumIEEE t)).toNat = checksumIEEE t := by rw [UInt32.toNat_ofNat', Nat.mod_eq_of_lt (checksum_lt t)]
  rw [h1]
  simp only [sprintf, h2, Option.map_some, List.append_nil]
  rfl

theorem checksum_format_japanese (t : Bytes) : ∃ s, sprintf (str "japanese checksum invalid: %x") [.u32 (UInt32.ofNat (checksumIEEE t))] = some s := by
  have h1 : str "japanese checksum invalid: %x" = [106, 97, 112, 97, 110, 101, 115, 101, 32, 99, 104, 101, 99, 107, 115, 117, 109, 32, 105, 110, 118, 97, 108,
    105, 100, 58, 32, 37, 120] := by decide +kernel
  rw [h1]
  simp [sprintf]

@[src] theorem str_newline : str "\n" = [10] := by decide +kernel

/-- The functions of each file, and the file. -/
def wordFns : List (Fn × Fn × WordFile) :=
  [(.wordlists_chinese_simplified_init, .wordlists_chinese_simplified_ChineseSimplified, chineseSimplified),
   (.wordlists_chinese_traditional_init, .wordlists_chinese_traditional_ChineseTraditional, chineseTraditional),
   (.wordlists_czech_init, .wordlists_czech_Czech, czech),
   (.wordlists_english_init, .wordlists_english_English, Bips.english),
   (.wordlists_french_init, .wordlists_french_French, french),
   (.wordlists_italian_init, .wordlists_italian_Italian, italian),
   (.wordlists_japanese_init, .wordlists_japanese_Japanese, japanese),
   (.wordlists_korean_init, .wordlists_korean_Korean, korean),
   (.wordlists_portuguese_init, .wordlists_portuguese_Portuguese, portuguese),
   (.wordlists_spanish_init, .wordlists_spanish_Spanish, spanish)]

theorem lists_init (n : Nat) (t : Bytes) : ∀ p ∈ wordFns,
    run W L (n + 1) p.1 [.str t] = if sprintfX (checksumIEEE t) = p.2.2.checksum then .ok [] else .panic := by
  obtain ⟨s, hs⟩ := checksum_format_japanese t
  have hf := checksum_format t
  generalize sprintfX (checksumIEEE t) = c at hf ⊢
  simp only [wordFns, List.forall_mem_cons, List.not_mem_nil, false_imp_iff, implies_true, and_true]
  refine ⟨?_, ?_, ?_, ?_, ?_, ?_, ?_, ?_, ?_, ?_⟩ <;> rw [run_succ] <;> split <;> rename_i h
  · simp only [chineseSimplified] at h
    simp -implicitDefEqProofs [src, wordlists_chinese_simplified_init, hf, hs, h]
  · simp only [chineseSimplified] at h
    simp -implicitDefEqProofs [src, wordlists_chinese_simplified_init, hf, hs, h]
  · simp only [chineseTraditional] at h
    simp -implicitDefEqProofs [src, wordlists_chinese_traditional_init, hf, hs, h]
  · simp only [chineseTraditional] at h
    simp -implicitDefEqProofs [src, wordlists_chinese_traditional_init, hf, hs, h]
  · simp only [czech] at h
    simp -implicitDefEqProofs [src, wordlists_czech_init, hf, hs, h]
  · simp only [czech] at h
    simp -implicitDefEqProofs [src, wordlists_czech_init, hf, hs, h]
  · simp only [Bips.english] at h
    simp -implicitDefEqProofs [src, wordlists_english_init, hf, hs, h]
  · simp only [Bips.english] at h
    simp -implicitDefEqProofs [src, wordlists_english_init, hf, hs, h]
  · simp only [french] at h
    simp -implicitDefEqProofs [src, wordlists_french_init, hf, hs, h]
  · simp only [french] at h
    simp -implicitDefEqProofs [src, wordlists_french_init, hf, hs, h]
  · simp only [italian] at h
    simp -implicitDefEqProofs [src, wordlists_italian_init, hf, hs, h]
  · simp only [italian] at h
    simp -implicitDefEqProofs [src, wordlists_italian_init, hf, hs, h]
  · simp only [japanese] at h
    simp -implicitDefEqProofs [src, wordlists_japanese_init, hf, hs, h]
  · simp only [japanese] at h
    simp -implicitDefEqProofs [src, wordlists_japanese_init, hf, hs, h]
  · simp only [korean] at h
    simp -implicitDefEqProofs [src, wordlists_korean_init, hf, hs, h]
  · simp only [korean] at h
    simp -implicitDefEqProofs [src, wordlists_korean_init, hf, hs, h]
  · simp only [portuguese] at h
    simp -implicitDefEqProofs [src, wordlists_portuguese_init, hf, hs, h]
  · simp only [portuguese] at h
    simp -implicitDefEqProofs [src, wordlists_portuguese_init, hf, hs, h]
  · simp only [spanish] at h
    simp -implicitDefEqProofs [src, wordlists_spanish_init, hf, hs, h]
  · simp only [spanish] at h
    simp -implicitDefEqProofs [src, wordlists_spanish_init, hf, hs, h]

theorem lists_list (n : Nat) (t : Bytes) : ∀ p ∈ wordFns, run W L (n + 1) p.2.1 [.str t] = .ok [.list ((splitByte 10 (trimSpace t)).map .str)] := by
  simp only [wordFns, List.forall_mem_cons, List.not_mem_nil, false_imp_iff, implies_true, and_true]
  refine ⟨?_, ?_, ?_, ?_, ?_, ?_, ?_, ?_, ?_, ?_⟩ <;> rw [run_succ] <;>
    simp -implicitDefEqProofs [src, wordlists_chinese_simplified_ChineseSimplified, wordlists_chinese_traditional_ChineseTraditional,
      wordlists_czech_Czech, wordlists_english_English, wordlists_french_French, wordlists_italian_Italian, wordlists_japanese_Japanese,
      wordlists_korean_Korean, wordlists_portuguese_Portuguese, wordlists_spanish_Spanish]

end Bips.Src
