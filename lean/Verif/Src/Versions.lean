import Verif.Src.Path

/-!
# bip32/reg_ver_bytes.go: the methods of `VersionBytes`, from the text
-/

namespace Bips.Src

open Bips (str)

set_option linter.unusedSimpArgs false

variable (W : World) (L : Nat)

theorem version_pattern : patternOf (str "^m/\\d{0,8}'/\\d{0,8}'$") = some VersionBytes.regex := by
  have : str "^m/\\d{0,8}'/\\d{0,8}'$" =
    [94, 109, 47, 92, 100, 123, 48, 44, 56, 125, 39, 47, 92, 100, 123, 48, 44, 56, 125, 39, 36] := by decide +kernel
  rw [this]
  have h1 : ∀ c : UInt8, c ∈ ([109, 47, 39] : Bytes) → c ∉ str ".*+?()|[]{}^$\\" := by decide +kernel
  have h2 : isDigit 56 = true := by decide +kernel
  simp [patternOf, parseRe, ReFrame.add, ReFrame.whole, h1, h2]
  rfl

theorem version_PvtKeyFlagBytes (n : Nat) (h : VersionBytes) :
    run W L (n + 1) .bip32_VersionBytes_PvtKeyFlagBytes [.vb h] = .ok [.bytes h.pvtKeyFlagBytes] := by
  rw [run_succ]
  simp -implicitDefEqProofs [src, bip32_VersionBytes_PvtKeyFlagBytes, VersionBytes.pvtKeyFlagBytes]

theorem version_PubKeyFlagBytes (n : Nat) (h : VersionBytes) :
    run W L (n + 1) .bip32_VersionBytes_PubKeyFlagBytes [.vb h] = .ok [.bytes h.pubKeyFlagBytes] := by
  rw [run_succ]
  simp -implicitDefEqProofs [src, bip32_VersionBytes_PubKeyFlagBytes, VersionBytes.pubKeyFlagBytes]

theorem version_IsValid (n : Nat) (h : VersionBytes) :
    run W L (n + 2) .bip32_VersionBytes_IsValid [.vb h] = .ok [.bool h.isValid] := by
  rw [run_succ]
  simp -implicitDefEqProofs [src, bip32_VersionBytes_IsValid, path_String, version_pattern, VersionBytes.isValid]

theorem version_IsRegistered (n : Nat) (h : VersionBytes) :
    run W L (n + 2) .bip32_VersionBytes_IsRegistered [.vb h] = .ok [.bool h.isRegistered] := by
  rw [run_succ]
  unfold VersionBytes.isRegistered
  have hk : ∀ (t : List (Bytes × List VersionBytes)) (p : Bytes), (t.map (·.1)).contains p = (t.find? fun e => e.1 == p).isSome := by
    intro t p
    induction t with
    | nil => rfl
    | cons e t ih =>
      by_cases he : e.1 = p
      · simp [he]
      · have he' : ¬ p = e.1 := fun h => he h.symm
        have h1 : (e.1 == p) = false := by simpa using he
        have h2 : (p == e.1) = false := by simpa using he'
        rw [List.map_cons, List.contains_cons, ih, List.find?_cons, h1, h2]
        rfl
  rw [hk]
  cases hf : pathTable.find? (fun e => e.1 == pathString h.path) with
  | none => simp -implicitDefEqProofs [src, bip32_VersionBytes_IsRegistered, path_String, hf]
  | some e => simp -implicitDefEqProofs [src, bip32_VersionBytes_IsRegistered, path_String, hf]

/-- The common part of `PurposeVal` and `CoinVal`. -/
theorem index_strs (l : List Bytes) (i : Nat) : indexSem (.list (l.map .str)) i = match l[i]? with
    | some v => .ok (.str v)
    | none => .panic := by rw [index_map]; cases l[i]? <;> rfl

theorem version_PurposeVal (n : Nat) (h : VersionBytes) :
    run W L (n + 3) .bip32_VersionBytes_PurposeVal [.vb h] = outcome (both .u32) h.purposeVal := by
  rw [run_succ]
  unfold VersionBytes.purposeVal VersionBytes.compVal
  have hx := index_strs (splitByte 47 (pathString h.path)) 1
  simp only [Nat.cast_one] at hx
  have hfh : firstHardenedChild = 2147483648 := rfl
  by_cases hv : h.isValid = true
  · rcases hs : (splitByte 47 (pathString h.path))[1]? with _ | s
    · rw [hs] at hx
      simp -implicitDefEqProofs [src, bip32_VersionBytes_PurposeVal, version_IsValid, path_String, hv, hs, hx, str_slash, outcome]
    · rw [hs] at hx
      rcases ha : atoi (removeByte 39 s) with ⟨v, _ | e⟩
      · by_cases hr : intToUint32 v ≥ firstHardenedChild
        · have hr' : (2147483648 : UInt32) ≤ intToUint32 v := by rw [← hfh]; exact hr
          simp -implicitDefEqProofs [src, bip32_VersionBytes_PurposeVal, version_IsValid, path_String, hv, hs, hx, str_slash, str_mark, str_empty, ha, conv_u32_int, hr, hr', outcome, both]
        · have hr' : ¬ (2147483648 : UInt32) ≤ intToUint32 v := by rw [← hfh]; exact hr
          simp -implicitDefEqProofs [src, bip32_VersionBytes_PurposeVal, version_IsValid, path_String, hv, hs, hx, str_slash, str_mark, str_empty, ha, conv_u32_int, hr, hr', outcome, both, -not_le, -UInt32.not_le]
      · simp -implicitDefEqProofs [src, bip32_VersionBytes_PurposeVal, version_IsValid, path_String, hv, hs, hx, str_slash, str_mark, str_empty, ha, outcome, both]
  · rw [Bool.not_eq_true] at hv
    simp -implicitDefEqProofs [src, bip32_VersionBytes_PurposeVal, version_IsValid, hv, outcome, both]

theorem version_CoinVal (n : Nat) (h : VersionBytes) :
    run W L (n + 3) .bip32_VersionBytes_CoinVal [.vb h] = outcome (both .u32) h.coinVal := by
  rw [run_succ]
  unfold VersionBytes.coinVal VersionBytes.compVal
  have hx := index_strs (splitByte 47 (pathString h.path)) 2
  simp only [Nat.cast_ofNat] at hx
  have hfh : firstHardenedChild = 2147483648 := rfl
  by_cases hv : h.isValid = true
  · rcases hs : (splitByte 47 (pathString h.path))[2]? with _ | s
    · rw [hs] at hx
      simp -implicitDefEqProofs [src, bip32_VersionBytes_CoinVal, version_IsValid, path_String, hv, hs, hx, str_slash, outcome]
    · rw [hs] at hx
      rcases ha : atoi (removeByte 39 s) with ⟨v, _ | e⟩
      · by_cases hr : intToUint32 v ≥ firstHardenedChild
        · have hr' : (2147483648 : UInt32) ≤ intToUint32 v := by rw [← hfh]; exact hr
          simp -implicitDefEqProofs [src, bip32_VersionBytes_CoinVal, version_IsValid, path_String, hv, hs, hx, str_slash, str_mark, str_empty, ha, conv_u32_int, hr, hr', outcome, both]
        · have hr' : ¬ (2147483648 : UInt32) ≤ intToUint32 v := by rw [← hfh]; exact hr
          simp -implicitDefEqProofs [src, bip32_VersionBytes_CoinVal, version_IsValid, path_String, hv, hs, hx, str_slash, str_mark, str_empty, ha, conv_u32_int, hr, hr', outcome, both, -not_le, -UInt32.not_le]
      · simp -implicitDefEqProofs [src, bip32_VersionBytes_CoinVal, version_IsValid, path_String, hv, hs, hx, str_slash, str_mark, str_empty, ha, outcome, both]
  · rw [Bool.not_eq_true] at hv
    simp -implicitDefEqProofs [src, bip32_VersionBytes_CoinVal, version_IsValid, hv, outcome, both]

theorem version_PurposeValFull (n : Nat) (h : VersionBytes) :
    run W L (n + 4) .bip32_VersionBytes_PurposeValFull [.vb h] = outcome (both .u32) h.purposeValFull := by
  rw [run_succ]
  unfold VersionBytes.purposeValFull VersionBytes.fullOf
  by_cases hv : h.isValid = true
  · rcases hp : h.purposeVal with ⟨v, _ | e⟩ | _ <;>
      simp -implicitDefEqProofs [src, bip32_VersionBytes_PurposeValFull, version_IsValid, version_PurposeVal, hv, hp, outcome, both, firstHardenedChild]
  · rw [Bool.not_eq_true] at hv
    simp -implicitDefEqProofs [src, bip32_VersionBytes_PurposeValFull, version_IsValid, hv, outcome, both]

theorem version_CoinValFull (n : Nat) (h : VersionBytes) :
    run W L (n + 4) .bip32_VersionBytes_CoinValFull [.vb h] = outcome (both .u32) h.coinValFull := by
  rw [run_succ]
  unfold VersionBytes.coinValFull VersionBytes.fullOf
  by_cases hv : h.isValid = true
  · rcases hp : h.coinVal with ⟨v, _ | e⟩ | _ <;>
      simp -implicitDefEqProofs [src, bip32_VersionBytes_CoinValFull, version_IsValid, version_CoinVal, hv, hp, outcome, both, firstHardenedChild]
  · rw [Bool.not_eq_true] at hv
    simp -implicitDefEqProofs [src, bip32_VersionBytes_CoinValFull, version_IsValid, hv, outcome, both]

end Bips.Src
