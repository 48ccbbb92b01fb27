import Verif.Src.Rules
import Verif.Lemmas.Path

/-!
# bip32/path.go, from its text

What the translated functions give, for all arguments: the model.
-/

namespace Bips.Src

open Bips (str)

set_option linter.unusedSimpArgs false

variable (W : World) (L : Nat)

theorem path_pattern : patternOf (str "^[mM](/\\d+')*(/\\d+)*$") = some pathRegex := by
  have : str "^[mM](/\\d+')*(/\\d+)*$" =
    [94, 91, 109, 77, 93, 40, 47, 92, 100, 43, 39, 41, 42, 40, 47, 92, 100, 43, 41, 42, 36] := by decide +kernel
  rw [this]
  have h : str "mM" = [109, 77] := by decide +kernel
  unfold pathRegex
  rw [h]
  rfl

theorem path_String (n : Nat) (p : Bytes) : run W L (n + 1) .bip32_Path_String [.str p] = .ok [.str (pathString p)] := by
  rw [run_succ]
  simp -implicitDefEqProofs [src, bip32_Path_String]
  rfl

theorem path_Formatted (n : Nat) (p : Bytes) : run W L (n + 2) .bip32_Path_Formatted [.str p] = .ok [.str (pathFormatted p)] := by
  rw [run_succ]
  simp -implicitDefEqProofs [src, bip32_Path_Formatted, path_String]
  rfl

theorem values_body (call : Fn → List Val → Res (List Val)) (s : Bytes) (acc : List UInt32)
    (v0 v1 v3 v4 v6 v7 v8 v9 v10 v11 : Val) :
    (∃ x, valuesLoop [s] acc = (acc, some x) ∧ (∀ l, valuesLoop (s :: l) acc = (acc, some x)) ∧
      exec W L call bip32_Path_ValuesAtDepth_body1 [v0, v1, .list (acc.map .u32), v3, v4, .str s, v6, v7, v8, v9, v10, v11] =
        .ok (.ret [.list (acc.map .u32), .err (some x)])) ∨
    ∃ c w6 w7 w8 w9 w10 w11, (∀ l, valuesLoop (s :: l) acc = valuesLoop l (acc ++ [c])) ∧
      exec W L call bip32_Path_ValuesAtDepth_body1 [v0, v1, .list (acc.map .u32), v3, v4, .str s, v6, v7, v8, v9, v10, v11] =
        .ok (.next [v0, v1, .list ((acc ++ [c]).map .u32), v3, v4, .str s, w6, w7, w8, w9, w10, w11]) := by
  unfold bip32_Path_ValuesAtDepth_body1
  by_cases hm : (39 : UInt8) ∈ s
  · rcases ha : atoi (removeByte 39 s) with ⟨val, _ | x⟩
    · by_cases hv : firstHardenedChild ≤ intToUint32 val
      · have hv' : 2147483648 ≤ intToUint32 val := hv
        refine .inl ⟨.unSupportedOrInvalidPath, ?_⟩
        simp -implicitDefEqProofs [src, valuesLoop, hm, ha, hv, hv', conv_u32_int]
      · have hv' : ¬ 2147483648 ≤ intToUint32 val := hv
        refine .inr ⟨intToUint32 val + firstHardenedChild, ?_⟩
        simp -implicitDefEqProofs [src, valuesLoop, hm, ha, hv, hv', conv_u32_int]
        rfl
    · refine .inl ⟨x, ?_⟩
      simp -implicitDefEqProofs [src, valuesLoop, hm, ha]
  · rcases ha : atoi s with ⟨val, _ | x⟩
    · refine .inr ⟨intToUint32 val, ?_⟩
      simp -implicitDefEqProofs [src, valuesLoop, hm, ha, conv_u32_int]
    · refine .inl ⟨x, ?_⟩
      simp -implicitDefEqProofs [src, valuesLoop, hm, ha]

theorem values_iter (call : Fn → List Val → Res (List Val)) (l : List Bytes) (acc : List UInt32) (i : Int)
    (v0 v1 v3 v4 v5 v6 v7 v8 v9 v10 v11 : Val) :
    let r := iter (exec W L call bip32_Path_ValuesAtDepth_body1) none (some 5) i (l.map .str)
      [v0, v1, .list (acc.map .u32), v3, v4, v5, v6, v7, v8, v9, v10, v11]
    match valuesLoop l acc with
    | (vals, none) => ∃ e, r = .ok (.next e) ∧ e[2]? = some (.list (vals.map .u32))
    | (vals, some x) => r = .ok (.ret [.list (vals.map .u32), .err (some x)]) := by
  induction l generalizing acc i v5 v6 v7 v8 v9 v10 v11 with
  | nil => simp [iter, valuesLoop]
  | cons s l ih =>
    rcases values_body W L call s acc v0 v1 v3 v4 v6 v7 v8 v9 v10 v11 with
      ⟨x, -, h1, h2⟩ | ⟨c, w6, w7, w8, w9, w10, w11, h1, h2⟩
    · rw [h1]
      simp [iter, src, h2]
    · rw [h1]
      have h3 := ih (acc ++ [c]) (i + 1) (.str s) w6 w7 w8 w9 w10 w11
      simpa only [iter, src, h2] using h3

theorem path_ValuesAtDepth (n : Nat) (p : Bytes) :
    run W L (n + 2) .bip32_Path_ValuesAtDepth [.str p] = .ok (both (fun vs => .list (vs.map .u32)) (valuesAtDepth p)) := by
  rw [run_succ]
  unfold valuesAtDepth
  by_cases hr : pathRegex.rmatch (pathString p) = true
  · have h0 : 1 ≤ (splitByte 47 (pathString p)).length := List.length_pos_iff.mpr (splitByte_ne_nil _ _)
    have hs : sliceFromSem (.list ((splitByte 47 (pathString p)).map .str)) 1 =
        .ok (.list (((splitByte 47 (pathString p)).drop 1).map .str)) := by
      have := sliceFrom_list (l := (splitByte 47 (pathString p)).map .str) (lo := 1) (by simpa using h0)
      rw [List.map_drop]
      exact this
    have h := values_iter W L (run W L (n + 1)) ((splitByte 47 (pathString p)).drop 1) [0] 0 (.str p) (.str (pathString p))
      (.str (pathString p)) (.list ((splitByte 47 (pathString p)).map .str)) .nil .nil .nil .nil .nil .nil .nil
    revert h
    rcases valuesLoop ((splitByte 47 (pathString p)).drop 1) [0] with ⟨vals, _ | x⟩
    · rintro ⟨e, h1, h2⟩
      rw [List.map_cons, List.map_nil] at h1
      simp -implicitDefEqProofs only [src, bip32_Path_ValuesAtDepth, path_String, path_pattern, hr, both, hs, h1, h2, not_true]
    · intro h
      simp only [List.map_cons, List.map_nil] at h
      simp -implicitDefEqProofs only [src, bip32_Path_ValuesAtDepth, path_String, path_pattern, hr, both, hs, h, not_true]
  · simp -implicitDefEqProofs [src, bip32_Path_ValuesAtDepth, path_String, path_pattern, hr, both]

theorem path_IsValid (n : Nat) (p : Bytes) : run W L (n + 3) .bip32_Path_IsValid [.str p] = .ok [.bool (pathIsValid p)] := by
  rw [run_succ]
  simp -implicitDefEqProofs [src, bip32_Path_IsValid, path_ValuesAtDepth, both, pathIsValid]
  cases (valuesAtDepth p).2 <;> simp

theorem path_ValueAtDepth (n : Nat) (p : Bytes) (b : UInt8) :
    run W L (n + 3) .bip32_Path_ValueAtDepth [.str p, .u8 b] = outcome (both .u32) (valueAtDepth p b) := by
  rw [run_succ]
  unfold valueAtDepth
  rcases hv : valuesAtDepth p with ⟨vals, _ | x⟩
  · by_cases hb : b < UInt8.ofNat vals.length
    · simp -implicitDefEqProofs only [src, bip32_Path_ValueAtDepth, path_ValuesAtDepth, both, hv, conv_u8_nat, hb, List.length_map, index_map, not_true]
      cases vals[b.toNat]? <;> rfl
    · simp -implicitDefEqProofs [src, bip32_Path_ValueAtDepth, path_ValuesAtDepth, both, outcome, hv, conv_u8_nat, hb]
  · simp -implicitDefEqProofs [src, bip32_Path_ValueAtDepth, path_ValuesAtDepth, both, outcome, hv]

theorem path_ReplaceValueAtDepth (n : Nat) (p : Bytes) (b : UInt8) (val : UInt32) :
    run W L (n + 3) .bip32_Path_ReplaceValueAtDepth [.str p, .u8 b, .u32 val] = outcome (both .str) (replaceValueAtDepth p b val) := by
  rw [run_succ]
  unfold replaceValueAtDepth
  rcases hv : valuesAtDepth p with ⟨vals, _ | x⟩
  · by_cases hb : b < UInt8.ofNat vals.length
    · have h0 : (2147483648 : UInt32) = firstHardenedChild := rfl
      have hz : ¬ firstHardenedChild = 0 := by decide
      by_cases h : firstHardenedChild ≤ val
      · have ht : sprintf (str "%d'") [.u32 (val % firstHardenedChild)] = some (decimal (val % firstHardenedChild).toNat ++ [39]) := by
          have : str "%d'" = [37, 100, 39] := by decide +kernel
          rw [this]
          rfl
        by_cases hi : b.toNat < (splitByte 47 (pathString p)).length
        · simp -implicitDefEqProofs only [src, bip32_Path_ReplaceValueAtDepth, path_ValuesAtDepth, path_String, both, outcome, hv, conv_u8_nat, hb, h0, hz, h, ht, hi,
            List.length_map, setIndex_map, not_true]
        · simp -implicitDefEqProofs only [src, bip32_Path_ReplaceValueAtDepth, path_ValuesAtDepth, path_String, both, outcome, hv, conv_u8_nat, hb, h0, hz, h, ht, hi,
            List.length_map, setIndex_map, not_true]
      · have ht : sprintf (str "%d") [.u32 val] = some (decimal val.toNat) := by
          have : str "%d" = [37, 100] := by decide +kernel
          rw [this]
          simp [sprintf]
        by_cases hi : b.toNat < (splitByte 47 (pathString p)).length
        · simp -implicitDefEqProofs only [src, bip32_Path_ReplaceValueAtDepth, path_ValuesAtDepth, path_String, both, outcome, hv, conv_u8_nat, hb, h0, hz, h, ht, hi,
            List.length_map, setIndex_map, not_true]
        · simp -implicitDefEqProofs only [src, bip32_Path_ReplaceValueAtDepth, path_ValuesAtDepth, path_String, both, outcome, hv, conv_u8_nat, hb, h0, hz, h, ht, hi,
            List.length_map, setIndex_map, not_true]
    · simp -implicitDefEqProofs [src, bip32_Path_ReplaceValueAtDepth, path_ValuesAtDepth, both, outcome, hv, conv_u8_nat, hb]
  · simp -implicitDefEqProofs [src, bip32_Path_ReplaceValueAtDepth, path_ValuesAtDepth, both, outcome, hv]

end Bips.Src
