import Verif.Src.Child
import Verif.Src.Path
import Verif.Src.Words
import Verif.Model.Util
import Verif.Lemmas.NumsFns

/-!
# util/util.go and util/key_path.go, from the text

A `KeyPath` is the list of its two fields, a `KeyPathRange` of its four, a `Generator` of its one.
-/

namespace Bips.Src

open Bips (str)

set_option linter.unusedSimpArgs false

variable (W : World) (L : Nat)

@[src] theorem lib_deref_bytes (b : Bytes) : libSem W .deref [.bytes b] = .ok (.bytes b) := rfl

theorem newEntropy_short {read : Nat → Bytes} (hr : ∀ n, (read n).length = n) {i : Int} {b : Bytes} {e : Option Err}
    (h : newEntropy read i = (b, e)) : b.length < 2 ^ 59 := by
  unfold newEntropy at h
  rcases hv : validateEntropyBitSize i with _ | x
  · simp only [hv, Prod.mk.injEq] at h
    rw [← h.1, hr]
    unfold validateEntropyBitSize at hv
    split at hv
    · simp at hv
    · rw [Int.tdiv_eq_ediv_of_nonneg (by omega)]
      omega
  · simp only [hv, Prod.mk.injEq] at h
    rw [← h.1]
    simp

theorem util_GenerateMnemonic_eq (hL : 32 < L) (hr : ∀ n, (W.read n).length = n) (n : Nat) (c : UInt8) :
    run W L (n + 4) .util_GenerateMnemonic [.u8 c] = outcome (both .str) (generateMnemonic W.H W.S W.read c) := by
  rw [run_succ]
  unfold generateMnemonic
  by_cases h12 : c = 12
  · subst h12
    rcases he : newEntropy W.read 128 with ⟨b, _ | e⟩
    · have hm := words_NewMnemonic W L hL n b (newEntropy_short hr he)
      rcases hn : newMnemonic W.H W.S b with ⟨m, _ | e⟩ | _ <;>
        simp -implicitDefEqProofs [src, util_GenerateMnemonic, words_NewEntropy, he, hm, hn, outcome, both]
    · simp -implicitDefEqProofs [src, util_GenerateMnemonic, words_NewEntropy, he, outcome, both]
  by_cases h15 : c = 15
  · subst h15
    rcases he : newEntropy W.read 160 with ⟨b, _ | e⟩
    · have hm := words_NewMnemonic W L hL n b (newEntropy_short hr he)
      rcases hn : newMnemonic W.H W.S b with ⟨m, _ | e⟩ | _ <;>
        simp -implicitDefEqProofs [src, util_GenerateMnemonic, words_NewEntropy, he, hm, hn, outcome, both]
    · simp -implicitDefEqProofs [src, util_GenerateMnemonic, words_NewEntropy, he, outcome, both]
  by_cases h18 : c = 18
  · subst h18
    rcases he : newEntropy W.read 192 with ⟨b, _ | e⟩
    · have hm := words_NewMnemonic W L hL n b (newEntropy_short hr he)
      rcases hn : newMnemonic W.H W.S b with ⟨m, _ | e⟩ | _ <;>
        simp -implicitDefEqProofs [src, util_GenerateMnemonic, words_NewEntropy, he, hm, hn, outcome, both]
    · simp -implicitDefEqProofs [src, util_GenerateMnemonic, words_NewEntropy, he, outcome, both]
  by_cases h21 : c = 21
  · subst h21
    rcases he : newEntropy W.read 224 with ⟨b, _ | e⟩
    · have hm := words_NewMnemonic W L hL n b (newEntropy_short hr he)
      rcases hn : newMnemonic W.H W.S b with ⟨m, _ | e⟩ | _ <;>
        simp -implicitDefEqProofs [src, util_GenerateMnemonic, words_NewEntropy, he, hm, hn, outcome, both]
    · simp -implicitDefEqProofs [src, util_GenerateMnemonic, words_NewEntropy, he, outcome, both]
  by_cases h24 : c = 24
  · subst h24
    rcases he : newEntropy W.read 256 with ⟨b, _ | e⟩
    · have hm := words_NewMnemonic W L hL n b (newEntropy_short hr he)
      rcases hn : newMnemonic W.H W.S b with ⟨m, _ | e⟩ | _ <;>
        simp -implicitDefEqProofs [src, util_GenerateMnemonic, words_NewEntropy, he, hm, hn, outcome, both]
    · simp -implicitDefEqProofs [src, util_GenerateMnemonic, words_NewEntropy, he, outcome, both]
  simp -implicitDefEqProofs [src, util_GenerateMnemonic, h12, h15, h18, h21, h24, outcome, both]

theorem util_DeriveSeedFromMnemonic_eq (n : Nat) (m p : Bytes) :
    run W L (n + 3) .util_DeriveSeedFromMnemonic [.str m, .str p] = outcome (both .str) (deriveSeedFromMnemonic W.H W.S m p) := by
  rw [run_succ]
  unfold deriveSeedFromMnemonic
  rcases he : entropyFromMnemonic W.H W.S m with ⟨r, _ | e⟩ | _ <;>
    simp -implicitDefEqProofs [src, util_DeriveSeedFromMnemonic, words_EntropyFromMnemonic, words_NewSeed, he, outcome, both]

/-- `Serialize` on a nil pointer. -/
theorem key_Serialize_nil (n : Nat) : run W L (n + 1) .bip32_Key_Serialize [.nil] = .panic := by
  rw [run_succ]
  simp -implicitDefEqProofs [src, bip32_Key_Serialize, Val.items]

theorem util_RootKeyFromSeed_eq (n : Nat) (seed : Bytes) :
    run W L (n + 4) .util_RootKeyFromSeed [.str seed] = outcome (both (fun k => .bytes k.bytes)) (rootKeyFromSeed W.H seed) := by
  rw [run_succ]
  unfold rootKeyFromSeed
  have hz : List.replicate 78 (0 : UInt8) = Key.zero.bytes := rfl
  rcases hd : hexDecode seed with _ | b
  · simp -implicitDefEqProofs [src, util_RootKeyFromSeed, hd, hz, outcome, both, -List.reduceReplicate]
  · by_cases hl : b.length < 16
    · have hl' : (b.length : Int) < 16 := by omega
      simp -implicitDefEqProofs [src, util_RootKeyFromSeed, hd, hl, hl', hz, outcome, both, -List.reduceReplicate]
    · have hl' : ¬ (b.length : Int) < 16 := by omega
      rcases hm : newMasterKey W.H b with ⟨_ | k, e⟩
      · simp -implicitDefEqProofs [src, util_RootKeyFromSeed, hd, hl, hl', hz, key_NewMasterKey, hm, key_Serialize_nil, outcome, both, -List.reduceReplicate]
      · rcases hs : k.serialize W.H with ⟨s, _ | e⟩
        · rcases hds : deserialize W.H s with ⟨k', _ | e⟩ <;>
          simp -implicitDefEqProofs [src, util_RootKeyFromSeed, hd, hl, hl', hz, key_NewMasterKey, hm, key_Serialize, hs, key_Deserialize, hds, outcome, both, -List.reduceReplicate]
        · simp -implicitDefEqProofs [src, util_RootKeyFromSeed, hd, hl, hl', hz, key_NewMasterKey, hm, key_Serialize, hs, outcome, both, -List.reduceReplicate]

theorem util_SetRootKey (n : Nat) (old k : Key) :
    run W L (n + 1) .util_Generator_SetRootKey [.list [.bytes old.bytes], .bytes k.bytes] = .ok [.list [.bytes k.bytes]] := by
  rw [run_succ]
  simp -implicitDefEqProofs [src, util_Generator_SetRootKey]

theorem util_RootKey (n : Nat) (k : Key) :
    run W L (n + 1) .util_Generator_RootKey [.list [.bytes k.bytes]] = .ok [.bytes k.bytes] := by
  rw [run_succ]
  simp -implicitDefEqProofs [src, util_Generator_RootKey]

/-- A `KeyPath` as a value. -/
def keyPathVal (k : KeyPath) : Val := .list [.str k.path, .bytes k.key.bytes]

theorem util_sprintf_path (p : Bytes) (i : UInt32) : sprintf (str "%s/%d") [.str p, .u32 i] = some (p ++ [47] ++ decimal i.toNat) := by
  have : str "%s/%d" = [37, 115, 47, 37, 100] := by decide +kernel
  rw [this]
  simp [sprintf]

theorem derive_body (hL : 32 < L) (n : Nat) (v0 v1 v2 v3 v4 v5 v6 v7 v8 v10 v14 v15 v16 : Val) (d : Bytes) (acc : List KeyPath) (k : Key) (i : UInt32) :
    ∃ w14 w15 w16, exec W L (run W L (n + 4)) util_Generator_DeriveBIP32Result_body1
      [v0, v1, v2, v3, v4, v5, v6, v7, v8, .str d, v10, .list (acc.map keyPathVal), .bytes k.bytes, .u32 i, v14, v15, v16] =
    .ok (.next [v0, v1, v2, v3, v4, v5, v6, v7, v8, .str (appendComponent d i), v10,
      .list ((acc ++ [(⟨pathFormatted (appendComponent d i), (k.newChildKey W.H W.R i).1⟩ : KeyPath)]).map keyPathVal),
      .bytes (k.newChildKey W.H W.R i).1.bytes, .u32 i, w14, w15, w16]) := by
  have h0 : (2147483648 : UInt32) = firstHardenedChild := rfl
  have hz : ¬ firstHardenedChild = 0 := by decide
  unfold appendComponent
  by_cases h : firstHardenedChild ≤ i
  · refine ⟨.bytes (k.newChildKey W.H W.R i).1.bytes, .err (k.newChildKey W.H W.R i).2, .str (pathFormatted (d ++ [47] ++ decimal (i % firstHardenedChild).toNat ++ [39])), ?_⟩
    simp -implicitDefEqProofs [src, util_Generator_DeriveBIP32Result_body1, h0, hz, h, util_sprintf_path, key_NewChildKey, hL, both, path_Formatted, keyPathVal]
  · refine ⟨.bytes (k.newChildKey W.H W.R i).1.bytes, .err (k.newChildKey W.H W.R i).2, .str (pathFormatted (d ++ [47] ++ decimal (i % firstHardenedChild).toNat)), ?_⟩
    simp -implicitDefEqProofs [src, util_Generator_DeriveBIP32Result_body1, h0, hz, h, util_sprintf_path, key_NewChildKey, hL, both, path_Formatted, keyPathVal, -UInt32.not_le]

theorem derive_iter (hL : 32 < L) (n : Nat) (v0 v1 v2 v3 v4 v5 v6 v7 v8 v10 : Val) (is : List UInt32) :
    ∀ (j : Int) (d : Bytes) (acc : List KeyPath) (k : Key) (v13 v14 v15 v16 : Val),
    ∃ w9 w12 w13 w14 w15 w16, iter (exec W L (run W L (n + 4)) util_Generator_DeriveBIP32Result_body1) none (some 13) j (is.map .u32)
      [v0, v1, v2, v3, v4, v5, v6, v7, v8, .str d, v10, .list (acc.map keyPathVal), .bytes k.bytes, v13, v14, v15, v16] =
    .ok (.next [v0, v1, v2, v3, v4, v5, v6, v7, v8, w9, v10, .list ((acc ++ deriveLoop W.H W.R is d k).map keyPathVal), w12, w13, w14, w15, w16]) := by
  induction is with
  | nil =>
    intro j d acc k v13 v14 v15 v16
    refine ⟨.str d, .bytes k.bytes, v13, v14, v15, v16, ?_⟩
    simp [iter, deriveLoop]
  | cons i is ih =>
    intro j d acc k v13 v14 v15 v16
    obtain ⟨w14, w15, w16, hb⟩ := derive_body W L hL n v0 v1 v2 v3 v4 v5 v6 v7 v8 v10 v14 v15 v16 d acc k i
    obtain ⟨u9, u12, u13, u14, u15, u16, h⟩ := ih (j + 1) (appendComponent d i) (acc ++ [(⟨pathFormatted (appendComponent d i), (k.newChildKey W.H W.R i).1⟩ : KeyPath)])
      (k.newChildKey W.H W.R i).1 (.u32 i) w14 w15 w16
    refine ⟨u9, u12, u13, u14, u15, u16, ?_⟩
    simp only [deriveLoop, List.map_cons, iter, src, hb]
    simpa using h

theorem util_DeriveBIP32Result (hL : 32 < L) (n : Nat) (k : Key) (p : Bytes) :
    run W L (n + 5) .util_Generator_DeriveBIP32Result [.list [.bytes k.bytes], .str p] =
      .ok (both (fun l => .list (l.map keyPathVal)) (deriveBIP32Result W.H W.R k p)) := by
  rw [run_succ]
  unfold deriveBIP32Result
  have hx : indexSem (.bytes k.bytes) 4 = .ok (.u8 (k.byteAt depthStart)) := by
    rw [show (4 : Int) = ((4 : Nat) : Int) from rfl, index_bytes (by rw [Key.len]; omega)]
    rfl
  have hset : ∀ x v, setIndexSem (.list [x]) 0 v = .ok (.list [v]) := fun _ _ => rfl
  by_cases hv : k.isValid W.H = true
  · by_cases hp : k.isPrivate = true
    · by_cases hd : k.byteAt depthStart = 0
      · by_cases hi : pathIsValid p = true
        · rcases hva : valuesAtDepth p with ⟨vs, _ | e⟩
          · rcases vs with _ | ⟨v, vs⟩
            · simp -implicitDefEqProofs [src, util_Generator_DeriveBIP32Result, util_RootKey, key_IsValid, key_IsPrivate, hv, hp, hd, hx, hi, path_IsValid,
                path_ValuesAtDepth, hva, both, keyPathVal, hset]
            · have hsl : sliceFromSem (.list (.u32 v :: vs.map .u32)) 1 = .ok (.list (vs.map .u32)) := sliceFrom_list (lo := 1) (by simp)
              obtain ⟨u9, u12, u13, u14, u15, u16, h⟩ := derive_iter W L hL n (.list [.bytes k.bytes]) (.str p) (.bytes k.bytes) (.bool true) (.bool false) (.bool true)
                (.bool true) (.list ((v :: vs).map .u32)) (.err none) (.list [.str (str "m"), .bytes k.bytes]) vs 0 (str "m") [⟨str "m", k⟩] k .nil .nil .nil .nil
              simp -implicitDefEqProofs [src, util_Generator_DeriveBIP32Result, util_RootKey, key_IsValid, key_IsPrivate, hv, hp, hd, hx, hi, path_IsValid,
                path_ValuesAtDepth, hva, both, keyPathVal, hset, hsl] at h ⊢
              simp -implicitDefEqProofs only [src, h]
          · simp -implicitDefEqProofs [src, util_Generator_DeriveBIP32Result, util_RootKey, key_IsValid, key_IsPrivate, hv, hp, hd, hx, hi, path_IsValid,
              path_ValuesAtDepth, hva, both]
        · rw [Bool.not_eq_true] at hi
          simp -implicitDefEqProofs [src, util_Generator_DeriveBIP32Result, util_RootKey, key_IsValid, key_IsPrivate, hv, hp, hd, hx, hi, path_IsValid, both]
      · simp -implicitDefEqProofs [src, util_Generator_DeriveBIP32Result, util_RootKey, key_IsValid, key_IsPrivate, hv, hp, hd, hx, both]
    · rw [Bool.not_eq_true] at hp
      simp -implicitDefEqProofs [src, util_Generator_DeriveBIP32Result, util_RootKey, key_IsValid, key_IsPrivate, hv, hp, hx, both]
  · rw [Bool.not_eq_true] at hv
    simp -implicitDefEqProofs [src, util_Generator_DeriveBIP32Result, util_RootKey, key_IsValid, hv, hx, both]

theorem util_AddrHex (hL : 32 < L) (n : Nat) (k : KeyPath) :
    run W L (n + 5) .util_KeyPath_AddrHex [keyPathVal k] = .ok [.str (k.addrHex W.H W.R)] := by
  rw [run_succ]
  unfold KeyPath.addrHex
  obtain ⟨a, r, h⟩ := Nums.publicKeyHex_decodes (R := W.R) k.key
  have he := expandPublicKey_go (b := a :: r) (by simp)
  have hk := W.H.keccak256_length (bigBytes (expandPublicKey (a :: r)).1 ++ bigBytes (expandPublicKey (a :: r)).2)
  simp -implicitDefEqProofs [src, util_KeyPath_AddrHex, keyPathVal, key_PublicKeyHex, hL, h, utils_ExpandPublicKey, he, outcome, hashSumSem, sliceFrom_bytes_int, hk]

theorem util_AddrP2SH (hL : 32 < L) (n : Nat) (k : KeyPath) (v : UInt8) :
    run W L (n + 5) .util_KeyPath_AddrP2SH [keyPathVal k, .u8 v] = .ok [.str (k.addrP2SH W.H W.R v)] := by
  rw [run_succ]
  unfold KeyPath.addrP2SH
  obtain ⟨a, r, h⟩ := Nums.publicKeyHex_decodes (R := W.R) k.key
  simp -implicitDefEqProofs [src, util_KeyPath_AddrP2SH, keyPathVal, key_PublicKeyHex, hL, h, utils_HashRipeMD160onSha256, utils_ChecksumDblSha256, bytesIn]

/-! ### GenerateRange -/

/-- A `KeyPathRange` as a value. -/
def rangeVal (k : KeyPathRange) : Val :=
  .list [.u32 k.startIndex, .u32 k.endIndex, keyPathVal k.keyPath, .list (k.keyPaths.map keyPathVal)]

theorem range_body (hL : 32 < L) (n : Nat) (v0 v1 v2 v3 v4 v9 v10 v11 : Val) (d : Bytes) (acc : List KeyPath) (k : Key) (i : UInt32) :
    ∃ w9 w10 w11, exec W L (run W L (n + 4)) util_KeyPathRange_GenerateRange_body1
      [v0, v1, v2, v3, v4, .bytes k.bytes, .str d, .list (acc.map keyPathVal), .u32 i, v9, v10, v11] =
    .ok (.next [v0, v1, v2, v3, v4, .bytes (k.newChildKey W.H W.R i).1.bytes, .str (appendComponent d i),
      .list ((acc ++ [(⟨pathFormatted (appendComponent d i), (k.newChildKey W.H W.R i).1⟩ : KeyPath)]).map keyPathVal), .u32 i, w9, w10, w11]) := by
  have h0 : (2147483648 : UInt32) = firstHardenedChild := rfl
  have hz : ¬ firstHardenedChild = 0 := by decide
  unfold appendComponent
  by_cases h : firstHardenedChild ≤ i
  · refine ⟨.bytes (k.newChildKey W.H W.R i).1.bytes, .err (k.newChildKey W.H W.R i).2,
      .str (pathFormatted (d ++ [47] ++ decimal (i % firstHardenedChild).toNat ++ [39])), ?_⟩
    simp -implicitDefEqProofs [src, util_KeyPathRange_GenerateRange_body1, h0, hz, h, util_sprintf_path, key_NewChildKey, hL, both, path_Formatted, keyPathVal]
  · refine ⟨.bytes (k.newChildKey W.H W.R i).1.bytes, .err (k.newChildKey W.H W.R i).2,
      .str (pathFormatted (d ++ [47] ++ decimal (i % firstHardenedChild).toNat)), ?_⟩
    simp -implicitDefEqProofs [src, util_KeyPathRange_GenerateRange_body1, h0, hz, h, util_sprintf_path, key_NewChildKey, hL, both, path_Formatted, keyPathVal,
      -UInt32.not_le]

theorem range_loop (hL : 32 < L) (n : Nat) (v0 v1 v3 v4 : Val) (stop : UInt32) (m : Nat) :
    ∀ (fuel : Nat) (d : Bytes) (acc : List KeyPath) (k : Key) (i : UInt32) (v9 v10 v11 : Val), stop.toNat - i.toNat = m → m < fuel →
    ∃ w5 w6 w8 w9 w10 w11, loop (fun e => (eval W util_KeyPathRange_GenerateRange_cond1 e).bind asBool)
        (exec W L (run W L (n + 4)) util_KeyPathRange_GenerateRange_post1) (exec W L (run W L (n + 4)) util_KeyPathRange_GenerateRange_body1) fuel
        [v0, v1, .u32 stop, v3, v4, .bytes k.bytes, .str d, .list (acc.map keyPathVal), .u32 i, v9, v10, v11] =
      .ok (.next [v0, v1, .u32 stop, v3, v4, w5, w6, .list ((acc ++ rangeLoop W.H W.R i stop d k).map keyPathVal), w8, w9, w10, w11]) := by
  induction m with
  | zero =>
    intro fuel d acc k i v9 v10 v11 hm hf
    obtain ⟨fuel, rfl⟩ : ∃ f, fuel = f + 1 := ⟨fuel - 1, by omega⟩
    have h : ¬ i < stop := by rw [UInt32.lt_iff_toNat_lt]; omega
    refine ⟨.bytes k.bytes, .str d, .u32 i, v9, v10, v11, ?_⟩
    rw [loop_stop (by simp -implicitDefEqProofs [src, util_KeyPathRange_GenerateRange_cond1, h, -UInt32.not_lt]), rangeLoop, dif_neg h, List.append_nil]
  | succ m ih =>
    intro fuel d acc k i v9 v10 v11 hm hf
    obtain ⟨fuel, rfl⟩ : ∃ f, fuel = f + 1 := ⟨fuel - 1, by omega⟩
    have h : i < stop := by rw [UInt32.lt_iff_toNat_lt]; omega
    have h2 := stop.toNat_lt
    have hi1 : (i + 1).toNat = i.toNat + 1 := by
      rw [UInt32.toNat_add, show (1 : UInt32).toNat = 1 from rfl, Nat.mod_eq_of_lt (by omega)]
    obtain ⟨u9, u10, u11, hb⟩ := range_body W L hL n v0 v1 (.u32 stop) v3 v4 v9 v10 v11 d acc k i
    obtain ⟨w5, w6, w8, w9, w10, w11, hr⟩ := ih fuel (appendComponent d i)
      (acc ++ [(⟨pathFormatted (appendComponent d i), (k.newChildKey W.H W.R i).1⟩ : KeyPath)]) (k.newChildKey W.H W.R i).1 (i + 1) u9 u10 u11
      (by omega) (by omega)
    refine ⟨w5, w6, w8, w9, w10, w11, ?_⟩
    rw [loop_step (by simp -implicitDefEqProofs [src, util_KeyPathRange_GenerateRange_cond1, h]) hb
      (by simp -implicitDefEqProofs [src, util_KeyPathRange_GenerateRange_post1]; rfl)]
    rw [rangeLoop, dif_pos h]
    simpa using hr

/-- The loop bound has to allow for the number of iterations: `stop - start` at most. -/
theorem util_GenerateRange (hL : 32 < L) (n : Nat) (k : KeyPathRange) (hr : k.endIndex.toNat - k.startIndex.toNat < L) :
    run W L (n + 5) .util_KeyPathRange_GenerateRange [rangeVal k] =
      .ok [rangeVal (k.generateRange W.H W.R).1, .err (k.generateRange W.H W.R).2] := by
  rw [run_succ]
  unfold KeyPathRange.generateRange
  by_cases h1 : k.endIndex - k.startIndex < 1
  · simp -implicitDefEqProofs [src, util_KeyPathRange_GenerateRange, rangeVal, h1]
  · by_cases hv : k.keyPath.key.isValid W.H = true
    · by_cases hp : pathIsValid k.keyPath.path = true
      · obtain ⟨w5, w6, w8, w9, w10, w11, h⟩ := range_loop W L hL n (rangeVal k) (.u32 k.startIndex) (.bool true) (.bool true) k.endIndex _ L
          (pathString k.keyPath.path) [] k.keyPath.key k.startIndex .nil .nil .nil rfl hr
        simp -implicitDefEqProofs [src, util_KeyPathRange_GenerateRange, rangeVal, keyPathVal, h1, key_IsValid, hv, path_IsValid, hp, path_String, -UInt32.not_lt] at h ⊢
        simp -implicitDefEqProofs [src, h]
      · rw [Bool.not_eq_true] at hp
        simp -implicitDefEqProofs [src, util_KeyPathRange_GenerateRange, rangeVal, keyPathVal, h1, key_IsValid, hv, path_IsValid, hp, -UInt32.not_lt]
    · rw [Bool.not_eq_true] at hv
      simp -implicitDefEqProofs [src, util_KeyPathRange_GenerateRange, rangeVal, keyPathVal, h1, key_IsValid, hv, -UInt32.not_lt]

end Bips.Src
