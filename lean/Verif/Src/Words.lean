import Verif.Src.Rules
import Verif.Model.Unused
import Verif.Lemmas.Bip39

/-!
# bip39/bip39.go, from the text

Lengths are below 2^59, as they are on any machine: the code multiplies them by 8 and 11 in `int`.
-/

namespace Bips.Src

open Bips (str)

set_option linter.unusedSimpArgs false
set_option exponentiation.threshold 300

variable (W : World) (L : Nat)

theorem words_GetWordList (n : Nat) : run W L (n + 1) .bip39_GetWordList [] = .ok [.list ((getWordList W.S).map .str)] := by
  rw [run_succ]
  simp -implicitDefEqProofs [src, bip39_GetWordList, globSem, getWordList]

theorem words_GetWordIndex (n : Nat) (w : Bytes) :
    run W L (n + 1) .bip39_GetWordIndex [.str w] = .ok [.int (getWordIndex W.S w).1, .bool (getWordIndex W.S w).2] := by
  rw [run_succ]
  unfold getWordIndex
  cases h : W.S.map w <;> simp -implicitDefEqProofs [src, bip39_GetWordIndex, h]

theorem words_validateEntropyBitSize (n : Nat) (i : Int) :
    run W L (n + 1) .bip39_validateEntropyBitSize [.int i] = .ok [.err (validateEntropyBitSize i)] := by
  rw [run_succ]
  unfold validateEntropyBitSize
  by_cases h1 : i.tmod 32 = 0 <;> by_cases h2 : i < 128 <;> by_cases h3 : 256 < i <;>
    simp -implicitDefEqProofs [src, bip39_validateEntropyBitSize, h1, h2, h3, -not_lt, -Int.not_lt, gt_iff_lt]

theorem words_computeChecksum (n : Nat) (b : Bytes) :
    run W L (n + 1) .bip39_computeChecksum [.bytes b] = .ok [.bytes (computeChecksum W.H b)] := by
  rw [run_succ]
  simp -implicitDefEqProofs [src, bip39_computeChecksum, computeChecksum, sliceFrom_bytes_int]

theorem words_padByteSlice (n : Nat) (s : Bytes) (l : Nat) (hs : s.length < 2 ^ 63) (hl : l < 2 ^ 63) :
    run W L (n + 1) .bip39_padByteSlice [.bytes s, .int l] = .ok [.bytes (padByteSlice s l)] := by
  rw [run_succ]
  unfold padByteSlice
  have hw : wrapInt ((l : Int) - (s.length : Int)) = (l : Int) - s.length := by rw [wrapInt_of] <;> omega
  by_cases h : l ≤ s.length
  · have h' : (l : Int) - s.length ≤ 0 := by omega
    simp -implicitDefEqProofs only [src, bip39_padByteSlice, hw, h, h']
  · have h' : ¬ (l : Int) - s.length ≤ 0 := by omega
    have h2 : ¬ (l : Int) < 0 := by omega
    have hc := copyInto_bytes_int (b := List.replicate l 0) (src := s) (lo := (l : Int) - s.length) (hi := l) (by omega) (by omega) (by simp)
    have ht : ((l : Int) - s.length).toNat = l - s.length := by omega
    rw [ht] at hc
    simp -implicitDefEqProofs only [src, bip39_padByteSlice, hw, h, h', h2, Int.toNat_natCast, List.length_replicate, hc]
    simp only [copyAt]
    have : l - (l - s.length) = s.length := by omega
    have h3 : min (l - s.length) l = l - s.length := by omega
    have h4 : l ≤ l - s.length + s.length := by omega
    simp [this, h3, List.drop_replicate]
    omega

theorem words_NewEntropy (n : Nat) (i : Int) :
    run W L (n + 2) .bip39_NewEntropy [.int i] = .ok (both .bytes (newEntropy W.read i)) := by
  rw [run_succ]
  unfold newEntropy
  rcases h : validateEntropyBitSize i with _ | e
  · have hb : 128 ≤ i ∧ i ≤ 256 := by
      unfold validateEntropyBitSize at h
      split at h
      · simp at h
      · rename_i hc
        omega
    have hd : 0 ≤ i.tdiv 8 ∧ i.tdiv 8 ≤ 32 := by
      rw [Int.tdiv_eq_ediv_of_nonneg (by omega)]
      omega
    have hw : wrapInt (i.tdiv 8) = i.tdiv 8 := by rw [wrapInt_of] <;> omega
    have hn : ¬ i.tdiv 8 < 0 := by omega
    simp -implicitDefEqProofs only [src, bip39_NewEntropy, words_validateEntropyBitSize, h, hw, hn, Int.reduceEq, List.length_replicate, both]
  · simp -implicitDefEqProofs only [src, bip39_NewEntropy, words_validateEntropyBitSize, h, both]

theorem words_splitMnemonicWords (n : Nat) (m : Bytes) :
    run W L (n + 1) .bip39_splitMnemonicWords [.str m] =
      .ok [.list ((splitMnemonicWords m).1.map .str), .bool (splitMnemonicWords m).2] := by
  rw [run_succ]
  unfold splitMnemonicWords
  have hm : ((fields m).length : Int).tmod 3 = (((fields m).length % 3 : Nat) : Int) := by
    rw [Int.tmod_eq_emod_of_nonneg (by omega)]; omega
  have hz : ((((fields m).length % 3 : Nat) : Int) = 0) = ((fields m).length % 3 = 0) := by
    apply propext; omega
  have h12 : (((fields m).length : Int) < 12) = ((fields m).length < 12) := by apply propext; omega
  have h24 : ((24 : Int) < ((fields m).length : Int)) = (24 < (fields m).length) := by apply propext; omega
  by_cases h1 : (fields m).length % 3 = 0 <;> by_cases h2 : (fields m).length < 12 <;> by_cases h3 : 24 < (fields m).length <;>
    simp -implicitDefEqProofs only [src, bip39_splitMnemonicWords, List.length_map, hm, hz, h12, h24, h1, h2, h3, ne_eq, not_true_eq_false,
      not_false_eq_true, Nat.cast_zero, Int.reduceEq, or_self, or_true, true_or, or_false, false_or, gt_iff_lt]

/-! ### addChecksum -/

theorem addChecksum_body (call : Fn → List Val → Res (List Val)) (v0 v1 v3 : Val) (f : UInt8) (d i : Nat) (hi : i < 2 ^ 64) :
    exec W L call bip39_addChecksum_body1 [v0, v1, .u8 f, v3, .big d, .uint (UInt64.ofNat i)] =
      .ok (.next [v0, v1, .u8 f, v3, .big (if f.toNat &&& (if i ≤ 7 then 2 ^ (7 - i) else 0) > 0 then d * 2 ||| 1 else d * 2),
        .uint (UInt64.ofNat i)]) := by
  have hb : ∀ s : UInt8, s.toNat = (if i ≤ 7 then 2 ^ (7 - i) else 0) →
      ((0 : UInt8) < f &&& s) = (0 < f.toNat &&& (if i ≤ 7 then 2 ^ (7 - i) else 0)) := by
    intro s hs
    rw [← hs, ← UInt8.toNat_and]
    rfl
  have hsh : (if (7 - UInt64.ofNat i).toNat < 8 then (1 : UInt8) <<< UInt8.ofNat (7 - UInt64.ofNat i).toNat else 0).toNat =
      (if i ≤ 7 then 2 ^ (7 - i) else 0) := by
    by_cases h7 : i ≤ 7
    · interval_cases i <;> decide +kernel
    · have : (7 - UInt64.ofNat i).toNat = 2 ^ 64 + 7 - i := by
        rw [UInt64.toNat_sub]
        have h7' : (7 : UInt64).toNat = 7 := rfl
        have hi' : (UInt64.ofNat i).toNat = i := by simp; omega
        rw [h7', hi']
        omega
      rw [if_neg h7, if_neg (by omega)]
      rfl
  have hb' := hb _ hsh
  have h2 : ∀ a b, big2 (fun a b => .ok (.big (a * b))) (.big a) (.big b) = .ok (.big (a * b)) := fun _ _ => rfl
  have h3 : ∀ a b, big2 (fun a b => .ok (.big (a ||| b))) (.big a) (.big b) = .ok (.big (a ||| b)) := fun _ _ => rfl
  by_cases hc : 0 < f.toNat &&& (if i ≤ 7 then 2 ^ (7 - i) else 0)
  · simp -implicitDefEqProofs only [src, bip39_addChecksum_body1, hb', hc, h2, h3, gt_iff_lt]
  · simp -implicitDefEqProofs only [src, bip39_addChecksum_body1, hb', hc, h2, h3, gt_iff_lt]

theorem addChecksum_loop (call : Fn → List Val → Res (List Val)) (v0 v1 : Val) (f : UInt8) (m : Nat) (hm : m < 2 ^ 63) (k : Nat) :
    ∀ (fuel i d : Nat), k < fuel → i + k = m →
      loop (fun e => (eval W bip39_addChecksum_cond1 e).bind asBool)
        (exec W L call bip39_addChecksum_post1) (exec W L call bip39_addChecksum_body1) fuel
        [v0, v1, .u8 f, .uint (UInt64.ofNat m), .big d, .uint (UInt64.ofNat i)] =
      .ok (.next [v0, v1, .u8 f, .uint (UInt64.ofNat m), .big (addChecksumLoop f k i d), .uint (UInt64.ofNat m)]) := by
  have hlt : ∀ i, i ≤ m → (UInt64.ofNat i < UInt64.ofNat m) = (i < m) := by
    intro i hi
    apply propext
    rw [UInt64.lt_iff_toNat_lt]
    have h1 : (UInt64.ofNat i).toNat = i := by simp; omega
    have h2 : (UInt64.ofNat m).toNat = m := by simp; omega
    rw [h1, h2]
  induction k with
  | zero =>
    intro fuel i d hf hi
    obtain ⟨fuel, rfl⟩ : ∃ f, fuel = f + 1 := ⟨fuel - 1, by omega⟩
    obtain rfl : i = m := by omega
    rw [loop_stop (by simp -implicitDefEqProofs [src, bip39_addChecksum_cond1])]
    simp [addChecksumLoop]
  | succ k ih =>
    intro fuel i d hf hi
    obtain ⟨fuel, rfl⟩ : ∃ f, fuel = f + 1 := ⟨fuel - 1, by omega⟩
    have hlt' := hlt i (by omega)
    have hadd : UInt64.ofNat i + 1 = UInt64.ofNat (i + 1) := by simp
    have him : i < m := by omega
    rw [loop_step (e1 := [v0, v1, .u8 f, .uint (UInt64.ofNat m), .big (if f.toNat &&& (if i ≤ 7 then 2 ^ (7 - i) else 0) > 0 then d * 2 ||| 1 else d * 2), .uint (UInt64.ofNat i)])
      (e2 := [v0, v1, .u8 f, .uint (UInt64.ofNat m), .big (if f.toNat &&& (if i ≤ 7 then 2 ^ (7 - i) else 0) > 0 then d * 2 ||| 1 else d * 2), .uint (UInt64.ofNat (i + 1))])
      (by simp -implicitDefEqProofs only [src, bip39_addChecksum_cond1, hlt', him])
      (addChecksum_body W L call v0 v1 _ f d i (by omega))
      (by simp -implicitDefEqProofs only [src, bip39_addChecksum_post1, hadd]), ih fuel (i + 1) _ (by omega) (by omega)]
    simp only [addChecksumLoop]

theorem words_addChecksum (n : Nat) (b : Bytes) (h : b.length / 4 < L) (hb : b.length < 2 ^ 63) :
    run W L (n + 2) .bip39_addChecksum [.bytes b] = .ok [.bytes (addChecksum W.H b)] := by
  rw [run_succ]
  have hd : (b.length : Int).tdiv 4 = ((b.length / 4 : Nat) : Int) := by
    rw [Int.tdiv_eq_ediv_of_nonneg (by omega)]; omega
  have hw : wrapInt ((b.length / 4 : Nat) : Int) = ((b.length / 4 : Nat) : Int) := by rw [wrapInt_of] <;> omega
  have hcl : (computeChecksum W.H b).length = 32 := by simp [computeChecksum]
  have hx : indexSem (.bytes (computeChecksum W.H b)) 0 = .ok (.u8 ((computeChecksum W.H b).headD 0)) := by
    cases hc : computeChecksum W.H b with
    | nil => rw [hc] at hcl; simp at hcl
    | cons c l => rfl
  have hl := addChecksum_loop W L (run W L (n + 1)) (.bytes b) (.bytes (computeChecksum W.H b)) ((computeChecksum W.H b).headD 0)
    (b.length / 4) (by omega) (b.length / 4) L 0 (setBytes b) h (by omega)
  have hz : UInt64.ofNat 0 = 0 := rfl
  rw [hz] at hl
  simp -implicitDefEqProofs only [src, bip39_addChecksum, words_computeChecksum, hx, hd, hw, conv_uint_nat, hl, Int.reduceEq, addChecksum]

/-! ### EntropyFromMnemonic -/

theorem beBytes_two_length (v : Nat) : (beBytes 2 v).length = 2 := by simp

theorem entropy_iter (call : Fn → List Val → Res (List Val)) (v0 v1 v2 v8 v9 v10 v11 v12 v13 v14 v15 : Val) (l : List Bytes) :
    ∀ (i : Int) (wb : Bytes) (b : Nat) (v5 v6 v7 : Val), wb.length = 2 →
      match decodeWords W.S.map l b with
      | .inr e => iter (exec W L call bip39_EntropyFromMnemonic_body1) none (some 5) i (l.map .str)
          [v0, v1, v2, .bytes wb, .big b, v5, v6, v7, v8, v9, v10, v11, v12, v13, v14, v15] = .ok (.ret [.bytes [], .err (some e)])
      | .inl b' => ∃ w3 w5 w6 w7, iter (exec W L call bip39_EntropyFromMnemonic_body1) none (some 5) i (l.map .str)
          [v0, v1, v2, .bytes wb, .big b, v5, v6, v7, v8, v9, v10, v11, v12, v13, v14, v15] =
          .ok (.next [v0, v1, v2, w3, .big b', w5, w6, w7, v8, v9, v10, v11, v12, v13, v14, v15]) := by
  have h2 : ∀ a b, big2 (fun a b => .ok (.big (a * b))) (.big a) (.big b) = .ok (.big (a * b)) := fun _ _ => rfl
  have h3 : ∀ a b, big2 (fun a b => .ok (.big (a ||| b))) (.big a) (.big b) = .ok (.big (a ||| b)) := fun _ _ => rfl
  induction l with
  | nil =>
    intro i wb b v5 v6 v7 hwb
    exact ⟨.bytes wb, v5, v6, v7, by simp [iter]⟩
  | cons w l ih =>
    intro i wb b v5 v6 v7 hwb
    rcases hm : W.S.map w with _ | x
    · simp only [decodeWords, hm]
      have hb : exec W L call bip39_EntropyFromMnemonic_body1
          [v0, v1, v2, .bytes wb, .big b, .str w, v6, v7, v8, v9, v10, v11, v12, v13, v14, v15] =
          .ok (.ret [.bytes [], .err (some (.unknownWord w))]) := by
        simp -implicitDefEqProofs only [src, bip39_EntropyFromMnemonic_body1, hm]
      simp -implicitDefEqProofs only [iter, src, hb]
    · have hwl : ¬ wb.length < 2 := by omega
      have hd : wb.drop 2 = [] := List.drop_eq_nil_of_le (by omega)
      have hu : (UInt16.ofNat x).toNat = x % 65536 := by simp
      have hs := sliceFrom_bytes_int (b := beBytes 2 (x % 65536)) (lo := 0) (by simp) (by simp)
      have hb : exec W L call bip39_EntropyFromMnemonic_body1
          [v0, v1, v2, .bytes wb, .big b, .str w, v6, v7, v8, v9, v10, v11, v12, v13, v14, v15] =
          .ok (.next [v0, v1, v2, .bytes (beBytes 2 (x % 65536)), .big (b * 2048 ||| setBytes (beBytes 2 (x % 65536))), .str w, .int x, .bool true,
            v8, v9, v10, v11, v12, v13, v14, v15]) := by
        simp -implicitDefEqProofs only [src, bip39_EntropyFromMnemonic_body1, hm, hwl, hd, conv_u16_nat, hu, h2, h3, hs, List.append_nil, Int.toNat_zero,
          List.drop_zero]
      have := ih (i + 1) (beBytes 2 (x % 65536)) (b * 2048 ||| setBytes (beBytes 2 (x % 65536))) (.str w) (.int x) (.bool true) (by simp)
      simp only [decodeWords, hm]
      simp -implicitDefEqProofs only [iter, src, hb]
      exact this

theorem ordInt_ne (a b : Nat) : (¬ ordInt (compare a b) = 0) = (a ≠ b) := by
  apply propext
  rcases hc : compare a b with _ | _ | _
  · have := Nat.compare_eq_lt.mp hc
    simp [ordInt]; omega
  · have := Nat.compare_eq_eq.mp hc
    simp [ordInt, this]
  · have := Nat.compare_eq_gt.mp hc
    simp [ordInt]; omega

theorem decodeWords_lt (map : Bytes → Option Nat) (l : List Bytes) :
    ∀ (b k b' : Nat), b < 2 ^ k → 16 ≤ k → decodeWords map l b = .inl b' → b' < 2 ^ (k + 11 * l.length) := by
  induction l with
  | nil =>
    intro b k b' hb hk h
    simp only [decodeWords, Sum.inl.injEq] at h
    simpa [← h] using hb
  | cons w l ih =>
    intro b k b' hb hk h
    rcases hm : map w with _ | x
    · simp [decodeWords, hm] at h
    · simp only [decodeWords, hm] at h
      have h1 : b * 2048 < 2 ^ (k + 11) := by rw [pow_add]; omega
      have h2 : setBytes (beBytes 2 (x % 65536)) < 2 ^ (k + 11) := by
        refine lt_of_lt_of_le (setBytes_lt _) ?_
        rw [beBytes_two_length]
        calc 256 ^ 2 = 2 ^ 16 := by norm_num
          _ ≤ 2 ^ (k + 11) := Nat.pow_le_pow_right (by norm_num) (by omega)
      have := ih _ (k + 11) b' (Nat.or_lt_two_pow h1 h2) (by omega) h
      rw [List.length_cons]
      have he : k + 11 + 11 * l.length = k + 11 * (l.length + 1) := by ring
      rwa [he] at this

/-- What follows the loop, for each number of words. -/
theorem words_entropy_rest (n b len mask sh : Nat) (m : Bytes) (ws : List Bytes) (hlen : ws.length = len) (hl : len < 25)
    (hm : mapGetSem [.list [.int 12, .big 15], .list [.int 15, .big 31], .list [.int 18, .big 63], .list [.int 21, .big 127], .list [.int 24, .big 255]] len =
      .ok (.big mask))
    (hsh : (len = 24 ∧ sh = 1) ∨ (¬ len = 24 ∧ 0 < sh ∧ checksumShift len = some sh ∧
      mapGetSem [.list [.int 12, .big 16], .list [.int 15, .big 8], .list [.int 18, .big 4], .list [.int 21, .big 2]] len = .ok (.big sh)))
    (hsp : splitMnemonicWords m = (ws, true)) (hd : decodeWords W.S.map ws 0 = .inl b) :
    run W L (n + 2) .bip39_EntropyFromMnemonic [.str m] = outcome (both .bytes) (
      let entropy := padByteSlice (bigBytes (b / (mask + 1))) (len / 3 * 4)
      if b &&& mask ≠ ((computeChecksum W.H entropy).headD 0).toNat / sh then .ok (([] : Bytes), some Err.checksumIncorrect) else .ok (entropy, none)) := by
  rw [run_succ]
  dsimp only
  have hit := entropy_iter W L (run W L (n + 1)) (.str m) (.list (ws.map .str)) (.bool true) .nil .nil .nil .nil .nil .nil .nil .nil ws 0 [0, 0] 0 .nil .nil .nil rfl
  rw [hd] at hit
  obtain ⟨w3, w5, w6, w7, hit⟩ := hit
  have hlt := decodeWords_lt W.S.map ws 0 16 b (by norm_num) (le_refl _) hd
  have hbl : (bigBytes (b / (mask + 1))).length < 2 ^ 63 := by
    refine lt_of_le_of_lt (bigBytes_length_le (k := 35) ?_) (by norm_num)
    calc b / (mask + 1) ≤ b := Nat.div_le_self _ _
      _ < 2 ^ (16 + 11 * ws.length) := hlt
      _ ≤ 2 ^ (8 * 35) := Nat.pow_le_pow_right (by norm_num) (by omega)
      _ = 256 ^ 35 := by rw [show (256 : Nat) = 2 ^ 8 from rfl, ← pow_mul]
  have hpad := words_padByteSlice W L n (bigBytes (b / (mask + 1))) (len / 3 * 4) hbl (by omega)
  have ht : (len : Int).tdiv 3 = ((len / 3 : Nat) : Int) := by rw [Int.tdiv_eq_ediv_of_nonneg (by omega)]; omega
  have hw1 : wrapInt ((len / 3 : Nat) : Int) = ((len / 3 : Nat) : Int) := by rw [wrapInt_of] <;> omega
  have hw2 : wrapInt (((len / 3 : Nat) : Int) * 4) = ((len / 3 * 4 : Nat) : Int) := by rw [wrapInt_of] <;> omega
  generalize hent : padByteSlice (bigBytes (b / (mask + 1))) (len / 3 * 4) = ent at *
  have hcl : (computeChecksum W.H ent).length = 32 := by simp [computeChecksum]
  have hx : indexSem (.bytes (computeChecksum W.H ent)) 0 = .ok (.u8 ((computeChecksum W.H ent).headD 0)) := by
    cases hc : computeChecksum W.H ent with
    | nil => rw [hc] at hcl; simp at hcl
    | cons c l => rfl
  generalize (computeChecksum W.H ent).headD 0 = c at *
  have hcw : wrapInt (c.toNat : Int) = (c.toNat : Int) := by
    have := c.toNat_lt
    rw [wrapInt_of] <;> omega
  have hc64 : convTo .i64 (c.toNat : Int) = .i64 (c.toNat : Int) := by simp only [convTo, hcw]
  have hcn : ¬ (c.toNat : Int) < 0 := by omega
  have hbAnd : ∀ a b, big2 (fun a b => .ok (.big (a &&& b))) (.big a) (.big b) = .ok (.big (a &&& b)) := fun _ _ => rfl
  have hbAdd : ∀ a b, big2 (fun a b => .ok (.big (a + b))) (.big a) (.big b) = .ok (.big (a + b)) := fun _ _ => rfl
  have hbDiv : ∀ a b, big2 (fun a b => if b = 0 then .panic else .ok (.big (a / b))) (.big a) (.big b) =
    if b = 0 then .panic else .ok (.big (a / b)) := fun _ _ => rfl
  have hbCmp : ∀ a b, big2 (fun a b => .ok (.int (ordInt (compare a b)))) (.big a) (.big b) = .ok (.int (ordInt (compare a b))) := fun _ _ => rfl
  have hr : List.replicate 2 (0 : UInt8) = [0, 0] := rfl
  have hne : ¬ mask + 1 = 0 := by omega
  rcases hsh with ⟨h24, rfl⟩ | ⟨h24, hs0, hs, hms⟩
  · have h24' : ((len : Int) = 24) = True := by simp [h24]
    by_cases hcmp : b &&& mask = c.toNat
    · simp -implicitDefEqProofs only [src, bip39_EntropyFromMnemonic, words_splitMnemonicWords, hsp, hr, hit, hm, hbAnd, hbAdd, hbDiv, hbCmp, hne, hpad, ht, hw1, hw2, hx, hcn,
        hc64, h24', ordInt_ne, hcmp, List.length_map, hlen, Int.reduceEq, Int.toNat_natCast, Int.reduceLT, Int.toNat_zero, words_computeChecksum, ne_eq,
        not_true_eq_false, not_false_eq_true, Nat.div_one, outcome, both]
    · simp -implicitDefEqProofs only [src, bip39_EntropyFromMnemonic, words_splitMnemonicWords, hsp, hr, hit, hm, hbAnd, hbAdd, hbDiv, hbCmp, hne, hpad, ht, hw1, hw2, hx, hcn,
        hc64, h24', ordInt_ne, hcmp, List.length_map, hlen, Int.reduceEq, Int.toNat_natCast, Int.reduceLT, Int.toNat_zero, words_computeChecksum, ne_eq,
        not_true_eq_false, not_false_eq_true, Nat.div_one, outcome, both]
  · have h24' : ¬ (len : Int) = 24 := by omega
    have hs0' : ¬ sh = 0 := by omega
    by_cases hcmp : b &&& mask = c.toNat / sh
    · simp -implicitDefEqProofs only [src, bip39_EntropyFromMnemonic, words_splitMnemonicWords, hsp, hr, hit, hm, hms, hbAnd, hbAdd, hbDiv, hbCmp, hne, hs0', hpad, ht, hw1, hw2, hx, hcn,
        hc64, h24', ordInt_ne, hcmp, List.length_map, hlen, Int.reduceEq, Int.toNat_natCast, Int.reduceLT, Int.toNat_zero, words_computeChecksum, ne_eq, not_true_eq_false, not_false_eq_true, outcome, both]
    · simp -implicitDefEqProofs only [src, bip39_EntropyFromMnemonic, words_splitMnemonicWords, hsp, hr, hit, hm, hms, hbAnd, hbAdd, hbDiv, hbCmp, hne, hs0', hpad, ht, hw1, hw2, hx, hcn,
        hc64, h24', ordInt_ne, hcmp, List.length_map, hlen, Int.reduceEq, Int.toNat_natCast, Int.reduceLT, Int.toNat_zero, words_computeChecksum, ne_eq, not_true_eq_false, not_false_eq_true, outcome, both]

theorem words_EntropyFromMnemonic (n : Nat) (m : Bytes) :
    run W L (n + 2) .bip39_EntropyFromMnemonic [.str m] = outcome (both .bytes) (entropyFromMnemonic W.H W.S m) := by
  rw [run_succ]
  unfold entropyFromMnemonic
  rcases hsp : splitMnemonicWords m with ⟨ws, _ | _⟩
  · simp -implicitDefEqProofs [src, bip39_EntropyFromMnemonic, words_splitMnemonicWords, hsp, outcome, both]
  · have hlen : ws.length = 12 ∨ ws.length = 15 ∨ ws.length = 18 ∨ ws.length = 21 ∨ ws.length = 24 := by
      unfold splitMnemonicWords at hsp
      simp only at hsp
      split at hsp
      · simp at hsp
      · rename_i hc
        have : fields m = ws := by simpa using hsp
        rw [this] at hc
        omega
    rcases hd : decodeWords W.S.map ws 0 with b | e
    · have key := fun mask sh h1 h2 h3 => words_entropy_rest W L n b ws.length mask sh m ws rfl h1 h2 h3 hsp hd
      rw [← run_succ]
      rcases hlen with h | h | h | h | h
      · rw [key 15 16 (by omega) (by rw [h]; rfl) (by rw [h]; exact .inr ⟨by decide, by decide, rfl, rfl⟩)]
        simp [h, hd, checksumMask, checksumShift]
      · rw [key 31 8 (by omega) (by rw [h]; rfl) (by rw [h]; exact .inr ⟨by decide, by decide, rfl, rfl⟩)]
        simp [h, hd, checksumMask, checksumShift]
      · rw [key 63 4 (by omega) (by rw [h]; rfl) (by rw [h]; exact .inr ⟨by decide, by decide, rfl, rfl⟩)]
        simp [h, hd, checksumMask, checksumShift]
      · rw [key 127 2 (by omega) (by rw [h]; rfl) (by rw [h]; exact .inr ⟨by decide, by decide, rfl, rfl⟩)]
        simp [h, hd, checksumMask, checksumShift]
      · rw [key 255 1 (by omega) (by rw [h]; rfl) (by rw [h]; exact .inl ⟨rfl, rfl⟩)]
        simp [h, hd, checksumMask, checksumShift]
    · have hit := entropy_iter W L (run W L (n + 1)) (.str m) (.list (ws.map .str)) (.bool true) .nil .nil .nil .nil .nil .nil .nil .nil ws 0 [0, 0] 0
        .nil .nil .nil rfl
      rw [hd] at hit
      have hr : List.replicate 2 (0 : UInt8) = [0, 0] := rfl
      simp -implicitDefEqProofs only [src, bip39_EntropyFromMnemonic, words_splitMnemonicWords, hsp, hr, hit, hd, Int.reduceLT, Int.toNat_zero, outcome, both]

theorem words_IsMnemonicValid (n : Nat) (m : Bytes) :
    run W L (n + 3) .bip39_IsMnemonicValid [.str m] = outcome (fun b => [.bool b]) (isMnemonicValid W.H W.S m) := by
  rw [run_succ]
  unfold isMnemonicValid
  rcases h : entropyFromMnemonic W.H W.S m with ⟨b, e⟩ | _ <;>
    simp -implicitDefEqProofs [src, bip39_IsMnemonicValid, words_EntropyFromMnemonic, h, outcome, both]

/-! ### NewMnemonic -/

theorem words_join (l : List Bytes) : libSem W .join [.list (l.map .str), .str [32]] = .ok (.str (joinByte 32 l)) := by
  simp -implicitDefEqProofs [src]

theorem mnemonic_loop (v0 v1 v2 v3 v4 v5 : Val) (n : Nat) (k : Nat) (hk : k < 2 ^ 62) :
    ∀ (fuel d : Nat) (acc : List Bytes) (v8 v10 : Val), k < fuel →
      let r := loop (fun e => (eval W bip39_NewMnemonic_cond1 e).bind asBool)
        (exec W L (run W L (n + 1)) bip39_NewMnemonic_post1) (exec W L (run W L (n + 1)) bip39_NewMnemonic_body1) fuel
        [v0, v1, v2, v3, v4, v5, .big d, .list ((List.replicate k [] ++ acc).map .str), v8, .int ((k : Int) - 1), v10]
      (encodeWords W.S.list k d acc = .panic ∧ r = .panic) ∨
      (∃ ws w6 w8 w9 w10, encodeWords W.S.list k d acc = .ok ws ∧
        r = .ok (.next [v0, v1, v2, v3, v4, v5, w6, .list (ws.map .str), w8, w9, w10])) := by
  have hbAnd : ∀ a b, big2 (fun a b => .ok (.big (a &&& b))) (.big a) (.big b) = .ok (.big (a &&& b)) := fun _ _ => rfl
  have hbDiv : ∀ a b, big2 (fun a b => if b = 0 then .panic else .ok (.big (a / b))) (.big a) (.big b) =
    if b = 0 then .panic else .ok (.big (a / b)) := fun _ _ => rfl
  induction k with
  | zero =>
    intro fuel d acc v8 v10 hf
    obtain ⟨fuel, rfl⟩ : ∃ f, fuel = f + 1 := ⟨fuel - 1, by omega⟩
    right
    refine ⟨acc, .big d, v8, .int (((0 : Nat) : Int) - 1), v10, rfl, ?_⟩
    rw [loop_stop (by simp -implicitDefEqProofs [src, bip39_NewMnemonic_cond1])]
    rfl
  | succ k ih =>
    intro fuel d acc v8 v10 hf
    obtain ⟨fuel, rfl⟩ : ∃ f, fuel = f + 1 := ⟨fuel - 1, by omega⟩
    have hlt : d &&& 2047 < 256 ^ 2 := lt_of_le_of_lt Nat.and_le_right (by norm_num)
    have hpl : (padByteSlice (bigBytes (d &&& 2047)) 2).length = 2 := by
      have := bigBytes_length_le hlt
      unfold padByteSlice
      split
      · omega
      · simp only [List.length_append, List.length_replicate]
        omega
    have hpad := words_padByteSlice W L n (bigBytes (d &&& 2047)) 2 (by have := bigBytes_length_le hlt; omega) (by omega)
    have hsb := setBytes_lt (padByteSlice (bigBytes (d &&& 2047)) 2)
    rw [hpl] at hsb
    simp only [encodeWords]
    generalize padByteSlice (bigBytes (d &&& 2047)) 2 = wb at *
    have hpl' : ¬ wb.length < 2 := by omega
    have htake : wb.take 2 = wb := List.take_of_length_le (by omega)
    have hu : (UInt16.ofNat (setBytes wb)).toNat = setBytes wb := by simp; omega
    have hx : indexSem (globSem W .wordList) (setBytes wb) = match W.S.list[setBytes wb]? with
      | some v => .ok (.str v)
      | none => .panic := by
      rw [show globSem W .wordList = .list (W.S.list.map .str) from rfl, index_map]
      cases W.S.list[setBytes wb]? <;> rfl
    have hki : (((k + 1 : Nat) : Int) - 1) = (k : Int) := by omega
    have hc : (eval W bip39_NewMnemonic_cond1 [v0, v1, v2, v3, v4, v5, .big d, .list ((List.replicate (k + 1) [] ++ acc).map .str), v8,
        .int (((k + 1 : Nat) : Int) - 1), v10]).bind asBool = .ok true := by
      simp -implicitDefEqProofs [src, bip39_NewMnemonic_cond1]
    simp only [Nat.cast_ofNat] at hpad
    rcases hw : W.S.list[setBytes wb]? with _ | w
    · left
      rw [hw] at hx
      refine ⟨rfl, ?_⟩
      have hb : exec W L (run W L (n + 1)) bip39_NewMnemonic_body1 [v0, v1, v2, v3, v4, v5, .big d, .list ((List.replicate (k + 1) [] ++ acc).map .str), v8,
        .int (((k + 1 : Nat) : Int) - 1), v10] = .panic := by
        simp -implicitDefEqProofs only [src, bip39_NewMnemonic_body1, hbAnd, hbDiv, hpad, hpl', htake, hu, hx, Nat.reduceEqDiff, OfNat.ofNat_ne_zero]
      simp only [loop, hc, hb, src]
    · rw [hw] at hx
      have hset : setIndexSem (.list ((List.replicate (k + 1) [] ++ acc).map .str)) (k : Int) (.str w) =
          .ok (.list ((List.replicate k [] ++ w :: acc).map .str)) := by
        rw [setIndex_map Val.str, if_pos (by simp; omega)]
        congr 3
        rw [List.replicate_succ', List.append_assoc, List.set_append_right _ _ (by simp)]
        simp
      have hb : exec W L (run W L (n + 1)) bip39_NewMnemonic_body1 [v0, v1, v2, v3, v4, v5, .big d, .list ((List.replicate (k + 1) [] ++ acc).map .str), v8,
        .int (((k + 1 : Nat) : Int) - 1), v10] = .ok (.next [v0, v1, v2, v3, v4, v5, .big (d / 2048), .list ((List.replicate k [] ++ w :: acc).map .str),
          .big (d &&& 2047), .int (k : Int), .bytes wb]) := by
        simp -implicitDefEqProofs only [src, bip39_NewMnemonic_body1, hbAnd, hbDiv, hpad, hpl', htake, hu, hx, hki, hset, Nat.reduceEqDiff, OfNat.ofNat_ne_zero]
      have hwr : wrapInt ((k : Int) - 1) = (k : Int) - 1 := by rw [wrapInt_of] <;> omega
      rw [loop_step (e2 := [v0, v1, v2, v3, v4, v5, .big (d / 2048), .list ((List.replicate k [] ++ w :: acc).map .str),
          .big (d &&& 2047), .int ((k : Int) - 1), .bytes wb]) hc hb
        (by simp -implicitDefEqProofs only [src, bip39_NewMnemonic_post1, hwr])]
      exact ih (by omega) fuel (d / 2048) (w :: acc) _ _ (by omega)

theorem words_NewMnemonic (hL : 32 < L) (n : Nat) (entropy : Bytes) (hb : entropy.length < 2 ^ 59) :
    run W L (n + 3) .bip39_NewMnemonic [.bytes entropy] = outcome (both .str) (newMnemonic W.H W.S entropy) := by
  rw [run_succ]
  unfold newMnemonic
  have hw1 : wrapInt ((entropy.length : Int) * 8) = ((entropy.length * 8 : Nat) : Int) := by rw [wrapInt_of] <;> omega
  have ht1 : ((entropy.length * 8 : Nat) : Int).tdiv 32 = ((entropy.length * 8 / 32 : Nat) : Int) := by
    rw [Int.tdiv_eq_ediv_of_nonneg (by omega)]; omega
  have hw2 : wrapInt ((entropy.length * 8 / 32 : Nat) : Int) = ((entropy.length * 8 / 32 : Nat) : Int) := by rw [wrapInt_of] <;> omega
  have hw3 : wrapInt (((entropy.length * 8 : Nat) : Int) + ((entropy.length * 8 / 32 : Nat) : Int)) =
      ((entropy.length * 8 + entropy.length * 8 / 32 : Nat) : Int) := by rw [wrapInt_of] <;> omega
  have ht2 : ((entropy.length * 8 + entropy.length * 8 / 32 : Nat) : Int).tdiv 11 =
      (((entropy.length * 8 + entropy.length * 8 / 32) / 11 : Nat) : Int) := by
    rw [Int.tdiv_eq_ediv_of_nonneg (by omega)]; omega
  have hw4 : wrapInt (((entropy.length * 8 + entropy.length * 8 / 32) / 11 : Nat) : Int) =
      (((entropy.length * 8 + entropy.length * 8 / 32) / 11 : Nat) : Int) := by rw [wrapInt_of] <;> omega
  rcases hv : validateEntropyBitSize ((entropy.length * 8 : Nat) : Int) with _ | e
  · have hlen : entropy.length * 8 ≤ 256 := by
      unfold validateEntropyBitSize at hv
      split at hv
      · simp at hv
      · omega
    have hk24 : (entropy.length * 8 + entropy.length * 8 / 32) / 11 ≤ 24 := by clear hw1 ht1 hw2 hw3 ht2 hw4 hb; omega
    have he4 : entropy.length / 4 < L := by clear hw1 ht1 hw2 hw3 ht2 hw4 hb; omega
    have he63 : entropy.length < 2 ^ 63 := by clear hw1 ht1 hw2 hw3 ht2 hw4; omega
    clear hb
    generalize hk : (entropy.length * 8 + entropy.length * 8 / 32) / 11 = k at *
    have hkL : k < L := by clear hw1 ht1 hw2 hw3 ht2 hw4; omega
    have hk62 : k < 2 ^ 62 := by clear hw1 ht1 hw2 hw3 ht2 hw4; omega
    have hw5 : wrapInt ((k : Int) - 1) = (k : Int) - 1 := by clear hw1 ht1 hw2 hw3 ht2 hw4; rw [wrapInt_of] <;> omega
    have hkn : ¬ (k : Int) < 0 := by clear hw1 ht1 hw2 hw3 ht2 hw4; omega
    have hadd := words_addChecksum W L n entropy he4 he63
    have hlp := mnemonic_loop W L (.bytes (addChecksum W.H entropy)) (.int ((entropy.length * 8 : Nat) : Int))
      (.int ((entropy.length * 8 / 32 : Nat) : Int)) (.int (k : Int)) (.err none) (.bytes (addChecksum W.H entropy)) (n + 1) k hk62 L
      (setBytes (addChecksum W.H entropy)) [] (.big 0) .nil hkL
    simp only [List.append_nil, List.map_replicate] at hlp
    rcases hlp with ⟨h1, h2⟩ | ⟨ws, w6, w8, w9, w10, h1, h2⟩
    · simp -implicitDefEqProofs only [src, bip39_NewMnemonic, hw1, hw2, hw3, hw4, hw5, ht1, ht2, words_validateEntropyBitSize, hv, hadd, hkn, hk, h1, h2, Int.reduceEq,
        Int.reduceLT, Int.toNat_natCast, Int.toNat_zero, outcome, both]
    · have hj := words_join W ws
      simp -implicitDefEqProofs only [src, bip39_NewMnemonic, hw1, hw2, hw3, hw4, hw5, ht1, ht2, words_validateEntropyBitSize, hv, hadd, hkn, hk, h1, h2, hj, Int.reduceEq,
        Int.reduceLT, Int.toNat_natCast, Int.toNat_zero, outcome, both]
  · simp -implicitDefEqProofs only [src, bip39_NewMnemonic, hw1, hw2, hw3, hw4, ht1, ht2, words_validateEntropyBitSize, hv, Int.reduceEq, outcome, both]

/-! ### MnemonicToByteArray, the seed -/

theorem splitByte_length_le (c : UInt8) (s : Bytes) : (splitByte c s).length ≤ s.length + 1 := by
  induction s with
  | nil => simp [splitByte]
  | cons x s ih =>
    simp only [splitByte]
    split
    · simpa using ih
    · split
      · simp
      · rename_i h
        rw [h] at ih
        simp only [List.length_cons] at ih ⊢
        omega

theorem entropy_length (H : Hashes) (S : WordState) (m r : Bytes) (h : entropyFromMnemonic H S m = .ok (r, none)) : r.length < 36 := by
  unfold entropyFromMnemonic at h
  rcases hsp : splitMnemonicWords m with ⟨ws, _ | _⟩
  · simp [hsp] at h
  · have hws : ws.length ≤ 24 := by
      unfold splitMnemonicWords at hsp
      dsimp only at hsp
      split at hsp
      · simp at hsp
      · simp only [Prod.mk.injEq, and_true] at hsp
        rw [← hsp]
        omega
    rcases hd : decodeWords S.map ws 0 with b | e
    · rcases hm : checksumMask ws.length with _ | mask
      · simp [hsp, hd, hm] at h
      · have hlt := decodeWords_lt S.map ws 0 16 b (by norm_num) (le_refl _) hd
        have hbl : (bigBytes (b / (mask + 1))).length ≤ 35 := by
          refine bigBytes_length_le ?_
          calc b / (mask + 1) ≤ b := Nat.div_le_self _ _
            _ < 2 ^ (16 + 11 * ws.length) := hlt
            _ ≤ 2 ^ (8 * 35) := Nat.pow_le_pow_right (by norm_num) (by omega)
            _ = 256 ^ 35 := by rw [show (256 : Nat) = 2 ^ 8 from rfl, ← pow_mul]
        have hpl : (padByteSlice (bigBytes (b / (mask + 1))) (ws.length / 3 * 4)).length < 36 := by
          unfold padByteSlice
          split
          · omega
          · simp only [List.length_append, List.length_replicate]
            omega
        simp only [hsp, hd, hm] at h
        generalize padByteSlice (bigBytes (b / (mask + 1))) (ws.length / 3 * 4) = ent at *
        by_cases h24 : ws.length = 24
        · simp only [h24, ne_eq, not_true_eq_false, if_false] at h
          split at h <;> simp_all
        · rw [if_pos h24] at h
          rcases hs : checksumShift ws.length with _ | sh
          · simp [hs] at h
          · simp only [hs] at h
            split at h <;> simp_all
    · simp [hsp, hd] at h

theorem addChecksumLoop_lt (f : UInt8) (k : Nat) : ∀ (i d m : Nat), d < 2 ^ m → addChecksumLoop f k i d < 2 ^ (m + k) := by
  induction k with
  | zero => intro i d m h; exact h
  | succ k ih =>
    intro i d m h
    simp only [addChecksumLoop]
    have h2 : d * 2 < 2 ^ (m + 1) := by rw [pow_succ]; omega
    have h1 : d * 2 ||| 1 < 2 ^ (m + 1) := Nat.or_lt_two_pow h2 (by rw [pow_succ]; have := Nat.one_le_two_pow (n := m); omega)
    rw [show m + (k + 1) = m + 1 + k by omega]
    exact ih _ _ _ (by split_ifs <;> assumption)

theorem addChecksum_length (H : Hashes) (r : Bytes) (h : r.length < 36) : (addChecksum H r).length ≤ 37 := by
  unfold addChecksum
  refine bigBytes_length_le ?_
  calc addChecksumLoop _ (r.length / 4) 0 (setBytes r) < 2 ^ (8 * r.length + r.length / 4) :=
        addChecksumLoop_lt _ _ _ _ _ (by rw [pow_mul]; exact setBytes_lt r)
    _ ≤ 2 ^ (8 * 37) := Nat.pow_le_pow_right (by norm_num) (by omega)
    _ = 256 ^ 37 := by rw [show (256 : Nat) = 2 ^ 8 from rfl, ← pow_mul]

theorem words_MnemonicToByteArray (hL : 32 < L) (n : Nat) (m : Bytes) (raw : List Bool) (hb : m.length < 2 ^ 59) :
    run W L (n + 3) .bip39_MnemonicToByteArray [.str m, .list (raw.map .bool)] =
      outcome (both .bytes) (mnemonicToByteArray W.H W.S m raw) := by
  rw [run_succ]
  unfold mnemonicToByteArray
  have hsl := splitByte_length_le 32 m
  generalize hk : (splitByte 32 m).length = k at *
  have hw1 : wrapInt ((k : Int) * 11) = ((k * 11 : Nat) : Int) := by rw [wrapInt_of] <;> omega
  have ht1 : ((k * 11 : Nat) : Int).tmod 32 = ((k * 11 % 32 : Nat) : Int) := by
    rw [Int.tmod_eq_emod_of_nonneg (by omega)]; omega
  have hsub : ((k * 11 : Nat) : Int) - ((k * 11 % 32 : Nat) : Int) = ((k * 11 - k * 11 % 32 : Nat) : Int) :=
    (Nat.cast_sub (Nat.mod_le _ _)).symm
  have hle : k * 11 - k * 11 % 32 ≤ k * 11 := Nat.sub_le _ _
  have hw2 : wrapInt (((k * 11 : Nat) : Int) - ((k * 11 % 32 : Nat) : Int)) = ((k * 11 - k * 11 % 32 : Nat) : Int) := by
    rw [hsub]
    clear hw1 ht1 hsub
    generalize k * 11 - k * 11 % 32 = j at *
    rw [wrapInt_of] <;> omega
  have ht2 : ((k * 11 - k * 11 % 32 : Nat) : Int).tdiv 8 = (((k * 11 - k * 11 % 32) / 8 : Nat) : Int) := by
    rw [Int.tdiv_eq_ediv_of_nonneg (by omega)]; omega
  have hw3 : wrapInt (((k * 11 - k * 11 % 32) / 8 : Nat) : Int) = (((k * 11 - k * 11 % 32) / 8 : Nat) : Int) := by rw [wrapInt_of] <;> omega
  have hw4 : wrapInt ((((k * 11 - k * 11 % 32) / 8 : Nat) : Int) + 1) = (((k * 11 - k * 11 % 32) / 8 + 1 : Nat) : Int) := by rw [wrapInt_of] <;> omega
  have hk63 : (k * 11 - k * 11 % 32) / 8 + 1 < 2 ^ 63 := by clear hw1 ht1 hw2 hw3 ht2 hw4; omega
  rcases he : entropyFromMnemonic W.H W.S m with ⟨r, _ | e⟩ | _
  · have hrl := entropy_length W.H W.S m r he
    have hal := addChecksum_length W.H r hrl
    have hadd := words_addChecksum W L n r (by clear hw1 ht1 hw2 hw3 ht2 hw4 hb; omega) (by clear hw1 ht1 hw2 hw3 ht2 hw4 hb; omega)
    have hpad := words_padByteSlice W L (n + 1) (addChecksum W.H r) ((k * 11 - k * 11 % 32) / 8 + 1)
      (by clear hw1 ht1 hw2 hw3 ht2 hw4 hb; omega) hk63
    rcases raw with _ | ⟨b, raw⟩
    · simp -implicitDefEqProofs only [src, bip39_MnemonicToByteArray, hk, hw1, hw2, hw3, hw4, ht1, ht2, List.length_map, Int.reduceEq, words_EntropyFromMnemonic, he, hadd, hpad, outcome, both,
        List.head?_nil, List.head?_cons, Nat.cast_zero, Int.reduceLT, reduceCtorEq]
    · have hlen : (0 : Int) < ((raw.length + 1 : Nat) : Int) := by omega
      have hix : indexSem (.list (.bool b :: raw.map .bool)) 0 = .ok (.bool b) := rfl
      cases b <;> simp -implicitDefEqProofs only [src, bip39_MnemonicToByteArray, hk, hw1, hw2, hw3, hw4, ht1, ht2, List.length_map, Int.reduceEq, words_EntropyFromMnemonic, he, hadd, hpad, outcome, both,
        List.head?_nil, List.head?_cons, hlen, hix, reduceCtorEq, Option.some.injEq]
  · simp -implicitDefEqProofs only [src, bip39_MnemonicToByteArray, hk, hw1, hw2, hw3, hw4, ht1, ht2, List.length_map, Int.reduceEq, words_EntropyFromMnemonic, he, outcome, both]
  · simp -implicitDefEqProofs only [src, bip39_MnemonicToByteArray, hk, hw1, hw2, hw3, hw4, ht1, ht2, List.length_map, Int.reduceEq, words_EntropyFromMnemonic, he, outcome, both]

theorem words_NewSeed (n : Nat) (m p : Bytes) : run W L (n + 1) .bip39_NewSeed [.str m, .str p] = .ok [.bytes (newSeed W.H m p)] := by
  rw [run_succ]
  simp -implicitDefEqProofs [src, bip39_NewSeed, newSeed]

theorem words_NewSeedWithErrorChecking (hL : 32 < L) (n : Nat) (m p : Bytes) (hb : m.length < 2 ^ 59) :
    run W L (n + 4) .bip39_NewSeedWithErrorChecking [.str m, .str p] = outcome (both .bytes) (newSeedWithErrorChecking W.H W.S m p) := by
  rw [run_succ]
  unfold newSeedWithErrorChecking
  have hm := words_MnemonicToByteArray W L hL n m [] hb
  rw [List.map_nil] at hm
  rcases he : mnemonicToByteArray W.H W.S m with ⟨r, _ | e⟩ | _ <;>
    simp -implicitDefEqProofs [src, bip39_NewSeedWithErrorChecking, hm, he, words_NewSeed, outcome, both]

/-! ### compareByteSlices -/

theorem compare_iter (call : Fn → List Val → Res (List Val)) (a b : Bytes) (t : List Val) :
    ∀ (i : Nat) (v2 : Val),
      match compareFrom a b t.length i with
      | .panic => iter (exec W L call bip39_compareByteSlices_body1) (some 2) none i t [.bytes a, .bytes b, v2] = .panic
      | .ok false => iter (exec W L call bip39_compareByteSlices_body1) (some 2) none i t [.bytes a, .bytes b, v2] = .ok (.ret [.bool false])
      | .ok true => ∃ w, iter (exec W L call bip39_compareByteSlices_body1) (some 2) none i t [.bytes a, .bytes b, v2] = .ok (.next [.bytes a, .bytes b, w]) := by
  have hix : ∀ (x : Bytes) (i : Nat), indexSem (.bytes x) i = match x[i]? with
      | some c => .ok (.u8 c)
      | none => .panic := by
    intro x i
    simp only [indexSem]
    rw [if_neg (by omega), Int.toNat_natCast]
    cases x[i]? <;> rfl
  induction t with
  | nil => intro i v2; exact ⟨v2, rfl⟩
  | cons x t ih =>
    intro i v2
    simp only [List.length_cons, compareFrom]
    have hb0 : exec W L call bip39_compareByteSlices_body1 [.bytes a, .bytes b, .int i] = match a[i]?, b[i]? with
      | some x, some y => if x ≠ y then .ok (.ret [.bool false]) else .ok (.next [.bytes a, .bytes b, .int i])
      | _, _ => .panic := by
      rcases ha : a[i]? with _ | x
      · simp -implicitDefEqProofs only [src, bip39_compareByteSlices_body1, hix, ha]
      · rcases hb : b[i]? with _ | y
        · simp -implicitDefEqProofs only [src, bip39_compareByteSlices_body1, hix, ha, hb]
        · by_cases h : x = y <;> simp -implicitDefEqProofs [src, bip39_compareByteSlices_body1, hix, ha, hb, h]
    rcases ha : a[i]? with _ | x
    · rw [ha] at hb0
      simp only [iter, src, hb0]
    · rcases hb : b[i]? with _ | y
      · rw [ha, hb] at hb0
        simp only [iter, src, hb0]
      · rw [ha, hb] at hb0
        by_cases h : x = y
        · have := ih (i + 1) (.int i)
          simp only [h, ne_eq, not_true_eq_false, if_false] at hb0 ⊢
          simp only [iter, src, hb0]
          simpa using this
        · simp only [h, ne_eq, not_false_eq_true, if_true] at hb0 ⊢
          simp only [iter, src, hb0]

theorem words_compareByteSlices (n : Nat) (a b : Bytes) :
    run W L (n + 1) .bip39_compareByteSlices [.bytes a, .bytes b] = outcome (fun b => [.bool b]) (compareByteSlices a b) := by
  rw [run_succ]
  unfold compareByteSlices
  have hi := compare_iter W L (run W L n) a b (a.map .u8) 0 .nil
  rw [List.length_map] at hi
  simp only [Nat.cast_zero] at hi
  by_cases h : a.length = b.length
  · have h' : (a.length : Int) = (b.length : Int) := by omega
    rcases hc : compareFrom a b a.length 0 with (_ | _) | _
    · rw [hc] at hi
      simp -implicitDefEqProofs only [src, bip39_compareByteSlices, h, h', hi, ne_eq, not_true_eq_false, outcome]
    · rw [hc] at hi
      obtain ⟨w, hi⟩ := hi
      simp -implicitDefEqProofs only [src, bip39_compareByteSlices, h, h', hi, ne_eq, not_true_eq_false, outcome]
    · rw [hc] at hi
      simp -implicitDefEqProofs only [src, bip39_compareByteSlices, h, h', hi, ne_eq, not_true_eq_false, outcome]
  · have h' : ¬ (a.length : Int) = (b.length : Int) := by omega
    simp -implicitDefEqProofs [src, bip39_compareByteSlices, h, h', outcome]

end Bips.Src
