import Verif.Src.Coin
import Verif.Src.Lists
import Verif.Model.Slip44

/-!
# bip44/script.go, from the text

The embedded file and the file that is written are parameters.
-/

namespace Bips.Src

open Bips (str)

set_option linter.unusedSimpArgs false

variable (W : World) (L : Nat)

theorem parseUintLoop_eq (s : Bytes) : ∀ n, match parseUint32Loop s n with
    | some m => parseUintLoop s n = (m, none)
    | none => ∃ m e, parseUintLoop s n = (m, some e) := by
  induction s with
  | nil => intro n; rfl
  | cons c s ih =>
    intro n
    simp only [parseUint32Loop, parseUintLoop]
    by_cases h1 : (!isDigit c) = true
    · simp only [if_pos h1]; exact ⟨_, _, rfl⟩
    · by_cases h2 : 2 ^ 32 ≤ n * 10 + (c.toNat - 48)
      · simp only [if_neg h1, if_pos h2]; exact ⟨_, _, rfl⟩
      · simp only [if_neg h1, if_neg h2]; exact ih _

theorem parseUint_some {s : Bytes} {m : Nat} (h : parseUint32 s = some m) : parseUint s = (m, none) := by
  unfold parseUint32 at h
  unfold parseUint
  split
  · rename_i h'; simp [h'] at h
  · rename_i h'
    rw [if_neg h'] at h
    simpa [h] using parseUintLoop_eq s 0

theorem parseUint_none {s : Bytes} (h : parseUint32 s = none) : ∃ m e, parseUint s = (m, some e) := by
  unfold parseUint32 at h
  unfold parseUint
  split
  · exact ⟨_, _, rfl⟩
  · rename_i h'
    rw [if_neg h'] at h
    simpa [h] using parseUintLoop_eq s 0

theorem parseUint32Loop_lt (s : Bytes) : ∀ n m, n < 2 ^ 32 → parseUint32Loop s n = some m → m < 2 ^ 32 := by
  induction s with
  | nil => intro n m hn h; simp only [parseUint32Loop, Option.some.injEq] at h; omega
  | cons c s ih =>
    intro n m hn h
    simp only [parseUint32Loop] at h
    split at h
    · cases h
    · split at h
      · cases h
      · exact ih _ _ (by omega) h

theorem parseUint32_lt {s : Bytes} {m : Nat} (h : parseUint32 s = some m) : m < 2 ^ 32 := by
  unfold parseUint32 at h
  split at h
  · cases h
  · exact parseUint32Loop_lt s 0 m (by norm_num) h

theorem splitTwo_length (a b : UInt8) (s : Bytes) : 0 < (splitTwo a b s).length ∧ (splitTwo a b s).length ≤ s.length + 1 := by
  fun_induction splitTwo a b s <;> simp_all <;> omega

theorem str_bar : str "| " = [124, 32] := by decide +kernel
theorem str_reserved : str "reserved" = 114 :: 101 :: [115, 101, 114, 118, 101, 100] := by decide +kernel
theorem str_dead : str "dead" = 100 :: 101 :: [97, 100] := by decide +kernel

theorem conv_parsed {m : Nat} (hm : m < 2 ^ 32) : convTo .u32 ((UInt64.ofNat m).toNat : Int) = .u32 (UInt32.ofNat m) := by
  have h : (UInt64.ofNat m).toNat = m := by rw [UInt64.toNat_ofNat']; omega
  have h' : ((m : Int) % 2 ^ 32).toNat = m := by omega
  simp only [convTo, h, h']

/-- The inner loop: the columns become trimmed. -/
theorem script_trim (call : Fn → List Val → Res (List Val)) (a0 a1 a2 a3 a4 a5 a6 a7 a8 b11 b12 b13 b14 b15 b16 b17 b18 b19 : Val) (todo : List Bytes) :
    ∀ (done : List Bytes) (xs : List Val) (b10 : Val), xs.length = todo.length →
      ∃ c10, iter (exec W L call bip44_generateFileFromSlip44MD_body1) (some 10) none done.length xs
          [a0, a1, a2, a3, a4, a5, a6, a7, a8, .list ((done ++ todo).map .str), b10, b11, b12, b13, b14, b15, b16, b17, b18, b19] =
        .ok (.next [a0, a1, a2, a3, a4, a5, a6, a7, a8, .list ((done ++ todo.map trimSpace).map .str), c10, b11, b12, b13, b14, b15, b16, b17, b18, b19]) := by
  induction todo with
  | nil =>
    intro done xs b10 hx
    rw [List.length_eq_zero_iff.1 hx]
    exact ⟨b10, by simp [iter]⟩
  | cons t todo ih =>
    intro done xs b10 hx
    obtain ⟨x, xs, rfl⟩ : ∃ y ys, xs = y :: ys := by
      cases xs with
      | nil => simp at hx
      | cons y ys => exact ⟨y, ys, rfl⟩
    have h1 : indexSem (.list ((done ++ t :: todo).map .str)) (done.length : Nat) = .ok (.str t) := by
      rw [index_map]; simp
    have h2 : setIndexSem (.list ((done ++ t :: todo).map .str)) (done.length : Nat) (.str (trimSpace t)) =
        .ok (.list ((done ++ [trimSpace t] ++ todo).map .str)) := by
      rw [setIndex_map]; simp [List.set_append]
    obtain ⟨c10, hi⟩ := ih (done ++ [trimSpace t]) xs (.int done.length) (by simpa using hx)
    refine ⟨c10, ?_⟩
    generalize (done ++ t :: todo).map Val.str = l at h1 h2 ⊢
    generalize hl' : (done ++ [trimSpace t] ++ todo).map Val.str = l' at h2 hi
    have hb : exec W L call bip44_generateFileFromSlip44MD_body1
        [a0, a1, a2, a3, a4, a5, a6, a7, a8, .list l, .int done.length, b11, b12, b13, b14, b15, b16, b17, b18, b19] =
        .ok (.next [a0, a1, a2, a3, a4, a5, a6, a7, a8, .list l', .int done.length, b11, b12, b13, b14, b15, b16, b17, b18, b19]) := by
      simp -implicitDefEqProofs only [src, bip44_generateFileFromSlip44MD_body1, Val.toInt?, h1, h2]
    simp only [iter, setOpt, List.set_cons_succ, List.set_cons_zero, hb, bind_ok, again_next]
    simpa using hi

/-- One line. -/
theorem script_line (call : Fn → List Val → Res (List Val)) (a0 a1 a3 a4 a5 a6 a7 : Val) (cs : List Val) (line : Bytes) (hl : line.length < 2 ^ 62)
    (b9 b10 b11 b12 b13 b14 b15 b16 b17 b18 b19 : Val) :
    ∃ c9 c10 c11 c12 c13 c14 c15 c16, exec W L call bip44_generateFileFromSlip44MD_body2
        [a0, a1, .list cs, a3, a4, a5, a6, a7, .str line, b9, b10, b11, b12, b13, b14, b15, b16, b17, b18, b19] =
      .ok (.next [a0, a1, .list (cs ++ (genLine line).toList.map coinVal), a3, a4, a5, a6, a7, .str line, c9, c10, c11, c12, c13, c14, c15, c16, b17, b18, b19]) := by
  have hs := splitTwo_length 124 32 line
  have hsl : sliceFromSem (.list ((splitTwo 124 32 line).map .str)) (1 : Int) = .ok (.list (((splitTwo 124 32 line).drop 1).map .str)) := by
    have := sliceFrom_list (l := (splitTwo 124 32 line).map Val.str) (lo := 1) (by simp; omega)
    simpa using this
  obtain ⟨c10, ht⟩ := script_trim W L call a0 a1 (.list cs) a3 a4 a5 a6 a7 (.str line) b11 b12 b13 b14 b15 b16 b17 b18 b19 ((splitTwo 124 32 line).drop 1) []
    (((splitTwo 124 32 line).drop 1).map .str) b10 (by simp)
  have hf : ((splitTwo 124 32 line).drop 1).map trimSpace = mdFields line := rfl
  have hlen : (mdFields line).length < 2 ^ 62 + 1 := by unfold mdFields; simp; omega
  rw [List.nil_append, List.nil_append, hf] at ht
  dsimp only [genLine]
  generalize mdFields line = f at ht hlen ⊢
  generalize (splitTwo 124 32 line).drop 1 = f0 at ht hsl
  have hi : ∀ i, i < f.length → indexSem (.list (f.map .str)) (i : Nat) = .ok (.str (f.getD i [])) := by
    intro i hi
    rw [index_map, List.getElem?_eq_getElem hi]
    simp [List.getD_eq_getElem?_getD, hi]
  have hj : 3 ≤ f.length → sliceFromSem (.list (f.map .str)) ((3 : Nat) : Int) = .ok (.list ((f.drop 3).map .str)) := by
    intro h
    rw [sliceFrom_list (by simpa using h), List.map_drop]
  have hfl : (f.map Val.str).length = f.length := by simp
  have h0 := hi 0
  have h1 := hi 1
  have h2 := hi 2
  have h9 := hi (f.length - 1)
  have hlast : f.getD (f.length - 1) [] = f.getLastD [] := by
    rw [List.getD_eq_getElem?_getD, List.getLastD_eq_getLast?, List.getLast?_eq_getElem?]
  rw [hlast] at h9
  generalize hg : f.map Val.str = fv at *
  clear hi
  simp -implicitDefEqProofs only [src, List.length_nil, Nat.cast_zero] at ht
  by_cases hc : f.length > 2
  · have hc' : (2 : Int) < (f.length : Int) := by omega
    have hw : wrapInt ((f.length : Int) - 1) = ((f.length - 1 : Nat) : Int) := by rw [wrapInt_of] <;> omega
    have h0 := h0 (by omega)
    have h1 := h1 (by omega)
    have h2 := h2 (by omega)
    have h9 := h9 (by omega)
    have hj := hj (by omega)
    simp only [Nat.cast_zero, Nat.cast_one, Nat.cast_ofNat] at h0 h1 h2 hj
    have hr := lib_contains_text W (f.getLastD []) 114 101 [115, 101, 114, 118, 101, 100]
    have hd := lib_contains_text W (f.getLastD []) 100 101 [97, 100]
    rw [← str_reserved] at hr
    rw [← str_dead] at hd
    generalize f.getLastD [] = last at *
    generalize containsText last (str "reserved") = br at *
    generalize containsText last (str "dead") = bd at *
    generalize f.getD 0 [] = s0 at *
    generalize f.getD 1 [] = s1 at *
    generalize f.getD 2 [] = s2 at *
    by_cases hbr : br = true
    · refine ⟨.list fv, c10, .bool false, b12, b13, b14, b15, b16, ?_⟩
      simp -implicitDefEqProofs [src, bip44_generateFileFromSlip44MD_body2, str_bar, hsl, ht, hfl, hc, hc', hw, h9, hr, hbr, Val.toInt?]
    by_cases hbd : bd = true
    · refine ⟨.list fv, c10, .bool false, b12, b13, b14, b15, b16, ?_⟩
      simp -implicitDefEqProofs [src, bip44_generateFileFromSlip44MD_body2, str_bar, hsl, ht, hfl, hc, hc', hw, h9, hr, hd, hbr, hbd, Val.toInt?]
    rw [Bool.not_eq_true] at hbr hbd
    subst hbr hbd
    cases hp : parseUint32 s0 with
    | none =>
      obtain ⟨m, e, hq⟩ := parseUint_none hp
      refine ⟨.list fv, c10, .bool true, coinVal ⟨0, 0, [], []⟩, .u64 (UInt64.ofNat m), .err (some e), b15, b16, ?_⟩
      simp -implicitDefEqProofs [src, bip44_generateFileFromSlip44MD_body2, str_bar, hsl, ht, hfl, hc, hc', hw, h9, hr, hd, Val.toInt?, h0, hq, coinVal]
    | some m =>
      have hq := parseUint_some hp
      have hm := parseUint32_lt hp
      have hcm := conv_parsed hm
      cases hp' : parseUint32 s1 with
      | none =>
        obtain ⟨k, e, hq'⟩ := parseUint_none hp'
        refine ⟨.list fv, c10, .bool true, .list [.u32 (UInt32.ofNat m), convTo .u32 ((UInt64.ofNat k).toNat : Int), .str [], .str []],
          .u64 (UInt64.ofNat m), .err none, .u64 (UInt64.ofNat k), .err (some e), ?_⟩
        simp -implicitDefEqProofs [src, bip44_generateFileFromSlip44MD_body2, str_bar, hsl, ht, hfl, hc, hc', hw, h9, hr, hd, Val.toInt?, h0, h1, hq, hq', hcm,
          -UInt64.toNat_ofNat']
      | some k =>
        have hq' := parseUint_some hp'
        have hk := parseUint32_lt hp'
        have hck := conv_parsed hk
        by_cases h3 : f.length = 3
        · have h3' := eq_true (show (f.length : Int) = 3 by omega)
          have h3 := eq_true h3
          refine ⟨.list fv, c10, .bool true, .list [.u32 (UInt32.ofNat m), .u32 (UInt32.ofNat k), .str [], .str s2],
            .u64 (UInt64.ofNat m), .err none, .u64 (UInt64.ofNat k), .err none, ?_⟩
          by_cases hn : s2 = []
          · simp -implicitDefEqProofs [src, bip44_generateFileFromSlip44MD_body2, str_bar, hsl, ht, hfl, hc, hc', hw, h9, hr, hd, Val.toInt?, h0, h1, h2, hq, hq', hcm,
              hck, h3, h3', hn, -UInt64.toNat_ofNat']
          · simp -implicitDefEqProofs [src, bip44_generateFileFromSlip44MD_body2, str_bar, hsl, ht, hfl, hc, hc', hw, h9, hr, hd, Val.toInt?, h0, h1, h2, hq, hq', hcm,
              hck, h3, h3', hn, -UInt64.toNat_ofNat', coinVal]
        · have h3' : ¬ (f.length : Int) = 3 := by omega
          have hjn : strings ((f.drop 3).map .str) = some (f.drop 3) := strings_map _
          generalize (f.drop 3).map Val.str = dv at *
          generalize hnm : joinByte 32 (f.drop 3) = nm at *
          refine ⟨.list fv, c10, .bool true, .list [.u32 (UInt32.ofNat m), .u32 (UInt32.ofNat k), .str s2, .str nm],
            .u64 (UInt64.ofNat m), .err none, .u64 (UInt64.ofNat k), .err none, ?_⟩
          by_cases hn : s2 = []
          · by_cases hn' : nm = []
            · simp -implicitDefEqProofs [src, bip44_generateFileFromSlip44MD_body2, str_bar, hsl, ht, hfl, hc, hc', hw, h9, hr, hd, Val.toInt?, h0, h1, h2, hj, hq,
                hq', hcm, hck, h3, h3', hjn, hnm, hn, hn', -UInt64.toNat_ofNat', coinVal]
            · simp -implicitDefEqProofs [src, bip44_generateFileFromSlip44MD_body2, str_bar, hsl, ht, hfl, hc, hc', hw, h9, hr, hd, Val.toInt?, h0, h1, h2, hj, hq,
                hq', hcm, hck, h3, h3', hjn, hnm, hn, hn', -UInt64.toNat_ofNat', coinVal]
          · simp -implicitDefEqProofs [src, bip44_generateFileFromSlip44MD_body2, str_bar, hsl, ht, hfl, hc, hc', hw, h9, hr, hd, Val.toInt?, h0, h1, h2, hj, hq,
              hq', hcm, hck, h3, h3', hjn, hnm, hn, -UInt64.toNat_ofNat', coinVal]
  · have hc' : ¬ ((2 : Int) < (f.length : Int)) := by omega
    refine ⟨.list fv, c10, .bool false, b12, b13, b14, b15, b16, ?_⟩
    simp -implicitDefEqProofs [src, bip44_generateFileFromSlip44MD_body2, str_bar, hsl, ht, hfl, hc, hc']

theorem script_lines (call : Fn → List Val → Res (List Val)) (a0 a1 a3 a4 a5 a6 a7 b17 b18 b19 : Val) (lines : List Bytes) (hl : ∀ l ∈ lines, l.length < 2 ^ 62) :
    ∀ (i : Int) (cs : List Coin) (b8 b9 b10 b11 b12 b13 b14 b15 b16 : Val),
      ∃ c8 c9 c10 c11 c12 c13 c14 c15 c16, iter (exec W L call bip44_generateFileFromSlip44MD_body2) none (some 8) i (lines.map .str)
          [a0, a1, .list (cs.map coinVal), a3, a4, a5, a6, a7, b8, b9, b10, b11, b12, b13, b14, b15, b16, b17, b18, b19] =
        .ok (.next [a0, a1, .list ((cs ++ lines.filterMap genLine).map coinVal), a3, a4, a5, a6, a7, c8, c9, c10, c11, c12, c13, c14, c15, c16, b17, b18, b19]) := by
  induction lines with
  | nil =>
    intro i cs b8 b9 b10 b11 b12 b13 b14 b15 b16
    exact ⟨b8, b9, b10, b11, b12, b13, b14, b15, b16, by simp [iter]⟩
  | cons l lines ih =>
    intro i cs b8 b9 b10 b11 b12 b13 b14 b15 b16
    obtain ⟨c9, c10, c11, c12, c13, c14, c15, c16, hb⟩ :=
      script_line W L call a0 a1 a3 a4 a5 a6 a7 (cs.map coinVal) l (hl l (by simp)) b9 b10 b11 b12 b13 b14 b15 b16 b17 b18 b19
    obtain ⟨d8, d9, d10, d11, d12, d13, d14, d15, d16, hi⟩ :=
      ih (fun l' h => hl l' (by simp [h])) (i + 1) (cs ++ (genLine l).toList) (.str l) c9 c10 c11 c12 c13 c14 c15 c16
    refine ⟨d8, d9, d10, d11, d12, d13, d14, d15, d16, ?_⟩
    rw [List.map_append] at hi
    simp only [List.map_cons, iter, setOpt, List.set_cons_succ, List.set_cons_zero, hb, bind_ok, again_next, hi]
    have : (genLine l).toList ++ lines.filterMap genLine = (l :: lines).filterMap genLine := by
      cases h : genLine l <;> simp [h]
    rw [← this, List.append_assoc]

theorem script_write (n : Nat) (a0 a1 a2 a3 a4 a5 a6 a7 a8 a9 a10 a11 a12 a13 a14 a15 a16 : Val) (cs : List Coin) :
    ∀ (i : Int) (t : Bytes) (b18 b19 : Val),
      ∃ c18 c19, iter (exec W L (run W L (n + 1)) bip44_generateFileFromSlip44MD_body3) none (some 18) i (cs.map coinVal)
          [a0, a1, a2, a3, a4, a5, a6, a7, a8, a9, a10, a11, a12, a13, a14, a15, a16, .str t, b18, b19] =
        .ok (.next [a0, a1, a2, a3, a4, a5, a6, a7, a8, a9, a10, a11, a12, a13, a14, a15, a16, .str (t ++ cs.flatMap fun c => c.stringForMD ++ str ",\n"),
          c18, c19]) := by
  induction cs with
  | nil => intro i t b18 b19; exact ⟨b18, b19, by simp [iter]⟩
  | cons c cs ih =>
    intro i t b18 b19
    obtain ⟨c18, c19, hi⟩ := ih (i + 1) (t ++ (c.stringForMD ++ str ",\n")) (coinVal c) (.str c.stringForMD)
    refine ⟨c18, c19, ?_⟩
    have hb : exec W L (run W L (n + 1)) bip44_generateFileFromSlip44MD_body3
        [a0, a1, a2, a3, a4, a5, a6, a7, a8, a9, a10, a11, a12, a13, a14, a15, a16, .str t, coinVal c, b19] =
        .ok (.next [a0, a1, a2, a3, a4, a5, a6, a7, a8, a9, a10, a11, a12, a13, a14, a15, a16, .str (t ++ (c.stringForMD ++ str ",\n")), coinVal c,
          .str c.stringForMD]) := by
      simp -implicitDefEqProofs [src, bip44_generateFileFromSlip44MD_body3, coin_StringForMD]
    simp only [List.map_cons, iter, setOpt, List.set_cons_succ, List.set_cons_zero, hb, bind_ok, again_next, hi]
    simp

theorem splitByte_line_length (c : UInt8) (s : Bytes) : ∀ l ∈ splitByte c s, l.length ≤ s.length := by
  fun_induction splitByte c s <;> simp_all <;> grind

theorem script_run (n : Nat) (file old : Bytes) (h : file.length < 2 ^ 62) :
    run W L (n + 2) .bip44_generateFileFromSlip44MD [.bytes file, .bytes old] = .ok [.bytes file, .bytes (generateFile file)] := by
  obtain ⟨c8, c9, c10, c11, c12, c13, c14, c15, c16, hi⟩ := script_lines W L (run W L (n + 1)) (.bytes file) (.bytes old) (.bytes file) (.err none) .nil (.str file)
    (.list ((splitByte 10 file).map .str)) .nil .nil .nil (splitByte 10 file) (fun l hl => lt_of_le_of_lt (splitByte_line_length 10 file l hl) h) 0 []
    .nil .nil .nil .nil .nil .nil .nil .nil .nil
  obtain ⟨c18, c19, hw⟩ := script_write W L n (.bytes file) (.bytes old) (.list (((splitByte 10 file).filterMap genLine).map coinVal)) (.bytes file) (.err none) .nil
    (.str file) (.list ((splitByte 10 file).map .str)) c8 c9 c10 c11 c12 c13 c14 c15 c16 ((splitByte 10 file).filterMap genLine) 0 [] .nil .nil
  rw [run_succ, generateFile]
  rw [List.nil_append] at hi hw
  generalize ((splitByte 10 file).filterMap genLine).flatMap (fun c => c.stringForMD ++ str ",\n") = t at *
  generalize ((splitByte 10 file).filterMap genLine).map coinVal = cv at *
  rw [List.map_nil] at hi
  generalize hlv : (splitByte 10 file).map Val.str = lv at *
  simp -implicitDefEqProofs only [src, bip44_generateFileFromSlip44MD, hlv, hi, hw]

end Bips.Src
