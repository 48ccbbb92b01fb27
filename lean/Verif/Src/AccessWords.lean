import Verif.Src.Access
import Verif.Src.Slide
import Verif.Model.MapFatal

/-!
# The accesses of the functions of package bip39
-/

set_option linter.unusedSimpArgs false

namespace Bips.Src

variable (W : World) (L : Nat)

/-- The words inserted one after the other, numbered from `i` on (bip39/bip39.go:81-83). -/
def inserts {α : Type} : List Bytes → Nat → Access α → Access α
  | [], _, t => t
  | v :: vs, i, t => .insert v i (inserts vs (i + 1) t)

/-- The words looked up one after the other, up to the first that is not found; what follows depends on the results (bip39/bip39.go:127-131). -/
def lookups {α : Type} : List Bytes → List (Option Nat) → (List (Option Nat) → Access α) → Access α
  | [], got, k => k got
  | w :: ws, got, k => .readMap w fun r => match r with
    | none => k (got ++ [none])
    | some x => lookups ws (got ++ [some x]) k

/-- `n` words taken from the list, for the number `d`, up to the first index beyond its end; what follows depends on the lists (bip39/bip39.go:192-209). -/
def picks {α : Type} : Nat → Nat → List (List Bytes) → (List (List Bytes) → Access α) → Access α
  | 0, _, got, k => k got
  | n + 1, d, got, k => .readList fun l => match l[setBytes (padByteSlice (bigBytes (d &&& 2047)) 2)]? with
    | none => k (got ++ [l])
    | some _ => picks n (d / 2048) (got ++ [l]) k

/-! ### SetWordList, GetWordList, GetWordIndex -/

theorem inserts_iter (v0 v1 v2 : Val) (ws : List Bytes) : ∀ (i : Nat) (v3 v4 : Val) (f : Flow → Access (List Val)), (∀ e, f (.next e) = .leaf (.ok [])) →
    (accIter (ownS W bip39_SetWordList_body1) (some 3) (some 4) i (ws.map .str) [v0, v1, v2, v3, v4]).bind f = inserts ws i (.leaf (.ok [])) := by
  induction ws with
  | nil => intro i v3 v4 f hf; exact hf _
  | cons w ws ih =>
    intro i v3 v4 f hf
    have := ih (i + 1) (.int i) (.str w) f hf
    simp only [List.map_cons, accIter, src, bip39_SetWordList_body1, ownS, ownE, inserts, Int.toNat_natCast] at this ⊢
    simpa using this

theorem acc_SetWordList (n : Nat) (a b : Val) (list : List Bytes) :
    accRun W L (n + 1) .bip39_SetWordList [a, b, .list (list.map .str)] =
      .writeList list (.newMap (.readList fun l => inserts l 0 (.leaf (.ok [])))) := by
  simp -implicitDefEqProofs only [accRun, src, bip39_SetWordList, ownS, ownE, bind_assoc]
  congr 3
  funext l
  have := inserts_iter W a b (.list (list.map .str)) l 0 .nil .nil
    (fun f => (f.accThen (ownS W (.ret ⟪.var 0, .var 1⟫))).bind fun r => .leaf (Flow.result r)) (fun _ => rfl)
  simpa using this

theorem acc_GetWordList (n : Nat) : accRun W L (n + 1) .bip39_GetWordList [] = .readList fun l => .leaf (.ok [.list (l.map .str)]) := by
  rw [accRun_succ _ _ _ _ _ (by intro h; cases h)]
  simp -implicitDefEqProofs only [src, bip39_GetWordList, accS, accE, accGlob]

theorem acc_GetWordIndex (n : Nat) (w : Bytes) : accRun W L (n + 1) .bip39_GetWordIndex [.str w] =
    .readMap w fun r => .leaf (.ok [.int (r.getD 0), .bool r.isSome]) := by
  rw [accRun_succ _ _ _ _ _ (by intro h; cases h)]
  simp -implicitDefEqProofs only [src, bip39_GetWordIndex, accS, accE, accLib]
  congr 1
  funext r
  cases r <;> simp -implicitDefEqProofs [src, found]

/-! ### EntropyFromMnemonic -/

theorem acc_entropy_iter (call : Fn → List Val → Access (List Val)) (v0 v1 v2 v8 v9 v10 v11 v12 v13 v14 v15 : Val) (f : Flow → Access (List Val))
    (k : List (Option Nat) → Access (List Val)) (l : List Bytes) :
    ∀ (i : Int) (wb : Bytes) (b : Nat) (v5 v6 v7 : Val) (got : List (Option Nat)), wb.length = 2 →
      (∀ xs : List Nat, ∀ w ws, l = l.take xs.length ++ w :: ws →
        f (.ret [.bytes [], .err (some (.unknownWord w))]) = k (got ++ xs.map some ++ [none])) →
      (∀ xs : List Nat, ∀ b', xs.length = l.length → decodeWordsRacing ((xs.map some).map fun x _ => x) l b = .inl b' →
        ∀ w3 w5 w6 w7, f (.next [v0, v1, v2, w3, .big b', w5, w6, w7, v8, v9, v10, v11, v12, v13, v14, v15]) = k (got ++ xs.map some)) →
      (accIter (accS W L call bip39_EntropyFromMnemonic_body1) none (some 5) i (l.map .str)
        [v0, v1, v2, .bytes wb, .big b, v5, v6, v7, v8, v9, v10, v11, v12, v13, v14, v15]).bind f = lookups l got k := by
  have h2 : ∀ a b, big2 (fun a b => .ok (.big (a * b))) (.big a) (.big b) = .ok (.big (a * b)) := fun _ _ => rfl
  have h3 : ∀ a b, big2 (fun a b => .ok (.big (a ||| b))) (.big a) (.big b) = .ok (.big (a ||| b)) := fun _ _ => rfl
  induction l with
  | nil =>
    intro i wb b v5 v6 v7 got hwb _ hn
    simpa [accIter, lookups, src] using hn [] b rfl rfl (.bytes wb) v5 v6 v7
  | cons w l ih =>
    intro i wb b v5 v6 v7 got hwb hr hn
    have hb : accS W L call bip39_EntropyFromMnemonic_body1
          [v0, v1, v2, .bytes wb, .big b, .str w, v6, v7, v8, v9, v10, v11, v12, v13, v14, v15] =
        .readMap w fun r => match r with
          | none => .leaf (.ok (.ret [.bytes [], .err (some (.unknownWord w))]))
          | some x => .leaf (.ok (.next [v0, v1, v2, .bytes (beBytes 2 (x % 65536)), .big (b * 2048 ||| setBytes (beBytes 2 (x % 65536))), .str w, .int x,
            .bool true, v8, v9, v10, v11, v12, v13, v14, v15])) := by
      have hwl : ¬ wb.length < 2 := by omega
      have hd : wb.drop 2 = [] := List.drop_eq_nil_of_le (by omega)
      simp -implicitDefEqProofs only [src, bip39_EntropyFromMnemonic_body1, accS, accE, accLib]
      congr 1
      funext r
      rcases r with _ | x
      · simp -implicitDefEqProofs only [src, found, accS, accE, accLib, accGlob]
      · have hu : (UInt16.ofNat x).toNat = x % 65536 := by simp
        have hs := sliceFrom_bytes_int (b := beBytes 2 (x % 65536)) (lo := 0) (by simp) (by simp)
        simp -implicitDefEqProofs only [src, found, accS, accE, accLib, accGlob, hwl, hd, conv_u16_nat, hu, h2, h3, hs, List.append_nil, Int.toNat_zero,
          List.drop_zero]
    simp only [List.map_cons, accIter, src, hb, lookups]
    congr 1
    funext r
    rcases r with _ | x
    · simpa [src] using hr [] w l rfl
    · simp only [src]
      refine ih (i + 1) _ _ _ _ _ (got ++ [some x]) (by simp) ?_ ?_
      · intro xs w' ws' hl
        have := hr (x :: xs) w' ws' (by simpa using hl)
        simpa using this
      · intro xs b' hlen hdec w3 w5 w6 w7
        have := hn (x :: xs) b' (by simpa using hlen) (by simpa [decodeWordsRacing] using hdec) w3 w5 w6 w7
        simpa using this

theorem decodeRacing_lt (l : List Bytes) : ∀ (ms : List (Bytes → Option Nat)) (b m b' : Nat), b < 2 ^ m → 16 ≤ m →
    decodeWordsRacing ms l b = .inl b' → b' < 2 ^ (m + 11 * l.length) := by
  induction l with
  | nil => intro ms b m b' hb hm h; cases ms <;> simp_all [decodeWordsRacing]
  | cons w l ih =>
    intro ms b m b' hb hm h
    rcases ms with _ | ⟨f, ms⟩
    · simp [decodeWordsRacing] at h
    · rcases hf : f w with _ | x
      · simp [decodeWordsRacing, hf] at h
      · simp only [decodeWordsRacing, hf] at h
        have h1 : b * 2048 < 2 ^ (m + 11) := by rw [pow_add]; omega
        have h2 : setBytes (beBytes 2 (x % 65536)) < 2 ^ (m + 11) := by
          refine lt_of_lt_of_le (setBytes_lt _) ?_
          rw [beBytes_two_length, show (256 : Nat) ^ 2 = 2 ^ 16 by norm_num]
          exact Nat.pow_le_pow_right (by norm_num) (by omega)
        have := ih ms _ (m + 11) b' (Nat.or_lt_two_pow h1 h2) (by omega) h
        rwa [show m + 11 + 11 * l.length = m + 11 * (w :: l).length by simp; ring] at this

/-- What follows the loop, for each number of words. -/
theorem entropy_rest (call : Fn → List Val → Res (List Val)) (n b len mask sh : Nat) (hcall : call = run W L (n + 1)) (ws : List Bytes) (hlen : ws.length = len) (hl : len < 25)
    (hm : mapGetSem [.list [.int 12, .big 15], .list [.int 15, .big 31], .list [.int 18, .big 63], .list [.int 21, .big 127], .list [.int 24, .big 255]] len =
      .ok (.big mask))
    (hsh : (len = 24 ∧ sh = 1) ∨ (¬ len = 24 ∧ 0 < sh ∧ checksumShift len = some sh ∧
      mapGetSem [.list [.int 12, .big 16], .list [.int 15, .big 8], .list [.int 18, .big 4], .list [.int 21, .big 2]] len = .ok (.big sh)))
    (hlt : b < 2 ^ (16 + 11 * len)) (v0 v2 w3 w5 w6 w7 : Val) :
    (exec W L call (bip39_EntropyFromMnemonic.dropSeq 5) [v0, .list (ws.map .str), v2, w3, .big b, w5, w6, w7, .nil, .nil, .nil, .nil, .nil, .nil, .nil, .nil]).bind Flow.result =
      outcome (both .bytes) (
      let entropy := padByteSlice (bigBytes (b / (mask + 1))) (len / 3 * 4)
      if b &&& mask ≠ ((computeChecksum W.H entropy).headD 0).toNat / sh then .ok (([] : Bytes), some Err.checksumIncorrect) else .ok (entropy, none)) := by
  subst hcall
  dsimp only
  have hbl : (bigBytes (b / (mask + 1))).length < 2 ^ 63 := by
    refine lt_of_le_of_lt (bigBytes_length_le (k := 35) ?_) (by norm_num)
    calc b / (mask + 1) ≤ b := Nat.div_le_self _ _
      _ < 2 ^ (16 + 11 * len) := hlt
      _ ≤ 2 ^ (8 * 35) := Nat.pow_le_pow_right (by norm_num) (by omega)
      _ = 256 ^ 35 := by rw [show (256 : Nat) = 2 ^ 8 from rfl, ← pow_mul]
  have hpad := words_padByteSlice W L n (bigBytes (b / (mask + 1))) (len / 3 * 4) hbl (by omega)
  have ht : (len : Int).tdiv 3 = ((len / 3 : Nat) : Int) := by rw [Int.tdiv_eq_ediv_of_nonneg (by omega)]; omega
  have hw1 : wrapInt ((len / 3 : Nat) : Int) = ((len / 3 : Nat) : Int) := by rw [wrapInt_of] <;> omega
  have hw2 : wrapInt (((len / 3 : Nat) : Int) * 4) = ((len / 3 * 4 : Nat) : Int) := by rw [wrapInt_of] <;> omega
  generalize hent : padByteSlice (bigBytes (b / (mask + 1))) (len / 3 * 4) = ent at *
  have hcl : (computeChecksum W.H ent).length = 32 := by simp [computeChecksum]
  have hx : indexSem (.bytes (computeChecksum W.H ent)) 0 = .ok (.u8 ((computeChecksum W.H ent).headD 0)) := by
    cases hc : computeChecksum W.H ent with
    | nil => rw [hc] at hcl; simp at hcl
    | cons c l => rfl
  generalize (computeChecksum W.H ent).headD 0 = c at *
  have hcw : wrapInt (c.toNat : Int) = (c.toNat : Int) := by
    have := c.toNat_lt
    rw [wrapInt_of] <;> omega
  have hc64 : convTo .i64 (c.toNat : Int) = .i64 (c.toNat : Int) := by simp only [convTo, hcw]
  have hcn : ¬ (c.toNat : Int) < 0 := by omega
  have hbAnd : ∀ a b, big2 (fun a b => .ok (.big (a &&& b))) (.big a) (.big b) = .ok (.big (a &&& b)) := fun _ _ => rfl
  have hbAdd : ∀ a b, big2 (fun a b => .ok (.big (a + b))) (.big a) (.big b) = .ok (.big (a + b)) := fun _ _ => rfl
  have hbDiv : ∀ a b, big2 (fun a b => if b = 0 then .panic else .ok (.big (a / b))) (.big a) (.big b) =
    if b = 0 then .panic else .ok (.big (a / b)) := fun _ _ => rfl
  have hbCmp : ∀ a b, big2 (fun a b => .ok (.int (ordInt (compare a b)))) (.big a) (.big b) = .ok (.int (ordInt (compare a b))) := fun _ _ => rfl
  have hr : List.replicate 2 (0 : UInt8) = [0, 0] := rfl
  have hne : ¬ mask + 1 = 0 := by omega
  rcases hsh with ⟨h24, rfl⟩ | ⟨h24, hs0, hs, hms⟩
  · have h24' : ((len : Int) = 24) = True := by simp [h24]
    by_cases hcmp : b &&& mask = c.toNat
    · simp -implicitDefEqProofs only [src, bip39_EntropyFromMnemonic, Stmt.dropSeq, hm, hbAnd, hbAdd, hbDiv, hbCmp, hne, hpad, ht, hw1, hw2, hx, hcn,
        hc64, h24', ordInt_ne, hcmp, List.length_map, hlen, List.length_map, Int.reduceEq, Int.toNat_natCast, Int.reduceLT, Int.toNat_zero, words_computeChecksum, ne_eq,
        not_true_eq_false, not_false_eq_true, Nat.div_one, outcome, both]
    · simp -implicitDefEqProofs only [src, bip39_EntropyFromMnemonic, Stmt.dropSeq, hm, hbAnd, hbAdd, hbDiv, hbCmp, hne, hpad, ht, hw1, hw2, hx, hcn,
        hc64, h24', ordInt_ne, hcmp, List.length_map, hlen, List.length_map, Int.reduceEq, Int.toNat_natCast, Int.reduceLT, Int.toNat_zero, words_computeChecksum, ne_eq,
        not_true_eq_false, not_false_eq_true, Nat.div_one, outcome, both]
  · have h24' : ¬ (len : Int) = 24 := by omega
    have hs0' : ¬ sh = 0 := by omega
    by_cases hcmp : b &&& mask = c.toNat / sh
    · simp -implicitDefEqProofs only [src, bip39_EntropyFromMnemonic, Stmt.dropSeq, hm, hms, hbAnd, hbAdd, hbDiv, hbCmp, hne, hs0', hpad, ht, hw1, hw2, hx, hcn,
        hc64, h24', ordInt_ne, hcmp, List.length_map, hlen, List.length_map, Int.reduceEq, Int.toNat_natCast, Int.reduceLT, Int.toNat_zero, words_computeChecksum, ne_eq, not_true_eq_false, not_false_eq_true, outcome, both]
    · simp -implicitDefEqProofs only [src, bip39_EntropyFromMnemonic, Stmt.dropSeq, hm, hms, hbAnd, hbAdd, hbDiv, hbCmp, hne, hs0', hpad, ht, hw1, hw2, hx, hcn,
        hc64, h24', ordInt_ne, hcmp, List.length_map, hlen, List.length_map, Int.reduceEq, Int.toNat_natCast, Int.reduceLT, Int.toNat_zero, words_computeChecksum, ne_eq, not_true_eq_false, not_false_eq_true, outcome, both]


theorem decodeRacing_none (l : List Bytes) : ∀ (xs : List Nat) (w : Bytes) (ws : List Bytes) (b : Nat), l = l.take xs.length ++ w :: ws →
    decodeWordsRacing ((xs.map some ++ [none]).map fun x _ => x) l b = .inr (.unknownWord w) := by
  induction l with
  | nil => intro xs w ws b h; simp at h
  | cons v l ih =>
    intro xs w ws b h
    rcases xs with _ | ⟨x, xs⟩
    · simp only [List.length_nil, List.take_zero, List.nil_append, List.cons.injEq] at h
      simp [decodeWordsRacing, h.1]
    · simp only [List.length_cons, List.take_succ_cons, List.cons_append, List.cons.injEq, true_and] at h
      simpa [decodeWordsRacing] using ih xs w ws _ h

theorem acc_EntropyFromMnemonic (n : Nat) (s : Bytes) : accRun W L (n + 2) .bip39_EntropyFromMnemonic [.str s] =
    lookups (lookedUp s) [] fun got => .leaf (outcome (both .bytes) (entropyLookups W.H got s)) := by
  rw [accRun_succ _ _ _ _ _ (by intro h; cases h)]
  have hsplit := accRun_quiet W L (n + 1) .bip39_splitMnemonicWords [.str s] rfl
  rw [words_splitMnemonicWords] at hsplit
  rcases hsp : splitMnemonicWords s with ⟨ws, _ | _⟩
  · rw [hsp] at hsplit
    simp -implicitDefEqProofs [src, bip39_EntropyFromMnemonic, accS, accE, hsplit, lookedUp, entropyLookups, entropyRacing, hsp, lookups, outcome, both]
  · rw [hsp] at hsplit
    have hlook : lookedUp s = ws := by simp [lookedUp, hsp]
    rw [hlook]
    have hlen : ws.length = 12 ∨ ws.length = 15 ∨ ws.length = 18 ∨ ws.length = 21 ∨ ws.length = 24 := by
      unfold splitMnemonicWords at hsp
      simp only at hsp
      split at hsp
      · simp at hsp
      · rename_i hc
        have : fields s = ws := by simpa using hsp
        rw [this] at hc
        omega
    have hr : List.replicate 2 (0 : UInt8) = [0, 0] := rfl
    have hrest : ∀ e, accS W L (accRun W L (n + 1)) (bip39_EntropyFromMnemonic.dropSeq 5) e =
        .leaf (exec W L (run W L (n + 1)) (bip39_EntropyFromMnemonic.dropSeq 5) e) :=
      accS_apart W L _ _ quiet (fun f vs h => accRun_quiet W L (n + 1) f vs h) _ rfl
    have hsplitText : bip39_EntropyFromMnemonic = (bip39_EntropyFromMnemonic.nth 0 ;; bip39_EntropyFromMnemonic.nth 1 ;;
      bip39_EntropyFromMnemonic.nth 2 ;; bip39_EntropyFromMnemonic.nth 3 ;; bip39_EntropyFromMnemonic.nth 4 ;; bip39_EntropyFromMnemonic.dropSeq 5) := rfl
    have hit := acc_entropy_iter W L (accRun W L (n + 1)) (.str s) (.list (ws.map .str)) (.bool true) .nil .nil .nil .nil .nil .nil .nil .nil
      (fun f => (f.accThen (accS W L (accRun W L (n + 1)) (bip39_EntropyFromMnemonic.dropSeq 5))).bind fun r => .leaf (Flow.result r))
      (fun got => .leaf (outcome (both .bytes) (entropyLookups W.H got s))) ws 0 [0, 0] 0 .nil .nil .nil [] rfl
    have hone : (accS W L (accRun W L (n + 1)) bip39_EntropyFromMnemonic [.str s, .nil, .nil, .nil, .nil, .nil, .nil, .nil, .nil, .nil, .nil, .nil, .nil,
        .nil, .nil, .nil]).bind (fun r => .leaf (Flow.result r)) =
        (accIter (accS W L (accRun W L (n + 1)) bip39_EntropyFromMnemonic_body1) none (some 5) 0 (ws.map .str)
          [.str s, .list (ws.map .str), .bool true, .bytes [0, 0], .big 0, .nil, .nil, .nil, .nil, .nil, .nil, .nil, .nil, .nil, .nil, .nil]).bind
        (fun f => (f.accThen (accS W L (accRun W L (n + 1)) (bip39_EntropyFromMnemonic.dropSeq 5))).bind fun r => .leaf (Flow.result r)) := by
      rw [hsplitText]
      generalize bip39_EntropyFromMnemonic.dropSeq 5 = rest
      simp -implicitDefEqProofs only [src, bip39_EntropyFromMnemonic, Stmt.nth, Stmt.dropSeq, accS, accE, accLib, hsplit, hr, Int.reduceLT, Int.toNat_zero,
        bind_assoc]
    refine hone.trans (hit ?_ ?_)
    · intro xs w ws' hl
      simp only [src, entropyLookups, entropyRacing, hsp, decodeRacing_none ws xs w ws' 0 hl, outcome, both]
    · intro xs b' hxl hd w3 w5 w6 w7
      have hlt := decodeRacing_lt ws _ 0 16 b' (by norm_num) (le_refl _) hd
      have key := fun mask sh h1 h2 h3 => entropy_rest W L (run W L (n + 1)) n b' ws.length mask sh rfl ws rfl h1 h2 h3 hlt (.str s) (.bool true) w3 w5 w6 w7
      simp only [accThen_next, hrest, leaf_bind, List.nil_append]
      unfold entropyLookups entropyRacing
      congr 1
      rcases hlen with h | h | h | h | h
      · rw [key 15 16 (by omega) (by rw [h]; rfl) (by rw [h]; exact .inr ⟨by decide, by decide, rfl, rfl⟩)]
        simp only [hsp, h, hd, checksumMask, checksumShift]
        simp
      · rw [key 31 8 (by omega) (by rw [h]; rfl) (by rw [h]; exact .inr ⟨by decide, by decide, rfl, rfl⟩)]
        simp only [hsp, h, hd, checksumMask, checksumShift]
        simp
      · rw [key 63 4 (by omega) (by rw [h]; rfl) (by rw [h]; exact .inr ⟨by decide, by decide, rfl, rfl⟩)]
        simp only [hsp, h, hd, checksumMask, checksumShift]
        simp
      · rw [key 127 2 (by omega) (by rw [h]; rfl) (by rw [h]; exact .inr ⟨by decide, by decide, rfl, rfl⟩)]
        simp only [hsp, h, hd, checksumMask, checksumShift]
        simp
      · rw [key 255 1 (by omega) (by rw [h]; rfl) (by rw [h]; exact .inl ⟨rfl, rfl⟩)]
        simp only [hsp, h, hd, checksumMask, checksumShift]
        simp

theorem lookups_bind {α β : Type} (f : α → Access β) (k : List (Option Nat) → Access α) (ws : List Bytes) :
    ∀ got, (lookups ws got k).bind f = lookups ws got fun g => (k g).bind f := by
  induction ws with
  | nil => intro got; rfl
  | cons w ws ih =>
    intro got
    simp only [lookups, src]
    congr 1
    funext r
    cases r
    · rfl
    · exact ih _

theorem acc_IsMnemonicValid (n : Nat) (s : Bytes) : accRun W L (n + 3) .bip39_IsMnemonicValid [.str s] =
    lookups (lookedUp s) [] fun got => .leaf (outcome (fun r => [.bool r.2.isNone]) (entropyLookups W.H got s)) := by
  rw [accRun_succ _ _ _ _ _ (by intro h; cases h)]
  simp -implicitDefEqProofs only [src, bip39_IsMnemonicValid, accS, accE, accLib, acc_EntropyFromMnemonic, lookups_bind]
  congr 1
  funext got
  rcases entropyLookups W.H got s with ⟨b, _ | e⟩ | _ <;> simp -implicitDefEqProofs [src, outcome, both]

/-! ### NewMnemonic -/

theorem acc_mnemonic_loop (v0 v1 v2 v3 v4 v5 : Val) (n : Nat) (f : Flow → Access (List Val)) (kk : List (List Bytes) → Access (List Val)) (k : Nat)
    (hk : k < 2 ^ 62) :
    ∀ (fuel d : Nat) (acc : List Bytes) (v8 v10 : Val) (got : List (List Bytes)), k < fuel →
      (∀ ls, ls.length ≤ k → encodeWordsRacing ls k d acc = .panic → ls ≠ [] → kk (got ++ ls) = .leaf .panic) →
      (∀ ls ws, ls.length = k → encodeWordsRacing ls k d acc = .ok ws → ∀ w6 w8 w9 w10,
        f (.next [v0, v1, v2, v3, v4, v5, w6, .list (ws.map .str), w8, w9, w10]) = kk (got ++ ls)) →
      (accLoop (fun e => (accE W bip39_NewMnemonic_cond1 e).bind fun v => .leaf (asBool v))
        (accS W L (accRun W L (n + 1)) bip39_NewMnemonic_post1) (accS W L (accRun W L (n + 1)) bip39_NewMnemonic_body1) fuel
        [v0, v1, v2, v3, v4, v5, .big d, .list ((List.replicate k [] ++ acc).map .str), v8, .int ((k : Int) - 1), v10]).bind f = picks k d got kk := by
  have hbAnd : ∀ a b, big2 (fun a b => .ok (.big (a &&& b))) (.big a) (.big b) = .ok (.big (a &&& b)) := fun _ _ => rfl
  have hbDiv : ∀ a b, big2 (fun a b => if b = 0 then .panic else .ok (.big (a / b))) (.big a) (.big b) =
    if b = 0 then .panic else .ok (.big (a / b)) := fun _ _ => rfl
  induction k with
  | zero =>
    intro fuel d acc v8 v10 got hf _ hn
    obtain ⟨fuel, rfl⟩ : ∃ f, fuel = f + 1 := ⟨fuel - 1, by omega⟩
    have hc : ¬ (0 : Int) ≤ ((0 : Nat) : Int) - 1 := by omega
    simp -implicitDefEqProofs only [accLoop, src, bip39_NewMnemonic_cond1, accE, hc, picks]
    simpa using hn [] acc rfl rfl (.big d) v8 (.int (((0 : Nat) : Int) - 1)) v10
  | succ k ih =>
    intro fuel d acc v8 v10 got hf hp hn
    obtain ⟨fuel, rfl⟩ : ∃ f, fuel = f + 1 := ⟨fuel - 1, by omega⟩
    have hlt : d &&& 2047 < 256 ^ 2 := lt_of_le_of_lt Nat.and_le_right (by norm_num)
    have hpl : (padByteSlice (bigBytes (d &&& 2047)) 2).length = 2 := by
      have := bigBytes_length_le hlt
      unfold padByteSlice
      split
      · omega
      · simp only [List.length_append, List.length_replicate]
        omega
    have hpad := accRun_quiet W L (n + 1) .bip39_padByteSlice [.bytes (bigBytes (d &&& 2047)), .int ((2 : Nat) : Int)] rfl
    rw [words_padByteSlice W L n (bigBytes (d &&& 2047)) 2 (by have := bigBytes_length_le hlt; omega) (by omega)] at hpad
    have hsb := setBytes_lt (padByteSlice (bigBytes (d &&& 2047)) 2)
    rw [hpl] at hsb
    have hE : ∀ (l : List Bytes) ls, encodeWordsRacing (l :: ls) (k + 1) d acc = match l[setBytes (padByteSlice (bigBytes (d &&& 2047)) 2)]? with
      | none => .panic
      | some w => encodeWordsRacing ls k (d / 2048) (w :: acc) := fun l ls => rfl
    simp only [picks]
    generalize padByteSlice (bigBytes (d &&& 2047)) 2 = wb at *
    have hpl' : ¬ wb.length < 2 := by omega
    have htake : wb.take 2 = wb := List.take_of_length_le (by omega)
    have hu : (UInt16.ofNat (setBytes wb)).toNat = setBytes wb := by simp; omega
    have hx : ∀ l : List Bytes, indexSem (.list (l.map .str)) (setBytes wb) = match l[setBytes wb]? with
      | some v => .ok (.str v)
      | none => .panic := by
      intro l
      rw [index_map]
      cases l[setBytes wb]? <;> rfl
    have hki : (((k + 1 : Nat) : Int) - 1) = (k : Int) := by omega
    have hk0 : (0 : Int) ≤ (k : Int) := by omega
    have hwr : wrapInt ((k : Int) - 1) = (k : Int) - 1 := by rw [wrapInt_of] <;> omega
    have hset : ∀ w, setIndexSem (.list ((List.replicate (k + 1) [] ++ acc).map .str)) (k : Int) (.str w) =
        .ok (.list ((List.replicate k [] ++ w :: acc).map .str)) := by
      intro w
      rw [setIndex_map Val.str, if_pos (by simp; omega)]
      congr 3
      rw [List.replicate_succ', List.append_assoc, List.set_append_right _ _ (by simp)]
      simp
    generalize (List.replicate (k + 1) [] ++ acc).map Val.str = ls0 at *
    simp only [Nat.cast_ofNat] at hpad
    have hb : accS W L (accRun W L (n + 1)) bip39_NewMnemonic_body1 [v0, v1, v2, v3, v4, v5, .big d, .list ls0, v8, .int (k : Int), v10] =
        .readList fun l => .leaf (match l[setBytes wb]? with
          | none => .panic
          | some w => .ok (.next [v0, v1, v2, v3, v4, v5, .big (d / 2048), .list ((List.replicate k [] ++ w :: acc).map .str),
            .big (d &&& 2047), .int (k : Int), .bytes wb])) := by
      simp -implicitDefEqProofs only [src, bip39_NewMnemonic_body1, accS, accE, accLib, accGlob, hbAnd, hbDiv, hpad, hpl', htake, hu, Nat.reduceEqDiff,
        OfNat.ofNat_ne_zero]
      congr 1
      funext l
      rw [hx]
      rcases l[setBytes wb]? with _ | w
      · rfl
      · simp -implicitDefEqProofs only [src, hset]
    simp -implicitDefEqProofs only [accLoop, src, hki, hb, hk0, bip39_NewMnemonic_cond1, accE]
    congr 1
    funext l
    rcases hl : l[setBytes wb]? with _ | w
    · simp only [src]
      exact (hp [l] (by simp) (by rw [hE, hl]) (by simp)).symm
    · simp -implicitDefEqProofs only [src, bip39_NewMnemonic_post1, accS, accE, hwr]
      have := ih (by omega) fuel (d / 2048) (w :: acc) (.big (d &&& 2047)) (.bytes wb) (got ++ [l]) (by omega)
        (by
          intro ls hls he hne
          have := hp (l :: ls) (by simpa using hls) (by rw [hE, hl]; exact he) (by simp)
          simpa using this)
        (by
          intro ls ws hls he
          have := hn (l :: ls) ws (by simpa using hls) (by rw [hE, hl]; exact he)
          simpa using this)
      exact this

/-- The number of words `NewMnemonic` takes from the list (bip39/bip39.go:170-180). -/
def sentenceOf (entropy : Bytes) : Nat :=
  match validateEntropyBitSize ((entropy.length * 8 : Nat) : Int) with
  | some _ => 0
  | none => (entropy.length * 8 + entropy.length * 8 / 32) / 11

theorem acc_NewMnemonic (hL : 32 < L) (n : Nat) (entropy : Bytes) (hb : entropy.length < 2 ^ 59) :
    accRun W L (n + 3) .bip39_NewMnemonic [.bytes entropy] =
      picks (sentenceOf entropy) (setBytes (addChecksum W.H entropy)) [] fun got =>
        .leaf (outcome (both .str) (newMnemonicRacing W.H got entropy)) := by
  rw [accRun_succ _ _ _ _ _ (by intro h; cases h)]
  have hval := accRun_quiet W L (n + 2) .bip39_validateEntropyBitSize [.int ((entropy.length * 8 : Nat) : Int)] rfl
  rw [words_validateEntropyBitSize] at hval
  have hw1 : wrapInt ((entropy.length : Int) * 8) = ((entropy.length * 8 : Nat) : Int) := by rw [wrapInt_of] <;> omega
  have ht1 : ((entropy.length * 8 : Nat) : Int).tdiv 32 = ((entropy.length * 8 / 32 : Nat) : Int) := by
    rw [Int.tdiv_eq_ediv_of_nonneg (by omega)]; omega
  have hw2 : wrapInt ((entropy.length * 8 / 32 : Nat) : Int) = ((entropy.length * 8 / 32 : Nat) : Int) := by rw [wrapInt_of] <;> omega
  have hw3 : wrapInt (((entropy.length * 8 : Nat) : Int) + ((entropy.length * 8 / 32 : Nat) : Int)) =
      ((entropy.length * 8 + entropy.length * 8 / 32 : Nat) : Int) := by rw [wrapInt_of] <;> omega
  have ht2 : ((entropy.length * 8 + entropy.length * 8 / 32 : Nat) : Int).tdiv 11 =
      (((entropy.length * 8 + entropy.length * 8 / 32) / 11 : Nat) : Int) := by
    rw [Int.tdiv_eq_ediv_of_nonneg (by omega)]; omega
  have hw4 : wrapInt (((entropy.length * 8 + entropy.length * 8 / 32) / 11 : Nat) : Int) =
      (((entropy.length * 8 + entropy.length * 8 / 32) / 11 : Nat) : Int) := by rw [wrapInt_of] <;> omega
  unfold sentenceOf
  rcases hv : validateEntropyBitSize ((entropy.length * 8 : Nat) : Int) with _ | e
  · rw [hv] at hval
    have hlen : entropy.length * 8 ≤ 256 := by
      unfold validateEntropyBitSize at hv
      split at hv
      · simp at hv
      · omega
    have hk24 : (entropy.length * 8 + entropy.length * 8 / 32) / 11 ≤ 24 := by clear hw1 ht1 hw2 hw3 ht2 hw4 hb; omega
    have he4 : entropy.length / 4 < L := by clear hw1 ht1 hw2 hw3 ht2 hw4 hb; omega
    have he63 : entropy.length < 2 ^ 63 := by clear hw1 ht1 hw2 hw3 ht2 hw4; omega
    clear hb
    have hrac : ∀ got, newMnemonicRacing W.H got entropy = match encodeWordsRacing got ((entropy.length * 8 + entropy.length * 8 / 32) / 11)
        (setBytes (addChecksum W.H entropy)) [] with
      | .panic => .panic
      | .ok words => .ok (joinByte 32 words, none) := by
      intro got
      simp only [newMnemonicRacing, hv]
      generalize encodeWordsRacing got _ _ _ = x
      cases x <;> rfl
    generalize hk : (entropy.length * 8 + entropy.length * 8 / 32) / 11 = k at *
    have hkL : k < L := by clear hw1 ht1 hw2 hw3 ht2 hw4; omega
    have hk62 : k < 2 ^ 62 := by clear hw1 ht1 hw2 hw3 ht2 hw4; omega
    have hw5 : wrapInt ((k : Int) - 1) = (k : Int) - 1 := by clear hw1 ht1 hw2 hw3 ht2 hw4; rw [wrapInt_of] <;> omega
    have hkn : ¬ (k : Int) < 0 := by clear hw1 ht1 hw2 hw3 ht2 hw4; omega
    have hadd := accRun_quiet W L (n + 2) .bip39_addChecksum [.bytes entropy] rfl
    rw [words_addChecksum W L n entropy he4 he63] at hadd
    have hlp := acc_mnemonic_loop W L (.bytes (addChecksum W.H entropy)) (.int ((entropy.length * 8 : Nat) : Int))
      (.int ((entropy.length * 8 / 32 : Nat) : Int)) (.int (k : Int)) (.err none) (.bytes (addChecksum W.H entropy)) (n + 1)
      (fun f => (f.accThen (accS W L (accRun W L (n + 2)) (bip39_NewMnemonic.dropSeq 12))).bind fun r => .leaf (Flow.result r))
      (fun got => .leaf (outcome (both .str) (newMnemonicRacing W.H got entropy))) k hk62 L
      (setBytes (addChecksum W.H entropy)) [] (.big 0) .nil [] hkL
    simp only [List.append_nil, List.map_replicate] at hlp
    have hnow := hlp
      (by
        intro ls _ he _
        simp only [List.nil_append, hrac, he, outcome])
      (by
        intro ls ws _ he w6 w8 w9 w10
        have hj := words_join W ws
        simp -implicitDefEqProofs only [src, List.nil_append, hrac, he, outcome, both, bip39_NewMnemonic, Stmt.dropSeq, accS, accE, accLib, hj])
    rw [← hnow]
    simp -implicitDefEqProofs only [src, bip39_NewMnemonic, Stmt.dropSeq, hw1, hw2, hw3, hw4, hw5, ht1, ht2, hval, hadd, hkn, hk, Int.reduceEq,
        Int.reduceLT, Int.toNat_natCast, Int.toNat_zero, accS, accE, accLib, bind_assoc]
  · rw [hv] at hval
    simp -implicitDefEqProofs only [src, bip39_NewMnemonic, hw1, hw2, hw3, hw4, ht1, ht2, hval, hv, Int.reduceEq, outcome, both, accS, accE, accLib,
      picks, newMnemonicRacing]

end Bips.Src
