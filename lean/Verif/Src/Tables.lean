import Verif.Src.Versions
import Verif.Src.Words
import Verif.Src.Coin
import Verif.Model.Bip44

/-!
# The functions that fill the tables, from the text

`SetWordList` and the `init` functions of packages bip39, bip32 and bip44. A map is the list of its entries; a range over a map takes them in
the order of the list, so statements about all orders quantify over lists.
-/

namespace Bips.Src

open Bips (str)

set_option linter.unusedSimpArgs false

variable (W : World) (L : Nat)

/-! ### Maps -/

theorem sameKey_trans (a b k : Val) (h1 : sameKey a k = true) (h2 : sameKey b k = true) : sameKey a b = true := by
  cases a <;> cases k <;> simp_all [sameKey] <;> cases b <;> simp_all [sameKey]

theorem tableGet_set (l : List Val) (k k' v : Val) (hk : ∀ a, sameKey a k = true → sameKey a k' = sameKey k k') :
    tableGet (tableSet l k v) k' = if sameKey k k' then some v else tableGet l k' := by
  fun_induction tableSet l k v with
  | case1 k v => simp [tableGet]
  | case2 a w l k v h => simp only [tableGet, hk a h]; split <;> simp
  | case3 a w l k v h ih =>
    simp only [tableGet, ih hk]
    by_cases h1 : sameKey a k' = true
    · by_cases h2 : sameKey k k' = true
      · exact absurd (sameKey_trans _ _ _ h1 h2) h
      · simp [h1, h2]
    · simp [h1]
  | case4 x l k v hx ih =>
    have : ∀ t, tableGet (x :: t) k' = tableGet t k' := by
      intro t
      rw [tableGet.eq_def]
      split
      · rename_i h; cases h
      · rename_i h; cases h; exact absurd rfl (hx _ _)
      · rename_i h; cases h; rfl
    rw [this, this, ih hk]

theorem tableGet_set_str (l : List Val) (k w : Bytes) (v : Val) :
    tableGet (tableSet l (.str k) v) (.str w) = if w = k then some v else tableGet l (.str w) := by
  rw [tableGet_set]
  · simp only [sameKey, beq_iff_eq, eq_comm (a := k)]
  · intro a ha
    cases a <;> simp_all [sameKey]

theorem tableGet_set_u32 (l : List Val) (k w : UInt32) (v : Val) :
    tableGet (tableSet l (.u32 k) v) (.u32 w) = if w = k then some v else tableGet l (.u32 w) := by
  rw [tableGet_set]
  · simp only [sameKey, beq_iff_eq, eq_comm (a := k)]
  · intro a ha
    cases a <;> simp_all [sameKey]

/-! ### Package bip39 -/

/-- The list of entries is the map. -/
def WordTable (l : List Val) (m : Bytes → Option Nat) : Prop := ∀ w, tableGet l (.str w) = (m w).map fun (i : Nat) => .int i

theorem setWords_iter (call : Fn → List Val → Res (List Val)) (v0 v2 : Val) (ws : List Bytes) :
    ∀ (i : Nat) (v3 v4 : Val) (t : List Val) (m : Bytes → Option Nat), WordTable t m →
      ∃ t' w3 w4, iter (exec W L call bip39_SetWordList_body1) (some 3) (some 4) i (ws.map .str) [v0, .list t, v2, v3, v4] =
          .ok (.next [v0, .list t', v2, w3, w4]) ∧ WordTable t' (fillWordMap ws i m) := by
  induction ws with
  | nil => exact fun i v3 v4 t m h => ⟨t, v3, v4, rfl, h⟩
  | cons w ws ih =>
    intro i v3 v4 t m h
    obtain ⟨t', w3, w4, h1, h2⟩ := ih (i + 1) (.int i) (.str w) (tableSet t (.str w) (.int i)) (fun x => if x = w then some i else m x) (by
      intro x
      rw [tableGet_set_str]
      by_cases hx : x = w
      · simp [hx]
      · simpa [hx] using h x)
    refine ⟨t', w3, w4, ?_, h2⟩
    have hb : exec W L call bip39_SetWordList_body1 [v0, .list t, v2, .int i, .str w] =
        .ok (.next [v0, .list (tableSet t (.str w) (.int i)), v2, .int i, .str w]) := by
      simp -implicitDefEqProofs only [src, bip39_SetWordList_body1]
    simp -implicitDefEqProofs only [iter, src, hb]
    simpa using h1

theorem words_SetWordList (n : Nat) (a b : Val) (list : List Bytes) :
    ∃ t, run W L (n + 1) .bip39_SetWordList [a, b, .list (list.map .str)] = .ok [.list (list.map .str), .list t] ∧
      WordTable t (setWordList list).map := by
  obtain ⟨t, w3, w4, h1, h2⟩ := setWords_iter W L (run W L n) (.list (list.map .str)) (.list (list.map .str)) list 0 .nil .nil [] (fun _ => none)
    (fun _ => rfl)
  refine ⟨t, ?_, h2⟩
  rw [run_succ]
  simp -implicitDefEqProofs only [src, bip39_SetWordList, Nat.cast_zero] at h1 ⊢
  simp -implicitDefEqProofs [src, h1]

theorem words_init (n : Nat) (a b : Val) :
    ∃ t, run W L (n + 2) .bip39_init [a, b] = .ok [.list (english.list.map .str), .list t] ∧ WordTable t (setWordList english.list).map := by
  obtain ⟨t, h1, h2⟩ := words_SetWordList W L n a b english.list
  refine ⟨t, ?_, h2⟩
  rw [run_succ]
  simp -implicitDefEqProofs only [src, bip39_init, globSem, h1]

/-! ### Package bip32 -/

/-- The list of entries is the map; keys that are there have a non-empty slice. -/
def VersionTable (l : List Val) (m : UInt32 → List VersionBytes) : Prop :=
  ∀ k, tableGet l (.u32 k) = if m k = [] then none else some (.list ((m k).map .vb))

theorem VersionTable.get {l : List Val} {m : UInt32 → List VersionBytes} (h : VersionTable l m) (k : UInt32) :
    libSem W .tableGet [.list l, .u32 k, .list []] = .ok (.list [.list ((m k).map .vb), .bool (!(m k).isEmpty)]) := by
  rw [lib_tableGet, h k]
  by_cases hm : m k = []
  · simp [hm]
  · rw [if_neg hm]
    cases hk : m k
    · exact absurd hk hm
    · rfl

theorem VersionTable.set {l : List Val} {m : UInt32 → List VersionBytes} (h : VersionTable l m) (k : UInt32) (v : VersionBytes) :
    VersionTable (tableSet l (.u32 k) (.list ((m k).map .vb ++ [.vb v]))) (mapAppend m k v) := by
  intro k'
  rw [tableGet_set_u32]
  unfold mapAppend
  split
  · next e => subst e; simp
  · exact h k'

/-- The six variables `init` fills, as values. -/
structure VersionTables (r : Registry) (all t1 t2 t3 t4 t5 : List Val) : Prop where
  all : all = r.hdVersionBytesSlice.map .vb
  pvt : VersionTable t1 r.pvtFlag
  pub : VersionTable t2 r.pubFlag
  purpose : VersionTable t3 r.purpose
  full : VersionTable t4 r.purposeFull
  coin : VersionTable t5 r.coinType

/-- No version makes `init` panic. -/
def Harmless : Prop := ∀ h : VersionBytes, h.purposeVal ≠ .panic ∧ h.purposeValFull ≠ .panic ∧ h.coinVal ≠ .panic

theorem init_body (H : Harmless) (n : Nat) (h : VersionBytes) (r : Registry) (v0 v7 v8 v10 v11 v12 v13 v14 v15 v16 v17 v18 v19 : Val)
    (l t1 t2 t3 t4 t5 : List Val) (ht : VersionTables r l t1 t2 t3 t4 t5) :
    ∃ t1' t2' t3' t4' t5' w10 w11 w12 w13 w14 w15 w16 w17 w18 w19, exec W L (run W L (n + 4)) bip32_init_body1
      [v0, .list l, .list t1, .list t2, .list t3, .list t4, .list t5, v7, v8, .vb h, v10, v11, v12, v13, v14, v15, v16, v17, v18, v19] =
    .ok (.next [v0, .list l, .list t1', .list t2', .list t3', .list t4', .list t5', v7, v8, .vb h, w10, w11, w12, w13, w14, w15, w16, w17, w18, w19]) ∧
      VersionTables (r.add h) l t1' t2' t3' t4' t5' := by
  obtain ⟨h1, h2, h3⟩ := H h
  rcases hp : h.purposeVal with ⟨pv, pe⟩ | _
  rotate_left
  · exact absurd hp h1
  rcases hf : h.purposeValFull with ⟨fv, fe⟩ | _
  rotate_left
  · exact absurd hf h2
  rcases hc : h.coinVal with ⟨cv, ce⟩ | _
  rotate_left
  · exact absurd hc h3
  refine ⟨tableSet t1 (.u32 h.pvtKeyFlag) (.list ((r.pvtFlag h.pvtKeyFlag).map .vb ++ [.vb h])),
    tableSet t2 (.u32 h.pubKeyFlag) (.list ((r.pubFlag h.pubKeyFlag).map .vb ++ [.vb h])),
    tableSet t3 (.u32 pv) (.list ((r.purpose pv).map .vb ++ [.vb h])),
    tableSet t4 (.u32 fv) (.list ((r.purposeFull fv).map .vb ++ [.vb h])),
    tableSet t5 (.u32 cv) (.list ((r.coinType cv).map .vb ++ [.vb h])),
    .list ((r.pubFlag h.pubKeyFlag).map .vb), .bool (!(r.pvtFlag h.pvtKeyFlag).isEmpty), .list ((r.pubFlag h.pubKeyFlag).map .vb),
    .bool (!(r.pubFlag h.pubKeyFlag).isEmpty), .u32 pv, .err pe, .u32 fv, .err fe, .u32 cv, .err ce, ?_, ht.all, ht.pvt.set _ _, ht.pub.set _ _, ?_, ?_, ?_⟩
  · simp -implicitDefEqProofs [src, bip32_init_body1, ht.pvt.get, ht.pub.get, ht.purpose.get, ht.full.get, ht.coin.get, version_PurposeVal,
      version_PurposeValFull, version_CoinVal, hp, hf, hc, outcome, both]
  · simpa [Registry.add, hp, ignoreErr] using ht.purpose.set pv h
  · simpa [Registry.add, hf, ignoreErr] using ht.full.set fv h
  · simpa [Registry.add, hc, ignoreErr] using ht.coin.set cv h

theorem init_inner (H : Harmless) (n : Nat) (v0 v7 v8 : Val) (hs : List VersionBytes) :
    ∀ (i : Int) (r : Registry) (v9 v10 v11 v12 v13 v14 v15 v16 v17 v18 v19 : Val) (l t1 t2 t3 t4 t5 : List Val), VersionTables r l t1 t2 t3 t4 t5 →
    ∃ t1' t2' t3' t4' t5' w9 w10 w11 w12 w13 w14 w15 w16 w17 w18 w19, iter (exec W L (run W L (n + 4)) bip32_init_body1) none (some 9) i (hs.map .vb)
      [v0, .list l, .list t1, .list t2, .list t3, .list t4, .list t5, v7, v8, v9, v10, v11, v12, v13, v14, v15, v16, v17, v18, v19] =
    .ok (.next [v0, .list l, .list t1', .list t2', .list t3', .list t4', .list t5', v7, v8, w9, w10, w11, w12, w13, w14, w15, w16, w17, w18, w19]) ∧
      VersionTables (hs.foldl Registry.add r) l t1' t2' t3' t4' t5' := by
  induction hs with
  | nil =>
    intro i r v9 v10 v11 v12 v13 v14 v15 v16 v17 v18 v19 l t1 t2 t3 t4 t5 ht
    exact ⟨t1, t2, t3, t4, t5, v9, v10, v11, v12, v13, v14, v15, v16, v17, v18, v19, rfl, ht⟩
  | cons h hs ih =>
    intro i r v9 v10 v11 v12 v13 v14 v15 v16 v17 v18 v19 l t1 t2 t3 t4 t5 ht
    obtain ⟨t1, t2, t3, t4, t5, w10, w11, w12, w13, w14, w15, w16, w17, w18, w19, hb, ht⟩ :=
      init_body W L H n h r v0 v7 v8 v10 v11 v12 v13 v14 v15 v16 v17 v18 v19 l t1 t2 t3 t4 t5 ht
    obtain ⟨t1, t2, t3, t4, t5, u9, u10, u11, u12, u13, u14, u15, u16, u17, u18, u19, hi, ht⟩ :=
      ih (i + 1) (r.add h) (.vb h) w10 w11 w12 w13 w14 w15 w16 w17 w18 w19 l t1 t2 t3 t4 t5 ht
    refine ⟨t1, t2, t3, t4, t5, u9, u10, u11, u12, u13, u14, u15, u16, u17, u18, u19, ?_, ht⟩
    simp only [List.map_cons, iter, src, hb]
    exact hi

/-- The entries of the table `init` ranges over, as values. -/
def entryVal (e : Bytes × List VersionBytes) : Val := .list [.str e.1, .list (e.2.map .vb)]

theorem init_outer (H : Harmless) (n : Nat) (v0 : Val) (es : List (Bytes × List VersionBytes)) :
    ∀ (i : Int) (r : Registry) (v7 v8 v9 v10 v11 v12 v13 v14 v15 v16 v17 v18 v19 : Val) (l t1 t2 t3 t4 t5 : List Val), VersionTables r l t1 t2 t3 t4 t5 →
    ∃ l' t1' t2' t3' t4' t5' w7 w8 w9 w10 w11 w12 w13 w14 w15 w16 w17 w18 w19,
      iter (exec W L (run W L (n + 4)) bip32_init_body2) none (some 7) i (es.map entryVal)
      [v0, .list l, .list t1, .list t2, .list t3, .list t4, .list t5, v7, v8, v9, v10, v11, v12, v13, v14, v15, v16, v17, v18, v19] =
    .ok (.next [v0, .list l', .list t1', .list t2', .list t3', .list t4', .list t5', w7, w8, w9, w10, w11, w12, w13, w14, w15, w16, w17, w18, w19]) ∧
      VersionTables (es.foldl Registry.addEntry r) l' t1' t2' t3' t4' t5' := by
  induction es with
  | nil =>
    intro i r v7 v8 v9 v10 v11 v12 v13 v14 v15 v16 v17 v18 v19 l t1 t2 t3 t4 t5 ht
    exact ⟨l, t1, t2, t3, t4, t5, v7, v8, v9, v10, v11, v12, v13, v14, v15, v16, v17, v18, v19, rfl, ht⟩
  | cons e es ih =>
    intro i r v7 v8 v9 v10 v11 v12 v13 v14 v15 v16 v17 v18 v19 l t1 t2 t3 t4 t5 ht
    have ht' : VersionTables { r with hdVersionBytesSlice := r.hdVersionBytesSlice ++ e.2 } (l ++ e.2.map .vb) t1 t2 t3 t4 t5 :=
      ⟨by simp [ht.all], ht.pvt, ht.pub, ht.purpose, ht.full, ht.coin⟩
    obtain ⟨t1', t2', t3', t4', t5', w9, w10, w11, w12, w13, w14, w15, w16, w17, w18, w19, hb, ht'⟩ :=
      init_inner W L H n v0 (entryVal e) (.list (e.2.map .vb)) e.2 0 _ v9 v10 v11 v12 v13 v14 v15 v16 v17 v18 v19 _ t1 t2 t3 t4 t5 ht'
    obtain ⟨l', t1'', t2'', t3'', t4'', t5'', u7, u8, u9, u10, u11, u12, u13, u14, u15, u16, u17, u18, u19, hi, ht''⟩ :=
      ih (i + 1) (r.addEntry e) (entryVal e) (.list (e.2.map .vb)) w9 w10 w11 w12 w13 w14 w15 w16 w17 w18 w19 _ t1' t2' t3' t4' t5' ht'
    refine ⟨l', t1'', t2'', t3'', t4'', t5'', u7, u8, u9, u10, u11, u12, u13, u14, u15, u16, u17, u18, u19, ?_, ht''⟩
    have hbody : exec W L (run W L (n + 4)) bip32_init_body2
        [v0, .list l, .list t1, .list t2, .list t3, .list t4, .list t5, entryVal e, v8, v9, v10, v11, v12, v13, v14, v15, v16, v17, v18, v19] =
      .ok (.next [v0, .list (l ++ e.2.map .vb), .list t1', .list t2', .list t3', .list t4', .list t5', entryVal e, .list (e.2.map .vb), w9, w10, w11, w12,
        w13, w14, w15, w16, w17, w18, w19]) := by
      have he : libSem W (.field 1) [entryVal e] = .ok (.list (e.2.map .vb)) := rfl
      simp -implicitDefEqProofs only [src, bip32_init_body2, he]
      exact hb
    simp only [List.map_cons, iter, src, hbody]
    exact hi

theorem version_init (H : Harmless) (n : Nat) (order : List (Bytes × List VersionBytes)) :
    ∃ l t1 t2 t3 t4 t5, run W L (n + 5) .bip32_init [.list (order.map entryVal), .list [], .list [], .list [], .list [], .list [], .list []] =
        .ok [.list (order.map entryVal), .list l, .list t1, .list t2, .list t3, .list t4, .list t5] ∧
      VersionTables (Registry.init order) l t1 t2 t3 t4 t5 := by
  obtain ⟨l, t1, t2, t3, t4, t5, u7, u8, u9, u10, u11, u12, u13, u14, u15, u16, u17, u18, u19, hi, ht⟩ :=
    init_outer W L H n (.list (order.map entryVal)) order 0 {} .nil .nil .nil .nil .nil .nil .nil .nil .nil .nil .nil .nil .nil [] [] [] [] [] []
      ⟨rfl, fun _ => rfl, fun _ => rfl, fun _ => rfl, fun _ => rfl, fun _ => rfl⟩
  refine ⟨l, t1, t2, t3, t4, t5, ?_, ht⟩
  rw [run_succ]
  simp -implicitDefEqProofs only [src, bip32_init] at hi ⊢
  simp -implicitDefEqProofs [src, hi]

/-! ### Package bip44 -/

/-- The list of entries is the map. -/
def CoinTable {K : Type} (key : K → Val) (l : List Val) (m : K → Option Coin) : Prop := ∀ k, tableGet l (key k) = (m k).map coinVal

theorem coin_less (n : Nat) (cs : List Coin) (i j : Nat) (a b : Coin) (ha : cs[i]? = some a) (hb : cs[j]? = some b) :
    run W L (n + 1) .bip44_less [.list (cs.map coinVal), .int i, .int j] = .ok [.list (cs.map coinVal), .bool (decide (a.name < b.name))] := by
  rw [run_succ]
  have h1 : ∀ (i : Nat) (a : Coin), cs[i]? = some a → indexSem (.list (cs.map coinVal)) i = .ok (coinVal a) := by
    intro i a ha
    rw [index_map, ha]
  simp -implicitDefEqProofs [src, bip44_less, h1 i a ha, h1 j b hb]
  rfl

theorem CoinTable.set_u32 {l : List Val} {m : UInt32 → Option Coin} (h : CoinTable .u32 l m) (k : UInt32) (c : Coin) :
    CoinTable .u32 (tableSet l (.u32 k) (coinVal c)) (mapSet m k c) := by
  intro k'
  rw [tableGet_set_u32]
  unfold mapSet
  by_cases hk : k' = k
  · simp [hk]
  · simpa [hk] using h k'

theorem CoinTable.set_str {l : List Val} {m : Bytes → Option Coin} (h : CoinTable .str l m) (k : Bytes) (c : Coin) :
    CoinTable .str (tableSet l (.str k) (coinVal c)) (mapSet m k c) := by
  intro k'
  rw [tableGet_set_str]
  unfold mapSet
  by_cases hk : k' = k
  · simp [hk]
  · simpa [hk] using h k'

/-- The four variables `init` fills, as values; `todo` are the coins it has not come to. -/
structure CoinTables (r : CoinReg) (todo : List Coin) (all t1 t2 t3 : List Val) : Prop where
  all : all = (r.coins ++ todo).map coinVal
  type : CoinTable .u32 t1 r.byType
  name : CoinTable .str t2 r.byName
  path : CoinTable .u32 t3 r.byPathComponent

theorem coins_body (n : Nat) (c : Coin) (todo : List Coin) (r : CoinReg) (v5 : Val) (l t1 t2 t3 : List Val) (ht : CoinTables r (c :: todo) l t1 t2 t3) :
    ∃ l' t1' t2' t3' w5, exec W L (run W L (n + 1)) bip44_init_body1 [.list l, .list t1, .list t2, .list t3, .int r.coins.length, v5] =
        .ok (.next [.list l', .list t1', .list t2', .list t3', .int r.coins.length, w5]) ∧
      CoinTables (r.add c) todo l' t1' t2' t3' ∧ (r.add c).coins.length = r.coins.length + 1 := by
  have hi : indexSem (.list l) (r.coins.length : Nat) = .ok (coinVal c) := by
    rw [ht.all, index_map]
    simp
  have hs : setIndexSem (.list l) (r.coins.length : Nat) (coinVal { c with type := c.pathComponent % 0x80000000 }) =
      .ok (.list ((r.coins ++ { c with type := c.pathComponent % 0x80000000 } :: todo).map coinVal)) := by
    rw [ht.all]
    simp [setIndexSem, List.set_append]
  have hi' : indexSem (.list ((r.coins ++ { c with type := c.pathComponent % 0x80000000 } :: todo).map coinVal)) (r.coins.length : Nat) =
      .ok (coinVal { c with type := c.pathComponent % 0x80000000 }) := by
    rw [index_map]
    simp
  have f0 : ∀ c, libSem W (.field 0) [coinVal c] = .ok (.u32 c.type) := fun _ => rfl
  have f1 : ∀ c, libSem W (.field 1) [coinVal c] = .ok (.u32 c.pathComponent) := fun _ => rfl
  have f3 : ∀ c, libSem W (.field 3) [coinVal c] = .ok (.str c.name) := fun _ => rfl
  have s0 : ∀ c v, libSem W (.setField 0) [coinVal c, .u32 v] = .ok (coinVal { c with type := v }) := fun _ _ => rfl
  refine ⟨(r.coins ++ c.repair :: todo).map coinVal, tableSet t1 (.u32 c.repair.type) (coinVal c.repair), tableSet t2 (.str c.repair.name) (coinVal c.repair),
    tableSet t3 (.u32 c.repair.pathComponent) (coinVal c.repair), .bool c.isValid, ?_, ⟨?_, ht.type.set_u32 _ _, ht.name.set_str _ _, ht.path.set_u32 _ _⟩, ?_⟩
  · unfold Coin.repair
    by_cases hv : c.isValid = true
    · simp -implicitDefEqProofs [src, bip44_init_body1, coin_IsValid, hv, hi, f0, f1, f3]
      simpa using ht.all
    · rw [Bool.not_eq_true] at hv
      generalize hl : (r.coins ++ { c with type := c.pathComponent % 0x80000000 } :: todo).map coinVal = l' at hs hi' ⊢
      simp -implicitDefEqProofs [src, bip44_init_body1, coin_IsValid, hv, hi, f0, f1, f3, s0, hs, hi']
      simpa using hl.symm
  · simp [CoinReg.add]
  · simp [CoinReg.add]

theorem coins_iter (n : Nat) (cs : List Coin) :
    ∀ (xs : List Val) (v4 v5 : Val) (r : CoinReg) (l t1 t2 t3 : List Val), xs.length = cs.length → CoinTables r cs l t1 t2 t3 →
      ∃ l' t1' t2' t3' w4 w5, iter (exec W L (run W L (n + 1)) bip44_init_body1) (some 4) none r.coins.length xs
          [.list l, .list t1, .list t2, .list t3, v4, v5] = .ok (.next [.list l', .list t1', .list t2', .list t3', w4, w5]) ∧
        CoinTables (cs.foldl CoinReg.add r) [] l' t1' t2' t3' := by
  induction cs with
  | nil =>
    intro xs v4 v5 r l t1 t2 t3 hx ht
    rw [List.length_eq_zero_iff.1 hx]
    exact ⟨l, t1, t2, t3, v4, v5, rfl, ht⟩
  | cons c cs ih =>
    intro xs v4 v5 r l t1 t2 t3 hx ht
    obtain ⟨x, xs, rfl⟩ : ∃ y ys, xs = y :: ys := by
      cases xs with
      | nil => simp at hx
      | cons y ys => exact ⟨y, ys, rfl⟩
    obtain ⟨l1, u1, u2, u3, w5, hb, ht, hl⟩ := coins_body W L n c cs r v5 l t1 t2 t3 ht
    obtain ⟨l2, u1', u2', u3', z4, z5, hi, ht⟩ := ih xs (.int r.coins.length) w5 (r.add c) l1 u1 u2 u3 (by simpa using hx) ht
    refine ⟨l2, u1', u2', u3', z4, z5, ?_, ht⟩
    simp only [iter, src, hb]
    rw [hl] at hi
    simpa using hi

theorem coins_init (n : Nat) (sorted : List Coin) :
    ∃ t1 t2 t3, run W L (n + 2) .bip44_init [.list (sorted.map coinVal), .list [], .list [], .list []] =
        .ok [.list ((CoinReg.init sorted).coins.map coinVal), .list t1, .list t2, .list t3] ∧
      CoinTable .u32 t1 (CoinReg.init sorted).byType ∧ CoinTable .str t2 (CoinReg.init sorted).byName ∧
      CoinTable .u32 t3 (CoinReg.init sorted).byPathComponent := by
  obtain ⟨l, t1, t2, t3, w4, w5, hi, ht⟩ := coins_iter W L n sorted (sorted.map coinVal) .nil .nil {} (sorted.map coinVal) [] [] [] (by simp)
    ⟨rfl, fun _ => rfl, fun _ => rfl, fun _ => rfl⟩
  refine ⟨t1, t2, t3, ?_, ht.type, ht.name, ht.path⟩
  have hl := ht.all
  rw [List.append_nil] at hl
  rw [run_succ, CoinReg.init, ← hl]
  simp -implicitDefEqProofs only [src, bip44_init, Nat.cast_zero] at hi ⊢
  simp -implicitDefEqProofs [src, hi]

theorem bip32_seed (n : Nat) : run W L (n + 1) .bip32_NewSeed [] = .ok [.bytes (W.read 256), .err none] := by
  rw [run_succ]
  simp -implicitDefEqProofs [src, bip32_NewSeed, -List.reduceReplicate]

end Bips.Src
