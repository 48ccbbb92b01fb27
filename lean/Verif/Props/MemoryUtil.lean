import Verif.Model.MemoryUtil
import Verif.Props.Memory
import Verif.Props.Child

/-!
# What the functions of package util write to memory (C93)
-/

namespace Bips

open Mem

variable (H : Hashes) (R : Registry) (g : Nat → Nat → Nat)

/-! ### New memory -/

/-- A slice of new memory which shows `b`. -/
def Owns (h L : Heap) (s : Sl) (b : Bytes) : Prop := Holds (h ++ L) s b ∧ h.length ≤ s.addr ∧ s.InHeap (h ++ L)

variable {H R g}

theorem owns_fresh (b : Bytes) (h L : Heap) :
    ∃ M s, fresh g b (h ++ L) = (s, h ++ (L ++ M)) ∧ Owns h (L ++ M) s b := by
  obtain ⟨M, s, hs, hh, ha⟩ := fresh_spec g b (h ++ L)
  refine ⟨M, s, by rw [hs, List.append_assoc], by rw [← List.append_assoc]; exact hh, ?_, ?_⟩
  · rw [List.length_append] at ha; omega
  · have e : fresh g b (h ++ L) = (⟨(h ++ L).length, 0, b.length, b.length + g (h ++ L).length b.length⟩,
        h ++ L ++ [b ++ List.replicate (g (h ++ L).length b.length) 0]) := rfl
    rw [hs, Prod.mk.injEq] at e
    obtain ⟨rfl, e2⟩ := e
    rw [← List.append_assoc, e2]
    refine ⟨by simp, by simp, ?_⟩
    rw [List.getD_eq_getElem?_getD, List.getElem?_append_right le_rfl]
    simp

/-! ### The root key -/

variable (H R g)

theorem rootKey_spec (seed : Bytes) (h : Heap) : ∃ L r, Mem.rootKeyFromSeed H g seed h = (r, h ++ L) ∧
    match rootKeyFromSeed H seed with
    | .panic => r = .panic
    | .ok (k, e) => ∃ p, r = .ok (p, e) ∧ h.length ≤ p ∧ KeyAt (h ++ L) p k := by
  have hn : newArray (List.replicate 78 0) h = (h.length, h ++ [List.replicate 78 0]) := rfl
  rw [Mem.rootKeyFromSeed, bind_run hn, rootKeyFromSeed]
  rcases hexDecode seed with _ | b
  · refine ⟨_, _, rfl, h.length, rfl, le_rfl, ?_⟩
    rw [KeyAt, List.getElem?_append_right le_rfl]; simp [Key.zero]
  · dsimp only
    obtain ⟨M2, s2, e2, o2⟩ := owns_fresh (g := g) b h [List.replicate 78 0]
    have hl : s2.len = b.length := o2.1.2.1
    rw [bind_run e2, hl]
    by_cases h16 : b.length < 16
    · rw [if_pos h16, if_pos h16]
      refine ⟨_, _, rfl, h.length, rfl, le_rfl, ?_⟩
      rw [KeyAt, List.getElem?_append_right le_rfl]; simp [Key.zero]
    · rw [if_neg h16, if_neg h16]
      obtain ⟨M3, ⟨p, k, e3, v3, k3, a3⟩ | ⟨e, e3, v3⟩⟩ := master_spec H g o2.1
      · rw [bind_run e3, v3]
        dsimp only
        have hap : h.length ≤ p := by simp at a3; omega
        obtain ⟨M4, ⟨t, e4, v4, o4, -⟩ | ⟨e4, v4⟩⟩ := serialize_spec H g k3
        · rw [bind_run e4, v4]
          dsimp only
          have hl4 := serialize_length H v4
          obtain ⟨M5, e5⟩ := deserialize_spec H g o4 (.inl (by rw [o4.2.1, hl4]))
          rw [bind_run e5, deserializeValue]
          rcases hx : deserialize H (k.serialize H).1 with ⟨a, _ | e⟩
          · refine ⟨[List.replicate 78 0] ++ M2 ++ M3 ++ M4 ++ M5, _, by simp only [List.append_assoc]; rfl, p, rfl, hap, ?_⟩
            have := (k3.append M4).append M5
            simpa only [List.append_assoc] using this
          · refine ⟨[List.replicate 78 0] ++ M2 ++ M3 ++ M4 ++ M5, _, by simp only [List.append_assoc]; rfl, p, rfl, hap, ?_⟩
            have := (k3.append M4).append M5
            simpa only [List.append_assoc] using this
        · rw [bind_run e4, v4]
          refine ⟨[List.replicate 78 0] ++ M2 ++ M3 ++ M4, _, by simp only [List.append_assoc]; rfl, p, rfl, hap, ?_⟩
          have := k3.append M4
          simpa only [List.append_assoc] using this
      · rw [bind_run e3, v3]
        exact ⟨[List.replicate 78 0] ++ M2 ++ M3, _, by simp only [List.append_assoc]; rfl, rfl⟩

/-! ### Lists of derived keys -/

/-- The slice lies inside its array and shows these elements. -/
structure RowsHold (rows : List (List Row)) (t : Sl) (l : List Row) : Prop where
  addr : t.addr < rows.length
  len : t.len = l.length
  cap : t.len ≤ t.cap
  fits : t.off + t.cap ≤ (rows.getD t.addr []).length
  shows : StoreM.readRows t rows = l

namespace StoreM

theorem bind_run {α β : Type} {f : StoreM α} {s s' : Store} {a : α} (hf : f s = (a, s')) (k : α → StoreM β) :
    (f >>= k) s = k a s' := by
  show k (f s).1 (f s).2 = _
  rw [hf]

theorem bytes_run {α : Type} {f : Mem α} {h h' : Heap} {a : α} (hf : f h = (a, h')) (rows : List (List Row))
    (ranges : List RangeVar) : bytes f ⟨h, rows, ranges⟩ = (a, ⟨h', rows, ranges⟩) := by
  simp only [bytes, hf]

theorem freshRows_spec (l : List Row) (n : Nat) (h : Heap) (rows : List (List Row)) (ranges : List RangeVar) :
    ∃ t a, freshRows l n ⟨h, rows, ranges⟩ = (t, ⟨h, rows ++ [a], ranges⟩) ∧ RowsHold (rows ++ [a]) t l ∧
      t.addr = rows.length := by
  refine ⟨_, _, rfl, ⟨by simp, rfl, by simp, ?_, ?_⟩, rfl⟩
  · rw [List.getD_eq_getElem?_getD, List.getElem?_append_right le_rfl]; simp
  · simp [readRows]

/-- `append` to a slice of new memory leaves the old memory alone. -/
theorem appendRow_spec (n : Nat) (h : Heap) (rows : List (List Row)) (ranges : List RangeVar) {t : Sl} {l : List Row}
    (ht : RowsHold rows t l) (hn : n ≤ t.addr) (r : Row) :
    ∃ t' rows', appendRow g t r ⟨h, rows, ranges⟩ = (t', ⟨h, rows', ranges⟩) ∧ RowsHold rows' t' (l ++ [r]) ∧ n ≤ t'.addr ∧
      ∀ a < n, rows'[a]? = rows[a]? := by
  obtain ⟨h1, h2, h3, h4, h5⟩ := ht
  rw [appendRow]
  by_cases hc : t.len + 1 ≤ t.cap
  · rw [if_pos hc]
    refine ⟨_, _, rfl, ⟨by simpa using h1, by simp [h2], hc, ?_, ?_⟩, hn, ?_⟩
    · rw [List.getD_eq_getElem?_getD, List.getElem?_modify, List.getElem?_eq_getElem h1]
      rw [List.getD_eq_getElem?_getD, List.getElem?_eq_getElem h1] at h4
      simpa using h4
    · rw [readRows] at h5
      rw [readRows]
      rw [List.getD_eq_getElem?_getD, List.getElem?_modify, List.getElem?_eq_getElem h1]
      rw [List.getD_eq_getElem?_getD, List.getElem?_eq_getElem h1] at h4 h5
      simp only [Option.getD_some, if_true, Option.map_eq_map, Option.map_some] at h4 h5 ⊢
      rw [← h5]
      generalize rows[t.addr] = x at *
      apply List.ext_getElem?
      intro i
      rw [List.getElem?_take, List.getElem?_drop, List.getElem?_set]
      rcases Nat.lt_trichotomy i t.len with hi | rfl | hi
      · rw [if_pos (by omega), if_neg (by omega), List.getElem?_append_left (by simp; omega), List.getElem?_take, if_pos hi,
          List.getElem?_drop]
      · rw [if_pos (by omega), if_pos rfl, if_pos (by omega), List.getElem?_append_right (by simp)]
        simp [show t.len ≤ x.length - t.off by omega]
      · rw [if_neg (by omega), List.getElem?_eq_none (by simp; omega)]
    · intro a ha
      rw [List.getElem?_modify]
      simp [show t.addr ≠ a by omega]
  · rw [if_neg hc, h5]
    obtain ⟨t', a, e, hh, ha⟩ := freshRows_spec (l ++ [r]) (g rows.length t.len) h rows ranges
    exact ⟨t', _, e, hh, by omega, fun i hi => by rw [List.getElem?_append_left (by omega)]⟩

/-- One round of either loop. -/
theorem round_spec (n : Nat) (h : Heap) (k : Key) (M : Heap) (rows : List (List Row)) (ranges : List RangeVar) {t : Sl}
    {l : List Row} (ht : RowsHold rows t l) (hn : n ≤ t.addr) (v : UInt32) (d : Bytes) :
    ∃ M' rows' t', (∀ {α : Type} (f : Sl → StoreM α), (do
        let r ← bytes (Mem.newChildKey H R g h.length v)
        bytes (Mem.copyTo (keySl h.length 0 78) r.1)
        let cur ← bytes (Mem.read (keySl h.length 0 78))
        let t ← appendRow g t (d, cur)
        f t) ⟨h ++ [k.bytes] ++ M, rows, ranges⟩ = f t' ⟨h ++ [(k.newChildKey H R v).1.bytes] ++ M', rows', ranges⟩) ∧
      RowsHold rows' t' (l ++ [(d, (k.newChildKey H R v).1.bytes)]) ∧ n ≤ t'.addr ∧ ∀ a < n, rows'[a]? = rows[a]? := by
  have hp : KeyAt (h ++ [k.bytes] ++ M) h.length k := by
    rw [KeyAt, List.append_assoc, List.getElem?_append_right le_rfl]; simp
  obtain ⟨L, hL⟩ := child_spec H R g hp v
  rw [reassoc] at hL
  have hc := copyTo_local h k.bytes (M ++ L) 0 78 78 (k.newChildKey H R v).1.bytes
  have he : copyAt k.bytes 0 (0 + 78) (k.newChildKey H R v).1.bytes = (k.newChildKey H R v).1.bytes := by
    simp [copyAt, k.len, Key.len, List.take_of_length_le]
  rw [he] at hc
  have hr := read_local h (k.newChildKey H R v).1 (M ++ L) (Nat.zero_le 78) le_rfl
  rw [slice_full] at hr
  obtain ⟨t', rows', ea, ha⟩ := appendRow_spec g n (h ++ [(k.newChildKey H R v).1.bytes] ++ (M ++ L)) rows ranges ht hn
    (d, (k.newChildKey H R v).1.bytes)
  refine ⟨M ++ L, rows', t', fun f => ?_, ha⟩
  rw [bind_run (bytes_run hL rows ranges)]
  have hc' : Mem.copyTo (keySl h.length 0 78) (k.newChildKey H R v).1.bytes (h ++ [k.bytes] ++ (M ++ L)) =
    ((), h ++ [(k.newChildKey H R v).1.bytes] ++ (M ++ L)) := hc
  rw [bind_run (bytes_run hc' rows ranges), bind_run (bytes_run hr rows ranges), bind_run ea]

theorem deriveLoop_spec (n : Nat) (vals : List UInt32) (d : Bytes) (k : Key) (h M : Heap) (rows : List (List Row))
    (ranges : List RangeVar) {t : Sl} {l : List Row} (ht : RowsHold rows t l) (hn : n ≤ t.addr) :
    ∃ (k' : Key) (M' : Heap) (rows' : List (List Row)) (t' : Sl),
      deriveLoop H R g h.length vals d t ⟨h ++ [k.bytes] ++ M, rows, ranges⟩ =
        (t', ⟨h ++ [k'.bytes] ++ M', rows', ranges⟩) ∧
      RowsHold rows' t' (l ++ KeyPath.pairs (Bips.deriveLoop H R vals d k)) ∧ n ≤ t'.addr ∧
      ∀ a < n, rows'[a]? = rows[a]? := by
  induction vals generalizing d k M rows t l with
  | nil => exact ⟨k, M, rows, t, rfl, by simpa [Bips.deriveLoop, KeyPath.pairs] using ht, hn, fun _ _ => rfl⟩
  | cons v vs ih =>
    obtain ⟨M1, rows1, t1, e1, ht1, hn1, hr1⟩ := round_spec H R g n h k M rows ranges ht hn v (pathFormatted (appendComponent d v))
    obtain ⟨k', M', rows', t', e, ht', hn', hr'⟩ := ih (appendComponent d v) (k.newChildKey H R v).1 M1 rows1 ht1 hn1
    refine ⟨k', M', rows', t', ?_, ?_, hn', fun a ha => by rw [hr' a ha, hr1 a ha]⟩
    · rw [deriveLoop, e1]; exact e
    · simpa [Bips.deriveLoop, KeyPath.pairs] using ht'

theorem rangeLoop_spec (n : Nat) (j : Nat) (i e : UInt32) (hj : e.toNat - i.toNat = j) (d : Bytes) (k : Key) (h M : Heap)
    (rows : List (List Row)) (ranges : List RangeVar) {t : Sl} {l : List Row} (ht : RowsHold rows t l) (hn : n ≤ t.addr) :
    ∃ (k' : Key) (M' : Heap) (rows' : List (List Row)) (t' : Sl),
      rangeLoop H R g h.length i e d t ⟨h ++ [k.bytes] ++ M, rows, ranges⟩ =
        (t', ⟨h ++ [k'.bytes] ++ M', rows', ranges⟩) ∧
      RowsHold rows' t' (l ++ KeyPath.pairs (Bips.rangeLoop H R i e d k)) ∧ n ≤ t'.addr ∧
      ∀ a < n, rows'[a]? = rows[a]? := by
  induction j generalizing i d k M rows t l with
  | zero =>
    have hi : ¬ i < e := by rw [UInt32.lt_iff_toNat_lt]; omega
    rw [rangeLoop, Bips.rangeLoop, dif_neg hi, dif_neg hi]
    exact ⟨k, M, rows, t, rfl, by simpa [KeyPath.pairs] using ht, hn, fun _ _ => rfl⟩
  | succ j ih =>
    have hi : i < e := by rw [UInt32.lt_iff_toNat_lt]; omega
    have h2 := e.toNat_lt
    have hs : e.toNat - (i + 1).toNat = j := by
      rw [UInt32.toNat_add, show (1 : UInt32).toNat = 1 from rfl, Nat.mod_eq_of_lt (by omega)]; omega
    rw [rangeLoop, Bips.rangeLoop, dif_pos hi, dif_pos hi]
    obtain ⟨M1, rows1, t1, e1, ht1, hn1, hr1⟩ := round_spec H R g n h k M rows ranges ht hn i (pathFormatted (appendComponent d i))
    obtain ⟨k', M', rows', t', e', ht', hn', hr'⟩ := ih (i + 1) hs (appendComponent d i) (k.newChildKey H R i).1 M1 rows1 ht1 hn1
    refine ⟨k', M', rows', t', ?_, ?_, hn', fun a ha => by rw [hr' a ha, hr1 a ha]⟩
    · rw [e1]; exact e'
    · simpa [KeyPath.pairs] using ht'

end StoreM

/-! ### C93 -/

/-- The key `RootKeyFromSeed` points to is new memory, with or without an error. -/
theorem C93_root (seed : Bytes) (h : Heap) :
    Unchanged h (Mem.rootKeyFromSeed H g seed h).2 ∧
    match rootKeyFromSeed H seed with
    | .panic => (Mem.rootKeyFromSeed H g seed h).1 = .panic
    | .ok (k, e) => ∃ p, (Mem.rootKeyFromSeed H g seed h).1 = .ok (p, e) ∧ h.length ≤ p ∧
        KeyAt (Mem.rootKeyFromSeed H g seed h).2 p k := by
  obtain ⟨L, r, e, hr⟩ := rootKey_spec H g seed h
  rw [e]
  exact ⟨Unchanged.append h L, hr⟩

/-- Every array that was there is there unchanged, of bytes and of keys. -/
def Kept (s s' : Store) : Prop :=
  Unchanged s.heap s'.heap ∧ ∀ (a : Nat) (x : List Row), s.rows[a]? = some x → s'.rows[a]? = some x

/-- What a slice shows is not changed if the arrays are kept. -/
theorem Kept.shows {s s' : Store} (hk : Kept s s') {t : Sl} {l : List Row} (ht : RowsHold s.rows t l) :
    RowsHold s'.rows t l := by
  have h1 : s.rows[t.addr]? = some (s.rows.getD t.addr []) := by
    rw [List.getD_eq_getElem?_getD, List.getElem?_eq_getElem ht.addr]; rfl
  have h2 := hk.2 _ _ h1
  have h3 : s'.rows.getD t.addr [] = s.rows.getD t.addr [] := by rw [List.getD_eq_getElem?_getD, h2]; rfl
  refine ⟨?_, ht.len, ht.cap, by rw [h3]; exact ht.fits, ?_⟩
  · by_contra hc
    rw [List.getElem?_eq_none (by omega)] at h2
    exact absurd h2 (by simp)
  · rw [StoreM.readRows, h3]; exact ht.shows

/-- Deriving leaves all memory as it was, lists of earlier derivations included, and the list returned is new memory that shows
the result of the value-level model. -/
theorem C93_derive {s : Store} {p : Nat} {k : Key} (hp : KeyAt s.heap p k) (path : Bytes) :
    let r := StoreM.deriveBIP32Result H R g p path s
    let v := deriveBIP32Result H R k path
    Kept s r.2 ∧ r.2.ranges = s.ranges ∧ r.1.2 = v.2 ∧
      (v.2 = none → ∃ t, r.1.1 = some t ∧ s.rows.length ≤ t.addr ∧ RowsHold r.2.rows t (KeyPath.pairs v.1)) ∧
      (v.2 ≠ none → r.1.1 = none) := by
  obtain ⟨h, rows, ranges⟩ := s
  suffices ∃ o h' rows', StoreM.deriveBIP32Result H R g p path ⟨h, rows, ranges⟩ =
      ((o, (deriveBIP32Result H R k path).2), ⟨h', rows', ranges⟩) ∧ Unchanged h h' ∧
      (∀ a < rows.length, rows'[a]? = rows[a]?) ∧
      ((deriveBIP32Result H R k path).2 = none → ∃ t, o = some t ∧ rows.length ≤ t.addr ∧
        RowsHold rows' t (KeyPath.pairs (deriveBIP32Result H R k path).1)) ∧
      ((deriveBIP32Result H R k path).2 ≠ none → o = none) by
    obtain ⟨o, h', rows', e, h1, h2, h3, h4⟩ := this
    intro r v
    have hr : r = ((o, (deriveBIP32Result H R k path).2), ⟨h', rows', ranges⟩) := e
    rw [hr]
    refine ⟨⟨h1, fun a x hx => ?_⟩, rfl, rfl, h3, h4⟩
    have : a < rows.length := by
      by_contra hc
      have hx' : rows[a]? = some x := hx
      rw [List.getElem?_eq_none (by omega)] at hx'
      exact absurd hx' (by simp)
    show rows'[a]? = some x
    rw [h2 a this]; exact hx
  have hp' : KeyAt h p k := hp
  obtain ⟨L1, hv⟩ := isValid_spec H g hp'
  have hp1 := hp'.append L1
  rw [StoreM.deriveBIP32Result, StoreM.bind_run (StoreM.bytes_run hv rows ranges),
    StoreM.bind_run (StoreM.bytes_run (isPrivate_spec hp1) rows ranges),
    StoreM.bind_run (StoreM.bytes_run (hp1.holds (i := depthStart) (j := depthEnd) (by decide) (by decide)).read rows ranges),
    deriveBIP32Result]
  have hd : slice k.bytes depthStart depthEnd = [k.byteAt depthStart] := slice_one k (by decide)
  have hc : (slice k.bytes depthStart depthEnd != [0]) = (k.byteAt depthStart != 0) := by
    rw [hd, bne, bne]; simp
  rw [hc]
  split
  · exact ⟨none, _, rows, rfl, Unchanged.append h L1, fun _ _ => rfl, by simp, fun _ => rfl⟩
  · split
    · exact ⟨none, _, rows, rfl, Unchanged.append h L1, fun _ _ => rfl, by simp, fun _ => rfl⟩
    · rcases hva : valuesAtDepth path with ⟨items, _ | e⟩
      · dsimp only
        have hn : newArray k.bytes (h ++ L1) = ((h ++ L1).length, h ++ L1 ++ [k.bytes] ++ []) := by
          rw [List.append_nil]; rfl
        obtain ⟨t, a, ef, hf, hfa⟩ := StoreM.freshRows_spec [(str "m", k.bytes)] 0 (h ++ L1) rows ranges
        rw [StoreM.bind_run (StoreM.bytes_run hp1.all.read rows ranges), StoreM.bind_run ef,
          StoreM.bind_run (StoreM.bytes_run hn _ ranges)]
        split
        · obtain ⟨k', M', rows', t', er, hr, hna, hrr⟩ := StoreM.deriveLoop_spec H R g rows.length (items.drop 1) (str "m") k
            (h ++ L1) [] (rows ++ [a]) ranges hf (by omega)
          rw [StoreM.bind_run er]
          refine ⟨some t', _, rows', rfl, ?_, fun b hb => ?_, fun _ => ⟨t', rfl, hna, ?_⟩, fun h => absurd rfl h⟩
          · have := Unchanged.append h (L1 ++ [k'.bytes] ++ M')
            simpa only [List.append_assoc] using this
          · rw [hrr b hb, List.getElem?_append_left hb]
          · simpa [KeyPath.pairs] using hr
        · refine ⟨some t, _, _, rfl, ?_, fun b hb => ?_, fun _ => ⟨t, rfl, by omega, ?_⟩, fun h => absurd rfl h⟩
          · have := Unchanged.append h (L1 ++ [k.bytes] ++ [])
            simpa only [List.append_assoc] using this
          · rw [List.getElem?_append_left hb]
          · simpa [KeyPath.pairs] using hf
      · exact ⟨none, _, rows, rfl, Unchanged.append h L1, fun _ _ => rfl, by simp, fun _ => rfl⟩

/-- The value of the variable in the value-level model. -/
def RangeVar.value (k : RangeVar) (key : Key) (l : List KeyPath) : KeyPathRange :=
  ⟨k.startIndex, k.endIndex, ⟨k.path, key⟩, l⟩

/-- `GenerateRange` leaves all memory as it was, lists of earlier calls included. With an error it leaves its receiver as it was;
without, it sets the receiver's list to new memory that shows the result of the value-level model, and nothing else of it. No
other variable is changed. -/
theorem C93_range {s : Store} {v : Nat} {k : RangeVar} (hv : s.ranges[v]? = some k) {key : Key}
    (hp : KeyAt s.heap k.keyAddr key) (l : List KeyPath) :
    let r := StoreM.generateRange H R g v k s
    let w := (k.value key l).generateRange H R
    Kept s r.2 ∧ r.1 = w.2 ∧ (∀ a, a ≠ v → r.2.ranges[a]? = s.ranges[a]?) ∧
      (w.2 = none → ∃ t, r.2.ranges[v]? = some { k with keyPaths := t } ∧ s.rows.length ≤ t.addr ∧
        RowsHold r.2.rows t (KeyPath.pairs w.1.keyPaths)) ∧
      (w.2 ≠ none → r.2.ranges = s.ranges ∧ w.1.keyPaths = l) := by
  obtain ⟨h, rows, ranges⟩ := s
  suffices ∃ h' rows' ranges', StoreM.generateRange H R g v k ⟨h, rows, ranges⟩ =
      (((k.value key l).generateRange H R).2, ⟨h', rows', ranges'⟩) ∧ Unchanged h h' ∧
      (∀ a < rows.length, rows'[a]? = rows[a]?) ∧ (∀ a, a ≠ v → ranges'[a]? = ranges[a]?) ∧
      (((k.value key l).generateRange H R).2 = none → ∃ t, ranges'[v]? = some { k with keyPaths := t } ∧
        rows.length ≤ t.addr ∧ RowsHold rows' t (KeyPath.pairs ((k.value key l).generateRange H R).1.keyPaths)) ∧
      (((k.value key l).generateRange H R).2 ≠ none → ranges' = ranges ∧ ((k.value key l).generateRange H R).1.keyPaths = l) by
    obtain ⟨h', rows', ranges', e, h1, h2, h3, h4, h5⟩ := this
    intro r w
    have hr : r = (((k.value key l).generateRange H R).2, ⟨h', rows', ranges'⟩) := e
    rw [hr]
    refine ⟨⟨h1, fun a x hx => ?_⟩, rfl, h3, h4, h5⟩
    have : a < rows.length := by
      by_contra hc
      have hx' : rows[a]? = some x := hx
      rw [List.getElem?_eq_none (by omega)] at hx'
      exact absurd hx' (by simp)
    show rows'[a]? = some x
    rw [h2 a this]; exact hx
  have hp' : KeyAt h k.keyAddr key := hp
  have hv' : ranges[v]? = some k := hv
  generalize hw : (k.value key l).generateRange H R = w
  rw [KeyPathRange.generateRange] at hw
  rw [StoreM.generateRange]
  by_cases h0 : k.endIndex - k.startIndex < 1
  · rw [if_pos (show (k.value key l).endIndex - (k.value key l).startIndex < 1 from h0)] at hw
    subst hw
    rw [if_pos h0]
    exact ⟨h, rows, ranges, rfl, fun _ _ h => h, fun _ _ => rfl, fun _ _ => rfl, by simp, fun _ => ⟨rfl, rfl⟩⟩
  · rw [if_neg (show ¬ (k.value key l).endIndex - (k.value key l).startIndex < 1 from h0)] at hw
    obtain ⟨L1, hva⟩ := isValid_spec H g hp'
    have hp1 := hp'.append L1
    rw [if_neg h0, StoreM.bind_run (StoreM.bytes_run hva rows ranges)]
    by_cases h1 : (!key.isValid H) = true
    · rw [if_pos (show (!(k.value key l).keyPath.key.isValid H) = true from h1)] at hw
      subst hw
      rw [if_pos h1]
      exact ⟨_, rows, ranges, rfl, Unchanged.append h L1, fun _ _ => rfl, fun _ _ => rfl, by simp, fun _ => ⟨rfl, rfl⟩⟩
    · rw [if_neg (show ¬ (!(k.value key l).keyPath.key.isValid H) = true from h1)] at hw
      rw [if_neg h1]
      by_cases h2 : (!pathIsValid k.path) = true
      · rw [if_pos (show (!pathIsValid (k.value key l).keyPath.path) = true from h2)] at hw
        subst hw
        rw [if_pos h2]
        exact ⟨_, rows, ranges, rfl, Unchanged.append h L1, fun _ _ => rfl, fun _ _ => rfl, by simp, fun _ => ⟨rfl, rfl⟩⟩
      · rw [if_neg (show ¬ (!pathIsValid (k.value key l).keyPath.path) = true from h2)] at hw
        subst hw
        rw [if_neg h2]
        have hn : newArray key.bytes (h ++ L1) = ((h ++ L1).length, h ++ L1 ++ [key.bytes] ++ []) := by
          rw [List.append_nil]; rfl
        obtain ⟨t, a, ef, hf, hfa⟩ := StoreM.freshRows_spec [] 0 (h ++ L1 ++ [key.bytes] ++ []) rows ranges
        obtain ⟨k', M', rows', t', er, hr, hna, hrr⟩ := StoreM.rangeLoop_spec H R g rows.length _ k.startIndex k.endIndex rfl
          (pathString k.path) key (h ++ L1) [] (rows ++ [a]) ranges hf (by omega)
        rw [StoreM.bind_run (StoreM.bytes_run hp1.all.read rows ranges), StoreM.bind_run (StoreM.bytes_run hn _ ranges),
          StoreM.bind_run ef, StoreM.bind_run er]
        refine ⟨_, rows', _, rfl, ?_, fun b hb => ?_, fun b hb => ?_, fun _ => ⟨t', ?_, hna, ?_⟩, fun h => absurd rfl h⟩
        · have := Unchanged.append h (L1 ++ [k'.bytes] ++ M')
          simpa only [List.append_assoc] using this
        · rw [hrr b hb, List.getElem?_append_left hb]
        · rw [List.getElem?_modify]; simp [Ne.symm hb]
        · rw [List.getElem?_modify, hv']; simp
        · simpa [KeyPath.pairs, RangeVar.value] using hr

/-- So a list kept from an earlier call (or one that a copy of the variable has) shows the same after any later call. -/
theorem C93_earlier_lists {s : Store} {v : Nat} {k : RangeVar} (hv : s.ranges[v]? = some k) {key : Key}
    (hp : KeyAt s.heap k.keyAddr key) {t : Sl} {l : List Row} (ht : RowsHold s.rows t l) :
    RowsHold (StoreM.generateRange H R g v k s).2.rows t l ∧
    ∀ path, RowsHold (StoreM.deriveBIP32Result H R g k.keyAddr path s).2.rows t l :=
  ⟨(C93_range H R g hv hp []).1.shows ht, fun path => (C93_derive H R g hp path).1.shows ht⟩

/-- The hypotheses are met: a variable for the range 3 … 5 below `m/44'`, with a list of one entry and room for a second one from an
earlier call. -/
example (k : Key) (r r' : Row) :
    let v : RangeVar := ⟨3, 5, str "m/44'", 0, ⟨0, 0, 1, 2⟩⟩
    let s : Store := ⟨[k.bytes], [[r, r']], [v]⟩
    s.ranges[0]? = some v ∧ KeyAt s.heap v.keyAddr k ∧ RowsHold s.rows v.keyPaths [r] :=
  ⟨rfl, rfl, Nat.zero_lt_one, rfl, Nat.le_succ 1, le_refl 2, rfl⟩

end Bips
