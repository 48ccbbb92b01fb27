import Verif.Props.WordAlias
import Verif.Props.CustomList

/-!
# C12: which changes of the shared list do harm
-/

namespace Bips
open Spec

/-- `EntropyFromMnemonic` only looks at the map. -/
theorem entropyFromMnemonic_map (H : Hashes) (S S' : WordState) (h : S.map = S'.map) (m : Bytes) :
    entropyFromMnemonic H S m = entropyFromMnemonic H S' m := by
  unfold entropyFromMnemonic
  rw [h]

/-- Mnemonics written with one list and read with the map of another. -/
theorem mixed_safe_iff (H : Hashes) (l l' : List Bytes) (hg : GoodList l) (hl : l'.length = 2048) :
    (∀ e, e.length ∈ entropySizes → ∃ m, newMnemonic H ⟨l', (setWordList l).map⟩ e = .ok (m, none) ∧
      entropyFromMnemonic H ⟨l', (setWordList l).map⟩ m = .ok (e, none)) ↔
    ∀ (i : Nat) (w w' : Bytes), l[i]? = some w → l'[i]? = some w' → Layout w' [w] := by
  have hE : ∀ m, entropyFromMnemonic H ⟨l', (setWordList l).map⟩ m = entropyFromMnemonic H (setWordList l) m := fun m =>
    entropyFromMnemonic_map H _ _ rfl m
  have hll : l.length = 2048 := hg.length
  constructor
  · intro hall
    have h16 : (16 : Nat) ∈ entropySizes := by decide
    have step : ∀ (i : Nat) (w w' : Bytes), l[i]? = some w → l'[i]? = some w' → ∃ (c : Nat) (u u' : Bytes), l[c]? = some u ∧ l'[c]? = some u' ∧
        (List.replicate 11 w' ++ [u']).flatMap fields = List.replicate 11 w ++ [u] := by
      intro i w w' hw hw'
      have hi : i < 2048 := by rw [← hll]; exact (List.getElem?_eq_some_iff.1 hw).1
      obtain ⟨m, m1, m2⟩ := hall (repeated i) (by rw [repeated_length]; exact h16)
      obtain ⟨idx, h1, h2, h3, -⟩ := newMnemonic_total H ⟨l', (setWordList l).map⟩ (repeated i) (by rw [repeated_length]; exact h16)
      obtain ⟨c, hc, rfl⟩ := repeated_idx H hi h1 h2
      obtain ⟨ws, w1, w2⟩ := h3 fun j hj => by
        show j < l'.length
        rw [hl]; exact h1 j hj
      rw [m1] at w2
      obtain rfl := (Prod.mk.inj (Outcome.ok.inj w2)).1
      rw [hE] at m2
      obtain ⟨us, u1, -, -, idx', i1, i2, i3⟩ := (C04_accepts_exactly H hg _ _).1 m2
      obtain rfl : List.replicate 11 i ++ [c] = idx' :=
        idx_unique h1 i1 (h2.trans i3.symm) H (repeated i) (by rw [repeated_length]; exact h16) h2
      have hcl : c < l.length := by omega
      have hcl' : c < l'.length := by omega
      refine ⟨c, l[c], l'[c], List.getElem?_eq_getElem hcl, List.getElem?_eq_getElem hcl', ?_⟩
      have hws : ws = List.replicate 11 w' ++ [l'[c]] := by
        apply List.map_injective_iff.2 (Option.some_injective _)
        rw [w1]
        simp [hw', List.getElem?_eq_getElem hcl']
      have hus : us = List.replicate 11 w ++ [l[c]] := by
        apply List.map_injective_iff.2 (Option.some_injective _)
        rw [i2]
        simp [hw, List.getElem?_eq_getElem hcl]
      have := fields_layout u1
      rw [hws, fields_intercalate _ (by simp), hus] at this
      exact this
    have hle : ∀ (i : Nat) (w w' : Bytes), l[i]? = some w → l'[i]? = some w' → (fields w').length ≤ 1 := by
      intro i w w' hw hw'
      obtain ⟨c, u, u', -, -, h⟩ := step i w w' hw hw'
      have := congrArg List.length h
      simp at this
      omega
    intro i w w' hw hw'
    obtain ⟨c, u, u', hu, hu', h⟩ := step i w w' hw hw'
    have h1 := hle i w w' hw hw'
    have h2 := hle c u u' hu hu'
    have hlen := congrArg List.length h
    simp at hlen
    obtain ⟨v, hv⟩ := List.length_eq_one_iff.1 (show (fields w').length = 1 by omega)
    have hvw : v = w := by
      have := congrArg List.head? h
      simpa [List.replicate_succ, hv] using this
    rw [layout_iff, hv, hvw]
  · intro h e he
    obtain ⟨idx, h1, h2, h3, -⟩ := newMnemonic_total H ⟨l', (setWordList l).map⟩ e he
    obtain ⟨ws', w1, w2⟩ := h3 fun j hj => by
      show j < l'.length
      rw [hl]; exact h1 j hj
    refine ⟨_, w2, ?_⟩
    obtain ⟨m, m1, m2, -⟩ := C01_roundtrip H hg e he
    obtain ⟨us, u1, u2, u3, idx', i1, i2, i3⟩ := (C04_accepts_exactly H hg m e).1 m2
    obtain rfl : idx = idx' := idx_unique h1 i1 (h2.trans i3.symm) H e he h2
    rw [hE]
    refine (C04_accepts_exactly H hg _ _).2 ⟨us, ?_, u2, u3, idx, i1, i2, i3⟩
    have hne : ws' ≠ [] := by
      rintro rfl
      have hu := congrArg List.length (i2.trans (by
        rw [show idx = [] by simpa using w1.symm]))
      rw [List.map_nil, List.length_nil, List.length_map] at hu
      rw [hu] at u2
      exact absurd u2 (by decide)
    rw [layout_iff, fields_intercalate _ hne]
    clear w2 m1 m2 u1 u2 u3 i3 h2 h3 hne
    induction idx generalizing ws' us with
    | nil =>
      cases ws' with
      | nil => cases us with
        | nil => rfl
        | cons _ _ => simp at i2
      | cons _ _ => simp at w1
    | cons i idx ih =>
      cases ws' with
      | nil => simp at w1
      | cons w' ws' =>
        cases us with
        | nil => simp at i2
        | cons u us =>
          simp only [List.map_cons, List.cons.injEq] at w1 i2
          rw [List.flatMap_cons, ih (fun j hj => h1 j (by simp [hj])) ws' w1.2 us (fun j hj => i1 j (by simp [hj])) i2.2,
            fields_layout (h i u w' i2.1.symm w1.1.symm)]
          rfl

theorem readSlice_length_write (heap : List (List Bytes)) (s : Slice) (a i : Nat) (w : Bytes) :
    (readSlice (heap.modify a fun b => b.set i w) s).length = (readSlice heap s).length := by
  unfold readSlice
  rw [List.getD_eq_getElem?_getD, List.getD_eq_getElem?_getD, List.getElem?_modify]
  by_cases ha : a = s.addr
  · simp only [if_pos ha]
    cases heap[s.addr]? <;> simp
  · simp only [if_neg ha]
    cases heap[s.addr]? <;> simp

/-- The state after operations that do not set another list. -/
theorem view_without_set (s : Slice) (ops : List WordOp) (st : AliasState) (h : ∀ t, WordOp.set t ∉ ops) (hl : st.list = s)
    (ha : s.addr < st.heap.length) : (runOps st ops).list = s ∧ (runOps st ops).map = st.map ∧
      (readSlice (runOps st ops).heap s).length = (readSlice st.heap s).length := by
  induction ops generalizing st with
  | nil => exact ⟨hl, rfl, rfl⟩
  | cons op ops ih =>
    have ih := fun st' => ih st' (fun t ht => h t (List.mem_cons_of_mem _ ht))
    cases op with
    | set t => exact absurd List.mem_cons_self (h t)
    | alloc ws =>
      obtain ⟨h1, h2, h3⟩ := ih (WordOp.step st (.alloc ws)) hl (by rw [WordOp.step, List.length_append]; omega)
      refine ⟨h1, h2, h3.trans ?_⟩
      show (readSlice (st.heap ++ [ws]) s).length = _
      rw [readSlice_alloc _ _ _ ha]
    | write t i w =>
      by_cases hi : i < t.len
      · have hstep : WordOp.step st (.write t i w) =
            { st with heap := st.heap.modify t.addr fun a => a.set (t.off + i) w } := if_pos hi
        obtain ⟨h1, h2, h3⟩ := ih (WordOp.step st (.write t i w)) (by rw [hstep]; exact hl) (by rw [hstep]; simpa using ha)
        rw [hstep] at h2 h3
        refine ⟨h1, ?_, ?_⟩
        · rw [runOps, List.foldl_cons, hstep]; exact h2
        · rw [runOps, List.foldl_cons, hstep]
          exact h3.trans (readSlice_length_write _ _ _ _ _)
      · have hstep : WordOp.step st (.write t i w) = st := if_neg hi
        rw [runOps, List.foldl_cons, hstep]
        exact ih st hl ha

/-- **C12**, exactly: after any history, `SetWordList(s)` with a good list and any further operations of callers, every entropy survives the
way to the mnemonic and back if and only if every element of the list still is, up to white space around it, the word it was when the list was set. -/
theorem C12_safe_iff (H : Hashes) (st : AliasState) (history ops : List WordOp) (s : Slice)
    (hs : s.addr < (runOps st history).heap.length) (hg : GoodList (readSlice (runOps st history).heap s))
    (h : ∀ t, WordOp.set t ∉ ops) :
    let end_ := runOps st (history ++ .set s :: ops)
    (∀ e, e.length ∈ entropySizes → ∃ m, newMnemonic H end_.view e = .ok (m, none) ∧
      entropyFromMnemonic H end_.view m = .ok (e, none)) ↔
    ∀ (i : Nat) (w w' : Bytes), (readSlice (runOps st history).heap s)[i]? = some w → (readSlice end_.heap s)[i]? = some w' → Layout w' [w] := by
  intro end_
  have he : end_ = runOps (WordOp.step (runOps st history) (.set s)) ops := by
    show runOps st (history ++ .set s :: ops) = _
    rw [runOps, List.foldl_append, List.foldl_cons]; rfl
  obtain ⟨h1, h2, h3⟩ := view_without_set s ops (WordOp.step (runOps st history) (.set s)) h rfl hs
  rw [← he] at h1 h2 h3
  have hv : end_.view = ⟨readSlice end_.heap s, (setWordList (readSlice (runOps st history).heap s)).map⟩ := by
    rw [AliasState.view, h1, h2]
    rfl
  rw [hv]
  exact mixed_safe_iff H _ _ hg (h3.trans hg.length)

/-! ### Cases -/

/-- Overwriting any element with another word of the list is enough to lose an entropy. -/
example (H : Hashes) (st : AliasState) (l : List Bytes) (hg : GoodList l) :
    let s : Slice := ⟨st.heap.length, 0, 2048⟩
    ¬ ∀ e, e.length ∈ entropySizes → ∃ m,
      newMnemonic H (runOps st ([.alloc l] ++ .set s :: [.write s 5 (l.getD 6 [])])).view e = .ok (m, none) ∧
      entropyFromMnemonic H (runOps st ([.alloc l] ++ .set s :: [.write s 5 (l.getD 6 [])])).view m = .ok (e, none) := by
  intro s
  have hread : readSlice (runOps st [.alloc l]).heap s = l := by
    simp [runOps, WordOp.step, readSlice, s, List.getD_eq_getElem?_getD, ← hg.length]
  have h5 : 5 < l.length := by rw [hg.length]; omega
  have h6 : 6 < l.length := by rw [hg.length]; omega
  intro hall
  have h := (C12_safe_iff H st [.alloc l] [.write s 5 (l.getD 6 [])] s (by simp [runOps, WordOp.step, s]) (by rw [hread]; exact hg)
    (by simp)).1 hall
  have h := h 5 l[5] l[6] (by rw [hread]; exact List.getElem?_eq_getElem h5) (by
    simp [runOps, WordOp.step, readSlice, s, List.getD_eq_getElem?_getD, h5, h6])
  have h' := (layout_iff _ _).1 h
  have hL : Layout l[6] [l[6]] := by
    simpa using Layout.last (pre := []) (post := []) isWs_nil (hg.word _ (List.getElem_mem h6)) isWs_nil
  rw [(layout_iff _ _).1 hL] at h'
  have := (hg.nodup.getElem_inj_iff (hi := h6) (hj := h5)).1 (List.cons.inj h').1
  omega

/-- White space around a word does no harm. -/
example : Layout (str " abandon\t") [str "abandon"] := (layout_iff _ _).2 (by decide +kernel)

end Bips
