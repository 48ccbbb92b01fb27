import Verif.Model.WordAlias
import Verif.Props.Bip39

/-! # C12: sharing the word list with callers -/

namespace Bips
open Spec

/-- The write does not touch an element shown by `s`. -/
def Avoids (s : Slice) : WordOp → Prop
  | .alloc _ => True
  | .set _ => False
  | .write t i _ => i < t.len → t.addr ≠ s.addr ∨ t.off + i < s.off ∨ s.off + s.len ≤ t.off + i

theorem readSlice_write (heap : List (List Bytes)) (s t : Slice) (i : Nat) (w : Bytes)
    (h : t.addr ≠ s.addr ∨ t.off + i < s.off ∨ s.off + s.len ≤ t.off + i) :
    readSlice (heap.modify t.addr fun a => a.set (t.off + i) w) s = readSlice heap s := by
  unfold readSlice
  rw [List.getD_eq_getElem?_getD, List.getD_eq_getElem?_getD, List.getElem?_modify]
  by_cases ha : t.addr = s.addr
  · simp only [if_pos ha]
    rcases h with h | h
    · exact absurd ha h
    · cases hh : heap[s.addr]? with
      | none => rfl
      | some a =>
        simp only [Option.map_eq_map, Option.map_some, Option.getD_some]
        apply List.ext_getElem?
        intro j
        by_cases hj : j < s.len
        · rw [List.getElem?_take_of_lt hj, List.getElem?_take_of_lt hj, List.getElem?_drop, List.getElem?_drop,
            List.getElem?_set_ne (by omega)]
        · rw [List.getElem?_eq_none (by simp; omega), List.getElem?_eq_none (by simp; omega)]
  · simp only [if_neg ha]
    cases heap[s.addr]? <;> rfl

theorem readSlice_alloc (heap : List (List Bytes)) (s : Slice) (ws : List Bytes) (h : s.addr < heap.length) :
    readSlice (heap ++ [ws]) s = readSlice heap s := by
  unfold readSlice
  rw [List.getD_eq_getElem?_getD, List.getD_eq_getElem?_getD, List.getElem?_append_left h]

/-- **C12** (partial). After any history ending with `SetWordList(s)` and then any operations that do not write to an
element of the list (and do not set another one), the package behaves exactly as after setting the contents that `s`
had: C01–C11 apply. Missing: histories that write to an element of the list, for which the claim is false
(`C12_corrupts`). -/
theorem C12_no_writes_partial (st : AliasState) (history ops : List WordOp) (s : Slice)
    (hs : s.addr < (runOps st history).heap.length) (h : ∀ op ∈ ops, Avoids s op) :
    (runOps st (history ++ .set s :: ops)).view = setWordList (readSlice (runOps st history).heap s) := by
  rw [runOps, List.foldl_append, List.foldl_cons]
  change (List.foldl WordOp.step (WordOp.step (runOps st history) (.set s)) ops).view = _
  generalize runOps st history = st0 at hs ⊢
  have key : ∀ (ops : List WordOp) (st1 : AliasState), (∀ op ∈ ops, Avoids s op) → st1.list = s →
      s.addr < st1.heap.length →
      (List.foldl WordOp.step st1 ops).view = ⟨readSlice st1.heap s, st1.map⟩ := by
    intro ops
    induction ops with
    | nil => intro st1 _ h1 _; rw [List.foldl_nil, AliasState.view, h1]
    | cons op ops ih =>
      intro st1 ha h1 h2
      have hop := ha op (by simp)
      rw [List.foldl_cons]
      cases op with
      | set t => exact absurd hop (by simp [Avoids])
      | alloc ws =>
        have := ih (WordOp.step st1 (.alloc ws)) (fun o ho => ha o (by simp [ho])) h1
          (by rw [WordOp.step, List.length_append]; omega)
        rw [this]
        change WordState.mk (readSlice (st1.heap ++ [ws]) s) st1.map = _
        rw [readSlice_alloc _ _ _ h2]
      | write t i w =>
        by_cases hi : i < t.len
        · have hstep : WordOp.step st1 (.write t i w) =
              { st1 with heap := st1.heap.modify t.addr fun a => a.set (t.off + i) w } := if_pos hi
          have := ih (WordOp.step st1 (.write t i w)) (fun o ho => ha o (by simp [ho])) (by rw [hstep]; exact h1)
            (by rw [hstep]; simpa using h2)
          rw [this, hstep]
          change WordState.mk (readSlice (st1.heap.modify t.addr fun a => a.set (t.off + i) w) s) st1.map = _
          rw [readSlice_write _ _ _ _ _ (hop hi)]
        · have hstep : WordOp.step st1 (.write t i w) = st1 := if_neg hi
          rw [hstep, ih _ (fun o ho => ha o (by simp [ho])) h1 h2]
  exact key ops (WordOp.step st0 (.set s)) h rfl hs

/-- `NewMnemonic` only looks at the list. -/
theorem newMnemonic_list (H : Hashes) (S : WordState) (e : Bytes) :
    newMnemonic H S e = newMnemonic H (setWordList S.list) e := rfl

/-- Sixteen zero bytes: the first word is the first of the list. -/
theorem first_word_zero {sha : Bytes → Bytes} {l : List Bytes} {ws : List Bytes}
    (h : Encodes sha l (List.replicate 16 0) ws) : ws.head? = l[0]? := by
  obtain ⟨idx, h1, h2, h3⟩ := h
  cases idx with
  | nil =>
    have := congrArg List.length h3
    simp [mnemonicBits, bits_length] at this
    omega
  | cons i idx =>
    have hi : i = 0 := by
      have h4 := congrArg (List.take 11) h3
      have h5 : (bits (List.replicate 16 0)).take 11 = List.replicate 11 false := by decide +kernel
      have h6 : (mnemonicBits sha (List.replicate 16 0)).take 11 = List.replicate 11 false := by
        rw [mnemonicBits, List.take_append_of_le_length (by rw [bits_length]; simp), h5]
      rw [List.flatMap_cons, List.take_left' (bitsN_length 11 i), h6] at h4
      have h7 := congrArg bv h4
      rw [bv_bitsN] at h7
      have h8 : bv (List.replicate 11 false) = 0 := by decide +kernel
      have := h1 i (by simp)
      rw [h8] at h7
      omega
    subst hi
    cases ws with
    | nil => simp at h2
    | cons w ws =>
      have h4 : some w = l[0]? := by
        have := congrArg List.head? h2
        simpa using this
      simpa using h4

/-- **C12**, the claim fails: after `SetWordList` with any good list, overwriting the first element of the slice
returned by `GetWordList` with any new word makes the package produce a mnemonic that it rejects itself. -/
theorem C12_corrupts (H : Hashes) (st : AliasState) (l : List Bytes) (hg : GoodList l) (w : Bytes) (hw : IsWord w)
    (hn : w ∉ l) :
    let s : Slice := ⟨st.heap.length, 0, 2048⟩
    let st1 := runOps st [.alloc l, .set s]
    let st2 := runOps st1 [.write st1.list 0 w]
    st1.view = setWordList l ∧
    ∃ m, newMnemonic H st2.view (List.replicate 16 0) = .ok (m, none) ∧
      entropyFromMnemonic H st2.view m = .ok ([], some (.unknownWord w)) := by
  intro s st1 st2
  have hread : readSlice (st.heap ++ [l]) s = l := by
    simp [readSlice, s, List.getD_eq_getElem?_getD, ← hg.length]
  have hst1 : st1 = ⟨st.heap ++ [l], s, fillWordMap (readSlice (st.heap ++ [l]) s) 0 fun _ => none⟩ := rfl
  have hst2 : st2 = { st1 with heap := (st.heap ++ [l]).modify st.heap.length fun a => a.set (0 + 0) w } := by
    rw [show st2 = WordOp.step st1 (.write st1.list 0 w) from rfl, WordOp.step]
    rw [if_pos (show 0 < st1.list.len from by rw [hst1]; exact Nat.zero_lt_succ _)]
    rfl
  have hv1 : st1.view = setWordList l := by
    rw [hst1, AliasState.view]
    simp only
    rw [hread]
    rfl
  have hv2 : st2.view = ⟨l.set 0 w, (setWordList l).map⟩ := by
    rw [hst2, AliasState.view]
    simp only
    congr 1
    · rw [hst1]
      simp only
      simp [readSlice, s, List.getD_eq_getElem?_getD, ← hg.length]
    · rw [← hv1]; rfl
  refine ⟨hv1, ?_⟩
  have hg' : GoodList (l.set 0 w) := by
    refine ⟨by simpa using hg.length, ?_, ?_⟩
    · cases l with
      | nil => simp
      | cons a l =>
        have h1 : w ∉ l := fun h => hn (by simp [h])
        have h2 := hg.nodup
        rw [List.set_cons_zero, List.nodup_cons]
        exact ⟨h1, (List.nodup_cons.1 h2).2⟩
    · intro x hx
      rcases List.mem_or_eq_of_mem_set hx with h | rfl
      · exact hg.word x h
      · exact hw
  obtain ⟨ws, h1, h2, h3⟩ := newMnemonic_eq H hg' (List.replicate 16 0) (by simp [entropySizes])
  refine ⟨_, by rw [hv2, newMnemonic_list]; exact h1, ?_⟩
  have hhead := first_word_zero h2
  have hl : 0 < l.length := by rw [hg.length]; norm_num
  rw [List.getElem?_set_self hl] at hhead
  have hf := fields_join ws (encodes_words H hg' h2)
  have hlen : ws.length ∈ sentenceLengths := by rw [h3]; simp [sentenceLengths]
  cases ws with
  | nil => simp at hhead
  | cons v vs =>
    have : v = w := by simpa using hhead
    subst this
    rw [hv2, entropyFromMnemonic, splitMnemonicWords_eq, hf, if_pos hlen]
    dsimp only
    rw [decodeWords, (setWordList_map_none l v).2 hn]

end Bips
