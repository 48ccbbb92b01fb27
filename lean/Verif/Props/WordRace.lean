import Verif.Model.WordRace
import Verif.Props.Bip39

/-! # C13: readers racing with `SetWordList` -/

namespace Bips
open Spec

/-- The result depends only on the number of words and the number they decode to. -/
theorem entropyRacing_eq (H : Hashes) (maps : List (Bytes → Option Nat)) (S : WordState) (s s' : Bytes)
    (hl : (fields s).length = (fields s').length)
    (hd : decodeWordsRacing maps (fields s) 0 = decodeWords S.map (fields s') 0) :
    entropyRacing H maps s = entropyFromMnemonic H S s' := by
  rw [entropyRacing, entropyFromMnemonic, splitMnemonicWords_eq, splitMnemonicWords_eq, hl]
  by_cases h : (fields s').length ∈ sentenceLengths
  · rw [if_pos h, if_pos h]
    dsimp only
    rw [hd, hl]
    cases decodeWords S.map (fields s') 0 <;> rfl
  · rw [if_neg h, if_neg h]

theorem decodeWordsRacing_const (m : Bytes → Option Nat) (maps : List (Bytes → Option Nat)) (ws : List Bytes) (b : Nat)
    (hl : maps.length = ws.length) (h : ∀ x ∈ maps, x = m) : decodeWordsRacing maps ws b = decodeWords m ws b := by
  induction maps generalizing ws b with
  | nil =>
    have : ws = [] := by simpa using hl.symm
    subst this; rfl
  | cons x maps ih =>
    cases ws with
    | nil => simp at hl
    | cons v vs =>
      rw [decodeWordsRacing, decodeWords, h x (by simp)]
      cases m v with
      | none => rfl
      | some i => exact ih vs _ (by simpa using hl) fun y hy => h y (by simp [hy])

/-- Without interference between its reads, the racing reader is the plain one. -/
theorem entropyRacing_const (H : Hashes) (S : WordState) (maps : List (Bytes → Option Nat)) (s : Bytes)
    (hl : maps.length = (fields s).length) (h : ∀ x ∈ maps, x = S.map) :
    entropyRacing H maps s = entropyFromMnemonic H S s :=
  entropyRacing_eq H maps S s s rfl (decodeWordsRacing_const S.map maps _ _ hl h)

/-- After all its steps, the writer has made the state of a sequential call. -/
theorem writerState_final (S : WordState) (l : List Bytes) :
    writerState S l (writerSteps l) = setWordListFrom S l := by
  rw [writerSteps, writerState, List.take_length, setWordListFrom]

theorem fillWordMap_take {l : List Bytes} (hn : l.Nodup) (t : Nat) (w : Bytes) (i : Nat) :
    fillWordMap (l.take t) 0 (fun _ => none) w = some i ↔ l[i]? = some w ∧ i < t := by
  have h := setWordList_map_nodup (l := l.take t) (hn.sublist (List.take_sublist _ _)) w i
  have h' : (setWordList (l.take t)).map w = fillWordMap (l.take t) 0 (fun _ => none) w := rfl
  rw [h'] at h
  rw [h, List.getElem?_take]
  split
  · simp [*]
  · simp [*]

/-- **C13** (partial). A reader sees one consistent list and index when all its reads come before the map is replaced
(the old one), or after the writer has finished (the new one), or — for a duplicate-free list — whenever each word
it looks up has been inserted already (the new one, even before the writer has finished). Missing: the other
interleavings, for which the claim is false (`C13_torn`, `C13_mixed`). -/
theorem C13_consistent_partial (H : Hashes) (S : WordState) (l : List Bytes) (s : Bytes) (times : List Nat)
    (hs : Schedule l (fields s).length times) :
    ((∀ t ∈ times, t ≤ 1) → entropyScheduled H S l times s = entropyFromMnemonic H S s) ∧
    ((∀ t ∈ times, t = writerSteps l) → entropyScheduled H S l times s = entropyFromMnemonic H (setWordList l) s) ∧
    (l.Nodup → (∀ (k t : Nat) (w : Bytes), times[k]? = some t → (fields s)[k]? = some w →
        2 ≤ t ∧ ∀ i, l[i]? = some w → i + 2 < t) →
      entropyScheduled H S l times s = entropyFromMnemonic H (setWordList l) s) := by
  obtain ⟨hlen, -, -⟩ := hs
  refine ⟨?_, ?_, ?_⟩
  · intro h
    refine entropyRacing_const H S _ s (by simpa using hlen) ?_
    intro x hx
    obtain ⟨t, ht, rfl⟩ := List.mem_map.1 hx
    have := h t ht
    obtain rfl | rfl : t = 0 ∨ t = 1 := by omega
    · rfl
    · rfl
  · intro h
    refine entropyRacing_const H (setWordList l) _ s (by simpa using hlen) ?_
    intro x hx
    obtain ⟨t, ht, rfl⟩ := List.mem_map.1 hx
    rw [h t ht, writerState_final]
    rfl
  · intro hn h
    refine entropyRacing_eq H _ (setWordList l) s s rfl ?_
    generalize fields s = ws at hlen h
    generalize 0 = b
    induction times generalizing ws b with
    | nil =>
      have : ws = [] := by simpa using hlen.symm
      subst this; rfl
    | cons t times ih =>
      cases ws with
      | nil => simp at hlen
      | cons v vs =>
        rw [List.map_cons, decodeWordsRacing, decodeWords]
        obtain ⟨h1, h2⟩ := h 0 t v rfl rfl
        have hm : (writerState S l t).map v = (setWordList l).map v := by
          obtain ⟨t, rfl⟩ : ∃ u, t = u + 2 := ⟨t - 2, by omega⟩
          change fillWordMap (l.take t) 0 (fun _ => none) v = _
          cases hv : (setWordList l).map v with
          | none =>
            cases hf : fillWordMap (l.take t) 0 (fun _ => none) v with
            | none => rfl
            | some i =>
              have := ((fillWordMap_take hn t v i).1 hf).1
              rw [(setWordList_map_nodup hn v i).2 this] at hv
              simp at hv
          | some i =>
            have hi := (setWordList_map_nodup hn v i).1 hv
            have := h2 i hi
            exact (fillWordMap_take hn t v i).2 ⟨hi, by omega⟩
        rw [hm]
        cases (setWordList l).map v with
        | none => rfl
        | some i =>
          refine ih vs (by simpa using hlen) ?_ _
          exact fun k t w ht hw => h (k + 1) t w (by simpa using ht) (by simpa using hw)

/-- **C13**, the claim fails: even while the list already in force is set once more, every mnemonic that is valid
before and after the call can be rejected in between, with "word not found" for a word of the list. -/
theorem C13_torn (H : Hashes) (l : List Bytes) (hg : GoodList l) (s e : Bytes)
    (h : entropyFromMnemonic H (setWordList l) s = .ok (e, none)) :
    ∃ times w, Schedule l (fields s).length times ∧ w ∈ l ∧
      entropyScheduled H (setWordList l) l times s = .ok ([], some (.unknownWord w)) := by
  obtain ⟨ws, hs, hlen, -, hE⟩ := (C04_accepts_exactly H hg s e).1 h
  have hf := fields_layout hs
  cases hw : ws with
  | nil => rw [hw] at hlen; simp [sentenceLengths] at hlen
  | cons v vs =>
    refine ⟨List.replicate ws.length 2, v, ⟨by rw [hf]; simp, ?_, ?_⟩, ?_, ?_⟩
    · exact List.pairwise_replicate.2 (Or.inr (le_refl _))
    · intro t ht
      rw [(List.mem_replicate.1 ht).2, writerSteps, hg.length]; norm_num
    · obtain ⟨idx, -, h2, -⟩ := hE
      exact words_of_idx h2 v (by rw [hw]; simp)
    · rw [entropyScheduled, entropyRacing, splitMnemonicWords_eq, hf, if_pos hlen, hw]
      rfl

theorem decodeWordsRacing_split (m m' : Bytes → Option Nat) (k n : Nat) (ws us : List Bytes) (b : Nat)
    (hl : ws.length = us.length) (hn : ws.length = k + n)
    (h1 : ∀ i < k, ∃ a u, ws[i]? = some a ∧ us[i]? = some u ∧ ∃ j, m a = some j ∧ m' u = some j)
    (h2 : ∀ i, k ≤ i → ws[i]? = us[i]?) :
    decodeWordsRacing (List.replicate k m ++ List.replicate n m') ws b = decodeWords m' us b := by
  induction k generalizing ws us b with
  | zero =>
    have : ws = us := List.ext_getElem? fun i => h2 i (by omega)
    subst this
    exact decodeWordsRacing_const _ _ _ _ (by simp [hn]) (by simp [List.mem_replicate])
  | succ k ih =>
    cases ws with
    | nil => simp at hn; omega
    | cons a ws =>
      cases us with
      | nil => simp at hl
      | cons u us =>
        obtain ⟨a', u', ha, hu, j, hm, hm'⟩ := h1 0 (by omega)
        have ha : a = a' := by simpa using ha
        have hu : u = u' := by simpa using hu
        subst ha; subst hu
        rw [List.replicate_succ, List.cons_append, decodeWordsRacing, decodeWords, hm, hm']
        refine ih ws us _ (by simpa using hl) (by simp at hn; omega) ?_ ?_
        · intro i hi
          obtain ⟨x, y, h3, h4, h5⟩ := h1 (i + 1) (by omega)
          exact ⟨x, y, by simpa using h3, by simpa using h4, h5⟩
        · intro i hi
          simpa using h2 (i + 1) (by omega)

/-- **C13**, mixed reads: while one list is being replaced by another with no word in common, a sentence made of the
first word of the sentence that the old list gives for an entropy, and the other words of the sentence that the new
list gives for it — valid under neither — can be accepted. -/
theorem C13_mixed (H : Hashes) (l l' : List Bytes) (hg : GoodList l) (hg' : GoodList l')
    (hdis : ∀ w ∈ l, w ∉ l') (e : Bytes) (he : e.length ∈ entropySizes) :
    ∃ s times, Schedule l' (fields s).length times ∧
      (∃ er, entropyFromMnemonic H (setWordList l) s = .ok ([], some er)) ∧
      (∃ er, entropyFromMnemonic H (setWordList l') s = .ok ([], some er)) ∧
      entropyScheduled H (setWordList l) l' times s = .ok (e, none) := by
  obtain ⟨ws, -, hE, hwl⟩ := newMnemonic_eq H hg e he
  obtain ⟨us, -, hE', hul⟩ := newMnemonic_eq H hg' e he
  obtain ⟨k, hek, hk1, hk2⟩ := (entropySizes_iff _).1 he
  have hw := encodes_words H hg hE
  have hu := encodes_words H hg' hE'
  obtain ⟨idx, i1, i2, i3⟩ := hE
  obtain ⟨idx', j1, j2, j3⟩ := id hE'
  have hidx : idx = idx' := by
    have hlen : idx.length = idx'.length := by
      have := congrArg List.length (i3.trans j3.symm)
      rw [flatMap_bitsN_length, flatMap_bitsN_length] at this
      omega
    have hv : ofDigitsBE 2048 idx = ofDigitsBE 2048 idx' := by rw [← bv_idx idx i1, ← bv_idx idx' j1, i3, j3]
    exact ofDigitsBE_inj 2048 idx idx' hlen i1 j1 hv
  subst hidx
  have hl1 := words_of_idx i2
  have hl2 := words_of_idx j2
  have hwn : ws.length = 3 * k := by omega
  have hun : us.length = 3 * k := by omega
  obtain ⟨w, ws, rfl⟩ : ∃ a b, ws = a :: b := by cases ws with
    | nil => simp at hwn; omega
    | cons a b => exact ⟨a, b, rfl⟩
  obtain ⟨u, us, rfl⟩ : ∃ a b, us = a :: b := by cases us with
    | nil => simp at hun; omega
    | cons a b => exact ⟨a, b, rfl⟩
  obtain ⟨u2, us, rfl⟩ : ∃ a b, us = a :: b := by cases us with
    | nil => simp at hun; omega
    | cons a b => exact ⟨a, b, rfl⟩
  -- the first word from the old list, the others from the new one
  have hmix : ∀ x ∈ w :: u2 :: us, IsWord x := by
    intro x hx
    rcases List.mem_cons.1 hx with rfl | hx
    · exact hw _ (by simp)
    · exact hu x (by simp at hx ⊢; tauto)
  have hf := fields_join _ hmix
  have hmlen : (w :: u2 :: us).length = 3 * k := by simpa using hun
  have hmem : (w :: u2 :: us).length ∈ sentenceLengths := (sentenceLengths_iff _).2 ⟨k, hmlen, hk1, hk2⟩
  have hws : w ∈ l := hl1 w (by simp)
  have hus : u2 ∈ l' := hl2 u2 (by simp)
  have hu2 : u2 ∉ l := fun h => hdis u2 h hus
  have hlay := layout_intercalate (c := 0x20) (by decide) _ hmix
  refine ⟨[32].intercalate (w :: u2 :: us),
    List.replicate 1 1 ++ List.replicate (3 * k - 1) (writerSteps l'), ⟨?_, ?_, ?_⟩, ?_, ?_, ?_⟩
  · rw [hf, hmlen]; simp; omega
  · rw [List.pairwise_append]
    refine ⟨List.pairwise_replicate.2 (Or.inr (le_refl _)), List.pairwise_replicate.2 (Or.inr (le_refl _)), ?_⟩
    intro a ha b hb
    rw [(List.mem_replicate.1 ha).2, (List.mem_replicate.1 hb).2, writerSteps]; omega
  · intro t ht
    rcases List.mem_append.1 ht with h | h
    · rw [(List.mem_replicate.1 h).2, writerSteps]; omega
    · rw [(List.mem_replicate.1 h).2]
  · exact ⟨_, (C04_errors H hg _ _ hlay).2.1 [w] u2 us hmem rfl (by simpa using hws) hu2⟩
  · exact ⟨_, (C04_errors H hg' _ _ hlay).2.1 [] w (u2 :: us) hmem rfl (by simp) (hdis w hws)⟩
  · have hmaps : (List.replicate 1 1 ++ List.replicate (3 * k - 1) (writerSteps l')).map
        (fun t => (writerState (setWordList l) l' t).map) =
        List.replicate 1 (setWordList l).map ++ List.replicate (3 * k - 1) (setWordList l').map := by
      rw [List.map_append, List.map_replicate, List.map_replicate, writerState_final]
      rfl
    have hfu := fields_join (u :: u2 :: us) hu
    have hdec : decodeWordsRacing (List.replicate 1 (setWordList l).map ++ List.replicate (3 * k - 1) (setWordList l').map)
        (fields ([32].intercalate (w :: u2 :: us))) 0 =
        decodeWords (setWordList l').map (fields ([32].intercalate (u :: u2 :: us))) 0 := by
      rw [hf, hfu]
      apply decodeWordsRacing_split
      · simp
      · simp at hmlen ⊢; omega
      · intro i hi
        obtain rfl : i = 0 := by omega
        refine ⟨w, u, rfl, rfl, ?_⟩
        cases idx with
        | nil => simp at i2
        | cons i0 idx =>
          simp only [List.map_cons, List.cons.injEq] at i2 j2
          exact ⟨i0, (setWordList_map_nodup hg.nodup w i0).2 i2.1.symm,
            (setWordList_map_nodup hg'.nodup u i0).2 j2.1.symm⟩
      · intro i hi
        obtain ⟨i, rfl⟩ : ∃ j, i = j + 1 := ⟨i - 1, by omega⟩
        simp
    rw [entropyScheduled, hmaps, entropyRacing_eq H _ (setWordList l') _ ([32].intercalate (u :: u2 :: us))
      (by rw [hf, hfu]; simp) hdec]
    exact (entropy_iff H hg' _ e).2 ⟨_, layout_intercalate (c := 0x20) (by decide) _ hu, he, hE'⟩

end Bips
