import Verif.Props.WordRace

/-! # C13: `NewMnemonic` racing with `SetWordList` -/

namespace Bips
open Spec

theorem encodeWordsRacing_spec (lists : List (List Bytes)) (hl : ∀ l ∈ lists, 2048 ≤ l.length) (N : Nat) (acc : List Bytes) :
    ∃ idx : List Nat, ∃ ws, idx.length = lists.length ∧ (∀ i ∈ idx, i < 2048) ∧
      ofDigitsBE 2048 idx = N % 2048 ^ lists.length ∧
      ws.map some = List.zipWith (fun l i => l[i]?) lists.reverse idx ∧
      encodeWordsRacing lists lists.length N acc = .ok (ws ++ acc) := by
  induction lists generalizing N acc with
  | nil => exact ⟨[], [], rfl, by simp, by simp [Nat.mod_one], rfl, rfl⟩
  | cons l lists ih =>
    have hword : setBytes (padByteSlice (bigBytes (N &&& 2047)) 2) = N % 2048 := by
      rw [padByteSlice_eq, setBytes_padLeft, setBytes_bigBytes]
      exact Nat.and_two_pow_sub_one_eq_mod N 11
    have hlt : N % 2048 < 2048 := Nat.mod_lt _ (by omega)
    have hll := hl l (by simp)
    have hget : l[N % 2048]? = some l[N % 2048] := List.getElem?_eq_getElem (by omega)
    obtain ⟨idx, ws, h1, h2, h3, h4, h5⟩ := ih (fun l h => hl l (by simp [h])) (N / 2048) (l[N % 2048] :: acc)
    refine ⟨idx ++ [N % 2048], ws ++ [l[N % 2048]], by simp [h1], ?_, ?_, ?_, ?_⟩
    · intro i hi
      rcases List.mem_append.1 hi with h | h
      · exact h2 i h
      · rw [List.mem_singleton.1 h]; exact hlt
    · rw [ofDigitsBE_concat, h3, List.length_cons, pow_succ' 2048 _, Nat.mod_mul]; omega
    · rw [List.reverse_cons, List.zipWith_append (by simp [h1]), List.map_append, h4]
      simp [hget]
    · rw [List.length_cons, encodeWordsRacing]
      rw [hword, hget]
      dsimp only
      rw [h5]; simp

/-- In a schedule, the reads before the first step of the writer come first. -/
theorem schedule_split (times : List Nat) (h : times.Pairwise (· ≤ ·)) (l l' : List Bytes) (m : Bytes → Option Nat) :
    times.map (fun t => (writerState ⟨l, m⟩ l' t).list) =
      List.replicate (times.count 0) l ++ List.replicate (times.length - times.count 0) l' := by
  induction times with
  | nil => rfl
  | cons t times ih =>
    rw [List.pairwise_cons] at h
    have ih := ih h.2
    cases t with
    | zero =>
      rw [List.map_cons, ih, List.count_cons_self, List.replicate_succ, List.length_cons, List.cons_append,
        Nat.add_sub_add_right]
      rfl
    | succ t =>
      have h0 : times.count 0 = 0 := List.count_eq_zero.2 fun h' => by have := h.1 0 h'; omega
      rw [List.map_cons, ih, List.count_cons_of_ne (by omega), h0]
      have : (writerState ⟨l, m⟩ l' (t + 1)).list = l' := by cases t <;> rfl
      simp [this, List.replicate_succ]

theorem zipWith_replicate_get (l : List Bytes) (n : Nat) (z : List Nat) (h : z.length = n) :
    List.zipWith (fun l i => l[i]?) (List.replicate n l) z = z.map (l[·]?) := by
  subst h
  induction z with
  | nil => rfl
  | cons a z ih => simp [List.replicate_succ, ih]

/-- **C13** for `NewMnemonic`, exactly: racing with `SetWordList(l')` while `l` is in force, it always succeeds; if `c`
of its reads come before the list is replaced, the last `c` words are those that `l` gives for the entropy and the
words before them those that `l'` gives for it. -/
theorem C13_newMnemonic_exact (H : Hashes) (l l' : List Bytes) (hg : GoodList l) (hg' : GoodList l') (e : Bytes)
    (he : e.length ∈ entropySizes) (ws us : List Bytes) (hw : Encodes H.sha256 l e ws) (hu : Encodes H.sha256 l' e us)
    (times : List Nat) (ht : Schedule l' ws.length times) :
    newMnemonicScheduled H (setWordList l) l' times e =
      .ok ([32].intercalate (us.take (ws.length - times.count 0) ++ ws.drop (ws.length - times.count 0)), none) := by
  obtain ⟨k, hek, hk1, hk2⟩ := (entropySizes_iff _).1 he
  have hlen : (e.length * 8 + e.length * 8 / 32) / 11 = 3 * k := by omega
  obtain ⟨hl, hp, -⟩ := ht
  have hsplit := schedule_split times hp l l' (setWordList l).map
  have hcnt := List.count_le_length (a := 0) (l := times)
  have hwn : ws.length = 3 * k := by
    obtain ⟨w2, -, hE, hn⟩ := newMnemonic_eq H hg e he
    rw [encodes_unique H hw hE, hn]; omega
  obtain ⟨idx, rs, h1, h2, h3, h4, h5⟩ := encodeWordsRacing_spec (times.map fun t => (writerState (setWordList l) l' t).list)
    (by
      change ∀ x ∈ times.map (fun t => (writerState ⟨l, (setWordList l).map⟩ l' t).list), _
      rw [hsplit]
      intro x hx
      rcases List.mem_append.1 hx with h | h
      · rw [(List.mem_replicate.1 h).2, hg.length]
      · rw [(List.mem_replicate.1 h).2, hg'.length]) (setBytes (addChecksum H e)) []
  rw [List.length_map, hl, hwn] at h1 h3 h5
  have hN := setBytes_addChecksum H e k hek hk2
  have hlt : setBytes (addChecksum H e) < 2048 ^ (3 * k) := by
    have hc : ((H.sha256 e).headD 0).toNat / 2 ^ (8 - k) < 2 ^ k := by
      apply Nat.div_lt_of_lt_mul
      rw [← pow_add, show 8 - k + k = 8 by omega]
      exact ((H.sha256 e).headD 0).toNat_lt
    have hse := setBytes_lt e
    rw [hek] at hse
    rw [hN]
    calc setBytes e * 2 ^ k + _ < setBytes e * 2 ^ k + 2 ^ k := by omega
      _ = (setBytes e + 1) * 2 ^ k := by ring
      _ ≤ 256 ^ (4 * k) * 2 ^ k := Nat.mul_le_mul_right _ hse
      _ = 2048 ^ (3 * k) := by
        rw [show (2048 : Nat) = 2 ^ 11 by rfl, show (256 : Nat) = 2 ^ 8 by rfl, ← pow_mul, ← pow_mul, ← pow_add]
        congr 1; ring
  rw [Nat.mod_eq_of_lt hlt, hN] at h3
  have hbits := (encodes_bits_iff H e k hek hk2 idx h2).2 ⟨h1, h3⟩
  have hex : ∀ (x : List Bytes), GoodList x → ∃ us : List Bytes, us.map some = idx.map (x[·]?) := by
    intro x hx
    refine ⟨idx.map (fun i => (x[i]?).getD []), ?_⟩
    rw [List.map_map]
    refine List.map_congr_left fun i hi => ?_
    have := h2 i hi
    rw [Function.comp, List.getElem?_eq_getElem (by rw [hx.length]; exact this)]
    rfl
  have hwi : ws.map some = idx.map (l[·]?) := by
    obtain ⟨w2, hw2⟩ := hex l hg
    rw [encodes_unique H hw ⟨idx, h2, hw2, hbits⟩]; exact hw2
  have hui : us.map some = idx.map (l'[·]?) := by
    obtain ⟨w2, hw2⟩ := hex l' hg'
    rw [encodes_unique H hu ⟨idx, h2, hw2, hbits⟩]; exact hw2
  have hrs : rs = us.take (ws.length - times.count 0) ++ ws.drop (ws.length - times.count 0) := by
    apply List.map_injective_iff.2 (Option.some_injective _)
    rw [h4, List.map_append, List.map_take, List.map_drop, hwi, hui]
    change List.zipWith _ (times.map (fun t => (writerState ⟨l, (setWordList l).map⟩ l' t).list)).reverse _ = _
    rw [hsplit, List.reverse_append, List.reverse_replicate, List.reverse_replicate, hl]
    generalize hc : ws.length - times.count 0 = c
    have hidx : idx = idx.take c ++ idx.drop c := (List.take_append_drop c idx).symm
    conv_lhs => rw [hidx]
    rw [List.zipWith_append (by simp; omega), ← List.map_take, ← List.map_drop]
    congr 1
    · exact zipWith_replicate_get l' c _ (by simp; omega)
    · exact zipWith_replicate_get l _ _ (by simp; omega)
  rw [newMnemonicScheduled, newMnemonicRacing]
  rw [(validate_none_iff e.length).2 he]
  dsimp only
  rw [hlen, h5, List.append_nil, hrs, ← joinByte_eq_intercalate]

/-- Setting the list in force once more disturbs no running `NewMnemonic`. -/
theorem C13_newMnemonic_same (H : Hashes) (l : List Bytes) (hg : GoodList l) (e : Bytes) (he : e.length ∈ entropySizes)
    (times : List Nat) (ht : Schedule l (3 * e.length / 4) times) :
    newMnemonicScheduled H (setWordList l) l times e = newMnemonic H (setWordList l) e := by
  obtain ⟨ws, h1, hE, hn⟩ := newMnemonic_eq H hg e he
  rw [C13_newMnemonic_exact H l l hg hg e he ws ws hE hE times (by rw [hn]; exact ht), List.take_append_drop, h1]

/-- **C13** for `NewMnemonic`, the claim fails: while one list is being replaced by another with no word in common,
for every entropy and every number of words strictly between 0 and all of them, `NewMnemonic` can return, without an
error, a sentence whose first `c` words come from the new list and the others from the old one. Neither list accepts
it, so what it was made from cannot be recovered with the package. -/
theorem C13_newMnemonic_mixed (H : Hashes) (l l' : List Bytes) (hg : GoodList l) (hg' : GoodList l')
    (hdis : ∀ w ∈ l, w ∉ l') (e : Bytes) (he : e.length ∈ entropySizes) (c : Nat) (hc : 0 < c)
    (hc' : c < 3 * e.length / 4) :
    ∃ s times, Schedule l' (3 * e.length / 4) times ∧
      newMnemonicScheduled H (setWordList l) l' times e = .ok (s, none) ∧
      (∀ (i : Nat) (w : Bytes), (fields s)[i]? = some w → (w ∈ l' ↔ i < c) ∧ (w ∈ l ↔ c ≤ i)) ∧
      (∃ er, entropyFromMnemonic H (setWordList l) s = .ok ([], some er)) ∧
      (∃ er, entropyFromMnemonic H (setWordList l') s = .ok ([], some er)) := by
  obtain ⟨ws, -, hE, hwl⟩ := newMnemonic_eq H hg e he
  obtain ⟨us, -, hE', hul⟩ := newMnemonic_eq H hg' e he
  obtain ⟨k, hek, hk1, hk2⟩ := (entropySizes_iff _).1 he
  have hw := encodes_words H hg hE
  have hu := encodes_words H hg' hE'
  have hn : 3 * e.length / 4 = 3 * k := by omega
  rw [hn] at hwl hul hc' ⊢
  have hwm : ∀ w ∈ ws, w ∈ l := by obtain ⟨_, _, h, _⟩ := hE; exact words_of_idx h
  have hum : ∀ w ∈ us, w ∈ l' := by obtain ⟨_, _, h, _⟩ := hE'; exact words_of_idx h
  set times := List.replicate (3 * k - c) 0 ++ List.replicate c (writerSteps l') with htimes
  have hsch : Schedule l' (3 * k) times := by
    refine ⟨by simp [htimes]; omega, ?_, ?_⟩
    · rw [htimes, List.pairwise_append]
      refine ⟨List.pairwise_replicate.2 (Or.inr (le_refl _)), List.pairwise_replicate.2 (Or.inr (le_refl _)), ?_⟩
      intro a ha b hb
      rw [(List.mem_replicate.1 ha).2]; omega
    · intro t ht
      rcases List.mem_append.1 ht with h | h
      · rw [(List.mem_replicate.1 h).2]; omega
      · rw [(List.mem_replicate.1 h).2]
  have hcount : times.count 0 = 3 * k - c := by
    rw [htimes, List.count_append, List.count_replicate_self, List.count_replicate, if_neg (by simp [writerSteps])]
    rfl
  have hres := C13_newMnemonic_exact H l l' hg hg' e he ws us hE hE' times (by rw [hwl]; exact hsch)
  rw [hcount, hwl, show 3 * k - (3 * k - c) = c by omega] at hres
  have hmix : ∀ x ∈ us.take c ++ ws.drop c, IsWord x := by
    intro x hx
    rcases List.mem_append.1 hx with h | h
    · exact hu x (List.mem_of_mem_take h)
    · exact hw x (List.mem_of_mem_drop h)
  have hf := fields_join _ hmix
  have hmlen : (us.take c ++ ws.drop c).length = 3 * k := by simp; omega
  have hmem : (us.take c ++ ws.drop c).length ∈ sentenceLengths := (sentenceLengths_iff _).2 ⟨k, hmlen, hk1, hk2⟩
  have hlay := layout_intercalate (c := 0x20) (by decide) _ hmix
  refine ⟨_, times, hsch, hres, ?_, ?_, ?_⟩
  · rw [hf]
    intro i w hi
    by_cases hic : i < c
    · rw [List.getElem?_append_left (by simp; omega)] at hi
      have := hum w (List.mem_of_mem_take (List.mem_of_getElem? hi))
      have h2 : w ∉ l := fun h => hdis w h this
      simp [this, h2, hic]
    · rw [List.getElem?_append_right (by simp; omega)] at hi
      have := hwm w (List.mem_of_mem_drop (List.mem_of_getElem? hi))
      simp only [hdis w this, this, hic, true_iff, iff_self, true_and]
      omega
  · obtain ⟨c, rfl⟩ : ∃ d, c = d + 1 := ⟨c - 1, by omega⟩
    cases us with
    | nil => simp at hul; omega
    | cons u us =>
      refine ⟨_, (C04_errors H hg _ _ hlay).2.1 [] u (us.take c ++ ws.drop (c + 1)) hmem (by simp) (by simp) ?_⟩
      exact fun h => hdis u h (hum u (by simp))
  · obtain ⟨w, hwd⟩ : ∃ w, ws.drop c = w :: ws.drop (c + 1) :=
      ⟨ws[c]'(by omega), List.drop_eq_getElem_cons (by omega)⟩
    refine ⟨_, (C04_errors H hg' _ _ hlay).2.1 (us.take c) w (ws.drop (c + 1)) hmem (by rw [hwd]) ?_ ?_⟩
    · exact fun x hx => hum x (List.mem_of_mem_take hx)
    · exact hdis w (hwm w (List.mem_of_mem_drop (i := c) (by rw [hwd]; simp)))

end Bips
