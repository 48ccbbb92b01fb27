import Verif.Props.CustomList

/-!
# C80: which package states lose no entropy

Any list and any index, whether or not they come from a call of `SetWordList`, and with no bound on the length of the list.
-/

namespace Bips
open Spec

/-- What an accepted mnemonic decodes to, for any index. -/
theorem entropy_ok_inv (H : Hashes) (S : WordState) (s e : Bytes) (h : entropyFromMnemonic H S s = .ok (e, none)) :
    ∃ k N, 4 ≤ k ∧ k ≤ 8 ∧ (fields s).length = 3 * k ∧ decodeWords S.map (fields s) 0 = .inl N ∧
      padByteSlice (bigBytes (N / 2 ^ k)) (4 * k) = e := by
  by_cases hc : (fields s).length ∈ sentenceLengths
  swap
  · rw [entropyFromMnemonic, splitMnemonicWords_eq, if_neg hc] at h
    simp at h
  obtain ⟨k, hk, hk1, hk2⟩ := (sentenceLengths_iff _).1 hc
  obtain ⟨t1, t2, t3⟩ := checksumTables k hk1 hk2
  rw [entropyFromMnemonic, splitMnemonicWords_eq, if_pos hc] at h
  dsimp only at h
  cases hd : decodeWords S.map (fields s) 0 with
  | inr er => rw [hd] at h; simp at h
  | inl N =>
    rw [hd, hk, t1] at h
    dsimp only at h
    have hpos : 0 < 2 ^ k := by positivity
    rw [show 3 * k / 3 * 4 = 4 * k by omega, show 2 ^ k - 1 + 1 = 2 ^ k by omega] at h
    refine ⟨k, N, hk1, hk2, hk, rfl, ?_⟩
    by_cases h24 : 3 * k = 24
    · rw [if_neg (by simpa using h24)] at h
      split at h
      · simp at h
      · exact (Prod.mk.inj (Outcome.ok.inj h)).1
    · rw [if_pos h24, t2 h24] at h
      dsimp only at h
      split at h
      · simp at h
      · exact (Prod.mk.inj (Outcome.ok.inj h)).1

/-- The upper part of the decoded number: only the word next to it can disturb it. -/
theorem decodeWords_upper (m : Bytes → Option Nat) (w : Bytes) (ws : List Bytes) (b N q : Nat) (hq : m w = some q)
    (h : decodeWords m (w :: ws) b = .inl N) : N / 2048 ^ (ws.length + 1) = b ||| (q % 65536 / 2048) := by
  induction ws generalizing w b q with
  | nil =>
    rw [decodeWords, hq] at h
    dsimp only at h
    rw [decodeWords, Sum.inl.injEq] at h
    rw [← h, setBytes_beBytes, show q % 65536 % 256 ^ 2 = q % 65536 by omega]
    change (b * 2048 ||| q % 65536) / 2 ^ 11 = _
    rw [Nat.or_div_two_pow]
    congr 1
    exact Nat.mul_div_cancel b (by norm_num)
  | cons v ws ih =>
    rw [decodeWords, hq] at h
    dsimp only at h
    rw [setBytes_beBytes, show q % 65536 % 256 ^ 2 = q % 65536 by omega] at h
    cases hv : m v with
    | none => rw [decodeWords, hv] at h; simp at h
    | some r =>
      have := ih v _ r hv h
      rw [List.length_cons, pow_succ, ← Nat.div_div_eq_div_mul, this]
      change (_ ||| _) / 2 ^ 11 = _
      rw [Nat.or_div_two_pow, Nat.or_div_two_pow]
      rw [show r % 65536 / 2048 / 2 ^ 11 = 0 by omega, Nat.or_zero]
      congr 1
      exact Nat.mul_div_cancel b (by norm_num)

/-- Decoding looks at the indices modulo 65536. -/
theorem decodeWords_mod {m : Bytes → Option Nat} (ws : List Bytes) (idx : List Nat) (b : Nat) (h1 : ∀ i ∈ idx, i < 2048)
    (h2 : ws.map (fun w => (m w).map (· % 65536)) = idx.map some) :
    decodeWords m ws b = .inl (b * 2048 ^ idx.length + ofDigitsBE 2048 idx) := by
  induction idx generalizing ws b with
  | nil =>
    have : ws = [] := by simpa using h2
    rw [this, decodeWords]; simp
  | cons i idx ih =>
    cases ws with
    | nil => simp at h2
    | cons w ws =>
      simp only [List.map_cons, List.cons.injEq] at h2
      cases hw : m w with
      | none => rw [hw] at h2; simp at h2
      | some q =>
        rw [hw] at h2
        have hq : q % 65536 = i := by simpa using h2.1
        have hi := h1 i (by simp)
        rw [decodeWords, hw]
        dsimp only
        rw [hq, show setBytes (beBytes 2 i) = i by rw [setBytes_beBytes]; omega, mul_or_eq_add b i hi,
          ih ws _ (fun j hj => h1 j (by simp [hj])) h2.2, ofDigitsBE_cons, List.length_cons, pow_succ']
        congr 1; ring

/-- **C80.** For any list and any index in the package variables: every entropy survives the way to the mnemonic and back if and only if
each of the first 2048 entries exists, is one word up to white space around it, and that word has an index equal to its position,
modulo 65536. -/
theorem C80_state_iff (H : Hashes) (S : WordState) :
    (∀ e, e.length ∈ entropySizes → ∃ m, newMnemonic H S e = .ok (m, none) ∧ entropyFromMnemonic H S m = .ok (e, none)) ↔
    ∀ i, i < 2048 → ∃ x w q, S.list[i]? = some x ∧ Layout x [w] ∧ S.map w = some q ∧ q % 65536 = i := by
  constructor
  · intro hall
    -- the sentence of `repeated i` and its decoding
    have step : ∀ i, i < 2048 → ∃ c, c < 2048 ∧ ∃ x u, S.list[i]? = some x ∧ S.list[c]? = some u ∧
        entropyFromMnemonic H S ([32].intercalate (List.replicate 11 x ++ [u])) = .ok (repeated i, none) := by
      intro i hi
      have h16 : (repeated i).length ∈ entropySizes := by rw [repeated_length]; decide
      obtain ⟨m, m1, m2⟩ := hall (repeated i) h16
      obtain ⟨idx, h1, h2, h3, h4⟩ := newMnemonic_total H S (repeated i) h16
      obtain ⟨c, hc, rfl⟩ := repeated_idx H hi h1 h2
      have hin : ∀ j ∈ List.replicate 11 i ++ [c], j < S.list.length := by
        by_contra hcon
        push Not at hcon
        rw [h4 hcon] at m1
        cases m1
      have hi' := hin i (by simp)
      have hc' := hin c (by simp)
      obtain ⟨ws, w1, w2⟩ := h3 hin
      refine ⟨c, hc, S.list[i], S.list[c], List.getElem?_eq_getElem hi', List.getElem?_eq_getElem hc', ?_⟩
      have hws : ws = List.replicate 11 S.list[i] ++ [S.list[c]] := by
        apply List.map_injective_iff.2 (Option.some_injective _)
        rw [w1]
        simp [List.getElem?_eq_getElem hi', List.getElem?_eq_getElem hc']
      rw [m1, hws] at w2
      rw [← (Prod.mk.inj (Outcome.ok.inj w2)).1]
      exact m2
    -- twelve words, and their number
    have acc : ∀ i s, i < 2048 → entropyFromMnemonic H S s = .ok (repeated i, none) →
        (fields s).length = 12 ∧ ∃ N, decodeWords S.map (fields s) 0 = .inl N ∧
          N / 2048 = ofDigitsBE 2048 (List.replicate 11 i) := by
      intro i s hi h
      obtain ⟨k, N, hk1, hk2, hk, hd, hp⟩ := entropy_ok_inv H S s _ h
      have hk4 : k = 4 := by
        have := congrArg List.length hp
        rw [repeated_length, padByteSlice_eq, padLeft, List.length_append, List.length_replicate] at this
        omega
      subst hk4
      refine ⟨hk, N, hd, ?_⟩
      have hR : ofDigitsBE 2048 (List.replicate 11 i) < 2048 ^ 11 := by
        have := ofDigitsBE_lt 2048 (List.replicate 11 i) (fun d hd => by rw [List.eq_of_mem_replicate hd]; exact hi)
        simpa using this
      have := congrArg setBytes hp
      rw [padByteSlice_eq, setBytes_padLeft, setBytes_bigBytes, repeated, setBytes_beBytes, Nat.mod_eq_of_lt (by omega)] at this
      omega
    have hle : ∀ i x, i < 2048 → S.list[i]? = some x → (fields x).length ≤ 1 := by
      intro i x hi hx
      obtain ⟨c, -, x', u, hx', -, h⟩ := step i hi
      rw [hx] at hx'
      obtain rfl := Option.some.inj hx'
      have := (acc i _ hi h).1
      rw [fields_intercalate _ (by simp)] at this
      simp at this
      omega
    intro i hi
    obtain ⟨c, hc, x, u, hx, hu, h⟩ := step i hi
    obtain ⟨h12, N, hN, hv⟩ := acc i _ hi h
    have hlx := hle i x hi hx
    have hlu := hle c u hc hu
    rw [fields_intercalate _ (by simp)] at h12 hN
    have h12' := h12
    simp at h12'
    obtain ⟨w, hw⟩ := List.length_eq_one_iff.1 (show (fields x).length = 1 by omega)
    obtain ⟨v, hvv⟩ := List.length_eq_one_iff.1 (show (fields u).length = 1 by omega)
    have hflat : (List.replicate 11 x ++ [u]).flatMap fields = w :: w :: (List.replicate 9 w ++ [v]) := by
      simp [List.replicate_succ, hw, hvv]
    rw [hflat] at hN
    refine ⟨x, w, ?_⟩
    cases hq : S.map w with
    | none => rw [decodeWords, hq] at hN; simp at hN
    | some q =>
      refine ⟨q, hx, by rw [layout_iff, hw], rfl, ?_⟩
      have h1 := decodeWords_upper S.map w _ 0 N q hq hN
      have h2 : decodeWords S.map (w :: (List.replicate 9 w ++ [v])) (q % 65536) = .inl N := by
        rw [decodeWords, hq] at hN
        dsimp only at hN
        rwa [setBytes_beBytes, show q % 65536 % 256 ^ 2 = q % 65536 by omega, Nat.zero_mul, Nat.zero_or] at hN
      have h3 := decodeWords_upper S.map w _ (q % 65536) N q hq h2
      rw [Nat.zero_or] at h1
      have e1 : (w :: (List.replicate 9 w ++ [v])).length + 1 = 12 := by simp
      have e2 : (List.replicate 9 w ++ [v]).length + 1 = 11 := by simp
      rw [e1] at h1
      rw [e2] at h3
      have hR : ofDigitsBE 2048 (List.replicate 11 i) / 2048 ^ 10 = i := by
        rw [List.replicate_succ, ofDigitsBE_cons, List.length_replicate]
        have := ofDigitsBE_lt 2048 (List.replicate 10 i) (fun d hd => by rw [List.eq_of_mem_replicate hd]; exact hi)
        rw [List.length_replicate] at this
        rw [Nat.mul_comm, Nat.mul_add_div (by positivity), Nat.div_eq_of_lt this, Nat.add_zero]
      have hi' : N / 2048 ^ 11 = i := by
        rw [← hR, ← hv, Nat.div_div_eq_div_mul]
        norm_num
      have h0 : N / 2048 ^ 12 = 0 := by
        rw [pow_succ 2048 11, ← Nat.div_div_eq_div_mul, hi']
        omega
      rw [h0] at h1
      rw [← h1, Nat.or_zero, hi'] at h3
      exact h3.symm
  · intro h e he
    obtain ⟨idx, h1, h2, h3, -⟩ := newMnemonic_total H S e he
    obtain ⟨xs, x1, x2⟩ := h3 fun i hi => by
      obtain ⟨x, -, -, hx, -⟩ := h i (h1 i hi)
      exact (List.getElem?_eq_some_iff.1 hx).1
    refine ⟨_, x2, ?_⟩
    obtain ⟨k, hek, hk1, hk2⟩ := (entropySizes_iff _).1 he
    obtain ⟨a1, a2⟩ := (encodes_bits_iff H e k hek hk2 idx h1).1 h2
    have hxl : xs.length = idx.length := by simpa using congrArg List.length x1
    have hne : xs ≠ [] := by
      rintro rfl
      simp at hxl
      omega
    -- the words and their indices
    have hmap : (xs.flatMap fields).map (fun w => (S.map w).map (· % 65536)) = idx.map some ∧
        (xs.flatMap fields).length = xs.length := by
      clear x2 h2 h3 a1 a2 hne hxl
      induction idx generalizing xs with
      | nil =>
        have : xs = [] := by simpa using x1
        rw [this]; simp
      | cons i idx ih =>
        cases xs with
        | nil => simp at x1
        | cons x xs =>
          simp only [List.map_cons, List.cons.injEq] at x1
          obtain ⟨x', w, q, e1, e2, e3, e4⟩ := h i (h1 i (by simp))
          rw [← x1.1] at e1
          obtain rfl := Option.some.inj e1
          have hf := fields_layout e2
          obtain ⟨i1, i2⟩ := ih (fun j hj => h1 j (by simp [hj])) xs x1.2
          rw [List.flatMap_cons, hf]
          refine ⟨?_, by simpa using i2⟩
          simp only [List.singleton_append, List.map_cons, e3, i1, Option.map_some, e4]
    have hfl : fields ([32].intercalate xs) = xs.flatMap fields := fields_intercalate _ hne
    have hdec := decodeWords_mod (m := S.map) (xs.flatMap fields) idx 0 h1 hmap.1
    rw [Nat.zero_mul, Nat.zero_add] at hdec
    have hc : ((H.sha256 e).headD 0).toNat / 2 ^ (8 - k) < 2 ^ k := by
      apply Nat.div_lt_of_lt_mul
      rw [← pow_add, show 8 - k + k = 8 by omega]
      exact ((H.sha256 e).headD 0).toNat_lt
    have hdiv : ofDigitsBE 2048 idx / 2 ^ k = setBytes e := by
      rw [a2, Nat.mul_comm, Nat.mul_add_div (by positivity), Nat.div_eq_of_lt hc, add_zero]
    have hmod : ofDigitsBE 2048 idx % 2 ^ k = ((H.sha256 e).headD 0).toNat / 2 ^ (8 - k) := by
      rw [a2, Nat.mul_comm, Nat.mul_add_mod, Nat.mod_eq_of_lt hc]
    have hbe : beBytes (4 * k) (setBytes e) = e := by rw [← hek]; exact beBytes_setBytes e
    rw [entropy_of_number H S _ k _ hk1 hk2 (by rw [hfl, hmap.2, hxl, a1]) (by rw [hfl]; exact hdec)
      (by rw [← a1]; exact ofDigitsBE_lt 2048 idx h1), hdiv, hbe, if_pos hmod]

/-- **C80.** A list of any length set with `SetWordList` loses no entropy if and only if each of its first 2048 entries is one word
up to white space around it and the last place where that word stands in the list is the entry's own, or a multiple of 65536 behind it. -/
theorem C80_any_length_iff (H : Hashes) (l : List Bytes) :
    (∀ e, e.length ∈ entropySizes → ∃ m, newMnemonic H (setWordList l) e = .ok (m, none) ∧
      entropyFromMnemonic H (setWordList l) m = .ok (e, none)) ↔
    ∀ i, i < 2048 → ∃ (x w : Bytes) (q : Nat), l[i]? = some x ∧ Layout x [w] ∧ l[q]? = some w ∧
      (∀ r, q < r → l[r]? ≠ some w) ∧ q % 65536 = i := by
  rw [C80_state_iff]
  refine forall₂_congr fun i _ => ?_
  constructor
  · rintro ⟨x, w, q, h1, h2, h3, h4⟩
    obtain ⟨h5, h6⟩ := (setWordList_map_some l w q).1 h3
    exact ⟨x, w, q, h1, h2, h5, h6, h4⟩
  · rintro ⟨x, w, q, h1, h2, h3, h4, h5⟩
    exact ⟨x, w, q, h1, h2, (setWordList_map_some l w q).2 ⟨h3, h4⟩, h5⟩

/-- **C80.** A good list with more entries behind it, at most 65536 in all, loses no entropy if and only if no word of the good list
comes again. -/
theorem C80_longer_iff (H : Hashes) (l t : List Bytes) (hg : GoodList l) (hn : (l ++ t).length ≤ 65536) :
    (∀ e, e.length ∈ entropySizes → ∃ m, newMnemonic H (setWordList (l ++ t)) e = .ok (m, none) ∧
      entropyFromMnemonic H (setWordList (l ++ t)) m = .ok (e, none)) ↔ ∀ w ∈ l, w ∉ t := by
  have hll := hg.length
  rw [C80_any_length_iff]
  constructor
  · intro h w hw ht
    obtain ⟨i, hi⟩ := List.getElem?_of_mem hw
    have hil := (List.getElem?_eq_some_iff.1 hi).1
    obtain ⟨x, v, q, h1, h2, h3, h4, h5⟩ := h i (by omega)
    rw [List.getElem?_append_left hil, hi] at h1
    obtain rfl := Option.some.inj h1
    have hf := fields_join [w] (by simpa using hg.word w hw)
    rw [show [32].intercalate [w] = w by simp [List.intercalate], fields_layout h2] at hf
    obtain rfl := (List.cons.inj hf).1
    have hq := (List.getElem?_eq_some_iff.1 h3).1
    obtain ⟨p, hp⟩ := List.getElem?_of_mem ht
    refine h4 (l.length + p) (by omega) ?_
    rw [List.getElem?_append_right (by omega), show l.length + p - l.length = p by omega]
    exact hp
  · intro h i hi
    have hil : i < l.length := by omega
    have hmem : l[i] ∈ l := List.getElem_mem hil
    refine ⟨l[i], l[i], i, ?_, ?_, ?_, ?_, by omega⟩
    · rw [List.getElem?_append_left hil, List.getElem?_eq_getElem hil]
    · have := layout_intercalate (c := 0x20) (by decide) [l[i]] (by simpa using hg.word _ hmem)
      simpa [List.intercalate] using this
    · rw [List.getElem?_append_left hil, List.getElem?_eq_getElem hil]
    · intro r hr e
      by_cases hrl : r < l.length
      · rw [List.getElem?_append_left hrl, List.getElem?_eq_getElem hrl] at e
        have := (List.Nodup.getElem_inj_iff hg.nodup (hi := hrl) (hj := hil)).1 (Option.some.inj e)
        omega
      · rw [List.getElem?_append_right (by omega)] at e
        exact h _ hmem (List.mem_of_getElem? e)

end Bips
