import Verif.Src.AccessUtil
import Verif.Props.SourceSeed
import Verif.Props.MnemonicRace
import Verif.Props.Footprint

/-!
# C124: generating mnemonics and seeds while the word list is set

The texts of `GenerateMnemonic` and `DeriveSeedFromMnemonic` of package util run beside that of `SetWordList`. With C120, C122 and C123 these are all
functions of the packages that reach the two variables.
-/

namespace Bips

open Src Spec

variable (W : World) (L n : Nat)

/-- **C124**, the seed text: beside the text of `SetWordList(list)`, that of `DeriveSeedFromMnemonic` returns the seed of the sentence and the passphrase as
hexadecimal text, or none and the error of `EntropyFromMnemonic`; the schedule decides which of the two, and nothing else. -/
theorem C124_seed_text (S : WordState) (list : List Bytes) (m p : Bytes) (r : Res (List Val)) :
    (∃ schedule, ((Calls.begin W L (n + 3) S [setCall list, (.util_DeriveSeedFromMnemonic, [.str m, .str p])]).run schedule).calls[1]? = some (.leaf r)) ↔
      ∃ times, Schedule list (lookedUp m).length times ∧
        ((∃ e, entropyScheduled W.H S list times m = .ok (e, none)) ∧ r = .ok [.str (hexEncode (newSeed W.H m p)), .err none] ∨
          ∃ b e, entropyScheduled W.H S list times m = .ok (b, some e) ∧ r = .ok [.str [], .err (some e)]) := by
  refine (beside_end W L (n + 3) S list _ _ m (fun o => outcome (both .str) (seedTextAfter W.H m p o)) (by omega)
    (acc_DeriveSeedFromMnemonic W L n m p) r).trans ?_
  refine exists_congr fun times => and_congr_right fun _ => ?_
  obtain ⟨⟨b, _ | e⟩, hx⟩ := racing_returns W.H (times.map fun t => (writerState S list t).map) m
  · have hx' : entropyScheduled W.H S list times m = .ok (b, none) := hx
    simp [hx', seedTextAfter, outcome, both]
  · have hx' : entropyScheduled W.H S list times m = .ok (b, some e) := hx
    simp [hx', seedTextAfter, outcome, both]

/-- **C124**, torn: while the list in force is set once more, `DeriveSeedFromMnemonic` can refuse every sentence it accepts before and after. -/
theorem C124_torn (l : List Bytes) (hg : GoodList l) (s p e : Bytes) (h : entropyFromMnemonic W.H (setWordList l) s = .ok (e, none)) :
    ∃ schedule, ∃ w ∈ l, ((Calls.begin W L (n + 3) (setWordList l) [setCall l, (.util_DeriveSeedFromMnemonic, [.str s, .str p])]).run schedule).calls[1]? =
      some (.leaf (.ok [.str [], .err (some (.unknownWord w))])) := by
  have hlook : lookedUp s = fields s := by
    unfold entropyFromMnemonic at h
    rcases hsp : splitMnemonicWords s with ⟨ws, _ | _⟩
    · simp [hsp] at h
    · have hl : lookedUp s = ws := by simp [lookedUp, hsp]
      rw [hl]
      unfold splitMnemonicWords at hsp
      dsimp only at hsp
      split at hsp
      · simp at hsp
      · exact (Prod.mk.inj hsp).1.symm
  obtain ⟨times, w, ht, hw, hr⟩ := C13_torn W.H l hg s e h
  obtain ⟨schedule, hx⟩ := (C124_seed_text W L n (setWordList l) l s p _).2 ⟨times, by rw [hlook]; exact ht, .inr ⟨_, _, hr, rfl⟩⟩
  exact ⟨schedule, w, hw, hx⟩

/-! ### Generating -/

/-- What a computation that takes the words for `e` from the list gives beside `SetWordList(list)`. -/
theorem beside_picks (N : Nat) (S : WordState) (list : List Bytes) (f : Fn) (vs : List Val) (e : Bytes) (hN : 0 < N)
    (hc : accRun W L N f vs = picks (sentenceOf e) (setBytes (addChecksum W.H e)) [] fun got => .leaf (outcome (both .str) (newMnemonicRacing W.H got e)))
    (r : Res (List Val)) :
    (∃ schedule, ((Calls.begin W L N S [setCall list, (f, vs)]).run schedule).calls[1]? = some (.leaf r)) ↔
      ∃ times, Schedule list (sentenceOf e) times ∧ r = outcome (both .str) (newMnemonicScheduled W.H S list times e) := by
  obtain ⟨n, rfl⟩ := Nat.exists_eq_succ_of_ne_zero (Nat.pos_iff_ne_zero.1 hN)
  rw [beside_iff W L n S list (f, vs) (by dsimp only; rw [hc]; exact picks_reads _ _ _ _)]
  dsimp only
  rw [hc]
  constructor
  · rintro ⟨times, h1, h2, h3⟩
    have hs := sorted_fit list times (sentenceOf e) h1 h2
    refine ⟨_, hs, ?_⟩
    have := picks_fit _ r ((List.replicate (sentenceOf e) (writerSteps list)).map (writerState S list)) (sentenceOf e) _ _ _ h3
    rw [← List.map_append, ← List.map_take, picks_play _ _ _ _ _ (by rw [List.length_map]; exact hs.1), List.nil_append,
      mnemonic_seen _ _ _ (by rw [List.length_map, List.length_map]; exact hs.1)] at this
    simpa [List.map_map, Function.comp_def, newMnemonicScheduled] using this.symm
  · rintro ⟨times, hs, rfl⟩
    refine ⟨times, hs.2.1, hs.2.2, ?_⟩
    rw [picks_play _ _ _ _ _ (by rw [List.length_map]; exact hs.1), List.nil_append,
      mnemonic_seen _ _ _ (by rw [List.length_map, List.length_map]; exact hs.1)]
    simp [List.map_map, Function.comp_def, newMnemonicScheduled]

theorem bits_facts (c : UInt8) (hc : c.toNat ∈ sentenceLengths) (e : Bytes) (he : e.length = 4 * c.toNat / 3) :
    bitsFor c = some (32 * c.toNat / 3) ∧ 32 * c.toNat / 3 / 8 = 4 * c.toNat / 3 ∧ sentenceOf e = c.toNat ∧ e.length ∈ entropySizes ∧
      3 * e.length / 4 = c.toNat := by
  have hcase : c = 12 ∨ c = 15 ∨ c = 18 ∨ c = 21 ∨ c = 24 := by
    simp only [sentenceLengths, List.mem_cons, List.not_mem_nil, or_false] at hc
    rcases hc with h | h | h | h | h
    · exact .inl (UInt8.toNat_inj.1 h)
    · exact .inr (.inl (UInt8.toNat_inj.1 h))
    · exact .inr (.inr (.inl (UInt8.toNat_inj.1 h)))
    · exact .inr (.inr (.inr (.inl (UInt8.toNat_inj.1 h))))
    · exact .inr (.inr (.inr (.inr (UInt8.toNat_inj.1 h))))
  unfold sentenceOf
  rcases hcase with rfl | rfl | rfl | rfl | rfl <;> rw [he] <;> exact ⟨by decide, by decide, by decide, by decide, by decide⟩

/-- **C124**, generating: beside the text of `SetWordList(list)`, that of `GenerateMnemonic(c)` gives exactly what `NewMnemonic` gives under the schedules
for the bytes read. -/
theorem C124_generate (hL : 32 < L) (hr : ∀ n, (W.read n).length = n) (S : WordState) (list : List Bytes) (c : UInt8) (hc : c.toNat ∈ sentenceLengths)
    (r : Res (List Val)) :
    (∃ schedule, ((Calls.begin W L (n + 4) S [setCall list, (.util_GenerateMnemonic, [.u8 c])]).run schedule).calls[1]? = some (.leaf r)) ↔
      ∃ times, Schedule list c.toNat times ∧ r = outcome (both .str) (newMnemonicScheduled W.H S list times (W.read (4 * c.toNat / 3))) := by
  obtain ⟨h1, h2, h3, -, -⟩ := bits_facts c hc (W.read (4 * c.toNat / 3)) (hr _)
  have := beside_picks W L (n + 4) S list .util_GenerateMnemonic [.u8 c] (W.read (4 * c.toNat / 3)) (by omega)
    (by rw [acc_GenerateMnemonic W L hL hr n c, h1]; dsimp only; rw [h2]) r
  rw [h3] at this
  exact this

/-- **C124**, other numbers of words: an error, whatever runs beside it. -/
theorem C124_count (hL : 32 < L) (hr : ∀ n, (W.read n).length = n) (S : WordState) (cs : List (Fn × List Val)) (i : Nat) (c : UInt8)
    (hc : c.toNat ∉ sentenceLengths) (hi : cs[i]? = some (.util_GenerateMnemonic, [.u8 c])) (schedule : List Nat) :
    ((Calls.begin W L (n + 4) S cs).run schedule).calls[i]? = some (.leaf (.ok [.str [], .err (some .invalidMnemonicWordsCount)])) := by
  have hb : bitsFor c = none := by
    unfold bitsFor
    simp only [sentenceLengths, List.mem_cons, List.not_mem_nil, or_false, not_or] at hc
    rw [if_neg (by rintro rfl; exact hc.1 rfl), if_neg (by rintro rfl; exact hc.2.1 rfl), if_neg (by rintro rfl; exact hc.2.2.1 rfl),
      if_neg (by rintro rfl; exact hc.2.2.2.1 rfl), if_neg (by rintro rfl; exact hc.2.2.2.2 rfl)]
  have hend : ∀ (schedule : List Nat) (d : Calls), d.calls[i]? = some (.leaf (.ok [.str [], .err (some .invalidMnemonicWordsCount)])) →
      (d.run schedule).calls[i]? = some (.leaf (.ok [.str [], .err (some .invalidMnemonicWordsCount)])) := by
    intro schedule
    induction schedule with
    | nil => intro d h; exact h
    | cons t ts ih =>
      intro d h
      refine ih _ ?_
      by_cases ht : i = t
      · subst ht
        simp only [Calls.step, h]
      · rw [(step_same d d t t rfl rfl).2.2.1 i ht, h]
  refine hend schedule _ ?_
  simp only [Calls.begin, List.getElem?_map, hi, Option.map_some]
  rw [acc_GenerateMnemonic W L hL hr n c, hb]

/-- **C124**, the list in force set once more: every sentence generated beside it is the one of the bytes read. -/
theorem C124_same (hL : 32 < L) (hr : ∀ n, (W.read n).length = n) (l : List Bytes) (hg : GoodList l) (c : UInt8) (hc : c.toNat ∈ sentenceLengths)
    (schedule : List Nat) (r : Res (List Val))
    (h : ((Calls.begin W L (n + 4) (setWordList l) [setCall l, (.util_GenerateMnemonic, [.u8 c])]).run schedule).calls[1]? = some (.leaf r)) :
    ∃ s, r = .ok [.str s, .err none] ∧ entropyFromMnemonic W.H (setWordList l) s = .ok (W.read (4 * c.toNat / 3), none) := by
  obtain ⟨-, -, -, h4, h5⟩ := bits_facts c hc (W.read (4 * c.toNat / 3)) (hr _)
  obtain ⟨times, ht, rfl⟩ := (C124_generate W L n hL hr (setWordList l) l c hc r).1 ⟨schedule, h⟩
  obtain ⟨s, h1, h2, -⟩ := C01_roundtrip W.H hg _ h4
  refine ⟨s, ?_, h2⟩
  rw [C13_newMnemonic_same W.H l hg _ h4 times (by rw [h5]; exact ht), h1]
  rfl

/-- **C124**, another list being set: whatever bytes are read, `GenerateMnemonic` can return, without an error, a sentence whose first words are of the new list
and the others of the old one, split anywhere; when the lists have no word in common neither accepts it. -/
theorem C124_mixed (hL : 32 < L) (hr : ∀ n, (W.read n).length = n) (l l' : List Bytes) (hg : GoodList l) (hg' : GoodList l') (hdis : ∀ w ∈ l, w ∉ l')
    (c : UInt8) (hc : c.toNat ∈ sentenceLengths) (k : Nat) (h0 : 0 < k) (hk : k < c.toNat) :
    ∃ schedule s, ((Calls.begin W L (n + 4) (setWordList l) [setCall l', (.util_GenerateMnemonic, [.u8 c])]).run schedule).calls[1]? =
        some (.leaf (.ok [.str s, .err none])) ∧
      (∀ (i : Nat) (w : Bytes), (fields s)[i]? = some w → (w ∈ l' ↔ i < k) ∧ (w ∈ l ↔ k ≤ i)) ∧
      (∃ er, entropyFromMnemonic W.H (setWordList l) s = .ok ([], some er)) ∧ ∃ er, entropyFromMnemonic W.H (setWordList l') s = .ok ([], some er) := by
  obtain ⟨-, -, -, h4, h5⟩ := bits_facts c hc (W.read (4 * c.toNat / 3)) (hr _)
  obtain ⟨s, times, ht, h1, h2, h3, h6⟩ := C13_newMnemonic_mixed W.H l l' hg hg' hdis _ h4 k h0 (by omega)
  rw [h5] at ht
  obtain ⟨schedule, hx⟩ := (C124_generate W L n hL hr (setWordList l) l' c hc _).2 ⟨times, ht, rfl⟩
  rw [h1] at hx
  exact ⟨schedule, s, hx, h2, h3, h6⟩

/-- **C124**, nothing is left out: a function touches neither variable at all (C123), or writes them, or is one of the nine of C120, C122 and C124, or one of the
handlers of the window. -/
theorem C124_complete (f : Fn) : aside f = true ∨ f ∈ ([.bip39_SetWordList, .bip39_init] : List Fn) ∨
    f ∈ ([.bip39_GetWordList, .bip39_GetWordIndex, .bip39_EntropyFromMnemonic, .bip39_IsMnemonicValid, .bip39_NewMnemonic, .bip39_MnemonicToByteArray,
      .bip39_NewSeedWithErrorChecking, .util_GenerateMnemonic, .util_DeriveSeedFromMnemonic] : List Fn) ∨
    f ∈ ([.main_onAutoCreateMnemonicClicked, .main_onMnemonicChange, .main_onMnemonicPassphraseChange, .main_update] : List Fn) := by
  cases f <;> first | exact .inl rfl | (right; simp)

/-! ### Cases -/

/-- Concrete: while English is replaced by Japanese, sentences of twelve words with five Japanese ones, valid in neither language, beside other calls. -/
example (H : Hashes) : ∃ schedule s, ((Calls.begin ⟨H, {}, setWordList english.list, fun n => List.replicate n 170⟩ 64 4 (setWordList english.list)
    (setCall japanese.list :: [(.bip39_GetWordList, []), (.util_GenerateMnemonic, [.u8 12])])).run schedule).calls[2]? = some (.leaf (.ok [.str s, .err none])) ∧
    (∃ er, entropyFromMnemonic H (setWordList english.list) s = .ok ([], some er)) ∧
    ∃ er, entropyFromMnemonic H (setWordList japanese.list) s = .ok ([], some er) := by
  obtain ⟨sch, s, h1, -, h2, h3⟩ := C124_mixed ⟨H, {}, setWordList english.list, fun n => List.replicate n 170⟩ 64 0 (by norm_num) (by simp) english.list
    japanese.list english_list_good japanese_list_good english_japanese_disjoint 12 (by decide) 5 (by decide) (by decide)
  obtain ⟨sch', h1'⟩ := (C122_many ⟨H, {}, setWordList english.list, fun n => List.replicate n 170⟩ 64 4 (setWordList english.list) japanese.list
    [(.bip39_GetWordList, []), (.util_GenerateMnemonic, [.u8 12])] (by simp) 1 _ rfl _).2 ⟨sch, h1⟩
  exact ⟨sch', s, h1', h2, h3⟩

/-- Concrete: thirteen words are never generated. -/
example (W : World) (hr : ∀ n, (W.read n).length = n) (S : WordState) (l : List Bytes) (schedule : List Nat) :=
  C124_count W 64 0 (by norm_num) hr S [setCall l, (.util_GenerateMnemonic, [.u8 13])] 1 13 (by decide) rfl schedule

end Bips
