import Verif.Props.MnemonicRace

/-! # C13: which schedules are safe, exactly -/

namespace Bips
open Spec

/-- The position at which a reader finds the word `w` after `t` steps of `SetWordList(l')` started while `l` was in force:
in the old list before the map is replaced, afterwards in the part of the new list inserted so far. -/
def Seen (l l' : List Bytes) (t : Nat) (w : Bytes) (i : Nat) : Prop :=
  (t ≤ 1 ∧ l[i]? = some w) ∨ (2 ≤ t ∧ l'[i]? = some w ∧ i + 2 < t)

theorem writerState_seen {l l' : List Bytes} (hn : l.Nodup) (hn' : l'.Nodup) (t : Nat) (w : Bytes) (i : Nat) :
    (writerState (setWordList l) l' t).map w = some i ↔ Seen l l' t w i := by
  match t with
  | 0 => simpa [Seen, writerState] using setWordList_map_nodup hn w i
  | 1 => simpa [Seen, writerState] using setWordList_map_nodup hn w i
  | t + 2 =>
    have := fillWordMap_take hn' t w i
    simp only [writerState, Seen, this]
    constructor
    · rintro ⟨h1, h2⟩; exact Or.inr ⟨by omega, h1, by omega⟩
    · rintro (⟨h, -⟩ | ⟨-, h1, h2⟩)
      · omega
      · exact ⟨h1, by omega⟩

theorem decodeWordsRacing_same (maps : List (Bytes → Option Nat)) (m : Bytes → Option Nat) (ws us : List Bytes) (b : Nat)
    (h1 : maps.length = ws.length) (h2 : us.length = ws.length)
    (h : ∀ (k : Nat) m' w u, maps[k]? = some m' → ws[k]? = some w → us[k]? = some u → ∃ j, m' w = some j ∧ m u = some j) :
    decodeWordsRacing maps ws b = decodeWords m us b := by
  induction ws generalizing maps us b with
  | nil =>
    have : us = [] := by simpa using h2
    subst this
    cases maps <;> rfl
  | cons w ws ih =>
    cases maps with
    | nil => simp at h1
    | cons m' maps =>
      cases us with
      | nil => simp at h2
      | cons u us =>
        obtain ⟨j, ha, hb⟩ := h 0 m' w u rfl rfl rfl
        rw [decodeWordsRacing, decodeWords, ha, hb]
        exact ih maps us _ (by simpa using h1) (by simpa using h2) fun k m' w u e1 e2 e3 =>
          h (k + 1) m' w u (by simpa using e1) (by simpa using e2) (by simpa using e3)

theorem decodeWordsRacing_first (maps : List (Bytes → Option Nat)) (a : List Bytes) (v : Bytes) (c : List Bytes) (b : Nat)
    (hl : maps.length = (a ++ v :: c).length)
    (ha : ∀ (k : Nat) m' w, maps[k]? = some m' → a[k]? = some w → (m' w).isSome)
    (hv : ∀ m', maps[a.length]? = some m' → m' v = none) :
    decodeWordsRacing maps (a ++ v :: c) b = .inr (.unknownWord v) := by
  induction a generalizing maps b with
  | nil =>
    cases maps with
    | nil => rfl
    | cons m maps => rw [List.nil_append, decodeWordsRacing, hv m rfl]
  | cons w a ih =>
    cases maps with
    | nil => simp at hl
    | cons m maps =>
      have := ha 0 m w rfl rfl
      obtain ⟨j, hj⟩ := Option.isSome_iff_exists.1 this
      rw [List.cons_append, decodeWordsRacing, hj]
      exact ih maps _ (by simpa using hl) (fun k m' w e1 e2 => ha (k + 1) m' w (by simpa using e1) (by simpa using e2))
        (fun m' e => hv m' (by simpa using e))

/-- **C13** for `EntropyFromMnemonic`, exactly: racing with `SetWordList(l')` while `l` is in force, it fails at the first
word it does not find at that moment; and if it finds all words, the result is that of the sentence which the new list
gives for the positions found, whichever list they were found in. -/
theorem C13_entropy_exact (H : Hashes) (l l' : List Bytes) (hg : GoodList l) (hg' : GoodList l') (s : Bytes) (ws : List Bytes)
    (hs : Layout s ws) (hws : ws.length ∈ sentenceLengths) (times : List Nat) (ht : Schedule l' ws.length times) :
    (∀ (idx : List Nat) (us : List Bytes), idx.length = ws.length → us.map some = idx.map (l'[·]?) →
      (∀ (k t i : Nat) (w : Bytes), times[k]? = some t → ws[k]? = some w → idx[k]? = some i → Seen l l' t w i) →
      entropyScheduled H (setWordList l) l' times s = entropyFromMnemonic H (setWordList l') ([32].intercalate us)) ∧
    (∀ (a : List Bytes) (v : Bytes) (c : List Bytes), ws = a ++ v :: c →
      (∀ (k t : Nat) (w : Bytes), times[k]? = some t → a[k]? = some w → ∃ i, Seen l l' t w i) →
      (∀ t i, times[a.length]? = some t → ¬ Seen l l' t v i) →
      entropyScheduled H (setWordList l) l' times s = .ok ([], some (.unknownWord v))) := by
  have hf := fields_layout hs
  have hmap := writerState_seen hg.nodup hg'.nodup
  constructor
  · intro idx us hi hu hseen
    have hul : us.length = ws.length := by have := congrArg List.length hu; simp at this; omega
    have hus : ∀ w ∈ us, IsWord w := fun w hw => hg'.word w (words_of_idx hu w hw)
    have hfu := fields_join us hus
    refine entropyRacing_eq H _ (setWordList l') s _ (by rw [hf, hfu, hul]) ?_
    rw [hf, hfu]
    refine decodeWordsRacing_same _ _ ws us 0 (by simpa using ht.1) hul ?_
    intro k m' w u e1 e2 e3
    rw [List.getElem?_map] at e1
    obtain ⟨t, et, rfl⟩ := Option.map_eq_some_iff.1 e1
    have hk : k < idx.length := by rw [hi]; exact (List.getElem?_eq_some_iff.1 e2).1
    have ei : idx[k]? = some idx[k] := List.getElem?_eq_getElem hk
    refine ⟨idx[k], (hmap t w _).2 (hseen k t _ w et e2 ei), ?_⟩
    have h3 := congrArg (·[k]?) hu
    simp only [List.getElem?_map, e3, ei, Option.map_some, Option.some.injEq] at h3
    exact (setWordList_map_nodup hg'.nodup u _).2 h3.symm
  · intro a v c hw ha hv
    rw [entropyScheduled, entropyRacing, splitMnemonicWords_eq, hf, if_pos hws]
    have := decodeWordsRacing_first (times.map fun t => (writerState (setWordList l) l' t).map) a v c 0
      (by rw [List.length_map, ht.1, hw]) (by
        intro k m' w e1 e2
        rw [List.getElem?_map] at e1
        obtain ⟨t, et, rfl⟩ := Option.map_eq_some_iff.1 e1
        obtain ⟨i, hi⟩ := ha k t w et e2
        rw [(hmap t w i).2 hi]; rfl) (by
        intro m' e1
        rw [List.getElem?_map] at e1
        obtain ⟨t, et, rfl⟩ := Option.map_eq_some_iff.1 e1
        cases hx : (writerState (setWordList l) l' t).map v with
        | none => rfl
        | some i => exact absurd ((hmap t v i).1 hx) (hv t i et))
    dsimp only
    rw [hw, this]

/-- A hash function whose results have all bits set. -/
def hashesFF : Hashes where
  sha256 _ := List.replicate 32 255
  hmacSha512 _ _ := List.replicate 64 255
  ripemd160 _ := List.replicate 20 255
  keccak256 _ := List.replicate 32 255
  sha256_length := by simp
  hmacSha512_length := by simp
  ripemd160_length := by simp
  keccak256_length := by simp

/-- With it, the entropy with all bits set has the last word of the list everywhere. -/
theorem encodes_last {l : List Bytes} {z : Bytes} (hz : l[2047]? = some z) (k : Nat) (h1 : 4 ≤ k) (h2 : k ≤ 8) :
    Encodes hashesFF.sha256 l (List.replicate (4 * k) 255) (List.replicate (3 * k) z) := by
  refine ⟨List.replicate (3 * k) 2047, ?_, ?_, ?_⟩
  · intro i hi; rw [(List.mem_replicate.1 hi).2]; omega
  · rw [List.map_replicate, List.map_replicate, hz]
  · clear hz
    interval_cases k <;> decide +kernel

theorem sorted_split (times : List Nat) (h : times.Pairwise (· ≤ ·)) (m : Nat) :
    ∃ a b, times = a ++ b ∧ (∀ t ∈ a, t ≤ m) ∧ ∀ t ∈ b, m < t := by
  induction times with
  | nil => exact ⟨[], [], rfl, by simp, by simp⟩
  | cons t times ih =>
    rw [List.pairwise_cons] at h
    obtain ⟨a, b, rfl, ha, hb⟩ := ih h.2
    by_cases htm : t ≤ m
    · exact ⟨t :: a, b, rfl, by simpa [htm] using ha, hb⟩
    · refine ⟨[], t :: (a ++ b), rfl, by simp, ?_⟩
      intro u hu
      rcases List.mem_cons.1 hu with rfl | hu
      · omega
      · have := h.1 u hu; omega

/-- **C13**, the exact schedules: a reader is sure to get the result of the old or of the new list — for all lists, hash
functions and sentences — exactly when all its reads come before the map is replaced or all after the writer's last
step. -/
theorem C13_schedule_iff (l₀ : List Bytes) (hg₀ : GoodList l₀) (n : Nat) (hn : n ∈ sentenceLengths) (times : List Nat)
    (ht : Schedule l₀ n times) :
    (∀ (H : Hashes) (l l' : List Bytes) (s : Bytes), GoodList l → GoodList l' → (fields s).length = n →
      entropyScheduled H (setWordList l) l' times s = entropyFromMnemonic H (setWordList l) s ∨
      entropyScheduled H (setWordList l) l' times s = entropyFromMnemonic H (setWordList l') s) ↔
    (∀ t ∈ times, t ≤ 1) ∨ (∀ t ∈ times, t = 2050) := by
  obtain ⟨k, hnk, hk1, hk2⟩ := (sentenceLengths_iff _).1 hn
  have hsteps : ∀ l : List Bytes, GoodList l → writerSteps l = 2050 := fun l h => by rw [writerSteps, h.length]
  have hsch : ∀ l : List Bytes, GoodList l → Schedule l n times := fun l h => by
    refine ⟨ht.1, ht.2.1, fun t h' => ?_⟩
    rw [hsteps l h]; rw [← hsteps l₀ hg₀]; exact ht.2.2 t h'
  have he : (List.replicate (4 * k) (255 : UInt8)).length ∈ entropySizes := by
    rw [List.length_replicate]; exact (entropySizes_iff _).2 ⟨k, rfl, hk1, hk2⟩
  constructor
  · intro h
    have hlast : ∃ z, l₀[2047]? = some z := ⟨_, List.getElem?_eq_getElem (by rw [hg₀.length]; omega)⟩
    have hfst : ∃ z, l₀[0]? = some z := ⟨_, List.getElem?_eq_getElem (by rw [hg₀.length]; omega)⟩
    obtain ⟨z, hz⟩ := hlast
    obtain ⟨y, hy⟩ := hfst
    have hzw := hg₀.word z (List.mem_of_getElem? hz)
    have hyw := hg₀.word y (List.mem_of_getElem? hy)
    by_cases hmid : ∃ t ∈ times, 2 ≤ t ∧ t < 2050
    · -- the list in force is set once more; the last word is missing at one of the reads
      exfalso
      have hall : ∀ w ∈ List.replicate (3 * k) z, IsWord w := fun w hw => by rw [(List.mem_replicate.1 hw).2]; exact hzw
      have hf := fields_join _ hall
      have hlay := layout_intercalate (c := 0x20) (by decide) _ hall
      rw [utf8_space] at hlay
      have hok : entropyFromMnemonic hashesFF (setWordList l₀) ([32].intercalate (List.replicate (3 * k) z)) =
          .ok (List.replicate (4 * k) 255, none) :=
        (entropy_iff hashesFF hg₀ _ _).2 ⟨_, hlay, he, encodes_last hz k hk1 hk2⟩
      obtain ⟨a, b, hab, ha, hb⟩ := sorted_split times ht.2.1 1
      cases b with
      | nil =>
        obtain ⟨t, h1, h2, -⟩ := hmid
        rw [hab, List.append_nil] at h1
        have := ha t h1
        omega
      | cons t b =>
        have htlt : t < 2050 := by
          obtain ⟨u, h1, h2, h3⟩ := hmid
          rw [hab] at h1
          rcases List.mem_append.1 h1 with h1 | h1
          · have := ha u h1; omega
          · rcases List.mem_cons.1 h1 with rfl | h1
            · exact h3
            · have hp := ht.2.1
              rw [hab] at hp
              have := (List.pairwise_cons.1 (List.pairwise_append.1 hp).2.1).1 u h1
              omega
        have hlen := ht.1
        rw [hab, List.length_append, List.length_cons] at hlen
        have hbad := (C13_entropy_exact hashesFF l₀ l₀ hg₀ hg₀ _ _ hlay (by rw [List.length_replicate, ← hnk]; exact hn) times
          (by rw [List.length_replicate, ← hnk]; exact ht)).2 (List.replicate a.length z) z (List.replicate b.length z)
          (by rw [← List.replicate_succ, List.replicate_append_replicate]; congr 1; omega)
          (by
            intro j t' w h1 h2
            have hj : j < a.length := by simpa using (List.getElem?_eq_some_iff.1 h2).1
            rw [hab, List.getElem?_append_left hj] at h1
            refine ⟨2047, Or.inl ⟨ha t' (List.mem_of_getElem? h1), ?_⟩⟩
            rw [hz, (List.mem_replicate.1 (List.mem_of_getElem? h2)).2])
          (by
            intro t' i h1
            rw [List.length_replicate, hab, List.getElem?_append_right (le_refl _)] at h1
            obtain rfl : t = t' := by simpa using h1
            have := hb t (by simp)
            rintro (⟨h3, -⟩ | ⟨-, h3, h4⟩)
            · omega
            · have : i = 2047 := by
                have hi := (List.getElem?_eq_some_iff.1 h3).1
                exact (List.getElem?_inj hi hg₀.nodup).1 (h3.trans hz.symm)
              omega)
        rcases h hashesFF l₀ l₀ _ hg₀ hg₀ (by rw [hf, List.length_replicate, hnk]) with h | h <;>
        · rw [hbad, hok] at h; simp at h
    · by_contra hno
      rw [not_or] at hno
      push Not at hno hmid
      -- the list is replaced by its reverse between two reads
      obtain ⟨⟨t1, h1, h1'⟩, ⟨t2, h2, h2'⟩⟩ := hno
      have hup : ∀ t ∈ times, t ≤ 2050 := fun t h => by have := (hsch l₀ hg₀).2.2 t h; rwa [hsteps l₀ hg₀] at this
      obtain ⟨a, b, hab, ha, hb⟩ := sorted_split times ht.2.1 1
      have hb' : ∀ t ∈ b, t = 2050 := fun t h => by
        have e1 := hb t h
        have e2 := hmid t (by rw [hab]; simp [h]) (by omega)
        have e3 := hup t (by rw [hab]; simp [h])
        omega
      have hgr : GoodList l₀.reverse := ⟨by simpa using hg₀.length, List.nodup_reverse.2 hg₀.nodup,
        fun w hw => hg₀.word w (List.mem_reverse.1 hw)⟩
      have hzr : l₀.reverse[2047]? = some y := by rw [List.getElem?_reverse (by rw [hg₀.length]; omega), hg₀.length]; exact hy
      have hyr : l₀.reverse[0]? = some z := by rw [List.getElem?_reverse (by rw [hg₀.length]; omega), hg₀.length]; exact hz
      have hane : a ≠ [] := by
        rintro rfl
        exact h2' (hb' t2 (by simpa [hab] using h2))
      have hbne : b ≠ [] := by
        rintro rfl
        rw [hab, List.append_nil] at h1
        have := ha t1 h1; omega
      have hlen := ht.1
      rw [hab, List.length_append] at hlen
      have hapos : 0 < a.length := List.length_pos_iff.2 hane
      have hbpos : 0 < b.length := List.length_pos_iff.2 hbne
      have hzy : z ≠ y := by
        rintro rfl
        have := (List.getElem?_inj (by rw [hg₀.length]; omega) hg₀.nodup).1 (hz.trans hy.symm)
        omega
      generalize hsent : List.replicate a.length z ++ List.replicate b.length y = ws
      have hall : ∀ w ∈ ws, IsWord w := by
        intro w hw
        rw [← hsent] at hw
        rcases List.mem_append.1 hw with hw | hw <;> rw [(List.mem_replicate.1 hw).2]
        · exact hzw
        · exact hyw
      have hwl : ws.length = n := by rw [← hsent]; simpa using hlen
      have hf := fields_join _ hall
      have hlay := layout_intercalate (c := 0x20) (by decide) _ hall
      rw [utf8_space] at hlay
      have hu : ∀ w ∈ List.replicate (3 * k) y, IsWord w := fun w hw => by rw [(List.mem_replicate.1 hw).2]; exact hyw
      have hr := (C13_entropy_exact hashesFF l₀ l₀.reverse hg₀ hgr _ _ hlay (by rw [hwl]; exact hn) times
        (by rw [hwl]; exact hsch _ hgr)).1 (List.replicate (3 * k) 2047) (List.replicate (3 * k) y) (by simp [hwl, hnk])
        (by rw [List.map_replicate, List.map_replicate, hzr]) (by
          intro j t i w e1 e2 e3
          obtain rfl := (List.mem_replicate.1 (List.mem_of_getElem? e3)).2
          by_cases hj : j < a.length
          · rw [hab, List.getElem?_append_left hj] at e1
            rw [← hsent, List.getElem?_append_left (by simpa using hj)] at e2
            rw [(List.mem_replicate.1 (List.mem_of_getElem? e2)).2]
            exact Or.inl ⟨ha t (List.mem_of_getElem? e1), hz⟩
          · rw [hab, List.getElem?_append_right (by omega)] at e1
            rw [← hsent, List.getElem?_append_right (by simpa using hj)] at e2
            rw [(List.mem_replicate.1 (List.mem_of_getElem? e2)).2]
            have := hb' t (List.mem_of_getElem? e1)
            exact Or.inr ⟨by omega, hzr, by omega⟩)
      have hok := (entropy_iff hashesFF hgr _ _).2 ⟨_, layout_intercalate (c := 0x20) (by decide) _ hu, he, encodes_last hzr k hk1 hk2⟩
      rw [utf8_space] at hok
      rw [hok] at hr
      have hneq : ∀ (l : List Bytes) (x : Bytes), GoodList l → l[2047]? = some x →
          entropyFromMnemonic hashesFF (setWordList l) ([32].intercalate ws) = .ok (List.replicate (4 * k) 255, none) →
          ws = List.replicate (3 * k) x := by
        intro l x hg hx h
        obtain ⟨ws', hl', -, hE⟩ := (entropy_iff hashesFF hg _ _).1 h
        have : ws' = ws := by rw [← fields_layout hl', hf]
        rw [← this]
        exact encodes_unique hashesFF hE (encodes_last hx k hk1 hk2)
      have hz0 : z ∈ ws := by rw [← hsent]; simp [hane]
      have hy0 : y ∈ ws := by rw [← hsent]; simp [hbne]
      rcases h hashesFF l₀ l₀.reverse _ hg₀ hgr (by rw [hf, hwl]) with h | h
      · have := hneq l₀ z hg₀ hz (h.symm.trans hr)
        rw [this] at hy0
        exact hzy (List.mem_replicate.1 hy0).2.symm
      · have := hneq _ y hgr hzr (h.symm.trans hr)
        rw [this] at hz0
        exact hzy (List.mem_replicate.1 hz0).2
  · intro h H l l' s hg hg' hs
    obtain ⟨c1, c2, -⟩ := C13_consistent_partial H (setWordList l) l' s times (by rw [hs]; exact hsch l' hg')
    rcases h with h | h
    · exact Or.inl (c1 h)
    · exact Or.inr (c2 fun t h' => by rw [h t h', hsteps l' hg'])

/-- **C13** for `NewMnemonic`, the exact schedules: it is sure to return the sentence of the old or of the new list exactly
when all its reads come before the list is replaced or all after it. -/
theorem C13_newMnemonic_iff (l₀ : List Bytes) (hg₀ : GoodList l₀) (n : Nat) (hn : n ∈ sentenceLengths) (times : List Nat)
    (ht : Schedule l₀ n times) :
    (∀ (H : Hashes) (l l' : List Bytes) (e : Bytes), GoodList l → GoodList l' → e.length ∈ entropySizes →
      3 * e.length / 4 = n →
      newMnemonicScheduled H (setWordList l) l' times e = newMnemonic H (setWordList l) e ∨
      newMnemonicScheduled H (setWordList l) l' times e = newMnemonic H (setWordList l') e) ↔
    (∀ t ∈ times, t = 0) ∨ (∀ t ∈ times, 1 ≤ t) := by
  obtain ⟨k, hnk, hk1, hk2⟩ := (sentenceLengths_iff _).1 hn
  have hsch : ∀ l : List Bytes, GoodList l → Schedule l n times := fun l h => by
    refine ⟨ht.1, ht.2.1, fun t h' => ?_⟩
    have := ht.2.2 t h'
    rw [writerSteps, hg₀.length] at this
    rw [writerSteps, h.length]; exact this
  constructor
  · intro h
    by_contra hno
    rw [not_or] at hno
    push Not at hno
    obtain ⟨⟨t1, h1, h1'⟩, ⟨t2, h2, h2'⟩⟩ := hno
    have he : (List.replicate (4 * k) (255 : UInt8)).length ∈ entropySizes := by
      rw [List.length_replicate]; exact (entropySizes_iff _).2 ⟨k, rfl, hk1, hk2⟩
    obtain ⟨z, hz⟩ : ∃ z, l₀[2047]? = some z := ⟨_, List.getElem?_eq_getElem (by rw [hg₀.length]; omega)⟩
    obtain ⟨y, hy⟩ : ∃ z, l₀[0]? = some z := ⟨_, List.getElem?_eq_getElem (by rw [hg₀.length]; omega)⟩
    have hgr : GoodList l₀.reverse := ⟨by simpa using hg₀.length, List.nodup_reverse.2 hg₀.nodup,
      fun w hw => hg₀.word w (List.mem_reverse.1 hw)⟩
    have hzr : l₀.reverse[2047]? = some y := by rw [List.getElem?_reverse (by rw [hg₀.length]; omega), hg₀.length]; exact hy
    have hzy : z ≠ y := by
      rintro rfl
      have := (List.getElem?_inj (by rw [hg₀.length]; omega) hg₀.nodup).1 (hz.trans hy.symm)
      omega
    have hEz := encodes_last hz k hk1 hk2
    have hEy := encodes_last hzr k hk1 hk2
    have hc0 : 0 < times.count 0 := List.count_pos_iff.2 (by rwa [show t2 = 0 by omega] at h2)
    have hcn : times.count 0 < 3 * k := by
      have hle := List.count_le_length (a := 0) (l := times)
      rw [ht.1, hnk] at hle
      refine lt_of_le_of_ne hle fun e => h1' ?_
      have := (List.count_eq_length (a := 0) (l := times)).1 (by rw [e, ht.1, hnk])
      exact (this t1 h1).symm
    have hres := C13_newMnemonic_exact hashesFF l₀ l₀.reverse hg₀ hgr _ he _ _ hEz hEy times
      (by rw [List.length_replicate, ← hnk]; exact hsch _ hgr)
    rw [List.length_replicate] at hres
    generalize hsent : List.take (3 * k - times.count 0) (List.replicate (3 * k) y) ++
      List.drop (3 * k - times.count 0) (List.replicate (3 * k) z) = ws at hres
    have hz0 : z ∈ ws := by
      rw [← hsent, List.take_replicate, List.drop_replicate]
      exact List.mem_append_right _ (List.mem_replicate.2 ⟨by omega, rfl⟩)
    have hy0 : y ∈ ws := by
      rw [← hsent, List.take_replicate, List.drop_replicate]
      exact List.mem_append_left _ (List.mem_replicate.2 ⟨by omega, rfl⟩)
    have hzw := hg₀.word z (List.mem_of_getElem? hz)
    have hyw := hg₀.word y (List.mem_of_getElem? hy)
    have hall : ∀ w ∈ ws, IsWord w := by
      intro w hw
      rw [← hsent, List.take_replicate, List.drop_replicate] at hw
      rcases List.mem_append.1 hw with hw | hw <;> rw [(List.mem_replicate.1 hw).2]
      · exact hyw
      · exact hzw
    have hneq : ∀ (l : List Bytes) (x : Bytes), GoodList l → l[2047]? = some x →
        newMnemonic hashesFF (setWordList l) (List.replicate (4 * k) 255) = .ok ([32].intercalate ws, none) →
        ws = List.replicate (3 * k) x := by
      intro l x hg hx h
      obtain ⟨us, e1, e2, -⟩ := newMnemonic_eq hashesFF hg _ he
      have hEx := encodes_last hx k hk1 hk2
      rw [e1, encodes_unique hashesFF e2 hEx] at h
      simp only [Outcome.ok.injEq, Prod.mk.injEq, and_true] at h
      have := fields_join _ (encodes_words hashesFF hg hEx)
      rw [h, fields_join _ hall] at this
      exact this
    rcases h hashesFF l₀ l₀.reverse _ hg₀ hgr he (by rw [List.length_replicate]; omega) with h | h
    · rw [hneq l₀ z hg₀ hz (h.symm.trans hres)] at hy0
      exact hzy (List.mem_replicate.1 hy0).2.symm
    · rw [hneq _ y hgr hzr (h.symm.trans hres)] at hz0
      exact hzy (List.mem_replicate.1 hz0).2
  · intro h H l l' e hg hg' he hen
    obtain ⟨ws, e1, e2, e3⟩ := newMnemonic_eq H hg e he
    obtain ⟨us, f1, f2, f3⟩ := newMnemonic_eq H hg' e he
    have hres := C13_newMnemonic_exact H l l' hg hg' e he ws us e2 f2 times (by rw [e3, hen]; exact hsch l' hg')
    rcases h with h | h
    · left
      have : times.count 0 = ws.length := by
        rw [List.count_eq_length.2 fun t h' => (h t h').symm, ht.1, e3, hen]
      rw [hres, e1, this, Nat.sub_self, List.take_zero, List.drop_zero, List.nil_append]
    · right
      have : times.count 0 = 0 := List.count_eq_zero.2 fun h' => by have := h 0 h'; omega
      rw [hres, f1, this, Nat.sub_zero, List.drop_length, List.append_nil, e3, ← f3, List.take_length]

end Bips
