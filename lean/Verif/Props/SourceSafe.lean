import Verif.Src.Safe
import Verif.Spec.Among
import Verif.Props.SourceUtil

/-!
# C125: whatever runs beside it

Any number of calls of `SetWordList` with any lists, and any number of calls of any other functions, run at the same time; what a call returns is still bound to
the lists that have been in force.
-/

namespace Bips

open Src Spec

/-- The lists that can come into force: the one there is, and those set by the calls. -/
def InForce (S : WordState) (cs : List (Fn × List Val)) (l : List Bytes) : Prop := l = S.list ∨ setCall l ∈ cs

/-- Calls of `SetWordList` with a list, and of functions other than it and `init`. -/
def Usual (cs : List (Fn × List Val)) : Prop := ∀ c ∈ cs, (∃ l, c = setCall l) ∨ c.1 ≠ .bip39_SetWordList ∧ c.1 ≠ .bip39_init

/-- Call number `i` can return `r`: with an access as one step, or with an access to the map as several, as in the runtime. -/
def Gives (W : World) (L N : Nat) (S : WordState) (m : Nat) (cs : List (Fn × List Val)) (i : Nat) (r : Res (List Val)) : Prop :=
  (∃ schedule, ((Calls.begin W L N S cs).run schedule).calls[i]? = some (.leaf r)) ∨
    ∃ schedule, ((MapCalls.begin W L N S m cs).run schedule).calls[i]? = some (.at (.leaf r))

/-! ### The invariant -/

theorem safe_mono {A : List Bytes → Prop} {M : Bytes → Nat → Prop} {P Q : Res (List Val) → Prop} (h : ∀ r, P r → Q r) {t : Access (List Val)}
    (ht : t.safe A M P) : t.safe A M Q := by
  induction t with
  | leaf r => exact h r ht
  | readList k ih => exact fun l hl => ih l (ht l hl)
  | readMap w k ih => exact ⟨ih _ ht.1, fun i hi => ih _ (ht.2 i hi)⟩
  | writeList l t ih => exact ⟨ht.1, ih ht.2⟩
  | newMap t ih => exact ih ht
  | insert w i t ih => exact ⟨ht.1, ih ht.2⟩

section
variable (W : World) (L n : Nat) (S : WordState) (cs : List (Fn × List Val)) (hcs : Usual cs) (i : Nat) (c : Fn × List Val)
  (hi : cs[i]? = some c)
include hcs hi

theorem calls_safe (M : Bytes → Nat → Prop) (hM : ∀ w j, Stands (InForce S cs) w j → M w j) (Q : Res (List Val) → Prop)
    (hQ : (accRun W L (n + 1) c.1 c.2).safe (InForce S cs) M Q) (t : Nat) (x : Fn × List Val) (hx : cs[t]? = some x) :
    (accRun W L (n + 1) x.1 x.2).safe (InForce S cs) M fun r => t = i → Q r := by
  by_cases ht : t = i
  · subst ht
    rw [hi] at hx
    cases hx
    exact safe_mono (fun r hr _ => hr) hQ
  · rcases hcs x (List.mem_of_getElem? hx) with ⟨l, rfl⟩ | ⟨h1, h2⟩
    · refine safe_mono (P := fun _ => True) (fun r _ h => absurd h ht) ?_
      unfold setCall
      dsimp only
      rw [acc_SetWordList]
      refine ⟨.inr (List.mem_of_getElem? hx), fun l' hl' => inserts_safe (t := .leaf (.ok [])) (P := fun _ => True) trivial _ _ fun j w hj => hM w _ ⟨l', hl', by simpa using hj⟩⟩
    · exact safe_mono (fun r _ h => absurd h ht) (reads_safe (C122_reads W L (n + 1) x.1 x.2 h1 h2))

theorem calls_give (hS : ∀ w j, S.map w = some j → S.list[j]? = some w) (Q : Res (List Val) → Prop)
    (hQ : (accRun W L (n + 1) c.1 c.2).safe (InForce S cs) (Stands (InForce S cs)) Q) (schedule : List Nat) (r : Res (List Val))
    (hr : ((Calls.begin W L (n + 1) S cs).run schedule).calls[i]? = some (.leaf r)) : Q r := by
  have h0 : (Calls.begin W L (n + 1) S cs).kept (InForce S cs) (Stands (InForce S cs)) fun t r => t = i → Q r := by
    refine ⟨.inl rfl, fun w j h => ⟨S.list, .inl rfl, hS w j h⟩, fun t x hx => ?_⟩
    simp only [Calls.begin, List.getElem?_map, Option.map_eq_some_iff] at hx
    obtain ⟨y, hy, rfl⟩ := hx
    exact calls_safe W L n S cs hcs i c hi _ (fun _ _ h => h) Q hQ t y hy
  exact (kept_run schedule _ h0).2.2 i _ hr rfl

theorem micro_give (hS : ∀ w j, S.map w = some j → S.list[j]? = some w) (m : Nat) (Q : Res (List Val) → Prop)
    (hQ : (accRun W L (n + 1) c.1 c.2).safe (InForce S cs) (fun w j => j = 0 ∨ Stands (InForce S cs) w j) Q) (schedule : List Nat) (r : Res (List Val))
    (hr : ((MapCalls.begin W L (n + 1) S m cs).run schedule).calls[i]? = some (.at (.leaf r))) : Q r := by
  have h0 : (MapCalls.begin W L (n + 1) S m cs).kept (InForce S cs) (fun w j => j = 0 ∨ Stands (InForce S cs) w j) fun t r => t = i → Q r := by
    refine ⟨.inl rfl, fun k w j h => ?_, fun t x hx => ?_⟩
    · simp only [MapCalls.begin] at h
      split at h
      · exact .inr ⟨S.list, .inl rfl, hS w j h⟩
      · simp [GoMap.empty] at h
    · simp only [MapCalls.begin, List.getElem?_map, Option.map_eq_some_iff] at hx
      obtain ⟨y, hy, rfl⟩ := hx
      exact calls_safe W L n S cs hcs i c hi _ (fun _ _ h => .inr h) Q hQ t y hy
  exact (micro_kept_run (fun _ => .inl rfl) schedule _ h0).2.2 i _ hr rfl

theorem both_give (hS : ∀ w j, S.map w = some j → S.list[j]? = some w) (m : Nat) (Q : Res (List Val) → Prop)
    (hQ : ∀ M, (accRun W L (n + 1) c.1 c.2).safe (InForce S cs) M Q) (r : Res (List Val)) (hr : Gives W L (n + 1) S m cs i r) : Q r := by
  rcases hr with ⟨schedule, hr⟩ | ⟨schedule, hr⟩
  · exact calls_give W L n S cs hcs i c hi hS Q (hQ _) schedule r hr
  · exact micro_give W L n S cs hcs i c hi hS m Q (hQ _) schedule r hr

end

/-! ### Sentences of several lists -/

theorem decode_found (ws : List Bytes) : ∀ (xs : List (Option Nat)) (b b' : Nat), xs.length ≤ ws.length →
    decodeWordsRacing (xs.map fun x _ => x) ws b = .inl b' → ∃ idx : List Nat, idx.length = ws.length ∧ xs = idx.map some := by
  induction ws with
  | nil =>
    intro xs b b' hl _
    exact ⟨[], rfl, by simpa using hl⟩
  | cons w ws ih =>
    intro xs b b' hl h
    rcases xs with _ | ⟨_ | x, xs⟩
    · simp [decodeWordsRacing] at h
    · simp [decodeWordsRacing] at h
    · simp only [List.map_cons, decodeWordsRacing] at h
      obtain ⟨idx, h1, h2⟩ := ih xs _ _ (by simpa using hl) h
      exact ⟨x :: idx, by simp [h1], by simp [h2]⟩

theorem racing_empty (H : Hashes) (ms : List (Bytes → Option Nat)) (s b : Bytes) (e : Err) (h : entropyRacing H ms s = .ok (b, some e)) : b = [] := by
  unfold entropyRacing at h
  rcases hsp : splitMnemonicWords s with ⟨ws, _ | _⟩ <;> simp only [hsp] at h
  · cases h; rfl
  · rcases hd : decodeWordsRacing ms ws 0 with d | er <;> simp only [hd] at h
    · repeat' split at h
      all_goals first
        | (simp at h; done)
        | (cases h; rfl)
    · cases h; rfl

/-- What `EntropyFromMnemonic` makes of the positions it finds. -/
theorem entropy_at (H : Hashes) (M : Bytes → Nat → Prop) (hM : ∀ w i, M w i → i < 2048) (l : List Bytes) (hg : GoodList l) (s e : Bytes)
    (xs : List (Option Nat)) (hx : ∀ j i : Nat, xs[j]? = some (some i) → ∃ w, (lookedUp s)[j]? = some w ∧ M w i) (hl : xs.length ≤ (lookedUp s).length)
    (h : entropyLookups H xs s = .ok (e, none)) : e.length ∈ entropySizes ∧ EncodesAt H.sha256 M e (fields s) := by
  have hc : (fields s).length ∈ sentenceLengths := by
    by_contra hc
    rw [entropyLookups, entropyRacing, splitMnemonicWords_eq, if_neg hc] at h
    simp at h
  have hlook : lookedUp s = fields s := by rw [lookedUp, splitMnemonicWords_eq, if_pos hc]
  rw [hlook] at hx hl
  rcases hd : decodeWordsRacing (xs.map fun x _ => x) (fields s) 0 with b | er
  swap
  · rw [entropyLookups, entropyRacing, splitMnemonicWords_eq, if_pos hc] at h
    simp [hd] at h
  obtain ⟨idx, h1, rfl⟩ := decode_found _ _ _ _ hl hd
  have hst : ∀ (k i : Nat) (w : Bytes), idx[k]? = some i → (fields s)[k]? = some w → M w i := by
    intro k i w hk hw
    obtain ⟨w', hw', hst⟩ := hx k i (by simp [hk])
    rw [hw] at hw'
    cases hw'
    exact hst
  have hlt : ∀ i ∈ idx, i < 2048 := by
    intro i hi
    obtain ⟨k, hk⟩ := List.mem_iff_getElem?.1 hi
    have hkl := (List.getElem?_eq_some_iff.1 hk).1
    exact hM _ i (hst k i _ hk (List.getElem?_eq_getElem (by omega)))
  have hget : ∀ i ∈ idx, l[i]? = some ((l[i]?).getD []) := by
    intro i hi
    rw [List.getElem?_eq_getElem (by rw [hg.length]; exact hlt i hi)]
    rfl
  have hus : (idx.map fun i => (l[i]?).getD []).map some = idx.map (l[·]?) := by
    rw [List.map_map]
    exact List.map_congr_left fun i hi => (hget i hi).symm
  have hfs := fields_join (idx.map fun i => (l[i]?).getD []) (by
    intro w hw
    obtain ⟨i, hi, rfl⟩ := List.mem_map.1 hw
    exact hg.word _ (List.mem_of_getElem? (hget i hi)))
  have heq := entropyRacing_eq H ((idx.map some).map fun x _ => x) (setWordList l) s ([32].intercalate (idx.map fun i => (l[i]?).getD []))
    (by rw [hfs]; simp [h1]) (by
      rw [hfs]
      refine decodeWordsRacing_same _ _ _ _ _ (by simp [h1]) (by simp [h1]) fun k m' w u e1 e2 e3 => ?_
      simp only [List.map_map, List.getElem?_map, Option.map_eq_some_iff] at e1 e3
      obtain ⟨j, hj, rfl⟩ := e1
      obtain ⟨j', hj', rfl⟩ := e3
      rw [hj] at hj'
      cases hj'
      exact ⟨j, rfl, (setWordList_map_nodup hg.nodup _ _).2 (hget j (List.mem_of_getElem? hj))⟩)
  rw [entropyLookups, heq] at h
  obtain ⟨ws, hlay, hsz, hE⟩ := (entropy_iff H hg _ e).1 h
  have hws : ws = idx.map fun i => (l[i]?).getD [] := by rw [← hfs, fields_layout hlay]
  obtain ⟨idx', a1, a2, a3⟩ := hE
  rw [hws, hus] at a2
  have hidx : idx = idx' := by
    refine List.ext_getElem? fun k => ?_
    have hk := congrArg (·[k]?) a2
    simp only [List.getElem?_map] at hk
    rcases h3 : idx[k]? with _ | i <;> rcases h4 : idx'[k]? with _ | i' <;> simp only [h3, h4, Option.map_none, Option.map_some] at hk
    · rfl
    · cases hk
    · cases hk
    · have hi := hlt i (List.mem_of_getElem? h3)
      have hk' := (Option.some.inj hk)
      rw [(List.getElem?_inj (by rw [hg.length]; exact hi) hg.nodup).1 hk']
  exact ⟨hsz, idx, h1, hlt, hst, hidx ▸ a3⟩

theorem stands_lt {A : List Bytes → Prop} (hA : ∀ l, A l → GoodList l) (w : Bytes) (i : Nat) : Stands A w i → i < 2048 := by
  rintro ⟨l, hl, hi⟩
  have := (List.getElem?_eq_some_iff.1 hi).1
  rwa [(hA l hl).length] at this

/-- What `NewMnemonic` makes of words taken from several lists. -/
theorem mnemonic_among (H : Hashes) (A : List Bytes → Prop) (hA : ∀ l, A l → GoodList l) (e : Bytes) (he : e.length ∈ entropySizes) (ls : List (List Bytes))
    (h1 : ls.length = sentenceOf e) (h2 : ∀ l ∈ ls, A l) : ∃ s, newMnemonicRacing H ls e = .ok (s, none) ∧ EncodesAmong H.sha256 A e (fields s) := by
  obtain ⟨k, hek, hk1, hk2⟩ := (entropySizes_iff _).1 he
  have hlen : (e.length * 8 + e.length * 8 / 32) / 11 = 3 * k := by omega
  have hls : ls.length = 3 * k := by rw [h1, sentenceOf, (validate_none_iff e.length).2 he]; exact hlen
  obtain ⟨idx, ws, a1, a2, a3, a4, a5⟩ := encodeWordsRacing_spec ls (fun l hl => by rw [(hA l (h2 l hl)).length]) (setBytes (addChecksum H e)) []
  have hN := setBytes_addChecksum H e k hek hk2
  have hlt : setBytes (addChecksum H e) < 2048 ^ (3 * k) := by
    have hc : ((H.sha256 e).headD 0).toNat / 2 ^ (8 - k) < 2 ^ k := by
      apply Nat.div_lt_of_lt_mul
      rw [← pow_add, show 8 - k + k = 8 by omega]
      exact ((H.sha256 e).headD 0).toNat_lt
    have hse := setBytes_lt e
    rw [hek] at hse
    rw [hN]
    calc setBytes e * 2 ^ k + _ < setBytes e * 2 ^ k + 2 ^ k := by omega
      _ = (setBytes e + 1) * 2 ^ k := by ring
      _ ≤ 256 ^ (4 * k) * 2 ^ k := Nat.mul_le_mul_right _ hse
      _ = 2048 ^ (3 * k) := by
        rw [show (2048 : Nat) = 2 ^ 11 by rfl, show (256 : Nat) = 2 ^ 8 by rfl, ← pow_mul, ← pow_mul, ← pow_add]
        congr 1; ring
  rw [hls] at a1 a3 a5
  rw [Nat.mod_eq_of_lt hlt, hN] at a3
  have hbits := (encodes_bits_iff H e k hek hk2 idx a2).2 ⟨a1, a3⟩
  have hwl : ws.length = 3 * k := by
    have := congrArg List.length a4
    simpa [hls, a1] using this
  have hst : ∀ (j i : Nat) (w : Bytes), idx[j]? = some i → ws[j]? = some w → ∃ l, A l ∧ l[i]? = some w := by
    intro j i w hi hw
    have := congrArg (·[j]?) a4
    simp only [List.getElem?_map, hw, Option.map_some, List.getElem?_zipWith, hi] at this
    rcases hl : ls.reverse[j]? with _ | l
    · simp [hl] at this
    · simp only [hl] at this
      exact ⟨l, h2 l (List.mem_reverse.1 (List.mem_of_getElem? hl)), (Option.some.inj this).symm⟩
  have hword : ∀ w ∈ ws, IsWord w := by
    intro w hw
    obtain ⟨j, hj⟩ := List.mem_iff_getElem?.1 hw
    have hjl := (List.getElem?_eq_some_iff.1 hj).1
    obtain ⟨l, hl, hi⟩ := hst j _ w (List.getElem?_eq_getElem (by omega)) hj
    exact (hA l hl).word w (List.mem_of_getElem? hi)
  refine ⟨[32].intercalate ws, ?_, ?_⟩
  · rw [newMnemonicRacing, (validate_none_iff e.length).2 he]
    dsimp only
    rw [hlen, a5, List.append_nil, ← joinByte_eq_intercalate]
  · rw [fields_join ws hword]
    exact ⟨idx, by omega, a2, hst, hbits⟩

/-- When the lists put each word at one position only, a sentence has one entropy. -/
theorem among_unique (H : Hashes) (A : List Bytes → Prop) (hA : ∀ l, A l → GoodList l)
    (hagree : ∀ (l l' : List Bytes) (w : Bytes) (i j : Nat), A l → A l' → l[i]? = some w → l'[j]? = some w → i = j) (e e' : Bytes) (ws : List Bytes) (he : e.length ∈ entropySizes)
    (he' : e'.length ∈ entropySizes) (h : EncodesAmong H.sha256 A e ws) (h' : EncodesAmong H.sha256 A e' ws) : e = e' := by
  obtain ⟨idx, a1, a2, a3, a4⟩ := h
  obtain ⟨idx', b1, b2, b3, b4⟩ := h'
  obtain rfl : idx = idx' := by
    refine List.ext_getElem (by omega) fun k h1 h2 => ?_
    obtain ⟨l, hl, hi⟩ := a3 k _ _ (List.getElem?_eq_getElem h1) (List.getElem?_eq_getElem (by omega : k < ws.length))
    obtain ⟨l', hl', hi'⟩ := b3 k _ _ (List.getElem?_eq_getElem h2) (List.getElem?_eq_getElem (by omega : k < ws.length))
    exact hagree l l' _ _ _ hl hl' hi hi'
  have hne : idx ≠ [] := by
    rintro rfl
    obtain ⟨k, hek, hk1, hk2⟩ := (entropySizes_iff _).1 he
    have := ((encodes_bits_iff H e k hek hk2 [] (by simp)).1 a4).1
    simp at this
    omega
  obtain ⟨i, hi⟩ := List.exists_mem_of_ne_nil _ hne
  obtain ⟨k, hk⟩ := List.mem_iff_getElem?.1 hi
  have hkl := (List.getElem?_eq_some_iff.1 hk).1
  obtain ⟨l, hl, -⟩ := a3 k _ _ hk (List.getElem?_eq_getElem (by omega : k < ws.length))
  have hus : (idx.map fun i => (l[i]?).getD []).map some = idx.map (l[·]?) := by
    rw [List.map_map]
    refine List.map_congr_left fun i hi => ?_
    rw [Function.comp, List.getElem?_eq_getElem (by rw [(hA l hl).length]; exact a2 i hi)]
    rfl
  exact encodes_unique_entropy H (hA l hl) he he' ⟨idx, a2, hus, a4⟩ ⟨idx, a2, hus, b4⟩

/-! ### The functions -/

section
variable (W : World) (L n : Nat) (S : WordState) (hS : ∀ w j, S.map w = some j → S.list[j]? = some w) (m : Nat) (cs : List (Fn × List Val)) (hcs : Usual cs)
  (i : Nat) (r : Res (List Val))
include hS hcs

/-- **C125**, the list: `GetWordList` returns a list that has been in force. -/
theorem C125_list (hi : cs[i]? = some (.bip39_GetWordList, [])) (hr : Gives W L (n + 1) S m cs i r) :
    ∃ l, InForce S cs l ∧ r = .ok [.list (l.map .str)] := by
  refine both_give W L n S cs hcs i _ hi hS m (fun r => ∃ l, InForce S cs l ∧ r = .ok [.list (l.map .str)]) (fun M => ?_) r hr
  rw [acc_GetWordList]
  exact fun l hl => ⟨l, hl, rfl⟩

/-- **C125**, an index: `GetWordIndex` returns the position of the word in a list that has been in force, or that there is none. -/
theorem C125_index (w : Bytes) (hi : cs[i]? = some (.bip39_GetWordIndex, [.str w])) (schedule : List Nat)
    (hr : ((Calls.begin W L (n + 1) S cs).run schedule).calls[i]? = some (.leaf r)) :
    r = .ok [.int 0, .bool false] ∨ ∃ l, ∃ j : Nat, InForce S cs l ∧ l[j]? = some w ∧ r = .ok [.int j, .bool true] := by
  refine calls_give W L n S cs hcs i _ hi hS (fun r => r = .ok [.int 0, .bool false] ∨ ∃ l, ∃ j : Nat, InForce S cs l ∧ l[j]? = some w ∧ r = .ok [.int j, .bool true])
    ?_ schedule r hr
  rw [acc_GetWordIndex]
  exact ⟨.inl rfl, fun j ⟨l, hl, hj⟩ => .inr ⟨l, j, hl, hj, rfl⟩⟩

/-- **C125**, an index in the runtime: with an access to the map as several steps, also position 0. -/
theorem C125_index_runtime (w : Bytes) (hi : cs[i]? = some (.bip39_GetWordIndex, [.str w])) (schedule : List Nat)
    (hr : ((MapCalls.begin W L (n + 1) S m cs).run schedule).calls[i]? = some (.at (.leaf r))) :
    r = .ok [.int 0, .bool false] ∨ r = .ok [.int 0, .bool true] ∨ ∃ l, ∃ j : Nat, InForce S cs l ∧ l[j]? = some w ∧ r = .ok [.int j, .bool true] := by
  refine micro_give W L n S cs hcs i _ hi hS m (fun r => r = .ok [.int 0, .bool false] ∨ r = .ok [.int 0, .bool true] ∨
    ∃ l, ∃ j : Nat, InForce S cs l ∧ l[j]? = some w ∧ r = .ok [.int j, .bool true]) ?_ schedule r hr
  rw [acc_GetWordIndex]
  refine ⟨.inl rfl, fun j hj => .inr ?_⟩
  rcases hj with rfl | ⟨l, hl, hj⟩
  · exact .inl rfl
  · exact .inr ⟨l, j, hl, hj, rfl⟩

/-- **C125**, a seed: `NewSeedWithErrorChecking` returns the seed of the sentence and the password, or no seed and an error. -/
theorem C125_seed (hL : 32 < L) (s p : Bytes) (hs : s.length < 2 ^ 59) (hi : cs[i]? = some (.bip39_NewSeedWithErrorChecking, [.str s, .str p]))
    (hr : Gives W L (n + 4) S m cs i r) : r = .ok [.bytes (newSeed W.H s p), .err none] ∨ ∃ e, r = .ok [.bytes [], .err (some e)] := by
  refine both_give W L (n + 3) S cs hcs i _ hi hS m (fun r => r = .ok [.bytes (newSeed W.H s p), .err none] ∨ ∃ e, r = .ok [.bytes [], .err (some e)])
    (fun M => ?_) r hr
  rw [acc_NewSeedWithErrorChecking W L hL n s p hs]
  refine lookups_safe _ _ _ fun xs _ _ => ?_
  obtain ⟨⟨b, _ | e⟩, hx⟩ := racing_returns W.H (xs.map fun x _ => x) s
  · exact .inl (by simp [entropyLookups, hx, seedAfter, outcome, both])
  · exact .inr ⟨e, by simp [entropyLookups, hx, seedAfter, outcome, both]⟩

/-- **C125**, a seed as text: `DeriveSeedFromMnemonic` returns the seed of the sentence and the passphrase in hexadecimal, or nothing and an error. -/
theorem C125_seed_text (s p : Bytes) (hi : cs[i]? = some (.util_DeriveSeedFromMnemonic, [.str s, .str p])) (hr : Gives W L (n + 3) S m cs i r) :
    r = .ok [.str (hexEncode (newSeed W.H s p)), .err none] ∨ ∃ e, r = .ok [.str [], .err (some e)] := by
  refine both_give W L (n + 2) S cs hcs i _ hi hS m (fun r => r = .ok [.str (hexEncode (newSeed W.H s p)), .err none] ∨ ∃ e, r = .ok [.str [], .err (some e)])
    (fun M => ?_) r hr
  rw [acc_DeriveSeedFromMnemonic W L n s p]
  refine lookups_safe _ _ _ fun xs _ _ => ?_
  obtain ⟨⟨b, _ | e⟩, hx⟩ := racing_returns W.H (xs.map fun x _ => x) s
  · exact .inl (by simp [entropyLookups, hx, seedTextAfter, outcome, both])
  · exact .inr ⟨e, by simp [entropyLookups, hx, seedTextAfter, outcome, both]⟩

variable (hA : ∀ l, InForce S cs l → GoodList l)
include hA

/-- **C125**, an entropy: when `EntropyFromMnemonic` returns one, each word is at its position in some list that has been in force, and these positions are those
of the entropy with its checksum. It never panics. -/
theorem C125_entropy (s : Bytes) (hi : cs[i]? = some (.bip39_EntropyFromMnemonic, [.str s])) (schedule : List Nat)
    (hr : ((Calls.begin W L (n + 2) S cs).run schedule).calls[i]? = some (.leaf r)) :
    (∃ er, r = .ok [.bytes [], .err (some er)]) ∨
      ∃ e, r = .ok [.bytes e, .err none] ∧ e.length ∈ entropySizes ∧ EncodesAmong W.H.sha256 (InForce S cs) e (fields s) := by
  refine calls_give W L (n + 1) S cs hcs i _ hi hS (fun r => (∃ er, r = .ok [.bytes [], .err (some er)]) ∨
      ∃ e, r = .ok [.bytes e, .err none] ∧ e.length ∈ entropySizes ∧ EncodesAmong W.H.sha256 (InForce S cs) e (fields s)) ?_ schedule r hr
  rw [acc_EntropyFromMnemonic]
  refine lookups_safe _ _ _ fun xs hx hl => ?_
  rw [List.nil_append]
  obtain ⟨⟨b, _ | e⟩, h⟩ := racing_returns W.H (xs.map fun x _ => x) s
  · exact .inr ⟨b, by rw [entropyLookups, h]; rfl, entropy_at W.H _ (stands_lt hA) S.list (hA _ (.inl rfl)) s b xs hx hl h⟩
  · refine .inl ⟨e, ?_⟩
    have hb : b = [] := racing_empty W.H _ s b e h
    rw [entropyLookups, h, hb]
    rfl

/-- **C125**, an entropy in the runtime: with an access to the map as several steps, a word can also be taken to be at position 0. -/
theorem C125_entropy_runtime (s : Bytes) (hi : cs[i]? = some (.bip39_EntropyFromMnemonic, [.str s])) (schedule : List Nat)
    (hr : ((MapCalls.begin W L (n + 2) S m cs).run schedule).calls[i]? = some (.at (.leaf r))) :
    (∃ er, r = .ok [.bytes [], .err (some er)]) ∨ ∃ e, r = .ok [.bytes e, .err none] ∧ e.length ∈ entropySizes ∧
      EncodesAt W.H.sha256 (fun w j => j = 0 ∨ Stands (InForce S cs) w j) e (fields s) := by
  refine micro_give W L (n + 1) S cs hcs i _ hi hS m (fun r => (∃ er, r = .ok [.bytes [], .err (some er)]) ∨
      ∃ e, r = .ok [.bytes e, .err none] ∧ e.length ∈ entropySizes ∧ EncodesAt W.H.sha256 (fun w j => j = 0 ∨ Stands (InForce S cs) w j) e (fields s))
    ?_ schedule r hr
  rw [acc_EntropyFromMnemonic]
  refine lookups_safe _ _ _ fun xs hx hl => ?_
  rw [List.nil_append]
  obtain ⟨⟨b, _ | e⟩, h⟩ := racing_returns W.H (xs.map fun x _ => x) s
  · refine .inr ⟨b, by rw [entropyLookups, h]; rfl, entropy_at W.H _ ?_ S.list (hA _ (.inl rfl)) s b xs hx hl h⟩
    rintro w j (rfl | hj)
    · norm_num
    · exact stands_lt hA w j hj
  · refine .inl ⟨e, ?_⟩
    have hb : b = [] := racing_empty W.H _ s b e h
    rw [entropyLookups, h, hb]
    rfl

/-- **C125**, validity: `IsMnemonicValid` returns true or false, and true only of a sentence for some entropy with words of the lists that have been in force. -/
theorem C125_valid (s : Bytes) (hi : cs[i]? = some (.bip39_IsMnemonicValid, [.str s])) (schedule : List Nat)
    (hr : ((Calls.begin W L (n + 3) S cs).run schedule).calls[i]? = some (.leaf r)) :
    r = .ok [.bool false] ∨ r = .ok [.bool true] ∧ ∃ e, e.length ∈ entropySizes ∧ EncodesAmong W.H.sha256 (InForce S cs) e (fields s) := by
  refine calls_give W L (n + 2) S cs hcs i _ hi hS (fun r => r = .ok [.bool false] ∨
      r = .ok [.bool true] ∧ ∃ e, e.length ∈ entropySizes ∧ EncodesAmong W.H.sha256 (InForce S cs) e (fields s)) ?_ schedule r hr
  rw [acc_IsMnemonicValid]
  refine lookups_safe _ _ _ fun xs hx hl => ?_
  rw [List.nil_append]
  obtain ⟨⟨b, _ | e⟩, h⟩ := racing_returns W.H (xs.map fun x _ => x) s
  · exact .inr ⟨by rw [entropyLookups, h]; rfl, b, entropy_at W.H _ (stands_lt hA) S.list (hA _ (.inl rfl)) s b xs hx hl h⟩
  · exact .inl (by rw [entropyLookups, h]; rfl)

/-- **C125**, a sentence: `NewMnemonic` never panics, and returns a sentence for the entropy with words of the lists that have been in force. -/
theorem C125_mnemonic (hL : 32 < L) (e : Bytes) (he : e.length ∈ entropySizes) (hi : cs[i]? = some (.bip39_NewMnemonic, [.bytes e]))
    (hr : Gives W L (n + 3) S m cs i r) : ∃ s, r = .ok [.str s, .err none] ∧ EncodesAmong W.H.sha256 (InForce S cs) e (fields s) := by
  refine both_give W L (n + 2) S cs hcs i _ hi hS m (fun r => ∃ s, r = .ok [.str s, .err none] ∧ EncodesAmong W.H.sha256 (InForce S cs) e (fields s))
    (fun M => ?_) r hr
  have hlt : e.length < 2 ^ 59 := by
    obtain ⟨k, hek, hk1, hk2⟩ := (entropySizes_iff _).1 he
    omega
  rw [acc_NewMnemonic W L hL n e hlt]
  refine picks_safe (fun l hl => by rw [(hA l hl).length]) _ _ _ _ fun ls h1 h2 => ?_
  obtain ⟨s, hs, hE⟩ := mnemonic_among W.H _ hA e he ls h1 h2
  exact ⟨s, by rw [List.nil_append, hs]; rfl, hE⟩

/-- **C125**, generating: the same of `GenerateMnemonic` and the bytes read. -/
theorem C125_generate (hL : 32 < L) (hread : ∀ n, (W.read n).length = n) (c : UInt8) (hc : c.toNat ∈ sentenceLengths)
    (hi : cs[i]? = some (.util_GenerateMnemonic, [.u8 c])) (hr : Gives W L (n + 4) S m cs i r) :
    ∃ s, r = .ok [.str s, .err none] ∧ EncodesAmong W.H.sha256 (InForce S cs) (W.read (4 * c.toNat / 3)) (fields s) := by
  refine both_give W L (n + 3) S cs hcs i _ hi hS m (fun r => ∃ s, r = .ok [.str s, .err none] ∧
    EncodesAmong W.H.sha256 (InForce S cs) (W.read (4 * c.toNat / 3)) (fields s)) (fun M => ?_) r hr
  obtain ⟨h1, h2, h3, h4, -⟩ := bits_facts c hc (W.read (4 * c.toNat / 3)) (hread _)
  rw [acc_GenerateMnemonic W L hL hread n c, h1]
  dsimp only
  rw [h2]
  refine picks_safe (fun l hl => by rw [(hA l hl).length]) _ _ _ _ fun ls h5 h6 => ?_
  obtain ⟨s, hs, hE⟩ := mnemonic_among W.H _ hA _ h4 ls h5 h6
  exact ⟨s, by rw [List.nil_append, hs]; rfl, hE⟩

/-- **C125**, there and back: if the lists that can come into force put each word at one position only, then a sentence made by `NewMnemonic` at any time, given
to `EntropyFromMnemonic` at any time, among any such calls, gives the entropy it was made of or an error; never another entropy. -/
theorem C125_roundtrip (hL : 32 < L) (hagree : ∀ (l l' : List Bytes) (w : Bytes) (a b : Nat), InForce S cs l → InForce S cs l' → l[a]? = some w → l'[b]? = some w → a = b)
    (e : Bytes) (he : e.length ∈ entropySizes) (hi : cs[i]? = some (.bip39_NewMnemonic, [.bytes e])) (s : Bytes)
    (hr : Gives W L (n + 3) S m cs i (.ok [.str s, .err none])) (k : Nat) (hk : cs[k]? = some (.bip39_EntropyFromMnemonic, [.str s])) (schedule : List Nat)
    (e' : Bytes) (h : ((Calls.begin W L (n + 3) S cs).run schedule).calls[k]? = some (.leaf (.ok [.bytes e', .err none]))) : e' = e := by
  obtain ⟨s', hs', hE⟩ := C125_mnemonic W L n S hS m cs hcs i _ hA hL e he hi hr
  have hs : s = s' := by simpa using hs'
  subst hs
  rcases C125_entropy W L (n + 1) S hS cs hcs k _ hA s hk schedule h with ⟨er, hx⟩ | ⟨e2, hx, h2, hE2⟩
  · simp at hx
  · have he2 : e' = e2 := by simpa using hx
    rw [he2]
    exact among_unique W.H _ hA hagree e2 e (fields s) h2 he hE2 hE

end

/-! ### Cases -/

/-- One list is in force; it and another are set by three calls, and a sentence is made and read beside them. The lists agree on the position of every word, having
none in common. -/
theorem two_lists (l l' : List Bytes) (hg : GoodList l) (hg' : GoodList l') (hdis : ∀ w ∈ l, w ∉ l') (W : World) (e s : Bytes) (he : e.length ∈ entropySizes) (m : Nat) (schedule : List Nat) (e' : Bytes) :
    let cs := [setCall l', setCall l, setCall l', (Fn.bip39_NewMnemonic, [.bytes e]), (Fn.bip39_EntropyFromMnemonic, [.str s])]
    Gives W 64 3 (setWordList l) m cs 3 (.ok [.str s, .err none]) →
    ((Calls.begin W 64 3 (setWordList l) cs).run schedule).calls[4]? = some (.leaf (.ok [.bytes e', .err none])) → e' = e := by
  intro cs h1 h2
  have hin : ∀ x, InForce (setWordList l) cs x → x = l ∨ x = l' := by
    rintro x (hx | h)
    · exact .inl hx
    · have hinj : ∀ a b : List Bytes, setCall a = setCall b → a = b := by
        intro a b h
        have h' : a.map Val.str = b.map Val.str := by simpa [setCall] using h
        exact List.map_injective_iff.2 (fun x y hxy => by cases hxy; rfl) h'
      have hne : ∀ (f : Fn) vs, f ≠ .bip39_SetWordList → setCall x ≠ (f, vs) := fun f vs hf h => hf (congrArg Prod.fst h).symm
      simp only [cs, List.mem_cons, List.not_mem_nil, or_false] at h
      rcases h with h | h | h | h | h
      · exact .inr (hinj _ _ h)
      · exact .inl (hinj _ _ h)
      · exact .inr (hinj _ _ h)
      · exact absurd h (hne _ _ (by decide))
      · exact absurd h (hne _ _ (by decide))
  have hgood : ∀ x, InForce (setWordList l) cs x → GoodList x := by
    intro x hl
    rcases hin x hl with rfl | rfl
    · exact hg
    · exact hg'
  refine C125_roundtrip W 64 0 (setWordList l) (fun w j h => (setWordList_map_nodup hg.nodup w j).1 h) m cs ?_ 3 hgood (by norm_num)
    ?_ e he rfl s h1 4 rfl schedule e' h2
  · intro c hc
    simp only [cs, List.mem_cons, List.not_mem_nil, or_false] at hc
    rcases hc with rfl | rfl | rfl | rfl | rfl
    · exact .inl ⟨_, rfl⟩
    · exact .inl ⟨_, rfl⟩
    · exact .inl ⟨_, rfl⟩
    · exact .inr ⟨by simp, by simp⟩
    · exact .inr ⟨by simp, by simp⟩
  · intro x x' w a b hl hl' ha hb
    have hself : ∀ x : List Bytes, GoodList x → x[a]? = some w → x[b]? = some w → a = b := fun x hx h1 h2 =>
      (List.getElem?_inj (List.getElem?_eq_some_iff.1 h1).1 hx.nodup).1 (h1.trans h2.symm)
    rcases hin x hl with rfl | rfl <;> rcases hin x' hl' with rfl | rfl
    · exact hself _ hg ha hb
    · exact absurd (List.mem_of_getElem? hb) (hdis w (List.mem_of_getElem? ha))
    · exact absurd (List.mem_of_getElem? ha) (hdis w (List.mem_of_getElem? hb))
    · exact hself _ hg' ha hb

/-- The same of English and Japanese. -/
example (W : World) (e s : Bytes) (he : e.length ∈ entropySizes) :=
  two_lists english.list japanese.list english_list_good japanese_list_good english_japanese_disjoint W e s he

/-- The bound of C125_index_runtime is met: `GetWordIndex` can find a word at position 0 of a list that has it elsewhere. -/
example (W : World) : ∃ schedule, ((MapCalls.begin W 64 1 ⟨[], fun _ => none⟩ 0 [setCall [str "a", str "b"], (.bip39_GetWordIndex, [.str (str "b")])]).run
    schedule).calls[1]? = some (.at (.leaf (.ok [.int 0, .bool true]))) := by
  refine ⟨[0, 0, 0, 0, 0, 0, 0, 0, 0, 0, 0, 0, 0, 0, 1, 1], ?_⟩
  unfold MapCalls.begin setCall
  simp only [List.map_cons, List.map_nil]
  rw [show ([Val.str (str "a"), Val.str (str "b")] : List Val) = [str "a", str "b"].map .str from rfl, acc_SetWordList, acc_GetWordIndex]
  have hab : str "b" ≠ str "a" := by decide +kernel
  simp [MapCalls.run, MapCalls.step, MapCalls.goto, MapCalls.put, inserts, GoMap.assign, GoMap.store, GoMap.empty, hab]

end Bips
