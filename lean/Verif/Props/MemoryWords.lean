import Verif.Model.MemoryWords
import Verif.Props.Memory
import Verif.Props.Random
import Verif.Lemmas.Bip39

/-!
# C85: package bip39, addresses and key ranges leave the caller's memory alone
-/

namespace Bips
open Mem

variable (H : Hashes) (R : Registry) (g : Nat → Nat → Nat)

theorem copyAt_whole (a src : Bytes) (n : Nat) (ha : a.length = n) (hs : src.length = n) : copyAt a 0 (0 + n) src = src := by
  subst ha
  simp [copyAt, hs, List.take_of_length_le]

theorem newArray_spec (b : Bytes) (h : Heap) : newArray b h = (h.length, h ++ [b]) := rfl

theorem holds_array (h : Heap) (b : Bytes) (L : Heap) : Holds (h ++ [b] ++ L) (arraySl h.length b.length 0 b.length) b := by
  have := holds_local h b L (i := 0) (n := b.length) (c := b.length) (by omega)
  rwa [Nat.zero_add, slice_zero_length] at this

theorem pad_spec {h : Heap} {s : Sl} {b : Bytes} (hs : Holds h s b) (n : Nat) :
    ∃ L t, Mem.padByteSlice s n h = (t, h ++ L) ∧ Holds (h ++ L) t (padByteSlice b n) ∧ (t = s ∨ h.length ≤ t.addr) := by
  rw [Mem.padByteSlice, padByteSlice, hs.2.1]
  by_cases hn : n ≤ b.length
  · rw [if_pos hn, if_pos hn]
    exact ⟨[], s, by rw [List.append_nil]; rfl, by rwa [List.append_nil], Or.inl rfl⟩
  · rw [if_neg hn, if_neg hn]
    have h1 : makeBytes n h = (⟨h.length, 0, n, n⟩, h ++ [List.replicate n 0]) := rfl
    have h2 : copyTo (Sl.sub ⟨h.length, 0, n, n⟩ (n - b.length) n) b (h ++ [List.replicate n 0]) =
        ((), h ++ [List.replicate (n - b.length) 0 ++ b]) := by
      have := modify_last h (List.replicate n 0) [] fun a => copyAt a (0 + (n - b.length)) (0 + (n - b.length) + (n - (n - b.length))) b
      simp only [List.append_nil] at this
      rw [copyTo]
      dsimp only [Sl.sub]
      rw [this]
      have e : copyAt (List.replicate n 0) (0 + (n - b.length)) (0 + (n - b.length) + (n - (n - b.length))) b =
          List.replicate (n - b.length) 0 ++ b := by
        rw [copyAt, Nat.zero_add, show n - b.length + (n - (n - b.length)) - (n - b.length) = b.length by omega, List.take_length,
          Nat.min_self, show n - b.length + b.length = n by omega, List.drop_eq_nil_of_le (by simp), List.take_replicate,
          List.append_nil, Nat.min_eq_left (by omega)]
      rw [e]
    rw [bind_run h1, bind_run ((hs.append _).read), bind_run h2]
    refine ⟨[List.replicate (n - b.length) 0 ++ b], ⟨h.length, 0, n, n⟩, rfl, ?_, Or.inr le_rfl⟩
    have := holds_array h (List.replicate (n - b.length) 0 ++ b) []
    rw [List.append_nil] at this
    have hl : (List.replicate (n - b.length) 0 ++ b).length = n := by simp; omega
    rw [hl] at this
    exact this

theorem computeChecksum_spec {h : Heap} {s : Sl} {b : Bytes} (hs : Holds h s b) :
    ∃ L t, Mem.computeChecksum H s h = (t, h ++ L) ∧ Holds (h ++ L) t (computeChecksum H b) ∧ h.length ≤ t.addr := by
  rw [Mem.computeChecksum, bind_run hs.read, bind_run (newArray_spec _ h)]
  refine ⟨[H.sha256 b], _, rfl, ?_, le_rfl⟩
  have := holds_array h (H.sha256 b) []
  rw [H.sha256_length, List.append_nil] at this
  exact this

theorem addChecksum39_spec {h : Heap} {s : Sl} {b : Bytes} (hs : Holds h s b) :
    ∃ L t, Mem.addChecksum H g s h = (t, h ++ L) ∧ Holds (h ++ L) t (addChecksum H b) ∧ h.length ≤ t.addr := by
  obtain ⟨L, t, ht, hh, -⟩ := computeChecksum_spec H hs
  rw [Mem.addChecksum, bind_run ht, bind_run hh.read, bind_run (hs.append L).read, hs.2.1, addChecksum]
  obtain ⟨L', t', ht', hh', ha'⟩ := fresh_spec g (bigBytes (addChecksumLoop ((computeChecksum H b).headD 0) (b.length / 4) 0 (setBytes b)))
    (h ++ L)
  refine ⟨L ++ L', t', by rw [ht', List.append_assoc], by rw [← List.append_assoc]; exact hh', ?_⟩
  simp at ha'; omega

theorem decodeWords_spec (map : Bytes → Option Nat) (ws : List Bytes) (b : Nat) (h : Heap) (a : Bytes) (ha : a.length = 2) :
    ∃ a' : Bytes, Mem.decodeWords h.length map ws b (h ++ [a]) = (decodeWords map ws b, h ++ [a']) := by
  induction ws generalizing b a with
  | nil => exact ⟨a, rfl⟩
  | cons v vs ih =>
    rw [Mem.decodeWords, decodeWords]
    cases map v with
    | none => exact ⟨a, rfl⟩
    | some index =>
      dsimp only
      have hl : (beBytes 2 (index % 65536)).length = 2 := by simp
      have h2 : copyTo (arraySl h.length 2 0 2) (beBytes 2 (index % 65536)) (h ++ [a]) = ((), h ++ [beBytes 2 (index % 65536)]) := by
        have := copyTo_local h a [] 0 2 2 (beBytes 2 (index % 65536))
        rw [copyAt_whole _ _ 2 ha hl, List.append_nil, List.append_nil] at this
        exact this
      have h3 := holds_array h (beBytes 2 (index % 65536)) []
      rw [hl, List.append_nil] at h3
      rw [bind_run h2, bind_run h3.read]
      exact ih _ _ hl

/-- A result with a slice stands for a result with bytes: the same error, and the slice is new memory and shows the bytes. -/
def Shows (h h' : Heap) : Outcome (Option Sl × Option Err) → Outcome (Bytes × Option Err) → Prop
  | .panic, .panic => True
  | .ok (none, some e), .ok (b, some e') => b = [] ∧ e = e'
  | .ok (some s, none), .ok (b, none) => Holds h' s b ∧ h.length ≤ s.addr
  | _, _ => False

theorem entropy_spec (S : WordState) (m : Bytes) (h : Heap) :
    ∃ L r, Mem.entropyFromMnemonic H g S m h = (r, h ++ L) ∧ Shows h (h ++ L) r (entropyFromMnemonic H S m) := by
  rw [Mem.entropyFromMnemonic, entropyFromMnemonic]
  rcases splitMnemonicWords m with ⟨ws, _ | _⟩
  · exact ⟨[], .ok (none, some .invalidMnemonic), by rw [List.append_nil]; rfl, ⟨rfl, rfl⟩⟩
  · dsimp only
    obtain ⟨a, hd⟩ := decodeWords_spec S.map ws 0 h [0, 0] rfl
    rw [bind_run (newArray_spec _ h), bind_run hd]
    cases decodeWords S.map ws 0 with
    | inr e => exact ⟨[a], .ok (none, some e), rfl, ⟨rfl, rfl⟩⟩
    | inl b =>
      dsimp only
      cases checksumMask ws.length with
      | none => exact ⟨[a], .panic, rfl, trivial⟩
      | some mask =>
        dsimp only
        obtain ⟨L1, t1, e1, hh1, ha1⟩ := fresh_spec g (bigBytes (b / (mask + 1))) (h ++ [a])
        obtain ⟨L2, t2, e2, hh2, ha2⟩ := pad_spec hh1 (ws.length / 3 * 4)
        obtain ⟨L3, t3, e3, hh3, ha3⟩ := computeChecksum_spec H hh2
        rw [bind_run e1, bind_run e2, bind_run e3, bind_run hh3.read]
        have hnew : h.length ≤ t2.addr := by
          simp at ha1
          rcases ha2 with rfl | ha2
          · omega
          · simp at ha2; omega
        have hfin : ∀ c : Nat, ∃ L r, (pure (if b &&& mask ≠ c then Outcome.ok (none, some Err.checksumIncorrect)
            else .ok (some t2, none)) : Mem (Outcome (Option Sl × Option Err))) (h ++ [a] ++ L1 ++ L2 ++ L3) = (r, h ++ L) ∧
            Shows h (h ++ L) r (if b &&& mask ≠ c then Outcome.ok (([] : Bytes), some Err.checksumIncorrect)
              else .ok (padByteSlice (bigBytes (b / (mask + 1))) (ws.length / 3 * 4), none)) := by
          intro c
          refine ⟨[a] ++ L1 ++ L2 ++ L3, (if b &&& mask ≠ c then Outcome.ok (none, some Err.checksumIncorrect)
            else .ok (some t2, none)), by rw [pure_run]; simp only [List.append_assoc], ?_⟩
          split
          · exact ⟨rfl, rfl⟩
          · refine ⟨?_, hnew⟩
            have := hh2.append L3
            simp only [List.append_assoc] at this ⊢
            exact this
        split
        · cases checksumShift ws.length with
          | none => exact ⟨[a] ++ L1 ++ L2 ++ L3, .panic, by dsimp only; rw [pure_run]; simp only [List.append_assoc], trivial⟩
          | some sh => exact hfin _
        · exact hfin _

theorem encodeWords_spec39 (list : List Bytes) (k n : Nat) (acc : List Bytes) (h : Heap) :
    ∃ L, Mem.encodeWords g list k n acc h = (encodeWords list k n acc, h ++ L) := by
  induction k generalizing n acc h with
  | zero => exact ⟨[], by rw [List.append_nil]; rfl⟩
  | succ k ih =>
    obtain ⟨L1, t1, e1, hh1, -⟩ := fresh_spec g (bigBytes (n &&& 2047)) h
    obtain ⟨L2, t2, e2, hh2, -⟩ := pad_spec hh1 2
    rw [Mem.encodeWords, bind_run e1, bind_run e2, bind_run hh2.read, encodeWords]
    cases list[setBytes (padByteSlice (bigBytes (n &&& 2047)) 2)]? with
    | none => exact ⟨L1 ++ L2, by rw [← List.append_assoc]; rfl⟩
    | some w =>
      obtain ⟨L3, e3⟩ := ih (n / 2048) (w :: acc) (h ++ L1 ++ L2)
      exact ⟨L1 ++ (L2 ++ L3), by rw [← List.append_assoc, ← List.append_assoc]; exact e3⟩

theorem newMnemonic_spec39 (S : WordState) {h : Heap} {s : Sl} {b : Bytes} (hs : Holds h s b) :
    ∃ L, Mem.newMnemonic H g S s h = (newMnemonic H S b, h ++ L) := by
  rw [Mem.newMnemonic, newMnemonic, hs.2.1]
  cases validateEntropyBitSize ((b.length * 8 : Nat) : Int) with
  | some e => exact ⟨[], by rw [List.append_nil]; rfl⟩
  | none =>
    dsimp only
    obtain ⟨L1, t1, e1, hh1, -⟩ := addChecksum39_spec H g hs
    obtain ⟨L2, e2⟩ := encodeWords_spec39 g S.list ((b.length * 8 + b.length * 8 / 32) / 11) (setBytes (addChecksum H b)) [] (h ++ L1)
    rw [bind_run e1, bind_run hh1.read, bind_run e2]
    refine ⟨L1 ++ L2, ?_⟩
    rw [← List.append_assoc]
    cases encodeWords S.list ((b.length * 8 + b.length * 8 / 32) / 11) (setBytes (addChecksum H b)) [] <;> rfl

theorem Shows.mono {h h' L : Heap} {r : Outcome (Option Sl × Option Err)} {v : Outcome (Bytes × Option Err)}
    (hr : Shows h h' r v) : Shows h (h' ++ L) r v := by
  match r, v, hr with
  | .panic, .panic, _ => trivial
  | .ok (none, some _), .ok (_, some _), hr => exact hr
  | .ok (some _, none), .ok (_, none), hr => exact ⟨hr.1.append L, hr.2⟩

theorem bytes_spec (S : WordState) (m : Bytes) (raw : List Bool) (h : Heap) :
    ∃ L r, Mem.mnemonicToByteArray H g S m raw h = (r, h ++ L) ∧ Shows h (h ++ L) r (mnemonicToByteArray H S m raw) := by
  obtain ⟨L, r, e, hr⟩ := entropy_spec H g S m h
  rw [Mem.mnemonicToByteArray, mnemonicToByteArray]
  rw [bind_run e]
  match r, entropyFromMnemonic H S m, hr with
  | .panic, .panic, _ => exact ⟨L, _, rfl, trivial⟩
  | .ok (none, some _), .ok (_, some _), hr => exact ⟨L, _, rfl, rfl, hr.2⟩
  | .ok (some s, none), .ok (b, none), hr =>
    dsimp only
    split
    · exact ⟨L, _, rfl, hr⟩
    · obtain ⟨L1, t1, e1, hh1, ha1⟩ := addChecksum39_spec H g hr.1
      obtain ⟨L2, t2, e2, hh2, ha2⟩ := pad_spec hh1
        (((splitByte 32 m).length * 11 - (splitByte 32 m).length * 11 % 32) / 8 + 1)
      rw [bind_run e1, bind_run e2]
      refine ⟨L ++ L1 ++ L2, .ok (some t2, none), by rw [pure_run]; simp only [List.append_assoc], ?_, ?_⟩
      · simp only [List.append_assoc] at hh2 ⊢; exact hh2
      · simp at ha1
        rcases ha2 with rfl | ha2
        · omega
        · simp at ha2; omega

theorem seed_spec (m p : Bytes) (h : Heap) :
    ∃ L s, Mem.newSeed H g m p h = (s, h ++ L) ∧ Holds (h ++ L) s (newSeed H m p) ∧ h.length ≤ s.addr := by
  obtain ⟨L1, t1, e1, hh1, -⟩ := fresh_spec g m h
  obtain ⟨L2, t2, e2, hh2, -⟩ := fresh_spec g (str "mnemonic" ++ p) (h ++ L1)
  obtain ⟨L3, t3, e3, hh3, ha3⟩ := fresh_spec g (newSeed H m p) (h ++ L1 ++ L2)
  rw [Mem.newSeed, bind_run e1, bind_run e2, bind_run (hh1.append L2).read, bind_run hh2.read]
  refine ⟨L1 ++ L2 ++ L3, t3, ?_, ?_, ?_⟩
  · rw [← List.append_assoc, ← List.append_assoc]; exact e3
  · rw [← List.append_assoc, ← List.append_assoc]; exact hh3
  · simp at ha3; omega

theorem checkedSeed_spec (S : WordState) (m p : Bytes) (h : Heap) :
    ∃ L r, Mem.newSeedWithErrorChecking H g S m p h = (r, h ++ L) ∧
      Shows h (h ++ L) r (newSeedWithErrorChecking H S m p) := by
  obtain ⟨L, r, e, hr⟩ := bytes_spec H g S m [] h
  rw [Mem.newSeedWithErrorChecking, bind_run e, newSeedWithErrorChecking]
  match r, mnemonicToByteArray H S m [], hr with
  | .panic, .panic, _ => exact ⟨L, _, rfl, trivial⟩
  | .ok (none, some _), .ok (_, some _), hr => exact ⟨L, _, rfl, rfl, hr.2⟩
  | .ok (some s, none), .ok (b, none), hr =>
    dsimp only
    obtain ⟨L1, t1, e1, hh1, ha1⟩ := seed_spec H g m p (h ++ L)
    rw [bind_run e1]
    refine ⟨L ++ L1, .ok (some t1, none), by rw [pure_run, List.append_assoc], ?_, ?_⟩
    · rw [← List.append_assoc]; exact hh1
    · simp at ha1; omega


theorem readLoop_length (src : Source) (n : Nat) : (readLoop src n).1.length ≤ n := by
  obtain ⟨h1, h2, -⟩ := readLoop_spec src n
  by_cases h : n ≤ (Spec.stream src).1.length
  · rw [(h1 h).1]; simp
  · rw [(h2 (by omega)).1]; omega

theorem randEntropy_spec (src : Source) (n : Int) (h : Heap) :
    ∃ L r, Mem.newEntropy src n h = ((r, (newEntropyFrom src n).2), h ++ L) ∧
      Shows h (h ++ L) (.ok r) (.ok (newEntropyFrom src n).1) := by
  rw [Mem.newEntropy, newEntropyFrom]
  cases validateEntropyBitSize n with
  | some e => exact ⟨[], (none, some e), by rw [List.append_nil]; rfl, ⟨rfl, rfl⟩⟩
  | none =>
    dsimp only
    generalize (n.tdiv 8).toNat = k
    have h1 : makeBytes k h = (⟨h.length, 0, k, k⟩, h ++ [List.replicate k 0]) := rfl
    have hl := readLoop_length src k
    have h2 : copyTo ⟨h.length, 0, k, k⟩ (readLoop src k).1 (h ++ [List.replicate k 0]) =
        ((), h ++ [(readLoop src k).1 ++ List.replicate (k - (readLoop src k).1.length) 0]) := by
      have := modify_last h (List.replicate k 0) [] fun a => copyAt a 0 (0 + k) (readLoop src k).1
      simp only [List.append_nil] at this
      rw [copyTo]
      dsimp only
      rw [this]
      have e : copyAt (List.replicate k 0) 0 (0 + k) (readLoop src k).1 =
          (readLoop src k).1 ++ List.replicate (k - (readLoop src k).1.length) 0 := by
        simp [copyAt, List.take_of_length_le hl, Nat.min_eq_right hl]
      rw [e]
    rw [bind_run h1, bind_run h2]
    refine ⟨_, (some ⟨h.length, 0, k, k⟩, none), rfl, ?_, le_rfl⟩
    have := holds_array h ((readLoop src k).1 ++ List.replicate (k - (readLoop src k).1.length) 0) []
    have hl2 : ((readLoop src k).1 ++ List.replicate (k - (readLoop src k).1.length) 0).length = k := by simp; omega
    rw [hl2, List.append_nil] at this
    exact this

/-! ### Addresses -/

theorem fresh_inHeap (b : Bytes) (h L : Heap) : ∃ s, (fresh g b h).1 = s ∧ s.InHeap ((fresh g b h).2 ++ L) := by
  refine ⟨_, rfl, ?_, ?_, ?_⟩
  · simp [fresh]
  · simp [fresh]
  · show 0 + (b.length + g h.length b.length) ≤ _
    simp only [fresh]
    rw [getD_append_left (by simp), List.getD_eq_getElem?_getD, List.getElem?_append_right le_rfl]
    simp

/-- `append` to a slice of memory allocated after `h` leaves `h` alone, in place or not. -/
theorem append_new {h L : Heap} {s : Sl} {b : Bytes} (hs : Holds (h ++ L) s b) (hi : s.InHeap (h ++ L)) (ha : h.length ≤ s.addr)
    (src : Bytes) :
    ∃ L' t, Mem.append g s src (h ++ L) = (t, h ++ L') ∧ Holds (h ++ L') t (b ++ src) ∧ h.length ≤ t.addr := by
  by_cases hc : s.len + src.length ≤ s.cap
  · obtain ⟨h1, h2, h3⟩ := hi
    obtain ⟨e1, e2⟩ := append_inplace g (h := h ++ L) ⟨h1, h2, h3⟩ hc
    have hm : (h ++ L).modify s.addr (fun a => copyAt a (s.off + s.len) (s.off + s.len + src.length) src) =
        h ++ L.modify (s.addr - h.length) (fun a => copyAt a (s.off + s.len) (s.off + s.len + src.length) src) := by
      apply List.ext_getElem?
      intro i
      rw [List.getElem?_modify]
      by_cases hil : i < h.length
      · rw [List.getElem?_append_left hil, List.getElem?_append_left hil]
        simp [show s.addr ≠ i by omega]
      · rw [List.getElem?_append_right (by omega), List.getElem?_append_right (by omega), List.getElem?_modify]
        by_cases he : s.addr = i
        · subst he; simp
        · simp [he, show s.addr - h.length ≠ i - h.length by omega]
    rw [hm] at e1 e2
    rw [hs.read] at e2
    exact ⟨_, _, e1, e2, ha⟩
  · obtain ⟨L', t, e, hh, ha'⟩ := append_spec g hs (src := src) (by omega)
    refine ⟨L ++ L', t, by rw [e, List.append_assoc], by rw [← List.append_assoc]; exact hh, ?_⟩
    simp at ha'; omega

theorem addrHex_spec {h : Heap} {p : Nat} {k : Key} (hp : KeyAt h p k) (path : Bytes) :
    ∃ L, Mem.addrHex H R g p h = (KeyPath.addrHex H R ⟨path, k⟩, h ++ L) := by
  obtain ⟨L1, e1⟩ := publicKeyHex_spec R g hp
  rw [Mem.addrHex, bind_run e1, KeyPath.addrHex]
  dsimp only
  cases hexDecode (k.publicKeyHex R) with
  | none => exact ⟨L1, rfl⟩
  | some b =>
    dsimp only
    obtain ⟨L2, t2, e2, hh2, -⟩ := fresh_spec g b (h ++ L1)
    rw [bind_run e2, bind_run hh2.read]
    obtain ⟨L3, t3, e3, hh3, ha3⟩ := fresh_spec g (bigBytes (expandPublicKey b).1) (h ++ L1 ++ L2)
    obtain ⟨L4, t4, e4, hh4, -⟩ := fresh_spec g (bigBytes (expandPublicKey b).2) (h ++ L1 ++ L2 ++ L3)
    have hi3 : t3.InHeap (h ++ L1 ++ L2 ++ L3 ++ L4) := by
      obtain ⟨s, hs, hi⟩ := fresh_inHeap g (bigBytes (expandPublicKey b).1) (h ++ L1 ++ L2) L4
      rw [e3] at hs hi
      rwa [← hs] at hi
    rw [bind_run e3, bind_run e4, bind_run hh4.read]
    have hh3' := hh3.append L4
    have hass : h ++ L1 ++ L2 ++ L3 ++ L4 = h ++ (L1 ++ L2 ++ L3 ++ L4) := by simp only [List.append_assoc]
    rw [hass] at hh3' hi3 ⊢
    obtain ⟨L5, t5, e5, hh5, -⟩ := append_new g hh3' hi3 (by simp at ha3; omega) (bigBytes (expandPublicKey b).2)
    rw [bind_run e5, bind_run hh5.read]
    obtain ⟨L6, t6, e6, hh6, -⟩ := fresh_spec g (H.keccak256 (bigBytes (expandPublicKey b).1 ++ bigBytes (expandPublicKey b).2)) (h ++ L5)
    rw [bind_run e6, bind_run hh6.read]
    exact ⟨L5 ++ L6, by rw [← List.append_assoc]; rfl⟩

theorem addrP2SH_spec {h : Heap} {p : Nat} {k : Key} (hp : KeyAt h p k) (path : Bytes) (v : UInt8) :
    ∃ L, Mem.addrP2SH H R g p v h = (KeyPath.addrP2SH H R ⟨path, k⟩ v, h ++ L) := by
  obtain ⟨L1, e1⟩ := publicKeyHex_spec R g hp
  rw [Mem.addrP2SH, bind_run e1, KeyPath.addrP2SH]
  dsimp only
  cases hexDecode (k.publicKeyHex R) with
  | none => exact ⟨L1, rfl⟩
  | some b =>
    dsimp only
    obtain ⟨L2, t2, e2, hh2, -⟩ := fresh_spec g b (h ++ L1)
    obtain ⟨L3, t3, e3, hh3, -⟩ := hash160_spec H g hh2
    rw [bind_run e2, bind_run e3, bind_run (newArray_spec _ _), bind_run (hh3.append _).read]
    have hv := holds_array (h ++ L1 ++ L2 ++ L3) [v] []
    rw [List.append_nil] at hv
    have hlen : (hashRipeMD160onSha256 H b).length = 20 := H.ripemd160_length _
    have hfr : Mem.append g (arraySl (h ++ L1 ++ L2 ++ L3).length 1 0 1) (hashRipeMD160onSha256 H b) (h ++ L1 ++ L2 ++ L3 ++ [[v]]) =
        fresh g ([v] ++ hashRipeMD160onSha256 H b) (h ++ L1 ++ L2 ++ L3 ++ [[v]]) := by
      rw [Mem.append, if_neg (by rw [hlen]; show ¬ 1 - 0 + 20 ≤ 1 - 0; omega)]
      have := hv.read
      rw [show arraySl (h ++ L1 ++ L2 ++ L3).length [v].length 0 [v].length = arraySl (h ++ L1 ++ L2 ++ L3).length 1 0 1 from rfl] at this
      rw [this]
    obtain ⟨L4, t4, e4, hh4, ha4⟩ := fresh_spec g ([v] ++ hashRipeMD160onSha256 H b) (h ++ L1 ++ L2 ++ L3 ++ [[v]])
    rw [bind_run (hfr.trans e4)]
    obtain ⟨L5, t5, e5, hh5, -⟩ := checksum_spec H g hh4
    have hi4 : t4.InHeap (h ++ L1 ++ L2 ++ L3 ++ [[v]] ++ L4 ++ L5) := by
      obtain ⟨s, hs, hi⟩ := fresh_inHeap g ([v] ++ hashRipeMD160onSha256 H b) (h ++ L1 ++ L2 ++ L3 ++ [[v]]) L5
      rw [e4] at hs hi
      rwa [← hs] at hi
    rw [bind_run e5, bind_run hh5.read]
    have hh4' := hh4.append L5
    have hass : h ++ L1 ++ L2 ++ L3 ++ [[v]] ++ L4 ++ L5 = h ++ (L1 ++ L2 ++ L3 ++ [[v]] ++ L4 ++ L5) := by
      simp only [List.append_assoc]
    rw [hass] at hh4' hi4 ⊢
    obtain ⟨L6, t6, e6, hh6, -⟩ := append_new g hh4' hi4 (by simp at ha4; omega)
      (checksumDblSha256 H ([v] ++ hashRipeMD160onSha256 H b))
    rw [bind_run e6, bind_run hh6.read]
    exact ⟨L6, rfl⟩

/-! ### Ranges -/

theorem rangeLoop_spec (n : Nat) : ∀ (i e : UInt32) (d : Bytes) (k : Key) (h M : Heap), e.toNat - i.toNat = n →
    ∃ (k' : Key) (M' : Heap), Mem.rangeLoop H R g h.length i e d (h ++ [k.bytes] ++ M) =
      (KeyPath.pairs (rangeLoop H R i e d k), h ++ [k'.bytes] ++ M') := by
  induction n using Nat.strong_induction_on with
  | _ n ih =>
    intro i e d k h M hn
    rw [Mem.rangeLoop, rangeLoop]
    by_cases hie : i < e
    · rw [dif_pos hie, dif_pos hie]
      have hp : KeyAt (h ++ [k.bytes] ++ M) h.length k := by
        rw [KeyAt, List.append_assoc, List.getElem?_append_right le_rfl]; simp
      obtain ⟨L, hL⟩ := child_spec H R g hp i
      rw [reassoc] at hL
      have hc := copyTo_local h k.bytes (M ++ L) 0 78 78 (k.newChildKey H R i).1.bytes
      have he : copyAt k.bytes 0 (0 + 78) (k.newChildKey H R i).1.bytes = (k.newChildKey H R i).1.bytes := by
        simp [copyAt, k.len, Key.len, List.take_of_length_le]
      rw [he] at hc
      have hc' : copyTo (keySl h.length 0 78) (k.newChildKey H R i).1.bytes (h ++ [k.bytes] ++ (M ++ L)) =
        ((), h ++ [(k.newChildKey H R i).1.bytes] ++ (M ++ L)) := hc
      have h1 : i.toNat < e.toNat := UInt32.lt_iff_toNat_lt.1 hie
      have h2 := e.toNat_lt
      have h3 : (i + 1).toNat = i.toNat + 1 := by
        rw [UInt32.toNat_add, show (1 : UInt32).toNat = 1 from rfl, Nat.mod_eq_of_lt (by omega)]
      obtain ⟨k', M', hr⟩ := ih (e.toNat - (i + 1).toNat) (by omega) (i + 1) e (appendComponent d i) (k.newChildKey H R i).1 h
        (M ++ L) rfl
      refine ⟨k', M', ?_⟩
      rw [bind_run hL]
      dsimp only
      rw [bind_run hc', bind_run (read_local h _ _ (Nat.zero_le 78) le_rfl), slice_full, bind_run hr]
      rfl
    · rw [dif_neg hie, dif_neg hie]
      exact ⟨k, M, rfl⟩

theorem range_spec {h : Heap} {p : Nat} (k : KeyPathRange) (hp : KeyAt h p k.keyPath.key) :
    ∃ L, Mem.generateRange H R g p k.startIndex k.endIndex k.keyPath.path h =
      ((if (k.generateRange H R).2 = none then some (KeyPath.pairs (k.generateRange H R).1.keyPaths) else none,
        (k.generateRange H R).2), h ++ L) := by
  obtain ⟨L1, e1⟩ := isValid_spec H g hp
  rw [Mem.generateRange, KeyPathRange.generateRange]
  by_cases h1 : k.endIndex - k.startIndex < 1
  · rw [if_pos h1, if_pos h1]; exact ⟨[], by rw [List.append_nil]; rfl⟩
  rw [if_neg h1, if_neg h1, bind_run e1]
  by_cases h2 : (!k.keyPath.key.isValid H) = true
  · rw [if_pos h2, if_pos h2]; exact ⟨L1, rfl⟩
  rw [if_neg h2, if_neg h2]
  by_cases h3 : (!pathIsValid k.keyPath.path) = true
  · rw [if_pos h3, if_pos h3]; exact ⟨L1, rfl⟩
  rw [if_neg h3, if_neg h3, bind_run (hp.append L1).all.read]
  have hn : newArray k.keyPath.key.bytes (h ++ L1) = ((h ++ L1).length, h ++ L1 ++ [k.keyPath.key.bytes] ++ []) := by
    rw [List.append_nil]; rfl
  obtain ⟨k', M', hr⟩ := rangeLoop_spec H R g _ k.startIndex k.endIndex (pathString k.keyPath.path) k.keyPath.key (h ++ L1) [] rfl
  rw [bind_run hn, bind_run hr]
  exact ⟨L1 ++ [k'.bytes] ++ M', by simp only [List.append_assoc]; rfl⟩

/-! ### C85 -/

/-- `NewMnemonic` only reads the entropy: its result is that of the value-level model, and all memory that was there — the
entropy, and what lies behind it in the same array — is as it was. -/
theorem C85_newMnemonic (S : WordState) {h : Heap} {s : Sl} {b : Bytes} (hs : Holds h s b) :
    (Mem.newMnemonic H g S s h).1 = newMnemonic H S b ∧ Unchanged h (Mem.newMnemonic H g S s h).2 := by
  obtain ⟨L, hL⟩ := newMnemonic_spec39 H g S hs
  rw [hL]
  exact ⟨rfl, Unchanged.append h L⟩

/-- A result is new memory: it shows the bytes `v`, nothing that was there has changed, and writing to the result later
changes nothing that was there either. -/
def NewBytes (h : Heap) (r : Outcome (Option Sl × Option Err) × Heap) (v : Outcome (Bytes × Option Err)) : Prop :=
  Unchanged h r.2 ∧
  match v with
  | .panic => r.1 = .panic
  | .ok (b, some e) => r.1 = .ok (none, some e) ∧ b = []
  | .ok (b, none) => ∃ s, r.1 = .ok (some s, none) ∧ Holds r.2 s b ∧ ∀ src, Unchanged h (copyTo s src r.2).2

theorem newBytes_of_shows {h L : Heap} {r : Outcome (Option Sl × Option Err)} {v : Outcome (Bytes × Option Err)}
    (hr : Shows h (h ++ L) r v) : NewBytes h (r, h ++ L) v := by
  refine ⟨Unchanged.append h L, ?_⟩
  match r, v, hr with
  | .panic, .panic, _ => rfl
  | .ok (none, some e), .ok (_, some _), hr => exact ⟨by rw [← hr.2], hr.1⟩
  | .ok (some s, none), .ok (b, none), hr =>
    refine ⟨s, rfl, hr.1, fun src a x hx => ?_⟩
    have h1 := Unchanged.append h L a x hx
    have hlt : a < h.length := by
      by_contra hc
      rw [List.getElem?_eq_none (by omega)] at hx
      exact absurd hx (by simp)
    have h2 := hr.2
    show ((h ++ L).modify s.addr _)[a]? = _
    rw [List.getElem?_modify, h1]
    simp [show s.addr ≠ a by omega]

/-- The byte slices returned by package bip39 are new memory, with the bytes of the value-level model. -/
theorem C85_results (S : WordState) (h : Heap) :
    (∀ m, NewBytes h (Mem.entropyFromMnemonic H g S m h) (entropyFromMnemonic H S m)) ∧
    (∀ m raw, NewBytes h (Mem.mnemonicToByteArray H g S m raw h) (mnemonicToByteArray H S m raw)) ∧
    (∀ m p, NewBytes h (Mem.newSeedWithErrorChecking H g S m p h) (newSeedWithErrorChecking H S m p)) ∧
    (∀ m p, NewBytes h (.ok (some (Mem.newSeed H g m p h).1, none), (Mem.newSeed H g m p h).2) (.ok (newSeed H m p, none))) ∧
    (∀ src n, NewBytes h (.ok (Mem.newEntropy src n h).1.1, (Mem.newEntropy src n h).2) (.ok (newEntropyFrom src n).1) ∧
      (Mem.newEntropy src n h).1.2 = (newEntropyFrom src n).2) := by
  refine ⟨fun m => ?_, fun m raw => ?_, fun m p => ?_, fun m p => ?_, fun src n => ?_⟩
  · obtain ⟨L, r, e, hr⟩ := entropy_spec H g S m h
    rw [e]; exact newBytes_of_shows hr
  · obtain ⟨L, r, e, hr⟩ := bytes_spec H g S m raw h
    rw [e]; exact newBytes_of_shows hr
  · obtain ⟨L, r, e, hr⟩ := checkedSeed_spec H g S m p h
    rw [e]; exact newBytes_of_shows hr
  · obtain ⟨L, s, e, hr, ha⟩ := seed_spec H g m p h
    rw [e]; exact newBytes_of_shows (r := .ok (some s, none)) ⟨hr, ha⟩
  · obtain ⟨L, r, e, hr⟩ := randEntropy_spec src n h
    rw [e]; exact ⟨newBytes_of_shows hr, rfl⟩

/-- Asking for addresses changes no memory, whatever spare capacity the slices in between have, and gives the addresses of
the value-level model. -/
theorem C85_addresses {h : Heap} {p : Nat} {k : Key} (hp : KeyAt h p k) (path : Bytes) :
    ((Mem.addrHex H R g p h).1 = KeyPath.addrHex H R ⟨path, k⟩ ∧ Unchanged h (Mem.addrHex H R g p h).2) ∧
    (∀ v, (Mem.addrP2SH H R g p v h).1 = KeyPath.addrP2SH H R ⟨path, k⟩ v ∧ Unchanged h (Mem.addrP2SH H R g p v h).2) := by
  constructor
  · obtain ⟨L, hL⟩ := addrHex_spec H R g hp path
    rw [hL]; exact ⟨rfl, Unchanged.append h L⟩
  · intro v
    obtain ⟨L, hL⟩ := addrP2SH_spec H R g hp path v
    rw [hL]; exact ⟨rfl, Unchanged.append h L⟩

/-- `GenerateRange` reads the key of its range only; the keys in the list are copies. On an error no list is assigned. -/
theorem C85_range {h : Heap} {p : Nat} (k : KeyPathRange) (hp : KeyAt h p k.keyPath.key) :
    (Mem.generateRange H R g p k.startIndex k.endIndex k.keyPath.path h).1 =
      (if (k.generateRange H R).2 = none then some (KeyPath.pairs (k.generateRange H R).1.keyPaths) else none,
        (k.generateRange H R).2) ∧
    Unchanged h (Mem.generateRange H R g p k.startIndex k.endIndex k.keyPath.path h).2 := by
  obtain ⟨L, hL⟩ := range_spec H R g k hp
  rw [hL]; exact ⟨rfl, Unchanged.append h L⟩

/-- The hypotheses are met: 16 bytes of entropy in the middle of a larger array, and a key at address 1. -/
example : Holds [List.replicate 40 7] ⟨0, 8, 16, 32⟩ (List.replicate 16 7) := ⟨by decide, by decide, by decide⟩
example (S : WordState) := C85_newMnemonic H g S
  (show Holds [List.replicate 40 7] ⟨0, 8, 16, 32⟩ (List.replicate 16 7) from ⟨by decide, by decide, by decide⟩)
example := C85_addresses H R g (show KeyAt [[], List.replicate 78 7] 1 ⟨List.replicate 78 7, by simp⟩ from rfl) (str "m")

end Bips
