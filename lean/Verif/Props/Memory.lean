import Verif.Model.Memory
import Verif.Lemmas.Child

/-!
# What the functions of package bip32 write to memory
-/

namespace Bips

/-- The slice shows the bytes `b`. -/
def Holds (h : Heap) (s : Sl) (b : Bytes) : Prop :=
  s.addr < h.length ∧ s.len = b.length ∧ slice (h.getD s.addr []) s.off (s.off + s.len) = b

/-- There is a key at this address. -/
def KeyAt (h : Heap) (p : Nat) (k : Key) : Prop := h[p]? = some k.bytes

namespace Mem

theorem bind_run {α β : Type} {f : Mem α} {h h' : Heap} {a : α} (hf : f h = (a, h')) (k : α → Mem β) :
    (f >>= k) h = k a h' := by
  show k (f h).1 (f h).2 = _
  rw [hf]

theorem pure_run {α : Type} (a : α) (h : Heap) : (pure a : Mem α) h = (a, h) := rfl

end Mem

open Mem

theorem getD_append_left {h L : Heap} {a : Nat} (ha : a < h.length) : (h ++ L).getD a [] = h.getD a [] := by
  simp [List.getD_eq_getElem?_getD, List.getElem?_append_left ha]

theorem Holds.append {h : Heap} {s : Sl} {b : Bytes} (hs : Holds h s b) (L : Heap) : Holds (h ++ L) s b := by
  refine ⟨by simp; have := hs.1; omega, hs.2.1, ?_⟩
  rw [getD_append_left hs.1]; exact hs.2.2

theorem Holds.read {h : Heap} {s : Sl} {b : Bytes} (hs : Holds h s b) : Mem.read s h = (b, h) := by
  rw [Mem.read, hs.2.2]

theorem slice_slice (b : Bytes) (i j k l : Nat) (hl : i + l ≤ j) : slice (slice b i j) k l = slice b (i + k) (i + l) := by
  apply List.ext_getElem?
  intro n
  rw [slice_getElem?, slice_getElem?, slice_getElem?]
  by_cases h : k + n < l
  · rw [if_pos h, if_pos (by omega), if_pos (by omega), Nat.add_assoc]
  · rw [if_neg h, if_neg (by omega)]

theorem Holds.sub {h : Heap} {s : Sl} {b : Bytes} (hs : Holds h s b) {i j : Nat} (hij : i ≤ j) (hj : j ≤ b.length) :
    Holds h (s.sub i j) (slice b i j) := by
  obtain ⟨h1, h2, h3⟩ := hs
  refine ⟨h1, by rw [slice_length _ _ _ hj]; rfl, ?_⟩
  show slice (h.getD s.addr []) (s.off + i) (s.off + i + (j - i)) = _
  rw [← h3, slice_slice _ _ _ _ _ (by omega)]
  congr 1; omega

theorem KeyAt.lt {h : Heap} {p : Nat} {k : Key} (hp : KeyAt h p k) : p < h.length := by
  by_contra hc
  rw [KeyAt, List.getElem?_eq_none (by omega)] at hp
  exact absurd hp (by simp)

theorem KeyAt.append {h : Heap} {p : Nat} {k : Key} (hp : KeyAt h p k) (L : Heap) : KeyAt (h ++ L) p k := by
  rw [KeyAt, List.getElem?_append_left hp.lt]; exact hp

theorem KeyAt.holds {h : Heap} {p : Nat} {k : Key} (hp : KeyAt h p k) {i j : Nat} (hij : i ≤ j) (hj : j ≤ 78) :
    Holds h (keySl p i j) (slice k.bytes i j) := by
  refine ⟨hp.lt, by rw [slice_length _ _ _ (by rw [k.len]; exact hj)]; rfl, ?_⟩
  show slice (h.getD p []) i (i + (j - i)) = _
  rw [List.getD_eq_getElem?_getD, hp, Nat.add_sub_cancel' hij]; rfl

theorem slice_full (k : Key) : slice k.bytes 0 78 = k.bytes := by
  have := slice_zero_length k.bytes
  rwa [k.len] at this

theorem KeyAt.all {h : Heap} {p : Nat} {k : Key} (hp : KeyAt h p k) : Holds h (keySl p 0 78) k.bytes := by
  have := hp.holds (Nat.zero_le 78) le_rfl
  rwa [slice_full] at this

theorem slice_prefix (b c : Bytes) : slice (b ++ c) 0 (0 + b.length) = b := by simp [slice]

/-! ### The primitives -/

variable (H : Hashes) (R : Registry) (g : Nat → Nat → Nat)

theorem fresh_spec (b : Bytes) (h : Heap) :
    ∃ L s, fresh g b h = (s, h ++ L) ∧ Holds (h ++ L) s b ∧ h.length ≤ s.addr := by
  refine ⟨_, _, rfl, ⟨?_, rfl, ?_⟩, le_rfl⟩
  · simp
  · show slice ((h ++ _).getD h.length []) 0 (0 + b.length) = b
    rw [List.getD_eq_getElem?_getD, List.getElem?_append_right le_rfl]
    simp only [Nat.sub_self, List.getElem?_cons_zero, Option.getD_some]
    exact slice_prefix b _

theorem makeBytes_spec (n : Nat) (h : Heap) :
    ∃ L s, makeBytes n h = (s, h ++ L) ∧ Holds (h ++ L) s (List.replicate n 0) ∧ h.length ≤ s.addr ∧ s.cap = n := by
  refine ⟨_, _, rfl, ⟨?_, by simp, ?_⟩, le_rfl, rfl⟩
  · simp
  · show slice ((h ++ _).getD h.length []) 0 (0 + n) = _
    rw [List.getD_eq_getElem?_getD, List.getElem?_append_right le_rfl]
    simp [slice]

/-- `append` beyond the capacity writes only to a new array. -/
theorem append_spec {h : Heap} {s : Sl} {b : Bytes} (hs : Holds h s b) {src : Bytes} (hc : s.cap < s.len + src.length) :
    ∃ L t, Mem.append g s src h = (t, h ++ L) ∧ Holds (h ++ L) t (b ++ src) ∧ h.length ≤ t.addr := by
  rw [Mem.append, if_neg (by omega), hs.read]
  exact fresh_spec g (b ++ src) h

/-! ### The functions of utils.go -/

theorem checksum_spec {h : Heap} {s : Sl} {b : Bytes} (hs : Holds h s b) :
    ∃ L t, Mem.checksumDblSha256 H g s h = (t, h ++ L) ∧ Holds (h ++ L) t (checksumDblSha256 H b) ∧ h.length ≤ t.addr := by
  obtain ⟨L, t, ht, hh, ha⟩ := fresh_spec g (H.sha256 (H.sha256 b)) h
  refine ⟨L, t.sub 0 4, ?_, ?_, ha⟩
  · rw [Mem.checksumDblSha256, bind_run hs.read, bind_run ht]; rfl
  · exact hh.sub (by omega) (by rw [H.sha256_length]; omega)

theorem addChecksum_spec {h : Heap} {s : Sl} {b : Bytes} (hs : Holds h s b) (hc : s.cap < s.len + 4) :
    ∃ L t, Mem.addChecksumDblSha256ToBytes H g s h = (t, h ++ L) ∧ Holds (h ++ L) t (addChecksumDblSha256ToBytes H b) ∧
      h.length ≤ t.addr := by
  obtain ⟨L, t, ht, hh, ha⟩ := checksum_spec H g hs
  have hl : (checksumDblSha256 H b).length = 4 := by simp [checksumDblSha256, H.sha256_length]
  obtain ⟨L', t', ht', hh', ha'⟩ := append_spec g (hs.append L) (src := checksumDblSha256 H b) (by omega)
  refine ⟨L ++ L', t', ?_, ?_, ?_⟩
  · rw [Mem.addChecksumDblSha256ToBytes, bind_run ht, bind_run hh.read, ht', List.append_assoc]
  · rw [← List.append_assoc]; exact hh'
  · simp at ha'; omega

theorem hash160_spec {h : Heap} {s : Sl} {b : Bytes} (hs : Holds h s b) :
    ∃ L t, Mem.hashRipeMD160onSha256 H g s h = (t, h ++ L) ∧ Holds (h ++ L) t (hashRipeMD160onSha256 H b) ∧
      h.length ≤ t.addr := by
  obtain ⟨L, t, ht, hh, ha⟩ := fresh_spec g (hashRipeMD160onSha256 H b) h
  exact ⟨L, t, by rw [Mem.hashRipeMD160onSha256, bind_run hs.read, ht], hh, ha⟩

theorem pubKey_spec {h : Heap} {s : Sl} {b : Bytes} (hs : Holds h s b) :
    ∃ L t, Mem.publicKeyForPrivateKey g s h = (t, h ++ L) ∧ Holds (h ++ L) t (publicKeyForPrivateKey b) ∧
      h.length ≤ t.addr := by
  obtain ⟨L, t, ht, hh, ha⟩ := fresh_spec g (publicKeyForPrivateKey b) h
  exact ⟨L, t, by rw [Mem.publicKeyForPrivateKey, bind_run hs.read, ht], hh, ha⟩

theorem addPub_spec {h : Heap} {s s' : Sl} {b b' : Bytes} (hs : Holds h s b) (hs' : Holds h s' b') :
    ∃ L t, Mem.addPublicKeys g s s' h = (t, h ++ L) ∧ Holds (h ++ L) t (addPublicKeys b b') ∧ h.length ≤ t.addr := by
  obtain ⟨L, t, ht, hh, ha⟩ := fresh_spec g (addPublicKeys b b') h
  exact ⟨L, t, by rw [Mem.addPublicKeys, bind_run hs.read, bind_run hs'.read, ht], hh, ha⟩

theorem addPriv_spec {h : Heap} {s s' : Sl} {b b' : Bytes} (hs : Holds h s b) (hs' : Holds h s' b') :
    ∃ L t, Mem.addPrivateKeys g s s' h = (t, h ++ L) ∧ Holds (h ++ L) t (addPrivateKeys b b') ∧ h.length ≤ t.addr := by
  obtain ⟨L, t, ht, hh, ha⟩ := fresh_spec g (bigBytes ((setBytes b + setBytes b') % secpN)) h
  rw [Mem.addPrivateKeys, bind_run hs.read, bind_run hs'.read, bind_run ht, addPrivateKeys]
  have hl := hh.2.1
  by_cases hlt : t.len < 32
  · rw [if_pos hlt, if_pos (by omega)]
    obtain ⟨L1, e, he, hhe, hae, hce⟩ := makeBytes_spec (32 - t.len) (h ++ L)
    rw [bind_run he, bind_run (hh.append L1).read]
    by_cases h0 : t.len = 0
    · -- nothing to append: `extra` itself is returned
      have hb : bigBytes ((setBytes b + setBytes b') % secpN) = [] := List.length_eq_zero_iff.1 (by omega)
      rw [hb, Mem.append, if_pos (by rw [hhe.2.1, hce]; simp)]
      refine ⟨L ++ L1, e, ?_, ?_, ?_⟩
      · refine Prod.ext rfl ?_
        show (h ++ L ++ L1).modify e.addr _ = h ++ (L ++ L1)
        rw [← List.append_assoc]
        have : (fun a : Bytes => copyAt a (e.off + e.len) (e.off + e.len + ([] : Bytes).length) []) = id := by
          funext a; simp [copyAt]
        rw [this]
        simp
      · rw [← List.append_assoc, List.append_nil]
        rw [h0] at hhe
        exact hhe
      · simp at hae ⊢; omega
    · obtain ⟨L2, u, hu, hhu, hau⟩ := append_spec g hhe (src := bigBytes ((setBytes b + setBytes b') % secpN))
        (by have := hhe.2.1; simp at this; omega)
      refine ⟨L ++ L1 ++ L2, u, ?_, ?_, ?_⟩
      · rw [hu]; simp [List.append_assoc]
      · rw [← List.append_assoc, ← List.append_assoc, ← hl]; exact hhu
      · simp at hau; omega
  · rw [if_neg hlt, if_neg (by omega)]
    exact ⟨L, t, rfl, hh, ha⟩

theorem modify_last (h : Heap) (a : Bytes) (L : Heap) (f : Bytes → Bytes) :
    (h ++ [a] ++ L).modify h.length f = h ++ [f a] ++ L := by
  apply List.ext_getElem?
  intro i
  rw [List.getElem?_modify]
  rcases Nat.lt_trichotomy i h.length with hi | rfl | hi
  · rw [List.append_assoc, List.append_assoc, List.getElem?_append_left hi, List.getElem?_append_left hi]
    simp [show h.length ≠ i by omega]
  · rw [List.append_assoc, List.append_assoc, List.getElem?_append_right le_rfl, List.getElem?_append_right le_rfl]
    simp
  · rw [List.getElem?_append_right (by simp; omega), List.getElem?_append_right (by simp; omega)]
    simp [show h.length ≠ i by omega]

theorem uint32_spec (i : UInt32) (h : Heap) :
    ∃ L t, Mem.uint32Bytes i h = (t, h ++ L) ∧ Holds (h ++ L) t (putUint32 i) ∧ h.length ≤ t.addr := by
  refine ⟨[putUint32 i], ⟨h.length, 0, 4, 4⟩, ?_, ⟨by simp, by simp, ?_⟩, le_rfl⟩
  · have h1 : makeBytes 4 h = (⟨h.length, 0, 4, 4⟩, h ++ [List.replicate 4 0]) := rfl
    have h2 : copyTo ⟨h.length, 0, 4, 4⟩ (putUint32 i) (h ++ [List.replicate 4 0]) = ((), h ++ [putUint32 i]) := by
      have := modify_last h (List.replicate 4 0) [] fun a => copyAt a 0 (0 + 4) (putUint32 i)
      simp only [List.append_nil] at this
      rw [copyTo, this]
      have hl : (putUint32 i).length = 4 := putUint32_length i
      have : copyAt (List.replicate 4 0) 0 (0 + 4) (putUint32 i) = putUint32 i := by
        simp [copyAt, hl, List.take_of_length_le]
      rw [this]
    rw [Mem.uint32Bytes, bind_run h1, bind_run h2]; rfl
  · show slice ((h ++ _).getD h.length []) 0 (0 + 4) = _
    rw [List.getD_eq_getElem?_getD, List.getElem?_append_right le_rfl]
    have hl : (putUint32 i).length = 4 := putUint32_length i
    simp [slice, List.take_of_length_le, hl]

/-! ### Reading a key -/

theorem serialize_spec {h : Heap} {p : Nat} {k : Key} (hp : KeyAt h p k) :
    ∃ L, (∃ t, Mem.serialize H g p h = ((some t, none), h ++ L) ∧ k.serialize H = ((k.serialize H).1, none) ∧
        Holds (h ++ L) t (k.serialize H).1 ∧ h.length ≤ t.addr) ∨
      (Mem.serialize H g p h = ((none, some .emptyKey), h ++ L) ∧ k.serialize H = ([], some .emptyKey)) := by
  rw [Mem.serialize, bind_run hp.all.read, Key.serialize]
  by_cases hz : k.bytes.all (· == 0) = true
  · rw [if_pos hz, if_pos hz]
    exact ⟨[], .inr ⟨by rw [List.append_nil]; rfl, rfl⟩⟩
  · rw [if_neg hz, if_neg hz]
    obtain ⟨L, t, ht, hh, ha⟩ := addChecksum_spec H g hp.all (by show 78 - 0 < 78 - 0 + 4; omega)
    exact ⟨L, .inl ⟨t, by rw [bind_run ht]; rfl, rfl, hh, ha⟩⟩

theorem string_spec {h : Heap} {p : Nat} {k : Key} (hp : KeyAt h p k) :
    ∃ L, Mem.string H g p h = (k.string H, h ++ L) := by
  rw [Key.string, Key.b58Serialize]
  obtain ⟨L, ⟨t, ht, he, hh, -⟩ | ⟨ht, he⟩⟩ := serialize_spec H g hp
  · refine ⟨L, ?_⟩
    rw [Mem.string, bind_run ht]
    dsimp only
    rw [bind_run hh.read, he]; rfl
  · refine ⟨L, ?_⟩
    rw [Mem.string, bind_run ht, he]; rfl

/-- The value `Deserialize` returns. -/
def deserializeValue (b : Bytes) : Bytes × Option Err := ((deserialize H b).1.bytes, (deserialize H b).2)

theorem slice_zero (b : Bytes) (n : Nat) : slice b 0 n = b.take n := by simp [slice]

/-- `Deserialize` on 82 bytes or more, or without room for 82. -/
theorem deserialize_spec {h : Heap} {s : Sl} {b : Bytes} (hs : Holds h s b) (hc : 82 ≤ s.len ∨ s.cap < 82) :
    ∃ L, Mem.deserialize H g s h = (deserializeValue H b, h ++ L) := by
  have hl := hs.2.1
  rw [Mem.deserialize, deserializeValue, deserialize]
  by_cases h82 : s.len ≠ 82
  · rw [if_pos h82, dif_pos (by omega)]
    by_cases hlt : s.len < 82
    · rw [if_pos hlt, dif_pos (by omega)]
      obtain ⟨L, z, hz, hhz, -, -⟩ := makeBytes_spec (82 - s.len) h
      obtain ⟨L', d, hd, hhd, -⟩ := append_spec g (hs.append L) (src := List.replicate (82 - s.len) 0) (by simp; omega)
      refine ⟨L ++ L', ?_⟩
      have hsub := hhd.sub (i := 0) (j := 78) (by omega) (by simp; omega)
      rw [bind_run hz, bind_run hhz.read, bind_run hd, bind_run hsub.read, slice_zero, hl, List.append_assoc]
      rfl
    · rw [if_neg hlt, dif_neg (by omega)]
      have hsub := hs.sub (i := 0) (j := 78) (by omega) (by omega)
      refine ⟨[], ?_⟩
      rw [bind_run hsub.read, slice_zero, List.append_nil]
      rfl
  · rw [if_neg h82, dif_neg (by omega)]
    have h1 := hs.sub (i := 0) (j := s.len - 4) (by omega) (by omega)
    obtain ⟨L, c, hc', hhc, -⟩ := checksum_spec H g h1
    have h2 := (hs.sub (i := s.len - 4) (j := s.len) (by omega) (by omega)).append L
    have h3 := (hs.sub (i := 0) (j := 78) (by omega) (by omega)).append L
    refine ⟨L, ?_⟩
    rw [bind_run hc', bind_run hhc.read, bind_run h2.read, bind_run h3.read, slice_zero b 78, hl]
    dsimp only
    split <;> rfl

theorem serialize_length {k : Key} {b : Bytes} (hk : k.serialize H = (b, none)) : b.length = 82 := by
  rw [Key.serialize] at hk
  split at hk
  · simp at hk
  · obtain ⟨rfl, -⟩ := Prod.mk.inj hk
    simp [addChecksumDblSha256ToBytes, checksumDblSha256, k.len, H.sha256_length]

theorem isValid_spec {h : Heap} {p : Nat} {k : Key} (hp : KeyAt h p k) :
    ∃ L, Mem.isValid H g p h = (k.isValid H, h ++ L) := by
  rw [Key.isValid]
  obtain ⟨L, ⟨t, ht, he, hh, -⟩ | ⟨ht, he⟩⟩ := serialize_spec H g hp
  · have hl := serialize_length H he
    obtain ⟨L', hd⟩ := deserialize_spec H g hh (.inl (by rw [hh.2.1, hl]))
    refine ⟨L ++ L', ?_⟩
    rw [Mem.isValid, bind_run ht]
    dsimp only
    rw [bind_run hd, he, ← List.append_assoc, deserializeValue]
    dsimp only
    rcases hx : deserialize H (k.serialize H).1 with ⟨a, _ | b⟩ <;> rfl
  · refine ⟨L, ?_⟩
    rw [Mem.isValid, bind_run ht, he]; rfl

theorem isPrivate_spec {h : Heap} {p : Nat} {k : Key} (hp : KeyAt h p k) :
    Mem.isPrivate p h = (k.isPrivate, h) := by
  have h1 := hp.holds (i := pubKeyStart) (j := pubKeyStart + 1) (by omega) (by decide)
  rw [Mem.isPrivate, bind_run h1.read]
  have : slice k.bytes pubKeyStart (pubKeyStart + 1) = [k.byteAt pubKeyStart] := by
    have hlen := k.len
    apply List.ext_getElem?
    intro n
    rw [slice_getElem?]
    rcases n with _ | n
    · rw [if_pos (by omega), Key.byteAt]
      simp
    · rw [if_neg (by omega)]; simp
  rw [this, Key.isPrivate]
  show ((([k.byteAt pubKeyStart] : Bytes) == [0]), h) = _
  congr 1
  simp

/-! ### Local arrays -/

theorem Holds.swap {h L : Heap} {a a' : Bytes} {s : Sl} {b : Bytes} (hs : Holds (h ++ [a] ++ L) s b)
    (hne : s.addr ≠ h.length) : Holds (h ++ [a'] ++ L) s b := by
  obtain ⟨h1, h2, h3⟩ := hs
  refine ⟨by simpa using h1, h2, ?_⟩
  rw [← h3]
  congr 1
  rw [List.getD_eq_getElem?_getD, List.getD_eq_getElem?_getD]
  congr 1
  rcases Nat.lt_or_ge s.addr h.length with hlt | hge
  · rw [List.append_assoc, List.append_assoc, List.getElem?_append_left hlt, List.getElem?_append_left hlt]
  · rw [List.getElem?_append_right (by simp; omega), List.getElem?_append_right (by simp; omega)]
    simp

theorem copyTo_local (h : Heap) (a : Bytes) (L : Heap) (i n c : Nat) (src : Bytes) :
    copyTo ⟨h.length, i, n, c⟩ src (h ++ [a] ++ L) = ((), h ++ [copyAt a i (i + n) src] ++ L) := by
  rw [copyTo, modify_last]

theorem holds_local (h : Heap) (a : Bytes) (L : Heap) {i n c : Nat} (hn : i + n ≤ a.length) :
    Holds (h ++ [a] ++ L) ⟨h.length, i, n, c⟩ (slice a i (i + n)) := by
  refine ⟨by simp, by rw [slice_length _ _ _ hn]; simp, ?_⟩
  show slice ((h ++ [a] ++ L).getD h.length []) i (i + n) = _
  rw [List.getD_eq_getElem?_getD, List.append_assoc, List.getElem?_append_right le_rfl]
  simp

/-- The data hashed by `getIntermediary`. -/
theorem intermediary_spec {h : Heap} {p : Nat} {k : Key} (hp : KeyAt h p k) (i : UInt32) :
    ∃ L t, Mem.getIntermediary H g p i h = (t, h ++ L) ∧ Holds (h ++ L) t (k.getIntermediary H i) ∧ h.length ≤ t.addr := by
  obtain ⟨L1, ci, hci, hhci, haci⟩ := uint32_spec i h
  have hnew : newArray (List.replicate 33 0) (h ++ L1) = ((h ++ L1).length, h ++ L1 ++ [List.replicate 33 0] ++ []) := by
    rw [List.append_nil]; rfl
  -- what follows once `data` is filled
  have rest : ∀ (d : Bytes) (M : Heap), d.length = 33 →
      ∃ L t, ((do
        let c ← Mem.read ci
        let dataN ← Mem.append g (arraySl (h ++ L1).length 33 0 33) c
        let cc ← Mem.read (keySl p chainCodeStart chainCodeEnd)
        let d ← Mem.read dataN
        fresh g (H.hmacSha512 cc d) : Mem Sl) (h ++ L1 ++ [d] ++ M)) = (t, h ++ L) ∧
      Holds (h ++ L) t (H.hmacSha512 (slice k.bytes chainCodeStart chainCodeEnd) (d ++ putUint32 i)) ∧ h.length ≤ t.addr := by
    intro d M hd
    have e1 := (hhci.append [d]).append M
    have e2 : Holds (h ++ L1 ++ [d] ++ M) (arraySl (h ++ L1).length 33 0 33) d := by
      have := holds_local (h ++ L1) d M (i := 0) (n := 33) (c := 33) (by omega)
      rwa [slice_zero, List.take_of_length_le (by omega)] at this
    obtain ⟨L2, t, ht, hht, hat⟩ := append_spec g e2 (src := putUint32 i)
      (by show 33 - 0 < 33 - 0 + _; rw [putUint32_length]; omega)
    have e3 := ((((hp.append L1).append [d]).append M).append L2).holds (i := chainCodeStart) (j := chainCodeEnd)
      (by decide) (by decide)
    obtain ⟨L3, r, hr, hhr, har⟩ := fresh_spec g
      (H.hmacSha512 (slice k.bytes chainCodeStart chainCodeEnd) (d ++ putUint32 i)) (h ++ L1 ++ [d] ++ M ++ L2)
    refine ⟨L1 ++ [d] ++ M ++ L2 ++ L3, r, ?_, ?_, ?_⟩
    · rw [bind_run e1.read, bind_run ht, bind_run e3.read, bind_run hht.read, hr]
      simp only [List.append_assoc]
    · simpa only [List.append_assoc] using hhr
    · simp at har; omega
  rw [Mem.getIntermediary, bind_run hci, bind_run hnew, Key.getIntermediary]
  have hp1 : KeyAt (h ++ L1 ++ [List.replicate 33 0] ++ []) p k := ((hp.append L1).append _).append []
  dsimp only
  by_cases hh : i ≥ firstHardenedChild
  · rw [if_pos hh, if_pos hh]
    have e1 := hp1.holds (i := pvtKeyStart) (j := pvtKeyEnd) (by decide) (by decide)
    have e2 := copyTo_local (h ++ L1) (List.replicate 33 0) [] 1 32 32 (slice k.bytes pvtKeyStart pvtKeyEnd)
    rw [bind_run e1.read]
    exact (bind_run e2 _) ▸ rest _ [] (by simp)
  · rw [if_neg hh, if_neg hh]
    rw [bind_run (isPrivate_spec hp1)]
    by_cases hpr : k.isPrivate = true
    · rw [if_pos hpr, if_pos hpr]
      obtain ⟨L2, q, hq, hhq, -⟩ := pubKey_spec g (hp1.holds (i := pvtKeyStart) (j := pvtKeyEnd) (by decide) (by decide))
      have e2 := copyTo_local (h ++ L1) (List.replicate 33 0) ([] ++ L2) 0 33 33
        (publicKeyForPrivateKey (slice k.bytes pvtKeyStart pvtKeyEnd))
      rw [← List.append_assoc] at e2
      rw [bind_run hq, bind_run hhq.read]
      exact (bind_run e2 _) ▸ rest _ ([] ++ L2) (by simp)
    · rw [if_neg hpr, if_neg hpr]
      have e1 := hp1.holds (i := pubKeyStart) (j := 78) (by decide) (by decide)
      have e2 := copyTo_local (h ++ L1) (List.replicate 33 0) [] 0 33 33 (slice k.bytes pubKeyStart 78)
      rw [bind_run e1.read]
      exact (bind_run e2 _) ▸ rest _ [] (by simp)

theorem setField_local (h : Heap) (a : Bytes) (L : Heap) {i j : Nat} (hij : i ≤ j) (src : Bytes) :
    setField h.length i j src (h ++ [a] ++ L) = ((), h ++ [copyAt a i j src] ++ L) := by
  rw [setField, keySl, copyTo_local, Nat.add_sub_cancel' hij]

theorem read_local (h : Heap) (k : Key) (L : Heap) {i j : Nat} (hij : i ≤ j) (hj : j ≤ 78) :
    Mem.read (keySl h.length i j) (h ++ [k.bytes] ++ L) = (slice k.bytes i j, h ++ [k.bytes] ++ L) := by
  have : KeyAt (h ++ [k.bytes] ++ L) h.length k := by
    rw [KeyAt, List.append_assoc, List.getElem?_append_right le_rfl]; simp
  exact (this.holds hij hj).read

theorem put_bytes (k : Key) (i j : Nat) (v : Bytes) (hij : i ≤ j) (hj : j ≤ 78) : (k.put i j v hij hj).bytes = copyAt k.bytes i j v :=
  rfl

theorem setField_key (h : Heap) (k : Key) (L : Heap) (i j : Nat) (hij : i ≤ j) (hj : j ≤ 78) (src : Bytes) :
    setField h.length i j src (h ++ [k.bytes] ++ L) = ((), h ++ [(k.put i j src hij hj).bytes] ++ L) :=
  setField_local h k.bytes L hij src

theorem slice_one (k : Key) {i : Nat} (hi : i < 78) : slice k.bytes i (i + 1) = [k.byteAt i hi] := by
  have hlen := k.len
  apply List.ext_getElem?
  intro n
  rw [slice_getElem?]
  rcases n with _ | n
  · rw [if_pos (by omega), Key.byteAt, Nat.add_zero]
    simp [hlen, hi]
  · rw [if_neg (by omega)]; simp

theorem copyAt_take (b : Bytes) (i j : Nat) (src : Bytes) : copyAt b i j (src.take (j - i)) = copyAt b i j src := by
  simp [copyAt, List.take_take]

theorem done {α : Type} (h : Heap) (a : Bytes) (M : Heap) (v : α) : ∃ L, (v, h ++ [a] ++ M) = (v, h ++ L) :=
  ⟨[a] ++ M, by rw [List.append_assoc]⟩

theorem reassoc (h : Heap) (a : Bytes) (M L : Heap) : h ++ [a] ++ M ++ L = h ++ [a] ++ (M ++ L) := by
  rw [List.append_assoc (h ++ [a])]

/-- The four fields `NewChildKey` fills first. -/
theorem header_spec {h : Heap} {p : Nat} {k : Key} (hp : KeyAt h p k) (i : UInt32) {M : Heap} {im : Sl} {ims : Bytes}
    (hl : ims.length = 64) (him : Holds (h ++ [Key.zero.bytes] ++ M) im ims) (hne : im.addr ≠ h.length) (vs : Bytes)
    {α : Type} (f : Mem α) :
    ∃ M' : Heap, ∀ ck : Key, ck = (((Key.zero.setChildNumber (uint32Bytes i)).setChainCode (slice ims 32 64)).setDepth
        (k.byteAt depthStart + 1)).setVersion vs →
      ((do
        let ib ← Mem.uint32Bytes i
        let ibs ← Mem.read ib
        setField h.length childNumberStart childNumberEnd ibs
        let il ← Mem.read (im.sub 32 64)
        setField h.length chainCodeStart chainCodeEnd il
        let d ← Mem.read (keySl p depthStart depthEnd)
        setField h.length depthStart depthEnd (d.map (· + 1))
        setField h.length versionStart versionEnd vs
        f : Mem α) (h ++ [Key.zero.bytes] ++ M)) = f (h ++ [ck.bytes] ++ M') ∧
      Holds (h ++ [ck.bytes] ++ M') im ims := by
  obtain ⟨L, ib, hib, hhib, haib⟩ := uint32_spec i (h ++ [Key.zero.bytes] ++ M)
  refine ⟨M ++ L, ?_⟩
  rintro ck rfl
  have e0 : h ++ [Key.zero.bytes] ++ M ++ L = h ++ [Key.zero.bytes] ++ (M ++ L) := by rw [List.append_assoc (h ++ _)]
  have him' := him.append L
  rw [e0] at hib hhib him'
  have e1 := (him'.swap hne (a' := (Key.zero.put childNumberStart childNumberEnd (putUint32 i)).bytes)).sub (i := 32) (j := 64) (by omega) (by omega)
  have e2 := ((hp.append [((Key.zero.put childNumberStart childNumberEnd (putUint32 i)).put chainCodeStart chainCodeEnd
    (slice ims 32 64)).bytes]).append (M ++ L)).holds (i := depthStart) (j := depthEnd) (by decide) (by decide)
  refine ⟨?_, him'.swap hne⟩
  rw [bind_run hib, bind_run hhib.read]
  rw [bind_run (setField_key h Key.zero (M ++ L) _ _ (by decide) (by decide) _)]
  rw [bind_run e1.read, bind_run (setField_key h _ (M ++ L) _ _ (by decide) (by decide) _)]
  rw [bind_run e2.read, bind_run (setField_key h _ (M ++ L) _ _ (by decide) (by decide) _)]
  rw [bind_run (setField_key h _ (M ++ L) _ _ (by decide) (by decide) _)]
  rw [slice_one k (i := depthStart) (by decide)]
  rfl

theorem child_spec {h : Heap} {p : Nat} {k : Key} (hp : KeyAt h p k) (i : UInt32) :
    ∃ L, Mem.newChildKey H R g p i h = (((k.newChildKey H R i).1.bytes, (k.newChildKey H R i).2), h ++ L) := by
  have hnew : newArray (List.replicate 78 0) h = (h.length, h ++ [Key.zero.bytes] ++ []) := by
    rw [List.append_nil]; rfl
  have hp1 : KeyAt (h ++ [Key.zero.bytes] ++ []) p k := (hp.append _).append []
  rw [Mem.newChildKey, bind_run hnew, bind_run (isPrivate_spec hp1), Key.newChildKey]
  by_cases hhard : (!k.isPrivate && decide (i ≥ firstHardenedChild)) = true
  · rw [if_pos hhard, if_pos hhard]
    rw [bind_run (read_local h Key.zero [] (by omega) le_rfl), slice_full]
    exact ⟨[Key.zero.bytes] ++ [], by rw [pure_run, ← List.append_assoc]⟩
  · rw [if_neg hhard, if_neg hhard]
    obtain ⟨M, im, hrun, him, haim⟩ := intermediary_spec H g hp1 i
    have e0 : h ++ [Key.zero.bytes] ++ [] ++ M = h ++ [Key.zero.bytes] ++ M := by simp
    rw [e0] at hrun him
    have hne : im.addr ≠ h.length := by simp at haim; omega
    have hl : (k.getIntermediary H i).length = 64 := H.hmacSha512_length _ _
    have hvs := ((hp.append [Key.zero.bytes]).append M).holds (i := versionStart) (j := versionEnd) (by decide) (by decide)
    rw [bind_run hrun, bind_run hvs.read]
    by_cases hpr : k.isPrivate = true
    · rw [if_pos hpr, if_pos hpr]
      by_cases hv : (R.pvtFlag (getUint32 (slice k.bytes versionStart versionEnd))).length = 0
      · rw [if_pos hv, if_pos hv]
        rw [bind_run (read_local h Key.zero M (by omega) le_rfl), slice_full]
        exact ⟨[Key.zero.bytes] ++ M, by rw [pure_run, ← List.append_assoc]⟩
      · rw [if_neg hv, if_neg hv]
        obtain ⟨M1, hM1⟩ := header_spec hp i hl him hne (slice k.bytes versionStart versionEnd)
          (do
            let q ← Mem.publicKeyForPrivateKey g (keySl p pvtKeyStart pubKeyEnd)
            let fingerprint ← Mem.hashRipeMD160onSha256 H g q
            let f ← Mem.read (fingerprint.sub 0 4)
            setField h.length fingerPrintStart fingerPrintEnd f
            let kbs ← Mem.addPrivateKeys g (im.sub 0 32) (keySl p pvtKeyStart 78)
            let k ← Mem.read (kbs.sub 0 32)
            setField h.length pvtKeyStart pubKeyEnd k
            let pk ← Mem.read (keySl h.length pvtKeyStart pubKeyEnd)
            let r ← Mem.read (keySl h.length 0 78)
            pure (r, validatePrivateKey pk))
        obtain ⟨hrun1, him1⟩ := hM1 _ rfl
        refine Exists.imp (fun _ => Eq.trans hrun1) ?_
        generalize hck : (((Key.zero.setChildNumber (uint32Bytes i)).setChainCode (slice (k.getIntermediary H i) 32 64)).setDepth
          (k.byteAt depthStart + 1)).setVersion (slice k.bytes versionStart versionEnd) = ck at *
        obtain ⟨L1, q, hq, hhq, -⟩ := pubKey_spec g (((hp.append [ck.bytes]).append M1).holds (i := pvtKeyStart) (j := pubKeyEnd)
          (by decide) (by decide))
        rw [bind_run hq]
        rw [reassoc] at hhq ⊢
        obtain ⟨L2, f, hf, hhf, -⟩ := hash160_spec H g hhq
        rw [bind_run hf]
        rw [reassoc] at hhf ⊢
        have hfl : (hashRipeMD160onSha256 H (publicKeyForPrivateKey (slice k.bytes pvtKeyStart pubKeyEnd))).length = 20 :=
          H.ripemd160_length _
        rw [bind_run (hhf.sub (i := 0) (j := 4) (by omega) (by omega)).read]
        rw [bind_run (setField_key h ck _ _ _ (by decide) (by decide) _)]
        have him2 := ((him1.append L1).append L2).sub (i := 0) (j := 32) (by omega) (by omega)
        rw [reassoc, reassoc] at him2
        obtain ⟨L3, kb, hkb, hhkb, -⟩ := addPriv_spec g (him2.swap hne (a' := (ck.put fingerPrintStart fingerPrintEnd
            (slice (hashRipeMD160onSha256 H (publicKeyForPrivateKey (slice k.bytes pvtKeyStart pubKeyEnd))) 0 4)).bytes))
          (((hp.append _).append _).holds (i := pvtKeyStart) (j := 78) (by decide) (by decide))
        rw [bind_run hkb]
        rw [reassoc] at hhkb ⊢
        rw [bind_run (hhkb.sub (i := 0) (j := 32) (by omega) (by rw [addPrivateKeys_length])).read]
        rw [bind_run (setField_key h _ _ _ _ (by decide) (by decide) _)]
        rw [bind_run (read_local h _ _ (by decide) (by decide)), bind_run (read_local h _ _ (by omega) le_rfl), slice_full]
        exact done _ _ _ _
    · rw [if_neg hpr, if_neg hpr]
      rcases hv : R.pubFlag (getUint32 (slice k.bytes versionStart versionEnd)) with _ | ⟨hd, tl⟩
      · dsimp only
        rw [bind_run (read_local h Key.zero M (by omega) le_rfl), slice_full]
        exact ⟨[Key.zero.bytes] ++ M, by rw [pure_run, ← List.append_assoc]⟩
      · dsimp only
        obtain ⟨M1, hM1⟩ := header_spec hp i hl him hne hd.pubKeyFlagBytes
          (do
            let keyBytes ← Mem.publicKeyForPrivateKey g (im.sub 0 32)
            let kb ← Mem.read keyBytes
            match validateChildPublicKey kb with
            | some err => do
              let r ← Mem.read (keySl h.length 0 78)
              pure (r, some err)
            | none => do
              let fingerprint ← Mem.hashRipeMD160onSha256 H g (keySl p pubKeyStart 78)
              let f ← Mem.read fingerprint
              copyTo (keySl h.length fingerPrintStart fingerPrintEnd) f
              let kbs ← Mem.addPublicKeys g keyBytes (keySl p pubKeyStart 78)
              let k ← Mem.read (kbs.sub 0 33)
              setField h.length pubKeyStart pubKeyEnd k
              let r ← Mem.read (keySl h.length 0 78)
              pure (r, none))
        obtain ⟨hrun1, him1⟩ := hM1 _ rfl
        refine Exists.imp (fun _ => Eq.trans hrun1) ?_
        generalize hck : (((Key.zero.setChildNumber (uint32Bytes i)).setChainCode (slice (k.getIntermediary H i) 32 64)).setDepth
          (k.byteAt depthStart + 1)).setVersion hd.pubKeyFlagBytes = ck at *
        obtain ⟨L1, q, hq, hhq, haq⟩ := pubKey_spec g (him1.sub (i := 0) (j := 32) (by omega) (by omega))
        rw [bind_run hq, bind_run hhq.read]
        rw [reassoc] at hhq ⊢
        have hneq : q.addr ≠ h.length := by simp at haq; omega
        rcases hval : validateChildPublicKey (publicKeyForPrivateKey (slice (k.getIntermediary H i) 0 32)) with _ | err
        · dsimp only
          obtain ⟨L2, f, hf, hhf, -⟩ := hash160_spec H g (((hp.append [ck.bytes]).append (M1 ++ L1)).holds (i := pubKeyStart)
            (j := 78) (by decide) (by decide))
          rw [bind_run hf, bind_run hhf.read]
          rw [reassoc] at hhf ⊢
          have hcp := setField_key h ck (M1 ++ L1 ++ L2) fingerPrintStart fingerPrintEnd (by decide) (by decide)
            (hashRipeMD160onSha256 H (slice k.bytes pubKeyStart 78))
          rw [setField] at hcp
          rw [bind_run hcp]
          have hhq2 := hhq.append L2
          rw [reassoc] at hhq2
          obtain ⟨L3, kb, hkb, hhkb, -⟩ := addPub_spec g (hhq2.swap hneq (a' := (ck.put fingerPrintStart fingerPrintEnd
              (hashRipeMD160onSha256 H (slice k.bytes pubKeyStart 78))).bytes))
            (((hp.append _).append _).holds (i := pubKeyStart) (j := 78) (by decide) (by decide))
          rw [bind_run hkb]
          rw [reassoc] at hhkb ⊢
          rw [bind_run (hhkb.sub (i := 0) (j := 33) (by omega) (by
            rw [addPublicKeys_length _ _ (publicKeyForPrivateKey_length _)
              (by rw [slice_length _ _ _ (by rw [k.len])]; rfl)])).read]
          rw [bind_run (setField_key h _ _ _ _ (by decide) (by decide) _)]
          rw [bind_run (read_local h _ _ (by omega) le_rfl), slice_full]
          have : ck.put fingerPrintStart fingerPrintEnd ((hashRipeMD160onSha256 H (slice k.bytes pubKeyStart 78)).take 4) =
              ck.put fingerPrintStart fingerPrintEnd (hashRipeMD160onSha256 H (slice k.bytes pubKeyStart 78)) :=
            Key.ext' (copyAt_take _ _ _ _)
          rw [this]
          exact done _ _ _ _
        · dsimp only
          rw [bind_run (read_local h _ _ (by omega) le_rfl), slice_full]
          exact done _ _ _ _

theorem neuter_spec {h : Heap} {p : Nat} {k : Key} (hp : KeyAt h p k) :
    ∃ L, Mem.publicKeyExtended R g p h = ((k.publicKeyExtended R).bytes, h ++ L) := by
  have hnew : newArray (List.replicate 78 0) h = (h.length, h ++ [Key.zero.bytes] ++ []) := by
    rw [List.append_nil]; rfl
  have e1 : KeyAt (h ++ [Key.zero.bytes] ++ []) p k := (hp.append _).append []
  have e2 : copyTo (keySl h.length 0 78) k.bytes (h ++ [Key.zero.bytes] ++ []) = ((), h ++ [k.bytes] ++ []) := by
    have := copyTo_local h Key.zero.bytes [] 0 78 78 k.bytes
    have hc : copyAt Key.zero.bytes 0 (0 + 78) k.bytes = k.bytes := by
      simp [copyAt, k.len, Key.zero.len, List.take_of_length_le]
    rwa [hc] at this
  rw [Mem.publicKeyExtended, bind_run (hp.holds (i := versionStart) (j := versionEnd) (by decide) (by decide)).read,
    bind_run hnew, bind_run e1.all.read, bind_run e2, bind_run (isPrivate_spec ((hp.append [k.bytes]).append [])),
    Key.publicKeyExtended]
  by_cases hpr : k.isPrivate = true
  · rw [if_pos hpr, if_pos hpr]
    obtain ⟨L1, q, hq, hhq, -⟩ := pubKey_spec g (((hp.append [k.bytes]).append []).holds (i := pvtKeyStart) (j := 78)
      (by decide) (by decide))
    rw [bind_run hq, bind_run hhq.read, reassoc]
    have hcp := setField_key h k ([] ++ L1) pubKeyStart pubKeyEnd (by decide) (by decide)
      (publicKeyForPrivateKey (slice k.bytes pvtKeyStart 78))
    rw [setField] at hcp
    rw [bind_run hcp, bind_run (setField_key h _ _ _ _ (by decide) (by decide) _), read_local h _ _ (by omega) le_rfl, slice_full]
    exact done _ _ _ _
  · rw [if_neg hpr, if_neg hpr]
    rw [bind_run (setField_key h _ _ _ _ (by decide) (by decide) _), read_local h _ _ (by omega) le_rfl, slice_full]
    exact done _ _ _ _

theorem privateKeyHex_spec {h : Heap} {p : Nat} {k : Key} (hp : KeyAt h p k) :
    Mem.privateKeyHex p h = (k.privateKeyHex, h) := by
  rw [Mem.privateKeyHex, bind_run (isPrivate_spec hp), Key.privateKeyHex]
  by_cases hpr : k.isPrivate = true
  · rw [if_pos hpr, if_pos hpr, bind_run (hp.holds (i := pvtKeyStart) (j := pvtKeyEnd) (by decide) (by decide)).read]; rfl
  · rw [if_neg hpr, if_neg hpr]; rfl

theorem publicKeyHex_spec {h : Heap} {p : Nat} {k : Key} (hp : KeyAt h p k) :
    ∃ L, Mem.publicKeyHex R g p h = (k.publicKeyHex R, h ++ L) := by
  rw [Mem.publicKeyHex, bind_run (isPrivate_spec hp), Key.publicKeyHex]
  by_cases hpr : k.isPrivate = true
  · obtain ⟨L, hL⟩ := neuter_spec R g hp
    rw [if_pos hpr, if_pos hpr, bind_run hL]
    exact ⟨L, rfl⟩
  · rw [if_neg hpr, if_neg hpr, bind_run (hp.holds (i := pubKeyStart) (j := pubKeyEnd) (by decide) (by decide)).read]
    exact ⟨[], by rw [List.append_nil]; rfl⟩

theorem master_spec {h : Heap} {s : Sl} {b : Bytes} (hs : Holds h s b) :
    ∃ L, (∃ p k, Mem.newMasterKey H g s h = ((some p, none), h ++ L) ∧ newMasterKey H b = (some k, none) ∧
        KeyAt (h ++ L) p k ∧ h.length ≤ p) ∨
      (∃ e, Mem.newMasterKey H g s h = ((none, some e), h ++ L) ∧ newMasterKey H b = (none, some e)) := by
  obtain ⟨L, im, him, hhim, haim⟩ := fresh_spec g (H.hmacSha512 (str "Bitcoin seed") b) h
  have hl : (H.hmacSha512 (str "Bitcoin seed") b).length = 64 := H.hmacSha512_length _ _
  rw [Mem.newMasterKey, bind_run hs.read, bind_run him, bind_run (hhim.sub (i := 0) (j := 32) (by omega) (by omega)).read,
    bind_run (hhim.sub (i := 32) (j := 64) (by omega) (by omega)).read, newMasterKey, hl]
  rcases hval : validatePrivateKey (slice (H.hmacSha512 (str "Bitcoin seed") b) 0 32) with _ | e
  · dsimp only
    have hnew : newArray (List.replicate 78 0) (h ++ L) = ((h ++ L).length, h ++ L ++ [Key.zero.bytes] ++ []) := by
      rw [List.append_nil]; rfl
    rw [bind_run hnew, bind_run (setField_key (h ++ L) _ _ _ _ (by decide) (by decide) _),
      bind_run (setField_key (h ++ L) _ _ _ _ (by decide) (by decide) _),
      bind_run (setField_key (h ++ L) _ _ _ _ (by decide) (by decide) _), pure_run]
    let K := ((Key.zero.setVersion defaultMainnetVersion.pvtKeyFlagBytes).setChainCode
      (slice (H.hmacSha512 (str "Bitcoin seed") b) 32 64)).setPvtKeyBytes (slice (H.hmacSha512 (str "Bitcoin seed") b) 0 32)
    refine ⟨L ++ [K.bytes], .inl ⟨(h ++ L).length, K, ?_, rfl, ?_, by simp⟩⟩
    · rw [← List.append_assoc, List.append_nil]; rfl
    · rw [KeyAt, ← List.append_assoc, List.getElem?_append_right le_rfl]; simp
  · exact ⟨L, .inr ⟨e, rfl, rfl⟩⟩

/-! ### C72: looking at a key writes nothing the caller can see -/

/-- Every array that was there is there unchanged. -/
def Unchanged (h h' : Heap) : Prop := ∀ (a : Nat) (x : Bytes), h[a]? = some x → h'[a]? = some x

omit H R g in
theorem Unchanged.append (h L : Heap) : Unchanged h (h ++ L) := by
  intro a x hx
  have : a < h.length := by
    by_contra hc
    rw [List.getElem?_eq_none (by omega)] at hx
    exact absurd hx (by simp)
  rw [List.getElem?_append_left this]; exact hx

/-- In every memory, every method that reads a key leaves all existing memory as it was — the key, its neighbours, and
whatever slices of it the caller kept — and gives the value of the value-level model. -/
theorem C72_readers {h : Heap} {p : Nat} {k : Key} (hp : KeyAt h p k) :
    ((Mem.isPrivate p h).1 = k.isPrivate ∧ Unchanged h (Mem.isPrivate p h).2) ∧
    ((Mem.string H g p h).1 = k.string H ∧ Unchanged h (Mem.string H g p h).2) ∧
    ((Mem.isValid H g p h).1 = k.isValid H ∧ Unchanged h (Mem.isValid H g p h).2) ∧
    ((Mem.privateKeyHex p h).1 = k.privateKeyHex ∧ Unchanged h (Mem.privateKeyHex p h).2) ∧
    ((Mem.publicKeyHex R g p h).1 = k.publicKeyHex R ∧ Unchanged h (Mem.publicKeyHex R g p h).2) ∧
    ((Mem.publicKeyExtended R g p h).1 = (k.publicKeyExtended R).bytes ∧ Unchanged h (Mem.publicKeyExtended R g p h).2) ∧
    (∀ i, (Mem.newChildKey H R g p i h).1 = ((k.newChildKey H R i).1.bytes, (k.newChildKey H R i).2) ∧
      Unchanged h (Mem.newChildKey H R g p i h).2) := by
  have key : ∀ {α : Type} {f : Mem α} {v : α}, (∃ L, f h = (v, h ++ L)) → (f h).1 = v ∧ Unchanged h (f h).2 := by
    rintro α f v ⟨L, hL⟩
    rw [hL]
    exact ⟨rfl, Unchanged.append h L⟩
  refine ⟨key ⟨[], ?_⟩, key (string_spec H g hp), key (isValid_spec H g hp), key ⟨[], ?_⟩, key (publicKeyHex_spec R g hp),
    key (neuter_spec R g hp), fun i => key (child_spec H R g hp i)⟩
  · rw [isPrivate_spec hp, List.append_nil]
  · rw [privateKeyHex_spec hp, List.append_nil]

/-- `Serialize` returns the serialization in memory of its own: writing to it later does not change the key or anything else. -/
theorem C72_serialize {h : Heap} {p : Nat} {k : Key} (hp : KeyAt h p k) (hk : k.bytes ≠ List.replicate 78 0) :
    ∃ t, (Mem.serialize H g p h).1 = (some t, none) ∧ Holds (Mem.serialize H g p h).2 t (k.serialize H).1 ∧
      Unchanged h (Mem.serialize H g p h).2 ∧
      ∀ src, Unchanged h (copyTo t src (Mem.serialize H g p h).2).2 := by
  obtain ⟨L, ⟨t, ht, -, hh, ha⟩ | ⟨-, he⟩⟩ := serialize_spec H g hp
  · rw [ht]
    refine ⟨t, rfl, hh, Unchanged.append h L, fun src a x hx => ?_⟩
    have h1 := Unchanged.append h L a x hx
    have hlt : a < h.length := by
      by_contra hc
      rw [List.getElem?_eq_none (by omega)] at hx
      exact absurd hx (by simp)
    show ((h ++ L).modify t.addr _)[a]? = _
    rw [List.getElem?_modify, h1]
    simp [show t.addr ≠ a by omega]
  · exfalso
    rw [Key.serialize] at he
    split at he
    · rename_i hz
      apply hk
      rw [← k.len]
      apply List.eq_replicate_of_mem
      intro b hb
      simpa using List.all_eq_true.1 hz b hb
    · simp at he

/-- `NewMasterKey` reads the seed only, and the key it returns is new memory. -/
theorem C72_master {h : Heap} {s : Sl} {b : Bytes} (hs : Holds h s b) :
    Unchanged h (Mem.newMasterKey H g s h).2 ∧
      (Mem.newMasterKey H g s h).1.2 = (newMasterKey H b).2 ∧
      match (newMasterKey H b).1 with
      | none => (Mem.newMasterKey H g s h).1.1 = none
      | some k => ∃ p, (Mem.newMasterKey H g s h).1.1 = some p ∧ h.length ≤ p ∧ KeyAt (Mem.newMasterKey H g s h).2 p k := by
  obtain ⟨L, ⟨p, k, h1, h2, h3, h4⟩ | ⟨e, h1, h2⟩⟩ := master_spec H g hs
  · rw [h1, h2]
    exact ⟨Unchanged.append h L, rfl, p, rfl, h4, h3⟩
  · rw [h1, h2]
    exact ⟨Unchanged.append h L, rfl, rfl⟩

omit H R g in
/-- A setter writes its field of its key, and nothing else. -/
theorem C72_setters {h : Heap} {p : Nat} {k : Key} (hp : KeyAt h p k) {i j : Nat} (hij : i ≤ j) (hj : j ≤ 78) (v : Bytes) :
    KeyAt (setField p i j v h).2 p (k.put i j v hij hj) ∧
      ∀ a, a ≠ p → (setField p i j v h).2[a]? = h[a]? := by
  constructor
  · show (h.modify p _)[p]? = _
    rw [List.getElem?_modify, hp]
    simp [keySl, put_bytes, Nat.add_sub_cancel' hij]
  · intro a ha
    show (h.modify p _)[a]? = _
    rw [List.getElem?_modify]
    simp [Ne.symm ha]

/-- The hypotheses are met: two keys side by side in memory. -/
example : KeyAt [Key.zero.bytes, List.replicate 78 7] 1 ⟨List.replicate 78 7, by simp⟩ := rfl

/-! ### C73: what `Deserialize` and `AddChecksumDblSha256ToBytes` do to the memory behind their argument -/

omit H R g in
/-- The bytes after the slice that `append` may use. -/
theorem Sl.InHeap.holds {h : Heap} {s : Sl} (hs : s.InHeap h) : Holds h s (Mem.read s h).1 := by
  refine ⟨hs.1, ?_, rfl⟩
  show _ = (slice _ _ _).length
  rw [slice_length _ _ _ (by have := hs.2.1; have := hs.2.2; omega)]
  omega

omit H R in
/-- `append` within the capacity. -/
theorem append_inplace {h : Heap} {s : Sl} (hs : s.InHeap h) {src : Bytes} (hc : s.len + src.length ≤ s.cap) :
    let h' := h.modify s.addr fun a => copyAt a (s.off + s.len) (s.off + s.len + src.length) src
    Mem.append g s src h = (⟨s.addr, s.off, s.len + src.length, s.cap⟩, h') ∧
      Holds h' ⟨s.addr, s.off, s.len + src.length, s.cap⟩ ((Mem.read s h).1 ++ src) := by
  intro h'
  obtain ⟨h1, h2, h3⟩ := hs
  refine ⟨by rw [Mem.append, if_pos hc], by simpa [h'] using h1, ?_, ?_⟩
  · have := (Sl.InHeap.holds ⟨h1, h2, h3⟩).2.1
    rw [List.length_append, ← this]
  · show slice (h'.getD s.addr []) s.off (s.off + (s.len + src.length)) = slice (h.getD s.addr []) s.off (s.off + s.len) ++ src
    have hg : h'.getD s.addr [] = copyAt (h.getD s.addr []) (s.off + s.len) (s.off + s.len + src.length) src := by
      rw [List.getD_eq_getElem?_getD, List.getElem?_modify]
      simp [List.getD_eq_getElem?_getD, List.getElem?_eq_getElem h1]
    rw [hg, ← Nat.add_assoc]
    have hcl := copyAt_length (h.getD s.addr []) (s.off + s.len) (s.off + s.len + src.length) src (by omega) (by omega)
    rw [← slice_append_slice _ s.off (s.off + s.len) _ (by omega) (by omega) (by rw [hcl]; omega),
      slice_copyAt_same _ _ _ _ (by omega) (by omega) (by omega),
      slice_copyAt_disjoint _ _ _ _ (by omega) (by omega) (by omega) _ _ (.inl le_rfl)]

/-- The exact effect of `Deserialize`: the value is that of the bytes given, and memory is unchanged unless the slice is
shorter than 82 bytes and has room for 82; then the bytes behind it, up to 82, become zero. -/
theorem C73_deserialize_exact {h : Heap} {s : Sl} (hs : s.InHeap h) :
    (Mem.deserialize H g s h).1 = deserializeValue H (Mem.read s h).1 ∧
      ∀ (a : Nat) (x : Bytes), h[a]? = some x →
        (Mem.deserialize H g s h).2[a]? = some (if a = s.addr ∧ s.len < 82 ∧ 82 ≤ s.cap then
          x.take (s.off + s.len) ++ List.replicate (82 - s.len) 0 ++ x.drop (s.off + 82) else x) := by
  by_cases hc : s.len < 82 ∧ 82 ≤ s.cap
  · obtain ⟨L, z, hz, hhz, haz, -⟩ := makeBytes_spec (82 - s.len) h
    have hin : s.InHeap (h ++ L) := by
      refine ⟨by simp; have := hs.1; omega, hs.2.1, ?_⟩
      rw [getD_append_left hs.1]; exact hs.2.2
    obtain ⟨ha, hha⟩ := append_inplace g hin (src := List.replicate (82 - s.len) 0) (by simp; omega)
    have hrd : (Mem.read s (h ++ L)).1 = (Mem.read s h).1 := by
      show slice _ _ _ = slice _ _ _
      rw [getD_append_left hs.1]
    have hl : (Mem.read s h).1.length = s.len := hs.holds.2.1.symm
    rw [hrd] at hha
    have hrep : List.replicate (82 - s.len) (0 : UInt8) = List.replicate (82 - (Mem.read s h).1.length) 0 := by rw [hl]
    have hsub := hha.sub (i := 0) (j := 78) (by omega) (by simp; omega)
    have run : Mem.deserialize H g s h = (deserializeValue H (Mem.read s h).1,
        (h ++ L).modify s.addr fun a => copyAt a (s.off + s.len) (s.off + s.len + (List.replicate (82 - s.len) (0 : UInt8)).length)
          (List.replicate (82 - s.len) 0)) := by
      rw [Mem.deserialize, if_pos (by omega), if_pos hc.1, bind_run hz, bind_run hhz.read, bind_run ha, bind_run hsub.read,
        deserializeValue, deserialize, dif_pos (by omega), dif_pos (by omega), slice_zero, hrep]
      rfl
    rw [run]
    refine ⟨rfl, fun a x hx => ?_⟩
    have h1 := Unchanged.append h L a x hx
    show ((h ++ L).modify s.addr _)[a]? = _
    rw [List.getElem?_modify, h1]
    by_cases hadd : a = s.addr
    · subst hadd
      rw [if_pos ⟨rfl, hc⟩]
      simp only [if_true, Option.map_eq_map, Option.map_some, Option.some.injEq]
      rw [copyAt]
      congr 1
      · congr 1
        rw [List.take_of_length_le (by simp)]
      · congr 1
        simp; omega
    · rw [if_neg (fun hh => hadd hh.1)]
      simp [Ne.symm hadd]
  · obtain ⟨L, hL⟩ := deserialize_spec H g hs.holds (by omega)
    rw [hL]
    refine ⟨rfl, fun a x hx => ?_⟩
    rw [if_neg (fun hh => hc hh.2)]
    exact Unchanged.append h L a x hx

/-- The claim holds whenever the slice has 82 bytes or more, or no room for 82. -/
theorem C73_deserialize_partial {h : Heap} {s : Sl} (hs : s.InHeap h) (hc : 82 ≤ s.len ∨ s.cap < 82) :
    Unchanged h (Mem.deserialize H g s h).2 := by
  intro a x hx
  rw [(C73_deserialize_exact H g hs).2 a x hx, if_neg (by omega)]

/-- Exactly when the claim holds: otherwise only if the bytes behind the slice were zero already. -/
theorem C73_deserialize_iff {h : Heap} {s : Sl} (hs : s.InHeap h) :
    Unchanged h (Mem.deserialize H g s h).2 ↔
      (82 ≤ s.len ∨ s.cap < 82 ∨
        slice (h.getD s.addr []) (s.off + s.len) (s.off + 82) = List.replicate (82 - s.len) 0) := by
  have hx : h[s.addr]? = some (h.getD s.addr []) := by
    rw [List.getD_eq_getElem?_getD, List.getElem?_eq_getElem hs.1]; rfl
  have hb := hs.2.2
  have split3 : s.len ≤ 82 → 82 ≤ s.cap → h.getD s.addr [] = (h.getD s.addr []).take (s.off + s.len) ++
      slice (h.getD s.addr []) (s.off + s.len) (s.off + 82) ++ (h.getD s.addr []).drop (s.off + 82) := by
    intro h1 h2
    generalize h.getD s.addr [] = x at *
    have e := slice_append_slice x 0 (s.off + s.len) (s.off + 82) (by omega) (by omega) (by omega)
    rw [slice_zero, slice_zero] at e
    rw [e, List.take_append_drop]
  constructor
  · intro hu
    by_contra hc
    simp only [not_or, not_le, not_lt] at hc
    obtain ⟨h1, h2, h3⟩ := hc
    have e := (C73_deserialize_exact H g hs).2 _ _ hx
    rw [hu _ _ hx, if_pos ⟨rfl, by omega, by omega⟩, Option.some.injEq] at e
    have e2 := split3 (by omega) (by omega)
    apply h3
    generalize h.getD s.addr [] = x at *
    have e4 : x.take (s.off + s.len) ++ slice x (s.off + s.len) (s.off + 82) ++ x.drop (s.off + 82) =
        x.take (s.off + s.len) ++ List.replicate (82 - s.len) 0 ++ x.drop (s.off + 82) := e2.symm.trans e
    exact List.append_cancel_left (List.append_cancel_right e4)
  · rintro h1
    by_cases hc : 82 ≤ s.len ∨ s.cap < 82
    · exact C73_deserialize_partial H g hs hc
    · have h3 : slice (h.getD s.addr []) (s.off + s.len) (s.off + 82) = List.replicate (82 - s.len) 0 := by
        rcases h1 with h1 | h1 | h1
        · exact absurd (.inl h1) hc
        · exact absurd (.inr h1) hc
        · exact h1
      intro a x hax
      rw [(C73_deserialize_exact H g hs).2 a x hax]
      split
      · rename_i hh
        obtain ⟨rfl, h4, h5⟩ := hh
        rw [hx, Option.some.injEq] at hax
        rw [← hax, ← h3, ← split3 (by omega) h5]
      · rfl

/-- The claim fails: parsing the first ten bytes of a buffer of 100 bytes of 255 erases the 72 bytes after them. -/
theorem C73_erases :
    (Mem.deserialize H g ⟨0, 0, 10, 100⟩ [List.replicate 100 255]).2[0]? =
      some (List.replicate 10 255 ++ List.replicate 72 0 ++ List.replicate 18 255) := by
  have hs : (⟨0, 0, 10, 100⟩ : Sl).InHeap [List.replicate 100 255] := ⟨by decide, by decide, by decide⟩
  rw [(C73_deserialize_exact H g hs).2 0 _ rfl, if_pos ⟨rfl, by decide, by decide⟩]
  decide

/-- The exact effect of `AddChecksumDblSha256ToBytes`: with four bytes of room behind the slice, the checksum is written there
and the result shares the argument's memory; without, nothing is changed and the result is new memory. -/
theorem C73_addChecksum_exact {h : Heap} {s : Sl} (hs : s.InHeap h) :
    let r := Mem.addChecksumDblSha256ToBytes H g s h
    let b := (Mem.read s h).1
    Holds r.2 r.1 (b ++ checksumDblSha256 H b) ∧
      (if s.len + 4 ≤ s.cap then r.1.addr = s.addr ∧ ∀ (a : Nat) (x : Bytes), h[a]? = some x →
          r.2[a]? = some (if a = s.addr then
            x.take (s.off + s.len) ++ checksumDblSha256 H b ++ x.drop (s.off + s.len + 4) else x)
        else h.length ≤ r.1.addr ∧ Unchanged h r.2) := by
  intro r b
  have hl : (checksumDblSha256 H b).length = 4 := by simp [checksumDblSha256, H.sha256_length]
  by_cases hc : s.len + 4 ≤ s.cap
  · rw [if_pos hc]
    obtain ⟨L, t, ht, hh, ha⟩ := checksum_spec H g hs.holds
    have hin : s.InHeap (h ++ L) := by
      refine ⟨by simp; have := hs.1; omega, hs.2.1, ?_⟩
      rw [getD_append_left hs.1]; exact hs.2.2
    obtain ⟨ha, hha⟩ := append_inplace g hin (src := checksumDblSha256 H b) (by omega)
    have hrd : (Mem.read s (h ++ L)).1 = (Mem.read s h).1 := by
      show slice _ _ _ = slice _ _ _
      rw [getD_append_left hs.1]
    rw [hrd] at hha
    have run : r = (⟨s.addr, s.off, s.len + (checksumDblSha256 H b).length, s.cap⟩, (h ++ L).modify s.addr fun a =>
        copyAt a (s.off + s.len) (s.off + s.len + (checksumDblSha256 H b).length) (checksumDblSha256 H b)) := by
      show Mem.addChecksumDblSha256ToBytes H g s h = _
      rw [Mem.addChecksumDblSha256ToBytes, bind_run ht, bind_run hh.read, ha]
    rw [run]
    refine ⟨hha, rfl, fun a x hx => ?_⟩
    have h1 := Unchanged.append h L a x hx
    show ((h ++ L).modify s.addr _)[a]? = _
    rw [List.getElem?_modify, h1]
    by_cases hadd : a = s.addr
    · subst hadd
      rw [if_pos rfl]
      simp only [if_true, Option.map_eq_map, Option.map_some, Option.some.injEq]
      rw [copyAt]
      congr 1
      · congr 1
        rw [List.take_of_length_le (by omega)]
      · congr 1
        omega
    · rw [if_neg hadd]
      simp [Ne.symm hadd]
  · rw [if_neg hc]
    obtain ⟨L, t, ht, hh, ha⟩ := addChecksum_spec H g hs.holds (by omega)
    have run : r = (t, h ++ L) := ht
    rw [run]
    exact ⟨hh, ha, Unchanged.append h L⟩

/-- Both cases occur. -/
example : (⟨0, 0, 78, 82⟩ : Sl).InHeap [List.replicate 82 1] ∧ (⟨0, 0, 78, 78⟩ : Sl).InHeap [List.replicate 78 1] :=
  ⟨⟨by decide, by decide, by decide⟩, by decide, by decide, by decide⟩

/-! ### C74: the generator and its root key -/

/-- Path and key bytes of each result. -/
def KeyPath.pairs (l : List KeyPath) : List (Bytes × Bytes) := l.map fun b => (b.path, b.key.bytes)

theorem deriveLoop_spec (vals : List UInt32) (d : Bytes) (k : Key) (h M : Heap) :
    ∃ (k' : Key) (M' : Heap), Mem.deriveLoop H R g h.length vals d (h ++ [k.bytes] ++ M) =
      (KeyPath.pairs (deriveLoop H R vals d k), h ++ [k'.bytes] ++ M') := by
  induction vals generalizing d k M with
  | nil => exact ⟨k, M, rfl⟩
  | cons v vs ih =>
    have hp : KeyAt (h ++ [k.bytes] ++ M) h.length k := by
      rw [KeyAt, List.append_assoc, List.getElem?_append_right le_rfl]; simp
    obtain ⟨L, hL⟩ := child_spec H R g hp v
    rw [reassoc] at hL
    have hc := copyTo_local h k.bytes (M ++ L) 0 78 78 (k.newChildKey H R v).1.bytes
    have he : copyAt k.bytes 0 (0 + 78) (k.newChildKey H R v).1.bytes = (k.newChildKey H R v).1.bytes := by
      simp [copyAt, k.len, Key.len, List.take_of_length_le]
    rw [he] at hc
    obtain ⟨k', M', hr⟩ := ih (appendComponent d v) (k.newChildKey H R v).1 (M ++ L)
    refine ⟨k', M', ?_⟩
    rw [Mem.deriveLoop, bind_run hL]
    have hc' : copyTo (keySl h.length 0 78) (k.newChildKey H R v).1.bytes (h ++ [k.bytes] ++ (M ++ L)) =
      ((), h ++ [(k.newChildKey H R v).1.bytes] ++ (M ++ L)) := hc
    rw [bind_run hc', bind_run (read_local h _ _ (Nat.zero_le 78) le_rfl), slice_full, bind_run hr]
    rfl

/-- Deriving reads the generator's key only: the same request gives the same result again, whatever was derived in between, and
the keys returned are copies. -/
theorem C74_derive {h : Heap} {p : Nat} {k : Key} (hp : KeyAt h p k) (path : Bytes) :
    (Mem.deriveBIP32Result H R g p path h).1 =
        (KeyPath.pairs (deriveBIP32Result H R k path).1, (deriveBIP32Result H R k path).2) ∧
      Unchanged h (Mem.deriveBIP32Result H R g p path h).2 := by
  suffices ∃ L, Mem.deriveBIP32Result H R g p path h =
      ((KeyPath.pairs (deriveBIP32Result H R k path).1, (deriveBIP32Result H R k path).2), h ++ L) by
    obtain ⟨L, hL⟩ := this
    rw [hL]
    exact ⟨rfl, Unchanged.append h L⟩
  obtain ⟨L1, hv⟩ := isValid_spec H g hp
  have hp1 := hp.append L1
  rw [Mem.deriveBIP32Result, bind_run (show rootKey p h = (p, h) from rfl), bind_run hv, bind_run (isPrivate_spec hp1),
    bind_run (hp1.holds (i := depthStart) (j := depthEnd) (by decide) (by decide)).read, deriveBIP32Result]
  have hd : slice k.bytes depthStart depthEnd = [k.byteAt depthStart] := slice_one k (by decide)
  have hc : (slice k.bytes depthStart depthEnd != [0]) = (k.byteAt depthStart != 0) := by
    rw [hd, bne, bne]; simp
  rw [hc]
  split
  · exact ⟨L1, rfl⟩
  · split
    · exact ⟨L1, rfl⟩
    · rcases hva : valuesAtDepth path with ⟨items, _ | e⟩
      · dsimp only
        have hn : newArray k.bytes (h ++ L1) = ((h ++ L1).length, h ++ L1 ++ [k.bytes] ++ []) := by
          rw [List.append_nil]; rfl
        rw [bind_run hp1.all.read, bind_run hn]
        split
        · obtain ⟨k', M', hr⟩ := deriveLoop_spec H R g (items.drop 1) (str "m") k (h ++ L1) []
          rw [bind_run hr]
          exact ⟨L1 ++ [k'.bytes] ++ M', by simp only [List.append_assoc]; rfl⟩
        · exact ⟨L1 ++ [k.bytes] ++ [], by simp only [List.append_assoc]; rfl⟩
      · exact ⟨L1, rfl⟩

omit H R g in
/-- `SetRootKey` stores a copy. -/
theorem C74_set {h : Heap} {p : Nat} {k : Key} (hp : KeyAt h p k) (k' : Key) :
    KeyAt (setRootKey p k'.bytes h).2 p k' ∧ ∀ a, a ≠ p → (setRootKey p k'.bytes h).2[a]? = h[a]? := by
  have := C72_setters hp (i := 0) (j := 78) (by omega) le_rfl k'.bytes
  have he : k.put 0 78 k'.bytes = k' := by
    apply Key.ext'
    simp [put_bytes, copyAt, k.len, k'.len, List.take_of_length_le]
  rw [he] at this
  exact this

/-- `RootKey` hands out the generator's own key: a setter called on it changes what the generator derives. -/
theorem C74_shared {h : Heap} {p : Nat} {k : Key} (hp : KeyAt h p k) {i j : Nat} (hij : i ≤ j) (hj : j ≤ 78) (v : Bytes)
    (path : Bytes) :
    let q := (rootKey p h).1
    let h' := (setField q i j v h).2
    (Mem.deriveBIP32Result H R g p path h').1 = (KeyPath.pairs (deriveBIP32Result H R (k.put i j v hij hj) path).1,
      (deriveBIP32Result H R (k.put i j v hij hj) path).2) :=
  (C74_derive H R g (C72_setters hp hij hj v).1 path).1

end Bips
