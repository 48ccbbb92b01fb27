import Verif.Props.Derive
import Verif.Props.Ui

/-!
# Where the partial claims hold

For claims that are false as stated: the inputs for which they hold, exactly.
-/

namespace Bips
open Spec

section
variable (H : Hashes) (order : List (Bytes × List VersionBytes)) (ho : order.Perm pathTable)
include ho

/-- **C22**, the exact domain: a private step agrees with CKDpriv of BIP-32 — it fails when that is invalid and gives its
scalar and chain code otherwise — unless `IL ≥ n` and the sum is not 0 modulo `n`. -/
theorem C22_agrees_iff (k : Key) (s : Nat) (i : UInt32) (hk : IsXprv k s) (hv : PvtVersion k.getVersion) :
    (match ckdPriv H.hmacSha512 s k.getChainCode i.toNat with
      | none => (k.newChildKey H (Registry.init order) i).2 = some .invalidPrivateKey
      | some (s', c') => (k.newChildKey H (Registry.init order) i).2 = none ∧
          (k.newChildKey H (Registry.init order) i).1.fields.keyBytes = 0 :: ser256 s' ∧
          (k.newChildKey H (Registry.init order) i).1.fields.chainCode = c') ↔
      ¬ (secpN ≤ parse256 ((ckdI H s k.getChainCode i.toNat).take 32) ∧
        (parse256 ((ckdI H s k.getChainCode i.toNat).take 32) + s) % secpN ≠ 0) := by
  obtain ⟨h1, h2⟩ := C22_ckdPriv_exact H order ho k s i hk hv
  have hs : ckdPriv H.hmacSha512 s k.getChainCode i.toNat =
      if secpN ≤ parse256 ((ckdI H s k.getChainCode i.toNat).take 32) ∨
        (parse256 ((ckdI H s k.getChainCode i.toNat).take 32) + s) % secpN = 0 then none
      else some ((parse256 ((ckdI H s k.getChainCode i.toNat).take 32) + s) % secpN,
        (ckdI H s k.getChainCode i.toNat).drop 32) := rfl
  rw [hs, h1, h2]
  generalize parse256 ((ckdI H s k.getChainCode i.toNat).take 32) = IL
  by_cases hz : (IL + s) % secpN = 0
  · simp [hz]
  · by_cases hn : secpN ≤ IL
    · simp [hz, hn]
    · simp [hz, hn]

/-- **C23**, the exact domain: a public step agrees with CKDpub of BIP-32 exactly when `0 < IL < n` and the sum is not the
point at infinity, or `IL` is a positive multiple of `n`. -/
theorem C23_agrees_iff (k : Key) (K : Pt) (i : UInt32) (hk : IsXpub k K) (hv : PubVersion k.getVersion)
    (hi : i.toNat < 2 ^ 31) :
    (match ckdPub H.hmacSha512 K k.getChainCode i.toNat with
      | none => (k.newChildKey H (Registry.init order) i).2 = some .invalidPublicKey
      | some (K', c') => (k.newChildKey H (Registry.init order) i).2 = none ∧
          (k.newChildKey H (Registry.init order) i).1.fields.keyBytes = serP K' ∧
          (k.newChildKey H (Registry.init order) i).1.fields.chainCode = c') ↔
      let IL := parse256 ((ckdPubI H K k.getChainCode i.toNat).take 32)
      (0 < IL ∧ IL < secpN ∧ point IL + K ≠ 0) ∨ (secpN ≤ IL ∧ IL % secpN = 0) := by
  have hst := storedPoint_of_ne hk.2
  obtain ⟨h1, h2⟩ := C23_ckdPub_exact H order ho k K i (by rw [hst]; exact hk.1) hv hi
  rw [hst, ← ckdPubI] at h1 h2
  have hs : ckdPub H.hmacSha512 K k.getChainCode i.toNat =
      if secpN ≤ parse256 ((ckdPubI H K k.getChainCode i.toNat).take 32) ∨
        point (parse256 ((ckdPubI H K k.getChainCode i.toNat).take 32)) + K = 0 then none
      else some (point (parse256 ((ckdPubI H K k.getChainCode i.toNat).take 32)) + K,
        (ckdPubI H K k.getChainCode i.toNat).drop 32) := rfl
  rw [hs]
  dsimp only at h1 h2 ⊢
  revert h1 h2
  generalize parse256 ((ckdPubI H K k.getChainCode i.toNat).take 32) = IL
  intro h1 h2
  by_cases hz : IL % secpN = 0
  · rw [h1 hz]
    by_cases hn : secpN ≤ IL
    · simp [hz, hn]
    · have h0 : IL = 0 := by rwa [Nat.mod_eq_of_lt (by omega)] at hz
      have hp : point 0 = 0 := zero_nsmul _
      subst h0
      simp [hp, hk.2, hn]
  · obtain ⟨e1, e2⟩ := h2 hz
    rw [e1, e2]
    have h0 : 0 < IL := Nat.pos_of_ne_zero fun h => hz (by rw [h]; rfl)
    by_cases hn : secpN ≤ IL
    · have hn' : ¬ IL < secpN := by omega
      simp [hz, hn, hn']
    · have hn' : IL < secpN := by omega
      by_cases hK : point IL + K = 0
      · simp [hn, hK]
      · simp [hn, hK, h0, hn', storedPoint_of_ne hK]

/-- **C31**, the exact domain: the depth byte of a key reached from depth 0 is the number of steps exactly for up to 255
steps. -/
theorem C31_depth_iff (is : List UInt32) (k k' : Key) (hd : k.getDepth = [0])
    (h : deriveAll (Key.newChildKey H (Registry.init order)) k is = some k') :
    (∃ d : UInt8, k'.getDepth = [d] ∧ d.toNat = is.length) ↔ is.length ≤ 255 := by
  rw [C31_depth_exact H order ho is k k' 0 hd h]
  constructor
  · rintro ⟨d, -, e⟩
    have := d.toNat_lt
    omega
  · intro hl
    exact ⟨_, rfl, by simp; omega⟩

end

/-- **C37**, the exact domain: the values of a valid path are the face values exactly when all numbers written are below
2³². -/
theorem C37_face_iff (p : Bytes) (hp : pathIsValid p = true) (cs : List Comp) (hcs : PathText (stripSpace p) cs) :
    (valuesAtDepth p).1.map UInt32.toNat = 0 :: cs.map Comp.value ↔ ∀ c ∈ cs, decValue c.digits < 2 ^ 32 := by
  refine ⟨fun h c hc => ?_, fun h => (C37_values_face_partial p hp cs hcs h).2⟩
  have hm : c.value ∈ (valuesAtDepth p).1.map UInt32.toNat := by
    rw [h]; exact List.mem_cons_of_mem _ (List.mem_map_of_mem hc)
  obtain ⟨v, -, e⟩ := List.mem_map.1 hm
  have := v.toNat_lt
  rw [e, Comp.value] at this
  omega

/-- **C39**, the exact domain: `ValueAtDepth` indexes the values of a valid path at every depth exactly when there are at
most 255 values. -/
theorem C39_valueAtDepth_iff (p : Bytes) (hp : pathIsValid p = true) :
    (∀ b : UInt8, valueAtDepth p b = match (valuesAtDepth p).1[b.toNat]? with
      | some v => .ok (v, none)
      | none => .ok (0, some .unSupportedOrInvalidPath)) ↔ (valuesAtDepth p).1.length ≤ 255 := by
  refine ⟨fun h => ?_, fun h b => C39_valueAtDepth_partial p b hp h⟩
  by_contra hn
  have h1 := h 255
  have hv : (valuesAtDepth p).2 = none := by simpa [pathIsValid] using hp
  have h2 := ((C39_valueAtDepth_exact p 255).2.1 hv).2 (by
    show ¬ 255 < _
    have := Nat.mod_lt (valuesAtDepth p).1.length (y := 256) (by omega)
    omega)
  rw [h2] at h1
  have h3 : (255 : UInt8).toNat < (valuesAtDepth p).1.length := by
    show 255 < _
    omega
  rw [List.getElem?_eq_getElem h3] at h1
  simp at h1

/-- **C47**, the exact domain: all labels of a derivation are valid paths whose values are the first values of the request
exactly when the values of 2³¹ and more come first in the request. -/
theorem C47_labels_iff (H : Hashes) (R : Registry) (root : Key) (hr : GoodRoot root) (p : Bytes) (vs : List UInt32)
    (hp : valuesAtDepth p = (0 :: vs, none)) :
    (∀ j kp, (deriveBIP32Result H R root p).1[j]? = some kp →
      pathIsValid kp.path = true ∧ valuesAtDepth kp.path = (0 :: vs.take j, none) ∧
        deriveBIP32Result H R root kp.path = ((deriveBIP32Result H R root p).1.take (j + 1), none)) ↔
      HardenedFirst (vs.map fun v => decide (2 ^ 31 ≤ v.toNat)) := by
  constructor
  · intro h
    obtain ⟨res, h1, h2⟩ := C47_labels_exact H R root hr p vs hp
    obtain ⟨kp, h3, -, h4⟩ := h2 vs.length (le_refl _)
    rw [List.take_length] at h4
    rw [h1] at h
    exact h4.1 (h _ _ h3).1
  · intro hh j kp hkp
    rw [derive_eq H R hr hp] at hkp ⊢
    dsimp only at hkp
    have hj : j < vs.length + 1 := by
      by_contra hn
      rw [List.getElem?_eq_none (by simp at hn ⊢; omega)] at hkp
      simp at hkp
    rw [List.getElem?_map, List.getElem?_range hj] at hkp
    obtain rfl := Option.some.inj hkp
    have hlab := C41_print_parse (vs.take j) (by rw [List.map_take]; exact hardenedFirst_take hh j)
    refine ⟨hlab.1, hlab.2, ?_⟩
    rw [derive_eq H R hr hlab.2]
    dsimp only
    rw [← List.map_take, List.take_range]
    have hm : min (j + 1) (vs.length + 1) = (vs.take j).length + 1 := by
      rw [List.length_take]; omega
    rw [hm]
    congr 1
    apply List.map_congr_left
    intro i hi
    have := List.mem_range.1 hi
    rw [List.length_take] at this
    rw [List.take_take, Nat.min_eq_left (by omega)]

/-- **C44**, the exact domain: the only crash is on 16 or more bytes of hex that give no valid master key. -/
theorem C44_panic_iff (H : Hashes) (seed : Bytes) :
    rootKeyFromSeed H seed = .panic ↔ ∃ b, hexDecode seed = some b ∧ 16 ≤ b.length ∧
      (parse256 ((H.hmacSha512 (str "Bitcoin seed") b).take 32) = 0 ∨
        secpN ≤ parse256 ((H.hmacSha512 (str "Bitcoin seed") b).take 32)) := by
  obtain ⟨h1, h2, h3⟩ := C44_root_key_exact H seed
  constructor
  · intro h
    cases hd : hexDecode seed with
    | none => rw [h1 ((hexDecode_none_iff _).1 hd)] at h; cases h
    | some b =>
      by_cases hl : b.length < 16
      · rw [h2 b hd hl] at h; cases h
      · refine ⟨b, rfl, by omega, ?_⟩
        by_contra hn
        obtain ⟨k, hk, -⟩ := (h3 b hd (by omega)).2 hn
        rw [hk] at h; cases h
  · rintro ⟨b, hd, hl, h⟩
    exact (h3 b hd hl).1 h

/-- **C49**, the exact domain: for a base with a valid scalar whose first step succeeds, a range that is not empty gives
the children of the base at its indices exactly when it is a range of one index. -/
theorem C49_siblings_iff (H : Hashes) (order : List (Bytes × List VersionBytes)) (ho : order.Perm pathTable)
    (k : KeyPathRange) (s : Nat) (hx : IsXprv k.keyPath.key s) (hv : PvtVersion k.keyPath.key.getVersion)
    (hp : pathIsValid k.keyPath.path = true) (h1 : k.startIndex.toNat < k.endIndex.toNat)
    (hok : (k.keyPath.key.newChildKey H (Registry.init order) k.startIndex).2 = none) :
    (∀ (j : Nat) kp, (k.generateRange H (Registry.init order)).1.keyPaths[j]? = some kp →
      kp.key = (k.keyPath.key.newChildKey H (Registry.init order) (k.startIndex + UInt32.ofNat j)).1) ↔
      k.endIndex.toNat = k.startIndex.toNat + 1 := by
  constructor
  · intro h
    by_contra hn
    obtain ⟨l, kp, h2, h3, -, h4, -⟩ := C49_nested H order ho k s hx hv hp (by omega) hok
    rw [h2] at h
    exact h4 (h 1 kp h3)
  · intro he j kp hkp
    have hz : k.keyPath.key.bytes ≠ List.replicate 78 0 := by
      intro e
      have : k.keyPath.key = Key.zero := Key.ext' e
      rw [this] at hx
      refine not_xprv_zero ?_ ⟨s, hx⟩
      have := congrArg KeyFields.keyBytes zero_fields
      rw [show Key.zero.getKeyBytes = List.replicate 33 0 from this]
      decide +kernel
    rw [C49_single_partial H (Registry.init order) k he hz hp] at hkp
    rcases j with _ | j
    · have := Option.some.inj hkp
      rw [← this]
      simp
    · simp at hkp

/-- **C07**, the exact domain: for an accepted string `MnemonicToByteArray` gives the number (entropy bits ++ checksum bits)
in `len(entropy)+1` bytes exactly when the larger of the width computed from the number of ASCII spaces and the length
of the number is that. -/
theorem C07_bytes_iff (H : Hashes) {l : List Bytes} (hg : GoodList l) (s e : Bytes)
    (h : entropyFromMnemonic H (setWordList l) s = .ok (e, none)) :
    mnemonicToByteArray H (setWordList l) s = .ok (beBytes (e.length + 1) (bv (mnemonicBits H.sha256 e)), none) ↔
      max (paddedSize s) (bigBytes (bv (mnemonicBits H.sha256 e))).length = e.length + 1 := by
  obtain ⟨r, h1, h2, h3⟩ := C07_bytes_exact H hg s e h
  have hlen : r.length = max (paddedSize s) (bigBytes (bv (mnemonicBits H.sha256 e))).length := by
    rw [h3, padLeft]; simp; omega
  rw [h1, ← hlen]
  constructor
  · intro e1
    have := congrArg List.length (Prod.mk.inj (Outcome.ok.inj e1)).1
    simpa using this
  · intro e1
    rw [← h2, ← e1, beBytes_setBytes]

/-- **C60**, the exact domain: in a reachable state the tabs are not the derivation of the current root key along the
current path exactly when the root key text was refused while tabs were shown. -/
theorem C60_stale_iff (H : Hashes) (S : WordState) (R : Registry) {fs : List Frame} {u : Ui}
    (h : Ui.run H S R {} fs = .ok u) :
    u.tabs ≠ (deriveBIP32Result H R u.rootKey u.currentPath).1 ↔
      (b58Deserialize H u.rootKeyStr).2 ≠ none ∧ u.rootKey = Key.zero ∧ u.tabs ≠ [] := by
  have hz : (deriveBIP32Result H R Key.zero u.currentPath).1 = [] := deriveBIP32Result_zero H R _
  constructor
  · intro hn
    rcases C60_tabs_partial h with h1 | h1
    · exact absurd h1.1 hn
    · exact ⟨h1.2, h1.1, fun ht => hn (by rw [ht, h1.1, hz])⟩
  · rintro ⟨-, h2, h3⟩
    rw [h2, hz]
    exact h3

end Bips
