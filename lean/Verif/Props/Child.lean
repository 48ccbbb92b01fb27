import Verif.Lemmas.Child

/-!
# C21–C35: master keys, child derivation, neutering, point encoding, hex views

`H` ranges over all hash functions (only output lengths are known), `order` over all map iteration orders of
`init`.  The specification is `Verif/Spec/Bip32.lean`.
-/

namespace Bips
open Spec

/-- `k` holds the private scalar `s` of the BIP-32 range. -/
def IsXprv (k : Key) (s : Nat) : Prop := k.getKeyBytes = 0 :: ser256 s ∧ 1 ≤ s ∧ s < secpN

/-- `k` holds the public point `K`. -/
def IsXpub (k : Key) (K : Pt) : Prop := k.getKeyBytes = serP K ∧ K ≠ 0

/-- The HMAC output of a derivation step of BIP-32 from a private parent. -/
def ckdI (H : Hashes) (s : Nat) (c : Bytes) (i : Nat) : Bytes :=
  if 2 ^ 31 ≤ i then H.hmacSha512 c (0 :: ser256 s ++ ser32 i) else H.hmacSha512 c (serP (point s) ++ ser32 i)

theorem ckdPriv_eq (H : Hashes) (s : Nat) (c : Bytes) (i : Nat) : ckdPriv H.hmacSha512 s c i =
    if secpN ≤ parse256 ((ckdI H s c i).take 32) ∨ (parse256 ((ckdI H s c i).take 32) + s) % secpN = 0 then none
    else some ((parse256 ((ckdI H s c i).take 32) + s) % secpN, (ckdI H s c i).drop 32) := by
  unfold ckdPriv ckdI
  rfl

/-! ### Witnesses -/

/-- Hash functions whose HMAC always answers `out`. -/
def constHashes (out : Bytes) (h : out.length = 64) : Hashes where
  sha256 _ := List.replicate 32 0
  hmacSha512 _ _ := out
  ripemd160 _ := List.replicate 20 0
  keccak256 _ := List.replicate 32 0
  sha256_length := by simp
  hmacSha512_length := by simp [h]
  ripemd160_length := by simp
  keccak256_length := by simp

/-- HMAC output with left half `n` and right half 7…7. -/
def hashesIL (n : Nat) : Hashes := constHashes (beBytes 32 n ++ List.replicate 32 7) (by simp)

theorem hashesIL_take (n : Nat) (a b : Bytes) : ((hashesIL n).hmacSha512 a b).take 32 = beBytes 32 n := by
  change (beBytes 32 n ++ List.replicate 32 7).take 32 = _
  rw [List.take_left' (by simp)]

/-- An xprv key with scalar `s`. -/
def xprvKey (s : Nat) : Key := (Key.zero.setVersion (putUint32 0x0488ade4)).setPvtKeyBytes (ser256 s)

theorem xprvKey_fields (s : Nat) : (xprvKey s).fields = ⟨0x0488ade4, [0], List.replicate 4 0, List.replicate 4 0,
    List.replicate 32 0, 0 :: ser256 s⟩ := by
  have h0 : (Key.zero.setVersion (putUint32 0x0488ade4)).fields = ⟨0x0488ade4, [0], List.replicate 4 0,
      List.replicate 4 0, List.replicate 32 0, List.replicate 33 0⟩ := by decide +kernel
  rw [xprvKey, fields_setPvtKeyBytes _ _ (by simp), h0]
  rw [byteAt_of_fields _ (a := 0) (l := List.replicate 32 0) (by rw [h0]; rfl)]

theorem xprvKey_isXprv {s : Nat} (h1 : 1 ≤ s) (h2 : s < secpN) : IsXprv (xprvKey s) s :=
  ⟨congrArg KeyFields.keyBytes (xprvKey_fields s), h1, h2⟩

theorem xprvKey_version (s : Nat) : PvtVersion (xprvKey s).getVersion := by
  have : (xprvKey s).getVersion = 0x0488ade4 := congrArg KeyFields.version (xprvKey_fields s)
  rw [this]
  exact ⟨bitcoinxprvxpub, (registered_iff _).2 (by decide +kernel), rfl⟩

/-! ### C21 -/

/-- **C21.** Master key generation. -/
theorem C21_master_key (H : Hashes) (seed : Bytes) :
    let I := H.hmacSha512 (str "Bitcoin seed") seed
    let m := parse256 (I.take 32)
    (newMasterKey H seed = (none, some .invalidPrivateKey) ↔ m = 0 ∨ secpN ≤ m) ∧
    (¬ (m = 0 ∨ secpN ≤ m) → ∃ k, newMasterKey H seed = (some k, none) ∧
      k.fields = { version := 0x0488ade4, depth := [0], fingerPrint := [0, 0, 0, 0], childNumber := [0, 0, 0, 0],
                   chainCode := I.drop 32, keyBytes := 0 :: ser256 m }) := by
  intro I m
  have hI : I.length = 64 := H.hmacSha512_length _ _
  have ht : (I.take 32).length = 32 := by simp [hI]
  have hval : validatePrivateKey (slice I 0 32) =
      if 1 ≤ m ∧ m < secpN then none else some .invalidPrivateKey := by
    rw [slice_eq_take, validatePrivateKey_eq _ ht]; rfl
  have hser : ser256 m = I.take 32 := by
    have := beBytes_setBytes (I.take 32)
    rw [ht] at this; exact this
  have hu : newMasterKey H seed = match validatePrivateKey (slice I 0 32) with
    | some err => (none, some err)
    | none => (some (((Key.zero.setVersion defaultMainnetVersion.pvtKeyFlagBytes).setChainCode
        (slice I 32 I.length)).setPvtKeyBytes (slice I 0 32)), none) := rfl
  rw [hu, hval]
  by_cases hm : 1 ≤ m ∧ m < secpN
  · rw [if_pos hm]
    refine ⟨⟨fun h => by simp at h, fun h => by omega⟩, fun _ => ⟨_, rfl, ?_⟩⟩
    rw [slice_eq_take, slice_eq_drop _ _ _ le_rfl, hser]
    have h0 : (Key.zero.setVersion defaultMainnetVersion.pvtKeyFlagBytes).fields = ⟨0x0488ade4, [0],
        List.replicate 4 0, List.replicate 4 0, List.replicate 32 0, List.replicate 33 0⟩ := by decide +kernel
    have h1 := fields_setChainCode (Key.zero.setVersion defaultMainnetVersion.pvtKeyFlagBytes) (I.drop 32)
      (by simp [hI])
    rw [h0] at h1
    rw [fields_setPvtKeyBytes _ _ ht, h1]
    rw [byteAt_of_fields _ (a := 0) (l := List.replicate 32 0) (by rw [h1]; rfl)]
    rfl
  · rw [if_neg hm]
    refine ⟨⟨fun _ => by omega, fun _ => rfl⟩, fun h => by omega⟩

/-- Both outcomes occur. -/
example : (∃ H, (newMasterKey H []).2 = some .invalidPrivateKey) ∧ (∃ H, (newMasterKey H []).2 = none) := by
  constructor
  · refine ⟨hashesIL 0, ?_⟩
    rw [((C21_master_key (hashesIL 0) []).1).2]
    left
    rw [hashesIL_take]; decide +kernel
  · refine ⟨hashesIL 5, ?_⟩
    obtain ⟨k, hk, -⟩ := (C21_master_key (hashesIL 5) []).2 (by rw [hashesIL_take]; decide +kernel)
    rw [hk]

/-! ### C22 -/

/-- The derivation step from a key with scalar `s`. -/
theorem intermediary_xprv (H : Hashes) {k : Key} {s : Nat} (hk : IsXprv k s) (i : UInt32) :
    k.getIntermediary H i = ckdI H s k.getChainCode i.toNat ∧ k.isPrivate = true ∧
    setBytes k.getPvtKeyBytes = s ∧ publicKeyForPrivateKey k.getPvtKeyBytes = serP (point s) := by
  obtain ⟨hb, h1, h2⟩ := hk
  obtain ⟨hp, hpv⟩ := isPrivate_of_keyBytes k hb
  have hs : setBytes k.getPvtKeyBytes = s := by rw [hpv, setBytes_ser256 h2]
  have hpub : publicKeyForPrivateKey k.getPvtKeyBytes = serP (point s) := by
    rw [publicKeyForPrivateKey_serP _ (by rw [hs, Nat.mod_eq_of_lt h2]; omega), hs]
  refine ⟨?_, by simpa using hp, hs, hpub⟩
  rw [getIntermediary_eq, ckdI, hpub, hpv]
  have hp' : k.isPrivate = true := by simpa using hp
  rw [hp']
  split <;> simp

/-- **C22**, exact form: what private derivation returns, for every index and every hash behaviour. It differs
from BIP-32 exactly in that `IL ≥ n` is reduced modulo `n` instead of being rejected. -/
theorem C22_ckdPriv_exact (H : Hashes) (order : List (Bytes × List VersionBytes)) (ho : order.Perm pathTable)
    (k : Key) (s : Nat) (i : UInt32) (hk : IsXprv k s) (hv : PvtVersion k.getVersion) :
    let I := ckdI H s k.getChainCode i.toNat
    let s' := (parse256 (I.take 32) + s) % secpN
    ((k.newChildKey H (Registry.init order) i).2 = if s' = 0 then some .invalidPrivateKey else none) ∧
    (k.newChildKey H (Registry.init order) i).1.fields =
      { version := k.getVersion
        depth := k.getDepth.map (· + 1)
        fingerPrint := (H.ripemd160 (H.sha256 (serP (point s)))).take 4
        childNumber := ser32 i.toNat
        chainCode := I.drop 32
        keyBytes := 0 :: ser256 s' } := by
  obtain ⟨h1, h2, h3, h4⟩ := intermediary_xprv H hk i
  have := newChildKey_private H ho k i h2 hv
  simp only [h1, h3, h4] at this
  rw [Key.getDepth_eq]
  exact ⟨this.2, this.1⟩

/-- **C22** (partial). Private derivation is CKDpriv of BIP-32 whenever the left half of the HMAC is below the
group order (all but a 2⁻¹²⁷ fraction of HMAC values). Missing: BIP-32 also rejects `IL ≥ n`, the code does
not; see `C22_accepts_invalid_IL`. -/
theorem C22_ckdPriv_partial (H : Hashes) (order : List (Bytes × List VersionBytes)) (ho : order.Perm pathTable)
    (k : Key) (s : Nat) (i : UInt32) (hk : IsXprv k s) (hv : PvtVersion k.getVersion)
    (hIL : parse256 ((ckdI H s k.getChainCode i.toNat).take 32) < secpN) :
    match ckdPriv H.hmacSha512 s k.getChainCode i.toNat with
    | none => (k.newChildKey H (Registry.init order) i).2 = some .invalidPrivateKey
    | some (s', c') =>
      (k.newChildKey H (Registry.init order) i).2 = none ∧
      (k.newChildKey H (Registry.init order) i).1.fields =
        { version := k.getVersion
          depth := k.getDepth.map (· + 1)
          fingerPrint := (H.ripemd160 (H.sha256 (serP (point s)))).take 4
          childNumber := ser32 i.toNat
          chainCode := c'
          keyBytes := 0 :: ser256 s' } := by
  obtain ⟨h1, h2⟩ := C22_ckdPriv_exact H order ho k s i hk hv
  have hc : ckdPriv H.hmacSha512 s k.getChainCode i.toNat =
      if (parse256 ((ckdI H s k.getChainCode i.toNat).take 32) + s) % secpN = 0 then none
      else some ((parse256 ((ckdI H s k.getChainCode i.toNat).take 32) + s) % secpN,
        (ckdI H s k.getChainCode i.toNat).drop 32) := by
    rw [ckdPriv_eq]
    congr 1
    rw [eq_iff_iff]
    constructor
    · rintro (h | h)
      · omega
      · exact h
    · exact Or.inr
  rw [hc]
  by_cases h0 : (parse256 ((ckdI H s k.getChainCode i.toNat).take 32) + s) % secpN = 0
  · rw [if_pos h0] at h1 ⊢; exact h1
  · rw [if_neg h0] at h1 ⊢; exact ⟨h1, h2⟩

theorem ckdI_hashesIL (n s : Nat) (c : Bytes) (i : Nat) (hn : n < 256 ^ 32) :
    parse256 ((ckdI (hashesIL n) s c i).take 32) = n := by
  have : (ckdI (hashesIL n) s c i).take 32 = beBytes 32 n := by
    unfold ckdI; split <;> exact hashesIL_take _ _ _
  rw [this, parse256, setBytes_beBytes, Nat.mod_eq_of_lt hn]

/-- The hypotheses of C22 are met, and both outcomes of the specification occur. -/
example : (∃ H s, IsXprv (xprvKey s) s ∧ PvtVersion (xprvKey s).getVersion ∧
      parse256 ((ckdI H s (xprvKey s).getChainCode 3).take 32) < secpN ∧
      ckdPriv H.hmacSha512 s (xprvKey s).getChainCode 3 ≠ none) ∧
    (∃ H s, IsXprv (xprvKey s) s ∧ PvtVersion (xprvKey s).getVersion ∧
      parse256 ((ckdI H s (xprvKey s).getChainCode 3).take 32) < secpN ∧
      ckdPriv H.hmacSha512 s (xprvKey s).getChainCode 3 = none) := by
  have key : ∀ n, n < 256 ^ 32 → ckdPriv (hashesIL n).hmacSha512 5 (xprvKey 5).getChainCode 3 =
      if secpN ≤ n ∨ (n + 5) % secpN = 0 then none else
        some ((n + 5) % secpN, (ckdI (hashesIL n) 5 (xprvKey 5).getChainCode 3).drop 32) := by
    intro n hn
    rw [ckdPriv_eq, ckdI_hashesIL n 5 (xprvKey 5).getChainCode 3 hn]
  refine ⟨⟨hashesIL 9, 5, xprvKey_isXprv (by decide) (by decide), xprvKey_version _, ?_, ?_⟩,
    ⟨hashesIL (secpN - 5), 5, xprvKey_isXprv (by decide) (by decide), xprvKey_version _, ?_, ?_⟩⟩
  · rw [ckdI_hashesIL _ _ _ _ (by decide)]; decide
  · rw [key _ (by decide), if_neg (by decide)]; simp
  · rw [ckdI_hashesIL _ _ _ _ (by decide)]; decide
  · rw [key _ (by decide), if_pos (by decide)]

/-- **C22**, the deviation: there are hash behaviours for which BIP-32 declares the child invalid (`IL ≥ n`) and
the code returns it without error. -/
theorem C22_accepts_invalid_IL (order : List (Bytes × List VersionBytes)) (ho : order.Perm pathTable) (i : UInt32) :
    ∃ (H : Hashes) (k : Key) (s : Nat), IsXprv k s ∧ PvtVersion k.getVersion ∧
      ckdPriv H.hmacSha512 s k.getChainCode i.toNat = none ∧
      (k.newChildKey H (Registry.init order) i).2 = none := by
  refine ⟨hashesIL (secpN + 1), xprvKey 5, 5, xprvKey_isXprv (by decide) (by decide), xprvKey_version _, ?_, ?_⟩
  · rw [ckdPriv_eq, ckdI_hashesIL _ _ _ _ (by decide), if_pos (Or.inl (by decide))]
  · rw [(C22_ckdPriv_exact (hashesIL (secpN + 1)) order ho (xprvKey 5) 5 i
      (xprvKey_isXprv (by decide) (by decide)) (xprvKey_version _)).1,
      ckdI_hashesIL _ _ _ _ (by decide), if_neg (by decide)]

/-! ### C23 -/

/-- The HMAC output of a derivation step of BIP-32 from a public parent. -/
def ckdPubI (H : Hashes) (K : Pt) (c : Bytes) (i : Nat) : Bytes := H.hmacSha512 c (serP K ++ ser32 i)

theorem ckdPubI_def (H : Hashes) (K : Pt) (c : Bytes) (i : Nat) :
    ckdPubI H K c i = H.hmacSha512 c (serP K ++ ser32 i) := rfl

theorem ckdPub_eq (H : Hashes) (K : Pt) (c : Bytes) (i : Nat) : ckdPub H.hmacSha512 K c i =
    if secpN ≤ parse256 ((ckdPubI H K c i).take 32) ∨ point (parse256 ((ckdPubI H K c i).take 32)) + K = 0 then none
    else some (point (parse256 ((ckdPubI H K c i).take 32)) + K, (ckdPubI H K c i).drop 32) := rfl

/-- What the code stores for a point: the SEC1 form, and `02 ‖ 0…0` for the point at infinity. -/
def storedPoint (Q : Pt) : Bytes := match Q with
  | .zero => 2 :: List.replicate 32 0
  | .some x y h => serP (.some x y h)

theorem storedPoint_eq (Q : Pt) : storedPoint Q = compressPublicKey (coords Q) := by
  cases Q with
  | zero => exact compressPublicKey_zero.symm
  | some x y h => exact (compressPublicKey_coords _ (WeierstrassCurve.Affine.Point.some_ne_zero h)).symm

theorem storedPoint_of_ne {Q : Pt} (h : Q ≠ 0) : storedPoint Q = serP Q := by
  cases Q with
  | zero => exact absurd rfl h
  | some x y h => rfl

theorem storedPoint_zero : storedPoint 0 = 2 :: List.replicate 32 0 := rfl

theorem storedPoint_cons (Q : Pt) : ∃ a l, storedPoint Q = a :: l ∧ a ≠ 0 := by
  cases Q with
  | zero => exact ⟨2, _, rfl, by decide⟩
  | some x y h =>
    refine ⟨_, _, rfl, ?_⟩
    split <;> decide

theorem storedPoint_not_private {k : Key} {Q : Pt} (h : k.getKeyBytes = storedPoint Q) : k.isPrivate = false := by
  obtain ⟨a, l, hs, ha⟩ := storedPoint_cons Q
  rw [hs] at h
  rw [(isPrivate_of_keyBytes k h).1]
  simpa using ha

theorem addPublicKeys_stored (b : Bytes) (Q : Pt) :
    addPublicKeys (publicKeyForPrivateKey b) (storedPoint Q) = storedPoint (point (setBytes b) + Q) := by
  rw [storedPoint_eq, storedPoint_eq, addPublicKeys, publicKeyForPrivateKey_eq, expandPublicKey_compress,
    expandPublicKey_compress, curveAdd_coords]

/-- **C23**, exact form, for a public key storing any point (the point at infinity included): the result and the
error for every index below 2³¹ and every hash behaviour. -/
theorem C23_ckdPub_exact (H : Hashes) (order : List (Bytes × List VersionBytes)) (ho : order.Perm pathTable)
    (k : Key) (K : Pt) (i : UInt32) (hk : k.getKeyBytes = storedPoint K) (hv : PubVersion k.getVersion)
    (hi : i.toNat < 2 ^ 31) :
    let I := H.hmacSha512 k.getChainCode (storedPoint K ++ ser32 i.toNat)
    let IL := parse256 (I.take 32)
    (IL % secpN = 0 → (k.newChildKey H (Registry.init order) i).2 = some .invalidPublicKey) ∧
    (IL % secpN ≠ 0 → (k.newChildKey H (Registry.init order) i).2 = none ∧
      (k.newChildKey H (Registry.init order) i).1.fields =
        { version := k.getVersion
          depth := k.getDepth.map (· + 1)
          fingerPrint := (H.ripemd160 (H.sha256 (storedPoint K))).take 4
          childNumber := ser32 i.toNat
          chainCode := I.drop 32
          keyBytes := storedPoint (point IL + K) }) := by
  have hp := storedPoint_not_private hk
  have hI : k.getIntermediary H i = H.hmacSha512 k.getChainCode (storedPoint K ++ ser32 i.toNat) := by
    rw [getIntermediary_eq, if_neg (by omega), hp, hk]; simp
  obtain ⟨h1, h2⟩ := newChildKey_public H ho k i hi hp hv
  simp only [hI, hk, addPublicKeys_stored] at h1 h2
  rw [Key.getDepth_eq]
  exact ⟨fun h => (h1 h).2, fun h => ⟨(h2 h).2, (h2 h).1⟩⟩

/-- **C23** (partial). Public derivation is CKDpub of BIP-32 whenever `0 < IL < n` and the sum is not the point
at infinity. Missing: BIP-32 also rejects `IL ≥ n` and a sum at infinity, and accepts `IL = 0`; the code does
the opposite in these (astronomically rare) cases; see `C23_deviations`. -/
theorem C23_ckdPub_partial (H : Hashes) (order : List (Bytes × List VersionBytes)) (ho : order.Perm pathTable)
    (k : Key) (K : Pt) (i : UInt32) (hk : IsXpub k K) (hv : PubVersion k.getVersion) (hi : i.toNat < 2 ^ 31)
    (hpos : 0 < parse256 ((ckdPubI H K k.getChainCode i.toNat).take 32))
    (hIL : parse256 ((ckdPubI H K k.getChainCode i.toNat).take 32) < secpN)
    (hsum : point (parse256 ((ckdPubI H K k.getChainCode i.toNat).take 32)) + K ≠ 0) :
    ∃ K' c', ckdPub H.hmacSha512 K k.getChainCode i.toNat = some (K', c') ∧
      (k.newChildKey H (Registry.init order) i).2 = none ∧
      (k.newChildKey H (Registry.init order) i).1.fields =
        { version := k.getVersion
          depth := k.getDepth.map (· + 1)
          fingerPrint := (H.ripemd160 (H.sha256 (serP K))).take 4
          childNumber := ser32 i.toNat
          chainCode := c'
          keyBytes := serP K' } := by
  have hst := storedPoint_of_ne hk.2
  have h := (C23_ckdPub_exact H order ho k K i (by rw [hk.1, hst]) hv hi).2
  simp only [hst, ← ckdPubI_def] at h
  obtain ⟨h1, h2⟩ := h (by rw [Nat.mod_eq_of_lt hIL]; exact hpos.ne')
  refine ⟨point (parse256 ((ckdPubI H K k.getChainCode i.toNat).take 32)) + K,
    (ckdPubI H K k.getChainCode i.toNat).drop 32, ?_, h1, ?_⟩
  · rw [ckdPub_eq, if_neg (by rintro (h | h); · omega
                              · exact hsum h)]
  · rw [h2, storedPoint_of_ne hsum]

/-- An xpub key with point `K`. -/
def xpubKey (K : Pt) : Key := (Key.zero.setVersion (putUint32 0x0488b21e)).setPubKeyBytes (storedPoint K)

theorem storedPoint_length (K : Pt) : (storedPoint K).length = 33 := by
  by_cases h : K = 0
  · subst h; rw [storedPoint_zero]; simp
  · rw [storedPoint_of_ne h, serP_length K h]

theorem xpubKey_fields (K : Pt) : (xpubKey K).fields = ⟨0x0488b21e, [0], List.replicate 4 0, List.replicate 4 0,
    List.replicate 32 0, storedPoint K⟩ := by
  have h0 : (Key.zero.setVersion (putUint32 0x0488b21e)).fields = ⟨0x0488b21e, [0], List.replicate 4 0,
      List.replicate 4 0, List.replicate 32 0, List.replicate 33 0⟩ := by decide +kernel
  rw [xpubKey, fields_setPubKeyBytes _ _ (storedPoint_length K), h0]

theorem xpubKey_isXpub {K : Pt} (h : K ≠ 0) : IsXpub (xpubKey K) K :=
  ⟨(congrArg KeyFields.keyBytes (xpubKey_fields K)).trans (storedPoint_of_ne h), h⟩

theorem xpubKey_version (K : Pt) : PubVersion (xpubKey K).getVersion := by
  have : (xpubKey K).getVersion = 0x0488b21e := congrArg KeyFields.version (xpubKey_fields K)
  rw [this]
  exact ⟨bitcoinxprvxpub, (registered_iff _).2 (by decide +kernel), rfl⟩

theorem point_add (a b : Nat) : point a + point b = point (a + b) := (add_nsmul baseG a b).symm

theorem ckdPubI_hashesIL (n : Nat) (K : Pt) (c : Bytes) (i : Nat) (hn : n < 256 ^ 32) :
    parse256 ((ckdPubI (hashesIL n) K c i).take 32) = n := by
  rw [ckdPubI, hashesIL_take, parse256, setBytes_beBytes, Nat.mod_eq_of_lt hn]

/-- The hypotheses of C23 are met. -/
example : ∃ H K, IsXpub (xpubKey K) K ∧ PubVersion (xpubKey K).getVersion ∧
    0 < parse256 ((ckdPubI H K (xpubKey K).getChainCode 3).take 32) ∧
    parse256 ((ckdPubI H K (xpubKey K).getChainCode 3).take 32) < secpN ∧
    point (parse256 ((ckdPubI H K (xpubKey K).getChainCode 3).take 32)) + K ≠ 0 := by
  refine ⟨hashesIL 9, point 5, xpubKey_isXpub (point_ne_zero (by decide)), xpubKey_version _, ?_, ?_, ?_⟩ <;>
    rw [ckdPubI_hashesIL _ _ _ _ (by decide)]
  · decide
  · decide
  · rw [point_add]; exact point_ne_zero (by decide)

/-- **C23**, the deviations, for every index below 2³¹: the code accepts `IL ≥ n`; it accepts a sum at infinity
and stores `02 ‖ 0…0`, which encodes no point; it rejects `IL = 0` where BIP-32 returns the parent point. -/
theorem C23_deviations (order : List (Bytes × List VersionBytes)) (ho : order.Perm pathTable) (i : UInt32)
    (hi : i.toNat < 2 ^ 31) :
    (∃ H k K, IsXpub k K ∧ PubVersion k.getVersion ∧
      secpN ≤ parse256 ((ckdPubI H K k.getChainCode i.toNat).take 32) ∧
      ckdPub H.hmacSha512 K k.getChainCode i.toNat = none ∧ (k.newChildKey H (Registry.init order) i).2 = none) ∧
    (∃ H k K, IsXpub k K ∧ PubVersion k.getVersion ∧
      ckdPub H.hmacSha512 K k.getChainCode i.toNat = none ∧ (k.newChildKey H (Registry.init order) i).2 = none ∧
      (k.newChildKey H (Registry.init order) i).1.getKeyBytes = 2 :: List.replicate 32 0 ∧
      ¬ ∃ Q : Pt, Q ≠ 0 ∧ serP Q = 2 :: List.replicate 32 0) ∧
    (∃ H k K c', IsXpub k K ∧ PubVersion k.getVersion ∧
      ckdPub H.hmacSha512 K k.getChainCode i.toNat = some (K, c') ∧
      (k.newChildKey H (Registry.init order) i).2 = some .invalidPublicKey) := by
  have h5 : point 5 ≠ 0 := point_ne_zero (by decide)
  have hx := xpubKey_isXpub h5
  have hst := storedPoint_of_ne h5
  have ex := fun n => C23_ckdPub_exact (hashesIL n) order ho (xpubKey (point 5)) (point 5) i (by rw [hx.1, hst])
    (xpubKey_version _) hi
  simp only [hst, ← ckdPubI_def] at ex
  have hIL := fun n hn => ckdPubI_hashesIL n (point 5) (xpubKey (point 5)).getChainCode i.toNat hn
  have hspec : ∀ n, n < 256 ^ 32 → ckdPub (hashesIL n).hmacSha512 (point 5) (xpubKey (point 5)).getChainCode i.toNat =
      if secpN ≤ n ∨ point n + point 5 = 0 then none else some (point n + point 5,
        (ckdPubI (hashesIL n) (point 5) (xpubKey (point 5)).getChainCode i.toNat).drop 32) := by
    intro n hn
    rw [ckdPub_eq, hIL n hn]
  refine ⟨⟨hashesIL (secpN + 1), xpubKey (point 5), point 5, hx, xpubKey_version _, ?_, ?_, ?_⟩,
    ⟨hashesIL (secpN - 5), xpubKey (point 5), point 5, hx, xpubKey_version _, ?_, ?_, ?_, ?_⟩,
    ⟨hashesIL 0, xpubKey (point 5), point 5,
      (ckdPubI (hashesIL 0) (point 5) (xpubKey (point 5)).getChainCode i.toNat).drop 32, hx, xpubKey_version _, ?_, ?_⟩⟩
  · rw [hIL _ (by decide)]; decide
  · rw [hspec _ (by decide), if_pos (Or.inl (by decide))]
  · exact ((ex (secpN + 1)).2 (by rw [hIL _ (by decide)]; decide)).1
  · rw [hspec _ (by decide), if_pos]
    right
    rw [point_add]; exact (smul_baseG_eq_zero_iff _).2 (by decide)
  · exact ((ex (secpN - 5)).2 (by rw [hIL _ (by decide)]; decide)).1
  · have := ((ex (secpN - 5)).2 (by rw [hIL _ (by decide)]; decide)).2
    have h2 := congrArg KeyFields.keyBytes this
    rw [hIL _ (by decide), point_add, show point (secpN - 5 + 5) = 0 from (smul_baseG_eq_zero_iff _).2 (by decide)] at h2
    exact h2
  · rintro ⟨Q, hQ, e⟩
    have h1 := expandPublicKey_serP Q hQ
    rw [e, expandPublicKey_zero] at h1
    exact hQ ((coords_eq_zero_iff Q).1 h1.symm)
  · rw [hspec _ (by decide), if_neg]
    · rw [show point 0 = 0 from zero_nsmul _, zero_add]
    · rw [show point 0 = 0 from zero_nsmul _, zero_add]
      rintro (h | h)
      · exact absurd h (by decide)
      · exact h5 h
  · exact (ex 0).1 (by rw [hIL _ (by decide)]; decide)

end Bips
