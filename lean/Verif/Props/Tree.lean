import Verif.Props.Child

/-!
# C24–C32: neutering, whole derivation paths, watch-only wallets
-/

namespace Bips
open Spec

/-- Repeated derivation: `none` as soon as one step reports an error. -/
def deriveAll (step : Key → UInt32 → Key × Option Err) : Key → List UInt32 → Option Key
  | k, [] => some k
  | k, i :: is => match step k i with
    | (_, some _) => none
    | (c, none) => deriveAll step c is

theorem deriveAll_cons {step : Key → UInt32 → Key × Option Err} {k k' : Key} {i : UInt32} {is : List UInt32} :
    deriveAll step k (i :: is) = some k' ↔ ∃ c, step k i = (c, none) ∧ deriveAll step c is = some k' := by
  rw [deriveAll]
  rcases h : step k i with ⟨c, _ | e⟩
  · simp
  · simp

section
variable (H : Hashes) (order : List (Bytes × List VersionBytes)) (ho : order.Perm pathTable)
include ho

/-! ### Neutering -/

theorem neuter_xprv {k : Key} {s : Nat} (hk : IsXprv k s) :
    (k.publicKeyExtended (Registry.init order)).fields =
      { k.fields with version := neuterVersion k.getVersion, keyBytes := serP (point s) } := by
  obtain ⟨-, h2, -, h4⟩ := intermediary_xprv (hashesIL 0) hk 0
  rw [publicKeyExtended_private ho k h2, h4]

theorem neuter_xprv_isXpub {k : Key} {s : Nat} (hk : IsXprv k s) :
    IsXpub (k.publicKeyExtended (Registry.init order)) (point s) :=
  ⟨congrArg KeyFields.keyBytes (neuter_xprv order ho hk), point_ne_zero' hk.2.1 hk.2.2⟩

omit ho in
theorem publicKey_head (b : Bytes) : ∃ a l, publicKeyForPrivateKey b = a :: l ∧ a ≠ 0 := by
  rw [publicKeyForPrivateKey_eq, ← storedPoint_eq]
  exact storedPoint_cons _

/-- **C27.** Neutering keeps depth, fingerprint, child number and chain code and gives a key that is not private,
for every key whatsoever; for a private scalar the key bytes are the compressed encoding of the public point; it
is the identity on public keys of registered version; it is idempotent. -/
theorem C27_neuter (k : Key) :
    let N := fun k : Key => k.publicKeyExtended (Registry.init order)
    ((N k).isPrivate = false) ∧
    ((N k).getDepth = k.getDepth ∧ (N k).getFingerPrint = k.getFingerPrint ∧
      (N k).getChildNumber = k.getChildNumber ∧ (N k).getChainCode = k.getChainCode) ∧
    (∀ s, IsXprv k s → (N k).getKeyBytes = serP (point s)) ∧
    (k.isPrivate = false → (N k).getKeyBytes = k.getKeyBytes) ∧
    (k.isPrivate = false → PubVersion k.getVersion → N k = k) ∧
    N (N k) = N k := by
  intro N
  have idp : ∀ k, (N k).isPrivate = false ∧ PubVersion (N k).getVersion := by
    intro k
    cases hp : k.isPrivate with
    | true =>
      have h := publicKeyExtended_private ho k hp
      obtain ⟨a, l, hal, ha⟩ := publicKey_head k.getPvtKeyBytes
      have hb : (N k).getKeyBytes = a :: l := (congrArg KeyFields.keyBytes h).trans hal
      refine ⟨by rw [(isPrivate_of_keyBytes _ hb).1]; simpa using ha, ?_⟩
      have hv : (N k).getVersion = neuterVersion k.getVersion := congrArg KeyFields.version h
      rw [hv]; exact neuterVersion_pub _
    | false =>
      by_cases hv : PubVersion k.getVersion
      · have h := (publicKeyExtended_public ho k hp).1 hv
        have : N k = k := h
        rw [this]; exact ⟨hp, hv⟩
      · have h := (publicKeyExtended_public ho k hp).2 hv
        have hb : (N k).getKeyBytes = k.getKeyBytes := congrArg KeyFields.keyBytes h
        have hb' := hb
        rw [Key.getKeyBytes_eq k] at hb'
        have h2 := (isPrivate_of_keyBytes _ hb').1
        refine ⟨by rw [h2]; exact hp, ?_⟩
        have hv' : (N k).getVersion = 0x0488b21e := congrArg KeyFields.version h
        rw [hv']
        exact ⟨bitcoinxprvxpub, (registered_iff _).2 (by decide +kernel), rfl⟩
  have rest : (N k).fields = { k.fields with version := (N k).getVersion, keyBytes := (N k).getKeyBytes } ∧
      (k.isPrivate = false → (N k).getKeyBytes = k.getKeyBytes) := by
    cases hp : k.isPrivate with
    | true =>
      have h := publicKeyExtended_private ho k hp
      refine ⟨?_, by simp⟩
      have hv : (N k).getVersion = neuterVersion k.getVersion := congrArg KeyFields.version h
      have hb : (N k).getKeyBytes = publicKeyForPrivateKey k.getPvtKeyBytes := congrArg KeyFields.keyBytes h
      rw [hv, hb]; exact h
    | false =>
      by_cases hv : PubVersion k.getVersion
      · have h : N k = k := (publicKeyExtended_public ho k hp).1 hv
        rw [h]; exact ⟨rfl, fun _ => rfl⟩
      · have h := (publicKeyExtended_public ho k hp).2 hv
        have hv' : (N k).getVersion = 0x0488b21e := congrArg KeyFields.version h
        have hb : (N k).getKeyBytes = k.getKeyBytes := congrArg KeyFields.keyBytes h
        exact ⟨by rw [hv', hb]; exact h, fun _ => hb⟩
  refine ⟨(idp k).1, ⟨congrArg KeyFields.depth rest.1, congrArg KeyFields.fingerPrint rest.1,
    congrArg KeyFields.childNumber rest.1, congrArg KeyFields.chainCode rest.1⟩, ?_, rest.2,
    fun hp hv => (publicKeyExtended_public ho k hp).1 hv, (publicKeyExtended_public ho (N k) (idp k).1).1 (idp k).2⟩
  intro s hs
  exact (neuter_xprv_isXpub order ho hs).1

/-- **C24.** Neutering commutes with non-hardened derivation: if deriving the private child succeeds and the left
half of the HMAC is not 0 modulo the group order, the child of the neutered parent is the neutered child. -/
theorem C24_neuter_commutes (k c : Key) (s : Nat) (i : UInt32) (hk : IsXprv k s) (hv : PvtVersion k.getVersion)
    (hi : i.toNat < 2 ^ 31) (hc : k.newChildKey H (Registry.init order) i = (c, none))
    (hIL : parse256 ((ckdI H s k.getChainCode i.toNat).take 32) % secpN ≠ 0) :
    (k.publicKeyExtended (Registry.init order)).newChildKey H (Registry.init order) i =
      (c.publicKeyExtended (Registry.init order), none) := by
  set N := k.publicKeyExtended (Registry.init order) with hN
  have hNf := neuter_xprv order ho hk
  rw [← hN] at hNf
  have hs0 : point s ≠ 0 := point_ne_zero' hk.2.1 hk.2.2
  have hst := storedPoint_of_ne hs0
  have hNk : N.getKeyBytes = storedPoint (point s) := (congrArg KeyFields.keyBytes hNf).trans hst.symm
  have hNv : N.getVersion = neuterVersion k.getVersion := congrArg KeyFields.version hNf
  have hNc : N.getChainCode = k.getChainCode := congrArg KeyFields.chainCode hNf
  have hNd : N.getDepth = k.getDepth := congrArg KeyFields.depth hNf
  have hI : ckdI H s k.getChainCode i.toNat = H.hmacSha512 k.getChainCode (serP (point s) ++ ser32 i.toNat) := by
    rw [ckdI, if_neg (by omega)]
  obtain ⟨h1, h2⟩ := C22_ckdPriv_exact H order ho k s i hk hv
  have hpub := (C23_ckdPub_exact H order ho N (point s) i hNk (by rw [hNv]; exact neuterVersion_pub _) hi).2
  simp only [hst, hNc, ← hI] at hpub
  obtain ⟨p1, p2⟩ := hpub hIL
  rw [hc] at h1 h2
  have hs' : ¬ (parse256 ((ckdI H s k.getChainCode i.toNat).take 32) + s) % secpN = 0 := by
    intro e; rw [if_pos e] at h1; simp at h1
  have hcx : IsXprv c ((parse256 ((ckdI H s k.getChainCode i.toNat).take 32) + s) % secpN) :=
    ⟨congrArg KeyFields.keyBytes h2, by omega, Nat.mod_lt _ secpN_prime.pos⟩
  apply Prod.ext
  · apply Key.fields_inj
    rw [p2, neuter_xprv order ho hcx, h2]
    have hcv : c.getVersion = k.getVersion := congrArg KeyFields.version h2
    have hpt : point ((parse256 ((ckdI H s k.getChainCode i.toNat).take 32) + s) % secpN) =
        point (parse256 ((ckdI H s k.getChainCode i.toNat).take 32)) + point s := by
      rw [point_add]; exact mod_smul_baseG _
    rw [hcv, hNv, hNd, hpt, storedPoint_of_ne]
    rw [← hpt]
    exact point_ne_zero (by rw [Nat.mod_mod]; exact hs')
  · exact p1

/-- **C24**, the excluded case: when the left half of the HMAC is 0 modulo the group order, private derivation
succeeds and public derivation fails. -/
theorem C24_excluded_case (k : Key) (s : Nat) (i : UInt32) (hk : IsXprv k s) (hv : PvtVersion k.getVersion)
    (hi : i.toNat < 2 ^ 31) (hIL : parse256 ((ckdI H s k.getChainCode i.toNat).take 32) % secpN = 0) :
    (k.newChildKey H (Registry.init order) i).2 = none ∧
    ((k.publicKeyExtended (Registry.init order)).newChildKey H (Registry.init order) i).2 =
      some .invalidPublicKey := by
  obtain ⟨h1, h2⟩ := C22_ckdPriv_exact H order ho k s i hk hv
  have hs := hk.2
  constructor
  · rw [h1, if_neg]
    rw [Nat.add_mod, hIL, zero_add, Nat.mod_mod, Nat.mod_eq_of_lt hs.2]; omega
  · have hNf := neuter_xprv order ho hk
    have hst := storedPoint_of_ne (point_ne_zero' hs.1 hs.2)
    have hpub := (C23_ckdPub_exact H order ho (k.publicKeyExtended (Registry.init order)) (point s) i
      ((congrArg KeyFields.keyBytes hNf).trans hst.symm)
      (by rw [show Key.getVersion _ = neuterVersion k.getVersion from congrArg KeyFields.version hNf]
          exact neuterVersion_pub _) hi).1
    apply hpub
    rw [hst, show Key.getChainCode _ = k.getChainCode from congrArg KeyFields.chainCode hNf]
    rw [ckdI, if_neg (by omega)] at hIL
    exact hIL

/-! ### Paths -/

/-- One successful private step keeps the form of the key. -/
theorem step_xprv {k c : Key} {s : Nat} {i : UInt32} (hk : IsXprv k s) (hv : PvtVersion k.getVersion)
    (hc : k.newChildKey H (Registry.init order) i = (c, none)) :
    IsXprv c ((parse256 ((ckdI H s k.getChainCode i.toNat).take 32) + s) % secpN) ∧ PvtVersion c.getVersion ∧
    c.getVersion = k.getVersion := by
  obtain ⟨h1, h2⟩ := C22_ckdPriv_exact H order ho k s i hk hv
  rw [hc] at h1 h2
  have hs' : ¬ (parse256 ((ckdI H s k.getChainCode i.toNat).take 32) + s) % secpN = 0 := by
    intro e; rw [if_pos e] at h1; simp at h1
  have hcv : c.getVersion = k.getVersion := congrArg KeyFields.version h2
  exact ⟨⟨congrArg KeyFields.keyBytes h2, by omega, Nat.mod_lt _ secpN_prime.pos⟩, by rw [hcv]; exact hv, hcv⟩

/-- **C25.** For every list of non-hardened indices, of any length: if the private derivation and the public
derivation both succeed, the watch-only key is the neutered private key. -/
theorem C25_watch_only (is : List UInt32) (hi : ∀ i ∈ is, i.toNat < 2 ^ 31) (k : Key) (s : Nat) (hk : IsXprv k s)
    (hv : PvtVersion k.getVersion) (k' K' : Key)
    (h1 : deriveAll (Key.newChildKey H (Registry.init order)) k is = some k')
    (h2 : deriveAll (Key.newChildKey H (Registry.init order)) (k.publicKeyExtended (Registry.init order)) is = some K') :
    K' = k'.publicKeyExtended (Registry.init order) := by
  induction is generalizing k s with
  | nil =>
    simp only [deriveAll, Option.some.injEq] at h1 h2
    rw [← h1, ← h2]
  | cons i is ih =>
    rw [deriveAll_cons] at h1 h2
    obtain ⟨c, hc, hr⟩ := h1
    obtain ⟨C, hC, hR⟩ := h2
    have hin := hi i (by simp)
    by_cases hIL : parse256 ((ckdI H s k.getChainCode i.toNat).take 32) % secpN = 0
    · have := (C24_excluded_case H order ho k s i hk hv hin hIL).2
      rw [hC] at this; simp at this
    · have := C24_neuter_commutes H order ho k c s i hk hv hin hc hIL
      rw [hC] at this
      obtain rfl := (Prod.mk.inj this).1
      obtain ⟨hx, hvc, -⟩ := step_xprv H order ho hk hv hc
      exact ih (fun j hj => hi j (by simp [hj])) c _ hx hvc hr hR

/-- The path `is` from `k` passes through a private key, reached by a proper prefix of `is`, whose next step has an
HMAC left half that is 0 modulo the group order. -/
def MeetsZeroIL (k : Key) (is : List UInt32) : Prop :=
  ∃ (pre : List UInt32) (i : UInt32) (post : List UInt32) (m : Key) (t : Nat), is = pre ++ i :: post ∧
    deriveAll (Key.newChildKey H (Registry.init order)) k pre = some m ∧ IsXprv m t ∧
    parse256 ((ckdI H t m.getChainCode i.toNat).take 32) % secpN = 0

/-- **C25**, second part: if the private derivation succeeds, the public one fails exactly when some step has an HMAC
left half that is 0 modulo the group order; otherwise it gives the neutered private key. -/
theorem C25_public_succeeds (is : List UInt32) (hi : ∀ i ∈ is, i.toNat < 2 ^ 31) (k : Key) (s : Nat) (hk : IsXprv k s)
    (hv : PvtVersion k.getVersion) (k' : Key)
    (h1 : deriveAll (Key.newChildKey H (Registry.init order)) k is = some k') :
    (deriveAll (Key.newChildKey H (Registry.init order)) (k.publicKeyExtended (Registry.init order)) is = none ∧
      MeetsZeroIL H order k is) ∨
    (deriveAll (Key.newChildKey H (Registry.init order)) (k.publicKeyExtended (Registry.init order)) is =
      some (k'.publicKeyExtended (Registry.init order)) ∧ ¬ MeetsZeroIL H order k is) := by
  induction is generalizing k s with
  | nil =>
    right
    simp only [deriveAll, Option.some.injEq] at h1 ⊢
    refine ⟨by rw [h1], ?_⟩
    rintro ⟨pre, i, post, m, t, h, -⟩
    simp at h
  | cons i is ih =>
    rw [deriveAll_cons] at h1
    obtain ⟨c, hc, hr⟩ := h1
    obtain ⟨hx, hvc, -⟩ := step_xprv H order ho hk hv hc
    have hin := hi i (by simp)
    by_cases hIL : parse256 ((ckdI H s k.getChainCode i.toNat).take 32) % secpN = 0
    · left
      have h2 := (C24_excluded_case H order ho k s i hk hv hin hIL).2
      refine ⟨?_, [], i, is, k, s, rfl, rfl, hk, hIL⟩
      rw [deriveAll]
      rcases hstep : (k.publicKeyExtended (Registry.init order)).newChildKey H (Registry.init order) i with ⟨C, _ | e⟩
      · rw [hstep] at h2; simp at h2
      · rfl
    · have hN := C24_neuter_commutes H order ho k c s i hk hv hin hc hIL
      have hd : deriveAll (Key.newChildKey H (Registry.init order)) (k.publicKeyExtended (Registry.init order))
          (i :: is) = deriveAll (Key.newChildKey H (Registry.init order))
            (c.publicKeyExtended (Registry.init order)) is := by
        rw [deriveAll, hN]
      have hM : MeetsZeroIL H order k (i :: is) ↔ MeetsZeroIL H order c is := by
        constructor
        · rintro ⟨pre, j, post, m, t, he, hp, hm, hz⟩
          cases pre with
          | nil =>
            exfalso
            simp only [deriveAll, Option.some.injEq] at hp
            subst hp
            simp only [List.nil_append, List.cons.injEq] at he
            obtain ⟨rfl, -⟩ := he
            have e1 := (intermediary_xprv H hk 0).2.2.1
            have e2 := (intermediary_xprv H hm 0).2.2.1
            rw [e1] at e2
            subst e2
            exact hIL hz
          | cons a pre =>
            simp only [List.cons_append, List.cons.injEq] at he
            obtain ⟨rfl, he⟩ := he
            rw [deriveAll_cons] at hp
            obtain ⟨c', hc', hp⟩ := hp
            rw [hc] at hc'
            obtain ⟨rfl, -⟩ := Prod.mk.inj hc'
            exact ⟨pre, j, post, m, t, he, hp, hm, hz⟩
        · rintro ⟨pre, j, post, m, t, he, hp, hm, hz⟩
          exact ⟨i :: pre, j, post, m, t, by rw [he]; rfl, deriveAll_cons.2 ⟨c, hc, hp⟩, hm, hz⟩
      rw [hd, hM]
      exact ih (fun j hj => hi j (by simp [hj])) c _ hx hvc hr

omit ho in
/-- **C26.** No hardened child of a public key. -/
theorem C26_no_hardened_from_public (k : Key) (i : UInt32) (hp : k.isPrivate = false) (hi : 2 ^ 31 ≤ i.toNat) :
    (k.newChildKey H (Registry.init order) i).2 = some .hardenedChildPublicKey ∧
    (k.newChildKey H (Registry.init order) i).1.bytes = List.replicate 78 0 := by
  rw [newChildKey_hardened_public H _ k i hp hi]
  exact ⟨rfl, rfl⟩

omit ho in
/-- The parent scalar as computed by someone who knows the extended public parent key `pub`, the private key bytes
`child` of one child and its index. -/
def recoverParent (pub : Key) (child : Bytes) (i : UInt32) : Nat :=
  let IL := parse256 ((H.hmacSha512 pub.getChainCode (pub.getKeyBytes ++ ser32 i.toNat)).take 32)
  (parse256 child + (secpN - IL % secpN)) % secpN

/-- **C28.** One non-hardened private child and the extended public parent reveal the parent's private scalar. -/
theorem C28_parent_recovered (k c : Key) (s : Nat) (i : UInt32) (hk : IsXprv k s) (hv : PvtVersion k.getVersion)
    (hi : i.toNat < 2 ^ 31) (hc : k.newChildKey H (Registry.init order) i = (c, none)) :
    recoverParent H (k.publicKeyExtended (Registry.init order)) c.getPvtKeyBytes i = s := by
  have hNf := neuter_xprv order ho hk
  obtain ⟨hx, -, -⟩ := step_xprv H order ho hk hv hc
  have hcs := (intermediary_xprv H hx 0).2.2.1
  unfold recoverParent
  rw [show Key.getKeyBytes _ = serP (point s) from congrArg KeyFields.keyBytes hNf,
    show Key.getChainCode _ = k.getChainCode from congrArg KeyFields.chainCode hNf,
    show parse256 c.getPvtKeyBytes = _ from hcs]
  rw [ckdI, if_neg (by omega)]
  change ((parse256 ((H.hmacSha512 k.getChainCode (serP (point s) ++ ser32 i.toNat)).take 32) + s) % secpN +
    (secpN - parse256 ((H.hmacSha512 k.getChainCode (serP (point s) ++ ser32 i.toNat)).take 32) % secpN)) % secpN = s
  generalize parse256 ((H.hmacSha512 k.getChainCode (serP (point s) ++ ser32 i.toNat)).take 32) = x
  have hlt := Nat.mod_lt x secpN_prime.pos
  have hs := hk.2.2
  have e1 : (x + s) % secpN = (x % secpN + s) % secpN := by rw [Nat.add_mod, Nat.mod_eq_of_lt hs]
  rw [e1, Nat.add_mod, Nat.mod_mod, ← Nat.add_mod]
  have e2 : x % secpN + s + (secpN - x % secpN) = s + secpN := by omega
  rw [e2, Nat.add_mod_right, Nat.mod_eq_of_lt hs]

/-- **C29.** Derivation and neutering give the same result whatever the map iteration order at initialisation. -/
theorem C29_order_irrelevant (order' : List (Bytes × List VersionBytes)) (ho' : order'.Perm pathTable) (k : Key)
    (i : UInt32) :
    k.newChildKey H (Registry.init order) i = k.newChildKey H (Registry.init order') i ∧
    k.publicKeyExtended (Registry.init order) = k.publicKeyExtended (Registry.init order') ∧
    k.publicKeyHex (Registry.init order) = k.publicKeyHex (Registry.init order') := by
  have hN : k.publicKeyExtended (Registry.init order) = k.publicKeyExtended (Registry.init order') := by
    apply Key.fields_inj
    cases hp : k.isPrivate with
    | true => rw [publicKeyExtended_private ho k hp, publicKeyExtended_private ho' k hp]
    | false =>
      by_cases hv : PubVersion k.getVersion
      · rw [(publicKeyExtended_public ho k hp).1 hv, (publicKeyExtended_public ho' k hp).1 hv]
      · rw [(publicKeyExtended_public ho k hp).2 hv, (publicKeyExtended_public ho' k hp).2 hv]
  refine ⟨?_, hN, by rw [Key.publicKeyHex, Key.publicKeyHex, hN]⟩
  cases hp : k.isPrivate with
  | true =>
    by_cases hv : PvtVersion k.getVersion
    · have h1 := newChildKey_private H ho k i hp hv
      have h2 := newChildKey_private H ho' k i hp hv
      exact Prod.ext (Key.fields_inj (h1.1.trans h2.1.symm)) (h1.2.trans h2.2.symm)
    · rw [newChildKey_unregistered H ho k i (Or.inl hp) (by rw [hp]; exact hv),
        newChildKey_unregistered H ho' k i (Or.inl hp) (by rw [hp]; exact hv)]
  | false =>
    by_cases hi : 2 ^ 31 ≤ i.toNat
    · rw [newChildKey_hardened_public H _ k i hp hi, newChildKey_hardened_public H _ k i hp hi]
    · have hi' : i.toNat < 2 ^ 31 := by omega
      by_cases hv : PubVersion k.getVersion
      · have h1 := newChildKey_public H ho k i hi' hp hv
        have h2 := newChildKey_public H ho' k i hi' hp hv
        by_cases hIL : setBytes ((k.getIntermediary H i).take 32) % secpN = 0
        · exact Prod.ext (Key.fields_inj ((h1.1 hIL).1.trans (h2.1 hIL).1.symm)) ((h1.1 hIL).2.trans (h2.1 hIL).2.symm)
        · exact Prod.ext (Key.fields_inj ((h1.2 hIL).1.trans (h2.2 hIL).1.symm)) ((h1.2 hIL).2.trans (h2.2 hIL).2.symm)
      · rw [newChildKey_unregistered H ho k i (Or.inr hi') (by rw [hp]; simpa using hv),
          newChildKey_unregistered H ho' k i (Or.inr hi') (by rw [hp]; simpa using hv)]

/-- **C30.** The version is rejected exactly when it is not registered for the kind of key (and the request is not
already rejected as hardened-from-public); neutering then uses the xpub version. -/
theorem C30_unregistered_version (k : Key) (i : UInt32) :
    ((k.newChildKey H (Registry.init order) i).2 = some .unSupportedHDVersionBytes ↔
      ¬ (k.isPrivate = false ∧ 2 ^ 31 ≤ i.toNat) ∧
      (if k.isPrivate then ¬ PvtVersion k.getVersion else ¬ PubVersion k.getVersion)) ∧
    ((if k.isPrivate then ¬ PvtVersion k.getVersion else ¬ PubVersion k.getVersion) →
      (k.publicKeyExtended (Registry.init order)).getVersion = 0x0488b21e) ∧
    (k.isPrivate = true → ∀ e, Registered e → e.pvtKeyFlag = k.getVersion →
      (k.publicKeyExtended (Registry.init order)).getVersion = e.pubKeyFlag) := by
  refine ⟨⟨?_, ?_⟩, ?_, ?_⟩
  · intro h
    cases hp : k.isPrivate with
    | true =>
      refine ⟨by simp, ?_⟩
      rw [if_pos rfl]
      intro hv
      rw [(newChildKey_private H ho k i hp hv).2] at h
      split at h <;> simp at h
    | false =>
      have hi : ¬ 2 ^ 31 ≤ i.toNat := by
        intro hi
        rw [newChildKey_hardened_public H _ k i hp hi] at h; simp at h
      refine ⟨fun hh => hi hh.2, ?_⟩
      rw [if_neg (by simp)]
      intro hv
      have h1 := newChildKey_public H ho k i (by omega) hp hv
      by_cases hIL : setBytes ((k.getIntermediary H i).take 32) % secpN = 0
      · rw [(h1.1 hIL).2] at h; simp at h
      · rw [(h1.2 hIL).2] at h; simp at h
  · rintro ⟨h1, h2⟩
    rw [newChildKey_unregistered H ho k i _ h2]
    by_contra hcon
    push Not at hcon
    exact h1 ⟨by simpa using hcon.1, hcon.2⟩
  · intro h
    cases hp : k.isPrivate with
    | true =>
      rw [hp, if_pos rfl] at h
      have := congrArg KeyFields.version (publicKeyExtended_private ho k hp)
      rw [neuterVersion_default h] at this
      exact this
    | false =>
      rw [hp, if_neg (by simp)] at h
      exact congrArg KeyFields.version ((publicKeyExtended_public ho k hp).2 h)
  · intro hp e he hv
    have := congrArg KeyFields.version (publicKeyExtended_private ho k hp)
    rw [← hv, neuterVersion_of he] at this
    exact this

theorem step_depth {k c : Key} {i : UInt32} (hc : k.newChildKey H (Registry.init order) i = (c, none)) :
    c.getDepth = k.getDepth.map (· + 1) ∧ c.getVersion = k.getVersion ∧ c.isPrivate = k.isPrivate ∨
    c.getDepth = k.getDepth.map (· + 1) ∧ k.isPrivate = false := by
  rw [Key.getDepth_eq k]
  cases hp : k.isPrivate with
  | true =>
    left
    by_cases hv : PvtVersion k.getVersion
    · have h1 := (newChildKey_private H ho k i hp hv).1
      rw [hc] at h1
      have hb : c.getKeyBytes = 0 :: _ := congrArg KeyFields.keyBytes h1
      exact ⟨congrArg KeyFields.depth h1, congrArg KeyFields.version h1, (isPrivate_of_keyBytes c hb).1⟩
    · rw [newChildKey_unregistered H ho k i (Or.inl hp) (by rw [hp]; exact hv)] at hc; simp at hc
  | false =>
    right
    by_cases hi : 2 ^ 31 ≤ i.toNat
    · rw [newChildKey_hardened_public H _ k i hp hi] at hc; simp at hc
    by_cases hv : PubVersion k.getVersion
    · have h1 := newChildKey_public H ho k i (by omega) hp hv
      by_cases hIL : setBytes ((k.getIntermediary H i).take 32) % secpN = 0
      · have := (h1.1 hIL).2; rw [hc] at this; simp at this
      · have := (h1.2 hIL).1; rw [hc] at this
        exact ⟨congrArg KeyFields.depth this, rfl⟩
    · rw [newChildKey_unregistered H ho k i (Or.inr (by omega)) (by rw [hp]; simpa using hv)] at hc; simp at hc

/-- **C31**, exact form: after any successful derivation, from any key, the depth byte has advanced by the number
of steps, modulo 256. -/
theorem C31_depth_exact (is : List UInt32) (k k' : Key) (d : UInt8) (hd : k.getDepth = [d])
    (h : deriveAll (Key.newChildKey H (Registry.init order)) k is = some k') :
    k'.getDepth = [UInt8.ofNat (d.toNat + is.length)] := by
  induction is generalizing k d with
  | nil =>
    simp only [deriveAll, Option.some.injEq] at h
    rw [← h, hd]; simp
  | cons i is ih =>
    rw [deriveAll_cons] at h
    obtain ⟨c, hc, hr⟩ := h
    have hcd : c.getDepth = [d + 1] := by
      rcases step_depth H order ho hc with h | h <;> rw [h.1, hd] <;> rfl
    rw [ih c (d + 1) hcd hr]
    congr 1
    apply UInt8.toNat_inj.1
    simp [UInt8.toNat_add]
    omega

/-- **C31** (partial). The depth byte is the number of steps from a depth-0 key, for up to 255 steps. Missing:
longer paths, for which the byte wraps (`C31_wraps`) although BIP-32 has no key of depth 256. -/
theorem C31_depth_partial (is : List UInt32) (k k' : Key) (hd : k.getDepth = [0]) (hl : is.length ≤ 255)
    (h : deriveAll (Key.newChildKey H (Registry.init order)) k is = some k') :
    ∃ d : UInt8, k'.getDepth = [d] ∧ d.toNat = is.length := by
  refine ⟨_, C31_depth_exact H order ho is k k' 0 hd h, ?_⟩
  simp; omega

/-- **C32**, private part: along every successful derivation path, of any length, from a well-formed private key
every key is private with its scalar in `[1, n-1]`, under the same version. -/
theorem C32_private_validity (is : List UInt32) (k k' : Key) (s : Nat) (hk : IsXprv k s)
    (hv : PvtVersion k.getVersion) (h : deriveAll (Key.newChildKey H (Registry.init order)) k is = some k') :
    (∃ s', IsXprv k' s') ∧ k'.getVersion = k.getVersion ∧ k'.isPrivate = true := by
  induction is generalizing k s with
  | nil =>
    simp only [deriveAll, Option.some.injEq] at h
    subst h
    exact ⟨⟨s, hk⟩, rfl, (intermediary_xprv H hk 0).2.1⟩
  | cons i is ih =>
    rw [deriveAll_cons] at h
    obtain ⟨c, hc, hr⟩ := h
    obtain ⟨hx, hvc, he⟩ := step_xprv H order ho hk hv hc
    have := ih c _ hx hvc hr
    exact ⟨this.1, this.2.1.trans he, this.2.2⟩

/-- **C32**, public part: along every successful derivation path from a public key on the curve every key is the
compressed encoding of a curve point, or the bytes `02 ‖ 0…0`. -/
theorem C32_public_validity (is : List UInt32) (k k' : Key) (K : Pt) (hk : IsXpub k K)
    (hv : PubVersion k.getVersion) (h : deriveAll (Key.newChildKey H (Registry.init order)) k is = some k') :
    ((∃ K', IsXpub k' K') ∨ k'.getKeyBytes = 2 :: List.replicate 32 0) ∧ k'.getVersion = k.getVersion ∧
    k'.isPrivate = false := by
  have gen : ∀ (is : List UInt32) (k : Key) (Q : Pt), k.getKeyBytes = storedPoint Q → PubVersion k.getVersion →
      deriveAll (Key.newChildKey H (Registry.init order)) k is = some k' →
      (∃ Q', k'.getKeyBytes = storedPoint Q') ∧ k'.getVersion = k.getVersion := by
    intro is
    induction is with
    | nil =>
      intro k Q hk hv h
      simp only [deriveAll, Option.some.injEq] at h
      subst h
      exact ⟨⟨Q, hk⟩, rfl⟩
    | cons i is ih =>
      intro k Q hk hv h
      rw [deriveAll_cons] at h
      obtain ⟨c, hc, hr⟩ := h
      have hi : i.toNat < 2 ^ 31 := by
        by_contra hi
        rw [newChildKey_hardened_public H _ k i (storedPoint_not_private hk) (by omega)] at hc
        simp at hc
      obtain ⟨e1, e2⟩ := C23_ckdPub_exact H order ho k Q i hk hv hi
      rw [hc] at e1 e2
      have hIL : ¬ parse256 ((H.hmacSha512 k.getChainCode (storedPoint Q ++ ser32 i.toNat)).take 32) % secpN = 0 := by
        intro e; have := e1 e; simp at this
      have hf := (e2 hIL).2
      have hvc : c.getVersion = k.getVersion := congrArg KeyFields.version hf
      have := ih c _ (congrArg KeyFields.keyBytes hf) (by rw [hvc]; exact hv) hr
      exact ⟨this.1, this.2.trans hvc⟩
  obtain ⟨⟨Q, hQ⟩, hvv⟩ := gen is k K (by rw [hk.1, storedPoint_of_ne hk.2]) hv h
  refine ⟨?_, hvv, storedPoint_not_private hQ⟩
  by_cases h0 : Q = 0
  · right; rw [hQ, h0]; rfl
  · left; exact ⟨Q, by rw [hQ, storedPoint_of_ne h0], h0⟩

end

/-! ### Witnesses for the theorems above -/

theorem hashesIL_child (order : List (Bytes × List VersionBytes)) (ho : order.Perm pathTable) (n : Nat)
    (hn : n < 256 ^ 32) (k : Key) (s : Nat) (i : UInt32) (hk : IsXprv k s) (hv : PvtVersion k.getVersion)
    (h : (n + s) % secpN ≠ 0) :
    ∃ c, k.newChildKey (hashesIL n) (Registry.init order) i = (c, none) ∧ IsXprv c ((n + s) % secpN) ∧
      PvtVersion c.getVersion := by
  have h1 := (C22_ckdPriv_exact (hashesIL n) order ho k s i hk hv).1
  rw [ckdI_hashesIL _ _ _ _ hn, if_neg h] at h1
  have hc : k.newChildKey (hashesIL n) (Registry.init order) i =
      ((k.newChildKey (hashesIL n) (Registry.init order) i).1, none) := Prod.ext rfl h1
  refine ⟨_, hc, ?_⟩
  have := step_xprv (hashesIL n) order ho hk hv hc
  rw [ckdI_hashesIL _ _ _ _ hn] at this
  exact ⟨this.1, this.2.1⟩

/-- With an HMAC whose left half is always 1, paths of every length below `n` succeed, privately and publicly. -/
theorem long_paths (order : List (Bytes × List VersionBytes)) (ho : order.Perm pathTable) (is : List UInt32) :
    ∀ (k : Key) (s : Nat), IsXprv k s → PvtVersion k.getVersion → s + is.length < secpN →
    ∃ k', deriveAll (Key.newChildKey (hashesIL 1) (Registry.init order)) k is = some k' ∧ IsXprv k' (s + is.length) := by
  induction is with
  | nil => intro k s hk hv hl; exact ⟨k, rfl, hk⟩
  | cons i is ih =>
    intro k s hk hv hl
    rw [List.length_cons] at hl ⊢
    have e : (1 + s) % secpN = s + 1 := by rw [Nat.mod_eq_of_lt (by omega)]; omega
    obtain ⟨c, hc, hx, hvc⟩ := hashesIL_child order ho 1 (by decide) k s i hk hv (by rw [e]; omega)
    rw [e] at hx
    obtain ⟨k', h1, h2⟩ := ih c (s + 1) hx hvc (by omega)
    refine ⟨k', deriveAll_cons.2 ⟨c, hc, h1⟩, ?_⟩
    rw [show s + (is.length + 1) = s + 1 + is.length by omega]
    exact h2

/-- The hypotheses of C24, C25, C28, C31 and C32 are met together: a private path of three non-hardened steps and
its public counterpart both succeed. -/
example (order : List (Bytes × List VersionBytes)) (ho : order.Perm pathTable) : ∃ H k s k' K',
    IsXprv k s ∧ PvtVersion k.getVersion ∧ k.getDepth = [0] ∧
    deriveAll (Key.newChildKey H (Registry.init order)) k [0, 7, 2147483647] = some k' ∧
    deriveAll (Key.newChildKey H (Registry.init order)) (k.publicKeyExtended (Registry.init order)) [0, 7, 2147483647] =
      some K' := by
  have hx := xprvKey_isXprv (s := 5) (by decide) (by decide)
  obtain ⟨k', h1, -⟩ := long_paths order ho [0, 7, 2147483647] (xprvKey 5) 5 hx (xprvKey_version _) (by decide)
  rcases C25_public_succeeds (hashesIL 1) order ho _ (by decide) _ _ hx (xprvKey_version _) k' h1 with h | h
  · obtain ⟨-, pre, i, post, m, t, -, -, -, hz⟩ := h
    rw [ckdI_hashesIL _ _ _ _ (by decide)] at hz
    exact absurd hz (by decide)
  · exact ⟨hashesIL 1, xprvKey 5, 5, k', k'.publicKeyExtended (Registry.init order), hx, xprvKey_version _,
      congrArg KeyFields.depth (xprvKey_fields 5), h1, h.1⟩

/-- **C31**, the deviation: 256 successful steps from a depth-0 key give a key of depth 0 again. -/
theorem C31_wraps (order : List (Bytes × List VersionBytes)) (ho : order.Perm pathTable) :
    ∃ (H : Hashes) (k k' : Key) (is : List UInt32), k.getDepth = [0] ∧ is.length = 256 ∧
      deriveAll (Key.newChildKey H (Registry.init order)) k is = some k' ∧ k'.getDepth = [0] := by
  have hx := xprvKey_isXprv (s := 5) (by decide) (by decide)
  have hd : (xprvKey 5).getDepth = [0] := congrArg KeyFields.depth (xprvKey_fields 5)
  obtain ⟨k', h1, -⟩ := long_paths order ho (List.replicate 256 0) (xprvKey 5) 5 hx (xprvKey_version _)
    (by rw [List.length_replicate]; decide)
  refine ⟨hashesIL 1, xprvKey 5, k', _, hd, List.length_replicate, h1, ?_⟩
  rw [C31_depth_exact (hashesIL 1) order ho _ _ _ 0 hd h1, List.length_replicate]
  rfl

/-- C26, C30: such keys exist. -/
example : (xpubKey (point 5)).isPrivate = false ∧ ¬ PvtVersion Key.zero.getVersion ∧ ¬ PubVersion Key.zero.getVersion := by
  refine ⟨storedPoint_not_private (congrArg KeyFields.keyBytes (xpubKey_fields _)), ?_, ?_⟩
  · rintro ⟨e, he, h⟩
    have : ∀ e ∈ entries, e.pvtKeyFlag ≠ Key.zero.getVersion := by decide +kernel
    exact this e ((registered_iff e).1 he) h
  · rintro ⟨e, he, h⟩
    have : ∀ e ∈ entries, e.pubKeyFlag ≠ Key.zero.getVersion := by decide +kernel
    exact this e ((registered_iff e).1 he) h

/-! ### C33–C35 -/

/-- **C33.** Decompression inverts compression on every affine point of secp256k1, given by its two coordinates, and
compression inverts decompression on every 33-byte encoding of a curve point. -/
theorem C33_point_encoding :
    (∀ x y : Nat, x < secpP → y < secpP → y ^ 2 % secpP = (x ^ 3 + 7) % secpP →
      expandPublicKeyGo (compressPublicKey (x, y)) = .ok (x, y)) ∧
    (∀ (h : UInt8) (b : Bytes), (h = 2 ∨ h = 3) → b.length = 32 → setBytes b < secpP →
      (∃ y : Nat, y ^ 2 % secpP = (setBytes b ^ 3 + 7) % secpP) →
      ∃ x y, expandPublicKeyGo (h :: b) = .ok (x, y) ∧ x = setBytes b ∧ y < secpP ∧
        y ^ 2 % secpP = (x ^ 3 + 7) % secpP ∧ y % 2 = h.toNat - 2 ∧ compressPublicKey (x, y) = h :: b) := by
  have mkpt : ∀ x y : Nat, y ^ 2 % secpP = (x ^ 3 + 7) % secpP → secp.Nonsingular (x : Fp) (y : Fp) := by
    intro x y h
    rw [secp_nonsingular_iff]
    have := (ZMod.natCast_eq_natCast_iff' (y ^ 2) (x ^ 3 + 7) secpP).2 h
    push_cast at this
    exact this
  have go : ∀ b : Bytes, b ≠ [] → expandPublicKeyGo b = .ok (expandPublicKey b) := by
    intro b hb
    cases b with
    | nil => exact absurd rfl hb
    | cons a l => rfl
  have first : ∀ x y : Nat, x < secpP → y < secpP → y ^ 2 % secpP = (x ^ 3 + 7) % secpP →
      expandPublicKey (compressPublicKey (x, y)) = (x, y) := by
    intro x y hx hy h
    have := expandPublicKey_compress (.some _ _ (mkpt x y h))
    rw [coords_some, ZMod.val_natCast, ZMod.val_natCast, Nat.mod_eq_of_lt hx, Nat.mod_eq_of_lt hy] at this
    exact this
  refine ⟨fun x y hx hy h => ?_, ?_⟩
  · rw [go _ (by simp [compressPublicKey]), first x y hx hy h]
  · intro h b hh hb hx hy
    obtain ⟨y0, hy0⟩ := hy
    -- a root of the requested parity
    obtain ⟨y, hyl, hyeq, hpar⟩ : ∃ y, y < secpP ∧ y ^ 2 % secpP = (setBytes b ^ 3 + 7) % secpP ∧
        y % 2 = h.toNat - 2 := by
      have hmod : (y0 % secpP) ^ 2 % secpP = (setBytes b ^ 3 + 7) % secpP := by rw [← Nat.pow_mod, hy0]
      have hlt := Nat.mod_lt y0 secpP_prime.pos
      have hne : y0 % secpP ≠ 0 := by
        have := secp_y_ne_zero (mkpt _ _ hmod)
        intro e; rw [e] at this; simp at this
      have hodd := secpP_odd
      by_cases hpar : (y0 % secpP) % 2 = h.toNat - 2
      · exact ⟨_, hlt, hmod, hpar⟩
      · refine ⟨secpP - y0 % secpP, by omega, ?_, ?_⟩
        · rw [← hmod]
          have : (((secpP - y0 % secpP) ^ 2 : Nat) : Fp) = (((y0 % secpP) ^ 2 : Nat) : Fp) := by
            push_cast [Nat.cast_sub hlt.le]
            rw [ZMod.natCast_self]; ring
          exact (ZMod.natCast_eq_natCast_iff' _ _ _).1 this
        · rcases hh with rfl | rfl
          · change _ % 2 = 0
            have : ¬ (y0 % secpP) % 2 = 0 := hpar
            omega
          · change _ % 2 = 1
            have : ¬ (y0 % secpP) % 2 = 1 := hpar
            omega
    have hcomp : compressPublicKey (setBytes b, y) = h :: b := by
      have hbb : beBytes 32 (setBytes b) = b := by
        have := beBytes_setBytes b; rwa [hb] at this
      have hpb : (2 + UInt8.ofNat (y % 2) : UInt8) = h := by
        rw [parityByte]
        rcases hh with rfl | rfl
        · exact if_pos hpar
        · have : y % 2 = 1 := hpar
          exact if_neg (by omega)
      rw [compressPublicKey, compress_aux (lt_trans hx secpP_lt), hbb, hpb]
    refine ⟨setBytes b, y, ?_, rfl, hyl, hyeq, hpar, hcomp⟩
    rw [go _ (by simp), ← hcomp, first _ _ hx hyl hyeq]

/-- The base point satisfies both hypotheses. -/
example : secpG.1 < secpP ∧ secpG.2 < secpP ∧ secpG.2 ^ 2 % secpP = (secpG.1 ^ 3 + 7) % secpP := by decide +kernel

/-- `ExpandPublicKey` of an empty slice panics (the code never checks the length). -/
theorem C33_empty_panics : expandPublicKeyGo [] = .panic := rfl

/-- **C34.** A 32-byte string is accepted as private key exactly when its value is in `[1, n-1]`. -/
theorem C34_validate_private (b : Bytes) (h : b.length = 32) :
    (validatePrivateKey b = none ↔ 1 ≤ setBytes b ∧ setBytes b ≤ secpN - 1) ∧
    (validatePrivateKey b = some .invalidPrivateKey ↔ setBytes b = 0 ∨ secpN ≤ setBytes b) := by
  have hN := secpN_prime.pos
  rw [validatePrivateKey_eq b h]
  by_cases hc : 1 ≤ setBytes b ∧ setBytes b < secpN
  · rw [if_pos hc]; simp; omega
  · rw [if_neg hc]; simp; omega

example : validatePrivateKey (ser256 (secpN - 1)) = none ∧ validatePrivateKey (ser256 secpN) ≠ none := by
  decide +kernel

/-- **C35.** The hex views decode to the key bytes, are lower case and of fixed length, and the public view is
unchanged by neutering. -/
theorem C35_hex_views (order : List (Bytes × List VersionBytes)) (ho : order.Perm pathTable) (k : Key) :
    let R := Registry.init order
    (k.isPrivate = true → hexDecode k.privateKeyHex = some k.getPvtKeyBytes ∧ k.privateKeyHex.length = 64) ∧
    (k.isPrivate = false → k.privateKeyHex = []) ∧
    (hexDecode (k.publicKeyHex R) = some (k.publicKeyExtended R).getKeyBytes ∧ (k.publicKeyHex R).length = 66) ∧
    ((k.publicKeyExtended R).publicKeyHex R = k.publicKeyHex R) ∧
    (∀ c ∈ k.privateKeyHex ++ k.publicKeyHex R, c ∈ str "0123456789abcdef") := by
  intro R
  have len : ∀ b : Bytes, (hexEncode b).length = 2 * b.length := fun b => hexDecode_length (hexDecode_hexEncode b)
  have lower : ∀ b : Bytes, ∀ c ∈ hexEncode b, c ∈ str "0123456789abcdef" := by
    have hd : ∀ n : Fin 16, hexDigit n.1 ∈ str "0123456789abcdef" := by decide +kernel
    intro b c hc
    obtain ⟨x, -, hx⟩ := List.mem_flatMap.1 hc
    have hx256 := x.toNat_lt
    simp only [List.mem_cons, List.not_mem_nil, or_false] at hx
    rcases hx with rfl | rfl
    · exact hd ⟨x.toNat / 16, by omega⟩
    · exact hd ⟨x.toNat % 16, by omega⟩
  have hpub : k.publicKeyHex R = hexEncode (k.publicKeyExtended R).getKeyBytes := by
    cases hp : k.isPrivate with
    | true => rw [Key.publicKeyHex, hp, if_pos rfl]; rfl
    | false =>
      rw [Key.publicKeyHex, hp, if_neg (by simp), (C27_neuter order ho k).2.2.2.1 hp]; rfl
  have hpriv : k.isPrivate = true → k.privateKeyHex = hexEncode k.getPvtKeyBytes := by
    intro hp; rw [Key.privateKeyHex, hp, if_pos rfl]; rfl
  have hpriv' : k.isPrivate = false → k.privateKeyHex = [] := by
    intro hp; rw [Key.privateKeyHex, hp]; rfl
  refine ⟨fun hp => ?_, hpriv', ?_, ?_, ?_⟩
  · rw [hpriv hp, hexDecode_hexEncode, len]; simp
  · rw [hpub, hexDecode_hexEncode, len]; simp
  · have hnp := (C27_neuter order ho k).1
    rw [hpub, Key.publicKeyHex, hnp, if_neg (by simp)]
    rfl
  · intro c hc
    rcases List.mem_append.1 hc with hc | hc
    · cases hp : k.isPrivate with
      | true => rw [hpriv hp] at hc; exact lower _ c hc
      | false => rw [hpriv' hp] at hc; simp at hc
    · rw [hpub] at hc; exact lower _ c hc

end Bips
