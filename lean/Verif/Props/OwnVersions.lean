import Verif.Model.Defaults
import Verif.Props.Tree

/-!
# C87: networks a caller registers

The maps `PvtFlagToHDBytesSlice` and `PubFlagToHDBytesSlice` and the variable `DefaultMainnetVersion` are exported, so that a program
can add version bytes of its own. Here the registry is not the one `init` builds but any.
-/

namespace Bips
open Spec

/-- Entering version bytes into the exported maps, the way `init` does, one after the other. -/
def Registry.addAll (R : Registry) (hs : List VersionBytes) : Registry := hs.foldl Registry.add R

/-- The registry has an entry for the version of the key. -/
def Registry.Knows (R : Registry) (k : Key) : Prop :=
  if k.isPrivate then R.pvtFlag k.getVersion ≠ [] else R.pubFlag k.getVersion ≠ []

section
variable (H : Hashes) (R : Registry)

/-- **C87**, private derivation. Under any registry with an entry for the version of the key, the child of an extended private
key is the one BIP-32 defines, with the same version. -/
theorem C87_private (k : Key) (s : Nat) (i : UInt32) (hk : IsXprv k s) (hv : R.pvtFlag k.getVersion ≠ []) :
    let I := ckdI H s k.getChainCode i.toNat
    let s' := (parse256 (I.take 32) + s) % secpN
    ((k.newChildKey H R i).2 = if s' = 0 then some .invalidPrivateKey else none) ∧
    (k.newChildKey H R i).1.fields =
      { version := k.getVersion
        depth := k.getDepth.map (· + 1)
        fingerPrint := (H.ripemd160 (H.sha256 (serP (point s)))).take 4
        childNumber := ser32 i.toNat
        chainCode := I.drop 32
        keyBytes := 0 :: ser256 s' } := by
  obtain ⟨h1, h2, h3, h4⟩ := intermediary_xprv H hk i
  have := newChildKey_private_any H R k i h2 hv
  simp only [h1, h3, h4] at this
  rw [Key.getDepth_eq]
  exact ⟨this.2, this.1⟩

/-- The same in terms of BIP-32. -/
theorem C87_ckdPriv (k : Key) (s : Nat) (i : UInt32) (hk : IsXprv k s) (hv : R.pvtFlag k.getVersion ≠ []) {s' : Nat} {c' : Bytes}
    (hc : ckdPriv H.hmacSha512 s k.getChainCode i.toNat = some (s', c')) :
    (k.newChildKey H R i).2 = none ∧
    (k.newChildKey H R i).1.fields =
      ⟨k.getVersion, k.getDepth.map (· + 1), (H.ripemd160 (H.sha256 (serP (point s)))).take 4, ser32 i.toNat, c',
        0 :: ser256 s'⟩ := by
  obtain ⟨h1, h2⟩ := C87_private H R k s i hk hv
  rw [ckdPriv_eq] at hc
  split at hc
  · cases hc
  · rename_i hn
    obtain ⟨rfl, rfl⟩ := Prod.mk.inj (Option.some.inj hc)
    exact ⟨by rw [h1, if_neg fun e => hn (.inr e)], h2⟩

variable {H R} in
theorem step_xprv_any {k c : Key} {s : Nat} {i : UInt32} (hk : IsXprv k s) (hv : R.pvtFlag k.getVersion ≠ [])
    (hc : k.newChildKey H R i = (c, none)) :
    IsXprv c ((parse256 ((ckdI H s k.getChainCode i.toNat).take 32) + s) % secpN) ∧ c.getVersion = k.getVersion := by
  obtain ⟨h1, h2⟩ := C87_private H R k s i hk hv
  rw [hc] at h1 h2
  have hs' : ¬ (parse256 ((ckdI H s k.getChainCode i.toNat).take 32) + s) % secpN = 0 := by
    intro e; rw [if_pos e] at h1; simp at h1
  exact ⟨⟨congrArg KeyFields.keyBytes h2, by omega, Nat.mod_lt _ secpN_prime.pos⟩, congrArg KeyFields.version h2⟩

theorem neuter_xprv_any {k : Key} {s : Nat} (hk : IsXprv k s) :
    (k.publicKeyExtended R).fields =
      { k.fields with version := R.neuter k.getVersion, keyBytes := serP (point s) } := by
  obtain ⟨-, h2, -, h4⟩ := intermediary_xprv (hashesIL 0) hk 0
  rw [publicKeyExtended_private_any R k h2, h4]

/-- The public child under any registry with an entry for the version. -/
theorem public_any (k : Key) (K : Pt) (i : UInt32) (hk : k.getKeyBytes = storedPoint K) {e : VersionBytes}
    {es : List VersionBytes} (hv : R.pubFlag k.getVersion = e :: es) (hi : i.toNat < 2 ^ 31) :
    let I := H.hmacSha512 k.getChainCode (storedPoint K ++ ser32 i.toNat)
    let IL := parse256 (I.take 32)
    (IL % secpN = 0 → (k.newChildKey H R i).2 = some .invalidPublicKey) ∧
    (IL % secpN ≠ 0 → (k.newChildKey H R i).2 = none ∧
      (k.newChildKey H R i).1.fields =
        { version := e.pubKeyFlag
          depth := k.getDepth.map (· + 1)
          fingerPrint := (H.ripemd160 (H.sha256 (storedPoint K))).take 4
          childNumber := ser32 i.toNat
          chainCode := I.drop 32
          keyBytes := storedPoint (point IL + K) }) := by
  have hp := storedPoint_not_private hk
  have hI : k.getIntermediary H i = H.hmacSha512 k.getChainCode (storedPoint K ++ ser32 i.toNat) := by
    rw [getIntermediary_eq, if_neg (by omega), hp, hk]; simp
  obtain ⟨h1, h2⟩ := newChildKey_public_any H R k i hi hp hv
  simp only [hI, hk, addPublicKeys_stored] at h1 h2
  rw [Key.getDepth_eq]
  exact ⟨fun h => (h1 h).2, fun h => ⟨(h2 h).2, (h2 h).1⟩⟩

theorem newChildKey_unknown (k : Key) (i : UInt32) (hi : i.toNat < 2 ^ 31) (hp : k.isPrivate = false)
    (hv : R.pubFlag k.getVersion = []) : k.newChildKey H R i = (Key.zero, some .unSupportedHDVersionBytes) := by
  have hg : decide (i ≥ firstHardenedChild) = false := by
    rw [decide_eq_false_iff_not]
    have : i ≥ firstHardenedChild ↔ 2 ^ 31 ≤ i.toNat := Iff.rfl
    rw [this]; omega
  unfold Key.newChildKey
  simp only [hg, hp, slice_version, Bool.and_false, Bool.false_eq_true, if_false, hv]

/-- **C87**, watching. Under any registry whatsoever, public derivation from the neutered parent gives the neutered child exactly
when the public version of the first entry for the private version has an entry of its own, whose public version is that one. -/
theorem C87_commutes_iff (k c : Key) (s : Nat) (i : UInt32) (hk : IsXprv k s) {e : VersionBytes} {es : List VersionBytes}
    (hv : R.pvtFlag k.getVersion = e :: es) (hi : i.toNat < 2 ^ 31) (hc : k.newChildKey H R i = (c, none))
    (hIL : parse256 ((ckdI H s k.getChainCode i.toNat).take 32) % secpN ≠ 0) :
    (k.publicKeyExtended R).newChildKey H R i = (c.publicKeyExtended R, none) ↔
      ∃ e' es', R.pubFlag e.pubKeyFlag = e' :: es' ∧ e'.pubKeyFlag = e.pubKeyFlag := by
  set N := k.publicKeyExtended R with hN
  have hNf := neuter_xprv_any R hk
  rw [← hN] at hNf
  have hs0 : point s ≠ 0 := point_ne_zero' hk.2.1 hk.2.2
  have hst := storedPoint_of_ne hs0
  have hne : R.neuter k.getVersion = e.pubKeyFlag := by rw [Registry.neuter, hv]
  have hNk : N.getKeyBytes = storedPoint (point s) := (congrArg KeyFields.keyBytes hNf).trans hst.symm
  have hNv : N.getVersion = e.pubKeyFlag := (congrArg KeyFields.version hNf).trans hne
  have hNc : N.getChainCode = k.getChainCode := congrArg KeyFields.chainCode hNf
  have hNd : N.getDepth = k.getDepth := congrArg KeyFields.depth hNf
  have hNp := storedPoint_not_private hNk
  have hI : ckdI H s k.getChainCode i.toNat = H.hmacSha512 k.getChainCode (serP (point s) ++ ser32 i.toNat) := by
    rw [ckdI, if_neg (by omega)]
  have hv0 : R.pvtFlag k.getVersion ≠ [] := by rw [hv]; simp
  obtain ⟨h1, h2⟩ := C87_private H R k s i hk hv0
  rw [hc] at h1 h2
  obtain ⟨hcx, hcv⟩ := step_xprv_any hk hv0 hc
  cases hp : R.pubFlag e.pubKeyFlag with
  | nil =>
    rw [newChildKey_unknown H R N i hi hNp (by rw [hNv]; exact hp)]
    simp
  | cons e' es' =>
    have hpub := (public_any H R N (point s) i hNk (by rw [hNv]; exact hp) hi).2
    simp only [hst, hNc, ← hI] at hpub
    obtain ⟨p1, p2⟩ := hpub hIL
    have hpt : point ((parse256 ((ckdI H s k.getChainCode i.toNat).take 32) + s) % secpN) =
        point (parse256 ((ckdI H s k.getChainCode i.toNat).take 32)) + point s := by
      rw [point_add]; exact mod_smul_baseG _
    have hn0 : point (parse256 ((ckdI H s k.getChainCode i.toNat).take 32)) + point s ≠ 0 := by
      rw [← hpt]; exact point_ne_zero' hcx.2.1 hcx.2.2
    have hcn := neuter_xprv_any R hcx
    rw [hcv, hne, h2, hpt] at hcn
    rw [hNd, storedPoint_of_ne hn0] at p2
    constructor
    · intro h
      rw [h, hcn] at p2
      exact ⟨e', es', rfl, (congrArg KeyFields.version p2).symm⟩
    · rintro ⟨x, xs, hx, hxe⟩
      obtain ⟨rfl, rfl⟩ := List.cons.inj hx
      refine Prod.ext (Key.fields_inj ?_) p1
      rw [p2, hcn, hxe]

/-! ### Registries a caller builds by adding entries -/

/-- The maps fit together. -/
structure Registry.Coherent : Prop where
  pvt : ∀ v e es, R.pvtFlag v = e :: es → R.pubFlag e.pubKeyFlag ≠ []
  pub : ∀ v e es, R.pubFlag v = e :: es → e.pubKeyFlag = v

variable {R}

theorem init_coherent (order : List (Bytes × List VersionBytes)) (ho : order.Perm pathTable) : (Registry.init order).Coherent := by
  refine ⟨fun v e es h => ?_, fun v e es h => (pubFlag_cons ho h).2⟩
  have := (pvtFlag_cons ho h).1
  exact fun h' => (pubFlag_nil ho _).1 h' ⟨e, this, rfl⟩

theorem mapAppend_cons {m : UInt32 → List VersionBytes} {k v : UInt32} {h : VersionBytes} :
    (m v ≠ [] → ∃ l, mapAppend m k h v = m v ++ l) ∧
    (m v = [] → mapAppend m k h v = if v = k then [h] else []) := by
  unfold mapAppend
  by_cases hk : v = k
  · rw [if_pos hk, if_pos hk]
    exact ⟨fun _ => ⟨_, rfl⟩, fun h0 => by rw [h0]; rfl⟩
  · rw [if_neg hk, if_neg hk]
    exact ⟨fun _ => ⟨[], by simp⟩, fun h0 => h0⟩

theorem Registry.Coherent.add (h : R.Coherent) (e : VersionBytes) : (R.add e).Coherent := by
  have hpub : ∀ v, R.pubFlag v ≠ [] → (R.add e).pubFlag v ≠ [] := by
    intro v hv
    obtain ⟨l, hl⟩ := (mapAppend_cons (m := R.pubFlag) (k := e.pubKeyFlag) (v := v) (h := e)).1 hv
    show mapAppend R.pubFlag e.pubKeyFlag e v ≠ []
    rw [hl]
    simp [hv]
  constructor
  · intro v x xs hx
    change mapAppend R.pvtFlag e.pvtKeyFlag e v = x :: xs at hx
    cases h0 : R.pvtFlag v with
    | nil =>
      rw [mapAppend_cons.2 h0] at hx
      split at hx
      · obtain rfl : e = x := (List.cons.inj hx).1
        show mapAppend R.pubFlag e.pubKeyFlag e e.pubKeyFlag ≠ []
        rw [mapAppend, if_pos rfl]
        simp
      · cases hx
    | cons y ys =>
      obtain ⟨l, hl⟩ := (mapAppend_cons (m := R.pvtFlag) (k := e.pvtKeyFlag) (v := v) (h := e)).1 (by rw [h0]; simp)
      rw [hl, h0] at hx
      obtain rfl : y = x := (List.cons.inj hx).1
      exact hpub _ (h.pvt v y ys h0)
  · intro v x xs hx
    change mapAppend R.pubFlag e.pubKeyFlag e v = x :: xs at hx
    cases h0 : R.pubFlag v with
    | nil =>
      rw [mapAppend_cons.2 h0] at hx
      split at hx
      · rename_i hv
        obtain rfl : e = x := (List.cons.inj hx).1
        exact hv.symm
      · cases hx
    | cons y ys =>
      obtain ⟨l, hl⟩ := (mapAppend_cons (m := R.pubFlag) (k := e.pubKeyFlag) (v := v) (h := e)).1 (by rw [h0]; simp)
      rw [hl, h0] at hx
      obtain rfl : y = x := (List.cons.inj hx).1
      exact h.pub v y ys h0

theorem Registry.Coherent.addAll (h : R.Coherent) (hs : List VersionBytes) : (R.addAll hs).Coherent := by
  induction hs generalizing R with
  | nil => exact h
  | cons e hs ih => exact ih (h.add e)

/-- The first entry for a private version. -/
theorem addAll_pvt (hs : List VersionBytes) (v : UInt32) :
    (R.addAll hs).pvtFlag v = R.pvtFlag v ++ hs.filter fun e => e.pvtKeyFlag = v := by
  induction hs generalizing R with
  | nil => simp [Registry.addAll]
  | cons e hs ih =>
    rw [Registry.addAll, List.foldl_cons, ← Registry.addAll, ih]
    show mapAppend R.pvtFlag e.pvtKeyFlag e v ++ _ = _
    rw [mapAppend, List.filter_cons]
    by_cases h : e.pvtKeyFlag = v
    · subst h; simp
    · rw [if_neg (Ne.symm h)]; simp [h]

theorem addAll_pub (hs : List VersionBytes) (v : UInt32) :
    (R.addAll hs).pubFlag v = R.pubFlag v ++ hs.filter fun e => e.pubKeyFlag = v := by
  induction hs generalizing R with
  | nil => simp [Registry.addAll]
  | cons e hs ih =>
    rw [Registry.addAll, List.foldl_cons, ← Registry.addAll, ih]
    show mapAppend R.pubFlag e.pubKeyFlag e v ++ _ = _
    rw [mapAppend, List.filter_cons]
    by_cases h : e.pubKeyFlag = v
    · subst h; simp
    · rw [if_neg (Ne.symm h)]; simp [h]

/-- **C87**, nothing else changes. Whatever entries a caller adds, in whatever order and however they clash, keys whose version
was registered before derive and neuter as before. -/
theorem C87_first_wins (hs : List VersionBytes) (k : Key) (hk : R.Knows k) (i : UInt32) :
    k.newChildKey H (R.addAll hs) i = k.newChildKey H R i ∧ k.publicKeyExtended (R.addAll hs) = k.publicKeyExtended R := by
  unfold Registry.Knows at hk
  unfold Key.newChildKey Key.publicKeyExtended
  simp only [slice_version, addAll_pvt, addAll_pub]
  cases hp : k.isPrivate with
  | true =>
    rw [hp, if_pos rfl] at hk
    obtain ⟨a, l, hal⟩ := List.exists_cons_of_ne_nil hk
    simp [hal]
  | false =>
    rw [hp] at hk
    obtain ⟨a, l, hal⟩ := List.exists_cons_of_ne_nil (by simpa using hk)
    simp [hal]

/-- **C87**, a network of one's own. After a caller has added any entries to the registry of `init`, a private key whose version is
the private flag of an added entry — the first one with that flag, which is not one of the shipped ones — derives by
BIP-32 keeping that version, neuters to the entry's public flag, and its public half can be used for watching: every
list of non-hardened indices for which both derivations succeed leads to the neutered private key. -/
theorem C87_own_version (order : List (Bytes × List VersionBytes)) (ho : order.Perm pathTable) (pre post : List VersionBytes)
    (e : VersionBytes) (hpre : ∀ x ∈ pre, x.pvtKeyFlag ≠ e.pvtKeyFlag) (hnew : ¬ PvtVersion e.pvtKeyFlag) (k : Key) (s : Nat)
    (hk : IsXprv k s) (hv : k.getVersion = e.pvtKeyFlag) :
    let R := (Registry.init order).addAll (pre ++ e :: post)
    (k.publicKeyExtended R).fields = { k.fields with version := e.pubKeyFlag, keyBytes := serP (point s) } ∧
    (∀ i s' c', ckdPriv H.hmacSha512 s k.getChainCode (UInt32.toNat i) = some (s', c') →
      (k.newChildKey H R i).2 = none ∧ (k.newChildKey H R i).1.fields =
        ⟨e.pvtKeyFlag, k.getDepth.map (· + 1), (H.ripemd160 (H.sha256 (serP (point s)))).take 4, ser32 i.toNat, c',
          0 :: ser256 s'⟩) ∧
    (∀ is : List UInt32, (∀ i ∈ is, i.toNat < 2 ^ 31) → ∀ k' K',
      deriveAll (Key.newChildKey H R) k is = some k' →
      deriveAll (Key.newChildKey H R) (k.publicKeyExtended R) is = some K' → K' = k'.publicKeyExtended R) := by
  intro R
  have hcoh : R.Coherent := (init_coherent order ho).addAll _
  have hfirst : R.pvtFlag e.pvtKeyFlag = e :: post.filter fun x => x.pvtKeyFlag = e.pvtKeyFlag := by
    rw [addAll_pvt, (pvtFlag_nil ho _).2 hnew, List.nil_append, List.filter_append, List.filter_cons, if_pos (by simp)]
    rw [List.filter_eq_nil_iff.2 (by simpa using hpre), List.nil_append]
  have hne : R.neuter e.pvtKeyFlag = e.pubKeyFlag := by rw [Registry.neuter, hfirst]
  have hv0 : R.pvtFlag k.getVersion ≠ [] := by rw [hv, hfirst]; simp
  refine ⟨?_, ?_, ?_⟩
  · rw [neuter_xprv_any R hk, hv, hne]
  · intro i s' c' hc
    have := C87_ckdPriv H R k s i hk hv0 hc
    rw [hv] at this
    exact this
  · intro is his k' K' h1 h2
    have hp : R.pubFlag e.pubKeyFlag ≠ [] := hcoh.pvt _ _ _ hfirst
    obtain ⟨e', es', he'⟩ := List.exists_cons_of_ne_nil hp
    have hee := hcoh.pub _ _ _ he'
    clear hv0
    induction is generalizing k s with
    | nil =>
      simp only [deriveAll, Option.some.injEq] at h1 h2
      rw [← h1, ← h2]
    | cons i is ih =>
      rw [deriveAll_cons] at h1 h2
      obtain ⟨c, hc, hr⟩ := h1
      obtain ⟨C, hC, hR⟩ := h2
      have hin := his i (by simp)
      obtain ⟨hcx, hcv⟩ := step_xprv_any hk (by rw [hv, hfirst]; simp) hc
      by_cases hIL : parse256 ((ckdI H s k.getChainCode i.toNat).take 32) % secpN = 0
      · exfalso
        have hNf := neuter_xprv_any R hk
        have hst := storedPoint_of_ne (point_ne_zero' hk.2.1 hk.2.2)
        have hNv : (k.publicKeyExtended R).getVersion = e.pubKeyFlag := by
          rw [show Key.getVersion _ = R.neuter k.getVersion from congrArg KeyFields.version hNf, hv, hne]
        have := (public_any H R (k.publicKeyExtended R) (point s) i
          ((congrArg KeyFields.keyBytes hNf).trans hst.symm) (by rw [hNv]; exact he') hin).1 (by
            rw [hst, show Key.getChainCode _ = k.getChainCode from congrArg KeyFields.chainCode hNf]
            rw [ckdI, if_neg (by omega)] at hIL
            exact hIL)
        rw [hC] at this
        cases this
      · have := (C87_commutes_iff H R k c s i hk (by rw [hv]; exact hfirst) hin hc hIL).2 ⟨e', es', he', hee⟩
        rw [hC] at this
        obtain rfl := (Prod.mk.inj this).1
        exact ih c _ hcx (hcv.trans hv) (fun j hj => his j (by simp [hj])) hr hR

end

/-! ### The default version -/

theorem newMasterKeyWith_default (H : Hashes) (seed : Bytes) :
    newMasterKeyWith defaultMainnetVersion H seed = newMasterKey H seed := rfl

theorem publicKeyExtendedWith_default (R : Registry) (k : Key) :
    k.publicKeyExtendedWith defaultMainnetVersion R = k.publicKeyExtended R := rfl

/-- **C87**, another default network. When a caller has set `DefaultMainnetVersion` to `D`, `NewMasterKey` accepts the same seeds and
gives the same key but for the version, which is the private flag of `D`; neutering a key of a version not registered gives the
public flag of `D`, and registered keys neuter as before. -/
theorem C87_default (D : VersionBytes) (H : Hashes) (R : Registry) :
    (∀ seed, (newMasterKeyWith D H seed).2 = (newMasterKey H seed).2 ∧
      ((newMasterKeyWith D H seed).1.map Key.fields =
        (newMasterKey H seed).1.map fun k => { k.fields with version := D.pvtKeyFlag })) ∧
    (∀ k, R.Knows k → k.publicKeyExtendedWith D R = k.publicKeyExtended R) ∧
    (∀ k, ¬ R.Knows k → (k.publicKeyExtendedWith D R).fields =
      { (k.publicKeyExtended R).fields with version := D.pubKeyFlag }) := by
  refine ⟨fun seed => ?_, fun k hk => ?_, fun k hk => ?_⟩
  · unfold newMasterKeyWith newMasterKey
    dsimp only
    cases validatePrivateKey (slice (H.hmacSha512 (str "Bitcoin seed") seed) 0 32) with
    | some err => exact ⟨rfl, rfl⟩
    | none =>
      refine ⟨rfl, ?_⟩
      have h64 : (H.hmacSha512 (str "Bitcoin seed") seed).length = 64 := by simp
      have key : ∀ v : VersionBytes, (((Key.zero.setVersion v.pvtKeyFlagBytes).setChainCode
          (slice (H.hmacSha512 (str "Bitcoin seed") seed) 32 (H.hmacSha512 (str "Bitcoin seed") seed).length)).setPvtKeyBytes
          (slice (H.hmacSha512 (str "Bitcoin seed") seed) 0 32)).fields =
          ⟨v.pvtKeyFlag, [0], List.replicate 4 0, List.replicate 4 0,
            slice (H.hmacSha512 (str "Bitcoin seed") seed) 32 (H.hmacSha512 (str "Bitcoin seed") seed).length,
            0 :: slice (H.hmacSha512 (str "Bitcoin seed") seed) 0 32⟩ := by
        intro v
        have hf : ((Key.zero.setVersion v.pvtKeyFlagBytes).setChainCode
          (slice (H.hmacSha512 (str "Bitcoin seed") seed) 32 (H.hmacSha512 (str "Bitcoin seed") seed).length)).fields =
            ⟨v.pvtKeyFlag, [0], List.replicate 4 0, List.replicate 4 0,
              slice (H.hmacSha512 (str "Bitcoin seed") seed) 32 (H.hmacSha512 (str "Bitcoin seed") seed).length,
              List.replicate 33 0⟩ := by
          rw [fields_setChainCode _ _ (by rw [slice_length _ _ _ (by omega), h64]),
            fields_setVersion _ _ (by simp [VersionBytes.pvtKeyFlagBytes]), zero_fields, VersionBytes.pvtKeyFlagBytes,
            getUint32_putUint32]
        rw [fields_setPvtKeyBytes _ _ (by rw [slice_length _ _ _ (by omega)]), hf, byteAt_of_fields _ (l := List.replicate 32 0) (by rw [hf]; rfl)]
      simp only [Option.map_some, key]
  · unfold Registry.Knows at hk
    unfold Key.publicKeyExtendedWith Key.publicKeyExtended
    simp only [slice_version]
    cases hp : k.isPrivate with
    | true =>
      rw [hp, if_pos rfl] at hk
      obtain ⟨a, l, hal⟩ := List.exists_cons_of_ne_nil hk
      simp [hal]
    | false =>
      rw [hp] at hk
      obtain ⟨a, l, hal⟩ := List.exists_cons_of_ne_nil (by simpa using hk)
      simp [hal]
  · unfold Registry.Knows at hk
    unfold Key.publicKeyExtendedWith Key.publicKeyExtended
    simp only [slice_version]
    cases hp : k.isPrivate with
    | true =>
      rw [hp, if_pos rfl, not_not] at hk
      simp only [if_true, hk]
      rw [fields_setVersion _ _ (by simp [VersionBytes.pubKeyFlagBytes]), fields_setVersion _ _ (by simp [VersionBytes.pubKeyFlagBytes]),
        VersionBytes.pubKeyFlagBytes, getUint32_putUint32]
    | false =>
      rw [hp] at hk
      have hk : R.pubFlag k.getVersion = [] := by simpa using hk
      simp only [Bool.false_eq_true, if_false, hk]
      rw [fields_setVersion _ _ (by simp [VersionBytes.pubKeyFlagBytes]), fields_setVersion _ _ (by simp [VersionBytes.pubKeyFlagBytes]),
        VersionBytes.pubKeyFlagBytes, getUint32_putUint32]

/-! ### Cases -/

/-- Version bytes of no shipped network (those of Dogecoin). -/
def ownVersion : VersionBytes :=
  { bitcoinxprvxpub with coin := str "Dogecoin", pvtKeyFlag := 0x02fac398, pubKeyFlag := 0x02facafd, path := str "m/44'/3'" }

theorem ownVersion_new : ¬ PvtVersion ownVersion.pvtKeyFlag := by
  rintro ⟨e, he, h⟩
  have := (registered_iff e).1 he
  revert h
  revert e
  simp only [registered_iff]
  decide +kernel

/-- A key as in `C87_own_version`, with a clashing entry added afterwards. -/
example : ∃ (pre post : List VersionBytes) (k : Key), (∀ x ∈ pre, x.pvtKeyFlag ≠ ownVersion.pvtKeyFlag) ∧
    ¬ PvtVersion ownVersion.pvtKeyFlag ∧ IsXprv k 5 ∧ k.getVersion = ownVersion.pvtKeyFlag ∧ pre ≠ [] ∧
    ∃ x ∈ post, x.pvtKeyFlag = ownVersion.pvtKeyFlag ∧ x.pubKeyFlag ≠ ownVersion.pubKeyFlag := by
  have hf : ((xprvKey 5).setVersionUint32 ownVersion.pvtKeyFlag).fields =
      { (xprvKey 5).fields with version := ownVersion.pvtKeyFlag } := (C20_lenses _).1 _
  refine ⟨[bitcointprvtpub], [{ ownVersion with pubKeyFlag := 7 }], (xprvKey 5).setVersionUint32 ownVersion.pvtKeyFlag,
    by decide +kernel, ownVersion_new, ⟨?_, by decide, by decide⟩, congrArg KeyFields.version hf, by simp, _, List.mem_singleton.2 rfl,
    rfl, by decide⟩
  exact (congrArg KeyFields.keyBytes hf).trans (congrArg KeyFields.keyBytes (xprvKey_fields 5))

/-- Entries made in one map only: the neutered key can no longer derive. -/
example (H : Hashes) (k : Key) (s : Nat) (hk : IsXprv k s) (i : UInt32) (hi : i.toNat < 2 ^ 31)
    (hv : k.getVersion = ownVersion.pvtKeyFlag) :
    let R : Registry := { pvtFlag := mapAppend (fun _ => []) ownVersion.pvtKeyFlag ownVersion }
    R.Knows k ∧ (k.publicKeyExtended R).getVersion = ownVersion.pubKeyFlag ∧
      ((k.publicKeyExtended R).newChildKey H R i).2 = some .unSupportedHDVersionBytes := by
  intro R
  have hp : R.pvtFlag k.getVersion = [ownVersion] := by
    show mapAppend (fun _ => []) ownVersion.pvtKeyFlag ownVersion k.getVersion = _
    rw [hv, mapAppend, if_pos rfl]; rfl
  refine ⟨by rw [Registry.Knows, (intermediary_xprv H hk 0).2.1, if_pos rfl, hp]; simp, ?_, ?_⟩
  · rw [show Key.getVersion _ = R.neuter k.getVersion from congrArg KeyFields.version (neuter_xprv_any R hk), Registry.neuter, hp]
  have hst := storedPoint_of_ne (point_ne_zero' hk.2.1 hk.2.2)
  rw [newChildKey_unknown H R _ i hi (storedPoint_not_private ((congrArg KeyFields.keyBytes (neuter_xprv_any R hk)).trans hst.symm)) rfl]

end Bips
