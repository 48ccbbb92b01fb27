import Verif.Props.Convert
import Verif.Props.Addr
import Verif.Props.Serial

/-!
# C100: the exported account key

The owner derives a path with `DeriveBIP32Result`, neuters one of the entries and gives its text away. Whoever has the text reads it
with `B58Deserialize`, derives the rest of the path with `NewChildKey`, and compares.
-/

namespace Bips
open Spec

/-- A private key whose secret `ValidatePrivateKey` accepts. -/
theorem isXprv_of_validated {k : Key} (hp : k.isPrivate = true) (h : validatePrivateKey k.getPvtKeyBytes = none) :
    IsXprv k (setBytes k.getPvtKeyBytes) := by
  have hl : k.getPvtKeyBytes.length = 32 := k.getPvtKeyBytes_length
  have hr := ((C34_validate_private _ hl).1.1 h)
  refine ⟨?_, hr.1, by have := secpN_prime.pos; omega⟩
  have hb := beBytes_setBytes k.getPvtKeyBytes
  rw [hl] at hb
  rw [ser256, hb, Key.getKeyBytes_eq]
  rw [Key.isPrivate, beq_iff_eq] at hp
  rw [hp]

section
variable (H : Hashes) (order : List (Bytes × List VersionBytes)) (ho : order.Perm pathTable)
include ho

/-- Steps with errors ignored keep the kind and the version. -/
theorem blindSteps_private (vs : List UInt32) (k : Key) (hp : k.isPrivate = true) (hv : PvtVersion k.getVersion) :
    (blindSteps H (Registry.init order) k vs).isPrivate = true ∧ PvtVersion (blindSteps H (Registry.init order) k vs).getVersion := by
  induction vs generalizing k with
  | nil => exact ⟨hp, hv⟩
  | cons i vs ih =>
    have h := child_private H order ho (i := i) hp hv
    exact ih _ h.1 (by rw [h.2]; exact hv)

/-- If the secrets of all keys on the way are valid, the steps have succeeded. -/
theorem blindSteps_succeed (vs : List UInt32) (k : Key) (hp : k.isPrivate = true) (hv : PvtVersion k.getVersion)
    (h : ∀ m ≤ vs.length, validatePrivateKey (blindSteps H (Registry.init order) k (vs.take m)).getPvtKeyBytes = none) :
    deriveAll (Key.newChildKey H (Registry.init order)) k vs = some (blindSteps H (Registry.init order) k vs) := by
  induction vs generalizing k with
  | nil => rfl
  | cons i vs ih =>
    have hc := child_private H order ho (i := i) hp hv
    have ha := newChildKey_private_any H (Registry.init order) k i hp (fun e => (pvtFlag_nil ho _).1 e hv)
    have h1 := h 1 (by simp)
    rw [List.take_succ_cons, List.take_zero] at h1
    have hx := isXprv_of_validated hc.1 h1
    refine deriveAll_cons.2 ⟨_, Prod.ext rfl ?_, ih _ hc.1 (by rw [hc.2]; exact hv) fun m hm => ?_⟩
    · rw [ha.2, if_neg]
      intro e
      have hb := (isPrivate_of_keyBytes _ (congrArg KeyFields.keyBytes ha.1)).2
      have hz : setBytes (k.newChildKey H (Registry.init order) i).1.getPvtKeyBytes = 0 := by
        rw [show Key.getPvtKeyBytes _ = _ from hb, e]
        decide +kernel
      have := hx.2.1
      have h2 : 1 ≤ setBytes (k.newChildKey H (Registry.init order) i).1.getPvtKeyBytes := this
      omega
    · have := h (m + 1) (by simp; omega)
      rwa [List.take_succ_cons] at this

/-- C100: for a registered private root, any path and two entries `j ≤ k` of the result with no hardened step between them and with
valid secrets from `j` to `k`: the text of the neutered entry `j` is read back without an error, and whoever derives the rest of the
path from it without an error has the text, the public key and the addresses of entry `k`, and no private key. The derivation fails
exactly if a step has an HMAC whose left half is 0 modulo the group order. -/
theorem C100_watch (root : Key) (hr : GoodRoot root) (hv : PvtVersion root.getVersion) (p : Bytes) (vs : List UInt32)
    (hp : valuesAtDepth p = (0 :: vs, none)) (j k : Nat) (hjk : j ≤ k) (hk : k ≤ vs.length)
    (hsoft : ∀ i ∈ (vs.take k).drop j, i.toNat < 2 ^ 31)
    (hgood : ∀ m kp, j ≤ m → m ≤ k → (deriveBIP32Result H (Registry.init order) root p).1[m]? = some kp →
      validatePrivateKey kp.key.getPvtKeyBytes = none) :
    let R := Registry.init order
    let res := (deriveBIP32Result H R root p).1
    ∃ a b K, res[j]? = some a ∧ res[k]? = some b ∧ b58Deserialize H ((a.key.publicKeyExtended R).string H) = (K, none) ∧
      (∀ W, deriveAll (Key.newChildKey H R) K ((vs.take k).drop j) = some W →
        W.string H = (b.key.publicKeyExtended R).string H ∧ W.publicKeyHex R = b.key.publicKeyHex R ∧ W.privateKeyHex = [] ∧
        ∀ q v, (KeyPath.mk q W).addrHex H R = b.addrHex H R ∧ (KeyPath.mk q W).addrP2SH H R v = b.addrP2SH H R v) ∧
      (deriveAll (Key.newChildKey H R) K ((vs.take k).drop j) = none ↔ MeetsZeroIL H order a.key ((vs.take k).drop j)) := by
  intro R res
  have hres : ∀ m ≤ vs.length, res[m]? = some ⟨canonicalPath (vs.take m), blindSteps H R root (vs.take m)⟩ := by
    intro m hm
    simp only [res, derive_eq H R hr hp]
    rw [List.getElem?_map, List.getElem?_range (by omega)]
    rfl
  set A := blindSteps H R root (vs.take j) with hA
  have hAp := blindSteps_private H order ho (vs.take j) root hr.priv hv
  have hstep : ∀ m ≤ k - j, blindSteps H R A (((vs.take k).drop j).take m) = blindSteps H R root (vs.take (j + m)) := by
    intro m hm
    rw [hA, blindSteps, blindSteps, blindSteps, ← List.foldl_append]
    congr 1
    have : vs.take j = (vs.take k).take j := by rw [List.take_take, min_eq_left hjk]
    rw [this, ← List.take_add, List.take_take, min_eq_left (by omega)]
  have hlen : ((vs.take k).drop j).length = k - j := by simp [hk]
  have hB := hstep (k - j) le_rfl
  rw [← hlen, List.take_length, hlen, show j + (k - j) = k by omega] at hB
  have hsucc := blindSteps_succeed H order ho ((vs.take k).drop j) A hAp.1 hAp.2 (by
    intro m hm
    rw [hlen] at hm
    rw [hstep m hm]
    exact hgood (j + m) _ (by omega) (by omega) (hres (j + m) (by omega)))
  have hx := isXprv_of_validated hAp.1 (hgood j _ le_rfl hjk (hres j (by omega)))
  have hNp : (A.publicKeyExtended R).isPrivate = false := (C27_neuter order ho A).1
  have hN0 : (A.publicKeyExtended R).bytes ≠ List.replicate 78 0 := by
    intro e
    have h0 : A.publicKeyExtended R = Key.zero := Key.ext' e
    rw [h0] at hNp
    exact absurd hNp (by decide +kernel)
  refine ⟨_, _, A.publicKeyExtended R, hres j (by omega), hres k hk, C16_base58_roundtrip H _ hN0, ?_, ?_⟩
  · intro W hW
    have := C25_watch_only H order ho _ hsoft A _ hx hAp.2 _ W hsucc hW
    rw [hB] at this
    subst this
    refine ⟨rfl, (C35_hex_views order ho _).2.2.2.1, (C35_hex_views order ho _).2.1 (C27_neuter order ho _).1, fun q v => ?_⟩
    exact C52_neutered H order ho q _ _ v
  · rcases C25_public_succeeds H order ho _ hsoft A _ hx hAp.2 _ hsucc with h | h
    · exact ⟨fun _ => h.2, fun _ => h.1⟩
    · rw [h.1]; exact ⟨fun e => by simp at e, fun e => absurd e h.2⟩

/-- C100: below a public key nothing hardened can be derived, however the path goes on. -/
theorem C100_hardened (K : Key) (hK : K.isPrivate = false) (hv : PubVersion K.getVersion) (is : List UInt32)
    (h : ∃ i ∈ is, 2 ^ 31 ≤ i.toNat) : deriveAll (Key.newChildKey H (Registry.init order)) K is = none := by
  induction is generalizing K with
  | nil => simp at h
  | cons i is ih =>
    rcases hs : K.newChildKey H (Registry.init order) i with ⟨c, _ | e⟩
    · have hc := child_public H order ho hK hv hs
      rw [deriveAll, hs]
      refine ih c hc.1 (by rw [hc.2]; exact hv) ?_
      obtain ⟨x, hx, hh⟩ := h
      rcases List.mem_cons.1 hx with rfl | hx
      · have := (C26_no_hardened_from_public H order K x hK hh).1
        rw [hs] at this; cases this
      · exact ⟨x, hx, hh⟩
    · rw [deriveAll, hs]

end

/-- The hypotheses of `C100_watch` are met: the account key of a BIP-44 path, with the entries for account, chain and address; and
the one who has the text of the account key does get through. -/
example (order : List (Bytes × List VersionBytes)) (ho : order.Perm pathTable) :
    let H := hashesIL 1
    let R := Registry.init order
    let p := str "m/44'/0'/0'/1/7"
    let vs : List UInt32 := [0x8000002C, 0x80000000, 0x80000000, 1, 7]
    GoodRoot (xprvKey 5) ∧ PvtVersion (xprvKey 5).getVersion ∧ valuesAtDepth p = (0 :: vs, none) ∧
    (∀ i ∈ (vs.take 5).drop 3, i.toNat < 2 ^ 31) ∧
    (∀ m kp, 3 ≤ m → m ≤ 5 → (deriveBIP32Result H R (xprvKey 5) p).1[m]? = some kp →
      validatePrivateKey kp.key.getPvtKeyBytes = none) ∧
    ∃ a b W, (deriveBIP32Result H R (xprvKey 5) p).1[3]? = some a ∧ (deriveBIP32Result H R (xprvKey 5) p).1[5]? = some b ∧
      deriveAll (Key.newChildKey H R) (a.key.publicKeyExtended R) [1, 7] = some W ∧ W.publicKeyHex R = b.key.publicKeyHex R := by
  intro H R p vs
  have hr : GoodRoot (xprvKey 5) := goodRoot_xprvKey 5
  have hx := xprvKey_isXprv (s := 5) (by decide) (by decide)
  have hp : valuesAtDepth p = (0 :: vs, none) := by decide +kernel
  have hres : ∀ m ≤ vs.length, (deriveBIP32Result H R (xprvKey 5) p).1[m]? =
      some ⟨canonicalPath (vs.take m), blindSteps H R (xprvKey 5) (vs.take m)⟩ := by
    intro m hm
    rw [derive_eq H R hr hp]
    dsimp only
    rw [List.getElem?_map, List.getElem?_range (by omega)]
    rfl
  have hgood : ∀ m kp, 3 ≤ m → m ≤ 5 → (deriveBIP32Result H R (xprvKey 5) p).1[m]? = some kp →
      validatePrivateKey kp.key.getPvtKeyBytes = none := by
    intro m kp _ h2 hkp
    rw [hres m h2, Option.some.injEq] at hkp
    subst hkp
    have hl : (vs.take m).length ≤ 5 := by rw [List.length_take]; exact min_le_right _ _
    obtain ⟨k', h1, hk'⟩ := long_paths order ho (vs.take m) (xprvKey 5) 5 hx (xprvKey_version _) (by
      have : 100 < secpN := by decide
      omega)
    dsimp only
    rw [show blindSteps H R (xprvKey 5) (vs.take m) = k' from (blindSteps_of_deriveAll h1), (C34_validate_private _ k'.getPvtKeyBytes_length).1]
    have hb := (isPrivate_of_keyBytes _ hk'.1).2
    have hs : setBytes (ser256 (5 + (vs.take m).length)) = 5 + (vs.take m).length :=
      setBytes_ser256 hk'.2.2
    rw [hb, hs]
    exact ⟨hk'.2.1, by have := hk'.2.2; omega⟩
  obtain ⟨a, b, K, ha, hb, hK, hW, hn⟩ := C100_watch H order ho (xprvKey 5) hr (xprvKey_version _) p vs hp 3 5 (by decide)
    (by decide) (by decide) hgood
  refine ⟨hr, xprvKey_version _, hp, by decide, hgood, a, b, ?_⟩
  have hKa : K = a.key.publicKeyExtended R := by
    have hN : (a.key.publicKeyExtended R).bytes ≠ List.replicate 78 0 := by
      intro e
      have h0 : a.key.publicKeyExtended R = Key.zero := Key.ext' e
      have : (a.key.publicKeyExtended R).isPrivate = false := (C27_neuter order ho a.key).1
      rw [h0] at this
      exact absurd this (by decide +kernel)
    have := C16_base58_roundtrip H _ hN
    rw [hK] at this
    exact (Prod.mk.inj this).1
  cases hd : deriveAll (Key.newChildKey H R) K ((vs.take 5).drop 3) with
  | none =>
    obtain ⟨pre, i, post, m, t, he, -, -, hz⟩ := hn.1 hd
    have hi : i ∈ [(1 : UInt32), 7] := by
      rw [show [(1 : UInt32), 7] = (vs.take 5).drop 3 from rfl, he]; simp
    have : i.toNat < 2 ^ 31 := (by decide : ∀ i ∈ [(1 : UInt32), 7], i.toNat < 2 ^ 31) i hi
    rw [ckdI_hashesIL _ _ _ _ (by decide)] at hz
    exact absurd hz (by decide)
  | some W =>
    exact ⟨W, ha, hb, by rw [← hKa]; exact hd, (hW W hd).2.1⟩

end Bips
