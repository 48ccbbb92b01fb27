import Verif.Props.Account

/-!
# C105: one private key below an exported account key gives the account away

C28 is about one step and the secret. Here someone has the text of an extended public key, the private key in hex of any key
below it that is reached without hardened steps, and the numbers of the path between them. With the exported functions of the
package, HMAC and arithmetic modulo the group order they write down the text of the extended private key.
-/

namespace Bips
open Spec

section
variable (H : Hashes)

/-- The secret of the key with public half `pub`, from the secret `child` of the key reached by the numbers given: the public
keys on the way are derived with `NewChildKey`, then each step is undone by a subtraction. -/
def secretAbove (R : Registry) : Key → List UInt32 → Nat → Nat
  | _, [], child => child
  | pub, i :: is, child =>
    let IL := parse256 ((H.hmacSha512 pub.getChainCode (pub.getKeyBytes ++ ser32 i.toNat)).take 32)
    (secretAbove R (pub.newChildKey H R i).1 is child + (secpN - IL % secpN)) % secpN

/-- What the attacker writes: the text is read, its version bytes are replaced by `v` and its key by the secret found, and
the checksum is made anew. -/
def stolenText (R : Registry) (xpub : Bytes) (is : List UInt32) (privHex : Bytes) (v : UInt32) : Bytes :=
  let pub := (b58Deserialize H xpub).1
  let s := secretAbove H R pub is (parse256 ((hexDecode privHex).getD []))
  let b := ser32 v.toNat ++ (pub.bytes.drop 4).take 41 ++ [0] ++ ser256 s
  b58Encode (b ++ (H.sha256 (H.sha256 b)).take 4)

end

/-- A key as bytes: version, the 41 bytes of depth, fingerprint, number and chain code, and the key. -/
theorem bytes_split (k : Key) : k.bytes = ser32 k.getVersion.toNat ++ (k.bytes.drop 4).take 41 ++ k.getKeyBytes := by
  have hk := k.len
  have e1 := slice_append_slice k.bytes 0 4 78 (by omega) (by omega) (by omega)
  have e2 := slice_append_slice k.bytes 4 45 78 (by omega) (by omega) (by omega)
  have e0 : slice k.bytes 0 78 = k.bytes := by rw [slice]; simp [hk]
  have em : slice k.bytes 4 45 = (k.bytes.drop 4).take 41 := by
    rw [slice, List.drop_take]
  have ev : slice k.bytes 0 4 = ser32 k.getVersion.toNat := k.version_bytes
  rw [← em, List.append_assoc, ← ev, show k.getKeyBytes = slice k.bytes 45 78 from rfl, e2, e1, e0]

/-- The 41 bytes in the middle. -/
theorem middle_eq (k : Key) :
    (k.bytes.drop 4).take 41 = k.getDepth ++ k.getFingerPrint ++ k.getChildNumber ++ k.getChainCode := by
  have hk := k.len
  have e1 := slice_append_slice k.bytes 4 5 45 (by omega) (by omega) (by omega)
  have e2 := slice_append_slice k.bytes 5 9 45 (by omega) (by omega) (by omega)
  have e3 := slice_append_slice k.bytes 9 13 45 (by omega) (by omega) (by omega)
  have em : slice k.bytes 4 45 = (k.bytes.drop 4).take 41 := by
    rw [slice, List.drop_take]
  rw [← em, ← e1, ← e2, ← e3]
  simp only [List.append_assoc]
  rfl

section
variable (H : Hashes) (order : List (Bytes × List VersionBytes)) (ho : order.Perm pathTable)
include ho

theorem secretAbove_eq (is : List UInt32) (hi : ∀ i ∈ is, i.toNat < 2 ^ 31) (k : Key) (s : Nat) (hk : IsXprv k s)
    (hv : PvtVersion k.getVersion) (k' K' : Key)
    (h1 : deriveAll (Key.newChildKey H (Registry.init order)) k is = some k')
    (h2 : deriveAll (Key.newChildKey H (Registry.init order)) (k.publicKeyExtended (Registry.init order)) is = some K') :
    secretAbove H (Registry.init order) (k.publicKeyExtended (Registry.init order)) is (parse256 k'.getPvtKeyBytes) = s := by
  induction is generalizing k s with
  | nil =>
    simp only [deriveAll, Option.some.injEq] at h1
    subst h1
    exact (intermediary_xprv H hk 0).2.2.1
  | cons i is ih =>
    obtain ⟨c, hc, h1⟩ := deriveAll_cons.1 h1
    obtain ⟨C, hC, h2⟩ := deriveAll_cons.1 h2
    have hi0 := hi i (by simp)
    obtain ⟨hx, hvc, -⟩ := step_xprv H order ho hk hv hc
    have hCc : C = c.publicKeyExtended (Registry.init order) := by
      have := C25_watch_only H order ho [i] (by simpa using hi0) k s hk hv c C (by simp [deriveAll, hc]) (by simp [deriveAll, hC])
      exact this
    have hIH := ih (fun j hj => hi j (by simp [hj])) c _ hx hvc h1 (hCc ▸ h2)
    rw [secretAbove, hC, hCc]
    dsimp only
    rw [hIH]
    have hrec := C28_parent_recovered H order ho k c s i hk hv hi0 hc
    rw [recoverParent, show parse256 c.getPvtKeyBytes = _ from (intermediary_xprv H hx 0).2.2.1] at hrec
    exact hrec

/-- **C105.** For every private key with a registered version and every list of non-hardened numbers: from the text of its public
half and the private key, in hex, at the end of the derivation, the text of the extended private key is written down, with
whatever version bytes one likes; with its own it is the text of the key itself. -/
theorem C105_account (is : List UInt32) (hi : ∀ i ∈ is, i.toNat < 2 ^ 31) (k : Key) (s : Nat) (hk : IsXprv k s)
    (hv : PvtVersion k.getVersion) (k' : Key)
    (h1 : deriveAll (Key.newChildKey H (Registry.init order)) k is = some k') (hz : ¬ MeetsZeroIL H order k is) :
    let R := Registry.init order
    let T := stolenText H R ((k.publicKeyExtended R).string H) is k'.privateKeyHex
    (∀ v, T v = (k.setVersionUint32 v).string H) ∧ T k.getVersion = k.string H := by
  intro R T
  have h2 := C25_public_succeeds H order ho is hi k s hk hv k' h1
  obtain ⟨⟨s', hx'⟩, -, hp'⟩ := C32_private_validity H order ho is k k' s hk hv h1
  have hpub : deriveAll (Key.newChildKey H R) (k.publicKeyExtended R) is = some (k'.publicKeyExtended R) := by
    rcases h2 with h | h
    · exact absurd h.2 hz
    · exact h.1
  have hNp : (k.publicKeyExtended R).isPrivate = false := (C27_neuter order ho k).1
  have hN0 : (k.publicKeyExtended R).bytes ≠ List.replicate 78 0 := by
    intro e
    have h0 : k.publicKeyExtended R = Key.zero := Key.ext' e
    rw [h0] at hNp
    exact absurd hNp (by decide +kernel)
  have hread := C16_base58_roundtrip H _ hN0
  have hNf := neuter_xprv order ho hk
  have hmid : ((k.publicKeyExtended R).bytes.drop 4).take 41 = (k.bytes.drop 4).take 41 := by
    rw [middle_eq, middle_eq]
    rw [show Key.getDepth (k.publicKeyExtended R) = _ from congrArg KeyFields.depth hNf,
      show Key.getFingerPrint (k.publicKeyExtended R) = _ from congrArg KeyFields.fingerPrint hNf,
      show Key.getChildNumber (k.publicKeyExtended R) = _ from congrArg KeyFields.childNumber hNf,
      show Key.getChainCode (k.publicKeyExtended R) = _ from congrArg KeyFields.chainCode hNf]
    rfl
  have hT : ∀ v, T v = (k.setVersionUint32 v).string H := by
    intro v
    have hf := fields_convert k v
    have hkb : (k.setVersionUint32 v).getKeyBytes = 0 :: ser256 s := (congrArg KeyFields.keyBytes hf).trans hk.1
    have hx : IsXprv (k.setVersionUint32 v) s := ⟨hkb, hk.2⟩
    have hne : k.setVersionUint32 v ≠ Key.zero := by
      intro e
      rw [e] at hx
      exact not_xprv_zero (by decide +kernel) ⟨s, hx⟩
    have hb : (k.setVersionUint32 v).bytes = ser32 v.toNat ++ (k.bytes.drop 4).take 41 ++ [0] ++ ser256 s := by
      rw [bytes_split (k.setVersionUint32 v), hkb, middle_eq, middle_eq,
        show Key.getVersion (k.setVersionUint32 v) = _ from congrArg KeyFields.version hf,
        show Key.getDepth (k.setVersionUint32 v) = _ from congrArg KeyFields.depth hf,
        show Key.getFingerPrint (k.setVersionUint32 v) = _ from congrArg KeyFields.fingerPrint hf,
        show Key.getChildNumber (k.setVersionUint32 v) = _ from congrArg KeyFields.childNumber hf,
        show Key.getChainCode (k.setVersionUint32 v) = _ from congrArg KeyFields.chainCode hf]
      simp [Key.fields]
    rw [Key.string, Key.b58Serialize_ne_zero H _ hne, hb]
    simp only [T, stolenText, hread, hmid, ((C35_hex_views order ho k').1 hp').1, Option.getD_some]
    rw [secretAbove_eq H order ho is hi k s hk hv k' _ h1 hpub]
  refine ⟨hT, ?_⟩
  rw [hT]
  congr 1
  apply C20_fields_determine_key
  rw [fields_convert]
  rfl

/-- **C105** for the results of `DeriveBIP32Result`: two entries `j ≤ k` with no hardened number between them and valid secrets
from `j` to `k`. The xpub of entry `j` and the private key of entry `k` give the xprv of entry `j`, and so of everything below it.
The hypotheses are those of `C100_watch`, where an example meets them. -/
theorem C105_entries (root : Key) (hr : GoodRoot root) (hv : PvtVersion root.getVersion) (p : Bytes) (vs : List UInt32)
    (hp : valuesAtDepth p = (0 :: vs, none)) (j k : Nat) (hjk : j ≤ k) (hk : k ≤ vs.length)
    (hsoft : ∀ i ∈ (vs.take k).drop j, i.toNat < 2 ^ 31)
    (hgood : ∀ m kp, j ≤ m → m ≤ k → (deriveBIP32Result H (Registry.init order) root p).1[m]? = some kp →
      validatePrivateKey kp.key.getPvtKeyBytes = none) :
    let R := Registry.init order
    let res := (deriveBIP32Result H R root p).1
    ∃ a b, res[j]? = some a ∧ res[k]? = some b ∧
      (¬ MeetsZeroIL H order a.key ((vs.take k).drop j) →
        stolenText H R ((a.key.publicKeyExtended R).string H) ((vs.take k).drop j) b.key.privateKeyHex a.key.getVersion =
          a.key.string H) := by
  intro R res
  have hres : ∀ m ≤ vs.length, res[m]? = some ⟨canonicalPath (vs.take m), blindSteps H R root (vs.take m)⟩ := by
    intro m hm
    simp only [res, derive_eq H R hr hp]
    rw [List.getElem?_map, List.getElem?_range (by omega)]
    rfl
  set A := blindSteps H R root (vs.take j) with hA
  have hAp := blindSteps_private H order ho (vs.take j) root hr.priv hv
  have hstep : ∀ m ≤ k - j, blindSteps H R A (((vs.take k).drop j).take m) = blindSteps H R root (vs.take (j + m)) := by
    intro m hm
    rw [hA, blindSteps, blindSteps, blindSteps, ← List.foldl_append]
    congr 1
    have : vs.take j = (vs.take k).take j := by rw [List.take_take, min_eq_left hjk]
    rw [this, ← List.take_add, List.take_take, min_eq_left (by omega)]
  have hlen : ((vs.take k).drop j).length = k - j := by simp [hk]
  have hB := hstep (k - j) le_rfl
  rw [← hlen, List.take_length, hlen, show j + (k - j) = k by omega] at hB
  have hsucc := blindSteps_succeed H order ho ((vs.take k).drop j) A hAp.1 hAp.2 (by
    intro m hm
    rw [hlen] at hm
    rw [hstep m hm]
    exact hgood (j + m) _ (by omega) (by omega) (hres (j + m) (by omega)))
  have hx := isXprv_of_validated hAp.1 (hgood j _ le_rfl hjk (hres j (by omega)))
  refine ⟨_, _, hres j (by omega), hres k hk, fun hz => ?_⟩
  rw [hB] at hsucc
  exact (C105_account H order ho _ hsoft A _ hx hAp.2 _ hsucc hz).2

/-- Not empty: the root key with the secret 5, three steps, and a hash function for which every step succeeds. -/
example : ∃ (H : Hashes) (k' : Key), let R := Registry.init order
    deriveAll (Key.newChildKey H R) (xprvKey 5) [0, 7, 2147483647] = some k' ∧
    ¬ MeetsZeroIL H order (xprvKey 5) [0, 7, 2147483647] ∧
    stolenText H R (((xprvKey 5).publicKeyExtended R).string H) [0, 7, 2147483647] k'.privateKeyHex (xprvKey 5).getVersion =
      (xprvKey 5).string H := by
  have hx := xprvKey_isXprv (s := 5) (by decide) (by decide)
  obtain ⟨k', h1, -⟩ := long_paths order ho [0, 7, 2147483647] (xprvKey 5) 5 hx (xprvKey_version _) (by decide)
  have hz : ¬ MeetsZeroIL (hashesIL 1) order (xprvKey 5) [0, 7, 2147483647] := by
    rintro ⟨pre, i, post, m, t, -, -, -, hz⟩
    rw [ckdI_hashesIL _ _ _ _ (by decide)] at hz
    exact absurd hz (by decide)
  exact ⟨hashesIL 1, k', h1, hz,
    (C105_account (hashesIL 1) order ho _ (by decide) _ _ hx (xprvKey_version _) k' h1 hz).2⟩

end
end Bips
