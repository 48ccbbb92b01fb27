import Verif.Props.Prefix
import Verif.Props.Convert
import Verif.Props.Serial
import Verif.Crypto.Go

/-!
# C108: what the first four characters of an extended key tell

Here the characters are the ones printed, not the ones declared in the table (C19).
-/

namespace Bips
open Spec

/-- First letters of texts of private keys. -/
def privateLetters : List Bytes :=
  [str "xprv", str "yprv", str "Yprv", str "zprv", str "Zprv", str "tprv", str "uprv", str "Uprv", str "vprv", str "Vprv", str "Ltpv",
   str "Mtpv", str "ttpv", str "pprv", str "F6rx"]

/-- First letters of texts of public keys. -/
def publicLetters : List Bytes :=
  [str "xpub", str "ypub", str "Ypub", str "zpub", str "Zpub", str "tpub", str "upub", str "Upub", str "vpub", str "Vpub", str "Ltub",
   str "Mtub", str "ttub", str "ppub", str "F6iY"]

/-- The letters printed for a version. -/
def printedLetters (v : UInt32) : Bytes :=
  let n := v.toNat * 256 ^ 78
  let K := if n < 58 ^ 111 then 107 else 108
  (toDigitsBE 58 (n / 58 ^ K)).map b58Char

theorem printed_of_registered (e : VersionBytes) (he : Registered e) (H : Hashes) (k : Key) (v : UInt32)
    (hv : v = e.pvtKeyFlag ∨ v = e.pubKeyFlag) (hk : k.getVersion = v) : (k.string H).take 4 = printedLetters v := by
  have h : ∀ e ∈ entries, ∀ v ∈ [e.pvtKeyFlag, e.pubKeyFlag],
      prefixCheck v (printedLetters v) 107 = true ∨ prefixCheck v (printedLetters v) 108 = true := by decide +kernel
  rcases h e ((registered_iff e).1 he) v (by simpa using hv) with h | h
  · exact (prefix_of_check h H k hk).1
  · exact (prefix_of_check h H k hk).1

theorem privateLetters_iff (H : Hashes) (k : Key) (h : PvtVersion k.getVersion) :
    (k.string H).take 4 ∈ privateLetters ∧ (k.string H).take 4 ∉ publicLetters ∧ (k.string H).take 4 = printedLetters k.getVersion := by
  obtain ⟨e, he, hv⟩ := h
  rw [printed_of_registered e he H k _ (Or.inl hv.symm) rfl, ← hv]
  have := (by decide +kernel : ∀ e ∈ entries, printedLetters e.pvtKeyFlag ∈ privateLetters ∧ printedLetters e.pvtKeyFlag ∉ publicLetters)
    e ((registered_iff e).1 he)
  exact ⟨this.1, this.2, rfl⟩

theorem publicLetters_iff (H : Hashes) (k : Key) (h : PubVersion k.getVersion) :
    (k.string H).take 4 ∈ publicLetters ∧ (k.string H).take 4 ∉ privateLetters ∧ (k.string H).take 4 = printedLetters k.getVersion := by
  obtain ⟨e, he, hv⟩ := h
  rw [printed_of_registered e he H k _ (Or.inr hv.symm) rfl, ← hv]
  have := (by decide +kernel : ∀ e ∈ entries, printedLetters e.pubKeyFlag ∈ publicLetters ∧ printedLetters e.pubKeyFlag ∉ privateLetters)
    e ((registered_iff e).1 he)
  exact ⟨this.1, this.2, rfl⟩

theorem xpub_registered : PubVersion 0x0488b21e := by
  obtain ⟨e, he, hv⟩ := (by decide +kernel : ∃ e ∈ entries, e.pubKeyFlag = 0x0488b21e)
  exact ⟨e, (registered_iff e).2 he, hv⟩

/-- **C108**, all keys with registered versions: the first four characters tell whether the version is one of private or of
public keys, and which one it is. -/
theorem C108_letters (H : Hashes) (k : Key) (hk : PvtVersion k.getVersion ∨ PubVersion k.getVersion) :
    ((k.string H).take 4 ∈ privateLetters ↔ PvtVersion k.getVersion) ∧
    ((k.string H).take 4 ∈ publicLetters ↔ PubVersion k.getVersion) ∧
    ∀ k' : Key, PvtVersion k'.getVersion ∨ PubVersion k'.getVersion →
      ((k.string H).take 4 = (k'.string H).take 4 ↔ k.getVersion = k'.getVersion) := by
  have hex : ∀ k : Key, ¬ (PvtVersion k.getVersion ∧ PubVersion k.getVersion) := fun k => (C55_flags_unambiguous k.getVersion).1
  have hl : ∀ k : Key, PvtVersion k.getVersion ∨ PubVersion k.getVersion → (k.string H).take 4 = printedLetters k.getVersion := by
    rintro k (h | h)
    · exact (privateLetters_iff H k h).2.2
    · exact (publicLetters_iff H k h).2.2
  refine ⟨⟨fun h => ?_, fun h => (privateLetters_iff H k h).1⟩, ⟨fun h => ?_, fun h => (publicLetters_iff H k h).1⟩, fun k' hk' => ?_⟩
  · rcases hk with hk | hk
    · exact hk
    · exact absurd h (publicLetters_iff H k hk).2.1
  · rcases hk with hk | hk
    · exact absurd h (privateLetters_iff H k hk).2.1
    · exact hk
  · rw [hl k hk, hl k' hk']
    refine ⟨fun h => ?_, fun h => by rw [h]⟩
    have key : ∀ e ∈ entries, ∀ v ∈ [e.pvtKeyFlag, e.pubKeyFlag], ∀ e' ∈ entries, ∀ v' ∈ [e'.pvtKeyFlag, e'.pubKeyFlag],
        printedLetters v = printedLetters v' → v = v' := by decide +kernel
    have mem : ∀ k : Key, PvtVersion k.getVersion ∨ PubVersion k.getVersion →
        ∃ e ∈ entries, k.getVersion ∈ [e.pvtKeyFlag, e.pubKeyFlag] := by
      rintro k (⟨e, he, hv⟩ | ⟨e, he, hv⟩)
      · exact ⟨e, (registered_iff e).1 he, by rw [hv]; simp⟩
      · exact ⟨e, (registered_iff e).1 he, by rw [hv]; simp⟩
    obtain ⟨e, he, hv⟩ := mem k hk
    obtain ⟨e', he', hv'⟩ := mem k' hk'
    exact key e he _ hv e' he' _ hv' h

section
variable (H : Hashes) (order : List (Bytes × List VersionBytes)) (ho : order.Perm pathTable)
include ho

/-- **C108**, exported keys: the text of `PublicKeyExtended` of any key whatsoever, well formed or not, begins with the letters
of a public key, and whoever reads it finds no private key. -/
theorem C108_exported (k : Key) :
    let N := k.publicKeyExtended (Registry.init order)
    (N.string H).take 4 ∈ publicLetters ∧ b58Deserialize H (N.string H) = (N, none) ∧ N.privateKeyHex = [] := by
  intro N
  have hp : N.isPrivate = false := (C27_neuter order ho k).1
  have hv : PubVersion N.getVersion := by
    by_contra hv
    have hN : N.publicKeyExtended (Registry.init order) = N := (C27_neuter order ho k).2.2.2.2.2
    have h1 := (C30_unregistered_version H order ho N 0).2.1 (by rw [hp]; simpa using hv)
    rw [hN] at h1
    exact hv (by rw [h1]; exact xpub_registered)
  refine ⟨(publicLetters_iff H N hv).1, C16_base58_roundtrip H N ?_, (C35_hex_views order ho N).2.1 hp⟩
  intro e
  have h0 : N = Key.zero := Key.ext' e
  rw [h0] at hp
  exact absurd hp (by decide +kernel)

/-- **C108**, derived keys: whatever is derived from a key whose version goes with its kind is of the same kind and begins with
the same letters. -/
theorem C108_derived (k c : Key) (hk : FitsKind k k.getVersion) (is : List UInt32)
    (h : deriveAll (Key.newChildKey H (Registry.init order)) k is = some c) :
    c.isPrivate = k.isPrivate ∧ FitsKind c c.getVersion ∧ (c.string H).take 4 = (k.string H).take 4 := by
  have key : c.isPrivate = k.isPrivate ∧ c.getVersion = k.getVersion := by
    induction is generalizing k with
    | nil => simp only [deriveAll, Option.some.injEq] at h; subst h; exact ⟨rfl, rfl⟩
    | cons i is ih =>
      obtain ⟨d, hd, hr⟩ := deriveAll_cons.1 h
      have hdk : d.isPrivate = k.isPrivate ∧ d.getVersion = k.getVersion := by
        cases hp : k.isPrivate with
        | true =>
          have hv : PvtVersion k.getVersion := by simpa [FitsKind, hp] using hk
          have := child_private H order ho (i := i) hp hv
          rw [hd] at this
          exact this
        | false =>
          have hv : PubVersion k.getVersion := by simpa [FitsKind, hp] using hk
          exact child_public H order ho hp hv hd
      have := ih d (by rw [FitsKind, hdk.1, hdk.2]; exact hk) hr
      exact ⟨this.1.trans hdk.1, this.2.trans hdk.2⟩
  have hc : FitsKind c c.getVersion := by rw [FitsKind, key.1, key.2]; exact hk
  have fit : ∀ k : Key, FitsKind k k.getVersion → PvtVersion k.getVersion ∨ PubVersion k.getVersion := by
    intro k h
    unfold FitsKind at h
    split at h
    · exact Or.inl h
    · exact Or.inr h
  exact ⟨key.1, hc, ((C108_letters H c (fit c hc)).2.2 k (fit k hk)).2 key.2⟩

omit ho in
/-- **C108**, what the letters do not tell: from the text of any private key anyone who can compute a checksum makes a text that
begins with xpub, is read without an error and still holds the private key. -/
theorem C108_disguise (k : Key) (hk : k.isPrivate = true) :
    let k' := k.setVersionUint32 0x0488b21e
    (k'.string H).take 4 = str "xpub" ∧ b58Deserialize H (k'.string H) = (k', none) ∧ k'.isPrivate = true ∧
      k'.privateKeyHex = k.privateKeyHex := by
  intro k'
  have hf : k'.fields = { k.fields with version := 0x0488b21e } := fields_convert k _
  have hv : k'.getVersion = 0x0488b21e := congrArg KeyFields.version hf
  have hb : k'.getKeyBytes = k.getKeyBytes := convert_keyBytes k _
  have hpub : PubVersion k'.getVersion := by rw [hv]; exact xpub_registered
  have hp' : k'.isPrivate = true := by
    rw [← hk, (isPrivate_of_keyBytes k' (hb.trans k.getKeyBytes_eq)).1]
    rfl
  have hz : k'.bytes ≠ List.replicate 78 0 := by
    intro e
    have h0 : k' = Key.zero := Key.ext' e
    rw [h0] at hv
    exact absurd hv (by decide +kernel)
  refine ⟨?_, C16_base58_roundtrip H k' hz, hp', ?_⟩
  · rw [(publicLetters_iff H k' hpub).2.2, hv]
    decide +kernel
  · have e : k'.getPvtKeyBytes = k.getPvtKeyBytes := (isPrivate_of_keyBytes k' (hb.trans k.getKeyBytes_eq)).2
    rw [Key.privateKeyHex, Key.privateKeyHex, hp', hk]
    exact congrArg hexEncode e

end

/-- The hypotheses are met: a private and a public key. -/
example : FitsKind (xprvKey 5) (xprvKey 5).getVersion ∧ PvtVersion (xprvKey 5).getVersion ∧ (xprvKey 5).isPrivate = true := by
  have h := (isPrivate_of_keyBytes _ (xprvKey_isXprv (s := 5) (by decide) (by decide)).1).1
  exact ⟨by rw [FitsKind, h]; exact xprvKey_version _, xprvKey_version _, h⟩

set_option maxRecDepth 100000 in
/-- The text of the private key 5 of the examples, as it is and disguised, with the hash functions of the program. -/
example :
    (xprvKey 5).string goHashes = str "xprv9s21ZrQH143K24Mfq5zL5MhWK9hUhhGbd45hLXo2Pq2oqzMMo63oStZzF93Y5wvzdUayhgkkFoicQZcP3y52uPPxFnfoLZB21TeqtbvCP2J" ∧
    ((xprvKey 5).setVersionUint32 0x0488b21e).string goHashes =
      str "xpub661MyMwAqRbcEYS8w7XLSVeEsBXy79zSzH1J8vCdxAZningWLdN3zgtU6LBpB85b3D2yc8sfvZU521AAwdZafEz7mnzBBsz4wKY5eiT6NL1" := by
  decide +kernel

end Bips
