import Verif.Props.Tree
import Verif.Props.Exact

/-!
# C92: indices without a key

BIP-32 and the README of bip32 tell programs to go on with the next index when an index gives no key. A wallet that has the private
key and one that has only the public key must skip the same indices to stay in step.
-/

namespace Bips
open Spec

/-- The loop a program runs: the first of the `n` indices from `i` on for which `derive` reports no error, and its key
(bip32/README.md: "ErrInvalidPrivateKey should be handled by trying the next index for a child key"). -/
def tryNext (derive : UInt32 → Key × Option Err) : Nat → UInt32 → Option (UInt32 × Key)
  | 0, _ => none
  | n + 1, i =>
    match derive i with
    | (c, none) => some (i, c)
    | (_, some _) => tryNext derive n (i + 1)

/-- What the loop finds. -/
theorem tryNext_iff (derive : UInt32 → Key × Option Err) (n : Nat) : ∀ (i j : UInt32) (c : Key), i.toNat + n ≤ 2 ^ 31 →
    (tryNext derive n i = some (j, c) ↔ i.toNat ≤ j.toNat ∧ j.toNat < i.toNat + n ∧ derive j = (c, none) ∧
      ∀ l : UInt32, i.toNat ≤ l.toNat → l.toNat < j.toNat → (derive l).2 ≠ none) := by
  induction n with
  | zero =>
    intro i j c _
    simp only [tryNext, reduceCtorEq, false_iff]
    omega
  | succ n ih =>
    intro i j c hn
    have hsucc : (i + 1).toNat = i.toNat + 1 := by
      rw [UInt32.toNat_add]
      show (i.toNat + 1) % 2 ^ 32 = _
      omega
    rw [tryNext]
    rcases hd : derive i with ⟨c', _ | e⟩
    · simp only [Option.some.injEq, Prod.mk.injEq]
      constructor
      · rintro ⟨rfl, rfl⟩
        exact ⟨le_rfl, by omega, hd, fun l h1 h2 => by omega⟩
      · rintro ⟨h1, h2, h3, h4⟩
        have : i = j := by
          by_contra hne
          have hlt : i.toNat < j.toNat := by
            rcases Nat.lt_or_eq_of_le h1 with h | h
            · exact h
            · exact absurd (UInt32.toNat_inj.1 h) hne
          exact h4 i le_rfl hlt (by rw [hd])
        subst this
        rw [hd] at h3
        exact ⟨rfl, (Prod.mk.inj h3).1⟩
    · dsimp only
      rw [ih (i + 1) j c (by omega), hsucc]
      constructor
      · rintro ⟨h1, h2, h3, h4⟩
        refine ⟨by omega, by omega, h3, fun l hl1 hl2 => ?_⟩
        rcases Nat.lt_or_eq_of_le hl1 with h | h
        · exact h4 l (by omega) hl2
        · rw [← UInt32.toNat_inj.1 h, hd]; simp
      · rintro ⟨h1, h2, h3, h4⟩
        have hne : i.toNat ≠ j.toNat := by
          intro h
          rw [← UInt32.toNat_inj.1 h, hd] at h3
          simp at h3
        exact ⟨by omega, by omega, h3, fun l hl1 hl2 => h4 l (by omega) hl2⟩

/-- **C92**, the claim in full (false of the code): the child of a private key and the child of its public key at the same index are
both derived or both refused. -/
def C92_full : Prop := ∀ (H : Hashes) (order : List (Bytes × List VersionBytes)), order.Perm pathTable →
  ∀ (k : Key) (s : Nat) (i : UInt32), IsXprv k s → PvtVersion k.getVersion → i.toNat < 2 ^ 31 →
    ((k.newChildKey H (Registry.init order) i).2 = none ↔
      ((k.publicKeyExtended (Registry.init order)).newChildKey H (Registry.init order) i).2 = none)

/-- In BIP-32 owner and watcher skip the same indices. -/
theorem C92_bip32 (hmac : Bytes → Bytes → Bytes) (s : Nat) (c : Bytes) (i : Nat) (hi : i < 2 ^ 31) :
    ckdPriv hmac s c i = none ↔ ckdPub hmac (point s) c i = none := by
  unfold ckdPriv ckdPub
  have h31 : ¬ 2 ^ 31 ≤ i := by omega
  simp only [if_neg h31]
  rw [point_add]
  have := smul_baseG_eq_zero_iff (parse256 ((hmac c (serP (point s) ++ ser32 i)).take 32) + s)
  have h : (parse256 ((hmac c (serP (point s) ++ ser32 i)).take 32) + s) % secpN = 0 ↔
      point (parse256 ((hmac c (serP (point s) ++ ser32 i)).take 32) + s) = 0 := this.symm
  clear this
  generalize parse256 ((hmac c (serP (point s) ++ ser32 i)).take 32) = IL at h ⊢
  by_cases hc : secpN ≤ IL ∨ (IL + s) % secpN = 0
  · rw [if_pos hc, if_pos (by rwa [h] at hc)]; simp
  · rw [if_neg hc, if_neg (by rwa [h] at hc)]; simp

section
variable (H : Hashes) (order : List (Bytes × List VersionBytes)) (ho : order.Perm pathTable)
include ho

/-- **C92**: when each of the two reports an error, and which. -/
theorem C92_errors (k : Key) (s : Nat) (i : UInt32) (hk : IsXprv k s) (hv : PvtVersion k.getVersion) (hi : i.toNat < 2 ^ 31) :
    let IL := parse256 ((H.hmacSha512 k.getChainCode (serP (point s) ++ ser32 i.toNat)).take 32)
    (k.newChildKey H (Registry.init order) i).2 = (if (IL + s) % secpN = 0 then some .invalidPrivateKey else none) ∧
    ((k.publicKeyExtended (Registry.init order)).newChildKey H (Registry.init order) i).2 =
      if IL % secpN = 0 then some .invalidPublicKey else none := by
  intro IL
  have hI : ckdI H s k.getChainCode i.toNat = H.hmacSha512 k.getChainCode (serP (point s) ++ ser32 i.toNat) := by
    rw [ckdI, if_neg (by omega)]
  refine ⟨?_, ?_⟩
  · have := (C22_ckdPriv_exact H order ho k s i hk hv).1
    rw [hI] at this
    exact this
  · have hNf := neuter_xprv order ho hk
    have hst := storedPoint_of_ne (point_ne_zero' hk.2.1 hk.2.2)
    have hpub := C23_ckdPub_exact H order ho (k.publicKeyExtended (Registry.init order)) (point s) i
      ((congrArg KeyFields.keyBytes hNf).trans hst.symm)
      (by rw [show Key.getVersion _ = neuterVersion k.getVersion from congrArg KeyFields.version hNf]
          exact neuterVersion_pub _) hi
    rw [hst, show Key.getChainCode _ = k.getChainCode from congrArg KeyFields.chainCode hNf] at hpub
    split
    · rename_i h; exact hpub.1 h
    · rename_i h; exact (hpub.2 h).1

/-- **C92**, exactly: owner and watcher agree about an index only if both derive a key. Wherever one of them skips an index, the
other one does not. -/
theorem C92_agree_iff (k : Key) (s : Nat) (i : UInt32) (hk : IsXprv k s) (hv : PvtVersion k.getVersion) (hi : i.toNat < 2 ^ 31) :
    ((k.newChildKey H (Registry.init order) i).2 = none ↔
      ((k.publicKeyExtended (Registry.init order)).newChildKey H (Registry.init order) i).2 = none) ↔
    (k.newChildKey H (Registry.init order) i).2 = none ∧
      ((k.publicKeyExtended (Registry.init order)).newChildKey H (Registry.init order) i).2 = none := by
  obtain ⟨h1, h2⟩ := C92_errors H order ho k s i hk hv hi
  rw [h1, h2]
  have hs := hk.2
  generalize parse256 ((H.hmacSha512 k.getChainCode (serP (point s) ++ ser32 i.toNat)).take 32) = IL
  have : ¬ ((IL + s) % secpN = 0 ∧ IL % secpN = 0) := by
    rintro ⟨ha, hb⟩
    rw [Nat.add_mod, hb, zero_add, Nat.mod_mod, Nat.mod_eq_of_lt hs.2] at ha
    omega
  by_cases ha : (IL + s) % secpN = 0 <;> by_cases hb : IL % secpN = 0
  · exact absurd ⟨ha, hb⟩ this
  · simp [ha, hb]
  · simp [ha, hb]
  · simp [ha, hb]

/-- **C92**, the part that holds: where the left half of the HMAC is neither 0 nor minus the secret modulo the group order, both
derive a key, and the same one. -/
theorem C92_agree_partial (k : Key) (s : Nat) (i : UInt32) (hk : IsXprv k s) (hv : PvtVersion k.getVersion) (hi : i.toNat < 2 ^ 31)
    (h0 : parse256 ((H.hmacSha512 k.getChainCode (serP (point s) ++ ser32 i.toNat)).take 32) % secpN ≠ 0)
    (h1 : (parse256 ((H.hmacSha512 k.getChainCode (serP (point s) ++ ser32 i.toNat)).take 32) + s) % secpN ≠ 0) :
    ∃ c, k.newChildKey H (Registry.init order) i = (c, none) ∧
      (k.publicKeyExtended (Registry.init order)).newChildKey H (Registry.init order) i =
        (c.publicKeyExtended (Registry.init order), none) := by
  obtain ⟨e1, -⟩ := C92_errors H order ho k s i hk hv hi
  rw [if_neg h1] at e1
  refine ⟨(k.newChildKey H (Registry.init order) i).1, Prod.ext rfl e1, ?_⟩
  refine C24_neuter_commutes H order ho k _ s i hk hv hi (Prod.ext rfl e1) ?_
  rw [ckdI, if_neg (by omega)]
  exact h0

/-- **C92**, the loops: run from the same index, owner and watcher stop at the same index exactly if both succeed at once. Whenever
one of the loops has to go on, the wallets are out of step. -/
theorem C92_loops (k : Key) (s : Nat) (i : UInt32) (n : Nat) (hk : IsXprv k s) (hv : PvtVersion k.getVersion)
    (hi : i.toNat + (n + 1) ≤ 2 ^ 31) :
    (tryNext (k.newChildKey H (Registry.init order)) (n + 1) i).map Prod.fst =
      (tryNext ((k.publicKeyExtended (Registry.init order)).newChildKey H (Registry.init order)) (n + 1) i).map Prod.fst ↔
    (k.newChildKey H (Registry.init order) i).2 = none ∧
      ((k.publicKeyExtended (Registry.init order)).newChildKey H (Registry.init order) i).2 = none := by
  have hag := C92_agree_iff H order ho k s i hk hv (by omega)
  set f := k.newChildKey H (Registry.init order) with hf
  set g := (k.publicKeyExtended (Registry.init order)).newChildKey H (Registry.init order) with hg
  clear_value f g
  have start : ∀ d : UInt32 → Key × Option Err, (d i).2 = none → (tryNext d (n + 1) i).map Prod.fst = some i := by
    intro d h
    rw [tryNext, show d i = ((d i).1, none) from Prod.ext rfl h]
    rfl
  have later : ∀ d : UInt32 → Key × Option Err, (d i).2 ≠ none → (tryNext d (n + 1) i).map Prod.fst ≠ some i := by
    intro d h e
    obtain ⟨⟨j, c⟩, h1, h2⟩ := Option.map_eq_some_iff.1 e
    obtain rfl : j = i := h2
    have := ((tryNext_iff d (n + 1) j j c hi).1 h1).2.2.1
    rw [this] at h
    exact h rfl
  rw [← hag]
  constructor
  · intro h
    constructor
    · intro h1
      rw [start f h1] at h
      by_contra h2
      exact later g h2 h.symm
    · intro h2
      rw [start g h2] at h
      by_contra h1
      exact later f h1 h
  · intro h
    have h' := hag.1 h
    rw [start f h'.1, start g h'.2]

end

/-- The full claim is false, in both directions. -/
theorem C92_full_false (order : List (Bytes × List VersionBytes)) (ho : order.Perm pathTable) (i : UInt32) (hi : i.toNat < 2 ^ 31) :
    ¬ C92_full ∧
    (∃ (H : Hashes) (k : Key) (s : Nat), IsXprv k s ∧ PvtVersion k.getVersion ∧
      (k.newChildKey H (Registry.init order) i).2 = some .invalidPrivateKey ∧
      ((k.publicKeyExtended (Registry.init order)).newChildKey H (Registry.init order) i).2 = none) ∧
    (∃ (H : Hashes) (k : Key) (s : Nat), IsXprv k s ∧ PvtVersion k.getVersion ∧
      (k.newChildKey H (Registry.init order) i).2 = none ∧
      ((k.publicKeyExtended (Registry.init order)).newChildKey H (Registry.init order) i).2 = some .invalidPublicKey) := by
  have hx : IsXprv (xprvKey 5) 5 := xprvKey_isXprv (by decide) (by decide)
  have a := C92_errors (hashesIL (secpN - 5)) order ho (xprvKey 5) 5 i hx (xprvKey_version _) hi
  have b := C92_errors (hashesIL 0) order ho (xprvKey 5) 5 i hx (xprvKey_version _) hi
  simp only [hashesIL_take] at a b
  have e1 : parse256 (beBytes 32 (secpN - 5)) = secpN - 5 := by decide +kernel
  have e2 : parse256 (beBytes 32 0) = 0 := by decide +kernel
  rw [e1, if_pos (by decide +kernel), if_neg (by decide +kernel)] at a
  rw [e2, if_neg (by decide +kernel), if_pos (by decide +kernel)] at b
  refine ⟨fun h => ?_, ⟨_, _, 5, hx, xprvKey_version _, a⟩, ⟨_, _, 5, hx, xprvKey_version _, b⟩⟩
  have := (h (hashesIL 0) order ho (xprvKey 5) 5 i hx (xprvKey_version _) hi).1 b.1
  rw [b.2] at this
  simp at this

/-- C92_agree_partial and C92_loops where both succeed: left half 1. -/
example (order : List (Bytes × List VersionBytes)) (ho : order.Perm pathTable) :=
  C92_agree_partial (hashesIL 1) order ho (xprvKey 5) 5 7 (xprvKey_isXprv (by decide) (by decide)) (xprvKey_version _) (by decide)
    (by rw [hashesIL_take]; decide +kernel) (by rw [hashesIL_take]; decide +kernel)

end Bips
