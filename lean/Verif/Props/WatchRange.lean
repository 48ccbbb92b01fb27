import Verif.Props.Account
import Verif.Props.RangePath

/-!
# C107: ranges of the owner and of the watcher

`GenerateRange` from a private key and from its neutered form, with the same indices.
-/

namespace Bips
open Spec

/-- The indices of the first `n` entries of a range. -/
def rangeIndices (start : UInt32) (n : Nat) : List UInt32 := (List.range' start.toNat n).map UInt32.ofNat

theorem rangeIndices_toNat (start : UInt32) (n : Nat) (h : start.toNat + n ≤ 2 ^ 32) :
    (rangeIndices start n).map UInt32.toNat = List.range' start.toNat n := by
  rw [rangeIndices, List.map_map]
  conv_rhs => rw [← List.map_id (List.range' start.toNat n)]
  apply List.map_congr_left
  intro a ha
  rw [List.mem_range'_1] at ha
  rw [Function.comp, UInt32.toNat_ofNat', Nat.mod_eq_of_lt (by omega), id]

theorem rangeIndices_take (start : UInt32) (n m : Nat) (h : m ≤ n) : (rangeIndices start n).take m = rangeIndices start m := by
  rw [rangeIndices, rangeIndices, ← List.map_take]
  congr 1
  apply List.ext_getElem?
  intro i
  by_cases hi : i < m
  · rw [List.getElem?_take_of_lt hi, List.getElem?_range' hi, List.getElem?_range' (by omega)]
  · rw [List.getElem?_eq_none (by simp; omega), List.getElem?_eq_none (by simp; omega)]

/-- Entry `j` of a range, in the words of `rangeIndices`. -/
theorem range_entry (H : Hashes) (R : Registry) (k : KeyPathRange) (hz : k.keyPath.key.bytes ≠ List.replicate 78 0)
    (hp : pathIsValid k.keyPath.path = true) (j : Nat) (hj : k.startIndex.toNat + j < k.endIndex.toNat) :
    (k.generateRange H R).1.keyPaths[j]? = some ⟨stripSpace k.keyPath.path ++ (canonicalPath (rangeIndices k.startIndex (j + 1))).drop 1,
      blindSteps H R k.keyPath.key (rangeIndices k.startIndex (j + 1))⟩ ∧ (k.generateRange H R).2 = none ∧
    (k.generateRange H R).1.keyPaths.length = k.endIndex.toNat - k.startIndex.toNat := by
  have hne : k.startIndex ≠ k.endIndex := by
    intro e; rw [e] at hj; omega
  obtain ⟨l, e, hl, hjj⟩ := (C49_range_exact H R k).2.2.2 hne hz hp
  obtain ⟨vs, hvs, h0⟩ := hjj j (by omega)
  have : vs = rangeIndices k.startIndex (j + 1) := by
    have hinj : Function.Injective UInt32.toNat := fun a b h => UInt32.toNat_inj.1 h
    apply hinj.list_map
    have := k.endIndex.toNat_lt
    rw [hvs, rangeIndices_toNat _ _ (by omega)]
  rw [e]
  exact ⟨by rw [← this]; exact h0, rfl, hl⟩

section
variable (H : Hashes) (order : List (Bytes × List VersionBytes)) (ho : order.Perm pathTable)
include ho

/-- A key from which only the zero key is derived. -/
def DeadKey (k : Key) : Prop := k.isPrivate = true ∧ ¬ PvtVersion k.getVersion

omit ho in
theorem zero_dead : DeadKey Key.zero := by
  refine ⟨by decide +kernel, ?_⟩
  rintro ⟨e, he, hv⟩
  rw [registered_iff] at he
  have h0 : Key.zero.getVersion = 0 := by decide +kernel
  rw [h0] at hv
  revert e
  decide +kernel

theorem dead_step {k : Key} (h : DeadKey k) (i : UInt32) : (k.newChildKey H (Registry.init order) i).1 = Key.zero := by
  rw [newChildKey_unregistered H ho k i (Or.inl h.1) (by rw [h.1]; exact h.2)]

theorem dead_steps {k : Key} (h : DeadKey k) (is : List UInt32) : DeadKey (blindSteps H (Registry.init order) k is) := by
  induction is generalizing k with
  | nil => exact h
  | cons i is ih =>
    refine ih (k := (k.newChildKey H (Registry.init order) i).1) ?_
    rw [dead_step H order ho h]
    exact zero_dead

/-- An error when deriving from a public key leaves a dead key. -/
theorem public_error {k : Key} (hp : k.isPrivate = false) (i : UInt32) (h : (k.newChildKey H (Registry.init order) i).2 ≠ none) :
    DeadKey (k.newChildKey H (Registry.init order) i).1 := by
  by_cases hi : i.toNat < 2 ^ 31
  · by_cases hv : PubVersion k.getVersion
    · obtain ⟨e, es, he⟩ := List.exists_cons_of_ne_nil (fun h => (pubFlag_nil ho _).1 h hv)
      have a := newChildKey_public_any H (Registry.init order) k i hi hp he
      have hz : setBytes ((k.getIntermediary H i).take 32) % secpN = 0 := by
        by_contra hz
        exact h (a.2 hz).2
      have f := (a.1 hz).1
      refine ⟨(isPrivate_of_keyBytes _ (congrArg KeyFields.keyBytes f)).1, ?_⟩
      rintro ⟨e', h1, h2⟩
      have hver : (k.newChildKey H (Registry.init order) i).1.getVersion = e.pubKeyFlag := congrArg KeyFields.version f
      exact (C55_flags_unambiguous e.pubKeyFlag).1 ⟨⟨e', h1, h2.trans hver⟩, ⟨e, (pubFlag_cons ho he).1, rfl⟩⟩
    · rw [newChildKey_unregistered H ho k i (Or.inr hi) (by rw [hp]; simpa using hv)]
      exact zero_dead
  · rw [newChildKey_hardened_public H _ k i hp (by omega)]
    exact zero_dead

/-- What is derived from a public key with errors ignored is a public key or a dead one. -/
theorem public_steps (is : List UInt32) (k : Key) (hp : k.isPrivate = false) :
    (deriveAll (Key.newChildKey H (Registry.init order)) k is = some (blindSteps H (Registry.init order) k is) ∧
      (blindSteps H (Registry.init order) k is).isPrivate = false) ∨
    (deriveAll (Key.newChildKey H (Registry.init order)) k is = none ∧ DeadKey (blindSteps H (Registry.init order) k is)) := by
  induction is generalizing k with
  | nil => exact Or.inl ⟨rfl, hp⟩
  | cons i is ih =>
    rcases hs : k.newChildKey H (Registry.init order) i with ⟨c, _ | e⟩
    · have hv : PubVersion k.getVersion := by
        by_contra hv
        by_cases hi : i.toNat < 2 ^ 31
        · rw [newChildKey_unregistered H ho k i (Or.inr hi) (by rw [hp]; simpa using hv)] at hs
          simp at hs
        · rw [newChildKey_hardened_public H _ k i hp (by omega)] at hs
          simp at hs
      have hc := child_public H order ho hp hv hs
      have := ih c hc.1
      rw [deriveAll, hs]
      rw [show blindSteps H (Registry.init order) k (i :: is) = blindSteps H (Registry.init order) c is by
        rw [blindSteps, List.foldl_cons, hs]; rfl]
      exact this
    · have hd := public_error H order ho hp i (by rw [hs]; simp)
      refine Or.inr ⟨by rw [deriveAll, hs], ?_⟩
      exact dead_steps H order ho hd is

/-- **C107**, for every private key with a registered version, every range and every entry `j` below index 2³¹, if the entries of
the owner up to `j` have valid secrets: the range of the neutered key has as many entries, the same label behind its own path,
and the neutered key of the owner, with the same addresses, exactly if no step up to `j` has an HMAC whose left half is 0
modulo the group order. Neither call reports an error, whatever happens. -/
theorem C107_watch (k : KeyPathRange) (s : Nat) (hx : IsXprv k.keyPath.key s) (hv : PvtVersion k.keyPath.key.getVersion)
    (hp : pathIsValid k.keyPath.path = true) (q : Bytes) (hq : pathIsValid q = true) (j : Nat)
    (hj : k.startIndex.toNat + j < k.endIndex.toNat) (h31 : k.startIndex.toNat + j < 2 ^ 31)
    (hgood : ∀ m a, m ≤ j → (k.generateRange H (Registry.init order)).1.keyPaths[m]? = some a →
      validatePrivateKey a.key.getPvtKeyBytes = none) :
    let R := Registry.init order
    let w : KeyPathRange := { k with keyPath := ⟨q, k.keyPath.key.publicKeyExtended R⟩ }
    let own := k.generateRange H R
    let watch := w.generateRange H R
    own.2 = none ∧ watch.2 = none ∧ own.1.keyPaths.length = watch.1.keyPaths.length ∧
    ∃ a b t, own.1.keyPaths[j]? = some a ∧ watch.1.keyPaths[j]? = some b ∧ a.path = stripSpace k.keyPath.path ++ t ∧
      b.path = stripSpace q ++ t ∧
      (b.key = a.key.publicKeyExtended R ↔ ¬ MeetsZeroIL H order k.keyPath.key (rangeIndices k.startIndex (j + 1))) ∧
      (b.key = a.key.publicKeyExtended R → b.addrHex H R = a.addrHex H R ∧ ∀ v, b.addrP2SH H R v = a.addrP2SH H R v) := by
  intro R w own watch
  have hNp : (k.keyPath.key.publicKeyExtended R).isPrivate = false := (C27_neuter order ho _).1
  have hN0 : (k.keyPath.key.publicKeyExtended R).bytes ≠ List.replicate 78 0 := by
    intro e
    have h0 : k.keyPath.key.publicKeyExtended R = Key.zero := Key.ext' e
    rw [h0] at hNp
    exact absurd hNp (by decide +kernel)
  have hkp : k.keyPath.key.isPrivate = true := (isPrivate_of_keyBytes _ hx.1).1
  have hK0 : k.keyPath.key.bytes ≠ List.replicate 78 0 := by
    intro e
    have h0 : k.keyPath.key = Key.zero := Key.ext' e
    rw [h0] at hv
    exact zero_dead.2 hv
  have eo := range_entry H R k hK0 hp
  have ew := range_entry H R w hN0 hq
  obtain ⟨o1, o2, o3⟩ := eo j hj
  obtain ⟨w1, w2, w3⟩ := ew j hj
  have hsoft : ∀ i ∈ rangeIndices k.startIndex (j + 1), i.toNat < 2 ^ 31 := by
    intro i hi
    have : i.toNat ∈ List.range' k.startIndex.toNat (j + 1) := by
      have := k.endIndex.toNat_lt
      rw [← rangeIndices_toNat _ _ (by omega)]
      exact List.mem_map_of_mem hi
    rw [List.mem_range'_1] at this
    omega
  have hsucc := blindSteps_succeed H order ho (rangeIndices k.startIndex (j + 1)) k.keyPath.key hkp hv (by
    intro m hm
    rw [show (rangeIndices k.startIndex (j + 1)).length = j + 1 by simp [rangeIndices]] at hm
    rw [rangeIndices_take _ _ _ hm]
    cases m with
    | zero =>
      rw [show rangeIndices k.startIndex 0 = [] from rfl]
      have hb := (isPrivate_of_keyBytes _ hx.1).2
      rw [show blindSteps H (Registry.init order) k.keyPath.key [] = k.keyPath.key from rfl,
        (C34_validate_private _ k.keyPath.key.getPvtKeyBytes_length).1, hb, show setBytes (ser256 s) = s from setBytes_ser256 hx.2.2]
      exact ⟨hx.2.1, by have := hx.2.2; omega⟩
    | succ m => exact hgood m _ (by omega) (eo m (by omega)).1)
  refine ⟨o2, w2, o3.trans w3.symm, _, _, _, o1, w1, rfl, rfl, ?_, ?_⟩
  · dsimp only [w]
    rcases C25_public_succeeds H order ho _ hsoft _ _ hx hv _ hsucc with h | h
    · rcases public_steps H order ho (rangeIndices k.startIndex (j + 1)) _ hNp with g | g
      · rw [h.1] at g; simp at g
      · refine ⟨fun e => ?_, fun e => absurd h.2 e⟩
        have := g.2.1
        rw [e, (C27_neuter order ho _).1] at this
        simp at this
    · refine ⟨fun _ => h.2, fun _ => ?_⟩
      exact blindSteps_of_deriveAll h.1
  · intro e
    dsimp only [w] at e ⊢
    rw [e]
    exact ⟨(C52_neutered H order ho _ _ _ 0).1, fun v => (C52_neutered H order ho _ _ _ v).2⟩

/-- **C107**: from a public key, whatever its version and its bytes, all entries from index 2³¹ on hold the all-zero key, with a
label and without an error. -/
theorem C107_hardened (k : KeyPathRange) (hk : k.keyPath.key.isPrivate = false) (hp : pathIsValid k.keyPath.path = true) (j : Nat)
    (hj : k.startIndex.toNat + j < k.endIndex.toNat) (h31 : 2 ^ 31 ≤ k.startIndex.toNat + j) :
    let r := k.generateRange H (Registry.init order)
    r.2 = none ∧ r.1.keyPaths[j]? = some ⟨stripSpace k.keyPath.path ++ (canonicalPath (rangeIndices k.startIndex (j + 1))).drop 1,
      Key.zero⟩ ∧ Key.zero.bytes = List.replicate 78 0 := by
  intro r
  have hK0 : k.keyPath.key.bytes ≠ List.replicate 78 0 := by
    intro e
    have h0 : k.keyPath.key = Key.zero := Key.ext' e
    rw [h0] at hk
    exact absurd hk (by decide +kernel)
  obtain ⟨o1, o2, -⟩ := range_entry H (Registry.init order) k hK0 hp j hj
  refine ⟨o2, ?_, rfl⟩
  rw [o1]
  congr 2
  have hlt := k.endIndex.toNat_lt
  have happ : rangeIndices k.startIndex (j + 1) = rangeIndices k.startIndex j ++ [UInt32.ofNat (k.startIndex.toNat + j)] := by
    rw [rangeIndices, List.range'_concat, List.map_append, Nat.one_mul]
    rfl
  have hidx : (UInt32.ofNat (k.startIndex.toNat + j)).toNat = k.startIndex.toNat + j := by
    rw [UInt32.toNat_ofNat', Nat.mod_eq_of_lt (by omega)]
  rw [happ, blindSteps_append]
  change (Key.newChildKey H (Registry.init order) (blindSteps H (Registry.init order) k.keyPath.key (rangeIndices k.startIndex j)) _).1 = _
  rcases public_steps H order ho (rangeIndices k.startIndex j) _ hk with g | g
  · rw [newChildKey_hardened_public H _ _ _ g.2 (by omega)]
  · exact dead_step H order ho g.2 _

end

/-- The hypotheses of `C107_watch` are met, for a range of three indices, and the watcher has the keys of the owner. -/
example (order : List (Bytes × List VersionBytes)) (ho : order.Perm pathTable) :
    let H := hashesIL 1
    let R := Registry.init order
    let k : KeyPathRange := ⟨7, 10, ⟨str "m/0'", xprvKey 5⟩, []⟩
    IsXprv k.keyPath.key 5 ∧ PvtVersion k.keyPath.key.getVersion ∧ pathIsValid k.keyPath.path = true ∧ pathIsValid (str "m") = true ∧
    k.startIndex.toNat + 2 < k.endIndex.toNat ∧ k.startIndex.toNat + 2 < 2 ^ 31 ∧
    (∀ m a, m ≤ 2 → (k.generateRange H R).1.keyPaths[m]? = some a → validatePrivateKey a.key.getPvtKeyBytes = none) ∧
    ¬ MeetsZeroIL H order k.keyPath.key (rangeIndices k.startIndex 3) := by
  intro H R k
  have hx := xprvKey_isXprv (s := 5) (by decide) (by decide)
  have hp : pathIsValid (str "m/0'") = true := by decide +kernel
  refine ⟨hx, xprvKey_version _, hp, by decide +kernel, by decide, by decide, ?_, ?_⟩
  · intro m a hm ha
    have hK0 : (xprvKey 5).bytes ≠ List.replicate 78 0 := by
      intro e
      have h0 : xprvKey 5 = Key.zero := Key.ext' e
      have := xprvKey_version 5
      rw [h0] at this
      exact zero_dead.2 this
    have h9 : (7 : UInt32).toNat + m < (10 : UInt32).toNat := by
      have h1 : (7 : UInt32).toNat = 7 := rfl
      have h2 : (10 : UInt32).toNat = 10 := rfl
      omega
    rw [(range_entry H R k hK0 hp m h9).1, Option.some.injEq] at ha
    subst ha
    obtain ⟨k', h1, hk'⟩ := long_paths order ho (rangeIndices 7 (m + 1)) (xprvKey 5) 5 hx (xprvKey_version _) (by
      have : 100 < secpN := by decide
      have hl : (rangeIndices 7 (m + 1)).length = m + 1 := by simp [rangeIndices]
      omega)
    dsimp only
    rw [show blindSteps H R k.keyPath.key (rangeIndices k.startIndex (m + 1)) = k' from (blindSteps_of_deriveAll h1),
      (C34_validate_private _ k'.getPvtKeyBytes_length).1]
    have hb := (isPrivate_of_keyBytes _ hk'.1).2
    rw [hb, show setBytes (ser256 _) = _ from setBytes_ser256 hk'.2.2]
    exact ⟨hk'.2.1, by have := hk'.2.2; omega⟩
  · rintro ⟨pre, i, post, m, t, he, -, -, hz⟩
    have hi : i ∈ rangeIndices k.startIndex 3 := by rw [he]; simp
    have : i.toNat < 2 ^ 31 := (by decide : ∀ i ∈ rangeIndices 7 3, i.toNat < 2 ^ 31) i hi
    rw [ckdI_hashesIL _ _ _ _ (by decide)] at hz
    exact absurd hz (by decide)

/-- The hypotheses of `C107_hardened` are met: the second index of this range is the first hardened one. -/
example : let k : KeyPathRange := ⟨0x7fffffff, 0x80000002, ⟨str "m", xpubKey (point 7)⟩, []⟩
    k.keyPath.key.isPrivate = false ∧ pathIsValid k.keyPath.path = true ∧ k.startIndex.toNat + 1 < k.endIndex.toNat ∧
      2 ^ 31 ≤ k.startIndex.toNat + 1 := by
  refine ⟨?_, by decide +kernel, by decide, by decide⟩
  have h := xpubKey_isXpub (point_ne_zero (k := 7) (by decide))
  exact storedPoint_not_private (Q := point 7) (by rw [storedPoint_eq, compressPublicKey_coords _ h.2]; exact h.1)

end Bips
