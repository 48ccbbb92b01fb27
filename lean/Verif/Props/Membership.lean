import Verif.Props.Letters4

/-!
# C112: what IsRegistered looks at, and the two default versions
-/

namespace Bips
open Spec

/-- **C112**, the test: `IsRegistered` holds exactly of the values whose path, white space aside, is the path of a registered
entry. -/
theorem C112_isRegistered_iff (h : VersionBytes) :
    h.isRegistered = true ↔ ∃ e, Registered e ∧ e.path = stripSpace h.path := by
  have hne : ∀ row ∈ pathTable, row.2 ≠ [] := by decide +kernel
  rw [VersionBytes.isRegistered, pathString_eq, List.contains_iff_mem, List.mem_map]
  constructor
  · rintro ⟨row, hr, hp⟩
    obtain ⟨e, he⟩ := List.exists_mem_of_ne_nil _ (hne row hr)
    exact ⟨e, ⟨row, hr, he⟩, (C53_rows_consistent.1 row hr e he).trans hp⟩
  · rintro ⟨e, ⟨row, hr, he⟩, hp⟩
    exact ⟨row, hr, (C53_rows_consistent.1 row hr e he).symm.trans hp⟩

/-- **C112**, what it does not look at: for every value it holds of, and every pair of flags whatsoever, it holds of the value
with these flags, too. If no entry has one of them, though, the value is not in the table, and a lookup of that flag finds
nothing. -/
theorem C112_flags_ignored (order : List (Bytes × List VersionBytes)) (ho : order.Perm pathTable) (h : VersionBytes)
    (hr : h.isRegistered = true) (pvt pub : UInt32) :
    let h' := { h with pvtKeyFlag := pvt, pubKeyFlag := pub }
    h'.isRegistered = true ∧ h'.isValid = true ∧
      (¬ PvtVersion pvt → ¬ Registered h' ∧ (Registry.init order).pvtFlag pvt = []) ∧
      (¬ PubVersion pub → ¬ Registered h' ∧ (Registry.init order).pubFlag pub = []) := by
  intro h'
  have h1 : h'.isRegistered = true := hr
  refine ⟨h1, ?_, fun hv => ⟨fun hR => hv ⟨h', hR, rfl⟩, ?_⟩, fun hv => ⟨fun hR => hv ⟨h', hR, rfl⟩, ?_⟩⟩
  · obtain ⟨e, he, hp⟩ := (C112_isRegistered_iff h').1 h1
    have hs : stripSpace e.path = e.path := by rw [hp]; simp [stripSpace]
    have := (C53_rows_consistent.2 e he).2
    rw [VersionBytes.isValid_iff] at this ⊢
    rwa [← hp, ← hs]
  · rw [List.eq_nil_iff_forall_not_mem]
    intro e he
    have := (C53_registry_indices order ho e pvt).1.1 he
    exact hv ⟨e, this.1, this.2⟩
  · rw [List.eq_nil_iff_forall_not_mem]
    intro e he
    have := (C53_registry_indices order ho e pub).2.2.1.1 he
    exact hv ⟨e, this.1, this.2⟩

/-- The Bitcoin entry with two other flags: registered, says `IsRegistered`. -/
example : let h : VersionBytes := { bitcoinxprvxpub with path := str "m / 44' / 0'", pvtKeyFlag := 1, pubKeyFlag := 2 }
    h.isRegistered = true ∧ ¬ Registered h := by
  refine ⟨by decide +kernel, ?_⟩
  rw [registered_iff]
  decide +kernel

/-- No white space in an unknown path makes it known. -/
example : ({ bitcoinxprvxpub with path := str "m/44'/00'" } : VersionBytes).isRegistered = false := by decide +kernel

/-- **C112**, the defaults: both are registered, with the path of Bitcoin and of its test network, and every key with one of the
four versions prints the letters of BIP-32. -/
theorem C112_defaults :
    Registered defaultMainnetVersion ∧ Registered defaultTestnetVersion ∧
    defaultMainnetVersion.path = str "m/44'/0'" ∧ defaultTestnetVersion.path = str "m/44'/1'" ∧
    ∀ (H : Hashes) (k : Key),
      (k.getVersion = defaultMainnetVersion.pvtKeyFlag ↔ (k.string H).take 4 = str "xprv" ∧ PvtVersion k.getVersion) ∧
      (k.getVersion = defaultMainnetVersion.pubKeyFlag ↔ (k.string H).take 4 = str "xpub" ∧ PubVersion k.getVersion) ∧
      (k.getVersion = defaultTestnetVersion.pvtKeyFlag ↔ (k.string H).take 4 = str "tprv" ∧ PvtVersion k.getVersion) ∧
      (k.getVersion = defaultTestnetVersion.pubKeyFlag ↔ (k.string H).take 4 = str "tpub" ∧ PubVersion k.getVersion) := by
  have hm : Registered defaultMainnetVersion := by rw [registered_iff]; decide +kernel
  have ht : Registered defaultTestnetVersion := by rw [registered_iff]; decide +kernel
  have h1 : ∀ e ∈ entries, (printedLetters e.pvtKeyFlag = str "xprv" ↔ e.pvtKeyFlag = defaultMainnetVersion.pvtKeyFlag) ∧
      (printedLetters e.pvtKeyFlag = str "tprv" ↔ e.pvtKeyFlag = defaultTestnetVersion.pvtKeyFlag) ∧
      (printedLetters e.pubKeyFlag = str "xpub" ↔ e.pubKeyFlag = defaultMainnetVersion.pubKeyFlag) ∧
      (printedLetters e.pubKeyFlag = str "tpub" ↔ e.pubKeyFlag = defaultTestnetVersion.pubKeyFlag) := by decide +kernel
  refine ⟨hm, ht, by decide +kernel, by decide +kernel, fun H k => ⟨⟨fun h => ?_, fun ⟨h, hv⟩ => ?_⟩, ⟨fun h => ?_, fun ⟨h, hv⟩ => ?_⟩,
    ⟨fun h => ?_, fun ⟨h, hv⟩ => ?_⟩, ⟨fun h => ?_, fun ⟨h, hv⟩ => ?_⟩⟩⟩
  · have hv : PvtVersion k.getVersion := ⟨_, hm, h.symm⟩
    refine ⟨?_, hv⟩
    rw [(privateLetters_iff H k hv).2.2, h]; decide +kernel
  · rw [(privateLetters_iff H k hv).2.2] at h
    obtain ⟨e, he, hv⟩ := hv
    rw [← hv] at h ⊢
    exact (h1 e ((registered_iff e).1 he)).1.1 h
  · have hv : PubVersion k.getVersion := ⟨_, hm, h.symm⟩
    refine ⟨?_, hv⟩
    rw [(publicLetters_iff H k hv).2.2, h]; decide +kernel
  · rw [(publicLetters_iff H k hv).2.2] at h
    obtain ⟨e, he, hv⟩ := hv
    rw [← hv] at h ⊢
    exact (h1 e ((registered_iff e).1 he)).2.2.1.1 h
  · have hv : PvtVersion k.getVersion := ⟨_, ht, h.symm⟩
    refine ⟨?_, hv⟩
    rw [(privateLetters_iff H k hv).2.2, h]; decide +kernel
  · rw [(privateLetters_iff H k hv).2.2] at h
    obtain ⟨e, he, hv⟩ := hv
    rw [← hv] at h ⊢
    exact (h1 e ((registered_iff e).1 he)).2.1.1 h
  · have hv : PubVersion k.getVersion := ⟨_, ht, h.symm⟩
    refine ⟨?_, hv⟩
    rw [(publicLetters_iff H k hv).2.2, h]; decide +kernel
  · rw [(publicLetters_iff H k hv).2.2] at h
    obtain ⟨e, he, hv⟩ := hv
    rw [← hv] at h ⊢
    exact (h1 e ((registered_iff e).1 he)).2.2.2.1 h

end Bips
