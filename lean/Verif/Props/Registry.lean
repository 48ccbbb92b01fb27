import Verif.Lemmas.Registry

/-!
# C53–C55: the registry of version bytes

`order` is the order in which `init` happens to range over the map `PathToHDBytesSlice`: any permutation of
the table.
-/

namespace Bips
open Spec

/-- Listed in some row of `PathToHDBytesSlice`. -/
def Registered (e : VersionBytes) : Prop := ∃ row ∈ pathTable, e ∈ row.2

/-- The path of the entry is `m/p'/c'` with the given numbers. -/
def HasNumbers (e : VersionBytes) (p c : Nat) : Prop :=
  ∃ d1 d2, IsNumeral d1 ∧ IsNumeral d2 ∧ e.path = twoLevel d1 d2 ∧ decValue d1 = p ∧ decValue d2 = c

theorem registered_iff (e : VersionBytes) : Registered e ↔ e ∈ entries := by
  simp [Registered, entries, List.mem_flatMap]

theorem entries_paths : ∀ e ∈ entries, stripSpace e.path = e.path ∧ ∃ d1 ∈ splitByte 47 e.path, ∃ d2 ∈ splitByte 47 e.path,
    removeByte 39 d1 ≠ [] ∧ removeByte 39 d2 ≠ [] ∧
    ((removeByte 39 d1).all isDigit && (removeByte 39 d1).length ≤ 8 && (removeByte 39 d2).all isDigit &&
      (removeByte 39 d2).length ≤ 8) = true ∧
    e.path = twoLevel (removeByte 39 d1) (removeByte 39 d2) := by
  decide +kernel

theorem entry_shape {e : VersionBytes} (h : e ∈ entries) : stripSpace e.path = e.path ∧
    ∃ d1 d2, IsNumeral d1 ∧ IsNumeral d2 ∧ d1.length ≤ 8 ∧ d2.length ≤ 8 ∧ e.path = twoLevel d1 d2 := by
  obtain ⟨hs, a, -, b, -, ha, hb, hd, he⟩ := entries_paths e h
  simp only [Bool.and_eq_true, decide_eq_true_eq] at hd
  refine ⟨hs, removeByte 39 a, removeByte 39 b, ⟨ha, ?_⟩, ⟨hb, ?_⟩, hd.1.1.2, hd.2, he⟩
  · intro c hc; exact (isDigit_iff c).1 (List.all_eq_true.1 hd.1.1.1 c hc)
  · intro c hc; exact (isDigit_iff c).1 (List.all_eq_true.1 hd.1.2 c hc)

theorem readDigits_numeral {d : Bytes} (h : IsNumeral d) : readDigits d = (UInt32.ofNat (decValue d), none) := by
  rw [readDigits, if_neg h.1]

theorem entry_vals {e : VersionBytes} (h : e ∈ entries) : ∃ p c, p < 10 ^ 8 ∧ c < 10 ^ 8 ∧
    (∀ p' c', HasNumbers e p' c' ↔ p' = p ∧ c' = c) ∧
    e.purposeVal = .ok (UInt32.ofNat p, none) ∧ e.coinVal = .ok (UInt32.ofNat c, none) ∧
    e.purposeValFull = .ok (UInt32.ofNat p + firstHardenedChild, none) := by
  obtain ⟨hs, d1, d2, n1, n2, l1, l2, he⟩ := entry_shape h
  obtain ⟨v1, v2, v3, -⟩ := e.valid_vals ⟨n1.2, l1⟩ ⟨n2.2, l2⟩ (by rw [hs, he])
  rw [readDigits_numeral n1] at v1 v3
  rw [readDigits_numeral n2] at v2
  refine ⟨decValue d1, decValue d2, decValue_digits8 ⟨n1.2, l1⟩, decValue_digits8 ⟨n2.2, l2⟩, ?_, v1, v2, v3⟩
  intro p' c'
  constructor
  · rintro ⟨e1, e2, m1, m2, he', rfl, rfl⟩
    have ns : ∀ {d : Bytes}, IsNumeral d → (47 : UInt8) ∉ d := fun hd => numeral_not_mem hd (by decide)
    obtain ⟨rfl, rfl⟩ := twoLevel_inj (ns m1) (ns m2) (ns n1) (ns n2) (he'.symm.trans he)
    exact ⟨rfl, rfl⟩
  · rintro ⟨rfl, rfl⟩
    exact ⟨d1, d2, n1, n2, he, rfl, rfl⟩

theorem ofNat_eq_iff {p : Nat} (h : p < 2 ^ 32) (v : UInt32) : UInt32.ofNat p = v ↔ v.toNat = p := by
  constructor
  · rintro rfl; rw [UInt32.toNat_ofNat', Nat.mod_eq_of_lt h]
  · rintro rfl; simp

theorem ofNat_full_eq_iff {p : Nat} (h : p < 2 ^ 31) (v : UInt32) :
    UInt32.ofNat p + firstHardenedChild = v ↔ v.toNat = p + 2 ^ 31 := by
  have : (UInt32.ofNat p + firstHardenedChild).toNat = p + 2 ^ 31 := by
    rw [UInt32.toNat_add, UInt32.toNat_ofNat', hard_toNat]; omega
  rw [← UInt32.toNat_inj, this, eq_comm]

/-- **C53.** Whatever the map iteration order, after `init` each index holds under each value exactly the
registered entries with that value, each once. Purpose and coin are read off the entry's path text
`m/purpose'/coin'`. -/
theorem C53_registry_indices (order : List (Bytes × List VersionBytes)) (h : order.Perm pathTable)
    (e : VersionBytes) (v : UInt32) :
    let R := Registry.init order
    (e ∈ R.pvtFlag v ↔ Registered e ∧ e.pvtKeyFlag = v) ∧ (R.pvtFlag v).Nodup ∧
    (e ∈ R.pubFlag v ↔ Registered e ∧ e.pubKeyFlag = v) ∧ (R.pubFlag v).Nodup ∧
    (e ∈ R.purpose v ↔ Registered e ∧ ∃ c, HasNumbers e v.toNat c) ∧ (R.purpose v).Nodup ∧
    (e ∈ R.purposeFull v ↔ Registered e ∧ ∃ p c, HasNumbers e p c ∧ v.toNat = p + 2 ^ 31) ∧
      (R.purposeFull v).Nodup ∧
    (e ∈ R.coinType v ↔ Registered e ∧ ∃ p, HasNumbers e p v.toNat) ∧ (R.coinType v).Nodup ∧
    (e ∈ R.hdVersionBytesSlice ↔ Registered e) ∧ R.hdVersionBytesSlice.Nodup := by
  have hnd : (order.flatMap (·.2)).Nodup := (perm_entries h).nodup_iff.2 entries_nodup
  intro R
  simp only [R, init_pvtFlag, init_pubFlag, init_purpose, init_purposeFull, init_coinType, init_slice,
    List.mem_filter, mem_order h, decide_eq_true_eq, registered_iff, hnd, List.Nodup.filter, and_true, true_and]
  refine ⟨?_, ?_, ?_⟩
  · refine and_congr_right fun he => ?_
    obtain ⟨p, c, hp, hc, hn, v1, v2, v3⟩ := entry_vals he
    rw [v1]
    simp only [ignoreErr, hn]
    rw [ofNat_eq_iff (by omega)]
    simp
  · refine and_congr_right fun he => ?_
    obtain ⟨p, c, hp, hc, hn, v1, v2, v3⟩ := entry_vals he
    rw [v3]
    simp only [ignoreErr, hn]
    rw [ofNat_full_eq_iff (by omega)]
    constructor
    · intro e; exact ⟨p, c, ⟨rfl, rfl⟩, e⟩
    · rintro ⟨_, _, ⟨rfl, rfl⟩, e⟩; exact e
  · refine and_congr_right fun he => ?_
    obtain ⟨p, c, hp, hc, hn, v1, v2, v3⟩ := entry_vals he
    rw [v2]
    simp only [ignoreErr, hn]
    rw [ofNat_eq_iff (by omega)]
    simp

/-- The reversed table is another admissible order, and it changes the slices. -/
example : pathTable.reverse.Perm pathTable ∧
    (Registry.init pathTable.reverse).pvtFlag 0x0488ade4 ≠ (Registry.init pathTable).pvtFlag 0x0488ade4 := by
  refine ⟨List.reverse_perm _, ?_⟩
  rw [init_pvtFlag, init_pvtFlag]
  decide +kernel

/-- Rows and entries agree: each row's key is the path of its entries, so `IsRegistered` holds of each. -/
theorem C53_rows_consistent : (∀ row ∈ pathTable, ∀ e ∈ row.2, e.path = row.1) ∧
    (∀ e, Registered e → e.isRegistered = true ∧ e.isValid = true) := by
  refine ⟨by decide +kernel, ?_⟩
  intro e he
  rw [registered_iff] at he
  have hr : ∀ e ∈ entries, e.isRegistered = true := by decide +kernel
  refine ⟨hr e he, ?_⟩
  obtain ⟨hs, d1, d2, n1, n2, l1, l2, hp⟩ := entry_shape he
  exact e.isValid_iff.2 ⟨d1, d2, ⟨n1.2, l1⟩, ⟨n2.2, l2⟩, by rw [hs, hp]⟩

/-- **C54.** For every entry, registered or not: if its path (white space aside) is `m/d1'/d2'` with at most
eight digits each, then each value is the number written, when there is one, and the `Full` variants add
2³¹; a missing number is an `Atoi` error; every other path gives ErrUnSupportedHDVersionBytes. No call
panics, and no value reaches 2³¹. -/
theorem C54_purpose_coin (h : VersionBytes) :
    (∀ d1 d2, Digits8 d1 → Digits8 d2 → stripSpace h.path = twoLevel d1 d2 →
      h.isValid = true ∧
      (d1 ≠ [] → decValue d1 < 2 ^ 31 ∧
        h.purposeVal = .ok (UInt32.ofNat (decValue d1), none) ∧
        h.purposeValFull = .ok (UInt32.ofNat (decValue d1 + 2 ^ 31), none)) ∧
      (d1 = [] → h.purposeVal = .ok (0, some .atoiSyntax) ∧ h.purposeValFull = .ok (0, some .atoiSyntax)) ∧
      (d2 ≠ [] → decValue d2 < 2 ^ 31 ∧
        h.coinVal = .ok (UInt32.ofNat (decValue d2), none) ∧
        h.coinValFull = .ok (UInt32.ofNat (decValue d2 + 2 ^ 31), none)) ∧
      (d2 = [] → h.coinVal = .ok (0, some .atoiSyntax) ∧ h.coinValFull = .ok (0, some .atoiSyntax))) ∧
    ((¬ ∃ d1 d2, Digits8 d1 ∧ Digits8 d2 ∧ stripSpace h.path = twoLevel d1 d2) →
      h.isValid = false ∧
      h.purposeVal = .ok (0, some .unSupportedHDVersionBytes) ∧
      h.coinVal = .ok (0, some .unSupportedHDVersionBytes) ∧
      h.purposeValFull = .ok (0, some .unSupportedHDVersionBytes) ∧
      h.coinValFull = .ok (0, some .unSupportedHDVersionBytes)) := by
  have full : ∀ n, n < 10 ^ 8 → UInt32.ofNat n + firstHardenedChild = UInt32.ofNat (n + 2 ^ 31) := by
    intro n hn
    rw [ofNat_full_eq_iff (by omega), UInt32.toNat_ofNat']; omega
  constructor
  · intro d1 d2 h1 h2 hp
    obtain ⟨v1, v2, v3, v4⟩ := h.valid_vals h1 h2 hp
    have b1 := decValue_digits8 h1
    have b2 := decValue_digits8 h2
    refine ⟨h.isValid_iff.2 ⟨d1, d2, h1, h2, hp⟩, ?_, ?_, ?_, ?_⟩
    · intro hd
      rw [readDigits, if_neg hd] at v1 v3
      exact ⟨by omega, v1, by rw [v3, ← full _ b1]; rfl⟩
    · rintro rfl; exact ⟨v1, v3⟩
    · intro hd
      rw [readDigits, if_neg hd] at v2 v4
      exact ⟨by omega, v2, by rw [v4, ← full _ b2]; rfl⟩
    · rintro rfl; exact ⟨v2, v4⟩
  · intro hn
    have hv : h.isValid = false := by
      rw [← Bool.not_eq_true, h.isValid_iff]; exact hn
    exact ⟨hv, h.invalid_vals hv⟩

/-- Each case occurs. -/
example : (∃ d1 d2, Digits8 d1 ∧ Digits8 d2 ∧ d1 ≠ [] ∧ stripSpace bitcoinxprvxpub.path = twoLevel d1 d2) ∧
    ({ bitcoinxprvxpub with path := str "m/'/12'" }.coinVal = .ok (12, none)) ∧
    ({ bitcoinxprvxpub with path := str "m/44/0" }.isValid = false) := by
  refine ⟨⟨str "44", str "0", ⟨by decide, by decide⟩, ⟨by decide, by decide⟩, by decide, by decide⟩, by decide +kernel, by decide +kernel⟩

/-- **C55.** No flag is both private and public; a private flag determines the public flag of its entries and
conversely. -/
theorem C55_flags_unambiguous (v : UInt32) :
    ¬ ((∃ e, Registered e ∧ e.pvtKeyFlag = v) ∧ (∃ e, Registered e ∧ e.pubKeyFlag = v)) ∧
    (∀ a b, Registered a → Registered b → a.pvtKeyFlag = v → b.pvtKeyFlag = v → a.pubKeyFlag = b.pubKeyFlag) ∧
    (∀ a b, Registered a → Registered b → a.pubKeyFlag = v → b.pubKeyFlag = v → a.pvtKeyFlag = b.pvtKeyFlag) := by
  simp only [registered_iff]
  refine ⟨?_, ?_, ?_⟩
  · rintro ⟨⟨a, ha, rfl⟩, ⟨b, hb, h⟩⟩
    exact pvt_ne_pub a ha b hb h.symm
  · intro a b ha hb h1 h2
    exact (pub_of_pvt a ha b hb).1 (h1.trans h2.symm)
  · intro a b ha hb h1 h2
    exact (pub_of_pvt a ha b hb).2 (h1.trans h2.symm)

/-- Distinct entries sharing a private flag exist. -/
example : Registered bitcoinxprvxpub ∧ Registered vertcoinvtcpvtcv ∧ bitcoinxprvxpub ≠ vertcoinvtcpvtcv ∧
    bitcoinxprvxpub.pvtKeyFlag = vertcoinvtcpvtcv.pvtKeyFlag := by
  simp only [registered_iff]
  decide +kernel

end Bips
