import Verif.Model.Registry
import Verif.Lemmas.Path

/-! Lemmas about the registry. -/

namespace Bips
open Spec

/-! ### The path of a version entry -/

theorem mem_optDigits (n : Nat) (x : Bytes) :
    x ∈ ((reOpt reDigit) ^ n).matches' ↔ (∀ c ∈ x, 48 ≤ c.toNat ∧ c.toNat ≤ 57) ∧ x.length ≤ n := by
  induction n generalizing x with
  | zero =>
    rw [RegularExpression.matches'_pow, pow_zero, Language.mem_one]
    constructor
    · rintro rfl; simp
    · rintro ⟨-, h⟩; exact List.length_eq_zero_iff.1 (by omega)
  | succ n ih =>
    rw [RegularExpression.matches'_pow, pow_succ', Language.mem_mul]
    constructor
    · rintro ⟨a, ha, b, hb, rfl⟩
      rw [← RegularExpression.matches'_pow, ih] at hb
      rw [reOpt, RegularExpression.matches'_add, Language.mem_add, RegularExpression.matches'_epsilon,
        Language.mem_one, mem_reDigit] at ha
      rcases ha with rfl | ⟨c, hc, rfl⟩
      · exact ⟨by simpa using hb.1, by simpa using Nat.le_succ_of_le hb.2⟩
      · refine ⟨?_, by simpa using hb.2⟩
        intro d hd
        rcases List.mem_append.1 hd with hd | hd
        · simp at hd; subst hd; exact (isDigit_iff _).1 hc
        · exact hb.1 d hd
    · rintro ⟨h1, h2⟩
      match x with
      | [] => 
        refine ⟨[], ?_, [], ?_, rfl⟩
        · rw [reOpt, RegularExpression.matches'_add, Language.mem_add]; left
          rw [RegularExpression.matches'_epsilon, Language.mem_one]
        · rw [← RegularExpression.matches'_pow, ih]; simp
      | c :: r =>
        refine ⟨[c], ?_, r, ?_, rfl⟩
        · rw [reOpt, RegularExpression.matches'_add, Language.mem_add]; right
          exact (mem_reDigit _).2 ⟨c, (isDigit_iff _).2 (h1 c (by simp)), rfl⟩
        · rw [← RegularExpression.matches'_pow, ih]
          exact ⟨fun d hd => h1 d (by simp [hd]), by simpa using h2⟩

theorem regex_iff (s : Bytes) :
    VersionBytes.regex.rmatch s = true ↔ ∃ d1 d2, Digits8 d1 ∧ Digits8 d2 ∧ s = twoLevel d1 d2 := by
  have e1 : str "m/" = [109, 47] := by decide
  have e2 : str "'/" = [39, 47] := by decide
  have e3 : str "'" = [39] := by decide
  rw [RegularExpression.rmatch_iff_matches', VersionBytes.regex]
  simp only [RegularExpression.matches'_mul, Language.mem_mul, RegularExpression.matches'_char, twoLevel, e1, e2, e3]
  constructor
  · rintro ⟨_, ⟨_, ⟨_, ⟨_, ⟨_, ⟨_, h1, _, h2, rfl⟩, d1, hd1, rfl⟩, _, h4, rfl⟩, _, h5, rfl⟩, d2, hd2, rfl⟩, _, h7, rfl⟩
    change _ = _ at h1 h2 h4 h5 h7
    obtain rfl := h1
    obtain rfl := h2
    obtain rfl := h4
    obtain rfl := h5
    obtain rfl := h7
    exact ⟨d1, d2, (mem_optDigits 8 d1).1 hd1, (mem_optDigits 8 d2).1 hd2, by simp⟩
  · rintro ⟨d1, d2, h1, h2, rfl⟩
    exact ⟨_, ⟨_, ⟨_, ⟨_, ⟨_, ⟨[109], rfl, [47], rfl, rfl⟩, d1, (mem_optDigits 8 d1).2 h1, rfl⟩, [39], rfl, rfl⟩,
      [47], rfl, rfl⟩, d2, (mem_optDigits 8 d2).2 h2, rfl⟩, [39], rfl, by simp⟩

theorem not_mem_digits8 {d : Bytes} (h : Digits8 d) {c : UInt8} (hc : c.toNat < 48 ∨ 57 < c.toNat) : c ∉ d := by
  intro hm
  have := h.1 c hm
  omega

theorem split_twoLevel' {d1 d2 : Bytes} (hs1 : (47 : UInt8) ∉ d1) (hs2 : (47 : UInt8) ∉ d2) :
    splitByte 47 (twoLevel d1 d2) = [[109], d1 ++ [39], d2 ++ [39]] := by
  have e1 : str "m/" = [109, 47] := by decide
  have e2 : str "'/" = [39, 47] := by decide
  have e3 : str "'" = [39] := by decide
  have e : twoLevel d1 d2 = joinByte 47 [[109], d1 ++ [39], d2 ++ [39]] := by
    simp [twoLevel, e1, e2, e3, joinByte]
  rw [e, splitByte_joinByte _ _ (by simp)]
  intro w hw
  simp only [List.mem_cons, List.not_mem_nil, or_false] at hw
  rcases hw with rfl | rfl | rfl
  · decide
  · simp [hs1]
  · simp [hs2]

theorem split_twoLevel {d1 d2 : Bytes} (h1 : Digits8 d1) (h2 : Digits8 d2) :
    splitByte 47 (twoLevel d1 d2) = [[109], d1 ++ [39], d2 ++ [39]] :=
  split_twoLevel' (not_mem_digits8 h1 (by decide)) (not_mem_digits8 h2 (by decide))

theorem twoLevel_inj {d1 d2 e1 e2 : Bytes} (h1 : (47 : UInt8) ∉ d1) (h2 : (47 : UInt8) ∉ d2)
    (h3 : (47 : UInt8) ∉ e1) (h4 : (47 : UInt8) ∉ e2) (h : twoLevel d1 d2 = twoLevel e1 e2) : d1 = e1 ∧ d2 = e2 := by
  have := congrArg (splitByte 47) h
  rw [split_twoLevel' h1 h2, split_twoLevel' h3 h4] at this
  simpa using this

theorem removeByte_digits8 {d : Bytes} (h : Digits8 d) : removeByte 39 (d ++ [39]) = d := by
  have : (39 : UInt8) ∉ d := not_mem_digits8 h (by decide)
  unfold removeByte
  rw [List.filter_append]
  have h2 : d.filter (· ≠ 39) = d := by
    rw [List.filter_eq_self]
    intro a ha
    simp only [ne_eq, decide_eq_true_eq]
    rintro rfl; exact this ha
  rw [h2]; simp

theorem decValue_digits8 {d : Bytes} (h : Digits8 d) : decValue d < 10 ^ 8 := by
  rw [decValue_eq]
  have := ofDigitsBE_lt 10 (d.map fun c => c.toNat - 48) (by
    intro x hx
    obtain ⟨c, hc, rfl⟩ := List.mem_map.1 hx
    have := h.1 c hc
    omega)
  refine lt_of_lt_of_le this ?_
  rw [List.length_map]
  exact Nat.pow_le_pow_right (by norm_num) h.2

/-- The number read from component `d`. -/
def readDigits (d : Bytes) : UInt32 × Option Err :=
  if d = [] then (0, some .atoiSyntax) else (UInt32.ofNat (decValue d), none)

theorem comp_read {d : Bytes} (h : Digits8 d) (rangeErr : Err) :
    (match atoi (removeByte 39 (d ++ [39])) with
      | (_, some e) => Outcome.ok ((0 : UInt32), some e)
      | (v, none) =>
        if intToUint32 v ≥ firstHardenedChild then .ok (0, some rangeErr)
        else .ok (intToUint32 v, none)) = Outcome.ok (readDigits d) := by
  rw [removeByte_digits8 h, readDigits]
  by_cases hd : d = []
  · subst hd; rfl
  · have hv := decValue_digits8 h
    rw [if_neg hd, atoi_numeral d ⟨hd, h.1⟩, if_pos (by omega)]
    simp only
    rw [intToUint32_natCast, if_neg]
    rw [hardened_lt_iff]; omega

theorem VersionBytes.isValid_iff (h : VersionBytes) :
    h.isValid = true ↔ ∃ d1 d2, Digits8 d1 ∧ Digits8 d2 ∧ stripSpace h.path = twoLevel d1 d2 := by
  rw [VersionBytes.isValid, regex_iff, pathString_eq]

theorem VersionBytes.invalid_vals (h : VersionBytes) (hv : h.isValid = false) :
    h.purposeVal = .ok (0, some .unSupportedHDVersionBytes) ∧ h.coinVal = .ok (0, some .unSupportedHDVersionBytes) ∧
    h.purposeValFull = .ok (0, some .unSupportedHDVersionBytes) ∧
    h.coinValFull = .ok (0, some .unSupportedHDVersionBytes) := by
  simp [purposeVal, coinVal, purposeValFull, coinValFull, compVal, fullOf, hv]

/-- Adding 2³¹ to a successful result. -/
def addFull : UInt32 × Option Err → UInt32 × Option Err
  | (_, some e) => (0, some e)
  | (v, none) => (v + firstHardenedChild, none)

theorem VersionBytes.valid_vals (h : VersionBytes) {d1 d2 : Bytes} (h1 : Digits8 d1) (h2 : Digits8 d2)
    (hp : stripSpace h.path = twoLevel d1 d2) :
    h.purposeVal = .ok (readDigits d1) ∧ h.coinVal = .ok (readDigits d2) ∧
    h.purposeValFull = .ok (addFull (readDigits d1)) ∧ h.coinValFull = .ok (addFull (readDigits d2)) := by
  have hv : h.isValid = true := h.isValid_iff.2 ⟨d1, d2, h1, h2, hp⟩
  have hP : h.purposeVal = .ok (readDigits d1) := by
    rw [purposeVal, compVal, pathString_eq, hp, split_twoLevel h1 h2, hv]
    exact comp_read h1 _
  have hC : h.coinVal = .ok (readDigits d2) := by
    rw [coinVal, compVal, pathString_eq, hp, split_twoLevel h1 h2, hv]
    exact comp_read h2 _
  refine ⟨hP, hC, ?_, ?_⟩
  · rw [purposeValFull, hP]; simp only [fullOf, hv]
    rcases readDigits d1 with ⟨v, _ | e⟩ <;> rfl
  · rw [coinValFull, hC]; simp only [fullOf, hv]
    rcases readDigits d2 with ⟨v, _ | e⟩ <;> rfl

/-! ### The index maps -/

theorem mapAppend_fold (key : VersionBytes → UInt32) (l : List VersionBytes) (m : UInt32 → List VersionBytes)
    (v : UInt32) :
    (l.foldl (fun m h => mapAppend m (key h) h) m) v = m v ++ l.filter (fun h => key h = v) := by
  induction l generalizing m with
  | nil => simp
  | cons a l ih =>
    rw [List.foldl_cons, ih]
    by_cases h : key a = v
    · subst h; simp [mapAppend]
    · simp [mapAppend, h, Ne.symm h]

theorem foldl_add_field (f : Registry → UInt32 → List VersionBytes) (key : VersionBytes → UInt32)
    (hf : ∀ r h, f (r.add h) = mapAppend (f r) (key h) h) (l : List VersionBytes) (r : Registry) (v : UInt32) :
    f (l.foldl Registry.add r) v = f r v ++ l.filter (fun h => key h = v) := by
  induction l generalizing r with
  | nil => simp
  | cons a l ih =>
    rw [List.foldl_cons, ih, hf]
    by_cases h : key a = v
    · subst h; simp [mapAppend]
    · simp [mapAppend, h, Ne.symm h]

theorem init_field (f : Registry → UInt32 → List VersionBytes) (key : VersionBytes → UInt32)
    (hf : ∀ r h, f (r.add h) = mapAppend (f r) (key h) h)
    (hs : ∀ (r : Registry) l, f { r with hdVersionBytesSlice := l } = f r) (h0 : ∀ v, f {} v = [])
    (order : List (Bytes × List VersionBytes)) (v : UInt32) :
    f (Registry.init order) v = (order.flatMap (·.2)).filter (fun h => key h = v) := by
  have gen : ∀ (order : List (Bytes × List VersionBytes)) (r : Registry),
      f (order.foldl Registry.addEntry r) v = f r v ++ (order.flatMap (·.2)).filter (fun h => key h = v) := by
    intro order
    induction order with
    | nil => intro r; simp
    | cons e order ih =>
      intro r
      rw [List.foldl_cons, ih, Registry.addEntry, foldl_add_field f key hf, hs]
      simp
  rw [Registry.init, gen, h0]; simp

theorem init_pvtFlag (order : List (Bytes × List VersionBytes)) (v : UInt32) :
    (Registry.init order).pvtFlag v = (order.flatMap (·.2)).filter (fun h => h.pvtKeyFlag = v) :=
  init_field (·.pvtFlag) (·.pvtKeyFlag) (fun _ _ => rfl) (fun _ _ => rfl) (fun _ => rfl) order v

theorem init_pubFlag (order : List (Bytes × List VersionBytes)) (v : UInt32) :
    (Registry.init order).pubFlag v = (order.flatMap (·.2)).filter (fun h => h.pubKeyFlag = v) :=
  init_field (·.pubFlag) (·.pubKeyFlag) (fun _ _ => rfl) (fun _ _ => rfl) (fun _ => rfl) order v

theorem init_purpose (order : List (Bytes × List VersionBytes)) (v : UInt32) :
    (Registry.init order).purpose v = (order.flatMap (·.2)).filter (fun h => ignoreErr h.purposeVal = v) :=
  init_field (·.purpose) (fun h => ignoreErr h.purposeVal) (fun _ _ => rfl) (fun _ _ => rfl) (fun _ => rfl) order v

theorem init_purposeFull (order : List (Bytes × List VersionBytes)) (v : UInt32) :
    (Registry.init order).purposeFull v = (order.flatMap (·.2)).filter (fun h => ignoreErr h.purposeValFull = v) :=
  init_field (·.purposeFull) (fun h => ignoreErr h.purposeValFull) (fun _ _ => rfl) (fun _ _ => rfl) (fun _ => rfl)
    order v

theorem init_coinType (order : List (Bytes × List VersionBytes)) (v : UInt32) :
    (Registry.init order).coinType v = (order.flatMap (·.2)).filter (fun h => ignoreErr h.coinVal = v) :=
  init_field (·.coinType) (fun h => ignoreErr h.coinVal) (fun _ _ => rfl) (fun _ _ => rfl) (fun _ => rfl) order v

theorem init_slice (order : List (Bytes × List VersionBytes)) :
    (Registry.init order).hdVersionBytesSlice = order.flatMap (·.2) := by
  have add : ∀ (l : List VersionBytes) (r : Registry),
      (l.foldl Registry.add r).hdVersionBytesSlice = r.hdVersionBytesSlice := by
    intro l
    induction l with
    | nil => intro r; rfl
    | cons a l ih => intro r; rw [List.foldl_cons, ih]; rfl
  have gen : ∀ (order : List (Bytes × List VersionBytes)) (r : Registry),
      (order.foldl Registry.addEntry r).hdVersionBytesSlice = r.hdVersionBytesSlice ++ order.flatMap (·.2) := by
    intro order
    induction order with
    | nil => intro r; simp
    | cons e order ih => intro r; rw [List.foldl_cons, ih, Registry.addEntry, add]; simp
  rw [Registry.init, gen]; simp

/-- All registered entries. -/
def entries : List VersionBytes := pathTable.flatMap (·.2)

theorem entries_nodup : entries.Nodup := by decide +kernel

theorem perm_entries {order : List (Bytes × List VersionBytes)} (h : order.Perm pathTable) :
    (order.flatMap (·.2)).Perm entries := h.flatMap_right _

theorem mem_order {order : List (Bytes × List VersionBytes)} (h : order.Perm pathTable) (e : VersionBytes) :
    e ∈ order.flatMap (·.2) ↔ e ∈ entries := (perm_entries h).mem_iff

theorem pub_of_pvt : ∀ a ∈ entries, ∀ b ∈ entries, a.pvtKeyFlag = b.pvtKeyFlag ↔ a.pubKeyFlag = b.pubKeyFlag := by
  decide +kernel

theorem pvt_ne_pub : ∀ a ∈ entries, ∀ b ∈ entries, a.pvtKeyFlag ≠ b.pubKeyFlag := by
  decide +kernel

end Bips
