import Mathlib.Data.List.Sort
import Verif.Lemmas.Bip44

/-!
# Coins: C56, C57, C58, C63, C64
-/

namespace Bips
open Spec

/-! ### C58 -/

/-- C58: `IsValid` holds exactly of sensible rows. -/
theorem C58_isValid_iff (c : Coin) : c.isValid = true ↔ CoinOk c := isValid_iff c

/-- C58: the repair gives a sensible row exactly if there is a label and the path component is hardened; it keeps texts
and path component, and leaves sensible rows alone. -/
theorem C58_repair (c : Coin) :
    (CoinOk c.repair ↔ ¬(IsWs c.name ∧ IsWs c.symbol) ∧ 2 ^ 31 ≤ c.pathComponent.toNat) ∧ SameRow c.repair c ∧
      (CoinOk c → c.repair = c) :=
  ⟨repair_ok_iff c, repair_sameRow c, repair_of_ok⟩

/-- Bitcoin's row is valid; the published row of Teslacoin is not, and its repair is. -/
example : (Coin.mk 0 0x80000000 (str "BTC") (str "Bitcoin")).isValid = true ∧
    (Coin.mk 1856 0x80000743 (str "TES") (str "Teslacoin")).isValid = false ∧
    (Coin.mk 1856 0x80000743 (str "TES") (str "Teslacoin")).repair = ⟨1859, 0x80000743, str "TES", str "Teslacoin"⟩ := by
  decide +kernel

/-- A label of white space (here U+3000 and a tab) is no label; a type that overflows is refused. -/
example : (Coin.mk 5 0x80000005 (str "\t") (str "　")).isValid = false ∧
    (Coin.mk 0x80000005 5 (str "A") (str "B")).isValid = false := by
  decide +kernel

/-! ### C56 -/

/-- The names of the inconsistent rows. -/
def inconsistentNames : List Bytes := [str "Teslacoin", str "Chiliz", str "GENOM", str "WaltonChain"]

/-- C56: after initialisation, whatever the sort did with coins of the same name, all coins are sensible, they are in
the order of their names, and they are the published rows: each row occurs once (the relation pairs the published table
with a rearrangement of `RegCoins`) with its texts and path component, and a sensible row is unchanged. -/
theorem C56_registered_coins {sorted : List Coin} (h : SortOutcome coinTable sorted) :
    (∀ c ∈ (CoinReg.init sorted).coins, CoinOk c) ∧
    (CoinReg.init sorted).coins.Pairwise (fun a b => a.name ≤ b.name) ∧
    ∃ l, l.Perm (CoinReg.init sorted).coins ∧
      List.Forall₂ (fun row c => SameRow c row ∧ (CoinOk row → c = row)) coinTable l := by
  rw [init_coins]
  refine ⟨?_, ?_, coinTable.map Coin.repair, (h.perm.map _).symm, ?_⟩
  · intro c hc
    obtain ⟨d, hd, rfl⟩ := List.mem_map.1 hc
    have := table_row (h.perm.mem_iff.1 hd)
    exact (repair_ok_iff d).2 ⟨fun hw => this.1 hw.1, this.2.1⟩
  · rw [List.pairwise_map]
    refine h.sorted.imp fun {a b} hab => ?_
    rw [(repair_sameRow a).2.2, (repair_sameRow b).2.2]
    exact List.not_lt.1 hab
  · rw [List.forall₂_map_right_iff]
    exact List.forall₂_same.2 fun c _ => ⟨repair_sameRow c, repair_of_ok⟩

/-- The rows whose type does not fit, for the kernel. -/
def misfit (c : CoinCode) : Bool := bif Nat.beq (c.type + 2 ^ 31) c.pathComponent then false else true

set_option maxRecDepth 100000 in
theorem table_misfits : (Data.Coins.codes.filter misfit).map CoinCode.name =
    [textCode "Teslacoin", textCode "Chiliz", textCode "GENOM", textCode "WaltonChain"] := by decide +kernel

set_option maxRecDepth 100000 in
theorem table_misfit_names : Data.Coins.codes.all (fun c =>
    bif misfit c then true else
    bif Nat.beq c.name (textCode "Teslacoin") || Nat.beq c.name (textCode "Chiliz") ||
      Nat.beq c.name (textCode "GENOM") || Nat.beq c.name (textCode "WaltonChain") then false else true) = true := by
  decide +kernel

/-- C56: the published rows that are not sensible are exactly those of Teslacoin, Chiliz, GENOM and WaltonChain. -/
theorem C56_inconsistent_rows {c : Coin} (h : c ∈ coinTable) : ¬ CoinOk c ↔ c.name ∈ inconsistentNames := by
  have hc : inconsistentNames =
      [codeWord (textCode "Teslacoin"), codeWord (textCode "Chiliz"), codeWord (textCode "GENOM"),
        codeWord (textCode "WaltonChain")] := by decide +kernel
  obtain ⟨d, hd, rfl⟩ := List.mem_map.1 h
  have hg := List.all_eq_true.1 table_good d hd
  obtain ⟨h1, h2, h3, h4, h5, -⟩ := goodCoin_iff hg
  have hok : CoinOk d.coin ↔ misfit d = false := by
    have e1 : d.coin.type.toNat = d.type := by
      show (UInt32.ofNat d.type).toNat = _
      rw [UInt32.toNat_ofNat', Nat.mod_eq_of_lt (by omega)]
    have e2 : d.coin.pathComponent.toNat = d.pathComponent := by
      show (UInt32.ofNat d.pathComponent).toNat = _
      rw [UInt32.toNat_ofNat', Nat.mod_eq_of_lt h3]
    unfold misfit
    cases hb : Nat.beq (d.type + 2 ^ 31) d.pathComponent with
    | true =>
      have := Nat.eq_of_beq_eq_true hb
      exact ⟨fun _ => rfl, fun _ => ⟨fun hw => coin_label hg hw.1, by omega, by omega⟩⟩
    | false =>
      have := Nat.ne_of_beq_eq_false hb
      exact ⟨fun ho => absurd ho.component (by omega), fun hf => by cases hf⟩
  rw [hok, Bool.not_eq_false, hc]
  constructor
  · intro hm
    have : d.name ∈ (Data.Coins.codes.filter misfit).map CoinCode.name :=
      List.mem_map.2 ⟨d, List.mem_filter.2 ⟨hd, hm⟩, rfl⟩
    rw [table_misfits] at this
    exact List.mem_map_of_mem (f := codeWord) this
  · intro hm
    have hm : codeWord d.name ∈ [textCode "Teslacoin", textCode "Chiliz", textCode "GENOM",
        textCode "WaltonChain"].map codeWord := hm
    obtain ⟨n, hn, he⟩ := List.mem_map.1 hm
    have hlt : n < 256 ^ 64 := by
      have : ∀ n ∈ [textCode "Teslacoin", textCode "Chiliz", textCode "GENOM", textCode "WaltonChain"],
          n < 256 ^ 64 := by decide +kernel
      exact this n hn
    have hname : d.name = n := by rw [← setBytes_codeWord h5, ← he, setBytes_codeWord hlt]
    by_contra hf
    rw [Bool.not_eq_true] at hf
    have ha := List.all_eq_true.1 table_misfit_names d hd
    rw [hf, hname] at ha
    have : ∀ n ∈ [textCode "Teslacoin", textCode "Chiliz", textCode "GENOM", textCode "WaltonChain"],
        (bif Nat.beq n (textCode "Teslacoin") || Nat.beq n (textCode "Chiliz") ||
          Nat.beq n (textCode "GENOM") || Nat.beq n (textCode "WaltonChain") then false else true) = false := by
      decide +kernel
    rw [cond_false, this n hn] at ha
    cases ha

/-- The sort has an outcome with `c` last among the coins of its name. -/
theorem sortOutcome_last {l : List Coin} {c : Coin} (hc : c ∈ l) :
    ∃ sorted, SortOutcome l sorted ∧ (sorted.filter fun d => d.name = c.name).getLast? = some c := by
  let le : Coin → Coin → Bool := fun a b => decide (a.name < b.name ∨ (a.name = b.name ∧ (b = c ∨ a ≠ c)))
  have htr : ∀ a b d, le a b = true → le b d = true → le a d = true := by
    intro a b d h1 h2
    simp only [le, decide_eq_true_eq] at h1 h2 ⊢
    rcases h1 with h1 | ⟨e1, h1⟩ <;> rcases h2 with h2 | ⟨e2, h2⟩
    · exact Or.inl (List.lt_trans h1 h2)
    · exact Or.inl (e2 ▸ h1)
    · exact Or.inl (e1 ▸ h2)
    · right
      refine ⟨e1.trans e2, ?_⟩
      rcases h1 with rfl | h1
      · rcases h2 with h2 | h2
        · exact Or.inl h2
        · exact absurd rfl h2
      · exact Or.inr h1
  have htot : ∀ a b, (le a b || le b a) = true := by
    intro a b
    simp only [le, Bool.or_eq_true, decide_eq_true_eq]
    by_cases h1 : a.name < b.name
    · exact Or.inl (Or.inl h1)
    · by_cases h2 : b.name < a.name
      · exact Or.inr (Or.inl h2)
      · have h := List.le_antisymm (List.not_lt.1 h2) (List.not_lt.1 h1)
        by_cases hb : b = c
        · exact Or.inl (Or.inr ⟨h, Or.inl hb⟩)
        · exact Or.inr (Or.inr ⟨h.symm, Or.inr hb⟩)
  have hs := List.pairwise_mergeSort htr htot l
  refine ⟨l.mergeSort le, ⟨List.mergeSort_perm l le, hs.imp fun {a b} h hlt => ?_⟩, ?_⟩
  · simp only [le, decide_eq_true_eq] at h
    rcases h with h | ⟨h, -⟩
    · exact List.lt_irrefl _ (List.lt_trans h hlt)
    · rw [h] at hlt; exact List.lt_irrefl _ hlt
  · have hm : c ∈ (l.mergeSort le).filter fun d => d.name = c.name :=
      List.mem_filter.2 ⟨List.mem_mergeSort.2 hc, by simp⟩
    obtain ⟨i, hi⟩ := getLast?_filter_exists (l := l.mergeSort le) (p := fun d => d.name = c.name)
      (List.mem_mergeSort.2 hc) (by simp)
    rw [hi]
    congr 1
    have hsub := hs.sublist (List.filter_sublist (p := fun d => decide (d.name = c.name)))
    obtain ⟨m, hm'⟩ := List.getLast?_eq_some_iff.1 hi
    have hiname := (getLast?_filter_some hi).2
    rw [decide_eq_true_eq] at hiname
    rw [hm'] at hsub hm
    rcases List.mem_append.1 hm with h | h
    · have := (List.pairwise_append.1 hsub).2.2 c h i (by simp)
      simp only [le, decide_eq_true_eq] at this
      rcases this with h | ⟨-, h | h⟩
      · rw [hiname] at h; exact absurd h (List.lt_irrefl _)
      · exact h
      · exact absurd rfl h
    · exact (List.mem_singleton.1 h).symm

/-- Sort outcomes exist, so the hypothesis of C56 and C57 can be met. -/
example : ∃ sorted, SortOutcome coinTable sorted ∧ sorted.length = 1136 := by
  have hl : coinTable.length = 1136 := by
    rw [coinTable, List.length_map]; decide +kernel
  obtain ⟨s, h, -⟩ := sortOutcome_last (l := coinTable) (c := coinTable[0]) (List.getElem_mem _)
  exact ⟨s, h, by rw [h.perm.length_eq, hl]⟩

/-! ### C57 -/

theorem pathComponent_inj {sorted : List Coin} (h : SortOutcome coinTable sorted) {a b : Coin}
    (ha : a ∈ (CoinReg.init sorted).coins) (hb : b ∈ (CoinReg.init sorted).coins)
    (he : a.pathComponent = b.pathComponent) : a = b := by
  rw [init_coins] at ha hb
  obtain ⟨c, hc, rfl⟩ := List.mem_map.1 ha
  obtain ⟨d, hd, rfl⟩ := List.mem_map.1 hb
  rw [(repair_sameRow c).1, (repair_sameRow d).1] at he
  rw [List.inj_on_of_nodup_map table_nodup (h.perm.mem_iff.1 hc) (h.perm.mem_iff.1 hd) he]

/-- C57: the registered coin types are distinct, and looking up a type gives the coin with that type. -/
theorem C57_by_type {sorted : List Coin} (h : SortOutcome coinTable sorted) (t : UInt32) (c : Coin) :
    (CoinReg.init sorted).byType t = some c ↔ c ∈ (CoinReg.init sorted).coins ∧ c.type = t := by
  have hok := (C56_registered_coins h).1
  have hinj : ∀ a ∈ (CoinReg.init sorted).coins, ∀ b ∈ (CoinReg.init sorted).coins, a.type = b.type → a = b := by
    intro a ha b hb he
    refine pathComponent_inj h ha hb ?_
    rw [← UInt32.toNat_inj, (hok a ha).component, (hok b hb).component, he]
  rw [init_byType, ← init_coins]
  constructor
  · intro hl
    have := getLast?_filter_some hl
    exact ⟨this.1, by simpa using this.2⟩
  · rintro ⟨hc, rfl⟩
    obtain ⟨c', hc'⟩ := getLast?_filter_exists (p := fun d => d.type = c.type) hc (by simp)
    have h2 := getLast?_filter_some hc'
    rw [hc', hinj _ h2.1 _ hc (by simpa using h2.2)]

/-- C57: the registered path components are distinct, and looking up one gives the coin with it. -/
theorem C57_by_path_component {sorted : List Coin} (h : SortOutcome coinTable sorted) (t : UInt32) (c : Coin) :
    (CoinReg.init sorted).byPathComponent t = some c ↔
      c ∈ (CoinReg.init sorted).coins ∧ c.pathComponent = t := by
  rw [init_byPathComponent, ← init_coins]
  constructor
  · intro hl
    have := getLast?_filter_some hl
    exact ⟨this.1, by simpa using this.2⟩
  · rintro ⟨hc, rfl⟩
    obtain ⟨c', hc'⟩ := getLast?_filter_exists (p := fun d => d.pathComponent = c.pathComponent) hc (by simp)
    have h2 := getLast?_filter_some hc'
    rw [hc', pathComponent_inj h h2.1 hc (by simpa using h2.2)]

/-- C57: the two lookups by number agree: type `t` and path component `t + 2³¹`. -/
theorem C57_numbers_agree {sorted : List Coin} (h : SortOutcome coinTable sorted) (t : UInt32) (ht : t.toNat < 2 ^ 31) :
    (CoinReg.init sorted).byType t = (CoinReg.init sorted).byPathComponent (t + 0x80000000) := by
  have hok := (C56_registered_coins h).1
  have ha : (t + 0x80000000).toNat = t.toNat + 2 ^ 31 := by
    rw [UInt32.toNat_add, show (0x80000000 : UInt32).toNat = 2 ^ 31 from rfl]
    omega
  apply Option.ext
  intro c
  rw [C57_by_type h, C57_by_path_component h]
  refine and_congr_right fun hc => ?_
  have := hok c hc
  rw [← UInt32.toNat_inj, ← UInt32.toNat_inj, ha, this.component]
  omega

/-- C57: looking up a name gives a coin with that name, and something is found exactly for the names of coins. -/
theorem C57_by_name {sorted : List Coin} (s : Bytes) :
    (∀ c, (CoinReg.init sorted).byName s = some c → c ∈ (CoinReg.init sorted).coins ∧ c.name = s) ∧
    ((∃ c, (CoinReg.init sorted).byName s = some c) ↔ ∃ c ∈ (CoinReg.init sorted).coins, c.name = s) := by
  have h1 : ∀ c, (CoinReg.init sorted).byName s = some c → c ∈ (CoinReg.init sorted).coins ∧ c.name = s := by
    intro c hl
    rw [init_byName, ← init_coins] at hl
    have := getLast?_filter_some hl
    exact ⟨this.1, by simpa using this.2⟩
  refine ⟨h1, fun ⟨c, hc⟩ => ⟨c, h1 c hc⟩, ?_⟩
  rintro ⟨c, hc, hs⟩
  rw [init_byName, ← init_coins]
  exact getLast?_filter_exists hc (by simpa using hs)

/-- C57: if only one coin has the name, the lookup by name gives it. -/
theorem C57_by_name_unique {sorted : List Coin} {c : Coin} (hc : c ∈ (CoinReg.init sorted).coins)
    (hu : ∀ d ∈ (CoinReg.init sorted).coins, d.name = c.name → d = c) :
    (CoinReg.init sorted).byName c.name = some c := by
  obtain ⟨d, hd⟩ := (C57_by_name (sorted := sorted) c.name).2.2 ⟨c, hc, rfl⟩
  have := (C57_by_name (sorted := sorted) c.name).1 d hd
  rw [hd, hu d this.1 this.2]

/-- C57: where several coins share a name, the sort decides which of them the lookup by name gives: every published
row is found under its name after some outcome of the sort. -/
theorem C57_by_name_choice {c : Coin} (hc : c ∈ coinTable) :
    ∃ sorted, SortOutcome coinTable sorted ∧ ∃ d, (CoinReg.init sorted).byName c.name = some d ∧ SameRow d c := by
  obtain ⟨s, hs, hl⟩ := sortOutcome_last hc
  refine ⟨s, hs, c.repair, ?_, repair_sameRow c⟩
  rw [init_byName, List.filter_map, List.getLast?_map]
  have : (fun d : Coin => decide (d.name = c.name)) ∘ Coin.repair = fun d => decide (d.name = c.name) := by
    funext d
    simp only [Function.comp, (repair_sameRow d).2.2]
  rw [this, hl]
  rfl

/-- A row of the table by its position. -/
theorem mem_coinTable {i : Nat} {d : CoinCode} (h : Data.Coins.codes[i]? = some d) : d.coin ∈ coinTable :=
  List.mem_map_of_mem (List.mem_of_getElem? h)

set_option maxRecDepth 100000 in
/-- The two coins called Nexus: which of them is found under that name depends on the sort. -/
theorem C57_by_name_ambiguous : ∃ s₁ s₂, SortOutcome coinTable s₁ ∧ SortOutcome coinTable s₂ ∧
    (CoinReg.init s₁).byName (str "Nexus") = some ⟨67, 0x80000043, str "NXS", str "Nexus"⟩ ∧
    (CoinReg.init s₂).byName (str "Nexus") = some ⟨630, 0x80000276, str "NEXUS", str "Nexus"⟩ := by
  have e1 : (coin! 67 0x80000043 "NXS" "Nexus").coin = ⟨67, 0x80000043, str "NXS", str "Nexus"⟩ := by decide +kernel
  have e2 : (coin! 630 0x80000276 "NEXUS" "Nexus").coin = ⟨630, 0x80000276, str "NEXUS", str "Nexus"⟩ := by
    decide +kernel
  have h1 := mem_coinTable (i := 67) (d := coin! 67 0x80000043 "NXS" "Nexus") (by rfl)
  have h2 := mem_coinTable (i := 626) (d := coin! 630 0x80000276 "NEXUS" "Nexus") (by rfl)
  rw [e1] at h1
  rw [e2] at h2
  obtain ⟨s₁, hs₁, d₁, hd₁, hr₁⟩ := C57_by_name_choice h1
  obtain ⟨s₂, hs₂, d₂, hd₂, hr₂⟩ := C57_by_name_choice h2
  have key : ∀ {s : List Coin} {c d : Coin}, SortOutcome coinTable s → CoinOk c → SameRow d c → ∀ n,
      (CoinReg.init s).byName n = some d → d = c := by
    intro s c d hs hc hr n hd
    have hdo := (C56_registered_coins hs).1 d ((C57_by_name n).1 d hd).1
    obtain ⟨dt, dp, ds, dn⟩ := d
    obtain ⟨ct, cp, cs, cn⟩ := c
    obtain ⟨rfl, rfl, rfl⟩ := hr
    have h1 := hdo.component
    have h2 := hc.component
    have : dt = ct := by
      rw [← UInt32.toNat_inj]
      dsimp only at h1 h2
      omega
    rw [this]
  refine ⟨s₁, s₂, hs₁, hs₂, ?_, ?_⟩
  · rw [← key hs₁ ((isValid_iff _).1 (by decide +kernel)) hr₁ _ hd₁]; exact hd₁
  · rw [← key hs₂ ((isValid_iff _).1 (by decide +kernel)) hr₂ _ hd₂]; exact hd₂

/-! ### C63, C64: texts of coins -/

theorem first_split {α : Type} {c : α} {a b p q : List α} (ha : c ∉ a) (hb : c ∉ b) (h : a ++ c :: p = b ++ c :: q) :
    a = b ∧ p = q := by
  rcases List.append_eq_append_iff.1 h with ⟨l, h1, h2⟩ | ⟨l, h1, h2⟩
  · cases l with
    | nil => simp at h1 h2; exact ⟨h1.symm, h2⟩
    | cons x l =>
      obtain ⟨rfl, -⟩ := List.cons.inj h2
      exact absurd (h1 ▸ by simp) hb
  · cases l with
    | nil => simp at h1 h2; exact ⟨h1, h2.symm⟩
    | cons x l =>
      obtain ⟨rfl, -⟩ := List.cons.inj h2
      exact absurd (h1 ▸ by simp) ha

theorem last_split {α : Type} {c : α} {a b p q : List α} (hp : c ∉ p) (hq : c ∉ q) (h : a ++ c :: p = b ++ c :: q) :
    a = b ∧ p = q := by
  have h2 := congrArg List.reverse h
  simp only [List.reverse_append, List.reverse_cons, List.append_assoc, List.singleton_append] at h2
  obtain ⟨h3, h4⟩ := first_split (by simpa using hp) (by simpa using hq) h2
  exact ⟨List.reverse_injective h4, List.reverse_injective h3⟩

theorem decimal_injective {m n : Nat} (h : decimal m = decimal n) : m = n := by
  rw [← (decimal_numeral m).2, h, (decimal_numeral n).2]

theorem decimal_digits {n : Nat} {c : UInt8} (h : c ∈ decimal n) : 48 ≤ c.toNat ∧ c.toNat ≤ 57 :=
  (decimal_numeral n).1.2 c h

theorem hexNumber_char {n : Nat} {c : UInt8} (h : c ∈ hexNumber n) : 48 ≤ c.toNat := by
  unfold hexNumber at h
  split at h
  · rw [List.mem_singleton.1 h]; decide
  · obtain ⟨d, hd, rfl⟩ := List.mem_map.1 h
    have := toDigitsBE_lt 16 (by omega) n d hd
    unfold hexDigit
    split <;> rw [UInt8.toNat_ofNat'] <;> omega

theorem hexNumber_injective {m n : Nat} (h : hexNumber m = hexNumber n) : m = n := by
  have key : ∀ n, ofDigitsBE 16 ((hexNumber n).map fun c => if c.toNat < 58 then c.toNat - 48 else c.toNat - 87) = n := by
    intro n
    unfold hexNumber
    split
    · next h => subst h; rfl
    · rw [List.map_map]
      have : (toDigitsBE 16 n).map ((fun c : UInt8 => if c.toNat < 58 then c.toNat - 48 else c.toNat - 87) ∘ hexDigit) =
          toDigitsBE 16 n := by
        conv_rhs => rw [← List.map_id (toDigitsBE 16 n)]
        apply List.map_congr_left
        intro d hd
        have := toDigitsBE_lt 16 (by omega) n d hd
        simp only [Function.comp, hexDigit, id]
        split
        · rw [UInt8.toNat_ofNat', Nat.mod_eq_of_lt (by omega), if_pos (by omega)]; omega
        · rw [UInt8.toNat_ofNat', Nat.mod_eq_of_lt (by omega), if_neg (by omega)]; omega
      rw [this, ofDigitsBE_toDigitsBE 16 (by omega)]
  rw [← key m, h, key n]

/-- C63: the label of a coin tells its type. -/
theorem C63_label_type {a b : Coin} (h : a.string = b.string) : a.type = b.type := by
  unfold Coin.string at h
  generalize (if a.symbol = [] then a.name else a.symbol ++ str " - " ++ a.name) = p at h
  generalize (if b.symbol = [] then b.name else b.symbol ++ str " - " ++ b.name) = q at h
  have h2 : (p ++ str " (Type") ++ 32 :: (decimal a.type.toNat ++ [41]) =
      (q ++ str " (Type") ++ 32 :: (decimal b.type.toNat ++ [41]) := by
    have e : str " (Type " = str " (Type" ++ [32] := by decide +kernel
    have e2 : str ")" = [41] := by decide +kernel
    rw [e, e2] at h
    simpa using h
  have hd : ∀ n : Nat, (32 : UInt8) ∉ decimal n ++ [41] := by
    intro n hm
    rcases List.mem_append.1 hm with hm | hm
    · have := (decimal_digits hm).1
      revert this; decide
    · revert hm; decide
  have h3 := (last_split (hd _) (hd _) h2).2
  exact UInt32.toNat_inj.1 (decimal_injective (List.append_cancel_right h3))

/-- C63: different registered coins have different labels. -/
theorem C63_labels_distinct {sorted : List Coin} (h : SortOutcome coinTable sorted) {a b : Coin}
    (ha : a ∈ (CoinReg.init sorted).coins) (hb : b ∈ (CoinReg.init sorted).coins) (he : a.string = b.string) : a = b := by
  have h1 := (C57_by_type h a.type a).2 ⟨ha, rfl⟩
  have h2 := (C57_by_type h b.type b).2 ⟨hb, rfl⟩
  rw [C63_label_type he, h2] at h1
  exact (Option.some.inj h1).symm

/-- The two coins called Nexus have different labels; a coin without symbol has no dash. -/
example : (Coin.mk 67 0x80000043 (str "NXS") (str "Nexus")).string = str "NXS - Nexus (Type 67)" ∧
    (Coin.mk 630 0x80000276 (str "NEXUS") (str "Nexus")).string = str "NEXUS - Nexus (Type 630)" ∧
    (Coin.mk 191 0x800000bf [] (str "Lynx")).string = str "Lynx (Type 191)" := by decide +kernel

/-- C64: the Go source text written for a coin tells the coin, if its texts contain no quotation mark. -/
theorem C64_source_text {a b : Coin} (ha : 34 ∉ a.symbol ∧ 34 ∉ a.name) (hb : 34 ∉ b.symbol ∧ 34 ∉ b.name)
    (h : a.stringForMD = b.stringForMD) : a = b := by
  obtain ⟨at', ap, as, an⟩ := a
  obtain ⟨bt, bp, bs, bn⟩ := b
  unfold Coin.stringForMD at h
  dsimp only at h ha hb
  have e1 : str ", PathComponent: 0x" = 44 :: str " PathComponent: 0x" := by decide +kernel
  have e2 : str ", Symbol: \"" = 44 :: str " Symbol: \"" := by decide +kernel
  have e3 : str "\", Name: \"" = 34 :: str ", Name: \"" := by decide +kernel
  have e4 : str "\"}" = 34 :: str "}" := by decide +kernel
  simp only [e1, e2, e3, e4, List.append_assoc, List.cons_append] at h
  have h := List.append_cancel_left h
  have hd : ∀ n : Nat, (44 : UInt8) ∉ decimal n := by
    intro n hm
    have := (decimal_digits hm).1
    revert this; decide
  have hx : ∀ n : Nat, (44 : UInt8) ∉ hexNumber n := by
    intro n hm
    have := hexNumber_char hm
    revert this; decide
  obtain ⟨h1, h⟩ := first_split (hd _) (hd _) h
  have h := List.append_cancel_left h
  obtain ⟨h2, h⟩ := first_split (hx _) (hx _) h
  have h := List.append_cancel_left h
  obtain ⟨h3, h⟩ := first_split ha.1 hb.1 h
  have h := List.append_cancel_left h
  obtain ⟨h4, -⟩ := first_split ha.2 hb.2 h
  rw [UInt32.toNat_inj.1 (decimal_injective h1), UInt32.toNat_inj.1 (hexNumber_injective h2), h3, h4]

/-- The text of a row is the row of bip44/coins.go:13. -/
example : (Coin.mk 0 0x80000000 (str "BTC") (str "Bitcoin")).stringForMD =
    str "{Type: 0, PathComponent: 0x80000000, Symbol: \"BTC\", Name: \"Bitcoin\"}" := by decide +kernel

/-- With quotation marks in the texts, two different coins may have the same text. -/
theorem C64_quotes_ambiguous : ∃ a b : Coin, a ≠ b ∧ a.stringForMD = b.stringForMD :=
  ⟨⟨0, 0x80000000, str "A\", Name: \"B", str "C"⟩, ⟨0, 0x80000000, str "A", str "B\", Name: \"C"⟩,
    by decide +kernel, by decide +kernel⟩

end Bips
