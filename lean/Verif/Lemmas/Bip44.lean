import Verif.Model.Bip44
import Verif.Spec.Bip44
import Verif.Lemmas.Path

/-!
# Lemmas on coins and the coin table
-/

namespace Bips
open Spec

/-! ### Blank texts -/

theorem isWs_of_runes {s : Bytes} (h : ∀ p ∈ runes s, isSpace p.1 = true) : IsWs s := by
  refine ⟨(runes s).map (·.1), ?_, ?_⟩
  · intro c hc
    obtain ⟨p, hp, rfl⟩ := List.mem_map.1 hc
    exact (isSpace_iff _).1 (h p hp)
  · conv_lhs => rw [← runes_flatten s]
    rw [List.flatMap_map]
    apply List.flatMap_congr
    rintro ⟨r, ch⟩ hp
    rcases runes_mem hp with ⟨rfl, -⟩ | ⟨-, rfl⟩
    · have := h _ hp
      simp [isSpace] at this
    · rfl

theorem runes_of_isWs {s : Bytes} (h : IsWs s) : ∀ p ∈ runes s, isSpace p.1 = true := by
  obtain ⟨cs, hcs, rfl⟩ := h
  induction cs with
  | nil => simp
  | cons c cs ih =>
    have hc := hcs c (by simp)
    rw [List.flatMap_cons, runes_utf8 (scalar_of_ws hc)]
    intro p hp
    rcases List.mem_cons.1 hp with rfl | hp
    · exact (isSpace_iff c).2 hc
    · exact ih (fun x hx => hcs x (by simp [hx])) p hp

theorem trimSpace_eq_nil_iff (s : Bytes) : trimSpace s = [] ↔ IsWs s := by
  constructor
  · intro h
    apply isWs_of_runes
    intro p hp
    by_contra hs
    have hne : (runes s).dropWhile (fun r => isSpace r.1) ≠ [] := by
      intro e
      have := List.dropWhile_eq_nil_iff.1 e p hp
      exact hs this
    obtain ⟨q, l, hql⟩ := List.exists_cons_of_ne_nil hne
    have hq : isSpace q.1 = false := by
      have := List.head_dropWhile_not (fun r : Nat × Bytes => isSpace r.1) (l := runes s) hne
      simpa [hql] using this
    have hqm : q ∈ runes s := by
      have : q ∈ (runes s).dropWhile (fun r => isSpace r.1) := by rw [hql]; simp
      exact (List.dropWhile_sublist _).subset this
    unfold trimSpace at h
    rw [hql, List.reverse_cons, List.dropWhile_append] at h
    have hq2 : q.2 = [] := by
      rw [List.flatMap_eq_nil_iff] at h
      apply h
      rw [List.mem_reverse]
      split
      · simp [hq]
      · simp
    obtain ⟨r, ch⟩ := q
    rcases runes_mem hqm with ⟨-, h'⟩ | ⟨-, h'⟩
    · exact h' hq2
    · exact utf8_ne_nil r (h' ▸ hq2)
  · intro h
    have := runes_of_isWs h
    unfold trimSpace
    rw [List.dropWhile_eq_nil_iff.2 this]
    rfl

/-! ### `IsValid` and the repair -/

theorem isValid_iff (c : Coin) : c.isValid = true ↔ CoinOk c := by
  have ht := c.type.toNat_lt
  have hp := c.pathComponent.toNat_lt
  have hl : (c.type < 0x80000000) ↔ c.type.toNat < 2 ^ 31 := Iff.rfl
  have hg : (c.pathComponent ≥ 0x80000000) ↔ 2 ^ 31 ≤ c.pathComponent.toNat := Iff.rfl
  have he : (c.type + 0x80000000 = c.pathComponent) ↔ (c.type.toNat + 2 ^ 31) % 2 ^ 32 = c.pathComponent.toNat := by
    rw [← UInt32.toNat_inj, UInt32.toNat_add]; rfl
  have hb : trimSpace c.name ++ trimSpace c.symbol ≠ [] ↔ ¬(IsWs c.name ∧ IsWs c.symbol) := by
    rw [← trimSpace_eq_nil_iff, ← trimSpace_eq_nil_iff, Ne, List.append_eq_nil_iff]
  unfold Coin.isValid
  simp only [Bool.and_eq_true, decide_eq_true_eq]
  rw [hl, hg, he, hb]
  constructor
  · rintro ⟨⟨⟨h1, h2⟩, h3⟩, h4⟩
    exact ⟨h1, h2, by omega⟩
  · rintro ⟨h1, h2, h3⟩
    exact ⟨⟨⟨h1, h2⟩, by omega⟩, by omega⟩

theorem repair_sameRow (c : Coin) : SameRow c.repair c := by
  unfold Coin.repair
  split <;> exact ⟨rfl, rfl, rfl⟩

theorem repair_of_ok {c : Coin} (h : CoinOk c) : c.repair = c := by
  rw [Coin.repair, if_pos ((isValid_iff c).2 h)]

theorem repair_ok_iff (c : Coin) :
    CoinOk c.repair ↔ ¬(IsWs c.name ∧ IsWs c.symbol) ∧ 2 ^ 31 ≤ c.pathComponent.toNat := by
  have hs := repair_sameRow c
  constructor
  · rintro ⟨h1, h2, h3⟩
    rw [hs.2.2, hs.2.1] at h1
    rw [hs.1] at h3
    exact ⟨h1, by omega⟩
  · rintro ⟨h1, h2⟩
    by_cases hv : c.isValid = true
    · rw [repair_of_ok ((isValid_iff c).1 hv)]
      exact (isValid_iff c).1 hv
    · have hp := c.pathComponent.toNat_lt
      have hm : (c.pathComponent % 0x80000000).toNat = c.pathComponent.toNat - 2 ^ 31 := by
        rw [UInt32.toNat_mod]
        show c.pathComponent.toNat % 2 ^ 31 = _
        omega
      rw [Coin.repair, if_neg hv]
      exact ⟨h1, by dsimp only; omega, by dsimp only; omega⟩

/-! ### The loop of `init` -/

/-- The value of the map after the loop: the last coin with the key, or the initial value. -/
theorem foldl_mapSet {K : Type} [DecidableEq K] (f : Coin → K) (l : List Coin) (m : K → Option Coin) (k : K) :
    (l.foldl (fun m c => mapSet m (f c) c) m) k = ((l.filter fun c => f c = k).getLast?).or (m k) := by
  induction l generalizing m with
  | nil => simp
  | cons c l ih =>
    rw [List.foldl_cons, ih]
    by_cases h : f c = k
    · rw [List.filter_cons_of_pos (by simpa using h), List.getLast?_cons]
      subst h
      cases (l.filter fun c' => f c' = f c).getLast? <;> simp [mapSet]
    · rw [List.filter_cons_of_neg (by simpa using h)]
      simp [mapSet, Ne.symm h]

theorem coinReg_foldl (l : List Coin) (r : CoinReg) :
    l.foldl CoinReg.add r =
      { coins := r.coins ++ l.map Coin.repair
        byType := (l.map Coin.repair).foldl (fun m c => mapSet m c.type c) r.byType
        byName := (l.map Coin.repair).foldl (fun m c => mapSet m c.name c) r.byName
        byPathComponent := (l.map Coin.repair).foldl (fun m c => mapSet m c.pathComponent c) r.byPathComponent } := by
  induction l generalizing r with
  | nil => simp
  | cons c l ih => rw [List.foldl_cons, ih]; simp [CoinReg.add]

theorem init_coins (l : List Coin) : (CoinReg.init l).coins = l.map Coin.repair := by
  rw [CoinReg.init, coinReg_foldl]; rfl

theorem init_byType (l : List Coin) (t : UInt32) :
    (CoinReg.init l).byType t = ((l.map Coin.repair).filter fun c => c.type = t).getLast? := by
  rw [CoinReg.init, coinReg_foldl]
  exact (foldl_mapSet (fun c => c.type) _ _ t).trans Option.or_none

theorem init_byPathComponent (l : List Coin) (t : UInt32) :
    (CoinReg.init l).byPathComponent t = ((l.map Coin.repair).filter fun c => c.pathComponent = t).getLast? := by
  rw [CoinReg.init, coinReg_foldl]
  exact (foldl_mapSet (fun c => c.pathComponent) _ _ t).trans Option.or_none

theorem init_byName (l : List Coin) (t : Bytes) :
    (CoinReg.init l).byName t = ((l.map Coin.repair).filter fun c => c.name = t).getLast? := by
  rw [CoinReg.init, coinReg_foldl]
  exact (foldl_mapSet (fun c => c.name) _ _ t).trans Option.or_none

theorem getLast?_filter_some {l : List Coin} {p : Coin → Bool} {c : Coin} (h : (l.filter p).getLast? = some c) :
    c ∈ l ∧ p c = true := by
  have := List.mem_of_getLast? h
  exact List.mem_filter.1 this

theorem getLast?_filter_exists {l : List Coin} {p : Coin → Bool} {c : Coin} (hc : c ∈ l) (hp : p c = true) :
    ∃ c', (l.filter p).getLast? = some c' := by
  have : l.filter p ≠ [] := List.ne_nil_of_mem (List.mem_filter.2 ⟨hc, hp⟩)
  exact ⟨_, List.getLast?_eq_some_getLast this⟩

/-! ### The table -/

/-- Checks on a row, for the kernel. -/
def goodCoin (c : CoinCode) : Bool :=
  bif Nat.blt c.type (2 ^ 31) then bif Nat.ble (2 ^ 31) c.pathComponent then bif Nat.blt c.pathComponent (2 ^ 32) then
  bif Nat.beq c.name 0 then false else
  bif Nat.blt c.name (256 ^ 64) then bif startsWs (natBytes 64 c.name []) then false
  else bif Nat.blt c.symbol (256 ^ 64) then true else false
  else false else false else false else false

set_option maxRecDepth 100000 in
theorem table_good : Data.Coins.codes.all goodCoin = true := by decide +kernel

set_option maxRecDepth 100000 in
theorem table_distinct : distinct (Data.Coins.codes.map fun c => c.pathComponent) = true := by decide +kernel

theorem blt_lt {a b : Nat} (h : Nat.blt a b = true) : a < b := Nat.le_of_ble_eq_true h

theorem goodCoin_iff {c : CoinCode} (h : goodCoin c = true) :
    c.type < 2 ^ 31 ∧ 2 ^ 31 ≤ c.pathComponent ∧ c.pathComponent < 2 ^ 32 ∧ c.name ≠ 0 ∧ c.name < 256 ^ 64 ∧
      startsWs (natBytes 64 c.name []) = false ∧ c.symbol < 256 ^ 64 := by
  unfold goodCoin at h
  cases h1 : Nat.blt c.type (2 ^ 31) with
  | false => rw [h1] at h; cases h
  | true =>
  cases h2 : Nat.ble (2 ^ 31) c.pathComponent with
  | false => rw [h1, h2] at h; cases h
  | true =>
  cases h3 : Nat.blt c.pathComponent (2 ^ 32) with
  | false => rw [h1, h2, h3] at h; cases h
  | true =>
  cases h4 : Nat.beq c.name 0 with
  | true => rw [h1, h2, h3, h4] at h; cases h
  | false =>
  cases h5 : Nat.blt c.name (256 ^ 64) with
  | false => rw [h1, h2, h3, h4, h5] at h; cases h
  | true =>
  cases h6 : startsWs (natBytes 64 c.name []) with
  | true => rw [h1, h2, h3, h4, h5, h6] at h; cases h
  | false =>
  cases h7 : Nat.blt c.symbol (256 ^ 64) with
  | false => rw [h1, h2, h3, h4, h5, h6, h7] at h; cases h
  | true =>
  refine ⟨blt_lt h1, Nat.le_of_ble_eq_true h2, blt_lt h3, ?_, blt_lt h5, rfl, blt_lt h7⟩
  intro e
  rw [e] at h4
  cases h4

theorem coin_label {c : CoinCode} (h : goodCoin c = true) : ¬ IsWs c.coin.name := by
  obtain ⟨-, -, -, h4, h5, h6, -⟩ := goodCoin_iff h
  rintro ⟨cs, hcs, he⟩
  have he : codeWord c.name = cs.flatMap utf8 := he
  cases cs with
  | nil =>
    have := setBytes_codeWord h5
    rw [he] at this
    exact h4 this.symm
  | cons x cs =>
    have h7 := startsWs_utf8 (hcs x (by simp)) ((cs.flatMap utf8).map UInt8.toNat)
    rw [← List.map_append, ← List.flatMap_cons, ← he, codeWord_toNat, h6] at h7
    cases h7

theorem table_row {c : Coin} (h : c ∈ coinTable) : ¬ IsWs c.name ∧ 2 ^ 31 ≤ c.pathComponent.toNat ∧ c.type.toNat < 2 ^ 31 := by
  obtain ⟨d, hd, rfl⟩ := List.mem_map.1 h
  have hg := List.all_eq_true.1 table_good d hd
  obtain ⟨h1, h2, h3, -⟩ := goodCoin_iff hg
  refine ⟨coin_label hg, ?_, ?_⟩
  · show _ ≤ (UInt32.ofNat d.pathComponent).toNat
    rw [UInt32.toNat_ofNat', Nat.mod_eq_of_lt h3]; exact h2
  · show (UInt32.ofNat d.type).toNat < _
    rw [UInt32.toNat_ofNat', Nat.mod_eq_of_lt (by omega)]; exact h1

theorem table_nodup : (coinTable.map fun c => c.pathComponent).Nodup := by
  have hn := distinct_nodup table_distinct
  have : (coinTable.map fun c => c.pathComponent).map UInt32.toNat = Data.Coins.codes.map fun c => c.pathComponent := by
    rw [coinTable, List.map_map, List.map_map]
    apply List.map_congr_left
    intro d hd
    obtain ⟨-, -, h3, -⟩ := goodCoin_iff (List.all_eq_true.1 table_good d hd)
    show (UInt32.ofNat d.pathComponent).toNat = _
    rw [UInt32.toNat_ofNat', Nat.mod_eq_of_lt h3]
  rw [← this] at hn
  exact hn.of_map _

end Bips
