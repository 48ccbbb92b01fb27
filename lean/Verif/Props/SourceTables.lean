import Verif.Props.CoinsText
import Verif.Data.VersionsText
import Verif.Props.Bip44
import Verif.Props.SourceWindow

/-!
# C119: the text of the tables

The texts of the three tables, byte for byte as they are in the source, and what they say. The tables of the model are not read from the texts but
printed: a table is right if, written as Go source, it is the text. Two tables with the same text are the same.
-/

namespace Bips

open Src

variable (W : World)

/-- Lines, each with its line break. -/
def unlines (l : List Bytes) : Bytes := l.flatMap (· ++ [10])

/-- A text that stands for itself between quotation marks. -/
def Unescaped (s : Bytes) : Prop := 34 ∉ s ∧ 92 ∉ s ∧ 10 ∉ s

instance (s : Bytes) : Decidable (Unescaped s) := inferInstanceAs (Decidable (_ ∧ _))

theorem unlines_injective {l m : List Bytes} (hl : ∀ s ∈ l, 10 ∉ s) (hm : ∀ s ∈ m, 10 ∉ s) (h : unlines l = unlines m) : l = m := by
  induction l generalizing m with
  | nil =>
    cases m with
    | nil => rfl
    | cons d m => simp [unlines] at h
  | cons c l ih =>
    cases m with
    | nil => simp [unlines] at h
    | cons d m =>
      rw [unlines, unlines, List.flatMap_cons, List.flatMap_cons, List.append_assoc, List.append_assoc] at h
      obtain ⟨h1, h2⟩ := first_split (hl c List.mem_cons_self) (hm d List.mem_cons_self) h
      rw [h1, ih (fun s h => hl s (List.mem_cons_of_mem _ h)) (fun s h => hm s (List.mem_cons_of_mem _ h)) h2]

/-! ### The coins -/

/-- bip44/coins.go:12-1149. -/
def coinsText : Bytes := (Data.CoinsText.parts.flatMap id).flatMap codeLine

/-- A table of coins as Go source. -/
def coinSource (l : List Coin) : Bytes :=
  unlines (str "var RegCoins = []Coin{" :: l.map (fun c => str "\t" ++ c.stringForMD ++ str ",") ++ [str "}"])

/-- Texts that need no escapes. -/
def Coin.Unescaped (c : Coin) : Prop := Bips.Unescaped c.symbol ∧ Bips.Unescaped c.name

instance (c : Coin) : Decidable c.Unescaped := inferInstanceAs (Decidable (_ ∧ _))

theorem coin_line {c : Coin} (h : c.Unescaped) : 10 ∉ str "\t" ++ c.stringForMD ++ str "," := by
  have hd : (10 : UInt8) ∉ decimal c.type.toNat := fun hm => by have := (decimal_digits hm).1; revert this; decide
  have hx : (10 : UInt8) ∉ hexNumber c.pathComponent.toNat := fun hm => by have := hexNumber_char hm; revert this; decide
  have e : ∀ s ∈ [str "\t", str "{Type: ", str ", PathComponent: 0x", str ", Symbol: \"", str "\", Name: \"", str "\"}", str ","], (10 : UInt8) ∉ s := by
    decide +kernel
  simp only [List.forall_mem_cons, List.not_mem_nil, false_imp_iff, implies_true, and_true] at e
  simp only [Coin.stringForMD, List.mem_append, not_or]
  obtain ⟨⟨-, -, h1⟩, -, -, h2⟩ := h
  tauto

theorem ends_plain : (10 : UInt8) ∉ str "var RegCoins = []Coin{" ∧ (10 : UInt8) ∉ str "}" ∧ (10 : UInt8) ∉ str "var (" ∧ (10 : UInt8) ∉ str ")" := by
  decide +kernel

/-- A table is told by its text. -/
theorem coinSource_injective {l m : List Coin} (hl : ∀ c ∈ l, c.Unescaped) (hm : ∀ c ∈ m, c.Unescaped) (h : coinSource l = coinSource m) : l = m := by
  have key : ∀ {l : List Coin}, (∀ c ∈ l, c.Unescaped) →
      ∀ s ∈ str "var RegCoins = []Coin{" :: l.map (fun c => str "\t" ++ c.stringForMD ++ str ",") ++ [str "}"], 10 ∉ s := by
    intro l hl s hs
    simp only [List.cons_append, List.mem_cons, List.mem_append, List.mem_map, List.not_mem_nil, or_false] at hs
    rcases hs with rfl | ⟨c, hc, rfl⟩ | rfl
    · exact ends_plain.1
    · exact coin_line (hl c hc)
    · exact ends_plain.2.1
  have h := List.append_cancel_right (List.cons.inj (unlines_injective (key hl) (key hm) h)).2
  induction l generalizing m with
  | nil =>
    cases m with
    | nil => rfl
    | cons d m => simp at h
  | cons c l ih =>
    cases m with
    | nil => simp at h
    | cons d m =>
      obtain ⟨h1, h2⟩ := List.cons.inj h
      have h1 := List.append_cancel_left (List.append_cancel_right h1)
      have hc := hl c List.mem_cons_self
      have hd := hm d List.mem_cons_self
      rw [C64_source_text ⟨hc.1.1, hc.2.1⟩ ⟨hd.1.1, hd.2.1⟩ h1,
        ih (fun c h => hl c (List.mem_cons_of_mem _ h)) (fun c h => hm c (List.mem_cons_of_mem _ h)) (by rw [coinSource, coinSource, h2]) h2]

theorem coinRow_eq (l : List Coin) : l.flatMap coinRow = unlines (l.map fun c => str "\t" ++ c.stringForMD ++ str ",") := by
  have e : str ",\n" = str "," ++ [10] := by decide +kernel
  induction l with
  | nil => rfl
  | cons c l ih => rw [List.flatMap_cons, ih, coinRow, e, List.map_cons, unlines, unlines, List.flatMap_cons, ← List.append_assoc _ (str ","), List.append_assoc]

theorem coins_ends : Data.CoinsText.t0.flatMap codeLine = str "var RegCoins = []Coin{" ++ [10] ∧ Data.CoinsText.t19.flatMap codeLine = str "}" ++ [10] := by
  decide +kernel

/-- **C119**, the coins: the text of the table in bip44/coins.go is the model's table written as Go source, and no other table with plain texts has this
text. -/
theorem C119_coins : coinsText = coinSource coinTable ∧ (∀ c ∈ coinTable, c.Unescaped) ∧
    ∀ l : List Coin, (∀ c ∈ l, c.Unescaped) → coinsText = coinSource l → l = coinTable := by
  have h1 : coinsText = coinSource coinTable := by
    have h := congrArg List.flatten rows_all
    rw [← List.flatMap_def, ← List.flatMap_def] at h
    rw [coinsText, coinSource, unlines, List.cons_append, List.flatMap_cons, List.flatMap_append, ← unlines, ← coinRow_eq, coinTable, List.flatMap_map, ← h,
      ← coins_ends.1, List.flatMap_cons, ← coins_ends.2]
    simp only [Data.CoinsText.parts, List.flatMap_cons, List.flatMap_nil, List.append_nil, id, List.flatMap_append, List.append_assoc]
  have h2 : ∀ c ∈ coinTable, c.Unescaped := by decide +kernel
  exact ⟨h1, h2, fun l hl h => coinSource_injective hl h2 (h.symm.trans h1)⟩

/-- **C119**, the text of `StringForMD` prints the rows: run on the coins of `RegCoins` one after the other, it gives the lines of the table, without the
tabulator in front and the comma behind. -/
theorem C119_printed : ∃ rows : List Bytes, List.Forall₂ (fun c s => Ends W .bip44_Coin_StringForMD [coinVal c] (.ok [.str s])) coinTable rows ∧
    coinsText = unlines (str "var RegCoins = []Coin{" :: rows.map (fun s => str "\t" ++ s ++ str ",") ++ [str "}"]) := by
  refine ⟨coinTable.map Coin.stringForMD, ?_, ?_⟩
  · rw [List.forall₂_map_right_iff]
    exact List.forall₂_same.2 fun c _ => (C113_coins W).1 c
  · rw [C119_coins.1, coinSource, List.map_map]
    rfl

/-- **C119**, from the text of the table to the lookups: whatever plain table has the text of bip44/coins.go and however the sort leaves it, the text of
`init` fills the maps so that every coin it keeps is found by its type and by its path component. -/
theorem C119_coins_loaded {l sorted : List Coin} (hl : ∀ c ∈ l, c.Unescaped) (ht : coinsText = coinSource l) (hs : SortOutcome l sorted) :
    EndsIn W .bip44_init [.list (sorted.map coinVal), .list [], .list [], .list []] fun r =>
      ∃ kept t1 t2 t3, r = [.list (kept.map coinVal), .list t1, .list t2, .list t3] ∧ kept = (CoinReg.init sorted).coins ∧
        ∀ c ∈ kept, tableGet t1 (.u32 c.type) = some (coinVal c) ∧ tableGet t3 (.u32 c.pathComponent) = some (coinVal c) := by
  obtain rfl := C119_coins.2.2 l hl ht
  obtain ⟨N, hN⟩ := (C116_coins W hs).2
  refine ⟨N, fun n L h1 h2 => ?_⟩
  obtain ⟨r, hr, t1, t2, t3, e, _, _, _, h⟩ := hN n L h1 h2
  exact ⟨r, hr, _, t1, t2, t3, e, rfl, h⟩

/-- Two coins as source; with another name the source is another. -/
example : coinSource [⟨0, 0x80000000, str "BTC", str "Bitcoin"⟩, ⟨191, 0x800000bf, [], str "Lynx"⟩] =
      str "var RegCoins = []Coin{\n\t{Type: 0, PathComponent: 0x80000000, Symbol: \"BTC\", Name: \"Bitcoin\"},\n\t{Type: 191, PathComponent: 0x800000bf, Symbol: \"\", Name: \"Lynx\"},\n}\n" ∧
    coinSource [⟨0, 0x80000000, str "BTC", str "Bitcoin"⟩] ≠ coinSource [⟨0, 0x80000000, str "BTC", str "bitcoin"⟩] ∧
    coinsText ≠ coinSource [⟨0, 0x80000000, str "BTC", str "Bitcoin"⟩] := by
  refine ⟨by decide +kernel, by decide +kernel, fun h => ?_⟩
  have h := congrArg List.length (C119_coins.2.2 _ (by decide +kernel) h)
  revert h
  rw [coinTable, List.length_map]
  decide +kernel

/-! ### The versions -/

/-- bip32/reg_ver_bytes.go:141-403. -/
def versionsText : Bytes := ((Data.VersionsText.parts.take 30).flatMap id).flatMap codeLine ++ codeLine 41

/-- bip32/reg_ver_bytes.go:406-424. -/
def versionMapText : Bytes := (Data.VersionsText.t30.drop 3).flatMap codeLine

/-- The constants (bip32/reg_ver_bytes.go:34-42). -/
def AddrEncoding.goName : AddrEncoding → Bytes
  | .p2PKH => str "P2PKH"
  | .p2WPKH => str "P2WPKH"
  | .p2WPKHInP2SH => str "P2WPKHInP2SH"
  | .p2SH => str "P2SH"
  | .p2WSH => str "P2WSH"
  | .p2WSHInP2SH => str "P2WSHInP2SH"
  | .p2PKT => str "P2PKT"

/-- Names with commas between them. -/
def commas : List Bytes → Bytes
  | [] => []
  | [a] => a
  | a :: b :: l => a ++ str ", " ++ commas (b :: l)

/-- A declaration. -/
def versionDecl (d : Bytes × VersionBytes) : List Bytes :=
  [str "\t" ++ d.1 ++ str " = VersionBytes{",
   str "\t\tCoin:          \"" ++ d.2.coin ++ str "\",",
   str "\t\tPvtKeyFlag:    0x" ++ hexEncode (putUint32 d.2.pvtKeyFlag) ++ str ",",
   str "\t\tPvKeyPrefix:   \"" ++ d.2.pvKeyPrefix ++ str "\",",
   str "\t\tPubKeyFlag:    0x" ++ hexEncode (putUint32 d.2.pubKeyFlag) ++ str ",",
   str "\t\tPubKeyPrefix:  \"" ++ d.2.pubKeyPrefix ++ str "\",",
   str "\t\tAddrEncodings: []AddrEncoding{" ++ commas (d.2.addrEncodings.map AddrEncoding.goName) ++ str "},",
   str "\t\tPath:          \"" ++ d.2.path ++ str "\",",
   str "\t}"]

/-- Declarations as Go source. -/
def versionSource (l : List (Bytes × VersionBytes)) : Bytes := unlines (str "var (" :: l.flatMap versionDecl ++ [str ")"])

/-- The variables (bip32/reg_ver_bytes.go:142-402). -/
def versionVars : List (Bytes × VersionBytes) := [
  (str "Bitcoinxprvxpub", bitcoinxprvxpub), (str "Bitcoinyprvypub", bitcoinyprvypub), (str "Bitcoinzprvzpub", bitcoinzprvzpub),
  (str "BitcoinYprvYpub", bitcoinYprvYpub), (str "BitcoinZprvZpub", bitcoinZprvZpub), (str "Bitcointprvtpub", bitcointprvtpub),
  (str "Bitcoinuprvupub", bitcoinuprvupub), (str "Bitcoinvprvvpub", bitcoinvprvvpub), (str "BitcoinUprvUpub", bitcoinUprvUpub),
  (str "BitcoinVprvVpub", bitcoinVprvVpub), (str "Groestlcoinxprvxpub", groestlcoinxprvxpub), (str "Groestlcoinyprvypub", groestlcoinyprvypub),
  (str "Groestlcoinzprvzpub", groestlcoinzprvzpub), (str "GroestlcoinYprvYpub", groestlcoinYprvYpub), (str "GroestlcoinZprvZpub", groestlcoinZprvZpub),
  (str "Groestlcointprvtpub", groestlcointprvtpub), (str "Groestlcoinuprvupub", groestlcoinuprvupub), (str "Groestlcoinvprvvpub", groestlcoinvprvvpub),
  (str "GroestlcoinUprvUpub", groestlcoinUprvUpub), (str "GroestlcoinVprvVpub", groestlcoinVprvVpub), (str "LitecoinLtpvLtub", litecoinLtpvLtub),
  (str "LitecoinMtpvMtub", litecoinMtpvMtub), (str "Litecointtpvttub", litecointtpvttub), (str "Nexaxprvxpub", nexaxprvxpub),
  (str "Nexaxprvxpub2", nexaxprvxpub2), (str "Polispprvppub", polispprvppub), (str "Syscoinzprvzpub", syscoinzprvzpub),
  (str "SyscoinZprvZpub", syscoinZprvZpub), (str "Vertcoinvtcpvtcv", vertcoinvtcpvtcv)]

/-- Texts that need no escapes; the name is one word. -/
def DeclPlain (d : Bytes × VersionBytes) : Prop :=
  (∀ c ∈ d.1, (48 ≤ c ∧ c ≤ 57) ∨ (65 ≤ c ∧ c ≤ 90) ∨ (97 ≤ c ∧ c ≤ 122)) ∧ Unescaped d.2.coin ∧ Unescaped d.2.pvKeyPrefix ∧ Unescaped d.2.pubKeyPrefix ∧ Unescaped d.2.path

instance (d : Bytes × VersionBytes) : Decidable (DeclPlain d) := inferInstanceAs (Decidable (_ ∧ _))

theorem commas_injective {a b : List AddrEncoding} (h : commas (a.map AddrEncoding.goName) = commas (b.map AddrEncoding.goName)) : a = b := by
  have hn : ∀ e : AddrEncoding, (44 : UInt8) ∉ e.goName ∧ e.goName ≠ [] := by intro e; cases e <;> decide +kernel
  have hi : ∀ e f : AddrEncoding, e.goName = f.goName → e = f := by intro e f; cases e <;> cases f <;> decide +kernel
  have hc : str ", " = [44, 32] := by decide +kernel
  induction a generalizing b with
  | nil =>
    match b with
    | [] => rfl
    | [f] => exact absurd h.symm (hn f).2
    | f :: g :: b => simp [commas, hc] at h
  | cons e a ih =>
    match a, b with
    | [], [] => exact absurd h (hn e).2
    | [], [f] => rw [hi e f h]
    | [], f :: g :: b =>
      refine absurd (?_ : (44 : UInt8) ∈ e.goName) (hn e).1
      simp only [List.map_cons, List.map_nil, commas] at h
      rw [h, hc]
      simp
    | e' :: a, [] => simp [commas, hc] at h
    | e' :: a, [f] =>
      refine absurd (?_ : (44 : UInt8) ∈ f.goName) (hn f).1
      simp only [List.map_cons, List.map_nil, commas] at h
      rw [← h, hc]
      simp
    | e' :: a, f :: g :: b =>
      simp only [List.map_cons, commas, hc, List.append_assoc, List.cons_append, List.nil_append] at h
      obtain ⟨h1, h2⟩ := first_split (hn e).1 (hn f).1 h
      rw [hi e f h1, ih (b := g :: b) (by simpa only [List.map_cons] using (List.cons.inj h2).2)]

theorem versionDecl_injective {d e : Bytes × VersionBytes} (h : versionDecl d = versionDecl e) : d = e := by
  obtain ⟨n, c, f1, p1, f2, p2, a, p⟩ := d
  obtain ⟨n', c', f1', p1', f2', p2', a', p'⟩ := e
  simp only [versionDecl, List.cons.injEq, and_true, List.append_assoc, List.append_cancel_left_eq, List.append_cancel_right_eq] at h
  obtain ⟨rfl, rfl, h1, rfl, h2, rfl, h3, rfl⟩ := h
  rw [putUint32_injective (hexEncode_injective h1), putUint32_injective (hexEncode_injective h2), commas_injective h3]

theorem decl_line {d : Bytes × VersionBytes} (h : DeclPlain d) : ∀ s ∈ versionDecl d, 10 ∉ s := by
  have e : ∀ s ∈ [str "\t", str " = VersionBytes{", str "\t\tCoin:          \"", str "\",", str "\t\tPvtKeyFlag:    0x", str ",",
      str "\t\tPvKeyPrefix:   \"", str "\t\tPubKeyFlag:    0x", str "\t\tPubKeyPrefix:  \"", str "\t\tAddrEncodings: []AddrEncoding{", str "},",
      str "\t\tPath:          \"", str "\t}"], (10 : UInt8) ∉ s := by decide +kernel
  have hx : ∀ b : Bytes, (10 : UInt8) ∉ hexEncode b := fun b hm => by
    rw [hexEncode, List.mem_flatMap] at hm
    obtain ⟨c, -, hm⟩ := hm
    have hd : ∀ d < 16, hexDigit d ≠ 10 := by decide
    have := c.toNat_lt
    simp only [List.mem_cons, List.not_mem_nil, or_false] at hm
    rcases hm with hm | hm
    · exact hd _ (by omega) hm.symm
    · exact hd _ (by omega) hm.symm
  have hg : ∀ a : List AddrEncoding, (10 : UInt8) ∉ commas (a.map AddrEncoding.goName) := by
    have hn : ∀ e : AddrEncoding, (10 : UInt8) ∉ e.goName := by intro e; cases e <;> decide +kernel
    have hc : (10 : UInt8) ∉ str ", " := by decide +kernel
    intro a
    induction a with
    | nil => simp [commas]
    | cons e a ih =>
      cases a with
      | nil => exact hn e
      | cons f a =>
        simp only [List.map_cons, commas, List.mem_append, not_or] at ih ⊢
        exact ⟨⟨hn e, hc⟩, ih⟩
  have hname : (10 : UInt8) ∉ d.1 := fun hm => by have := h.1 _ hm; revert this; decide
  obtain ⟨-, ⟨-, -, h1⟩, ⟨-, -, h2⟩, ⟨-, -, h3⟩, -, -, h4⟩ := h
  simp only [List.forall_mem_cons, List.not_mem_nil, false_imp_iff, implies_true, and_true] at e
  simp only [versionDecl, List.forall_mem_cons, List.not_mem_nil, false_imp_iff, implies_true, and_true, List.mem_append, not_or]
  tauto

/-- Declarations are told by their text. -/
theorem versionSource_injective {l m : List (Bytes × VersionBytes)} (hl : ∀ d ∈ l, DeclPlain d) (hm : ∀ d ∈ m, DeclPlain d)
    (h : versionSource l = versionSource m) : l = m := by
  have key : ∀ {l : List (Bytes × VersionBytes)}, (∀ d ∈ l, DeclPlain d) → ∀ s ∈ str "var (" :: l.flatMap versionDecl ++ [str ")"], 10 ∉ s := by
    intro l hl s hs
    simp only [List.cons_append, List.mem_cons, List.mem_append, List.mem_flatMap, List.not_mem_nil, or_false] at hs
    rcases hs with rfl | ⟨d, hd, hs⟩ | rfl
    · exact ends_plain.2.2.1
    · exact decl_line (hl d hd) s hs
    · exact ends_plain.2.2.2
  have h := List.append_cancel_right (List.cons.inj (unlines_injective (key hl) (key hm) h)).2
  clear key hl hm
  induction l generalizing m with
  | nil =>
    cases m with
    | nil => rfl
    | cons d m => simp [versionDecl] at h
  | cons c l ih =>
    cases m with
    | nil => simp [versionDecl] at h
    | cons d m =>
      rw [List.flatMap_cons, List.flatMap_cons] at h
      obtain ⟨h1, h2⟩ := List.append_inj h rfl
      rw [versionDecl_injective h1, ih (by rw [versionSource, versionSource, h2]) h2]

/-- A text without its white space. -/
def squeeze (s : Bytes) : Bytes := s.filter fun c => decide (c ≠ 9 ∧ c ≠ 10 ∧ c ≠ 32)

/-- A row of the map: a path and names of variables. -/
def mapRow (r : Bytes × List Bytes) : Bytes := str "\"" ++ r.1 ++ str "\":{" ++ commas r.2 ++ str "},"

/-- The rows of the map (bip32/reg_ver_bytes.go:407-423). -/
def versionRows : List (Bytes × List Bytes) := [
  (str "m/44'/0'", [str "Bitcoinxprvxpub"]),
  (str "m/49'/0'", [str "Bitcoinyprvypub"]),
  (str "m/84'/0'", [str "Bitcoinzprvzpub", str "BitcoinYprvYpub", str "BitcoinZprvZpub"]),
  (str "m/44'/1'", [str "Bitcointprvtpub", str "Groestlcointprvtpub", str "Litecointtpvttub", str "Nexaxprvxpub2"]),
  (str "m/49'/1'", [str "Bitcoinuprvupub", str "Groestlcoinuprvupub"]),
  (str "m/84'/1'", [str "Bitcoinvprvvpub", str "BitcoinUprvUpub", str "BitcoinVprvVpub", str "Groestlcoinvprvvpub", str "GroestlcoinUprvUpub", str "GroestlcoinVprvVpub"]),
  (str "m/44'/17'", [str "Groestlcoinxprvxpub"]),
  (str "m/49'/17'", [str "Groestlcoinyprvypub"]),
  (str "m/84'/17'", [str "Groestlcoinzprvzpub", str "GroestlcoinYprvYpub", str "GroestlcoinZprvZpub"]),
  (str "m/44'/2'", [str "LitecoinLtpvLtub"]),
  (str "m/49'/2'", [str "LitecoinMtpvMtub"]),
  (str "m/44'/29223'", [str "Nexaxprvxpub"]),
  (str "m/44'/28'", [str "Vertcoinvtcpvtcv"]),
  (str "m/44'/1997'", [str "Polispprvppub"]),
  (str "m/84'/57'", [str "Syscoinzprvzpub", str "SyscoinZprvZpub"])]

/-- **C119**, the versions: the text of the variables in bip32/reg_ver_bytes.go is that of the model's values written as Go source, and no other list of
declarations with plain texts has this text. -/
theorem C119_versions : versionsText = versionSource versionVars ∧ (∀ d ∈ versionVars, DeclPlain d) ∧
    ∀ l, (∀ d ∈ l, DeclPlain d) → versionsText = versionSource l → l = versionVars := by
  have h1 : versionsText = versionSource versionVars := by
    have h : ((Data.VersionsText.parts.take 30).flatMap id).map codeLine ++ [codeLine 41] =
        (str "var (" :: versionVars.flatMap versionDecl ++ [str ")"]).map (· ++ [10]) := by decide +kernel
    have h := congrArg List.flatten h
    rw [List.flatten_append, ← List.flatMap_def, ← List.flatMap_def] at h
    rwa [List.flatten_cons, List.flatten_nil, List.append_nil] at h
  have h2 : ∀ d ∈ versionVars, DeclPlain d := by decide +kernel
  exact ⟨h1, h2, fun l hl h => versionSource_injective hl h2 (h.symm.trans h1)⟩

/-- **C119**, the map from paths to versions: its text, but for white space, is that of the rows, and with the values of the variables these are the
model's table. -/
theorem C119_paths :
    squeeze versionMapText = str "varPathToHDBytesSlice=map[string][]VersionBytes{" ++ squeeze (versionRows.flatMap mapRow) ++ str "}" ∧
    (versionRows.map fun r => (r.1, r.2.map fun n => versionVars.lookup n)) = pathTable.map fun e => (e.1, e.2.map some) := by
  decide +kernel

/-- One declaration as source. -/
example : unlines (versionDecl (str "Bitcoinyprvypub", bitcoinyprvypub)) =
    str "\tBitcoinyprvypub = VersionBytes{\n\t\tCoin:          \"Bitcoin\",\n\t\tPvtKeyFlag:    0x049d7878,\n\t\tPvKeyPrefix:   \"yprv\",\n\t\tPubKeyFlag:    0x049d7cb2,\n\t\tPubKeyPrefix:  \"ypub\",\n\t\tAddrEncodings: []AddrEncoding{P2WPKHInP2SH},\n\t\tPath:          \"m/49'/0'\",\n\t}\n" := by
  decide +kernel

end Bips
