import Verif.Lemmas.Slip44

/-!
# C67, C68: the coin table and the SLIP-0044 document it was made from
-/

namespace Bips
open Spec

/-! ### C67 -/

/-- The texts of a line. -/
def MdLine.texts (l : MdLine) : List Bytes := l.map fun c => codeWord c.1

/-- The columns of the line say what the row says. -/
def rowCheck (l : MdLine) (c : CoinCode) : Bool :=
  match l with
  | [(t, _), (p, _), (s, _), (n, _)] =>
    let t := natBytes 64 t []
    Nat.beq s c.symbol && Nat.beq n c.name && Nat.blt c.type 4294967296 && Nat.blt c.pathComponent 4294967296 &&
      (!t.isEmpty && t.all (fun x => Nat.ble 48 x && Nat.ble x 57)) &&
      Nat.beq (t.foldl (fun a c => a * 10 + (c - 48)) 0) c.type &&
      (match codeWord p with
        | 48 :: 120 :: h => !h.isEmpty && h.all (fun c => (str "0123456789abcdefABCDEF").contains c) &&
            Nat.beq (hexValue h) c.pathComponent
        | _ => false)
  | _ => false

/-- The rows correspond one by one. -/
def rowsCheck : List MdLine → List CoinCode → Bool
  | [], [] => true
  | l :: ls, c :: cs => rowCheck l c && rowsCheck ls cs
  | _, _ => false

set_option maxRecDepth 100000 in
theorem slip_rows : rowsCheck (Data.Slip44.lines.filter fun l => namesCoin l.texts) Data.Coins.codes = true := by
  decide +kernel

theorem rowCheck_reads {l : MdLine} {c : CoinCode} (h : rowCheck l c = true) : RowReads l.texts c.coin := by
  unfold rowCheck at h
  split at h
  · rename_i t _ p _ s _ n _
    dsimp only at h
    simp only [Bool.and_eq_true, Nat.beq_eq, Nat.blt_eq] at h
    obtain ⟨⟨⟨⟨⟨⟨rfl, rfl⟩, ht32⟩, hp32⟩, h1, h2⟩, h3⟩, h4⟩ := h
    split at h4
    · rename_i h hp
      simp only [Bool.and_eq_true, Nat.beq_eq] at h4
      obtain ⟨⟨h5, h6⟩, h7⟩ := h4
      rw [← codeWord_toNat] at h1 h2 h3
      refine ⟨codeWord t, h, ?_, ⟨?_, ?_⟩, ?_, ⟨?_, ?_⟩, ?_⟩
      · have e : str "0x" = [48, 120] := by decide +kernel
        simp only [MdLine.texts, List.map_cons, List.map_nil, CoinCode.coin, hp, e]
        rfl
      · rintro e; rw [e] at h1; exact absurd h1 (by decide)
      · intro x hx
        rw [List.all_map, List.all_eq_true] at h2
        have := h2 x hx
        simp only [Function.comp, Bool.and_eq_true, Nat.ble_eq] at this
        exact this
      · rw [List.foldl_map] at h3
        rw [decValue, h3]
        simp only [CoinCode.coin, UInt32.toNat_ofNat']
        omega
      · rintro rfl; exact absurd h5 (by decide)
      · intro x hx
        have := List.all_eq_true.1 h6 x hx
        simpa using this
      · rw [h7]
        simp only [CoinCode.coin, UInt32.toNat_ofNat']
        omega
    · cases h4
  · cases h

theorem rowsCheck_reads : ∀ {ls : List MdLine} {cs : List CoinCode}, rowsCheck ls cs = true →
    List.Forall₂ RowReads (ls.map MdLine.texts) (cs.map CoinCode.coin)
  | [], [], _ => .nil
  | l :: ls, c :: cs, h => by
    rw [rowsCheck, Bool.and_eq_true] at h
    exact .cons (rowCheck_reads h.1) (rowsCheck_reads h.2)
  | [], _ :: _, h => by cases h
  | _ :: _, [], h => by cases h

/-- The file can be read as a table in at most one way. -/
theorem C67_unique_reading {rows rows' : List (List (Bytes × Nat))} (h : ∀ r ∈ rows, ∀ c ∈ r, CellText c.1)
    (h' : ∀ r ∈ rows', ∀ c ∈ r, CellText c.1) (he : mdFile rows = mdFile rows') :
    (rows.map fun r => r.map (·.1)) = rows'.map fun r => r.map (·.1) := by
  have e := splitByte_mdFile rows h
  rw [he, splitByte_mdFile rows' h'] at e
  have e := List.append_cancel_right e
  have key : ∀ rows : List (List (Bytes × Nat)), (∀ r ∈ rows, ∀ c ∈ r, CellText c.1) →
      (rows.map mdLine).map mdFields = rows.map fun r => r.map (·.1) := by
    intro rows h
    rw [List.map_map]
    exact List.map_congr_left fun r hr => mdFields_mdLine r (h r hr)
  rw [← key rows h, ← key rows' h', e]

/-- **C67.** The shipped document is a table, and the rows that name a coin are, in order, the coins of `RegCoins` as
written. -/
theorem C67_document : ∃ rows : List (List (Bytes × Nat)), (∀ r ∈ rows, ∀ c ∈ r, CellText c.1) ∧
    slip44File = mdFile rows ∧
    List.Forall₂ RowReads ((rows.map fun r => r.map (·.1)).filter namesCoin) coinTable := by
  refine ⟨slipRows, slipRows_cells, slip44File_eq, ?_⟩
  have h := rowsCheck_reads slip_rows
  have e : (slipRows.map fun r => r.map (·.1)).filter namesCoin =
      (Data.Slip44.lines.filter fun l => namesCoin l.texts).map MdLine.texts := by
    unfold slipRows
    rw [List.map_map, List.filter_map]
    have : (fun r : List (Bytes × Nat) => r.map (·.1)) ∘ (fun l : MdLine => l.map fun c => (codeWord c.1, c.2)) =
        MdLine.texts := by
      funext l
      simp [MdLine.texts]
    rw [this]
    rfl
  rw [e]
  exact h

/-- Every way to read the document gives the table. -/
theorem C67_every_reading {rows : List (List (Bytes × Nat))} (h : ∀ r ∈ rows, ∀ c ∈ r, CellText c.1)
    (hf : slip44File = mdFile rows) :
    List.Forall₂ RowReads ((rows.map fun r => r.map (·.1)).filter namesCoin) coinTable := by
  obtain ⟨rows', h', hf', h2⟩ := C67_document
  rw [C67_unique_reading h h' (hf.symm.trans hf')]
  exact h2

/-! ### C68 -/

theorem parseUint32Loop_iff (s : Bytes) (n m : Nat) (hn : n < 2 ^ 32) :
    parseUint32Loop s n = some m ↔ (∀ c ∈ s, 48 ≤ c.toNat ∧ c.toNat ≤ 57) ∧
      s.foldl (fun a c => a * 10 + (c.toNat - 48)) n = m ∧ m < 2 ^ 32 := by
  induction s generalizing n with
  | nil =>
    constructor
    · intro h; cases h; exact ⟨by simp, rfl, hn⟩
    · rintro ⟨-, h, -⟩; exact congrArg some h
  | cons c s ih =>
    have mono : ∀ (s : Bytes) (a : Nat), a ≤ s.foldl (fun a c => a * 10 + (c.toNat - 48)) a := by
      intro s
      induction s with
      | nil => intro a; exact le_refl _
      | cons c s ih => intro a; exact le_trans (by omega) (ih (a * 10 + (c.toNat - 48)))
    rw [parseUint32Loop]
    by_cases hd : isDigit c = true
    · rw [hd]
      simp only [Bool.not_true, Bool.false_eq_true, if_false]
      by_cases hlt : 2 ^ 32 ≤ n * 10 + (c.toNat - 48)
      · rw [if_pos hlt]
        simp only [reduceCtorEq, false_iff, not_and]
        intro _ h1 h2
        have := mono s (n * 10 + (c.toNat - 48))
        rw [List.foldl_cons] at h1
        omega
      · rw [if_neg hlt, ih _ (by omega), List.foldl_cons]
        constructor
        · rintro ⟨h1, h2⟩
          exact ⟨by simpa using ⟨(isDigit_iff c).1 hd, h1⟩, h2⟩
        · rintro ⟨h1, h2⟩
          exact ⟨fun x hx => h1 x (by simp [hx]), h2⟩
    · rw [Bool.not_eq_true] at hd
      rw [hd]
      simp only [Bool.not_false, if_true, reduceCtorEq, false_iff, not_and]
      intro h
      have := (isDigit_iff c).2 (h c (by simp))
      rw [hd] at this
      cases this

/-- `ParseUint(s, 10, 32)` accepts the decimal numerals below 2³². -/
theorem parseUint32_iff (s : Bytes) (n : Nat) :
    parseUint32 s = some n ↔ IsNumeral s ∧ decValue s = n ∧ n < 2 ^ 32 := by
  unfold parseUint32
  by_cases h : s = []
  · subst h; simp [IsNumeral]
  · rw [if_neg h, parseUint32Loop_iff _ _ _ (by omega)]
    simp [IsNumeral, h, decValue]

theorem filterMap_mdFile (rows : List (List (Bytes × Nat))) (h : ∀ r ∈ rows, ∀ c ∈ r, CellText c.1) :
    (splitByte 10 (mdFile rows)).filterMap genLine = rows.filterMap fun r => genLine (mdLine r) := by
  rw [splitByte_mdFile rows h, List.filterMap_append, List.filterMap_map]
  have : List.filterMap genLine [[]] = [] := by decide +kernel
  rw [this, List.append_nil]
  rfl

/-- C68: a row whose path component is not a decimal numeral, such as `0x8000002c`, is dropped. -/
theorem genLine_of_not_numeral {r : List (Bytes × Nat)} (h : ∀ c ∈ r, CellText c.1)
    (h2 : ∀ t p l, r.map (·.1) = t :: p :: l → ¬ IsNumeral p) : genLine (mdLine r) = none := by
  unfold genLine
  rw [mdFields_mdLine r h]
  dsimp only
  split
  · rename_i hc
    simp only [Bool.and_eq_true, decide_eq_true_eq] at hc
    have hlen := hc.1.1
    generalize hr : r.map (·.1) = fs at hlen h2 ⊢
    match fs, hlen, h2 with
    | t :: p :: l, _, h2 =>
      have hp : parseUint32 p = none := by
        cases hp : parseUint32 p with
        | none => rfl
        | some n => exact absurd ((parseUint32_iff _ _).1 hp).1 (h2 t p l rfl)
      have e1 : (t :: p :: l).getD 1 [] = p := rfl
      rw [e1, hp]
      split <;> rfl
    | [_], hl, _ => exact absurd hl (by simp)
    | [], hl, _ => exact absurd hl (by decide)
  · rfl

/-- **C68.** A table without decimal path components gives an empty file. -/
theorem C68_drops_hex {rows : List (List (Bytes × Nat))} (h : ∀ r ∈ rows, ∀ c ∈ r, CellText c.1)
    (h2 : ∀ r ∈ rows, ∀ t p l, r.map (·.1) = t :: p :: l → ¬ IsNumeral p) : generateFile (mdFile rows) = [] := by
  unfold generateFile
  rw [filterMap_mdFile rows h, List.filterMap_eq_nil_iff.2 fun r hr => genLine_of_not_numeral (h r hr) (h2 r hr)]
  rfl

/-- The second column has a byte that is no digit. -/
def hexColumn (l : MdLine) : Bool :=
  match l with
  | _ :: (p, _) :: _ => (natBytes 64 p []).any fun x => !(Nat.ble 48 x && Nat.ble x 57)
  | _ => true

set_option maxRecDepth 100000 in
theorem slip_hex : Data.Slip44.lines.all hexColumn = true := by decide +kernel

/-- **C68.** So the generator, run on the shipped document, writes an empty file: it cannot have made the table. -/
theorem C68_emits_nothing : generateFile slip44File = [] := by
  rw [slip44File_eq]
  refine C68_drops_hex slipRows_cells ?_
  intro r hr t p l he hp
  obtain ⟨m, hm, rfl⟩ := List.mem_map.1 hr
  have hh := List.all_eq_true.1 slip_hex m hm
  match m, he, hh with
  | a :: (q, w) :: rest, he, hh =>
    simp only [List.map_cons, List.cons.injEq] at he
    obtain ⟨-, rfl, -⟩ := he
    unfold hexColumn at hh
    dsimp only at hh
    rw [← codeWord_toNat, List.any_map, List.any_eq_true] at hh
    obtain ⟨x, hx, hd⟩ := hh
    have := hp.2 x hx
    simp only [Function.comp, Bool.not_eq_true', Bool.and_eq_false_iff] at hd
    rcases hd with hd | hd
    · rw [← Bool.not_eq_true, Nat.ble_eq] at hd; omega
    · rw [← Bool.not_eq_true, Nat.ble_eq] at hd; omega

/-- The row of a coin with a decimal path component, with the given numbers of blanks. -/
def decimalRow (c : Coin) (w : Nat × Nat × Nat × Nat) : List (Bytes × Nat) :=
  [(decimal c.type.toNat, w.1), (decimal c.pathComponent.toNat, w.2.1), (c.symbol, w.2.2.1), (c.name, w.2.2.2)]

/-- The texts of the coin can stand in a table, and the name does not make the generator skip the row. -/
structure Printable (c : Coin) : Prop where
  symbol : CellText c.symbol
  name : CellText c.name
  nonempty : c.name ≠ []
  reserved : ¬ str "reserved" <:+: c.name
  dead : ¬ str "dead" <:+: c.name

theorem containsText_iff (s sub : Bytes) : containsText s sub = true ↔ sub <:+: s := by
  unfold containsText
  simp only [List.any_eq_true, List.mem_tails, List.isPrefixOf_iff_prefix]
  rw [List.infix_iff_prefix_suffix]
  exact exists_congr fun _ => and_comm

theorem cellText_numeral {d : Bytes} (h : IsNumeral d) : CellText d := by
  refine ⟨numeral_not_mem h (by decide), numeral_not_mem h (by decide), ?_, ?_⟩
  · intro c hc hp
    have e := headD_of_prefix hp (utf8_ne_nil c)
    have hw := ws_head c hc
    rw [← e] at hw
    have : d.headD 0 ∈ d := by
      cases d with
      | nil => exact absurd rfl h.1
      | cons x d => simp
    have := h.2 _ this
    simp only [List.mem_cons, List.not_mem_nil, or_false] at hw
    omega
  · intro c hc hp
    have e := getLastD_of_suffix hp (utf8_ne_nil c)
    have hw := ws_last c hc
    rw [← e] at hw
    have : d.getLastD 0 ∈ d := by
      rw [List.getLastD_eq_getLast?, List.getLast?_eq_some_getLast h.1]
      exact List.getLast_mem h.1
    have := h.2 _ this
    omega

theorem decimalRow_cells {c : Coin} (h : Printable c) (w : Nat × Nat × Nat × Nat) :
    ∀ x ∈ decimalRow c w, CellText x.1 := by
  intro x hx
  simp only [decimalRow, List.mem_cons, List.not_mem_nil, or_false] at hx
  rcases hx with rfl | rfl | rfl | rfl
  · exact cellText_numeral (decimal_numeral _).1
  · exact cellText_numeral (decimal_numeral _).1
  · exact h.symbol
  · exact h.name

theorem genLine_decimalRow {c : Coin} (h : Printable c) (w : Nat × Nat × Nat × Nat) :
    genLine (mdLine (decimalRow c w)) = some c := by
  have h1 : parseUint32 (decimal c.type.toNat) = some c.type.toNat :=
    (parseUint32_iff _ _).2 ⟨(decimal_numeral _).1, (decimal_numeral _).2, c.type.toNat_lt⟩
  have h2 : parseUint32 (decimal c.pathComponent.toNat) = some c.pathComponent.toNat :=
    (parseUint32_iff _ _).2 ⟨(decimal_numeral _).1, (decimal_numeral _).2, c.pathComponent.toNat_lt⟩
  have h3 : containsText c.name (str "reserved") = false := by
    rw [← Bool.not_eq_true, containsText_iff]; exact h.reserved
  have h4 : containsText c.name (str "dead") = false := by
    rw [← Bool.not_eq_true, containsText_iff]; exact h.dead
  unfold genLine
  rw [mdFields_mdLine _ (decimalRow_cells h w)]
  simp only [decimalRow, List.map_cons, List.map_nil, List.getLastD_cons, List.getLastD_nil, h3, h4,
    List.getD_cons_zero, List.getD_cons_succ, h1, h2, List.length_cons, List.length_nil, List.drop_succ_cons,
    List.drop_zero, joinByte]
  simp [h.nonempty]

/-- **C68.** On a table with decimal path components the generator writes every coin, in order. -/
theorem C68_decimal_table (cs : List (Coin × (Nat × Nat × Nat × Nat))) (h : ∀ c ∈ cs, Printable c.1) :
    generateFile (mdFile (cs.map fun c => decimalRow c.1 c.2)) =
      cs.flatMap fun c => c.1.stringForMD ++ str ",\n" := by
  unfold generateFile
  rw [filterMap_mdFile]
  · rw [List.filterMap_map]
    have : cs.filterMap ((fun r => genLine (mdLine r)) ∘ fun c => decimalRow c.1 c.2) = cs.map (·.1) := by
      rw [← List.filterMap_eq_map]
      apply List.filterMap_congr
      intro c hc
      exact genLine_decimalRow (h c hc) c.2
    rw [this, List.flatMap_map]
  · intro r hr
    obtain ⟨c, hc, rfl⟩ := List.mem_map.1 hr
    exact decimalRow_cells (h c hc) c.2

theorem joinByte_blanks (b : UInt8) (l : List Bytes) : joinByte b l = [b].intercalate l := by
  induction l with
  | nil => rfl
  | cons x l ih =>
    cases l with
    | nil => simp [joinByte, List.intercalate]
    | cons y l => simp_all [joinByte, List.intercalate]

/-- A row with the numbers `t` and `p` in decimal and these texts after them, and the coin it stands for, if any: a single text is the name; of several the first
is the symbol and the others, with blanks between, the name. Rows whose last text says that the number is reserved or dead stand for no coin. -/
inductive RowCoin (t p : UInt32) : List Bytes → Option Coin → Prop
  | name (n : Bytes) : n ≠ [] → ¬ str "reserved" <:+: n → ¬ str "dead" <:+: n → RowCoin t p [n] (some ⟨t, p, [], n⟩)
  | symbol (y : Bytes) (ns : List Bytes) (n : Bytes) : y ≠ [] ∨ [32].intercalate (ns ++ [n]) ≠ [] → ¬ str "reserved" <:+: n → ¬ str "dead" <:+: n →
      RowCoin t p (y :: ns ++ [n]) (some ⟨t, p, y, [32].intercalate (ns ++ [n])⟩)
  | blank : RowCoin t p [[]] none
  | blanks : RowCoin t p [[], []] none
  | skipped (ns : List Bytes) (n : Bytes) : str "reserved" <:+: n ∨ str "dead" <:+: n → RowCoin t p (ns ++ [n]) none

/-- Every row with a text after the numbers is one of these. -/
theorem rowCoin_total (t p : UInt32) (l : List Bytes) (hl : l ≠ []) : ∃ o, RowCoin t p l o := by
  obtain ⟨ns, n, rfl⟩ := (List.eq_nil_or_concat l).resolve_left hl
  rw [List.concat_eq_append]
  by_cases h : str "reserved" <:+: n ∨ str "dead" <:+: n
  · exact ⟨_, .skipped ns n h⟩
  · rw [not_or] at h
    cases ns with
    | nil =>
      by_cases hn : n = []
      · subst hn; exact ⟨_, .blank⟩
      · exact ⟨_, .name n hn h.1 h.2⟩
    | cons y ns =>
      by_cases hy : y ≠ [] ∨ [32].intercalate (ns ++ [n]) ≠ []
      · exact ⟨_, .symbol y ns n hy h.1 h.2⟩
      · rw [not_or, not_not, not_not] at hy
        obtain ⟨rfl, hj⟩ := hy
        cases ns with
        | nil =>
          have : n = [] := by simpa [List.intercalate] using hj
          subst this
          exact ⟨_, .blanks⟩
        | cons z ns =>
          exfalso
          cases ns <;> simp [List.intercalate] at hj

/-- Cells with the numbers of blanks after them. -/
def tableRow (t p : UInt32) (w : Nat × Nat) (l : List (Bytes × Nat)) : List (Bytes × Nat) := (decimal t.toNat, w.1) :: (decimal p.toNat, w.2) :: l

theorem tableRow_cells {t p : UInt32} {w : Nat × Nat} {l : List (Bytes × Nat)} (h : ∀ x ∈ l, CellText x.1) : ∀ x ∈ tableRow t p w l, CellText x.1 := by
  intro x hx
  simp only [tableRow, List.mem_cons] at hx
  rcases hx with rfl | rfl | hx
  · exact cellText_numeral (decimal_numeral _).1
  · exact cellText_numeral (decimal_numeral _).1
  · exact h x hx

theorem genLine_tableRow {t p : UInt32} {w : Nat × Nat} {l : List (Bytes × Nat)} (h : ∀ x ∈ l, CellText x.1) {o : Option Coin} (hr : RowCoin t p (l.map (·.1)) o) :
    genLine (mdLine (tableRow t p w l)) = o := by
  have h1 : parseUint32 (decimal t.toNat) = some t.toNat := (parseUint32_iff _ _).2 ⟨(decimal_numeral _).1, (decimal_numeral _).2, t.toNat_lt⟩
  have h2 : parseUint32 (decimal p.toNat) = some p.toNat := (parseUint32_iff _ _).2 ⟨(decimal_numeral _).1, (decimal_numeral _).2, p.toNat_lt⟩
  unfold genLine
  rw [mdFields_mdLine _ (tableRow_cells h)]
  simp only [tableRow, List.map_cons]
  generalize l.map (·.1) = m at hr
  cases hr with
  | name n h0 h3 h4 =>
    have h3 : containsText n (str "reserved") = false := by rw [← Bool.not_eq_true, containsText_iff]; exact h3
    have h4 : containsText n (str "dead") = false := by rw [← Bool.not_eq_true, containsText_iff]; exact h4
    simp [h1, h2, h3, h4, h0]
  | symbol y ns n h0 h3 h4 =>
    have h3 : containsText n (str "reserved") = false := by rw [← Bool.not_eq_true, containsText_iff]; exact h3
    have h4 : containsText n (str "dead") = false := by rw [← Bool.not_eq_true, containsText_iff]; exact h4
    have hl : (decimal t.toNat :: decimal p.toNat :: (y :: ns ++ [n])).getLastD [] = n := by
      rw [List.getLastD_eq_getLast?, ← List.cons_append, ← List.cons_append, List.getLast?_concat]; rfl
    rw [hl]
    simp only [h3, h4, List.cons_append, List.getD_cons_zero, List.getD_cons_succ, h1, h2, List.length_cons, List.drop_succ_cons, List.drop_zero]
    simp only [joinByte_blanks]
    simp
    tauto
  | blank =>
    simp [h1, h2]
  | blanks =>
    simp [h1, h2, joinByte]
  | skipped ns n hn =>
    have hl : (decimal t.toNat :: decimal p.toNat :: (ns ++ [n])).getLastD [] = n := by
      rw [List.getLastD_eq_getLast?, ← List.cons_append, ← List.cons_append, List.getLast?_concat]; rfl
    rw [hl]
    rcases hn with hn | hn <;> simp [(containsText_iff _ _).2 hn]

/-- **C68.** The rows of a table with decimal numbers may have any number of columns: the generator writes the coins the rows stand for, in order. -/
theorem C68_any_columns (rs : List ((UInt32 × UInt32) × (Nat × Nat) × List (Bytes × Nat) × Option Coin)) (h : ∀ r ∈ rs, ∀ x ∈ r.2.2.1, CellText x.1)
    (hr : ∀ r ∈ rs, RowCoin r.1.1 r.1.2 (r.2.2.1.map (·.1)) r.2.2.2) :
    generateFile (mdFile (rs.map fun r => tableRow r.1.1 r.1.2 r.2.1 r.2.2.1)) = (rs.filterMap (·.2.2.2)).flatMap fun c => c.stringForMD ++ str ",\n" := by
  unfold generateFile
  rw [filterMap_mdFile, List.filterMap_map]
  · congr 1
    apply List.filterMap_congr
    intro r hm
    exact genLine_tableRow (h r hm) (hr r hm)
  · intro r hm
    obtain ⟨c, hc, rfl⟩ := List.mem_map.1 hm
    exact tableRow_cells (h c hc)

/-- Rows of three, four and five columns, and one that is skipped. -/
example : RowCoin 1 2147483649 [str "Testnet"] (some ⟨1, 2147483649, [], str "Testnet"⟩) ∧
    RowCoin 5 2147483653 [str "DASH", str "Dash", str "(ex Darkcoin)"] (some ⟨5, 2147483653, str "DASH", str "Dash (ex Darkcoin)"⟩) ∧
    generateFile (str "| 1 | 2147483649 | Testnet \n| 9 | 2147483657 | XCP | reserved\n| 5 | 2147483653 | DASH | Dash | (ex Darkcoin)\n") =
      str "{Type: 1, PathComponent: 0x80000001, Symbol: \"\", Name: \"Testnet\"},\n{Type: 5, PathComponent: 0x80000005, Symbol: \"DASH\", Name: \"Dash (ex Darkcoin)\"},\n" := by
  refine ⟨.name _ (by decide +kernel) (by decide +kernel) (by decide +kernel),
    .symbol (str "DASH") [str "Dash"] (str "(ex Darkcoin)") (.inl (by decide +kernel)) (by decide +kernel) (by decide +kernel), by decide +kernel⟩

/-- A coin as in `C68_decimal_table`, and what is written for it. -/
example : Printable ⟨2, 0x80000002, str "LTC", str "Litecoin"⟩ ∧
    generateFile (str "| 2  | 2147483650 | LTC | Litecoin  \n") =
      str "{Type: 2, PathComponent: 0x80000002, Symbol: \"LTC\", Name: \"Litecoin\"},\n" := by
  refine ⟨⟨⟨by decide +kernel, by decide +kernel, by decide +kernel, by decide +kernel⟩,
    ⟨by decide +kernel, by decide +kernel, by decide +kernel, by decide +kernel⟩, by decide +kernel,
    by decide +kernel, by decide +kernel⟩, by decide +kernel⟩

/-- The first rows of the shipped document. -/
example : slipRows.take 2 = [[(str "0", 10), (str "0x80000000", 20), (str "BTC", 5), (str "Bitcoin", 27)],
    [(str "1", 10), (str "0x80000001", 20), ([], 8), (str "Testnet (all coins)", 15)]] := by decide +kernel

end Bips
