import Verif.Src.Lists
import Verif.Src.Script
import Verif.Props.Source
import Verif.Props.Words
import Verif.Props.Slip44

/-!
# C117: the text of the word lists and of the generator script

The same as C113 for bip39/wordlists and for bip44/script.go.
-/

namespace Bips

open Src Spec

variable (W : World)

/-- The functions are those of the ten files, in their order. -/
theorem wordFns_files : wordFns.map (·.2.2) = wordFiles := rfl

theorem wordFns_mem {p : Fn × Fn × WordFile} (h : p ∈ wordFns) : p.2.2 ∈ wordFiles := by
  rw [← wordFns_files]
  exact List.mem_map_of_mem h

/-- **C117**, the word lists. Whatever the text of the file is, `init` returns if the checksum of the text is the one written in the file, and panics
otherwise; the exported variable is the list of the lines of the trimmed text. -/
theorem C117_lists : wordFns.map (·.2.2) = wordFiles ∧ ∀ p ∈ wordFns,
    (∀ t : Bytes, (sprintfX (checksumIEEE t) = p.2.2.checksum → Ends W p.1 [.str t] (.ok [])) ∧
      (sprintfX (checksumIEEE t) ≠ p.2.2.checksum → Ends W p.1 [.str t] .panic) ∧
      Ends W p.2.1 [.str t] (.ok [.list ((splitByte 10 (trimSpace t)).map .str)])) := by
  refine ⟨rfl, fun p hp t => ⟨fun h => .of 1 0 fun L n _ => ?_, fun h => .of 1 0 fun L n _ => ?_, .of 1 0 fun L n _ => lists_list W L n t p hp⟩⟩
  · rw [lists_init W L n t p hp, if_pos h]
  · rw [lists_init W L n t p hp, if_neg h]

/-- **C117**, the shipped texts: every `init` returns, and every exported variable is a list of 2048 different words as C10 wants. -/
theorem C117_shipped (p : Fn × Fn × WordFile) (hp : p ∈ wordFns) : Ends W p.1 [.str p.2.2.text] (.ok []) ∧
    ∃ l, GoodList l ∧ Ends W p.2.1 [.str p.2.2.text] (.ok [.list (l.map .str)]) :=
  have h := (C117_lists W).2 p hp p.2.2.text
  ⟨h.1 ((init_iff _).1 (C10_init_ok _ (wordFns_mem hp))), p.2.2.list, C10_lists_good _ (wordFns_mem hp), h.2.2⟩

/-- **C117**, a damaged text: with one bit of the shipped text flipped, every `init` panics. -/
theorem C117_damaged (p : Fn × Fn × WordFile) (hp : p ∈ wordFns) (m : Nat) (hm : m < 8 * p.2.2.text.length) :
    Ends W p.1 [.str (flipBit p.2.2.text m)] .panic := by
  refine ((C117_lists W).2 p hp _).2.1 fun h => crc_bit p.2.2.text m hm ?_
  exact sprintfX_inj (h.trans ((init_iff _).1 (C10_init_ok _ (wordFns_mem hp))).symm)

/-- **C117**, the script: whatever the document holds and whatever `testing.go` held, the text of `generateFileFromSlip44MD` leaves in `testing.go`
what the model's `generateFile` gives, and ends. -/
theorem C117_script (file old : Bytes) (h : file.length < 2 ^ 62) :
    Ends W .bip44_generateFileFromSlip44MD [.bytes file, .bytes old] (.ok [.bytes file, .bytes (generateFile file)]) :=
  .of 2 0 fun L n _ => script_run W L n file old h

/-- A line has few bytes. -/
def shortLine (l : MdLine) : Bool := Nat.ble l.length 9 && l.all fun c => Nat.ble (natBytes 64 c.1 []).length 100 && Nat.ble c.2 1000

theorem slip_short : Data.Slip44.lines.all shortLine = true := by decide +kernel

theorem slip_count : Nat.ble Data.Slip44.lines.length 10000 = true := by decide +kernel

theorem flatMap_length_le {α : Type} (f : α → Bytes) (k : Nat) (l : List α) (h : ∀ a ∈ l, (f a).length ≤ k) :
    (l.flatMap f).length ≤ l.length * k := by
  induction l with
  | nil => simp
  | cons a l ih =>
    have h1 := h a List.mem_cons_self
    have h2 := ih fun b hb => h b (List.mem_cons_of_mem _ hb)
    rw [List.flatMap_cons, List.length_append, List.length_cons, Nat.add_mul]
    omega

theorem slip_line_length (l : MdLine) (hl : l ∈ Data.Slip44.lines) : (mdLine (l.map fun c : Nat × Nat => (codeWord c.1, c.2)) ++ [10]).length ≤ 20000 := by
  have hs := List.all_eq_true.1 slip_short l hl
  simp only [shortLine, Bool.and_eq_true, Nat.ble_eq, List.all_eq_true] at hs
  have := flatMap_length_le (fun c : Bytes × Nat => str "| " ++ c.1 ++ List.replicate c.2 32) 1110 (l.map fun c => (codeWord c.1, c.2)) ?_
  · rw [List.length_map] at this
    have h9 := Nat.mul_le_mul_right 1110 hs.1
    rw [List.length_append, mdLine, List.length_singleton]
    omega
  · intro c hc
    obtain ⟨d, hd, rfl⟩ := List.mem_map.1 hc
    have h2 := hs.2 d hd
    have e : (str "| ").length = 2 := by decide +kernel
    have e2 : (codeWord d.1).length = (natBytes 64 d.1 []).length := by rw [← codeWord_toNat, List.length_map]
    simp only [List.length_append, List.length_replicate, e, e2]
    omega

theorem slip44File_length : slip44File.length < 2 ^ 62 := by
  have h1 := flatMap_length_le (fun r : List (Bytes × Nat) => mdLine r ++ [10]) 20000 slipRows fun r hr => by
    obtain ⟨l, hl, rfl⟩ := List.mem_map.1 hr
    exact slip_line_length l hl
  have h2 : slipRows.length ≤ 10000 := by
    have h := Nat.le_of_ble_eq_true slip_count
    rwa [slipRows, List.length_map]
  rw [slip44File_eq, mdFile]
  generalize (slipRows.flatMap fun r => mdLine r ++ [10]).length = x at h1 ⊢
  generalize slipRows.length = y at h1 h2
  omega

/-- **C117**, the script on the shipped document: it empties `testing.go`. -/
theorem C117_script_shipped (old : Bytes) :
    Ends W .bip44_generateFileFromSlip44MD [.bytes slip44File, .bytes old] (.ok [.bytes slip44File, .bytes []]) := by
  have h := C117_script W slip44File old slip44File_length
  rwa [C68_emits_nothing] at h

/-- **C117**, the script on a table with decimal path components: it writes every coin, in order. -/
theorem C117_script_decimal (cs : List (Coin × (Nat × Nat × Nat × Nat))) (hc : ∀ c ∈ cs, Printable c.1) (old : Bytes)
    (h : (mdFile (cs.map fun c => decimalRow c.1 c.2)).length < 2 ^ 62) :
    Ends W .bip44_generateFileFromSlip44MD [.bytes (mdFile (cs.map fun c => decimalRow c.1 c.2)), .bytes old]
      (.ok [.bytes (mdFile (cs.map fun c => decimalRow c.1 c.2)), .bytes (cs.flatMap fun c => c.1.stringForMD ++ str ",\n")]) := by
  have e := C117_script W _ old h
  rwa [C68_decimal_table cs hc] at e

/-- One line and what the text makes of it. -/
example (old : Bytes) : Ends W .bip44_generateFileFromSlip44MD [.bytes (str "| 2  | 2147483650 | LTC | Litecoin  \n"), .bytes old]
    (.ok [.bytes (str "| 2  | 2147483650 | LTC | Litecoin  \n"),
      .bytes (str "{Type: 2, PathComponent: 0x80000002, Symbol: \"LTC\", Name: \"Litecoin\"},\n")]) := by
  have h := C117_script W (str "| 2  | 2147483650 | LTC | Litecoin  \n") old (by decide +kernel)
  rwa [show generateFile (str "| 2  | 2147483650 | LTC | Litecoin  \n") =
    str "{Type: 2, PathComponent: 0x80000002, Symbol: \"LTC\", Name: \"Litecoin\"},\n" by decide +kernel] at h

/-- A text of two words: the variable holds them, and the English `init` panics. -/
example : Ends W .wordlists_english_English [.str (str " abandon\nability\n\n")] (.ok [.list [.str (str "abandon"), .str (str "ability")]]) ∧
    Ends W .wordlists_english_init [.str (str " abandon\nability\n\n")] .panic := by
  have h := (C117_lists W).2 (.wordlists_english_init, .wordlists_english_English, english) (by simp [wordFns]) (str " abandon\nability\n\n")
  refine ⟨?_, h.2.1 (by decide +kernel)⟩
  have e := h.2.2
  rwa [show splitByte 10 (trimSpace (str " abandon\nability\n\n")) = [str "abandon", str "ability"] by decide +kernel] at e

end Bips
