import Verif.Props.Bip44
import Verif.Props.Path

/-!
# C63: what a coin's label says
-/

namespace Bips
open Spec

/-- C63: the label ends with the name and, in parentheses, the type in decimal without leading zeros; the symbol, if
there is one, and a dash come first, and nothing otherwise. -/
theorem C63_label_text (c : Coin) :
    ∃ first, c.string = first ++ c.name ++ str " (Type " ++ numeral c.type.toNat ++ str ")" ∧
      (c.symbol = [] → first = []) ∧ (c.symbol ≠ [] → first = c.symbol ++ str " - ") := by
  refine ⟨if c.symbol = [] then [] else c.symbol ++ str " - ", ?_, fun h => if_pos h, fun h => if_neg h⟩
  unfold Coin.string
  rw [decimal_eq_numeral]
  by_cases h : c.symbol = []
  · rw [if_pos h, if_pos h, List.nil_append]
  · rw [if_neg h, if_neg h]

/-- A coin with a symbol and one without. -/
example : (Coin.mk 67 0x80000043 (str "NXS") (str "Nexus")).string =
      str "NXS - " ++ str "Nexus" ++ str " (Type " ++ numeral 67 ++ str ")" ∧
    (Coin.mk 191 0x800000bf [] (str "Lynx")).string = str "Lynx" ++ str " (Type " ++ numeral 191 ++ str ")" := by
  decide +kernel

end Bips
