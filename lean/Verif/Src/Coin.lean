import Verif.Src.Rules
import Verif.Model.Coin

/-!
# bip44/coin.go, from the text

A `Coin` is the list of its four fields.
-/

namespace Bips.Src

open Bips (str)

set_option linter.unusedSimpArgs false

variable (W : World) (L : Nat)

/-- A `Coin` as a value. -/
def coinVal (c : Coin) : Val := .list [.u32 c.type, .u32 c.pathComponent, .str c.symbol, .str c.name]

theorem coin_format (t p : UInt32) (s m : Bytes) :
    sprintf (str "{Type: %d, PathComponent: 0x%x, Symbol: \"%s\", Name: \"%s\"}") [.u32 t, .u32 p, .str s, .str m] =
      some (str "{Type: " ++ decimal t.toNat ++ str ", PathComponent: 0x" ++ hexNumber p.toNat ++
    str ", Symbol: \"" ++ s ++ str "\", Name: \"" ++ m ++ str "\"}") := by
  have h : str "{Type: %d, PathComponent: 0x%x, Symbol: \"%s\", Name: \"%s\"}" =
    str "{Type: " ++ 37 :: 100 :: str ", PathComponent: 0x" ++ 37 :: 120 :: str ", Symbol: \"" ++ 37 :: 115 :: str "\", Name: \"" ++ 37 :: 115 :: str "\"}" := by
    decide +kernel
  have h1 : str "{Type: " = [123, 84, 121, 112, 101, 58, 32] := by decide +kernel
  have h2 : str ", PathComponent: 0x" = [44, 32, 80, 97, 116, 104, 67, 111, 109, 112, 111, 110, 101, 110, 116, 58, 32, 48, 120] := by decide +kernel
  have h3 : str ", Symbol: \"" = [44, 32, 83, 121, 109, 98, 111, 108, 58, 32, 34] := by decide +kernel
  have h4 : str "\", Name: \"" = [34, 44, 32, 78, 97, 109, 101, 58, 32, 34] := by decide +kernel
  have h5 : str "\"}" = [34, 125] := by decide +kernel
  rw [h, h1, h2, h3, h4, h5]
  simp [sprintf]

theorem coin_StringForMD (n : Nat) (c : Coin) : run W L (n + 1) .bip44_Coin_StringForMD [coinVal c] = .ok [.str c.stringForMD] := by
  rw [run_succ]
  simp -implicitDefEqProofs only [src, bip44_Coin_StringForMD, coinVal, coin_format, Coin.stringForMD]

theorem coin_format2 (s : Bytes) (t : UInt32) :
    sprintf (str "%s (Type %d)") [.str s, .u32 t] = some (s ++ str " (Type " ++ decimal t.toNat ++ str ")") := by
  have h1 : str "%s (Type %d)" = [37, 115, 32, 40, 84, 121, 112, 101, 32, 37, 100, 41] := by decide +kernel
  have h2 : str " (Type " = [32, 40, 84, 121, 112, 101, 32] := by decide +kernel
  have h3 : str ")" = [41] := by decide +kernel
  rw [h1, h2, h3]
  simp [sprintf]

theorem coin_String (n : Nat) (c : Coin) : run W L (n + 1) .bip44_Coin_String [coinVal c] = .ok [.str c.string] := by
  rw [run_succ]
  unfold Coin.string
  by_cases h : c.symbol = []
  · simp -implicitDefEqProofs [src, bip44_Coin_String, coinVal, coin_format2, h]
  · simp -implicitDefEqProofs [src, bip44_Coin_String, coinVal, coin_format2, h]

theorem coin_IsValid (n : Nat) (c : Coin) : run W L (n + 1) .bip44_Coin_IsValid [coinVal c] = .ok [.bool c.isValid] := by
  rw [run_succ]
  unfold Coin.isValid
  by_cases h1 : trimSpace c.name ++ trimSpace c.symbol = [] <;> by_cases h2 : c.type < 0x80000000 <;> by_cases h3 : 0x80000000 ≤ c.pathComponent <;>
    simp -implicitDefEqProofs [src, bip44_Coin_IsValid, coinVal, h1, h2, h3, -UInt32.not_le, -UInt32.not_lt, -List.append_eq_nil_iff]

end Bips.Src
