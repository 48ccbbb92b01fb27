import Verif.Go.Utf8
import Verif.Go.Strings

/-!
# bip44/coin.go
-/

namespace Bips

/-- `Coin` (bip44/coin.go:8-14). -/
structure Coin where
  type : UInt32
  pathComponent : UInt32
  symbol : Bytes
  name : Bytes
deriving DecidableEq

/-- `fmt`'s `%x` of an unsigned number: hexadecimal digits without leading zeros, `0` for zero. -/
def hexNumber (n : Nat) : Bytes := if n = 0 then [48] else (toDigitsBE 16 n).map hexDigit

/-- `StringForMD` (bip44/coin.go:16-20). -/
def Coin.stringForMD (c : Coin) : Bytes :=
  str "{Type: " ++ decimal c.type.toNat ++ str ", PathComponent: 0x" ++ hexNumber c.pathComponent.toNat ++
    str ", Symbol: \"" ++ c.symbol ++ str "\", Name: \"" ++ c.name ++ str "\"}"

/-- `String` (bip44/coin.go:22-31). -/
def Coin.string (c : Coin) : Bytes :=
  (if c.symbol = [] then c.name else c.symbol ++ str " - " ++ c.name) ++ str " (Type " ++ decimal c.type.toNat ++ str ")"

/-- `IsValid` (bip44/coin.go:33-37). `c.Type+0x80000000` wraps around, as in Go. The model of `strings.TrimSpace` is
exact here also on invalid UTF-8, since only emptiness of the result matters. -/
def Coin.isValid (c : Coin) : Bool :=
  decide (trimSpace c.name ++ trimSpace c.symbol ≠ []) && decide (c.type < 0x80000000) &&
    decide (c.pathComponent ≥ 0x80000000) && decide (c.type + 0x80000000 = c.pathComponent)

end Bips
