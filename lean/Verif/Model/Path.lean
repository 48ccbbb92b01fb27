import Verif.Go.Strings
import Verif.Model.Key

/-!
# bip32/path.go

`type Path string` (bip32/path.go:20) is `Bytes`.
-/

namespace Bips

/-- `PathRegex` = ``^[mM](/\d+')*(/\d+)*$`` (bip32/path.go:22). The anchors make `MatchString` membership of
the whole text in the language. The pattern is ASCII, so matching runes and matching bytes agree. -/
def pathRegex : RegularExpression UInt8 :=
  reAny (str "mM") *
    (RegularExpression.char 47 * rePlus reDigit * RegularExpression.char 39).star *
    (RegularExpression.char 47 * rePlus reDigit).star

/-- The bytes matched by `\s`: `[\t\n\f\r ]`. -/
def isReSpace (c : UInt8) : Bool := c = 9 || c = 10 || c = 12 || c = 13 || c = 32

/-- `Path.String` (bip32/path.go:24-27). -/
def pathString (p : Bytes) : Bytes := p.filter fun c => !isReSpace c

/-- `Path.Formatted` (bip32/path.go:29-31). -/
def pathFormatted (p : Bytes) : Bytes := pathString p

/-- The loop body of `ValuesAtDepth` over the components (bip32/path.go:54-73); `acc` is `pathArr`. -/
def valuesLoop : List Bytes → List UInt32 → List UInt32 × Option Err
  | [], acc => (acc, none)
  | s :: rest, acc =>
    if s.contains 39 then
      match atoi (removeByte 39 s) with
      | (_, some e) => (acc, some e)
      | (val, none) =>
        if intToUint32 val ≥ firstHardenedChild then (acc, some .unSupportedOrInvalidPath)
        else valuesLoop rest (acc ++ [intToUint32 val + firstHardenedChild])
    else
      match atoi s with
      | (_, some e) => (acc, some e)
      | (val, none) => valuesLoop rest (acc ++ [intToUint32 val])

/-- `ValuesAtDepth` (bip32/path.go:45-75). A nil slice is `[]`. -/
def valuesAtDepth (p : Bytes) : List UInt32 × Option Err :=
  if ¬ pathRegex.rmatch (pathString p) then ([], some .unSupportedOrInvalidPath)
  else valuesLoop ((splitByte 47 (pathString p)).drop 1) [0]

/-- `Path.IsValid` (bip32/path.go:33-36). -/
def pathIsValid (p : Bytes) : Bool := (valuesAtDepth p).2 = none

/-- `ValueAtDepth` (bip32/path.go:81-90). `byte(len(vals))` truncates; the index expression panics when out
of range. -/
def valueAtDepth (p : Bytes) (b : UInt8) : Outcome (UInt32 × Option Err) :=
  match valuesAtDepth p with
  | (_, some e) => .ok (0, some e)
  | (vals, none) =>
    if ¬ b < UInt8.ofNat vals.length then .ok (0, some .unSupportedOrInvalidPath)
    else match vals[b.toNat]? with
      | some v => .ok (v, none)
      | none => .panic

/-- `ReplaceValueAtDepth` (bip32/path.go:91-107). The assignment `valsArr[b] = …` panics when out of range. -/
def replaceValueAtDepth (p : Bytes) (b : UInt8) (val : UInt32) : Outcome (Bytes × Option Err) :=
  match valuesAtDepth p with
  | (_, some e) => .ok (p, some e)
  | (vals, none) =>
    if ¬ b < UInt8.ofNat vals.length then .ok (p, some .unSupportedOrInvalidPath)
    else
      let valsArr := splitByte 47 (pathString p)
      let text := if val ≥ firstHardenedChild then decimal (val % firstHardenedChild).toNat ++ [39]
        else decimal val.toNat
      if b.toNat < valsArr.length then .ok (joinByte 47 (valsArr.set b.toNat text), none) else .panic

end Bips
