import Verif.Model.Util
import Verif.Model.Registry.Types

/-!
# The width of `int`

`strconv.Atoi` answers a Go `int`, which has 32 bits on some platforms (386, arm, mips) and 64 on others (amd64, arm64). The
rest of the model fixes 64. Here the functions that call `Atoi` are stated again with the width as a parameter `w`;
`Verif/Props/Narrow.lean` shows that `w = 64` gives the other definitions back.
-/

namespace Bips

/-- Loop of `strconv.ParseUint(s, 10, w)`. `cutoff` is `maxUint64/10 + 1` whatever the width; `maxVal` is `2 ^ w - 1`. -/
def parseUintLoopW (w : Nat) : Bytes → Nat → Nat ⊕ Err
  | [], n => .inl n
  | c :: rest, n =>
    if !isDigit c then .inr .atoiSyntax
    else if 2 ^ 64 / 10 + 1 ≤ n then .inr .atoiRange
    else if 2 ^ w ≤ n * 10 + (c.toNat - 48) then .inr .atoiRange
    else parseUintLoopW w rest (n * 10 + (c.toNat - 48))

/-- `strconv.Atoi` where `int` has `w` bits: `ParseInt(s, 10, 0)`, with which the fast path for short strings agrees. As
in `atoi`, the value beside an error is 0. -/
def atoiW (w : Nat) (s : Bytes) : Int × Option Err :=
  match s with
  | [] => (0, some .atoiSyntax)
  | c :: rest =>
    let neg := c = 45
    let body := if c = 43 ∨ c = 45 then rest else s
    if body = [] then (0, some .atoiSyntax) else
    match parseUintLoopW w body 0 with
    | .inr e => (0, some e)
    | .inl un =>
      if ¬neg ∧ 2 ^ (w - 1) ≤ un then (0, some .atoiRange)
      else if neg ∧ 2 ^ (w - 1) < un then (0, some .atoiRange)
      else (if neg then -(un : Int) else un, none)

/-- The loop body of `ValuesAtDepth` (bip32/path.go:54-73) where `int` has `w` bits. -/
def valuesLoopW (w : Nat) : List Bytes → List UInt32 → List UInt32 × Option Err
  | [], acc => (acc, none)
  | s :: rest, acc =>
    if s.contains 39 then
      match atoiW w (removeByte 39 s) with
      | (_, some e) => (acc, some e)
      | (val, none) =>
        if intToUint32 val ≥ firstHardenedChild then (acc, some .unSupportedOrInvalidPath)
        else valuesLoopW w rest (acc ++ [intToUint32 val + firstHardenedChild])
    else
      match atoiW w s with
      | (_, some e) => (acc, some e)
      | (val, none) => valuesLoopW w rest (acc ++ [intToUint32 val])

/-- `ValuesAtDepth` (bip32/path.go:45-75) where `int` has `w` bits. -/
def valuesAtDepthW (w : Nat) (p : Bytes) : List UInt32 × Option Err :=
  if ¬ pathRegex.rmatch (pathString p) then ([], some .unSupportedOrInvalidPath)
  else valuesLoopW w ((splitByte 47 (pathString p)).drop 1) [0]

/-- `Path.IsValid` (bip32/path.go:33-36) where `int` has `w` bits. -/
def pathIsValidW (w : Nat) (p : Bytes) : Bool := (valuesAtDepthW w p).2 = none

/-- `Generator.DeriveBIP32Result` (util/util.go:79-127) where `int` has `w` bits. -/
def deriveBIP32ResultW (w : Nat) (H : Hashes) (R : Registry) (rootKey : Key) (p : Bytes) : List KeyPath × Option Err :=
  if !rootKey.isValid H || !rootKey.isPrivate || rootKey.byteAt depthStart != 0 then ([], some .invalidRootKey)
  else if !pathIsValidW w p then ([], some .utilUnSupportedOrInvalidPath)
  else
    match valuesAtDepthW w p with
    | (_, some e) => ([], some e)
    | (pathItems, none) =>
      let head : KeyPath := ⟨str "m", rootKey⟩
      if pathItems.length > 0 then (head :: deriveLoop H R (pathItems.drop 1) (str "m") rootKey, none)
      else ([head], none)

/-- `PurposeVal` and `CoinVal` (bip32/reg_ver_bytes.go:86-118) where `int` has `w` bits; see `VersionBytes.compVal`. -/
def VersionBytes.compValW (w : Nat) (h : VersionBytes) (idx : Nat) (rangeErr : Err) : Outcome (UInt32 × Option Err) :=
  if !h.isValid then .ok (0, some .unSupportedHDVersionBytes)
  else
    match (splitByte 47 (pathString h.path))[idx]? with
    | none => .panic
    | some s =>
      match atoiW w (removeByte 39 s) with
      | (_, some e) => .ok (0, some e)
      | (v, none) =>
        if intToUint32 v ≥ firstHardenedChild then .ok (0, some rangeErr)
        else .ok (intToUint32 v, none)

end Bips
