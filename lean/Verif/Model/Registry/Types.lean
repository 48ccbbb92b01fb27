import Verif.Model.Path

/-! # bip32/reg_ver_bytes.go: types and methods of `VersionBytes` -/

namespace Bips

/-- `AddrEncoding` constants (bip32/reg_ver_bytes.go:32-42). -/
inductive AddrEncoding
  | p2PKH | p2WPKH | p2WPKHInP2SH | p2SH | p2WSH | p2WSHInP2SH | p2PKT
  deriving DecidableEq, Repr

/-- `VersionBytes` (bip32/reg_ver_bytes.go:44-60). -/
structure VersionBytes where
  coin : Bytes
  pvtKeyFlag : UInt32
  pvKeyPrefix : Bytes
  pubKeyFlag : UInt32
  pubKeyPrefix : Bytes
  addrEncodings : List AddrEncoding
  path : Bytes
  deriving DecidableEq, Repr

namespace VersionBytes

/-- `PvtKeyFlagBytes` (bip32/reg_ver_bytes.go:62-66). -/
def pvtKeyFlagBytes (h : VersionBytes) : Bytes := putUint32 h.pvtKeyFlag

/-- `PubKeyFlagBytes` (bip32/reg_ver_bytes.go:68-72). -/
def pubKeyFlagBytes (h : VersionBytes) : Bytes := putUint32 h.pubKeyFlag

/-- ``^m/\d{0,8}'/\d{0,8}'$`` (bip32/reg_ver_bytes.go:75). -/
def regex : RegularExpression UInt8 :=
  RegularExpression.char 109 * RegularExpression.char 47 * (reOpt reDigit) ^ 8 * RegularExpression.char 39 *
    RegularExpression.char 47 * (reOpt reDigit) ^ 8 * RegularExpression.char 39

/-- `VersionBytes.IsValid` (bip32/reg_ver_bytes.go:74-77). -/
def isValid (h : VersionBytes) : Bool := regex.rmatch (pathString h.path)

/-- `PurposeVal` and `CoinVal` (bip32/reg_ver_bytes.go:86-118), which differ in the component index and the
range error. The index expression panics when out of range. -/
def compVal (h : VersionBytes) (idx : Nat) (rangeErr : Err) : Outcome (UInt32 × Option Err) :=
  if !h.isValid then .ok (0, some .unSupportedHDVersionBytes)
  else
    match (splitByte 47 (pathString h.path))[idx]? with
    | none => .panic
    | some s =>
      match atoi (removeByte 39 s) with
      | (_, some e) => .ok (0, some e)
      | (v, none) =>
        if intToUint32 v ≥ firstHardenedChild then .ok (0, some rangeErr)
        else .ok (intToUint32 v, none)

/-- `PurposeVal` (bip32/reg_ver_bytes.go:86-100). -/
def purposeVal (h : VersionBytes) : Outcome (UInt32 × Option Err) := h.compVal 1 .invalidPurpose

/-- `CoinVal` (bip32/reg_ver_bytes.go:104-118). -/
def coinVal (h : VersionBytes) : Outcome (UInt32 × Option Err) := h.compVal 2 .invalidCoin

/-- The common shape of `PurposeValFull` and `CoinValFull` (bip32/reg_ver_bytes.go:120-139). -/
def fullOf (h : VersionBytes) (r : Outcome (UInt32 × Option Err)) : Outcome (UInt32 × Option Err) :=
  if !h.isValid then .ok (0, some .unSupportedHDVersionBytes)
  else match r with
    | .panic => .panic
    | .ok (_, some e) => .ok (0, some e)
    | .ok (v, none) => .ok (v + firstHardenedChild, none)

/-- `PurposeValFull` (bip32/reg_ver_bytes.go:120-129). -/
def purposeValFull (h : VersionBytes) : Outcome (UInt32 × Option Err) := h.fullOf h.purposeVal

/-- `CoinValFull` (bip32/reg_ver_bytes.go:130-139). -/
def coinValFull (h : VersionBytes) : Outcome (UInt32 × Option Err) := h.fullOf h.coinVal

end VersionBytes

end Bips
