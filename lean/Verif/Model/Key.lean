import Verif.Model.Bip32Utils
import Verif.Go.Base58

/-!
# bip32/bip32.go: the `Key` array, its fields and its serialization
-/

namespace Bips

/-- `VersionStartIndex … PvtKeyEndIndex` (bip32/bip32.go:28-43). The field types `Version … PvtKeyBytes`
(bip32/bip32.go:13, 14, 15, 16, 17, 20, 22) are byte strings of the lengths below. -/
abbrev versionStart : Nat := 0
abbrev versionEnd : Nat := versionStart + 4
abbrev depthStart : Nat := versionEnd
abbrev depthEnd : Nat := depthStart + 1
abbrev fingerPrintStart : Nat := depthEnd
abbrev fingerPrintEnd : Nat := fingerPrintStart + 4
abbrev childNumberStart : Nat := fingerPrintEnd
abbrev childNumberEnd : Nat := childNumberStart + 4
abbrev chainCodeStart : Nat := childNumberEnd
abbrev chainCodeEnd : Nat := chainCodeStart + 32
abbrev pubKeyStart : Nat := chainCodeEnd
abbrev pvtKeyStart : Nat := pubKeyStart + 1
abbrev pubKeyEnd : Nat := pubKeyStart + 33
abbrev pvtKeyEnd : Nat := pubKeyEnd

/-- `FirstHardenedChild` (bip32/bip32.go:47). -/
def firstHardenedChild : UInt32 := 0x80000000

/-- `type Key [78]byte` (bip32/bip32.go:26). -/
structure Key where
  bytes : Bytes
  len : bytes.length = 78
  deriving DecidableEq

namespace Key

@[ext] theorem ext' {a b : Key} (h : a.bytes = b.bytes) : a = b := by
  cases a; cases b; simp_all

/-- `Key{}`: the zero array. -/
def zero : Key := ⟨List.replicate 78 0, by simp⟩

/-- `copy(key[i:j], src)`. -/
def put (k : Key) (i j : Nat) (src : Bytes) (h : i ≤ j := by decide) (hj : j ≤ 78 := by decide) : Key :=
  ⟨copyAt k.bytes i j src, by rw [copyAt_length _ _ _ _ h (by rw [k.len]; exact hj), k.len]⟩

/-- `Key(data[:78])` for a slice of at least 78 bytes (bip32/bip32.go:299,304,309,312). -/
def ofBytes (data : Bytes) (h : 78 ≤ data.length) : Key := ⟨data.take 78, by simp; omega⟩

/-- `SetVersion` (bip32/bip32.go:320-322). -/
def setVersion (k : Key) (v : Bytes) : Key := k.put versionStart versionEnd v

/-- `SetVersionUint32` (bip32/bip32.go:315-318). -/
def setVersionUint32 (k : Key) (v : UInt32) : Key := k.setVersion (uint32Bytes v)

/-- `GetVersion` (bip32/bip32.go:324-326). -/
def getVersion (k : Key) : UInt32 := getUint32 (slice k.bytes versionStart versionEnd)

/-- `setChainCode` (bip32/bip32.go:333-335). -/
def setChainCode (k : Key) (c : Bytes) : Key := k.put chainCodeStart chainCodeEnd c

/-- `GetChainCode` (bip32/bip32.go:337-339). -/
def getChainCode (k : Key) : Bytes := slice k.bytes chainCodeStart chainCodeEnd

/-- `setFingerPrint` (bip32/bip32.go:341-343). -/
def setFingerPrint (k : Key) (f : Bytes) : Key := k.put fingerPrintStart fingerPrintEnd f

/-- `GetFingerPrint` (bip32/bip32.go:345-347). -/
def getFingerPrint (k : Key) : Bytes := slice k.bytes fingerPrintStart fingerPrintEnd

/-- `setDepth` (bip32/bip32.go:349-351). -/
def setDepth (k : Key) (d : UInt8) : Key := k.put depthStart depthEnd [d]

/-- `key[i]`, for an index inside the array. -/
def byteAt (k : Key) (i : Nat) (h : i < 78 := by decide) : UInt8 := k.bytes[i]'(by rw [k.len]; exact h)

/-- `GetDepth` (bip32/bip32.go:353-355), as a one-element array. -/
def getDepth (k : Key) : Bytes := slice k.bytes depthStart depthEnd

/-- `setPvtKeyBytes` (bip32/bip32.go:357-359). -/
def setPvtKeyBytes (k : Key) (b : Bytes) : Key := k.put pvtKeyStart pubKeyEnd b

/-- `GetPvtKeyBytes` (bip32/bip32.go:361-363). -/
def getPvtKeyBytes (k : Key) : Bytes := slice k.bytes pvtKeyStart pubKeyEnd

/-- `setPubKeyBytes` (bip32/bip32.go:365-367). -/
def setPubKeyBytes (k : Key) (b : Bytes) : Key := k.put pubKeyStart pubKeyEnd b

/-- `GetKeyBytes` (bip32/bip32.go:369-371). -/
def getKeyBytes (k : Key) : Bytes := slice k.bytes pubKeyStart pubKeyEnd

/-- `setChildNumber` (bip32/bip32.go:373-375). -/
def setChildNumber (k : Key) (c : Bytes) : Key := k.put childNumberStart childNumberEnd c

/-- `GetChildNumber` (bip32/bip32.go:377-379). -/
def getChildNumber (k : Key) : Bytes := slice k.bytes childNumberStart childNumberEnd

/-- `IsPrivate` (bip32/bip32.go:103-105). -/
def isPrivate (k : Key) : Bool := k.byteAt pubKeyStart == 0

/-- `Serialize` (bip32/bip32.go:246-263). -/
def serialize (H : Hashes) (k : Key) : Bytes × Option Err :=
  if k.bytes.all (· == 0) then ([], some .emptyKey)
  else (addChecksumDblSha256ToBytes H k.bytes, none)

/-- `B58Serialize` (bip32/bip32.go:266-272). -/
def b58Serialize (H : Hashes) (k : Key) : Bytes :=
  match k.serialize H with
  | (_, some _) => []
  | (s, none) => b58Encode s

/-- `String` (bip32/bip32.go:276-278). -/
def string (H : Hashes) (k : Key) : Bytes := k.b58Serialize H

end Key

/-- The comparison loop `for i := range cs1 { if cs1[i] != cs2[i] … }` (bip32/bip32.go:307-311):
true when no difference is found. -/
def checksumMatches (cs1 cs2 : Bytes) : Bool :=
  (List.range cs1.length).all fun i => cs1[i]? == cs2[i]?

/-- `Deserialize` (bip32/bip32.go:293-313). -/
def deserialize (H : Hashes) (data : Bytes) : Key × Option Err :=
  if h82 : data.length ≠ 82 then
    if hlt : data.length < 82 then
      (Key.ofBytes (data ++ List.replicate (82 - data.length) 0) (by simp; omega),
        some .serializedKeyWrongSize)
    else (Key.ofBytes data (by omega), some .serializedKeyWrongSize)
  else
    let cs1 := checksumDblSha256 H (slice data 0 (data.length - 4))
    let cs2 := slice data (data.length - 4) data.length
    if checksumMatches cs1 cs2 then (Key.ofBytes data (by omega), none)
    else (Key.ofBytes data (by omega), some .invalidChecksum)

/-- `B58Deserialize` (bip32/bip32.go:382-385). -/
def b58Deserialize (H : Hashes) (data : Bytes) : Key × Option Err := deserialize H (b58Decode data)

/-- `IsValid` (bip32/bip32.go:280-290). -/
def Key.isValid (H : Hashes) (k : Key) : Bool :=
  match k.serialize H with
  | (_, some _) => false
  | (bs, none) =>
    match deserialize H bs with
    | (_, some _) => false
    | (_, none) => true

end Bips
