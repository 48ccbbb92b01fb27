import Verif.Data.Versions

/-!
# bip32/reg_ver_bytes.go: the registry built by `init`

Go maps of slices are functions to lists, `[]` standing for an absent key (the code never distinguishes an
absent key from an empty slice: bip32/bip32.go:122,127,209,219).
-/

namespace Bips

/-- The package variables filled by `init` (bip32/reg_ver_bytes.go:14-30). -/
structure Registry where
  hdVersionBytesSlice : List VersionBytes := []
  pvtFlag : UInt32 → List VersionBytes := fun _ => []
  pubFlag : UInt32 → List VersionBytes := fun _ => []
  purpose : UInt32 → List VersionBytes := fun _ => []
  purposeFull : UInt32 → List VersionBytes := fun _ => []
  coinType : UInt32 → List VersionBytes := fun _ => []

/-- `m[k] = append(m[k], v)`. -/
def mapAppend (m : UInt32 → List VersionBytes) (k : UInt32) (v : VersionBytes) : UInt32 → List VersionBytes :=
  fun k' => if k' = k then m k' ++ [v] else m k'

/-- The value of `v, _ := f()`, ignoring the error; a panic would abort `init` (it never occurs, see C54). -/
def ignoreErr : Outcome (UInt32 × Option Err) → UInt32
  | .ok (v, _) => v
  | .panic => 0

/-- Body of the inner loop of `init` (bip32/reg_ver_bytes.go:429-440). -/
def Registry.add (r : Registry) (h : VersionBytes) : Registry :=
  { r with
    pvtFlag := mapAppend r.pvtFlag h.pvtKeyFlag h
    pubFlag := mapAppend r.pubFlag h.pubKeyFlag h
    purpose := mapAppend r.purpose (ignoreErr h.purposeVal) h
    purposeFull := mapAppend r.purposeFull (ignoreErr h.purposeValFull) h
    coinType := mapAppend r.coinType (ignoreErr h.coinVal) h }

/-- Body of the outer loop of `init` (bip32/reg_ver_bytes.go:427-441). -/
def Registry.addEntry (r : Registry) (e : Bytes × List VersionBytes) : Registry :=
  e.2.foldl Registry.add { r with hdVersionBytesSlice := r.hdVersionBytesSlice ++ e.2 }

/-- `init` (bip32/reg_ver_bytes.go:426-442), ranging over the map in the given order. Go's map order is
unspecified, so theorems quantify over all permutations of `pathTable`. -/
def Registry.init (order : List (Bytes × List VersionBytes)) : Registry :=
  order.foldl Registry.addEntry {}

/-- `IsRegistered` (bip32/reg_ver_bytes.go:79-82). -/
def VersionBytes.isRegistered (h : VersionBytes) : Bool := (pathTable.map (·.1)).contains (pathString h.path)

/-- `DefaultMainnetVersion`, `DefaultTestnetVersion` (bip32/bip32.go:52-53). They are exported variables; the
model takes their initial value, except in `Model/Defaults`. -/
def defaultMainnetVersion : VersionBytes := bitcoinxprvxpub
def defaultTestnetVersion : VersionBytes := bitcointprvtpub

end Bips
