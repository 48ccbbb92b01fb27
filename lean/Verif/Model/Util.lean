import Verif.Model.Bip39
import Verif.Model.Child
import Verif.Model.Path

/-!
# util/util.go and util/key_path.go

`H` are the hash functions, `S` the state of package bip39, `R` the registry of package bip32, `read n` what
`rand.Read` puts into a buffer of `n` bytes.
-/

namespace Bips

/-- `GenerateMnemonic` (util/util.go:20-45) with the constants `Words12 … Words24` (util/util.go:10-16). -/
def generateMnemonic (H : Hashes) (S : WordState) (read : Nat → Bytes) (wordsCount : UInt8) :
    Outcome (Bytes × Option Err) :=
  let go := fun bitSize : Int =>
    match newEntropy read bitSize with
    | (_, some e) => Outcome.ok (([] : Bytes), some e)
    | (bs, none) =>
      match newMnemonic H S bs with
      | .panic => .panic
      | .ok (_, some e) => .ok ([], some e)
      | .ok (mnemonic, none) => .ok (mnemonic, none)
  if wordsCount = 12 then go 128
  else if wordsCount = 15 then go 160
  else if wordsCount = 18 then go 192
  else if wordsCount = 21 then go 224
  else if wordsCount = 24 then go 256
  else .ok ([], some .invalidMnemonicWordsCount)

/-- `DeriveSeedFromMnemonic` (util/util.go:47-53). -/
def deriveSeedFromMnemonic (H : Hashes) (S : WordState) (mnemonic passphrase : Bytes) : Outcome (Bytes × Option Err) :=
  match entropyFromMnemonic H S mnemonic with
  | .panic => .panic
  | .ok (_, some e) => .ok ([], some e)
  | .ok (_, none) => .ok (hexEncode (newSeed H mnemonic passphrase), none)

/-- `RootKeyFromSeed` (util/util.go:56-75). The pointer returned is never nil, so it is the key. The error of
`NewMasterKey` is overwritten at line 66, where `Serialize` on the nil pointer returned with it panics. -/
def rootKeyFromSeed (H : Hashes) (seed : Bytes) : Outcome (Key × Option Err) :=
  match hexDecode seed with
  | none => .ok (Key.zero, some .hexDecode)
  | some seedBs =>
    if seedBs.length < 16 then .ok (Key.zero, some .invalidBIP39Seed)
    else
      match (newMasterKey H seedBs).1 with
      | none => .panic
      | some rootKey =>
        match rootKey.serialize H with
        | (_, some e) => .ok (rootKey, some e)
        | (ser, none) =>
          match deserialize H ser with
          | (_, some e) => .ok (rootKey, some e)
          | (_, none) => .ok (rootKey, none)

/-- `KeyPath` (util/key_path.go:11-14). -/
structure KeyPath where
  path : Bytes
  key : Key
  deriving DecidableEq

/-- `derivedPath = fmt.Sprintf("%s/%d", …)` and the apostrophe (util/util.go:115-118, util/key_path.go:94-97). -/
def appendComponent (derivedPath : Bytes) (val : UInt32) : Bytes :=
  let d := derivedPath ++ [47] ++ decimal (val % firstHardenedChild).toNat
  if val ≥ firstHardenedChild then d ++ [39] else d

/-- The loop of `DeriveBIP32Result` (util/util.go:114-124); the error of `NewChildKey` is discarded. -/
def deriveLoop (H : Hashes) (R : Registry) : List UInt32 → Bytes → Key → List KeyPath
  | [], _, _ => []
  | val :: vals, derivedPath, currentKey =>
    let derivedPath := appendComponent derivedPath val
    let currentKey := (currentKey.newChildKey H R val).1
    ⟨pathFormatted derivedPath, currentKey⟩ :: deriveLoop H R vals derivedPath currentKey

/-- `Generator.DeriveBIP32Result` (util/util.go:79-127) for a generator holding `rootKey`. A nil slice is `[]`. -/
def deriveBIP32Result (H : Hashes) (R : Registry) (rootKey : Key) (p : Bytes) : List KeyPath × Option Err :=
  if !rootKey.isValid H || !rootKey.isPrivate || rootKey.byteAt depthStart != 0 then ([], some .invalidRootKey)
  else if !pathIsValid p then ([], some .utilUnSupportedOrInvalidPath)
  else
    match valuesAtDepth p with
    | (_, some e) => ([], some e)
    | (pathItems, none) =>
      let head : KeyPath := ⟨str "m", rootKey⟩
      if pathItems.length > 0 then (head :: deriveLoop H R (pathItems.drop 1) (str "m") rootKey, none)
      else ([head], none)

/-- `KeyPath.AddrHex` (util/key_path.go:16-26). -/
def KeyPath.addrHex (H : Hashes) (R : Registry) (b : KeyPath) : Bytes :=
  match hexDecode (b.key.publicKeyHex R) with
  | none => []
  | some pbs =>
    let q := expandPublicKey pbs
    hexEncode ((H.keccak256 (bigBytes q.1 ++ bigBytes q.2)).drop 12)

/-- `KeyPath.AddrP2SH` (util/key_path.go:28-44). -/
def KeyPath.addrP2SH (H : Hashes) (R : Registry) (b : KeyPath) (verPrefix : UInt8) : Bytes :=
  match hexDecode (b.key.publicKeyHex R) with
  | none => []
  | some pbs =>
    let pubKeyHash := hashRipeMD160onSha256 H pbs
    let verPubKeyHash := [verPrefix] ++ pubKeyHash
    let chkSum := checksumDblSha256 H verPubKeyHash
    b58Encode (verPubKeyHash ++ chkSum)

/-- `KeyPathRange` (util/key_path.go:69-74). -/
structure KeyPathRange where
  startIndex : UInt32
  endIndex : UInt32
  keyPath : KeyPath
  keyPaths : List KeyPath
  deriving DecidableEq

/-- The loop of `GenerateRange` (util/key_path.go:93-103) at index `i`. -/
def rangeLoop (H : Hashes) (R : Registry) (i endIndex : UInt32) (derivedPath : Bytes) (currentKey : Key) :
    List KeyPath :=
  if h : i < endIndex then
    let derivedPath := appendComponent derivedPath i
    let currentKey := (currentKey.newChildKey H R i).1
    ⟨pathFormatted derivedPath, currentKey⟩ :: rangeLoop H R (i + 1) endIndex derivedPath currentKey
  else []
termination_by endIndex.toNat - i.toNat
decreasing_by
  have h1 : i.toNat < endIndex.toNat := UInt32.lt_iff_toNat_lt.1 h
  have h2 := endIndex.toNat_lt
  rw [UInt32.toNat_add, show (1 : UInt32).toNat = 1 from rfl, Nat.mod_eq_of_lt (by omega)]
  omega

/-- `KeyPathRange.GenerateRange` (util/key_path.go:76-106): the receiver afterwards, and the error. The subtraction is
on `uint32` and wraps. -/
def KeyPathRange.generateRange (H : Hashes) (R : Registry) (k : KeyPathRange) : KeyPathRange × Option Err :=
  if k.endIndex - k.startIndex < 1 then (k, some .invalidRangeProvided)
  else if !k.keyPath.key.isValid H then (k, some .invalidRootKey)
  else if !pathIsValid k.keyPath.path then (k, some .utilUnSupportedOrInvalidPath)
  else
    ({ k with keyPaths := rangeLoop H R k.startIndex k.endIndex (pathString k.keyPath.path) k.keyPath.key }, none)

end Bips
