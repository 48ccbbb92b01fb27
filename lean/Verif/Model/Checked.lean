import Verif.Model.Util

/-!
# Run-time panics

The other modules give an out-of-range operation some value where they show or assume that it does not occur. Here the packages
bip39, bip32 and util are modelled once more, with every operation of Go that can panic checked: index and slice expressions,
conversions of slices to arrays, nil pointers, `make` with a negative size, division by zero, and the `encoding/binary` functions,
which read behind the end of short buffers.

Simplifications: a slice expression panics beyond the length, while Go allows to reslice up to the capacity (no such expression of
the code does). Libraries (hash functions, `math/big` on arguments that are not nil, base 58, `regexp`, `strings`, `pbkdf2`, secp256k1) do not panic.
Running out of memory and data races are not modelled.
-/

namespace Bips

instance : Monad Outcome where
  pure := .ok
  bind x f := match x with
    | .ok a => f a
    | .panic => .panic

namespace Chk

/-! ### Operations of Go -/

/-- `b[i:j]`. -/
def slice (b : Bytes) (i j : Nat) : Outcome Bytes := if i ≤ j ∧ j ≤ b.length then .ok (Bips.slice b i j) else .panic

/-- `l[i]`. -/
def index {α : Type} (l : List α) (i : Nat) : Outcome α :=
  match l[i]? with
  | some x => .ok x
  | none => .panic

/-- `l[i] = x`. -/
def assign {α : Type} (l : List α) (i : Nat) (x : α) : Outcome (List α) :=
  if i < l.length then .ok (l.set i x) else .panic

/-- `[n]byte(b)`. -/
def toArray (n : Nat) (b : Bytes) : Outcome Bytes := if n ≤ b.length then .ok (b.take n) else .panic

/-- `Key(b)`. -/
def toKey (b : Bytes) : Outcome Key := if h : 78 ≤ b.length then .ok (Key.ofBytes b h) else .panic

/-- `*p`; also what a method with a pointer receiver does with it. -/
def deref {α : Type} : Option α → Outcome α
  | some x => .ok x
  | none => .panic

/-- `make([]T, n)`, filled with zero values. -/
def make {α : Type} (zero : α) (n : Int) : Outcome (List α) := if n < 0 then .panic else .ok (List.replicate n.toNat zero)

/-- `x.Div` and `x.Mod` of `math/big` for numbers that are not negative. -/
def div (a b : Nat) : Outcome Nat := if b = 0 then .panic else .ok (a / b)

@[inherit_doc div]
def mod (a b : Nat) : Outcome Nat := if b = 0 then .panic else .ok (a % b)

/-- `binary.BigEndian.Uint32`. -/
def getUint32 (b : Bytes) : Outcome UInt32 := if 4 ≤ b.length then .ok (Bips.getUint32 (b.take 4)) else .panic

/-- `binary.BigEndian.Uint16`. -/
def getUint16 (b : Bytes) : Outcome Nat := if 2 ≤ b.length then .ok (setBytes (b.take 2)) else .panic

/-- `binary.BigEndian.PutUint16` and `PutUint32` (`n` = 2, 4): `b` afterwards. -/
def putUint (n : Nat) (b : Bytes) (v : Nat) : Outcome Bytes := if n ≤ b.length then .ok (beBytes n v ++ b.drop n) else .panic

/-- `copy(b[i:j], src)`: `b` afterwards. -/
def copyTo (b : Bytes) (i j : Nat) (src : Bytes) : Outcome Bytes := do
  let _ ← slice b i j
  pure (copyAt b i j src)

/-! ### bip32/utils.go -/

section
variable (H : Hashes)

/-- `ChecksumDblSha256` (bip32/utils.go:41-44). -/
def checksumDblSha256 (data : Bytes) : Outcome Bytes := slice (H.sha256 (H.sha256 data)) 0 4

/-- `AddChecksumDblSha256ToBytes` (bip32/utils.go:46-52). -/
def addChecksumDblSha256ToBytes (data : Bytes) : Outcome Bytes := do
  let checksum ← checksumDblSha256 H data
  pure (data ++ checksum)

/-- `ExpandPublicKey` (bip32/utils.go:107-130). -/
def expandPublicKey (key : Bytes) : Outcome (Nat × Nat) := do
  let rest ← slice key 1 key.length
  let X := setBytes rest
  let Y := modSqrt (X ^ 3 + secpB)
  let Ymod2 ← mod Y 2
  let k0 ← index key 0
  let signY : UInt64 := UInt64.ofNat k0.toNat - 2
  if signY ≠ UInt64.ofNat Ymod2 then pure (X, secpP - Y) else pure (X, Y)

/-- `addPublicKeys` (bip32/utils.go:67-71). -/
def addPublicKeys (key1 key2 : Bytes) : Outcome Bytes := do
  let p1 ← expandPublicKey key1
  let p2 ← expandPublicKey key2
  pure (compressPublicKey (curveAdd p1 p2))

/-- `addPrivateKeys` (bip32/utils.go:73-88). -/
def addPrivateKeys (key1 key2 : Bytes) : Outcome Bytes := do
  let n ← mod (setBytes key1 + setBytes key2) secpN
  let b := bigBytes n
  if b.length < 32 then do
    let extra ← make (0 : UInt8) (32 - b.length)
    pure (extra ++ b)
  else pure b

/-- `validateChildPublicKey` (bip32/utils.go:132-140). -/
def validateChildPublicKey (key : Bytes) : Outcome (Option Err) := do
  let q ← expandPublicKey key
  if q.1 = 0 ∨ q.2 = 0 then pure (some .invalidPublicKey) else pure none

/-- `uint32Bytes` (bip32/utils.go:143-147). -/
def uint32Bytes (i : UInt32) : Outcome Bytes := do
  let b ← make (0 : UInt8) 4
  putUint 4 b i.toNat

/-! ### bip32/bip32.go -/

/-- `copy(key[i:j], src)` for an array `key`. -/
def put (key : Key) (i j : Nat) (src : Bytes) : Outcome Key := do
  let b ← copyTo key.bytes i j src
  toKey b

/-- `SetVersion` (bip32/bip32.go:320-322). -/
def setVersion (key : Key) (v : Bytes) : Outcome Key := put key versionStart versionEnd v

/-- `SetVersionUint32` (bip32/bip32.go:315-318). -/
def setVersionUint32 (key : Key) (v : UInt32) : Outcome Key := do
  let vsVal ← uint32Bytes v
  let vs ← toArray 4 vsVal
  setVersion key vs

/-- `GetVersion` (bip32/bip32.go:324-326). -/
def getVersion (key : Key) : Outcome UInt32 := do
  let b ← slice key.bytes versionStart versionEnd
  getUint32 b

/-- `setChainCode` (bip32/bip32.go:333-335). -/
def setChainCode (key : Key) (code : Bytes) : Outcome Key := put key chainCodeStart chainCodeEnd code

/-- A field as an array: `GetChainCode`, `GetFingerPrint`, `GetDepth`, `GetPvtKeyBytes`, `GetKeyBytes`, `GetChildNumber`
(bip32/bip32.go:337-339, 345-347, 353-355, 361-363, 369-371, 377-379) have this form. -/
def getField (key : Key) (i j n : Nat) : Outcome Bytes := do
  let b ← slice key.bytes i j
  toArray n b

/-- `setFingerPrint` (bip32/bip32.go:341-343). -/
def setFingerPrint (key : Key) (f : Bytes) : Outcome Key := put key fingerPrintStart fingerPrintEnd f

/-- `setDepth` (bip32/bip32.go:349-351). -/
def setDepth (key : Key) (d : UInt8) : Outcome Key := do
  let b ← assign key.bytes depthStart d
  toKey b

/-- `setPvtKeyBytes` (bip32/bip32.go:357-359). -/
def setPvtKeyBytes (key : Key) (b : Bytes) : Outcome Key := put key pvtKeyStart pubKeyEnd b

/-- `setPubKeyBytes` (bip32/bip32.go:365-367). -/
def setPubKeyBytes (key : Key) (b : Bytes) : Outcome Key := put key pubKeyStart pubKeyEnd b

/-- `setChildNumber` (bip32/bip32.go:373-375). -/
def setChildNumber (key : Key) (c : Bytes) : Outcome Key := put key childNumberStart childNumberEnd c

/-- `IsPrivate` (bip32/bip32.go:103-105). -/
def isPrivate (key : Key) : Outcome Bool := do
  let b ← index key.bytes pubKeyStart
  pure (b == 0)

/-- `NewMasterKey` (bip32/bip32.go:79-101); `none` is the nil pointer. -/
def newMasterKey (seed : Bytes) : Outcome (Option Key × Option Err) := do
  let intermediary := H.hmacSha512 (str "Bitcoin seed") seed
  let l ← slice intermediary 0 32
  let keyBytes ← toArray 32 l
  let r ← slice intermediary 32 intermediary.length
  let chainCode ← toArray 32 r
  match validatePrivateKey keyBytes with
  | some err => pure (none, some err)
  | none => do
    let key ← setVersion Key.zero defaultMainnetVersion.pvtKeyFlagBytes
    let key ← setChainCode key chainCode
    let key ← setPvtKeyBytes key keyBytes
    pure (some key, none)

/-- `getIntermediary` (bip32/bip32.go:174-196). -/
def getIntermediary (key : Key) (childIdx : UInt32) : Outcome Bytes := do
  let childIndexBytes ← uint32Bytes childIdx
  let data : Bytes := List.replicate 33 0
  let data ←
    if childIdx ≥ firstHardenedChild then do
      let k ← slice key.bytes pvtKeyStart pvtKeyEnd
      copyTo data 1 33 k
    else do
      let priv ← isPrivate key
      if priv then do
        let k ← slice key.bytes pvtKeyStart pvtKeyEnd
        copyTo data 0 33 (publicKeyForPrivateKey k)
      else do
        let k ← slice key.bytes pubKeyStart key.bytes.length
        copyTo data 0 33 k
  let chainCode ← slice key.bytes chainCodeStart chainCodeEnd
  pure (H.hmacSha512 chainCode (data ++ childIndexBytes))

variable (R : Registry)

/-- `NewChildKey` (bip32/bip32.go:108-172). -/
def newChildKey (key : Key) (childIdx : UInt32) : Outcome (Key × Option Err) := do
  let priv ← isPrivate key
  if !priv && decide (childIdx ≥ firstHardenedChild) then pure (Key.zero, some .hardenedChildPublicKey)
  else do
    let intermediary ← getIntermediary H key childIdx
    let v ← slice key.bytes versionStart versionEnd
    let vs ← toArray 4 v
    let vsVal ← getUint32 vs
    if priv then
      if (R.pvtFlag vsVal).length = 0 then pure (Key.zero, some .unSupportedHDVersionBytes)
      else do
        let c ← uint32Bytes childIdx
        let c ← toArray 4 c
        let childKey ← setChildNumber Key.zero c
        let r ← slice intermediary 32 intermediary.length
        let r ← toArray 32 r
        let childKey ← setChainCode childKey r
        let d ← index key.bytes depthStart
        let childKey ← setDepth childKey (d + 1)
        let childKey ← setVersion childKey vs
        let p ← slice key.bytes pvtKeyStart pubKeyEnd
        let fingerprint := hashRipeMD160onSha256 H (publicKeyForPrivateKey p)
        let fingerprint ← toArray 4 fingerprint
        let childKey ← setFingerPrint childKey fingerprint
        let l ← slice intermediary 0 32
        let p ← slice key.bytes pvtKeyStart key.bytes.length
        let kbs ← addPrivateKeys l p
        let kbs ← toArray 32 kbs
        let childKey ← setPvtKeyBytes childKey kbs
        let k ← getField childKey pvtKeyStart pubKeyEnd 32
        pure (childKey, validatePrivateKey k)
    else if (R.pubFlag vsVal).length = 0 then pure (Key.zero, some .unSupportedHDVersionBytes)
    else do
      let hd ← index (R.pubFlag vsVal) 0
      let c ← uint32Bytes childIdx
      let c ← toArray 4 c
      let childKey ← setChildNumber Key.zero c
      let r ← slice intermediary 32 intermediary.length
      let r ← toArray 32 r
      let childKey ← setChainCode childKey r
      let d ← index key.bytes depthStart
      let childKey ← setDepth childKey (d + 1)
      let childKey ← setVersion childKey hd.pubKeyFlagBytes
      let _ ← index (R.pubFlag vsVal) 0
      let l ← slice intermediary 0 32
      let keyBytes := publicKeyForPrivateKey l
      let err ← validateChildPublicKey keyBytes
      match err with
      | some err => pure (childKey, some err)
      | none => do
        let p ← slice key.bytes pubKeyStart key.bytes.length
        let fingerprint := hashRipeMD160onSha256 H p
        let childKey ← put childKey fingerPrintStart fingerPrintEnd fingerprint
        let kbs ← addPublicKeys keyBytes p
        let kbs ← toArray 33 kbs
        let childKey ← setPubKeyBytes childKey kbs
        pure (childKey, none)

/-- `PublicKeyExtended` (bip32/bip32.go:202-225). -/
def publicKeyExtended (key : Key) : Outcome Key := do
  let v ← slice key.bytes versionStart versionEnd
  let vs ← toArray 4 v
  let vsVal ← getUint32 vs
  let priv ← isPrivate key
  if priv then do
    let vs ←
      if (R.pvtFlag vsVal).length = 0 then pure defaultMainnetVersion.pubKeyFlagBytes
      else do
        let hd ← index (R.pvtFlag vsVal) 0
        pure hd.pubKeyFlagBytes
    let p ← slice key.bytes pvtKeyStart key.bytes.length
    let k ← put key pubKeyStart pubKeyEnd (publicKeyForPrivateKey p)
    setVersion k vs
  else setVersion key (if (R.pubFlag vsVal).length = 0 then defaultMainnetVersion.pubKeyFlagBytes else vs)

/-- `PrivateKeyHex` (bip32/bip32.go:228-233). -/
def privateKeyHex (key : Key) : Outcome Bytes := do
  let priv ← isPrivate key
  if priv then do
    let k ← slice key.bytes pvtKeyStart pvtKeyEnd
    pure (hexEncode k)
  else pure []

/-- `PublicKeyHex` (bip32/bip32.go:236-242). -/
def publicKeyHex (key : Key) : Outcome Bytes := do
  let priv ← isPrivate key
  if priv then do
    let pubKey ← publicKeyExtended R key
    let k ← slice pubKey.bytes pubKeyStart pubKeyEnd
    pure (hexEncode k)
  else do
    let k ← slice key.bytes pubKeyStart pubKeyEnd
    pure (hexEncode k)

/-- `Serialize` (bip32/bip32.go:246-263). -/
def serialize (key : Key) : Outcome (Bytes × Option Err) :=
  if key.bytes.all (· == 0) then pure ([], some .emptyKey)
  else do
    let s ← addChecksumDblSha256ToBytes H key.bytes
    pure (s, none)

/-- `B58Serialize` and `String` (bip32/bip32.go:266-278). -/
def b58Serialize (key : Key) : Outcome Bytes := do
  let s ← serialize H key
  match s with
  | (_, some _) => pure []
  | (s, none) => pure (b58Encode s)

/-- The loop of `Deserialize` (bip32/bip32.go:307-311) for the indices `is`. -/
def compareLoop (cs1 cs2 : Bytes) : List Nat → Outcome Bool
  | [] => pure true
  | i :: is => do
    let a ← index cs1 i
    let b ← index cs2 i
    if a ≠ b then pure false else compareLoop cs1 cs2 is

/-- `Deserialize` (bip32/bip32.go:293-313). -/
def deserialize (data : Bytes) : Outcome (Key × Option Err) :=
  if data.length ≠ 82 then do
    let data ←
      if data.length < 82 then do
        let exData ← make (0 : UInt8) (82 - data.length)
        pure (data ++ exData)
      else pure data
    let d ← slice data 0 78
    let k ← toKey d
    pure (k, some .serializedKeyWrongSize)
  else do
    let b ← slice data 0 (data.length - 4)
    let cs1 ← checksumDblSha256 H b
    let cs2 ← slice data (data.length - 4) data.length
    let same ← compareLoop cs1 cs2 (List.range cs1.length)
    let d ← slice data 0 78
    let k ← toKey d
    if same then pure (k, none) else pure (k, some .invalidChecksum)

/-- `B58Deserialize` (bip32/bip32.go:382-385). -/
def b58Deserialize (data : Bytes) : Outcome (Key × Option Err) := deserialize H (b58Decode data)

/-- `IsValid` (bip32/bip32.go:280-290). -/
def isValid (key : Key) : Outcome Bool := do
  let s ← serialize H key
  match s with
  | (_, some _) => pure false
  | (bs, none) => do
    let d ← deserialize H bs
    match d with
    | (_, some _) => pure false
    | (_, none) => pure true

/-! ### bip32/path.go -/

/-- `ValuesAtDepth` (bip32/path.go:45-75). -/
def valuesAtDepth (p : Bytes) : Outcome (List UInt32 × Option Err) :=
  if ¬ pathRegex.rmatch (pathString p) then pure ([], some .unSupportedOrInvalidPath)
  else do
    let pth := splitByte 47 (pathString p)
    let pth ← (if 1 ≤ pth.length then Outcome.ok (pth.drop 1) else .panic)
    pure (valuesLoop pth [0])

/-- `IsValid` (bip32/path.go:33-36). -/
def pathIsValid (p : Bytes) : Outcome Bool := do
  let v ← valuesAtDepth p
  pure (decide (v.2 = none))

/-- `ValueAtDepth` (bip32/path.go:81-90). -/
def valueAtDepth (p : Bytes) (b : UInt8) : Outcome (UInt32 × Option Err) := do
  let v ← valuesAtDepth p
  match v with
  | (_, some e) => pure (0, some e)
  | (vals, none) =>
    if ¬ b < UInt8.ofNat vals.length then pure (0, some .unSupportedOrInvalidPath)
    else do
      let x ← index vals b.toNat
      pure (x, none)

/-- `ReplaceValueAtDepth` (bip32/path.go:91-107). -/
def replaceValueAtDepth (p : Bytes) (b : UInt8) (val : UInt32) : Outcome (Bytes × Option Err) := do
  let v ← valuesAtDepth p
  match v with
  | (_, some e) => pure (p, some e)
  | (vals, none) =>
    if ¬ b < UInt8.ofNat vals.length then pure (p, some .unSupportedOrInvalidPath)
    else do
      let valsArr := splitByte 47 (pathString p)
      let valsArr ← assign valsArr b.toNat
        (if val ≥ firstHardenedChild then decimal (val % firstHardenedChild).toNat ++ [39] else decimal val.toNat)
      pure (joinByte 47 valsArr, none)

/-! ### bip39/bip39.go -/

/-- `padByteSlice` (bip39/bip39.go:310-320). -/
def padByteSlice (s : Bytes) (length : Int) : Outcome Bytes := do
  let offset := length - s.length
  if offset ≤ 0 then pure s
  else do
    let newSlice ← make (0 : UInt8) length
    copyTo newSlice offset.toNat newSlice.length s

/-- `addChecksum` (bip39/bip39.go:267-291); `first` is `hash[0]`. -/
def addChecksum (data : Bytes) : Outcome Bytes := do
  let first ← index (computeChecksum H data) 0
  pure (bigBytes (addChecksumLoop first (data.length / 4) 0 (setBytes data)))

/-- `NewEntropy` (bip39/bip39.go:101-110); `read n` is what `rand.Read` puts into a buffer of `n` bytes. -/
def newEntropy (read : Nat → Bytes) (bitSize : Int) : Outcome (Bytes × Option Err) :=
  match validateEntropyBitSize bitSize with
  | some e => pure ([], some e)
  | none => do
    let entropy ← make (0 : UInt8) (bitSize.tdiv 8)
    pure (read entropy.length, none)

/-- The decoding loop of `EntropyFromMnemonic` (bip39/bip39.go:127-136) with its array `wordBytes` of two bytes. -/
def decodeWords (map : Bytes → Option Nat) : List Bytes → Bytes → Nat → Outcome (Nat ⊕ Err)
  | [], _, b => pure (.inl b)
  | v :: vs, wordBytes, b =>
    match map v with
    | none => pure (.inr (.unknownWord v))
    | some i => do
      let wordBytes ← putUint 2 wordBytes (i % 65536)
      decodeWords map vs wordBytes ((b * 2048) ||| setBytes wordBytes)

/-- `EntropyFromMnemonic` (bip39/bip39.go:115-165). A key missing from a map gives a nil pointer. -/
def entropyFromMnemonic (S : WordState) (mnemonic : Bytes) : Outcome (Bytes × Option Err) :=
  match splitMnemonicWords mnemonic with
  | (_, false) => pure ([], some .invalidMnemonic)
  | (ws, true) => do
    let r ← decodeWords S.map ws [0, 0] 0
    match r with
    | .inr e => pure ([], some e)
    | .inl b => do
      let mask ← deref (checksumMask ws.length)
      let checksum := b &&& mask
      let b ← div b (mask + 1)
      let entropy ← padByteSlice (bigBytes b) (ws.length / 3 * 4)
      let first ← index (computeChecksum H entropy) 0
      let c ← (if ws.length ≠ 24 then do
          let sh ← deref (checksumShift ws.length)
          div first.toNat sh
        else pure first.toNat)
      if checksum ≠ c then pure ([], some .checksumIncorrect) else pure (entropy, none)

/-- The word loop of `NewMnemonic` (bip39/bip39.go:198-209): `i` words left, `words` the slice that is filled from the end. -/
def encodeWords (list : List Bytes) : Nat → Nat → List Bytes → Outcome (List Bytes)
  | 0, _, words => pure words
  | i + 1, n, words => do
    let word := n &&& 2047
    let n ← div n 2048
    let wordBytes ← padByteSlice (bigBytes word) 2
    let j ← getUint16 wordBytes
    let w ← index list j
    let words ← assign words i w
    encodeWords list i n words

/-- `NewMnemonic` (bip39/bip39.go:170-212). -/
def newMnemonic (S : WordState) (entropy : Bytes) : Outcome (Bytes × Option Err) :=
  let entropyBitLength := entropy.length * 8
  let checksumBitLength := entropyBitLength / 32
  let sentenceLength := (entropyBitLength + checksumBitLength) / 11
  match validateEntropyBitSize entropyBitLength with
  | some e => pure ([], some e)
  | none => do
    let entropy ← addChecksum H entropy
    let words ← make ([] : Bytes) sentenceLength
    let words ← encodeWords S.list sentenceLength (setBytes entropy) words
    pure (joinByte 32 words, none)

/-- `MnemonicToByteArray` (bip39/bip39.go:217-238). -/
def mnemonicToByteArray (S : WordState) (mnemonic : Bytes) (raw : List Bool) : Outcome (Bytes × Option Err) := do
  let entropyBitSize := (splitByte 32 mnemonic).length * 11
  let checksumBitSize := entropyBitSize % 32
  let fullByteSize := (entropyBitSize - checksumBitSize) / 8 + 1
  let r ← entropyFromMnemonic H S mnemonic
  match r with
  | (_, some e) => pure ([], some e)
  | (r, none) => do
    let wantRaw ← (if raw.length > 0 then index raw 0 else pure false)
    if wantRaw then pure (r, none)
    else do
      let c ← addChecksum H r
      let p ← padByteSlice c fullByteSize
      pure (p, none)

/-! ### util/util.go, util/key_path.go -/

/-- `GenerateMnemonic` (util/util.go:20-45). -/
def generateMnemonic (S : WordState) (read : Nat → Bytes) (wordsCount : UInt8) : Outcome (Bytes × Option Err) :=
  let go := fun bitSize : Int => do
    let e ← newEntropy read bitSize
    match e with
    | (_, some e) => pure (([] : Bytes), some e)
    | (bs, none) => do
      let m ← newMnemonic H S bs
      match m with
      | (_, some e) => pure ([], some e)
      | (mnemonic, none) => pure (mnemonic, none)
  if wordsCount = 12 then go 128
  else if wordsCount = 15 then go 160
  else if wordsCount = 18 then go 192
  else if wordsCount = 21 then go 224
  else if wordsCount = 24 then go 256
  else pure ([], some .invalidMnemonicWordsCount)

/-- `DeriveSeedFromMnemonic` (util/util.go:47-53). -/
def deriveSeedFromMnemonic (S : WordState) (mnemonic passphrase : Bytes) : Outcome (Bytes × Option Err) := do
  let e ← entropyFromMnemonic H S mnemonic
  match e with
  | (_, some e) => pure ([], some e)
  | (_, none) => pure (hexEncode (newSeed H mnemonic passphrase), none)

/-- `RootKeyFromSeed` (util/util.go:56-75). The result of `NewMasterKey` is dereferenced at line 66. -/
def rootKeyFromSeed (seed : Bytes) : Outcome (Key × Option Err) :=
  match hexDecode seed with
  | none => pure (Key.zero, some .hexDecode)
  | some seedBs =>
    if seedBs.length < 16 then pure (Key.zero, some .invalidBIP39Seed)
    else do
      let r ← newMasterKey H seedBs
      let rootKey ← deref r.1
      let s ← serialize H rootKey
      match s with
      | (_, some e) => pure (rootKey, some e)
      | (ser, none) => do
        let d ← deserialize H ser
        pure (rootKey, d.2)

/-- The loop of `DeriveBIP32Result` (util/util.go:114-124). -/
def deriveLoop : List UInt32 → Bytes → Key → List KeyPath → Outcome (List KeyPath)
  | [], _, _, keyPaths => pure keyPaths
  | val :: vals, derivedPath, currentKey, keyPaths => do
    let derivedPath := appendComponent derivedPath val
    let r ← newChildKey H R currentKey val
    deriveLoop vals derivedPath r.1 (keyPaths ++ [⟨pathFormatted derivedPath, r.1⟩])

/-- The first condition of `DeriveBIP32Result` (util/util.go:93-95). Go evaluates the three parts from left to right and stops at the
first that holds. -/
def rootRefused (rootKey : Key) : Outcome Bool := do
  let valid ← isValid H rootKey
  if !valid then pure true
  else do
    let priv ← isPrivate rootKey
    if !priv then pure true
    else do
      let d ← index rootKey.bytes depthStart
      pure (d != 0)

/-- `DeriveBIP32Result` (util/util.go:91-127) of a generator holding `rootKey`. -/
def deriveBIP32Result (rootKey : Key) (p : Bytes) : Outcome (List KeyPath × Option Err) := do
  let bad ← rootRefused H rootKey
  if bad then pure ([], some .invalidRootKey)
  else do
    let ok ← pathIsValid p
    if !ok then pure ([], some .utilUnSupportedOrInvalidPath)
    else do
      let v ← valuesAtDepth p
      match v with
      | (_, some e) => pure ([], some e)
      | (pathItems, none) => do
        let keyPaths ← make (⟨[], Key.zero⟩ : KeyPath) 1
        let keyPaths ← assign keyPaths 0 ⟨str "m", rootKey⟩
        if pathItems.length > 0 then do
          let items ← (if 1 ≤ pathItems.length then Outcome.ok (pathItems.drop 1) else .panic)
          let keyPaths ← deriveLoop H R items (str "m") rootKey keyPaths
          pure (keyPaths, none)
        else pure (keyPaths, none)

/-- `AddrHex` (util/key_path.go:16-26). -/
def addrHex (b : KeyPath) : Outcome Bytes := do
  let h ← publicKeyHex R b.key
  match hexDecode h with
  | none => pure []
  | some pbs => do
    let q ← expandPublicKey pbs
    let sum := H.keccak256 (bigBytes q.1 ++ bigBytes q.2)
    let t ← slice sum 12 sum.length
    pure (hexEncode t)

/-- `AddrP2SH` (util/key_path.go:28-44). -/
def addrP2SH (b : KeyPath) (verPrefix : UInt8) : Outcome Bytes := do
  let h ← publicKeyHex R b.key
  match hexDecode h with
  | none => pure []
  | some pbs => do
    let verPubKeyHash := [verPrefix] ++ hashRipeMD160onSha256 H pbs
    let chkSum ← checksumDblSha256 H verPubKeyHash
    pure (b58Encode (verPubKeyHash ++ chkSum))

/-- The loop of `GenerateRange` (util/key_path.go:93-103) at index `i`. -/
def rangeLoop (i endIndex : UInt32) (derivedPath : Bytes) (currentKey : Key) (keyPaths : List KeyPath) :
    Outcome (List KeyPath) :=
  if h : i < endIndex then do
    let derivedPath := appendComponent derivedPath i
    let r ← newChildKey H R currentKey i
    rangeLoop (i + 1) endIndex derivedPath r.1 (keyPaths ++ [⟨pathFormatted derivedPath, r.1⟩])
  else pure keyPaths
termination_by endIndex.toNat - i.toNat
decreasing_by
  have h1 : i.toNat < endIndex.toNat := UInt32.lt_iff_toNat_lt.1 h
  have h2 := endIndex.toNat_lt
  rw [UInt32.toNat_add, show (1 : UInt32).toNat = 1 from rfl, Nat.mod_eq_of_lt (by omega)]
  omega

/-- `GenerateRange` (util/key_path.go:76-106): the receiver afterwards, and the error. -/
def generateRange (k : KeyPathRange) : Outcome (KeyPathRange × Option Err) :=
  if k.endIndex - k.startIndex < 1 then pure (k, some .invalidRangeProvided)
  else do
    let valid ← isValid H k.keyPath.key
    if !valid then pure (k, some .invalidRootKey)
    else do
      let ok ← pathIsValid k.keyPath.path
      if !ok then pure (k, some .utilUnSupportedOrInvalidPath)
      else do
        let keyPaths ← make (⟨[], Key.zero⟩ : KeyPath) 0
        let keyPaths ← rangeLoop H R k.startIndex k.endIndex (pathString k.keyPath.path) k.keyPath.key keyPaths
        pure ({ k with keyPaths := keyPaths }, none)

end

end Chk

end Bips
