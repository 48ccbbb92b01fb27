import Verif.Model.Util

/-!
# The shared big integers, and calls running side by side

The other models treat a `*big.Int` as its value. In the code it is a cell that methods overwrite: `z.Mul(x, y)` writes `z`
and reads `x` and `y`, which may be the same cell. Some cells belong to the package and are shared by all calls
(bip39/bip39.go:22-45, bip32/utils.go:16-19). Here the functions that work with `*big.Int` are written out as programs over
cells, statement by statement, and any number of goroutines runs such programs in turns, one access at a time.

Cells a call creates belong to its goroutine: no function stores an address in a package variable. All numbers that occur are
natural numbers. Texts, byte slices and keys are values here (for the memory of byte slices see `Model/Memory`), the word list
stays the same (for `SetWordList` at the same time see `Model/WordRace` and `Model/WordSetters`).
-/

namespace Bips.Nums

/-- The numbers of the packages: bip39/bip39.go:24-27, the entries of the two maps bip39/bip39.go:31-35 and 41-44 (by the
number of words), and the parameters of the curve (bip32/utils.go:16-19). -/
inductive Pkg where
  | last11BitsMask
  | shift11BitsMask
  | bigOne
  | bigTwo
  | mask (words : Nat)
  | shift (words : Nat)
  | curveB
  | curveP
  | curveN
  deriving DecidableEq

/-- What these numbers are after the initialisation of the packages (bip39/bip39.go:24-45; the curve is secp256k1). -/
def Pkg.init : Pkg → Nat
  | .last11BitsMask => 2047
  | .shift11BitsMask => 2048
  | .bigOne => 1
  | .bigTwo => 2
  | .mask w => (checksumMask w).getD 0
  | .shift w => (checksumShift w).getD 0
  | .curveB => secpB
  | .curveP => secpP
  | .curveN => secpN

/-- The address of a number: one of the package, or the `i`-th that this goroutine made. -/
inductive Addr where
  | pkg (p : Pkg)
  | own (i : Nat)

/-- A program of one goroutine: it makes a number, reads one, or overwrites one, and goes on. -/
inductive Prog (α : Type) where
  | done (a : α)
  | panic
  | new (v : Nat) (k : Addr → Prog α)
  | get (a : Addr) (k : Nat → Prog α)
  | set (a : Addr) (v : Nat) (k : Prog α)

/-- One program after the other. -/
def Prog.bind {α β : Type} : Prog α → (α → Prog β) → Prog β
  | .done a, f => f a
  | .panic, _ => .panic
  | .new v k, f => .new v fun a => (k a).bind f
  | .get a k, f => .get a fun v => (k v).bind f
  | .set a v k, f => .set a v (k.bind f)

instance : Monad Prog where
  pure := .done
  bind := Prog.bind

/-- `big.NewInt(v)`, and `new(big.Int)` or `var x big.Int` for 0. -/
def newInt (v : Nat) : Prog Addr := .new v .done

/-- Reading a number: `Bytes`, `Uint64`, `Sign`, `Bit`, and the operands of methods. -/
def load (a : Addr) : Prog Nat := .get a .done

/-- Overwriting a number: the receivers of methods. -/
def store (a : Addr) (v : Nat) : Prog Unit := .set a v (.done ())

/-- `z.Op(x, y)` for an operation `f` on numbers. -/
def op (f : Nat → Nat → Nat) (z x y : Addr) : Prog Unit := do
  let a ← load x
  let b ← load y
  store z (f a b)

/-! ### bip39 -/

/-- The loop of `addChecksum` (bip39/bip39.go:280-288). -/
def addChecksumLoop (first : UInt8) (dataBigInt : Addr) : Nat → Nat → Prog Unit
  | 0, _ => pure ()
  | k + 1, i => do
    op (· * ·) dataBigInt dataBigInt (.pkg .bigTwo)
    if first.toNat &&& (if i ≤ 7 then 2 ^ (7 - i) else 0) > 0 then
      op (· ||| ·) dataBigInt dataBigInt (.pkg .bigOne)
    addChecksumLoop first dataBigInt k (i + 1)

/-- `addChecksum` (bip39/bip39.go:267-291). -/
def addChecksum (H : Hashes) (data : Bytes) : Prog Bytes := do
  let firstChecksumByte := (computeChecksum H data).headD 0
  let dataBigInt ← newInt 0
  store dataBigInt (setBytes data)
  addChecksumLoop firstChecksumByte dataBigInt (data.length / 4) 0
  return bigBytes (← load dataBigInt)

/-- The loop of `EntropyFromMnemonic` (bip39/bip39.go:127-136). -/
def decodeWords (map : Bytes → Option Nat) (b : Addr) : List Bytes → Prog (Option Err)
  | [] => pure none
  | v :: vs =>
    match map v with
    | none => pure (some (.unknownWord v))
    | some index => do
      let wordBytes := beBytes 2 (index % 65536)
      op (· * ·) b b (.pkg .shift11BitsMask)
      let t ← newInt 0
      store t (setBytes wordBytes)
      op (· ||| ·) b b t
      decodeWords map b vs

/-- `EntropyFromMnemonic` (bip39/bip39.go:115-165). -/
def entropyFromMnemonic (H : Hashes) (S : WordState) (mnemonic : Bytes) : Prog (Bytes × Option Err) :=
  match splitMnemonicWords mnemonic with
  | (_, false) => pure ([], some .invalidMnemonic)
  | (ws, true) => do
    let b ← newInt 0
    match ← decodeWords S.map b ws with
    | some e => pure ([], some e)
    | none => do
      let checksum ← newInt 0
      match Bips.checksumMask ws.length with
      | none => .panic
      | some _ => do
        let checksumMask := Addr.pkg (.mask ws.length)
        op (· &&& ·) checksum b checksumMask
        let t ← newInt 0
        op (· + ·) t checksumMask (.pkg .bigOne)
        op (· / ·) b b t
        let entropy := padByteSlice (bigBytes (← load b)) (ws.length / 3 * 4)
        let entropyChecksum ← newInt ((computeChecksum H entropy).headD 0).toNat
        if ws.length ≠ 24 then
          match Bips.checksumShift ws.length with
          | none => .panic
          | some _ => op (· / ·) entropyChecksum entropyChecksum (.pkg (.shift ws.length))
        if (← load checksum) ≠ (← load entropyChecksum) then pure ([], some .checksumIncorrect)
        else pure (entropy, none)

/-- The loop of `NewMnemonic` (bip39/bip39.go:198-209). -/
def encodeWords (list : List Bytes) (entropyInt word : Addr) : Nat → List Bytes → Prog (List Bytes)
  | 0, acc => pure acc
  | k + 1, acc => do
    op (· &&& ·) word entropyInt (.pkg .last11BitsMask)
    op (· / ·) entropyInt entropyInt (.pkg .shift11BitsMask)
    let wordBytes := padByteSlice (bigBytes (← load word)) 2
    match list[setBytes wordBytes]? with
    | none => .panic
    | some w => encodeWords list entropyInt word k (w :: acc)

/-- `NewMnemonic` (bip39/bip39.go:170-212). -/
def newMnemonic (H : Hashes) (S : WordState) (entropy : Bytes) : Prog (Bytes × Option Err) :=
  let entropyBitLength := entropy.length * 8
  let checksumBitLength := entropyBitLength / 32
  let sentenceLength := (entropyBitLength + checksumBitLength) / 11
  match validateEntropyBitSize entropyBitLength with
  | some e => pure ([], some e)
  | none => do
    let entropy ← addChecksum H entropy
    let entropyInt ← newInt 0
    store entropyInt (setBytes entropy)
    let word ← newInt 0
    let words ← encodeWords S.list entropyInt word sentenceLength []
    return (joinByte 32 words, none)

/-- `MnemonicToByteArray` (bip39/bip39.go:217-238). -/
def mnemonicToByteArray (H : Hashes) (S : WordState) (mnemonic : Bytes) (raw : List Bool) :
    Prog (Bytes × Option Err) := do
  let entropyBitSize := (splitByte 32 mnemonic).length * 11
  let checksumBitSize := entropyBitSize % 32
  let fullByteSize := (entropyBitSize - checksumBitSize) / 8 + 1
  match ← entropyFromMnemonic H S mnemonic with
  | (_, some e) => pure ([], some e)
  | (r, none) =>
    if raw.head? = some true then pure (r, none)
    else do
      let b ← addChecksum H r
      return (padByteSlice b fullByteSize, none)

/-- `NewSeedWithErrorChecking` (bip39/bip39.go:242-249). -/
def newSeedWithErrorChecking (H : Hashes) (S : WordState) (mnemonic password : Bytes) : Prog (Bytes × Option Err) := do
  match ← mnemonicToByteArray H S mnemonic [] with
  | (_, some e) => pure ([], some e)
  | (_, none) => pure (newSeed H mnemonic password, none)

/-- `IsMnemonicValid` (bip39/bip39.go:260-263). -/
def isMnemonicValid (H : Hashes) (S : WordState) (mnemonic : Bytes) : Prog Bool := do
  let (_, e) ← entropyFromMnemonic H S mnemonic
  return e.isNone

/-! ### bip32 -/

/-- `ValidatePrivateKey` (bip32/utils.go:54-60). -/
def validatePrivateKey (key : Bytes) : Prog (Option Err) := do
  if hexEncode key = List.replicate 64 48 then pure (some .invalidPrivateKey)
  else if bytesCompare key (bigBytes (← load (.pkg .curveN))) ≠ .lt then pure (some .invalidPrivateKey)
  else pure none

/-- `compressPublicKey` (bip32/utils.go:90-104). -/
def compressPublicKey (x y : Addr) : Prog Bytes := do
  return Bips.compressPublicKey (← load x, ← load y)

/-- `curve.ScalarBaseMult` is a library function: it makes two numbers. It is part of `publicKeyForPrivateKey`
(bip32/utils.go:63-65). -/
def publicKeyForPrivateKey (key : Bytes) : Prog Bytes := do
  let x ← newInt (scalarBaseMult key).1
  let y ← newInt (scalarBaseMult key).2
  compressPublicKey x y

/-- `Y.ModSqrt(a, p)` (called at bip32/utils.go:119) for a prime `p` of the form `4n+3`: a number that is not a square leaves
`Y` alone. -/
def modSqrt (Y a p : Addr) : Prog Unit := do
  let p ← load p
  let a := (← load a) % p
  if a = 0 then store Y 0
  else if powMod p a ((p - 1) / 2) = 1 then store Y (powMod p a ((p + 1) / 4))

/-- `ExpandPublicKey` (bip32/utils.go:107-130); an empty slice panics. The results are addresses. -/
def expandPublicKey : Bytes → Prog (Addr × Addr)
  | [] => .panic
  | k0 :: rest => do
    let Y ← newInt 0
    let X ← newInt 0
    store X (setBytes rest)
    let ySquared ← newInt 0
    let three ← newInt 3
    op (· ^ ·) ySquared X three
    op (· + ·) ySquared ySquared (.pkg .curveB)
    modSqrt Y ySquared (.pkg .curveP)
    let Ymod2 ← newInt 0
    let two ← newInt 2
    op (· % ·) Ymod2 Y two
    let signY : UInt64 := UInt64.ofNat k0.toNat - 2
    if signY ≠ UInt64.ofNat (← load Ymod2) then op (· - ·) Y (.pkg .curveP) Y
    return (X, Y)

/-- `addPublicKeys` (bip32/utils.go:67-71). The library's `curve.Add` reads four numbers; that it may return two of them
instead of new ones makes no difference, as the results are only read. -/
def addPublicKeys (key1 key2 : Bytes) : Prog Bytes := do
  let (x1, y1) ← expandPublicKey key1
  let (x2, y2) ← expandPublicKey key2
  let r := curveAdd (← load x1, ← load y1) (← load x2, ← load y2)
  let x ← newInt r.1
  let y ← newInt r.2
  compressPublicKey x y

/-- `addPrivateKeys` (bip32/utils.go:73-88). -/
def addPrivateKeys (key1 key2 : Bytes) : Prog Bytes := do
  let key1Int ← newInt 0
  let key2Int ← newInt 0
  store key1Int (setBytes key1)
  store key2Int (setBytes key2)
  op (· + ·) key1Int key1Int key2Int
  op (· % ·) key1Int key1Int (.pkg .curveN)
  let b := bigBytes (← load key1Int)
  return if b.length < 32 then List.replicate (32 - b.length) 0 ++ b else b

/-- `validateChildPublicKey` (bip32/utils.go:132-140). -/
def validateChildPublicKey (key : Bytes) : Prog (Option Err) := do
  let (x, y) ← expandPublicKey key
  if (← load x) = 0 then pure (some .invalidPublicKey)
  else if (← load y) = 0 then pure (some .invalidPublicKey)
  else pure none

/-- `NewMasterKey` (bip32/bip32.go:79-101). -/
def newMasterKey (H : Hashes) (seed : Bytes) : Prog (Option Key × Option Err) := do
  let intermediary := H.hmacSha512 (str "Bitcoin seed") seed
  let keyBytes := slice intermediary 0 32
  let chainCode := slice intermediary 32 intermediary.length
  match ← validatePrivateKey keyBytes with
  | some err => pure (none, some err)
  | none =>
    pure (some (((Key.zero.setVersion defaultMainnetVersion.pvtKeyFlagBytes).setChainCode chainCode).setPvtKeyBytes
      keyBytes), none)

/-- `getIntermediary` (bip32/bip32.go:174-196). -/
def getIntermediary (H : Hashes) (key : Key) (childIdx : UInt32) : Prog Bytes := do
  let zero33 : Bytes := List.replicate 33 0
  let data ←
    if childIdx ≥ firstHardenedChild then pure (copyAt zero33 1 33 (slice key.bytes pvtKeyStart pvtKeyEnd))
    else if key.isPrivate then do
      pure (copyAt zero33 0 33 (← publicKeyForPrivateKey (slice key.bytes pvtKeyStart pvtKeyEnd)))
    else pure (copyAt zero33 0 33 (slice key.bytes pubKeyStart 78))
  return H.hmacSha512 (slice key.bytes chainCodeStart chainCodeEnd) (data ++ uint32Bytes childIdx)

/-- `NewChildKey` (bip32/bip32.go:108-172). -/
def newChildKey (H : Hashes) (R : Registry) (key : Key) (childIdx : UInt32) : Prog (Key × Option Err) :=
  if !key.isPrivate && decide (childIdx ≥ firstHardenedChild) then pure (Key.zero, some .hardenedChildPublicKey)
  else do
    let intermediary ← getIntermediary H key childIdx
    let vs := slice key.bytes versionStart versionEnd
    let vsVal := getUint32 vs
    if key.isPrivate then
      if (R.pvtFlag vsVal).length = 0 then pure (Key.zero, some .unSupportedHDVersionBytes)
      else do
        let childKey := (((Key.zero.setChildNumber (uint32Bytes childIdx)).setChainCode (slice intermediary 32 64)).setDepth
          (key.byteAt depthStart + 1)).setVersion vs
        let pub ← publicKeyForPrivateKey (slice key.bytes pvtKeyStart pubKeyEnd)
        let fingerprint := hashRipeMD160onSha256 H pub
        let childKey := childKey.setFingerPrint (slice fingerprint 0 4)
        let kbs ← addPrivateKeys (slice intermediary 0 32) (slice key.bytes pvtKeyStart 78)
        let childKey := childKey.setPvtKeyBytes (slice kbs 0 32)
        return (childKey, ← validatePrivateKey childKey.getPvtKeyBytes)
    else
      match R.pubFlag vsVal with
      | [] => pure (Key.zero, some .unSupportedHDVersionBytes)
      | hd :: _ => do
        let vs := hd.pubKeyFlagBytes
        let childKey := (((Key.zero.setChildNumber (uint32Bytes childIdx)).setChainCode (slice intermediary 32 64)).setDepth
          (key.byteAt depthStart + 1)).setVersion vs
        let keyBytes ← publicKeyForPrivateKey (slice intermediary 0 32)
        match ← validateChildPublicKey keyBytes with
        | some err => pure (childKey, some err)
        | none => do
          let fingerprint := hashRipeMD160onSha256 H (slice key.bytes pubKeyStart 78)
          let childKey := childKey.put fingerPrintStart fingerPrintEnd (fingerprint.take 4)
          let kbs ← addPublicKeys keyBytes (slice key.bytes pubKeyStart 78)
          return (childKey.setPubKeyBytes (slice kbs 0 33), none)

/-- `PublicKeyExtended` (bip32/bip32.go:202-225). -/
def publicKeyExtended (R : Registry) (key : Key) : Prog Key := do
  let vs := slice key.bytes versionStart versionEnd
  let vsVal := getUint32 vs
  if key.isPrivate then do
    let vs := match R.pvtFlag vsVal with
      | [] => defaultMainnetVersion.pubKeyFlagBytes
      | hd :: _ => hd.pubKeyFlagBytes
    let pub ← publicKeyForPrivateKey (slice key.bytes pvtKeyStart 78)
    return (key.put pubKeyStart pubKeyEnd pub).setVersion vs
  else
    let vs := match R.pubFlag vsVal with
      | [] => defaultMainnetVersion.pubKeyFlagBytes
      | _ :: _ => vs
    pure (key.setVersion vs)

/-- `PublicKeyHex` (bip32/bip32.go:236-242). -/
def publicKeyHex (R : Registry) (key : Key) : Prog Bytes :=
  if key.isPrivate then do
    let pubKey ← publicKeyExtended R key
    return hexEncode (slice pubKey.bytes pubKeyStart pubKeyEnd)
  else pure (hexEncode (slice key.bytes pubKeyStart pubKeyEnd))

/-! ### util -/

/-- `GenerateMnemonic` (util/util.go:20-45). -/
def generateMnemonic (H : Hashes) (S : WordState) (read : Nat → Bytes) (wordsCount : UInt8) : Prog (Bytes × Option Err) :=
  let go := fun bitSize : Int =>
    match newEntropy read bitSize with
    | (_, some e) => pure (([] : Bytes), some e)
    | (bs, none) => do
      match ← newMnemonic H S bs with
      | (_, some e) => pure ([], some e)
      | (mnemonic, none) => pure (mnemonic, none)
  if wordsCount = 12 then go 128
  else if wordsCount = 15 then go 160
  else if wordsCount = 18 then go 192
  else if wordsCount = 21 then go 224
  else if wordsCount = 24 then go 256
  else pure ([], some .invalidMnemonicWordsCount)

/-- `DeriveSeedFromMnemonic` (util/util.go:47-53). -/
def deriveSeedFromMnemonic (H : Hashes) (S : WordState) (mnemonic passphrase : Bytes) : Prog (Bytes × Option Err) := do
  match ← entropyFromMnemonic H S mnemonic with
  | (_, some e) => pure ([], some e)
  | (_, none) => pure (hexEncode (newSeed H mnemonic passphrase), none)

/-- `RootKeyFromSeed` (util/util.go:56-75). -/
def rootKeyFromSeed (H : Hashes) (seed : Bytes) : Prog (Key × Option Err) :=
  match hexDecode seed with
  | none => pure (Key.zero, some .hexDecode)
  | some seedBs =>
    if seedBs.length < 16 then pure (Key.zero, some .invalidBIP39Seed)
    else do
      match ← newMasterKey H seedBs with
      | (none, _) => .panic
      | (some rootKey, _) =>
        match rootKey.serialize H with
        | (_, some e) => pure (rootKey, some e)
        | (ser, none) =>
          match deserialize H ser with
          | (_, some e) => pure (rootKey, some e)
          | (_, none) => pure (rootKey, none)

/-- The loop of `DeriveBIP32Result` (util/util.go:114-124). -/
def deriveLoop (H : Hashes) (R : Registry) : List UInt32 → Bytes → Key → List KeyPath → Prog (List KeyPath)
  | [], _, _, keyPaths => pure keyPaths
  | val :: vals, derivedPath, currentKey, keyPaths => do
    let derivedPath := appendComponent derivedPath val
    let r ← newChildKey H R currentKey val
    deriveLoop H R vals derivedPath r.1 (keyPaths ++ [⟨pathFormatted derivedPath, r.1⟩])

/-- `Generator.DeriveBIP32Result` (util/util.go:79-127) for a generator holding `rootKey`. -/
def deriveBIP32Result (H : Hashes) (R : Registry) (rootKey : Key) (p : Bytes) : Prog (List KeyPath × Option Err) :=
  if !rootKey.isValid H || !rootKey.isPrivate || rootKey.byteAt depthStart != 0 then pure ([], some .invalidRootKey)
  else if !pathIsValid p then pure ([], some .utilUnSupportedOrInvalidPath)
  else
    match valuesAtDepth p with
    | (_, some e) => pure ([], some e)
    | (pathItems, none) =>
      let head : KeyPath := ⟨str "m", rootKey⟩
      if pathItems.length > 0 then do
        return (← deriveLoop H R (pathItems.drop 1) (str "m") rootKey [head], none)
      else pure ([head], none)

/-- `KeyPath.AddrHex` (util/key_path.go:16-26). -/
def addrHex (H : Hashes) (R : Registry) (b : KeyPath) : Prog Bytes := do
  match hexDecode (← publicKeyHex R b.key) with
  | none => pure []
  | some pbs => do
    let (x, y) ← expandPublicKey pbs
    let addrBs := bigBytes (← load x) ++ bigBytes (← load y)
    return hexEncode ((H.keccak256 addrBs).drop 12)

/-- `KeyPath.AddrP2SH` (util/key_path.go:28-44). -/
def addrP2SH (H : Hashes) (R : Registry) (b : KeyPath) (verPrefix : UInt8) : Prog Bytes := do
  match hexDecode (← publicKeyHex R b.key) with
  | none => pure []
  | some pbs =>
    let pubKeyHash := hashRipeMD160onSha256 H pbs
    let verPubKeyHash := [verPrefix] ++ pubKeyHash
    let chkSum := checksumDblSha256 H verPubKeyHash
    pure (b58Encode (verPubKeyHash ++ chkSum))

/-- The loop of `GenerateRange` (util/key_path.go:93-103) at index `i`. -/
def rangeLoop (H : Hashes) (R : Registry) (i endIndex : UInt32) (derivedPath : Bytes) (currentKey : Key)
    (keyPaths : List KeyPath) : Prog (List KeyPath) :=
  if h : i < endIndex then do
    let derivedPath := appendComponent derivedPath i
    let r ← newChildKey H R currentKey i
    rangeLoop H R (i + 1) endIndex derivedPath r.1 (keyPaths ++ [⟨pathFormatted derivedPath, r.1⟩])
  else pure keyPaths
termination_by endIndex.toNat - i.toNat
decreasing_by
  have h1 : i.toNat < endIndex.toNat := UInt32.lt_iff_toNat_lt.1 h
  have h2 := endIndex.toNat_lt
  rw [UInt32.toNat_add, show (1 : UInt32).toNat = 1 from rfl, Nat.mod_eq_of_lt (by omega)]
  omega

/-- `KeyPathRange.GenerateRange` (util/key_path.go:76-106) on a range no other goroutine uses. -/
def generateRange (H : Hashes) (R : Registry) (k : KeyPathRange) : Prog (KeyPathRange × Option Err) :=
  if k.endIndex - k.startIndex < 1 then pure (k, some .invalidRangeProvided)
  else if !k.keyPath.key.isValid H then pure (k, some .invalidRootKey)
  else if !pathIsValid k.keyPath.path then pure (k, some .utilUnSupportedOrInvalidPath)
  else do
    let keyPaths ← rangeLoop H R k.startIndex k.endIndex (pathString k.keyPath.path) k.keyPath.key []
    return ({ k with keyPaths := keyPaths }, none)

/-! ### Goroutines -/

/-- A call a goroutine makes. `ExpandPublicKey` also tells which numbers its caller goes on to overwrite with what, since it
is the one function that hands out addresses. -/
inductive Call where
  | newMnemonic (entropy : Bytes)
  | entropyFromMnemonic (mnemonic : Bytes)
  | mnemonicToByteArray (mnemonic : Bytes) (raw : List Bool)
  | newSeedWithErrorChecking (mnemonic password : Bytes)
  | isMnemonicValid (mnemonic : Bytes)
  | validatePrivateKey (key : Bytes)
  | expandPublicKey (key : Bytes) (thenX thenY : Nat)
  | newMasterKey (seed : Bytes)
  | newChildKey (key : Key) (childIdx : UInt32)
  | publicKeyExtended (key : Key)
  | publicKeyHex (key : Key)
  | generateMnemonic (read : Nat → Bytes) (wordsCount : UInt8)
  | deriveSeedFromMnemonic (mnemonic passphrase : Bytes)
  | rootKeyFromSeed (seed : Bytes)
  | deriveBIP32Result (rootKey : Key) (p : Bytes)
  | addrHex (b : KeyPath)
  | addrP2SH (b : KeyPath) (verPrefix : UInt8)
  | generateRange (k : KeyPathRange)

/-- What it returns. -/
inductive Result where
  | bytes (b : Bytes) (e : Option Err)
  | bool (b : Bool)
  | err (e : Option Err)
  | point (x y : Nat)
  | master (k : Option Key) (e : Option Err)
  | key (k : Key) (e : Option Err)
  | keyPaths (l : List KeyPath) (e : Option Err)
  | range (k : KeyPathRange) (e : Option Err)

/-- The program of a call. The caller of `ExpandPublicKey` reads both numbers and then overwrites them. -/
def Call.prog (H : Hashes) (S : WordState) (R : Registry) : Call → Prog Result
  | .newMnemonic e => do let (b, e) ← Nums.newMnemonic H S e; return .bytes b e
  | .entropyFromMnemonic m => do let (b, e) ← Nums.entropyFromMnemonic H S m; return .bytes b e
  | .mnemonicToByteArray m raw => do let (b, e) ← Nums.mnemonicToByteArray H S m raw; return .bytes b e
  | .newSeedWithErrorChecking m p => do let (b, e) ← Nums.newSeedWithErrorChecking H S m p; return .bytes b e
  | .isMnemonicValid m => do return .bool (← Nums.isMnemonicValid H S m)
  | .validatePrivateKey k => do return .err (← Nums.validatePrivateKey k)
  | .expandPublicKey k u v => do
    let (X, Y) ← Nums.expandPublicKey k
    let x ← load X
    let y ← load Y
    store X u
    store Y v
    return .point x y
  | .newMasterKey s => do let (k, e) ← Nums.newMasterKey H s; return .master k e
  | .newChildKey k i => do let (k, e) ← Nums.newChildKey H R k i; return .key k e
  | .publicKeyExtended k => do return .key (← Nums.publicKeyExtended R k) none
  | .publicKeyHex k => do return .bytes (← Nums.publicKeyHex R k) none
  | .generateMnemonic r n => do let (b, e) ← Nums.generateMnemonic H S r n; return .bytes b e
  | .deriveSeedFromMnemonic m p => do let (b, e) ← Nums.deriveSeedFromMnemonic H S m p; return .bytes b e
  | .rootKeyFromSeed s => do let (k, e) ← Nums.rootKeyFromSeed H s; return .key k e
  | .deriveBIP32Result k p => do let (l, e) ← Nums.deriveBIP32Result H R k p; return .keyPaths l e
  | .addrHex b => do return .bytes (← Nums.addrHex H R b) none
  | .addrP2SH b v => do return .bytes (← Nums.addrP2SH H R b v) none
  | .generateRange k => do let (k, e) ← Nums.generateRange H R k; return .range k e

/-- A goroutine makes calls one after the other. -/
def calls (H : Hashes) (S : WordState) (R : Registry) : List Call → Prog (List Result)
  | [] => pure []
  | c :: cs => do
    let r ← c.prog H S R
    let rs ← calls H S R cs
    return r :: rs

/-- A goroutine: the numbers it made and the rest of its program. -/
structure Thread where
  own : List Nat
  prog : Prog (List Result)

/-- Goroutines and the numbers of the packages. -/
structure Pool where
  pkg : Pkg → Nat
  threads : List Thread

/-- One access of one goroutine. -/
def Thread.step (pkg : Pkg → Nat) (t : Thread) : (Pkg → Nat) × Thread :=
  match t.prog with
  | .done _ => (pkg, t)
  | .panic => (pkg, t)
  | .new v k => (pkg, ⟨t.own ++ [v], k (.own t.own.length)⟩)
  | .get (.pkg p) k => (pkg, ⟨t.own, k (pkg p)⟩)
  | .get (.own i) k => (pkg, ⟨t.own, k (t.own.getD i 0)⟩)
  | .set (.pkg p) v k => (Function.update pkg p v, ⟨t.own, k⟩)
  | .set (.own i) v k => (pkg, ⟨t.own.set i v, k⟩)

/-- It is the turn of goroutine `i`. -/
def Pool.step (c : Pool) (i : Nat) : Pool :=
  match c.threads[i]? with
  | none => c
  | some t =>
    let r := t.step c.pkg
    ⟨r.1, c.threads.set i r.2⟩

/-- The turns `is`, in that order. -/
def Pool.run (c : Pool) (is : List Nat) : Pool := is.foldl Pool.step c

/-- The packages are initialised, every goroutine is about to make its calls. -/
def Pool.start (H : Hashes) (S : WordState) (R : Registry) (work : List (List Call)) : Pool :=
  ⟨Pkg.init, work.map fun cs => ⟨[], calls H S R cs⟩⟩

end Bips.Nums
