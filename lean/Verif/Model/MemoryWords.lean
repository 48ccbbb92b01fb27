import Verif.Model.Memory
import Verif.Model.Random

/-!
# Package bip39, addresses and key ranges on memory

The functions of bip39.go that handle byte slices, and those of util/key_path.go, on the memory of `Model/Memory`. A `[]byte`
result is a slice header (`none` for nil); strings are values.
-/

namespace Bips
namespace Mem

variable (H : Hashes) (R : Registry) (g : Nat → Nat → Nat)

/-- `padByteSlice` (bip39/bip39.go:310-320): the argument itself if it is long enough. -/
def padByteSlice (slice : Sl) (length : Nat) : Mem Sl :=
  if length ≤ slice.len then pure slice
  else do
    let newSlice ← makeBytes length
    let b ← read slice
    copyTo (newSlice.sub (length - slice.len) length) b
    pure newSlice

/-- `computeChecksum` (bip39/bip39.go:293-296): a slice of a local array. -/
def computeChecksum (data : Sl) : Mem Sl := do
  let d ← read data
  let bs ← newArray (H.sha256 d)
  pure (arraySl bs 32 0 32)

/-- `addChecksum` (bip39/bip39.go:267-291). `SetBytes` copies and `Bytes` allocates; the loop is that of the value model. -/
def addChecksum (data : Sl) : Mem Sl := do
  let hash ← computeChecksum H data
  let c ← read hash
  let d ← read data
  fresh g (bigBytes (addChecksumLoop (c.headD 0) (data.len / 4) 0 (setBytes d)))

/-- The loop of `EntropyFromMnemonic` (bip39/bip39.go:127-136); `wordBytes` is the array at `w`. -/
def decodeWords (w : Nat) (map : Bytes → Option Nat) : List Bytes → Nat → Mem (Nat ⊕ Err)
  | [], b => pure (.inl b)
  | v :: vs, b =>
    match map v with
    | none => pure (.inr (.unknownWord v))
    | some index => do
      copyTo (arraySl w 2 0 2) (beBytes 2 (index % 65536))
      let x ← read (arraySl w 2 0 2)
      decodeWords w map vs ((b * 2048) ||| setBytes x)

/-- `EntropyFromMnemonic` (bip39/bip39.go:115-165). -/
def entropyFromMnemonic (S : WordState) (mnemonic : Bytes) : Mem (Outcome (Option Sl × Option Err)) :=
  match splitMnemonicWords mnemonic with
  | (_, false) => pure (.ok (none, some .invalidMnemonic))
  | (ws, true) => do
    let wordBytes ← newArray [0, 0]
    let r ← decodeWords wordBytes S.map ws 0
    match r with
    | .inr e => pure (.ok (none, some e))
    | .inl b =>
      match checksumMask ws.length with
      | none => pure .panic
      | some mask => do
        let bs ← fresh g (bigBytes (b / (mask + 1)))
        let entropy ← padByteSlice bs (ws.length / 3 * 4)
        let hash ← computeChecksum H entropy
        let hs ← read hash
        let c := (hs.headD 0).toNat
        let compare := fun c : Nat => (pure (if b &&& mask ≠ c then .ok (none, some Err.checksumIncorrect)
          else .ok (some entropy, none)) : Mem (Outcome (Option Sl × Option Err)))
        if ws.length ≠ 24 then
          match checksumShift ws.length with
          | none => pure .panic
          | some sh => compare (c / sh)
        else compare c

/-- The loop of `NewMnemonic` (bip39/bip39.go:198-209). -/
def encodeWords (list : List Bytes) : Nat → Nat → List Bytes → Mem (Outcome (List Bytes))
  | 0, _, acc => pure (.ok acc)
  | k + 1, n, acc => do
    let bs ← fresh g (bigBytes (n &&& 2047))
    let wordBytes ← padByteSlice bs 2
    let x ← read wordBytes
    match list[setBytes x]? with
    | none => pure .panic
    | some w => encodeWords list k (n / 2048) (w :: acc)

/-- `NewMnemonic` (bip39/bip39.go:170-212). The variable `entropy` is assigned anew in line 182; the caller's slice is only
read. -/
def newMnemonic (S : WordState) (entropy : Sl) : Mem (Outcome (Bytes × Option Err)) :=
  let entropyBitLength := entropy.len * 8
  let checksumBitLength := entropyBitLength / 32
  let sentenceLength := (entropyBitLength + checksumBitLength) / 11
  match validateEntropyBitSize entropyBitLength with
  | some e => pure (.ok ([], some e))
  | none => do
    let entropy ← addChecksum H g entropy
    let e ← read entropy
    let r ← encodeWords g S.list sentenceLength (setBytes e) []
    match r with
    | .panic => pure .panic
    | .ok words => pure (.ok (joinByte 32 words, none))

/-- `MnemonicToByteArray` (bip39/bip39.go:217-238). -/
def mnemonicToByteArray (S : WordState) (mnemonic : Bytes) (raw : List Bool) : Mem (Outcome (Option Sl × Option Err)) :=
  let entropyBitSize := (splitByte 32 mnemonic).length * 11
  let checksumBitSize := entropyBitSize % 32
  let fullByteSize := (entropyBitSize - checksumBitSize) / 8 + 1
  do
    let r ← entropyFromMnemonic H g S mnemonic
    match r with
    | .ok (some rawEntropyBytes, none) =>
      if raw.head? = some true then pure (.ok (some rawEntropyBytes, none))
      else do
        let c ← addChecksum H g rawEntropyBytes
        let p ← padByteSlice c fullByteSize
        pure (.ok (some p, none))
    | .ok (_, e) => pure (.ok (none, e))
    | .panic => pure .panic

/-- `NewSeed` (bip39/bip39.go:253-255): both strings are converted to new slices, and so is the key. -/
def newSeed (mnemonic password : Bytes) : Mem Sl := do
  let m ← fresh g mnemonic
  let p ← fresh g (str "mnemonic" ++ password)
  let m ← read m
  let p ← read p
  fresh g (pbkdf2Key (H.hmacSha512 m) 64 p 2048 64)

/-- `NewSeedWithErrorChecking` (bip39/bip39.go:242-249). -/
def newSeedWithErrorChecking (S : WordState) (mnemonic password : Bytes) : Mem (Outcome (Option Sl × Option Err)) := do
  let r ← mnemonicToByteArray H g S mnemonic []
  match r with
  | .ok (some _, none) => do
    let s ← newSeed H g mnemonic password
    pure (.ok (some s, none))
  | .ok (_, e) => pure (.ok (none, e))
  | .panic => pure .panic

/-- `NewEntropy` (bip39/bip39.go:101-110): the source afterwards, too. -/
def newEntropy (src : Source) (bitSize : Int) : Mem ((Option Sl × Option Err) × Source) :=
  match validateEntropyBitSize bitSize with
  | some e => pure ((none, some e), src)
  | none => do
    let entropy ← makeBytes (bitSize.tdiv 8).toNat
    let r := readLoop src (bitSize.tdiv 8).toNat
    copyTo entropy r.1
    pure ((some entropy, none), r.2.2)

/-- `AddrHex` (util/key_path.go:16-26) of a `KeyPath` whose key is at `p`. `append` may write into the spare capacity of
`x.Bytes()`. -/
def addrHex (p : Nat) : Mem Bytes := do
  let s ← publicKeyHex R g p
  match hexDecode s with
  | none => pure []
  | some b => do
    let pbs ← fresh g b
    let b ← read pbs
    let x ← fresh g (bigBytes (expandPublicKey b).1)
    let y ← fresh g (bigBytes (expandPublicKey b).2)
    let yb ← read y
    let addrBs ← append g x yb
    let a ← read addrBs
    let sum ← fresh g (H.keccak256 a)
    let r ← read sum
    pure (hexEncode (r.drop 12))

/-- `AddrP2SH` (util/key_path.go:28-44) of a `KeyPath` whose key is at `p`. -/
def addrP2SH (p : Nat) (verPrefix : UInt8) : Mem Bytes := do
  let s ← publicKeyHex R g p
  match hexDecode s with
  | none => pure []
  | some b => do
    let pbs ← fresh g b
    let pubKeyHash ← hashRipeMD160onSha256 H g pbs
    let ver ← newArray [verPrefix]
    let ph ← read pubKeyHash
    let verPubKeyHash ← append g (arraySl ver 1 0 1) ph
    let chkSum ← checksumDblSha256 H g verPubKeyHash
    let c ← read chkSum
    let addBs ← append g verPubKeyHash c
    let a ← read addBs
    pure (b58Encode a)

/-- The loop of `GenerateRange` (util/key_path.go:93-103) at index `i`; `c` is the local variable `currentKey`. -/
def rangeLoop (c : Nat) (i endIndex : UInt32) (derivedPath : Bytes) : Mem (List (Bytes × Bytes)) :=
  if h : i < endIndex then do
    let derivedPath := appendComponent derivedPath i
    let r ← newChildKey H R g c i
    copyTo (keySl c 0 78) r.1
    let cur ← read (keySl c 0 78)
    let rest ← rangeLoop c (i + 1) endIndex derivedPath
    pure ((pathFormatted derivedPath, cur) :: rest)
  else pure []
termination_by endIndex.toNat - i.toNat
decreasing_by
  have h1 : i.toNat < endIndex.toNat := UInt32.lt_iff_toNat_lt.1 h
  have h2 := endIndex.toNat_lt
  rw [UInt32.toNat_add, show (1 : UInt32).toNat = 1 from rfl, Nat.mod_eq_of_lt (by omega)]
  omega

/-- `GenerateRange` (util/key_path.go:76-106) of a range whose key is at `p`: the list assigned to `KeyPaths`, if it is assigned,
and the error. The list is made anew (line 92), so a list returned earlier stays as it is. -/
def generateRange (p : Nat) (startIndex endIndex : UInt32) (path : Bytes) :
    Mem (Option (List (Bytes × Bytes)) × Option Err) :=
  if endIndex - startIndex < 1 then pure (none, some .invalidRangeProvided)
  else do
    let valid ← isValid H g p
    if !valid then pure (none, some .invalidRootKey)
    else if !pathIsValid path then pure (none, some .utilUnSupportedOrInvalidPath)
    else do
      let k ← read (keySl p 0 78)
      let currentKey ← newArray k
      let l ← rangeLoop H R g currentKey startIndex endIndex (pathString path)
      pure (some l, none)

end Mem
end Bips
