import Verif.Go.Utf8
import Verif.Go.Strings
import Verif.Crypto.Hashes
import Verif.Model.Pbkdf2

/-!
# bip39/bip39.go

The package variables `wordList` and `wordMap` (lines 46-50) are an explicit argument. A slice is its contents
here; sharing of slices is modelled in Model/WordAlias, interleaving in Model/WordRace.
-/

namespace Bips

/-- The package variables `wordList` and `wordMap` (bip39/bip39.go:46-50). -/
structure WordState where
  list : List Bytes
  map : Bytes → Option Nat

/-- `for i, v := range wordList { wordMap[v] = i }` (bip39/bip39.go:81-83), from index `i` on. -/
def fillWordMap : List Bytes → Nat → (Bytes → Option Nat) → Bytes → Option Nat
  | [], _, m => m
  | v :: vs, i, m => fillWordMap vs (i + 1) fun w => if w = v then some i else m w

/-- `SetWordList` (bip39/bip39.go:77-84), from the state `_S`: the map is made anew (line 80), so nothing of the old
state remains. -/
def setWordListFrom (_S : WordState) (list : List Bytes) : WordState := ⟨list, fillWordMap list 0 fun _ => none⟩

/-- The state after a call of `SetWordList` in a state with an empty list and map. The package's `init`
(bip39/bip39.go:71-73) calls it with the English list; C09 shows that earlier calls leave no trace. -/
def setWordList (list : List Bytes) : WordState := setWordListFrom ⟨[], fun _ => none⟩ list

/-- `GetWordList` (bip39/bip39.go:87-89). -/
def getWordList (S : WordState) : List Bytes := S.list

/-- `GetWordIndex` (bip39/bip39.go:92-95). -/
def getWordIndex (S : WordState) (word : Bytes) : Nat × Bool :=
  match S.map word with
  | some i => (i, true)
  | none => (0, false)

/-- `validateEntropyBitSize` (bip39/bip39.go:300-306). -/
def validateEntropyBitSize (bitSize : Int) : Option Err :=
  if bitSize.tmod 32 ≠ 0 ∨ bitSize < 128 ∨ bitSize > 256 then some .entropyLengthInvalid else none

/-- `NewEntropy` (bip39/bip39.go:101-110). `read n` is what `rand.Read` puts into a buffer of `n` bytes; its error
is ignored by the code and not modelled. -/
def newEntropy (read : Nat → Bytes) (bitSize : Int) : Bytes × Option Err :=
  match validateEntropyBitSize bitSize with
  | some e => ([], some e)
  | none => (read (bitSize.tdiv 8).toNat, none)

/-- `computeChecksum` (bip39/bip39.go:293-296). -/
def computeChecksum (H : Hashes) (data : Bytes) : Bytes := H.sha256 data

/-- `padByteSlice` (bip39/bip39.go:310-320). -/
def padByteSlice (s : Bytes) (length : Nat) : Bytes :=
  if length ≤ s.length then s else List.replicate (length - s.length) 0 ++ s

/-- The loop of `addChecksum` (bip39/bip39.go:280-288): `k` rounds left, loop variable `i`. `1<<(7-i)` is 0 for
`i > 7` because the unsigned shift count wraps. -/
def addChecksumLoop (first : UInt8) : Nat → Nat → Nat → Nat
  | 0, _, d => d
  | k + 1, i, d =>
    let d := d * 2
    let d := if first.toNat &&& (if i ≤ 7 then 2 ^ (7 - i) else 0) > 0 then d ||| 1 else d
    addChecksumLoop first k (i + 1) d

/-- `addChecksum` (bip39/bip39.go:267-291). -/
def addChecksum (H : Hashes) (data : Bytes) : Bytes :=
  let first := (computeChecksum H data).headD 0
  bigBytes (addChecksumLoop first (data.length / 4) 0 (setBytes data))

/-- `splitMnemonicWords` (bip39/bip39.go:338-351). -/
def splitMnemonicWords (mnemonic : Bytes) : List Bytes × Bool :=
  let words := fields mnemonic
  let n := words.length
  if n % 3 ≠ 0 ∨ n < 12 ∨ n > 24 then ([], false) else (words, true)

/-- `wordLengthChecksumMasksMapping` (bip39/bip39.go:30-36); `none` is the nil pointer of a missing key. -/
def checksumMask : Nat → Option Nat
  | 12 => some 15
  | 15 => some 31
  | 18 => some 63
  | 21 => some 127
  | 24 => some 255
  | _ => none

/-- `wordLengthChecksumShiftMapping` (bip39/bip39.go:40-45). -/
def checksumShift : Nat → Option Nat
  | 12 => some 16
  | 15 => some 8
  | 18 => some 4
  | 21 => some 2
  | _ => none

/-- The decoding loop of `EntropyFromMnemonic` (bip39/bip39.go:127-136): `uint16(index)` truncates. -/
def decodeWords (map : Bytes → Option Nat) : List Bytes → Nat → Nat ⊕ Err
  | [], b => .inl b
  | v :: vs, b =>
    match map v with
    | none => .inr (.unknownWord v)
    | some index => decodeWords map vs ((b * 2048) ||| setBytes (beBytes 2 (index % 65536)))

/-- `EntropyFromMnemonic` (bip39/bip39.go:115-165). A nil mask or shift panics. -/
def entropyFromMnemonic (H : Hashes) (S : WordState) (mnemonic : Bytes) : Outcome (Bytes × Option Err) :=
  match splitMnemonicWords mnemonic with
  | (_, false) => .ok ([], some .invalidMnemonic)
  | (ws, true) =>
    match decodeWords S.map ws 0 with
    | .inr e => .ok ([], some e)
    | .inl b =>
      match checksumMask ws.length with
      | none => .panic
      | some mask =>
        let checksum := b &&& mask
        let b := b / (mask + 1)
        let entropy := padByteSlice (bigBytes b) (ws.length / 3 * 4)
        let c := ((computeChecksum H entropy).headD 0).toNat
        let compare := fun c : Nat =>
          if checksum ≠ c then Outcome.ok (([] : Bytes), some Err.checksumIncorrect) else .ok (entropy, none)
        if ws.length ≠ 24 then
          match checksumShift ws.length with
          | none => .panic
          | some sh => compare (c / sh)
        else compare c

/-- The word loop of `NewMnemonic` (bip39/bip39.go:198-209): `k` words left, words already found in `acc`. -/
def encodeWords (list : List Bytes) : Nat → Nat → List Bytes → Outcome (List Bytes)
  | 0, _, acc => .ok acc
  | k + 1, n, acc =>
    let word := n &&& 2047
    match list[setBytes (padByteSlice (bigBytes word) 2)]? with
    | none => .panic
    | some w => encodeWords list k (n / 2048) (w :: acc)

/-- `NewMnemonic` (bip39/bip39.go:170-212). -/
def newMnemonic (H : Hashes) (S : WordState) (entropy : Bytes) : Outcome (Bytes × Option Err) :=
  let entropyBitLength := entropy.length * 8
  let checksumBitLength := entropyBitLength / 32
  let sentenceLength := (entropyBitLength + checksumBitLength) / 11
  match validateEntropyBitSize entropyBitLength with
  | some e => .ok ([], some e)
  | none =>
    match encodeWords S.list sentenceLength (setBytes (addChecksum H entropy)) [] with
    | .panic => .panic
    | .ok words => .ok (joinByte 32 words, none)

/-- `MnemonicToByteArray` (bip39/bip39.go:217-238); `raw` is the variadic argument. -/
def mnemonicToByteArray (H : Hashes) (S : WordState) (mnemonic : Bytes) (raw : List Bool := []) :
    Outcome (Bytes × Option Err) :=
  let entropyBitSize := (splitByte 32 mnemonic).length * 11
  let checksumBitSize := entropyBitSize % 32
  let fullByteSize := (entropyBitSize - checksumBitSize) / 8 + 1
  match entropyFromMnemonic H S mnemonic with
  | .panic => .panic
  | .ok (_, some e) => .ok ([], some e)
  | .ok (r, none) =>
    if raw.head? = some true then .ok (r, none)
    else .ok (padByteSlice (addChecksum H r) fullByteSize, none)

/-- `NewSeed` (bip39/bip39.go:253-255). -/
def newSeed (H : Hashes) (mnemonic password : Bytes) : Bytes :=
  pbkdf2Key (H.hmacSha512 mnemonic) 64 (str "mnemonic" ++ password) 2048 64

/-- `NewSeedWithErrorChecking` (bip39/bip39.go:242-249). -/
def newSeedWithErrorChecking (H : Hashes) (S : WordState) (mnemonic password : Bytes) :
    Outcome (Bytes × Option Err) :=
  match mnemonicToByteArray H S mnemonic with
  | .panic => .panic
  | .ok (_, some e) => .ok ([], some e)
  | .ok (_, none) => .ok (newSeed H mnemonic password, none)

/-- `IsMnemonicValid` (bip39/bip39.go:260-263). -/
def isMnemonicValid (H : Hashes) (S : WordState) (mnemonic : Bytes) : Outcome Bool :=
  match entropyFromMnemonic H S mnemonic with
  | .panic => .panic
  | .ok (_, e) => .ok e.isNone

end Bips
