import Verif.Model.Bip39

/-!
# `SetWordList` running concurrently with readers (bip39/bip39.go:77-84)

Nothing is locked. The writer's steps are the assignment of `wordList`, the assignment of a new empty map to
`wordMap`, and one map insertion per word; a reader's accesses fall between them in any way (sequentially consistent
interleaving). The fatal error "concurrent map read and map write" and the single steps of a map write, which let a
reader see an index that is not yet stored, are in `MapFatal` (C101). Weaker memory orders are not modelled.
-/

namespace Bips

/-- The shared state after the first `t` steps of `SetWordList(list)` started in `S`. -/
def writerState (S : WordState) (list : List Bytes) : Nat → WordState
  | 0 => S
  | 1 => ⟨list, S.map⟩
  | t + 2 => ⟨list, fillWordMap (list.take t) 0 fun _ => none⟩

/-- The number of steps of `SetWordList(list)`. -/
def writerSteps (list : List Bytes) : Nat := list.length + 2

/-- The decoding loop of `EntropyFromMnemonic` (bip39/bip39.go:127-136) when `wordMap` changes between its reads:
`maps` gives the map seen by each read in turn. -/
def decodeWordsRacing : List (Bytes → Option Nat) → List Bytes → Nat → Nat ⊕ Err
  | _, [], b => .inl b
  | [], v :: _, _ => .inr (.unknownWord v)
  | m :: ms, v :: vs, b =>
    match m v with
    | none => .inr (.unknownWord v)
    | some index => decodeWordsRacing ms vs ((b * 2048) ||| setBytes (beBytes 2 (index % 65536)))

/-- `EntropyFromMnemonic` (bip39/bip39.go:115-165) with racing reads. The part after the loop does not touch shared
state. -/
def entropyRacing (H : Hashes) (maps : List (Bytes → Option Nat)) (mnemonic : Bytes) : Outcome (Bytes × Option Err) :=
  match splitMnemonicWords mnemonic with
  | (_, false) => .ok ([], some .invalidMnemonic)
  | (ws, true) =>
    match decodeWordsRacing maps ws 0 with
    | .inr e => .ok ([], some e)
    | .inl b =>
      match checksumMask ws.length with
      | none => .panic
      | some mask =>
        let checksum := b &&& mask
        let b := b / (mask + 1)
        let entropy := padByteSlice (bigBytes b) (ws.length / 3 * 4)
        let c := ((computeChecksum H entropy).headD 0).toNat
        let compare := fun c : Nat =>
          if checksum ≠ c then Outcome.ok (([] : Bytes), some Err.checksumIncorrect) else .ok (entropy, none)
        if ws.length ≠ 24 then
          match checksumShift ws.length with
          | none => .panic
          | some sh => compare (c / sh)
        else compare c

/-- A schedule: for each read in turn, the number of writer steps that precede it. -/
def Schedule (list : List Bytes) (n : Nat) (times : List Nat) : Prop :=
  times.length = n ∧ times.Pairwise (· ≤ ·) ∧ ∀ t ∈ times, t ≤ writerSteps list

/-- The result of `EntropyFromMnemonic` racing with `SetWordList(list)` under a schedule. -/
def entropyScheduled (H : Hashes) (S : WordState) (list : List Bytes) (times : List Nat) (mnemonic : Bytes) :
    Outcome (Bytes × Option Err) :=
  entropyRacing H (times.map fun t => (writerState S list t).map) mnemonic

/-- The word loop of `NewMnemonic` (bip39/bip39.go:198-209) when `wordList` changes between its reads: `lists` gives
the list seen by each read in turn, the last word of the sentence first. -/
def encodeWordsRacing : List (List Bytes) → Nat → Nat → List Bytes → Outcome (List Bytes)
  | _, 0, _, acc => .ok acc
  | [], _ + 1, _, _ => .panic
  | list :: lists, k + 1, n, acc =>
    let word := n &&& 2047
    match list[setBytes (padByteSlice (bigBytes word) 2)]? with
    | none => .panic
    | some w => encodeWordsRacing lists k (n / 2048) (w :: acc)

/-- `NewMnemonic` (bip39/bip39.go:170-212) with racing reads. The part before the loop does not touch shared state. -/
def newMnemonicRacing (H : Hashes) (lists : List (List Bytes)) (entropy : Bytes) : Outcome (Bytes × Option Err) :=
  let entropyBitLength := entropy.length * 8
  let checksumBitLength := entropyBitLength / 32
  let sentenceLength := (entropyBitLength + checksumBitLength) / 11
  match validateEntropyBitSize entropyBitLength with
  | some e => .ok ([], some e)
  | none =>
    match encodeWordsRacing lists sentenceLength (setBytes (addChecksum H entropy)) [] with
    | .panic => .panic
    | .ok words => .ok (joinByte 32 words, none)

/-- The result of `NewMnemonic` racing with `SetWordList(list)` under a schedule. -/
def newMnemonicScheduled (H : Hashes) (S : WordState) (list : List Bytes) (times : List Nat) (entropy : Bytes) :
    Outcome (Bytes × Option Err) :=
  newMnemonicRacing H (times.map fun t => (writerState S list t).list) entropy

end Bips
