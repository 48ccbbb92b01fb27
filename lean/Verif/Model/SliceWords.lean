import Verif.Model.WordRace

/-!
# `wordList` is two machine words (bip39/bip39.go:48, 78, 81, 88, 208)

A slice is an address and a length (and a capacity, which the package never looks at). Go stores and loads them one after the other, in an order the compiler
chooses; nothing is locked. `WordRace`, `WordSetters` and `Interleave` take an assignment or a use of `wordList` for one step. Here it is two, in either
order, and calls interleave between them (sequentially consistent). `wordMap` is one word.
-/

namespace Bips

/-- The order in which the compiler has the two words stored or loaded (bip39/bip39.go:78, 81, 88, 208). -/
inductive WordOrder
  | addrFirst
  | lenFirst
  deriving DecidableEq

/-- The words of `wordList` (bip39/bip39.go:48): the address, given by the list that is stored there, and the length. -/
structure Header where
  array : List Bytes
  len : Nat
  deriving DecidableEq

/-- The words of a list passed to `SetWordList` (bip39/bip39.go:77). -/
def Header.of (l : List Bytes) : Header := ⟨l, l.length⟩

/-- What indexing gives (bip39/bip39.go:208): a word of the list at the address; the run-time panic "index out of range"; or whatever is in memory beyond the list. -/
inductive Pick
  | word (w : Bytes)
  | panic
  | beyond
  deriving DecidableEq

/-- `wordList[i]` (bip39/bip39.go:208): the index is compared with the length, the word taken at the address. -/
def Header.pick (h : Header) (i : Nat) : Pick :=
  if i < h.len then
    match h.array[i]? with
    | some w => .word w
    | none => .beyond
  else .panic

/-- Where a call is. A setter (bip39/bip39.go:78): it has stored nothing, the first word, both. A reader (bip39/bip39.go:81, 88, 208), with the number of uses of `wordList` to come
and what it has loaded: between two uses; after the address; after the length. -/
inductive HeaderPc
  | store (o : WordOrder) (l : List Bytes)
  | stored (o : WordOrder) (l : List Bytes)
  | done
  | load (o : WordOrder) (n : Nat) (got : List Header)
  | haveAddr (n : Nat) (a : List Bytes) (got : List Header)
  | haveLen (n : Nat) (k : Nat) (got : List Header)
  deriving DecidableEq

/-- `wordList` (bip39/bip39.go:48) and the running calls. -/
structure HeaderRun where
  header : Header
  pcs : List HeaderPc

/-- The next store or load of call number `t` (bip39/bip39.go:78, 81, 88, 208). -/
def HeaderRun.step (c : HeaderRun) (t : Nat) : HeaderRun :=
  match c.pcs[t]? with
  | none => c
  | some (.store .addrFirst l) => ⟨⟨l, c.header.len⟩, c.pcs.set t (.stored .addrFirst l)⟩
  | some (.store .lenFirst l) => ⟨⟨c.header.array, l.length⟩, c.pcs.set t (.stored .lenFirst l)⟩
  | some (.stored .addrFirst l) => ⟨⟨c.header.array, l.length⟩, c.pcs.set t .done⟩
  | some (.stored .lenFirst l) => ⟨⟨l, c.header.len⟩, c.pcs.set t .done⟩
  | some .done => c
  | some (.load _ 0 _) => c
  | some (.load .addrFirst (n + 1) got) => ⟨c.header, c.pcs.set t (.haveAddr n c.header.array got)⟩
  | some (.load .lenFirst (n + 1) got) => ⟨c.header, c.pcs.set t (.haveLen n c.header.len got)⟩
  | some (.haveAddr n a got) => ⟨c.header, c.pcs.set t (.load .addrFirst n (got ++ [⟨a, c.header.len⟩]))⟩
  | some (.haveLen n k got) => ⟨c.header, c.pcs.set t (.load .lenFirst n (got ++ [⟨c.header.array, k⟩]))⟩

/-- An execution: the calls make steps in the given order. -/
def HeaderRun.run (c : HeaderRun) (schedule : List Nat) : HeaderRun := schedule.foldl HeaderRun.step c

/-- Calls of `SetWordList` (bip39/bip39.go:77) with their arguments and calls that use `wordList` so many times (bip39/bip39.go:81, 88, 208), none of which has begun. -/
def HeaderRun.begin (l : List Bytes) (args : List (WordOrder × List Bytes)) (readers : List (WordOrder × Nat)) : HeaderRun :=
  ⟨.of l, args.map (fun a => .store a.1 a.2) ++ readers.map fun r => .load r.1 r.2 []⟩

/-- The same with one step for each assignment or use of `wordList`: where a call is. -/
inductive ListPc
  | set (l : List Bytes)
  | done
  | read (n : Nat) (got : List (List Bytes))
  deriving DecidableEq

/-- The list and the calls, with one step for each assignment or use of `wordList` (bip39/bip39.go:48). -/
structure ListRun where
  list : List Bytes
  pcs : List ListPc

/-- The next assignment or use of `wordList` by call number `t` (bip39/bip39.go:78, 81, 88, 208). -/
def ListRun.step (c : ListRun) (t : Nat) : ListRun :=
  match c.pcs[t]? with
  | none => c
  | some (.set l) => ⟨l, c.pcs.set t .done⟩
  | some .done => c
  | some (.read 0 _) => c
  | some (.read (n + 1) got) => ⟨c.list, c.pcs.set t (.read n (got ++ [c.list]))⟩

/-- An execution: the calls make steps in the given order. -/
def ListRun.run (c : ListRun) (schedule : List Nat) : ListRun := schedule.foldl ListRun.step c

/-- The calls, none of which has begun. -/
def ListRun.begin (l : List Bytes) (args : List (List Bytes)) (readers : List Nat) : ListRun := ⟨l, args.map .set ++ readers.map fun n => .read n []⟩

/-- The word loop of `NewMnemonic` (bip39/bip39.go:198-209): `hs` gives what is loaded for each word in turn, the last word of the sentence first. `none`: memory
beyond a list is read. -/
def encodeWordsHeaders : List Header → Nat → Nat → List Bytes → Option (Outcome (List Bytes))
  | _, 0, _, acc => some (.ok acc)
  | [], _ + 1, _, _ => some .panic
  | h :: hs, k + 1, n, acc =>
    match h.pick (setBytes (padByteSlice (bigBytes (n &&& 2047)) 2)) with
    | .beyond => none
    | .panic => some .panic
    | .word w => encodeWordsHeaders hs k (n / 2048) (w :: acc)

/-- `NewMnemonic` (bip39/bip39.go:170-212) with what it loads of `wordList`. -/
def newMnemonicHeaders (H : Hashes) (hs : List Header) (entropy : Bytes) : Option (Outcome (Bytes × Option Err)) :=
  let entropyBitLength := entropy.length * 8
  let checksumBitLength := entropyBitLength / 32
  let sentenceLength := (entropyBitLength + checksumBitLength) / 11
  match validateEntropyBitSize entropyBitLength with
  | some e => some (.ok ([], some e))
  | none =>
    match encodeWordsHeaders hs sentenceLength (setBytes (addChecksum H entropy)) [] with
    | none => none
    | some .panic => some .panic
    | some (.ok words) => some (.ok (joinByte 32 words, none))

end Bips
