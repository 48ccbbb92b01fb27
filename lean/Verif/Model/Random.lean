import Verif.Model.Util

/-!
# Random numbers

The model of the other modules takes what `rand.Read` delivers as a parameter. Here the source behind it is modelled, with its
errors. `rand.Read(b)` is `io.ReadFull(rand.Reader, b)` in Go 1.22 (the version of go.mod); `rand.Reader` is a global variable
programs may replace. A reader that returns no bytes and no error for ever makes `ReadFull` run for ever; such executions have no
result and are not modelled. A reader is assumed not to write behind the bytes it reports.
-/

namespace Bips

/-- Errors of readers: `io.EOF`, `io.ErrUnexpectedEOF` and all others. -/
inductive IoErr
  | eof
  | unexpectedEOF
  | other (code : Nat)
  deriving DecidableEq, Repr

/-- What a reader will deliver: chunks of bytes, each with the error reported at its end; after them `io.EOF`. -/
abbrev Source := List (Bytes × Option IoErr)

/-- The loop of Go's `io.ReadAtLeast` as called by `io.ReadFull`, with `n` bytes missing: the bytes written, the error, and the
source afterwards. A call of the reader delivers at most one chunk. (Called by bip32/bip32.go:391 and bip39/bip39.go:107.) -/
def readLoop : Source → Nat → Bytes × Option IoErr × Source
  | src, 0 => ([], none, src)
  | [], _ + 1 => ([], some .eof, [])
  | (b, e) :: src, n + 1 =>
    if n + 1 < b.length then (b.take (n + 1), none, (b.drop (n + 1), e) :: src)
    else if n + 1 = b.length then (b, none, src)
    else
      match e with
      | some e => (b, some e, src)
      | none =>
        let (c, e, src) := readLoop src (n + 1 - b.length)
        (b ++ c, e, src)

/-- `rand.Read` (called at bip32/bip32.go:391 and bip39/bip39.go:107) on a new buffer of `n` bytes: the buffer, the error, and the
source afterwards. Bytes not delivered stay 0. -/
def randRead (src : Source) (n : Nat) : Bytes × Option IoErr × Source :=
  let (b, e, src) := readLoop src n
  (b ++ List.replicate (n - b.length) 0, (if b ≠ [] ∧ e = some .eof then some .unexpectedEOF else e), src)

/-- bip32's `NewSeed` (bip32/bip32.go:388-393). -/
def newSeed32 (src : Source) : Bytes × Option IoErr × Source := randRead src 256

/-- `NewEntropy` (bip39/bip39.go:101-110) with the source. -/
def newEntropyFrom (src : Source) (bitSize : Int) : (Bytes × Option Err) × Source :=
  match validateEntropyBitSize bitSize with
  | some e => (([], some e), src)
  | none =>
    let (entropy, _, src) := randRead src (bitSize.tdiv 8).toNat
    ((entropy, none), src)

/-- `GenerateMnemonic` (util/util.go:20-45) with the source. -/
def generateMnemonicFrom (H : Hashes) (S : WordState) (src : Source) (wordsCount : UInt8) :
    Outcome (Bytes × Option Err) × Source :=
  let go := fun bitSize : Int =>
    match newEntropyFrom src bitSize with
    | ((_, some e), src) => (Outcome.ok (([] : Bytes), some e), src)
    | ((bs, none), src) =>
      match newMnemonic H S bs with
      | .panic => (.panic, src)
      | .ok (_, some e) => (.ok ([], some e), src)
      | .ok (mnemonic, none) => (.ok (mnemonic, none), src)
  if wordsCount = 12 then go 128
  else if wordsCount = 15 then go 160
  else if wordsCount = 18 then go 192
  else if wordsCount = 21 then go 224
  else if wordsCount = 24 then go 256
  else (.ok ([], some .invalidMnemonicWordsCount), src)

end Bips
