import Verif.Go.Bytes

/-!
# Error values and panics

Go compares these errors by identity; each is a distinct constructor.
-/

namespace Bips

/-- Error values of the modelled packages. -/
inductive Err
  -- bip32/bip32.go:55-75
  | serializedKeyWrongSize
  | hardenedChildPublicKey
  | invalidChecksum
  | invalidPrivateKey
  | invalidPublicKey
  | emptyKey
  -- bip32/err.go:5-9
  | unSupportedHDVersionBytes
  | invalidPurpose
  | invalidCoin
  -- bip32/path.go:11-13
  | unSupportedOrInvalidPath
  -- strconv.Atoi: *NumError wrapping ErrSyntax / ErrRange
  | atoiSyntax
  | atoiRange
  -- encoding/hex: ErrLength / InvalidByteError
  | hexDecode
  -- bip39/bip39.go:54-69; `ErrValidatedSeedLengthMismatch` is never returned
  | entropyLengthInvalid
  | invalidMnemonic
  | checksumIncorrect
  /-- `fmt.Errorf("word `%v` not found in reverse map", v)` -/
  | unknownWord (w : Bytes)
  -- util/err.go:5-18, those that are returned
  | invalidMnemonicWordsCount
  | invalidBIP39Seed
  | invalidRootKey
  | invalidRangeProvided
  /-- util.ErrUnSupportedOrInvalidPath, a different value from bip32.ErrUnSupportedOrInvalidPath -/
  | utilUnSupportedOrInvalidPath
  deriving DecidableEq, Repr

/-- Result of a Go call that may panic. -/
inductive Outcome (α : Type) where
  | ok (a : α)
  | panic
  deriving DecidableEq, Repr

end Bips
