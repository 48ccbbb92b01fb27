import Verif.Go.Bytes

/-!
# `hash/crc32` and `fmt.Sprintf("%x", …)`

Go's standard library; called in the `init` functions of bip39/wordlists/*.go. `ChecksumIEEE` may run on special
instructions; the model is the generic code (`simpleMakeTable`, `simpleUpdate`).
-/

namespace Bips

/-- One bit of `simpleMakeTable` with the IEEE polynomial. -/
def crcBit (c : Nat) : Nat := if c % 2 = 1 then (c / 2) ^^^ 0xedb88320 else c / 2

/-- Entry `i` of the table. -/
def crcTable (i : Nat) : Nat := crcBit (crcBit (crcBit (crcBit (crcBit (crcBit (crcBit (crcBit i)))))))

/-- One byte of `simpleUpdate`: `crc = tab[byte(crc)^v] ^ (crc >> 8)`. -/
def crcUpdate (c v : Nat) : Nat := crcTable ((c % 256) ^^^ v) ^^^ (c / 256)

/-- `crc32.ChecksumIEEE`. -/
def checksumIEEE (b : Bytes) : Nat := (b.foldl (fun c v => crcUpdate c v.toNat) 0xffffffff) ^^^ 0xffffffff

/-- `fmt.Sprintf("%x", n)` for an unsigned `n`. -/
def sprintfX (n : Nat) : Bytes := if n = 0 then [48] else (toDigitsBE 16 n).map hexDigit

end Bips
