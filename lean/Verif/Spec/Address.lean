import Verif.Spec.Bip32

/-!
# Specification: addresses

Ethereum addresses (Yellow Paper, appendix F) and Base58Check payloads.
-/

namespace Bips.Spec

/-- Lower-case hexadecimal text, two digits per byte. -/
def hex (b : Bytes) : Bytes :=
  b.flatMap fun x => [(str "0123456789abcdef").getD (x.toNat / 16) 0, (str "0123456789abcdef").getD (x.toNat % 16) 0]

/-- The 64 bytes hashed for an Ethereum address: both coordinates at full width. -/
def ethPreimage (Q : Pt) : Bytes := ser256 (coords Q).1 ++ ser256 (coords Q).2

/-- The Ethereum address of a public point, without `0x` and without checksum capitals. -/
def ethAddress (keccak256 : Bytes → Bytes) (Q : Pt) : Bytes := hex ((keccak256 (ethPreimage Q)).drop 12)

/-- `HASH160`. -/
def hash160 (sha256 ripemd160 : Bytes → Bytes) (b : Bytes) : Bytes := ripemd160 (sha256 b)

/-- The bytes of a Base58Check address: version, hash, four bytes of double SHA-256. -/
def addrPayload (sha256 : Bytes → Bytes) (v : UInt8) (h : Bytes) : Bytes :=
  v :: h ++ (sha256 (sha256 (v :: h))).take 4

/-- The hash in the script address of a key (BIP-49, P2WPKH nested in BIP-16 P2SH): that of the witness script, which is a
zero byte and the pushed HASH160 of the public key. -/
def scriptHash (sha256 ripemd160 : Bytes → Bytes) (Q : Pt) : Bytes :=
  hash160 sha256 ripemd160 (0x00 :: 0x14 :: hash160 sha256 ripemd160 (serP Q))

end Bips.Spec
