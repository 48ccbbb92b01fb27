import Verif.Model.Registry.Types

/-!
# Transcription of bip32/reg_ver_bytes.go:141-424

Generated by tools/gen_registry.py from the source text; every entry cites its lines.
-/

namespace Bips

/-- `Bitcoinxprvxpub` (bip32/reg_ver_bytes.go:142-150). -/
def bitcoinxprvxpub : VersionBytes where
  coin := str "Bitcoin"
  pvtKeyFlag := 0x0488ade4
  pvKeyPrefix := str "xprv"
  pubKeyFlag := 0x0488b21e
  pubKeyPrefix := str "xpub"
  addrEncodings := [.p2PKH, .p2SH]
  path := str "m/44'/0'"

/-- `Bitcoinyprvypub` (bip32/reg_ver_bytes.go:151-159). -/
def bitcoinyprvypub : VersionBytes where
  coin := str "Bitcoin"
  pvtKeyFlag := 0x049d7878
  pvKeyPrefix := str "yprv"
  pubKeyFlag := 0x049d7cb2
  pubKeyPrefix := str "ypub"
  addrEncodings := [.p2WPKHInP2SH]
  path := str "m/49'/0'"

/-- `Bitcoinzprvzpub` (bip32/reg_ver_bytes.go:160-168). -/
def bitcoinzprvzpub : VersionBytes where
  coin := str "Bitcoin"
  pvtKeyFlag := 0x04b2430c
  pvKeyPrefix := str "zprv"
  pubKeyFlag := 0x04b24746
  pubKeyPrefix := str "zpub"
  addrEncodings := [.p2WPKH]
  path := str "m/84'/0'"

/-- `BitcoinYprvYpub` (bip32/reg_ver_bytes.go:169-177). -/
def bitcoinYprvYpub : VersionBytes where
  coin := str "Bitcoin"
  pvtKeyFlag := 0x0295b005
  pvKeyPrefix := str "Yprv"
  pubKeyFlag := 0x0295b43f
  pubKeyPrefix := str "Ypub"
  addrEncodings := [.p2WSHInP2SH]
  path := str "m/84'/0'"

/-- `BitcoinZprvZpub` (bip32/reg_ver_bytes.go:178-186). -/
def bitcoinZprvZpub : VersionBytes where
  coin := str "Bitcoin"
  pvtKeyFlag := 0x02aa7a99
  pvKeyPrefix := str "Zprv"
  pubKeyFlag := 0x02aa7ed3
  pubKeyPrefix := str "Zpub"
  addrEncodings := [.p2WSH]
  path := str "m/84'/0'"

/-- `Bitcointprvtpub` (bip32/reg_ver_bytes.go:187-195). -/
def bitcointprvtpub : VersionBytes where
  coin := str "Bitcoin Testnet"
  pvtKeyFlag := 0x04358394
  pvKeyPrefix := str "tprv"
  pubKeyFlag := 0x043587cf
  pubKeyPrefix := str "tpub"
  addrEncodings := [.p2PKH, .p2SH]
  path := str "m/44'/1'"

/-- `Bitcoinuprvupub` (bip32/reg_ver_bytes.go:196-204). -/
def bitcoinuprvupub : VersionBytes where
  coin := str "Bitcoin Testnet"
  pvtKeyFlag := 0x044a4e28
  pvKeyPrefix := str "uprv"
  pubKeyFlag := 0x044a5262
  pubKeyPrefix := str "upub"
  addrEncodings := [.p2WPKHInP2SH]
  path := str "m/49'/1'"

/-- `Bitcoinvprvvpub` (bip32/reg_ver_bytes.go:205-213). -/
def bitcoinvprvvpub : VersionBytes where
  coin := str "Bitcoin Testnet"
  pvtKeyFlag := 0x045f18bc
  pvKeyPrefix := str "vprv"
  pubKeyFlag := 0x045f1cf6
  pubKeyPrefix := str "vpub"
  addrEncodings := [.p2WPKH]
  path := str "m/84'/1'"

/-- `BitcoinUprvUpub` (bip32/reg_ver_bytes.go:214-222). -/
def bitcoinUprvUpub : VersionBytes where
  coin := str "Bitcoin Testnet"
  pvtKeyFlag := 0x024285b5
  pvKeyPrefix := str "Uprv"
  pubKeyFlag := 0x024289ef
  pubKeyPrefix := str "Upub"
  addrEncodings := [.p2WSHInP2SH]
  path := str "m/84'/1'"

/-- `BitcoinVprvVpub` (bip32/reg_ver_bytes.go:223-231). -/
def bitcoinVprvVpub : VersionBytes where
  coin := str "Bitcoin Testnet"
  pvtKeyFlag := 0x02575048
  pvKeyPrefix := str "Vprv"
  pubKeyFlag := 0x02575483
  pubKeyPrefix := str "Vpub"
  addrEncodings := [.p2WSH]
  path := str "m/84'/1'"

/-- `Groestlcoinxprvxpub` (bip32/reg_ver_bytes.go:232-240). -/
def groestlcoinxprvxpub : VersionBytes where
  coin := str "Groestlcoin"
  pvtKeyFlag := 0x0488ade4
  pvKeyPrefix := str "xprv"
  pubKeyFlag := 0x0488b21e
  pubKeyPrefix := str "xpub"
  addrEncodings := [.p2PKH, .p2SH]
  path := str "m/44'/17'"

/-- `Groestlcoinyprvypub` (bip32/reg_ver_bytes.go:241-249). -/
def groestlcoinyprvypub : VersionBytes where
  coin := str "Groestlcoin"
  pvtKeyFlag := 0x049d7878
  pvKeyPrefix := str "yprv"
  pubKeyFlag := 0x049d7cb2
  pubKeyPrefix := str "ypub"
  addrEncodings := [.p2WPKHInP2SH]
  path := str "m/49'/17'"

/-- `Groestlcoinzprvzpub` (bip32/reg_ver_bytes.go:250-258). -/
def groestlcoinzprvzpub : VersionBytes where
  coin := str "Groestlcoin"
  pvtKeyFlag := 0x04b2430c
  pvKeyPrefix := str "zprv"
  pubKeyFlag := 0x04b24746
  pubKeyPrefix := str "zpub"
  addrEncodings := [.p2WPKH]
  path := str "m/84'/17'"

/-- `GroestlcoinYprvYpub` (bip32/reg_ver_bytes.go:259-267). -/
def groestlcoinYprvYpub : VersionBytes where
  coin := str "Groestlcoin"
  pvtKeyFlag := 0x0295b005
  pvKeyPrefix := str "Yprv"
  pubKeyFlag := 0x0295b43f
  pubKeyPrefix := str "Ypub"
  addrEncodings := [.p2WSHInP2SH]
  path := str "m/84'/17'"

/-- `GroestlcoinZprvZpub` (bip32/reg_ver_bytes.go:268-276). -/
def groestlcoinZprvZpub : VersionBytes where
  coin := str "Groestlcoin"
  pvtKeyFlag := 0x02aa7a99
  pvKeyPrefix := str "Zprv"
  pubKeyFlag := 0x02aa7ed3
  pubKeyPrefix := str "Zpub"
  addrEncodings := [.p2WSH]
  path := str "m/84'/17'"

/-- `Groestlcointprvtpub` (bip32/reg_ver_bytes.go:277-285). -/
def groestlcointprvtpub : VersionBytes where
  coin := str "Groestlcoin Testnet"
  pvtKeyFlag := 0x04358394
  pvKeyPrefix := str "tprv"
  pubKeyFlag := 0x043587cf
  pubKeyPrefix := str "tpub"
  addrEncodings := [.p2PKH, .p2SH]
  path := str "m/44'/1'"

/-- `Groestlcoinuprvupub` (bip32/reg_ver_bytes.go:286-294). -/
def groestlcoinuprvupub : VersionBytes where
  coin := str "Groestlcoin Testnet"
  pvtKeyFlag := 0x044a4e28
  pvKeyPrefix := str "uprv"
  pubKeyFlag := 0x044a5262
  pubKeyPrefix := str "upub"
  addrEncodings := [.p2WPKHInP2SH]
  path := str "m/49'/1'"

/-- `Groestlcoinvprvvpub` (bip32/reg_ver_bytes.go:295-303). -/
def groestlcoinvprvvpub : VersionBytes where
  coin := str "Groestlcoin Testnet"
  pvtKeyFlag := 0x045f18bc
  pvKeyPrefix := str "vprv"
  pubKeyFlag := 0x045f1cf6
  pubKeyPrefix := str "vpub"
  addrEncodings := [.p2WPKH]
  path := str "m/84'/1'"

/-- `GroestlcoinUprvUpub` (bip32/reg_ver_bytes.go:304-312). -/
def groestlcoinUprvUpub : VersionBytes where
  coin := str "Groestlcoin Testnet"
  pvtKeyFlag := 0x024285b5
  pvKeyPrefix := str "Uprv"
  pubKeyFlag := 0x024289ef
  pubKeyPrefix := str "Upub"
  addrEncodings := [.p2WSHInP2SH]
  path := str "m/84'/1'"

/-- `GroestlcoinVprvVpub` (bip32/reg_ver_bytes.go:313-321). -/
def groestlcoinVprvVpub : VersionBytes where
  coin := str "Groestlcoin Testnet"
  pvtKeyFlag := 0x02575048
  pvKeyPrefix := str "Vprv"
  pubKeyFlag := 0x02575483
  pubKeyPrefix := str "Vpub"
  addrEncodings := [.p2WSH]
  path := str "m/84'/1'"

/-- `LitecoinLtpvLtub` (bip32/reg_ver_bytes.go:322-330). -/
def litecoinLtpvLtub : VersionBytes where
  coin := str "Litecoin"
  pvtKeyFlag := 0x019d9cfe
  pvKeyPrefix := str "Ltpv"
  pubKeyFlag := 0x019da462
  pubKeyPrefix := str "Ltub"
  addrEncodings := [.p2PKH, .p2SH]
  path := str "m/44'/2'"

/-- `LitecoinMtpvMtub` (bip32/reg_ver_bytes.go:331-339). -/
def litecoinMtpvMtub : VersionBytes where
  coin := str "Litecoin"
  pvtKeyFlag := 0x01b26792
  pvKeyPrefix := str "Mtpv"
  pubKeyFlag := 0x01b26ef6
  pubKeyPrefix := str "Mtub"
  addrEncodings := [.p2WPKHInP2SH]
  path := str "m/49'/2'"

/-- `Litecointtpvttub` (bip32/reg_ver_bytes.go:340-348). -/
def litecointtpvttub : VersionBytes where
  coin := str "Litecoin Testnet"
  pvtKeyFlag := 0x0436ef7d
  pvKeyPrefix := str "ttpv"
  pubKeyFlag := 0x0436f6e1
  pubKeyPrefix := str "ttub"
  addrEncodings := [.p2PKH, .p2SH]
  path := str "m/44'/1'"

/-- `Nexaxprvxpub` (bip32/reg_ver_bytes.go:349-357). -/
def nexaxprvxpub : VersionBytes where
  coin := str "Nexa"
  pvtKeyFlag := 0x426c6b73
  pvKeyPrefix := str "xprv"
  pubKeyFlag := 0x42696720
  pubKeyPrefix := str "xpub"
  addrEncodings := [.p2PKT, .p2PKH, .p2SH]
  path := str "m/44'/29223'"

/-- `Nexaxprvxpub2` (bip32/reg_ver_bytes.go:358-366). -/
def nexaxprvxpub2 : VersionBytes where
  coin := str "Nexa Testnet"
  pvtKeyFlag := 0x04358394
  pvKeyPrefix := str "xprv"
  pubKeyFlag := 0x043587cf
  pubKeyPrefix := str "xpub"
  addrEncodings := [.p2PKH, .p2SH]
  path := str "m/44'/1'"

/-- `Polispprvppub` (bip32/reg_ver_bytes.go:367-375). -/
def polispprvppub : VersionBytes where
  coin := str "Polis"
  pvtKeyFlag := 0x03e25945
  pvKeyPrefix := str "pprv"
  pubKeyFlag := 0x03e25d7e
  pubKeyPrefix := str "ppub"
  addrEncodings := [.p2PKH]
  path := str "m/44'/1997'"

/-- `Syscoinzprvzpub` (bip32/reg_ver_bytes.go:376-384). -/
def syscoinzprvzpub : VersionBytes where
  coin := str "Syscoin"
  pvtKeyFlag := 0x04b2430c
  pvKeyPrefix := str "zprv"
  pubKeyFlag := 0x04b24746
  pubKeyPrefix := str "zpub"
  addrEncodings := [.p2WPKH]
  path := str "m/84'/57'"

/-- `SyscoinZprvZpub` (bip32/reg_ver_bytes.go:385-393). -/
def syscoinZprvZpub : VersionBytes where
  coin := str "Syscoin"
  pvtKeyFlag := 0x02aa7a99
  pvKeyPrefix := str "Zprv"
  pubKeyFlag := 0x02aa7ed3
  pubKeyPrefix := str "Zpub"
  addrEncodings := [.p2WSH]
  path := str "m/84'/57'"

/-- `Vertcoinvtcpvtcv` (bip32/reg_ver_bytes.go:394-402). -/
def vertcoinvtcpvtcv : VersionBytes where
  coin := str "Vertcoin"
  pvtKeyFlag := 0x0488ade4
  pvKeyPrefix := str "vtcv"
  pubKeyFlag := 0x0488b21e
  pubKeyPrefix := str "vtcp"
  addrEncodings := [.p2PKH, .p2SH]
  path := str "m/44'/28'"

/-- The entries of `PathToHDBytesSlice` in source order (bip32/reg_ver_bytes.go:406-424). -/
def pathTable : List (Bytes × List VersionBytes) := [
  (str "m/44'/0'", [bitcoinxprvxpub]),
  (str "m/49'/0'", [bitcoinyprvypub]),
  (str "m/84'/0'", [bitcoinzprvzpub, bitcoinYprvYpub, bitcoinZprvZpub]),
  (str "m/44'/1'", [bitcointprvtpub, groestlcointprvtpub, litecointtpvttub, nexaxprvxpub2]),
  (str "m/49'/1'", [bitcoinuprvupub, groestlcoinuprvupub]),
  (str "m/84'/1'", [bitcoinvprvvpub, bitcoinUprvUpub, bitcoinVprvVpub, groestlcoinvprvvpub, groestlcoinUprvUpub, groestlcoinVprvVpub]),
  (str "m/44'/17'", [groestlcoinxprvxpub]),
  (str "m/49'/17'", [groestlcoinyprvypub]),
  (str "m/84'/17'", [groestlcoinzprvzpub, groestlcoinYprvYpub, groestlcoinZprvZpub]),
  (str "m/44'/2'", [litecoinLtpvLtub]),
  (str "m/49'/2'", [litecoinMtpvMtub]),
  (str "m/44'/29223'", [nexaxprvxpub]),
  (str "m/44'/28'", [vertcoinvtcpvtcv]),
  (str "m/44'/1997'", [polispprvppub]),
  (str "m/84'/57'", [syscoinzprvzpub, syscoinZprvZpub])]

end Bips
