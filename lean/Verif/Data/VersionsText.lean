import Verif.Data.TextMacro

/-!
# bip32/reg_ver_bytes.go:141-424, byte for byte

Copied by tools/gen_text.py.
-/

namespace Bips.Data.VersionsText

/-- bip32/reg_ver_bytes.go:141-141. -/
def t0 : List Nat := text! r#"var (
"#

/-- bip32/reg_ver_bytes.go:142-150. -/
def t1 : List Nat := text! r#"	Bitcoinxprvxpub = VersionBytes{
		Coin:          "Bitcoin",
		PvtKeyFlag:    0x0488ade4,
		PvKeyPrefix:   "xprv",
		PubKeyFlag:    0x0488b21e,
		PubKeyPrefix:  "xpub",
		AddrEncodings: []AddrEncoding{P2PKH, P2SH},
		Path:          "m/44'/0'",
	}
"#

/-- bip32/reg_ver_bytes.go:151-159. -/
def t2 : List Nat := text! r#"	Bitcoinyprvypub = VersionBytes{
		Coin:          "Bitcoin",
		PvtKeyFlag:    0x049d7878,
		PvKeyPrefix:   "yprv",
		PubKeyFlag:    0x049d7cb2,
		PubKeyPrefix:  "ypub",
		AddrEncodings: []AddrEncoding{P2WPKHInP2SH},
		Path:          "m/49'/0'",
	}
"#

/-- bip32/reg_ver_bytes.go:160-168. -/
def t3 : List Nat := text! r#"	Bitcoinzprvzpub = VersionBytes{
		Coin:          "Bitcoin",
		PvtKeyFlag:    0x04b2430c,
		PvKeyPrefix:   "zprv",
		PubKeyFlag:    0x04b24746,
		PubKeyPrefix:  "zpub",
		AddrEncodings: []AddrEncoding{P2WPKH},
		Path:          "m/84'/0'",
	}
"#

/-- bip32/reg_ver_bytes.go:169-177. -/
def t4 : List Nat := text! r#"	BitcoinYprvYpub = VersionBytes{
		Coin:          "Bitcoin",
		PvtKeyFlag:    0x0295b005,
		PvKeyPrefix:   "Yprv",
		PubKeyFlag:    0x0295b43f,
		PubKeyPrefix:  "Ypub",
		AddrEncodings: []AddrEncoding{P2WSHInP2SH},
		Path:          "m/84'/0'",
	}
"#

/-- bip32/reg_ver_bytes.go:178-186. -/
def t5 : List Nat := text! r#"	BitcoinZprvZpub = VersionBytes{
		Coin:          "Bitcoin",
		PvtKeyFlag:    0x02aa7a99,
		PvKeyPrefix:   "Zprv",
		PubKeyFlag:    0x02aa7ed3,
		PubKeyPrefix:  "Zpub",
		AddrEncodings: []AddrEncoding{P2WSH},
		Path:          "m/84'/0'",
	}
"#

/-- bip32/reg_ver_bytes.go:187-195. -/
def t6 : List Nat := text! r#"	Bitcointprvtpub = VersionBytes{
		Coin:          "Bitcoin Testnet",
		PvtKeyFlag:    0x04358394,
		PvKeyPrefix:   "tprv",
		PubKeyFlag:    0x043587cf,
		PubKeyPrefix:  "tpub",
		AddrEncodings: []AddrEncoding{P2PKH, P2SH},
		Path:          "m/44'/1'",
	}
"#

/-- bip32/reg_ver_bytes.go:196-204. -/
def t7 : List Nat := text! r#"	Bitcoinuprvupub = VersionBytes{
		Coin:          "Bitcoin Testnet",
		PvtKeyFlag:    0x044a4e28,
		PvKeyPrefix:   "uprv",
		PubKeyFlag:    0x044a5262,
		PubKeyPrefix:  "upub",
		AddrEncodings: []AddrEncoding{P2WPKHInP2SH},
		Path:          "m/49'/1'",
	}
"#

/-- bip32/reg_ver_bytes.go:205-213. -/
def t8 : List Nat := text! r#"	Bitcoinvprvvpub = VersionBytes{
		Coin:          "Bitcoin Testnet",
		PvtKeyFlag:    0x045f18bc,
		PvKeyPrefix:   "vprv",
		PubKeyFlag:    0x045f1cf6,
		PubKeyPrefix:  "vpub",
		AddrEncodings: []AddrEncoding{P2WPKH},
		Path:          "m/84'/1'",
	}
"#

/-- bip32/reg_ver_bytes.go:214-222. -/
def t9 : List Nat := text! r#"	BitcoinUprvUpub = VersionBytes{
		Coin:          "Bitcoin Testnet",
		PvtKeyFlag:    0x024285b5,
		PvKeyPrefix:   "Uprv",
		PubKeyFlag:    0x024289ef,
		PubKeyPrefix:  "Upub",
		AddrEncodings: []AddrEncoding{P2WSHInP2SH},
		Path:          "m/84'/1'",
	}
"#

/-- bip32/reg_ver_bytes.go:223-231. -/
def t10 : List Nat := text! r#"	BitcoinVprvVpub = VersionBytes{
		Coin:          "Bitcoin Testnet",
		PvtKeyFlag:    0x02575048,
		PvKeyPrefix:   "Vprv",
		PubKeyFlag:    0x02575483,
		PubKeyPrefix:  "Vpub",
		AddrEncodings: []AddrEncoding{P2WSH},
		Path:          "m/84'/1'",
	}
"#

/-- bip32/reg_ver_bytes.go:232-240. -/
def t11 : List Nat := text! r#"	Groestlcoinxprvxpub = VersionBytes{
		Coin:          "Groestlcoin",
		PvtKeyFlag:    0x0488ade4,
		PvKeyPrefix:   "xprv",
		PubKeyFlag:    0x0488b21e,
		PubKeyPrefix:  "xpub",
		AddrEncodings: []AddrEncoding{P2PKH, P2SH},
		Path:          "m/44'/17'",
	}
"#

/-- bip32/reg_ver_bytes.go:241-249. -/
def t12 : List Nat := text! r#"	Groestlcoinyprvypub = VersionBytes{
		Coin:          "Groestlcoin",
		PvtKeyFlag:    0x049d7878,
		PvKeyPrefix:   "yprv",
		PubKeyFlag:    0x049d7cb2,
		PubKeyPrefix:  "ypub",
		AddrEncodings: []AddrEncoding{P2WPKHInP2SH},
		Path:          "m/49'/17'",
	}
"#

/-- bip32/reg_ver_bytes.go:250-258. -/
def t13 : List Nat := text! r#"	Groestlcoinzprvzpub = VersionBytes{
		Coin:          "Groestlcoin",
		PvtKeyFlag:    0x04b2430c,
		PvKeyPrefix:   "zprv",
		PubKeyFlag:    0x04b24746,
		PubKeyPrefix:  "zpub",
		AddrEncodings: []AddrEncoding{P2WPKH},
		Path:          "m/84'/17'",
	}
"#

/-- bip32/reg_ver_bytes.go:259-267. -/
def t14 : List Nat := text! r#"	GroestlcoinYprvYpub = VersionBytes{
		Coin:          "Groestlcoin",
		PvtKeyFlag:    0x0295b005,
		PvKeyPrefix:   "Yprv",
		PubKeyFlag:    0x0295b43f,
		PubKeyPrefix:  "Ypub",
		AddrEncodings: []AddrEncoding{P2WSHInP2SH},
		Path:          "m/84'/17'",
	}
"#

/-- bip32/reg_ver_bytes.go:268-276. -/
def t15 : List Nat := text! r#"	GroestlcoinZprvZpub = VersionBytes{
		Coin:          "Groestlcoin",
		PvtKeyFlag:    0x02aa7a99,
		PvKeyPrefix:   "Zprv",
		PubKeyFlag:    0x02aa7ed3,
		PubKeyPrefix:  "Zpub",
		AddrEncodings: []AddrEncoding{P2WSH},
		Path:          "m/84'/17'",
	}
"#

/-- bip32/reg_ver_bytes.go:277-285. -/
def t16 : List Nat := text! r#"	Groestlcointprvtpub = VersionBytes{
		Coin:          "Groestlcoin Testnet",
		PvtKeyFlag:    0x04358394,
		PvKeyPrefix:   "tprv",
		PubKeyFlag:    0x043587cf,
		PubKeyPrefix:  "tpub",
		AddrEncodings: []AddrEncoding{P2PKH, P2SH},
		Path:          "m/44'/1'",
	}
"#

/-- bip32/reg_ver_bytes.go:286-294. -/
def t17 : List Nat := text! r#"	Groestlcoinuprvupub = VersionBytes{
		Coin:          "Groestlcoin Testnet",
		PvtKeyFlag:    0x044a4e28,
		PvKeyPrefix:   "uprv",
		PubKeyFlag:    0x044a5262,
		PubKeyPrefix:  "upub",
		AddrEncodings: []AddrEncoding{P2WPKHInP2SH},
		Path:          "m/49'/1'",
	}
"#

/-- bip32/reg_ver_bytes.go:295-303. -/
def t18 : List Nat := text! r#"	Groestlcoinvprvvpub = VersionBytes{
		Coin:          "Groestlcoin Testnet",
		PvtKeyFlag:    0x045f18bc,
		PvKeyPrefix:   "vprv",
		PubKeyFlag:    0x045f1cf6,
		PubKeyPrefix:  "vpub",
		AddrEncodings: []AddrEncoding{P2WPKH},
		Path:          "m/84'/1'",
	}
"#

/-- bip32/reg_ver_bytes.go:304-312. -/
def t19 : List Nat := text! r#"	GroestlcoinUprvUpub = VersionBytes{
		Coin:          "Groestlcoin Testnet",
		PvtKeyFlag:    0x024285b5,
		PvKeyPrefix:   "Uprv",
		PubKeyFlag:    0x024289ef,
		PubKeyPrefix:  "Upub",
		AddrEncodings: []AddrEncoding{P2WSHInP2SH},
		Path:          "m/84'/1'",
	}
"#

/-- bip32/reg_ver_bytes.go:313-321. -/
def t20 : List Nat := text! r#"	GroestlcoinVprvVpub = VersionBytes{
		Coin:          "Groestlcoin Testnet",
		PvtKeyFlag:    0x02575048,
		PvKeyPrefix:   "Vprv",
		PubKeyFlag:    0x02575483,
		PubKeyPrefix:  "Vpub",
		AddrEncodings: []AddrEncoding{P2WSH},
		Path:          "m/84'/1'",
	}
"#

/-- bip32/reg_ver_bytes.go:322-330. -/
def t21 : List Nat := text! r#"	LitecoinLtpvLtub = VersionBytes{
		Coin:          "Litecoin",
		PvtKeyFlag:    0x019d9cfe,
		PvKeyPrefix:   "Ltpv",
		PubKeyFlag:    0x019da462,
		PubKeyPrefix:  "Ltub",
		AddrEncodings: []AddrEncoding{P2PKH, P2SH},
		Path:          "m/44'/2'",
	}
"#

/-- bip32/reg_ver_bytes.go:331-339. -/
def t22 : List Nat := text! r#"	LitecoinMtpvMtub = VersionBytes{
		Coin:          "Litecoin",
		PvtKeyFlag:    0x01b26792,
		PvKeyPrefix:   "Mtpv",
		PubKeyFlag:    0x01b26ef6,
		PubKeyPrefix:  "Mtub",
		AddrEncodings: []AddrEncoding{P2WPKHInP2SH},
		Path:          "m/49'/2'",
	}
"#

/-- bip32/reg_ver_bytes.go:340-348. -/
def t23 : List Nat := text! r#"	Litecointtpvttub = VersionBytes{
		Coin:          "Litecoin Testnet",
		PvtKeyFlag:    0x0436ef7d,
		PvKeyPrefix:   "ttpv",
		PubKeyFlag:    0x0436f6e1,
		PubKeyPrefix:  "ttub",
		AddrEncodings: []AddrEncoding{P2PKH, P2SH},
		Path:          "m/44'/1'",
	}
"#

/-- bip32/reg_ver_bytes.go:349-357. -/
def t24 : List Nat := text! r#"	Nexaxprvxpub = VersionBytes{
		Coin:          "Nexa",
		PvtKeyFlag:    0x426c6b73,
		PvKeyPrefix:   "xprv",
		PubKeyFlag:    0x42696720,
		PubKeyPrefix:  "xpub",
		AddrEncodings: []AddrEncoding{P2PKT, P2PKH, P2SH},
		Path:          "m/44'/29223'",
	}
"#

/-- bip32/reg_ver_bytes.go:358-366. -/
def t25 : List Nat := text! r#"	Nexaxprvxpub2 = VersionBytes{
		Coin:          "Nexa Testnet",
		PvtKeyFlag:    0x04358394,
		PvKeyPrefix:   "xprv",
		PubKeyFlag:    0x043587cf,
		PubKeyPrefix:  "xpub",
		AddrEncodings: []AddrEncoding{P2PKH, P2SH},
		Path:          "m/44'/1'",
	}
"#

/-- bip32/reg_ver_bytes.go:367-375. -/
def t26 : List Nat := text! r#"	Polispprvppub = VersionBytes{
		Coin:          "Polis",
		PvtKeyFlag:    0x03e25945,
		PvKeyPrefix:   "pprv",
		PubKeyFlag:    0x03e25d7e,
		PubKeyPrefix:  "ppub",
		AddrEncodings: []AddrEncoding{P2PKH},
		Path:          "m/44'/1997'",
	}
"#

/-- bip32/reg_ver_bytes.go:376-384. -/
def t27 : List Nat := text! r#"	Syscoinzprvzpub = VersionBytes{
		Coin:          "Syscoin",
		PvtKeyFlag:    0x04b2430c,
		PvKeyPrefix:   "zprv",
		PubKeyFlag:    0x04b24746,
		PubKeyPrefix:  "zpub",
		AddrEncodings: []AddrEncoding{P2WPKH},
		Path:          "m/84'/57'",
	}
"#

/-- bip32/reg_ver_bytes.go:385-393. -/
def t28 : List Nat := text! r#"	SyscoinZprvZpub = VersionBytes{
		Coin:          "Syscoin",
		PvtKeyFlag:    0x02aa7a99,
		PvKeyPrefix:   "Zprv",
		PubKeyFlag:    0x02aa7ed3,
		PubKeyPrefix:  "Zpub",
		AddrEncodings: []AddrEncoding{P2WSH},
		Path:          "m/84'/57'",
	}
"#

/-- bip32/reg_ver_bytes.go:394-402. -/
def t29 : List Nat := text! r#"	Vertcoinvtcpvtcv = VersionBytes{
		Coin:          "Vertcoin",
		PvtKeyFlag:    0x0488ade4,
		PvKeyPrefix:   "vtcv",
		PubKeyFlag:    0x0488b21e,
		PubKeyPrefix:  "vtcp",
		AddrEncodings: []AddrEncoding{P2PKH, P2SH},
		Path:          "m/44'/28'",
	}
"#

/-- bip32/reg_ver_bytes.go:403-424. -/
def t30 : List Nat := text! r#")

// PathToHDBytesSlice Registered HD Version Bytes Path (Two Level) To VersionBytes
var PathToHDBytesSlice = map[string][]VersionBytes{
	"m/44'/0'": {Bitcoinxprvxpub},
	"m/49'/0'": {Bitcoinyprvypub},
	"m/84'/0'": {Bitcoinzprvzpub, BitcoinYprvYpub, BitcoinZprvZpub},
	"m/44'/1'": {Bitcointprvtpub, Groestlcointprvtpub, Litecointtpvttub,
		Nexaxprvxpub2},
	"m/49'/1'": {Bitcoinuprvupub, Groestlcoinuprvupub},
	"m/84'/1'": {Bitcoinvprvvpub, BitcoinUprvUpub, BitcoinVprvVpub,
		Groestlcoinvprvvpub, GroestlcoinUprvUpub, GroestlcoinVprvVpub},
	"m/44'/17'":    {Groestlcoinxprvxpub},
	"m/49'/17'":    {Groestlcoinyprvypub},
	"m/84'/17'":    {Groestlcoinzprvzpub, GroestlcoinYprvYpub, GroestlcoinZprvZpub},
	"m/44'/2'":     {LitecoinLtpvLtub},
	"m/49'/2'":     {LitecoinMtpvMtub},
	"m/44'/29223'": {Nexaxprvxpub},
	"m/44'/28'":    {Vertcoinvtcpvtcv},
	"m/44'/1997'":  {Polispprvppub},
	"m/84'/57'":    {Syscoinzprvzpub, SyscoinZprvZpub},
}
"#

/-- The parts. -/
def parts : List (List Nat) := [t0, t1, t2, t3, t4, t5, t6, t7, t8, t9, t10, t11, t12, t13, t14, t15, t16, t17, t18, t19, t20, t21, t22, t23, t24, t25, t26, t27, t28, t29, t30]

end Bips.Data.VersionsText
