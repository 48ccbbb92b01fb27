import Verif.Data.TextMacro

/-!
# bip44/coins.go:12-1149, byte for byte

Copied by tools/gen_text.py.
-/

namespace Bips.Data.CoinsText

/-- bip44/coins.go:12-12. -/
def t0 : List Nat := text! r#"var RegCoins = []Coin{
"#

/-- bip44/coins.go:13-76. -/
def t1 : List Nat := text! r#"	{Type: 0, PathComponent: 0x80000000, Symbol: "BTC", Name: "Bitcoin"},
	{Type: 1, PathComponent: 0x80000001, Symbol: "", Name: "Testnet (all coins)"},
	{Type: 2, PathComponent: 0x80000002, Symbol: "LTC", Name: "Litecoin"},
	{Type: 3, PathComponent: 0x80000003, Symbol: "DOGE", Name: "Dogecoin"},
	{Type: 4, PathComponent: 0x80000004, Symbol: "RDD", Name: "Reddcoin"},
	{Type: 5, PathComponent: 0x80000005, Symbol: "DASH", Name: "Dash"},
	{Type: 6, PathComponent: 0x80000006, Symbol: "PPC", Name: "Peercoin"},
	{Type: 7, PathComponent: 0x80000007, Symbol: "NMC", Name: "Namecoin"},
	{Type: 8, PathComponent: 0x80000008, Symbol: "FTC", Name: "Feathercoin"},
	{Type: 9, PathComponent: 0x80000009, Symbol: "XCP", Name: "Counterparty"},
	{Type: 10, PathComponent: 0x8000000a, Symbol: "BLK", Name: "Blackcoin"},
	{Type: 11, PathComponent: 0x8000000b, Symbol: "NSR", Name: "NuShares"},
	{Type: 12, PathComponent: 0x8000000c, Symbol: "NBT", Name: "NuBits"},
	{Type: 13, PathComponent: 0x8000000d, Symbol: "MZC", Name: "Mazacoin"},
	{Type: 14, PathComponent: 0x8000000e, Symbol: "VIA", Name: "Viacoin"},
	{Type: 15, PathComponent: 0x8000000f, Symbol: "XCH", Name: "ClearingHouse"},
	{Type: 16, PathComponent: 0x80000010, Symbol: "RBY", Name: "Rubycoin"},
	{Type: 17, PathComponent: 0x80000011, Symbol: "GRS", Name: "Groestlcoin"},
	{Type: 18, PathComponent: 0x80000012, Symbol: "DGC", Name: "Digitalcoin"},
	{Type: 19, PathComponent: 0x80000013, Symbol: "CCN", Name: "Cannacoin"},
	{Type: 20, PathComponent: 0x80000014, Symbol: "DGB", Name: "DigiByte"},
	{Type: 21, PathComponent: 0x80000015, Symbol: "", Name: "Open Assets"},
	{Type: 22, PathComponent: 0x80000016, Symbol: "MONA", Name: "Monacoin"},
	{Type: 23, PathComponent: 0x80000017, Symbol: "CLAM", Name: "Clams"},
	{Type: 24, PathComponent: 0x80000018, Symbol: "XPM", Name: "Primecoin"},
	{Type: 25, PathComponent: 0x80000019, Symbol: "NEOS", Name: "Neoscoin"},
	{Type: 26, PathComponent: 0x8000001a, Symbol: "JBS", Name: "Jumbucks"},
	{Type: 27, PathComponent: 0x8000001b, Symbol: "ZRC", Name: "ziftrCOIN"},
	{Type: 28, PathComponent: 0x8000001c, Symbol: "VTC", Name: "Vertcoin"},
	{Type: 29, PathComponent: 0x8000001d, Symbol: "NXT", Name: "NXT"},
	{Type: 30, PathComponent: 0x8000001e, Symbol: "BURST", Name: "Burst"},
	{Type: 31, PathComponent: 0x8000001f, Symbol: "MUE", Name: "MonetaryUnit"},
	{Type: 32, PathComponent: 0x80000020, Symbol: "ZOOM", Name: "Zoom"},
	{Type: 33, PathComponent: 0x80000021, Symbol: "VASH", Name: "Virtual Cash"},
	{Type: 34, PathComponent: 0x80000022, Symbol: "CDN", Name: "Canada eCoin"},
	{Type: 35, PathComponent: 0x80000023, Symbol: "SDC", Name: "ShadowCash"},
	{Type: 36, PathComponent: 0x80000024, Symbol: "PKB", Name: "ParkByte"},
	{Type: 37, PathComponent: 0x80000025, Symbol: "PND", Name: "Pandacoin"},
	{Type: 38, PathComponent: 0x80000026, Symbol: "START", Name: "StartCOIN"},
	{Type: 39, PathComponent: 0x80000027, Symbol: "MOIN", Name: "MOIN"},
	{Type: 40, PathComponent: 0x80000028, Symbol: "EXP", Name: "Expanse"},
	{Type: 41, PathComponent: 0x80000029, Symbol: "EMC2", Name: "Einsteinium"},
	{Type: 42, PathComponent: 0x8000002a, Symbol: "DCR", Name: "Decred"},
	{Type: 43, PathComponent: 0x8000002b, Symbol: "XEM", Name: "NEM"},
	{Type: 44, PathComponent: 0x8000002c, Symbol: "PART", Name: "Particl"},
	{Type: 45, PathComponent: 0x8000002d, Symbol: "ARG", Name: "Argentum (dead)"},
	{Type: 46, PathComponent: 0x8000002e, Symbol: "", Name: "Libertas"},
	{Type: 47, PathComponent: 0x8000002f, Symbol: "", Name: "Posw coin"},
	{Type: 48, PathComponent: 0x80000030, Symbol: "SHR", Name: "Shreeji"},
	{Type: 49, PathComponent: 0x80000031, Symbol: "GCR", Name: "Global Currency Reserve (GCRcoin)"},
	{Type: 50, PathComponent: 0x80000032, Symbol: "NVC", Name: "Novacoin"},
	{Type: 51, PathComponent: 0x80000033, Symbol: "AC", Name: "Asiacoin"},
	{Type: 52, PathComponent: 0x80000034, Symbol: "BTCD", Name: "BitcoinDark"},
	{Type: 53, PathComponent: 0x80000035, Symbol: "DOPE", Name: "Dopecoin"},
	{Type: 54, PathComponent: 0x80000036, Symbol: "TPC", Name: "Templecoin"},
	{Type: 55, PathComponent: 0x80000037, Symbol: "AIB", Name: "AIB"},
	{Type: 56, PathComponent: 0x80000038, Symbol: "EDRC", Name: "EDRCoin"},
	{Type: 57, PathComponent: 0x80000039, Symbol: "SYS", Name: "Syscoin"},
	{Type: 58, PathComponent: 0x8000003a, Symbol: "SLR", Name: "Solarcoin"},
	{Type: 59, PathComponent: 0x8000003b, Symbol: "SMLY", Name: "Smileycoin"},
	{Type: 60, PathComponent: 0x8000003c, Symbol: "ETH", Name: "Ether"},
	{Type: 61, PathComponent: 0x8000003d, Symbol: "ETC", Name: "Ether Classic"},
	{Type: 62, PathComponent: 0x8000003e, Symbol: "PSB", Name: "Pesobit"},
	{Type: 63, PathComponent: 0x8000003f, Symbol: "LDCN", Name: "Landcoin (dead)"},
"#

/-- bip44/coins.go:77-140. -/
def t2 : List Nat := text! r#"	{Type: 64, PathComponent: 0x80000040, Symbol: "", Name: "Open Chain"},
	{Type: 65, PathComponent: 0x80000041, Symbol: "XBC", Name: "Bitcoinplus"},
	{Type: 66, PathComponent: 0x80000042, Symbol: "IOP", Name: "Internet of People"},
	{Type: 67, PathComponent: 0x80000043, Symbol: "NXS", Name: "Nexus"},
	{Type: 68, PathComponent: 0x80000044, Symbol: "INSN", Name: "InsaneCoin"},
	{Type: 69, PathComponent: 0x80000045, Symbol: "OK", Name: "OKCash"},
	{Type: 70, PathComponent: 0x80000046, Symbol: "BRIT", Name: "BritCoin"},
	{Type: 71, PathComponent: 0x80000047, Symbol: "CMP", Name: "Compcoin"},
	{Type: 72, PathComponent: 0x80000048, Symbol: "CRW", Name: "Crown"},
	{Type: 73, PathComponent: 0x80000049, Symbol: "BELA", Name: "BelaCoin"},
	{Type: 74, PathComponent: 0x8000004a, Symbol: "ICX", Name: "ICON"},
	{Type: 75, PathComponent: 0x8000004b, Symbol: "FJC", Name: "FujiCoin"},
	{Type: 76, PathComponent: 0x8000004c, Symbol: "MIX", Name: "MIX"},
	{Type: 77, PathComponent: 0x8000004d, Symbol: "XVG", Name: "Verge Currency"},
	{Type: 78, PathComponent: 0x8000004e, Symbol: "EFL", Name: "Electronic Gulden"},
	{Type: 79, PathComponent: 0x8000004f, Symbol: "CLUB", Name: "ClubCoin"},
	{Type: 80, PathComponent: 0x80000050, Symbol: "RICHX", Name: "RichCoin"},
	{Type: 81, PathComponent: 0x80000051, Symbol: "POT", Name: "Potcoin"},
	{Type: 82, PathComponent: 0x80000052, Symbol: "QRK", Name: "Quarkcoin"},
	{Type: 83, PathComponent: 0x80000053, Symbol: "TRC", Name: "Terracoin"},
	{Type: 84, PathComponent: 0x80000054, Symbol: "GRC", Name: "Gridcoin"},
	{Type: 85, PathComponent: 0x80000055, Symbol: "AUR", Name: "Auroracoin"},
	{Type: 86, PathComponent: 0x80000056, Symbol: "IXC", Name: "IXCoin"},
	{Type: 87, PathComponent: 0x80000057, Symbol: "NLG", Name: "Gulden"},
	{Type: 88, PathComponent: 0x80000058, Symbol: "BITB", Name: "BitBean"},
	{Type: 89, PathComponent: 0x80000059, Symbol: "BTA", Name: "Bata"},
	{Type: 90, PathComponent: 0x8000005a, Symbol: "XMY", Name: "Myriadcoin"},
	{Type: 91, PathComponent: 0x8000005b, Symbol: "BSD", Name: "BitSend"},
	{Type: 92, PathComponent: 0x8000005c, Symbol: "UNO", Name: "Unobtanium"},
	{Type: 93, PathComponent: 0x8000005d, Symbol: "MTR", Name: "MasterTrader"},
	{Type: 94, PathComponent: 0x8000005e, Symbol: "GB", Name: "GoldBlocks"},
	{Type: 95, PathComponent: 0x8000005f, Symbol: "SHM", Name: "Saham"},
	{Type: 96, PathComponent: 0x80000060, Symbol: "CRX", Name: "Chronos"},
	{Type: 97, PathComponent: 0x80000061, Symbol: "BIQ", Name: "Ubiquoin"},
	{Type: 98, PathComponent: 0x80000062, Symbol: "EVO", Name: "Evotion"},
	{Type: 99, PathComponent: 0x80000063, Symbol: "STO", Name: "SaveTheOcean"},
	{Type: 100, PathComponent: 0x80000064, Symbol: "BIGUP", Name: "BigUp"},
	{Type: 101, PathComponent: 0x80000065, Symbol: "GAME", Name: "GameCredits"},
	{Type: 102, PathComponent: 0x80000066, Symbol: "DLC", Name: "Dollarcoins"},
	{Type: 103, PathComponent: 0x80000067, Symbol: "ZYD", Name: "Zayedcoin"},
	{Type: 104, PathComponent: 0x80000068, Symbol: "DBIC", Name: "Dubaicoin"},
	{Type: 105, PathComponent: 0x80000069, Symbol: "STRAT", Name: "Stratis"},
	{Type: 106, PathComponent: 0x8000006a, Symbol: "SH", Name: "Shilling"},
	{Type: 107, PathComponent: 0x8000006b, Symbol: "MARS", Name: "MarsCoin"},
	{Type: 108, PathComponent: 0x8000006c, Symbol: "UBQ", Name: "Ubiq"},
	{Type: 109, PathComponent: 0x8000006d, Symbol: "PTC", Name: "Pesetacoin"},
	{Type: 110, PathComponent: 0x8000006e, Symbol: "NRO", Name: "Neurocoin"},
	{Type: 111, PathComponent: 0x8000006f, Symbol: "ARK", Name: "ARK"},
	{Type: 112, PathComponent: 0x80000070, Symbol: "USC", Name: "UltimateSecureCashMain"},
	{Type: 113, PathComponent: 0x80000071, Symbol: "THC", Name: "Hempcoin"},
	{Type: 114, PathComponent: 0x80000072, Symbol: "LINX", Name: "Linx"},
	{Type: 115, PathComponent: 0x80000073, Symbol: "ECN", Name: "Ecoin"},
	{Type: 116, PathComponent: 0x80000074, Symbol: "DNR", Name: "Denarius"},
	{Type: 117, PathComponent: 0x80000075, Symbol: "PINK", Name: "Pinkcoin"},
	{Type: 118, PathComponent: 0x80000076, Symbol: "ATOM", Name: "Atom"},
	{Type: 119, PathComponent: 0x80000077, Symbol: "PIVX", Name: "Pivx"},
	{Type: 120, PathComponent: 0x80000078, Symbol: "FLASH", Name: "Flashcoin"},
	{Type: 121, PathComponent: 0x80000079, Symbol: "ZEN", Name: "Zencash"},
	{Type: 122, PathComponent: 0x8000007a, Symbol: "PUT", Name: "Putincoin"},
	{Type: 123, PathComponent: 0x8000007b, Symbol: "ZNY", Name: "BitZeny"},
	{Type: 124, PathComponent: 0x8000007c, Symbol: "UNIFY", Name: "Unify"},
	{Type: 125, PathComponent: 0x8000007d, Symbol: "XST", Name: "StealthCoin"},
	{Type: 126, PathComponent: 0x8000007e, Symbol: "BRK", Name: "Breakout Coin"},
	{Type: 127, PathComponent: 0x8000007f, Symbol: "VC", Name: "Vcash"},
"#

/-- bip44/coins.go:141-204. -/
def t3 : List Nat := text! r#"	{Type: 128, PathComponent: 0x80000080, Symbol: "XMR", Name: "Monero"},
	{Type: 129, PathComponent: 0x80000081, Symbol: "VOX", Name: "Voxels"},
	{Type: 130, PathComponent: 0x80000082, Symbol: "NAV", Name: "NavCoin"},
	{Type: 131, PathComponent: 0x80000083, Symbol: "FCT", Name: "Factom Factoids"},
	{Type: 132, PathComponent: 0x80000084, Symbol: "EC", Name: "Factom Entry Credits"},
	{Type: 133, PathComponent: 0x80000085, Symbol: "ZEC", Name: "Zcash"},
	{Type: 134, PathComponent: 0x80000086, Symbol: "LSK", Name: "Lisk"},
	{Type: 135, PathComponent: 0x80000087, Symbol: "STEEM", Name: "Steem"},
	{Type: 136, PathComponent: 0x80000088, Symbol: "XZC", Name: "ZCoin"},
	{Type: 137, PathComponent: 0x80000089, Symbol: "RBTC", Name: "RSK"},
	{Type: 138, PathComponent: 0x8000008a, Symbol: "", Name: "Giftblock"},
	{Type: 139, PathComponent: 0x8000008b, Symbol: "RPT", Name: "RealPointCoin"},
	{Type: 140, PathComponent: 0x8000008c, Symbol: "LBC", Name: "LBRY Credits"},
	{Type: 141, PathComponent: 0x8000008d, Symbol: "KMD", Name: "Komodo"},
	{Type: 142, PathComponent: 0x8000008e, Symbol: "BSQ", Name: "bisq Token"},
	{Type: 143, PathComponent: 0x8000008f, Symbol: "RIC", Name: "Riecoin"},
	{Type: 144, PathComponent: 0x80000090, Symbol: "XRP", Name: "Ripple"},
	{Type: 145, PathComponent: 0x80000091, Symbol: "BCH", Name: "Bitcoin Cash"},
	{Type: 146, PathComponent: 0x80000092, Symbol: "NEBL", Name: "Neblio"},
	{Type: 147, PathComponent: 0x80000093, Symbol: "ZCL", Name: "ZClassic"},
	{Type: 148, PathComponent: 0x80000094, Symbol: "XLM", Name: "Stellar Lumens"},
	{Type: 149, PathComponent: 0x80000095, Symbol: "NLC2", Name: "NoLimitCoin2"},
	{Type: 150, PathComponent: 0x80000096, Symbol: "WHL", Name: "WhaleCoin"},
	{Type: 151, PathComponent: 0x80000097, Symbol: "ERC", Name: "EuropeCoin"},
	{Type: 152, PathComponent: 0x80000098, Symbol: "DMD", Name: "Diamond"},
	{Type: 153, PathComponent: 0x80000099, Symbol: "BTM", Name: "Bytom"},
	{Type: 154, PathComponent: 0x8000009a, Symbol: "BIO", Name: "Biocoin"},
	{Type: 155, PathComponent: 0x8000009b, Symbol: "XWCC", Name: "Whitecoin Classic"},
	{Type: 156, PathComponent: 0x8000009c, Symbol: "BTG", Name: "Bitcoin Gold"},
	{Type: 157, PathComponent: 0x8000009d, Symbol: "BTC2X", Name: "Bitcoin 2x"},
	{Type: 158, PathComponent: 0x8000009e, Symbol: "SSN", Name: "SuperSkynet"},
	{Type: 159, PathComponent: 0x8000009f, Symbol: "TOA", Name: "TOACoin"},
	{Type: 160, PathComponent: 0x800000a0, Symbol: "BTX", Name: "Bitcore"},
	{Type: 161, PathComponent: 0x800000a1, Symbol: "ACC", Name: "Adcoin"},
	{Type: 162, PathComponent: 0x800000a2, Symbol: "BCO", Name: "Bridgecoin"},
	{Type: 163, PathComponent: 0x800000a3, Symbol: "ELLA", Name: "Ellaism"},
	{Type: 164, PathComponent: 0x800000a4, Symbol: "PIRL", Name: "Pirl"},
	{Type: 165, PathComponent: 0x800000a5, Symbol: "XNO", Name: "Nano"},
	{Type: 166, PathComponent: 0x800000a6, Symbol: "VIVO", Name: "Vivo"},
	{Type: 167, PathComponent: 0x800000a7, Symbol: "FRST", Name: "Firstcoin"},
	{Type: 168, PathComponent: 0x800000a8, Symbol: "HNC", Name: "Helleniccoin"},
	{Type: 169, PathComponent: 0x800000a9, Symbol: "BUZZ", Name: "BUZZ"},
	{Type: 170, PathComponent: 0x800000aa, Symbol: "MBRS", Name: "Ember"},
	{Type: 171, PathComponent: 0x800000ab, Symbol: "HC", Name: "Hcash"},
	{Type: 172, PathComponent: 0x800000ac, Symbol: "HTML", Name: "HTMLCOIN"},
	{Type: 173, PathComponent: 0x800000ad, Symbol: "ODN", Name: "Obsidian"},
	{Type: 174, PathComponent: 0x800000ae, Symbol: "ONX", Name: "OnixCoin"},
	{Type: 175, PathComponent: 0x800000af, Symbol: "RVN", Name: "Ravencoin"},
	{Type: 176, PathComponent: 0x800000b0, Symbol: "GBX", Name: "GoByte"},
	{Type: 177, PathComponent: 0x800000b1, Symbol: "BTCZ", Name: "BitcoinZ"},
	{Type: 178, PathComponent: 0x800000b2, Symbol: "POA", Name: "Poa"},
	{Type: 179, PathComponent: 0x800000b3, Symbol: "NYC", Name: "NewYorkCoin"},
	{Type: 180, PathComponent: 0x800000b4, Symbol: "MXT", Name: "MarteXcoin"},
	{Type: 181, PathComponent: 0x800000b5, Symbol: "WC", Name: "Wincoin"},
	{Type: 182, PathComponent: 0x800000b6, Symbol: "MNX", Name: "Minexcoin"},
	{Type: 183, PathComponent: 0x800000b7, Symbol: "BTCP", Name: "Bitcoin Private"},
	{Type: 184, PathComponent: 0x800000b8, Symbol: "MUSIC", Name: "Musicoin"},
	{Type: 185, PathComponent: 0x800000b9, Symbol: "BCA", Name: "Bitcoin Atom"},
	{Type: 186, PathComponent: 0x800000ba, Symbol: "CRAVE", Name: "Crave"},
	{Type: 187, PathComponent: 0x800000bb, Symbol: "STAK", Name: "STRAKS"},
	{Type: 188, PathComponent: 0x800000bc, Symbol: "WBTC", Name: "World Bitcoin"},
	{Type: 189, PathComponent: 0x800000bd, Symbol: "LCH", Name: "LiteCash"},
	{Type: 190, PathComponent: 0x800000be, Symbol: "EXCL", Name: "ExclusiveCoin"},
	{Type: 191, PathComponent: 0x800000bf, Symbol: "", Name: "Lynx"},
"#

/-- bip44/coins.go:205-268. -/
def t4 : List Nat := text! r#"	{Type: 192, PathComponent: 0x800000c0, Symbol: "LCC", Name: "LitecoinCash"},
	{Type: 193, PathComponent: 0x800000c1, Symbol: "XFE", Name: "Feirm"},
	{Type: 194, PathComponent: 0x800000c2, Symbol: "EOS", Name: "EOS"},
	{Type: 195, PathComponent: 0x800000c3, Symbol: "TRX", Name: "Tron"},
	{Type: 196, PathComponent: 0x800000c4, Symbol: "KOBO", Name: "Kobocoin"},
	{Type: 197, PathComponent: 0x800000c5, Symbol: "HUSH", Name: "HUSH"},
	{Type: 198, PathComponent: 0x800000c6, Symbol: "BAN", Name: "Banano"},
	{Type: 199, PathComponent: 0x800000c7, Symbol: "ETF", Name: "ETF"},
	{Type: 200, PathComponent: 0x800000c8, Symbol: "OMNI", Name: "Omni"},
	{Type: 201, PathComponent: 0x800000c9, Symbol: "BIFI", Name: "BitcoinFile"},
	{Type: 202, PathComponent: 0x800000ca, Symbol: "UFO", Name: "Uniform Fiscal Object"},
	{Type: 203, PathComponent: 0x800000cb, Symbol: "CNMC", Name: "Cryptonodes"},
	{Type: 204, PathComponent: 0x800000cc, Symbol: "BCN", Name: "Bytecoin"},
	{Type: 205, PathComponent: 0x800000cd, Symbol: "RIN", Name: "Ringo"},
	{Type: 206, PathComponent: 0x800000ce, Symbol: "ATP", Name: "Alaya"},
	{Type: 207, PathComponent: 0x800000cf, Symbol: "EVT", Name: "everiToken"},
	{Type: 208, PathComponent: 0x800000d0, Symbol: "ATN", Name: "ATN"},
	{Type: 209, PathComponent: 0x800000d1, Symbol: "BIS", Name: "Bismuth"},
	{Type: 210, PathComponent: 0x800000d2, Symbol: "NEET", Name: "NEETCOIN"},
	{Type: 211, PathComponent: 0x800000d3, Symbol: "BOPO", Name: "BopoChain"},
	{Type: 212, PathComponent: 0x800000d4, Symbol: "OOT", Name: "Utrum"},
	{Type: 213, PathComponent: 0x800000d5, Symbol: "ALIAS", Name: "Alias"},
	{Type: 214, PathComponent: 0x800000d6, Symbol: "MONK", Name: "Monkey Project"},
	{Type: 215, PathComponent: 0x800000d7, Symbol: "BOXY", Name: "BoxyCoin"},
	{Type: 216, PathComponent: 0x800000d8, Symbol: "FLO", Name: "Flo"},
	{Type: 217, PathComponent: 0x800000d9, Symbol: "MEC", Name: "Megacoin"},
	{Type: 218, PathComponent: 0x800000da, Symbol: "BTDX", Name: "BitCloud"},
	{Type: 219, PathComponent: 0x800000db, Symbol: "XAX", Name: "Artax"},
	{Type: 220, PathComponent: 0x800000dc, Symbol: "ANON", Name: "ANON"},
	{Type: 221, PathComponent: 0x800000dd, Symbol: "LTZ", Name: "LitecoinZ"},
	{Type: 222, PathComponent: 0x800000de, Symbol: "BITG", Name: "Bitcoin Green"},
	{Type: 223, PathComponent: 0x800000df, Symbol: "ICP", Name: "Internet Computer (DFINITY)"},
	{Type: 224, PathComponent: 0x800000e0, Symbol: "SMART", Name: "Smartcash"},
	{Type: 225, PathComponent: 0x800000e1, Symbol: "XUEZ", Name: "XUEZ"},
	{Type: 226, PathComponent: 0x800000e2, Symbol: "HLM", Name: "Helium"},
	{Type: 227, PathComponent: 0x800000e3, Symbol: "WEB", Name: "Webchain"},
	{Type: 228, PathComponent: 0x800000e4, Symbol: "ACM", Name: "Actinium"},
	{Type: 229, PathComponent: 0x800000e5, Symbol: "NOS", Name: "NOS Stable Coins"},
	{Type: 230, PathComponent: 0x800000e6, Symbol: "BITC", Name: "BitCash"},
	{Type: 231, PathComponent: 0x800000e7, Symbol: "HTH", Name: "Help The Homeless Coin"},
	{Type: 232, PathComponent: 0x800000e8, Symbol: "TZC", Name: "Trezarcoin"},
	{Type: 233, PathComponent: 0x800000e9, Symbol: "VAR", Name: "Varda"},
	{Type: 234, PathComponent: 0x800000ea, Symbol: "IOV", Name: "IOV"},
	{Type: 235, PathComponent: 0x800000eb, Symbol: "FIO", Name: "FIO"},
	{Type: 236, PathComponent: 0x800000ec, Symbol: "BSV", Name: "BitcoinSV"},
	{Type: 237, PathComponent: 0x800000ed, Symbol: "DXN", Name: "DEXON"},
	{Type: 238, PathComponent: 0x800000ee, Symbol: "QRL", Name: "Quantum Resistant Ledger"},
	{Type: 239, PathComponent: 0x800000ef, Symbol: "PCX", Name: "ChainX"},
	{Type: 240, PathComponent: 0x800000f0, Symbol: "LOKI", Name: "Loki"},
	{Type: 241, PathComponent: 0x800000f1, Symbol: "", Name: "Imagewallet"},
	{Type: 242, PathComponent: 0x800000f2, Symbol: "NIM", Name: "Nimiq"},
	{Type: 243, PathComponent: 0x800000f3, Symbol: "SOV", Name: "Sovereign Coin"},
	{Type: 244, PathComponent: 0x800000f4, Symbol: "JCT", Name: "Jibital Coin"},
	{Type: 245, PathComponent: 0x800000f5, Symbol: "SLP", Name: "Simple Ledger Protocol"},
	{Type: 246, PathComponent: 0x800000f6, Symbol: "EWT", Name: "Energy Web"},
	{Type: 247, PathComponent: 0x800000f7, Symbol: "UC", Name: "Ulord"},
	{Type: 248, PathComponent: 0x800000f8, Symbol: "EXOS", Name: "EXOS"},
	{Type: 249, PathComponent: 0x800000f9, Symbol: "ECA", Name: "Electra"},
	{Type: 250, PathComponent: 0x800000fa, Symbol: "SOOM", Name: "Soom"},
	{Type: 251, PathComponent: 0x800000fb, Symbol: "XRD", Name: "Redstone"},
	{Type: 252, PathComponent: 0x800000fc, Symbol: "FREE", Name: "FreeCoin"},
	{Type: 253, PathComponent: 0x800000fd, Symbol: "NPW", Name: "NewPowerCoin"},
	{Type: 254, PathComponent: 0x800000fe, Symbol: "BST", Name: "BlockStamp"},
	{Type: 255, PathComponent: 0x800000ff, Symbol: "", Name: "SmartHoldem"},
"#

/-- bip44/coins.go:269-332. -/
def t5 : List Nat := text! r#"	{Type: 256, PathComponent: 0x80000100, Symbol: "NANO", Name: "Bitcoin Nano"},
	{Type: 257, PathComponent: 0x80000101, Symbol: "BTCC", Name: "Bitcoin Core"},
	{Type: 258, PathComponent: 0x80000102, Symbol: "", Name: "Zen Protocol"},
	{Type: 259, PathComponent: 0x80000103, Symbol: "ZEST", Name: "Zest"},
	{Type: 260, PathComponent: 0x80000104, Symbol: "ABT", Name: "ArcBlock"},
	{Type: 261, PathComponent: 0x80000105, Symbol: "PION", Name: "Pion"},
	{Type: 262, PathComponent: 0x80000106, Symbol: "DT3", Name: "DreamTeam3"},
	{Type: 263, PathComponent: 0x80000107, Symbol: "ZBUX", Name: "Zbux"},
	{Type: 264, PathComponent: 0x80000108, Symbol: "KPL", Name: "Kepler"},
	{Type: 265, PathComponent: 0x80000109, Symbol: "TPAY", Name: "TokenPay"},
	{Type: 266, PathComponent: 0x8000010a, Symbol: "ZILLA", Name: "ChainZilla"},
	{Type: 267, PathComponent: 0x8000010b, Symbol: "ANK", Name: "Anker"},
	{Type: 268, PathComponent: 0x8000010c, Symbol: "BCC", Name: "BCChain"},
	{Type: 269, PathComponent: 0x8000010d, Symbol: "HPB", Name: "HPB"},
	{Type: 270, PathComponent: 0x8000010e, Symbol: "ONE", Name: "ONE"},
	{Type: 271, PathComponent: 0x8000010f, Symbol: "SBC", Name: "SBC"},
	{Type: 272, PathComponent: 0x80000110, Symbol: "IPC", Name: "IPChain"},
	{Type: 273, PathComponent: 0x80000111, Symbol: "DMTC", Name: "Dominantchain"},
	{Type: 274, PathComponent: 0x80000112, Symbol: "OGC", Name: "Onegram"},
	{Type: 275, PathComponent: 0x80000113, Symbol: "SHIT", Name: "Shitcoin"},
	{Type: 276, PathComponent: 0x80000114, Symbol: "ANDES", Name: "Andescoin"},
	{Type: 277, PathComponent: 0x80000115, Symbol: "AREPA", Name: "Arepacoin"},
	{Type: 278, PathComponent: 0x80000116, Symbol: "BOLI", Name: "Bolivarcoin"},
	{Type: 279, PathComponent: 0x80000117, Symbol: "RIL", Name: "Rilcoin"},
	{Type: 280, PathComponent: 0x80000118, Symbol: "HTR", Name: "Hathor Network"},
	{Type: 281, PathComponent: 0x80000119, Symbol: "ACME", Name: "Accumulate"},
	{Type: 282, PathComponent: 0x8000011a, Symbol: "BRAVO", Name: "BRAVO"},
	{Type: 283, PathComponent: 0x8000011b, Symbol: "ALGO", Name: "Algorand"},
	{Type: 284, PathComponent: 0x8000011c, Symbol: "BZX", Name: "Bitcoinzero"},
	{Type: 285, PathComponent: 0x8000011d, Symbol: "GXX", Name: "GravityCoin"},
	{Type: 286, PathComponent: 0x8000011e, Symbol: "HEAT", Name: "HEAT"},
	{Type: 287, PathComponent: 0x8000011f, Symbol: "XDN", Name: "DigitalNote"},
	{Type: 288, PathComponent: 0x80000120, Symbol: "FSN", Name: "FUSION"},
	{Type: 289, PathComponent: 0x80000121, Symbol: "CPC", Name: "Capricoin"},
	{Type: 290, PathComponent: 0x80000122, Symbol: "BOLD", Name: "Bold"},
	{Type: 291, PathComponent: 0x80000123, Symbol: "IOST", Name: "IOST"},
	{Type: 292, PathComponent: 0x80000124, Symbol: "TKEY", Name: "Tkeycoin"},
	{Type: 293, PathComponent: 0x80000125, Symbol: "USE", Name: "Usechain"},
	{Type: 294, PathComponent: 0x80000126, Symbol: "BCZ", Name: "BitcoinCZ"},
	{Type: 295, PathComponent: 0x80000127, Symbol: "IOC", Name: "Iocoin"},
	{Type: 296, PathComponent: 0x80000128, Symbol: "ASF", Name: "Asofe"},
	{Type: 297, PathComponent: 0x80000129, Symbol: "MASS", Name: "MASS"},
	{Type: 298, PathComponent: 0x8000012a, Symbol: "FAIR", Name: "FairCoin"},
	{Type: 299, PathComponent: 0x8000012b, Symbol: "NUKO", Name: "Nekonium"},
	{Type: 300, PathComponent: 0x8000012c, Symbol: "GNX", Name: "Genaro Network"},
	{Type: 301, PathComponent: 0x8000012d, Symbol: "DIVI", Name: "Divi Project"},
	{Type: 302, PathComponent: 0x8000012e, Symbol: "CMT", Name: "Community"},
	{Type: 303, PathComponent: 0x8000012f, Symbol: "EUNO", Name: "EUNO"},
	{Type: 304, PathComponent: 0x80000130, Symbol: "IOTX", Name: "IoTeX"},
	{Type: 305, PathComponent: 0x80000131, Symbol: "ONION", Name: "DeepOnion"},
	{Type: 306, PathComponent: 0x80000132, Symbol: "8BIT", Name: "8Bit"},
	{Type: 307, PathComponent: 0x80000133, Symbol: "ATC", Name: "AToken Coin"},
	{Type: 308, PathComponent: 0x80000134, Symbol: "BTS", Name: "Bitshares"},
	{Type: 309, PathComponent: 0x80000135, Symbol: "CKB", Name: "Nervos CKB"},
	{Type: 310, PathComponent: 0x80000136, Symbol: "UGAS", Name: "Ultrain"},
	{Type: 311, PathComponent: 0x80000137, Symbol: "ADS", Name: "Adshares"},
	{Type: 312, PathComponent: 0x80000138, Symbol: "ARA", Name: "Aura"},
	{Type: 313, PathComponent: 0x80000139, Symbol: "ZIL", Name: "Zilliqa"},
	{Type: 314, PathComponent: 0x8000013a, Symbol: "MOAC", Name: "MOAC"},
	{Type: 315, PathComponent: 0x8000013b, Symbol: "SWTC", Name: "SWTC"},
	{Type: 316, PathComponent: 0x8000013c, Symbol: "VNSC", Name: "vnscoin"},
	{Type: 317, PathComponent: 0x8000013d, Symbol: "PLUG", Name: "Pl^g"},
	{Type: 318, PathComponent: 0x8000013e, Symbol: "MAN", Name: "Matrix AI Network"},
	{Type: 319, PathComponent: 0x8000013f, Symbol: "ECC", Name: "ECCoin"},
"#

/-- bip44/coins.go:333-396. -/
def t6 : List Nat := text! r#"	{Type: 320, PathComponent: 0x80000140, Symbol: "RPD", Name: "Rapids"},
	{Type: 321, PathComponent: 0x80000141, Symbol: "RAP", Name: "Rapture"},
	{Type: 322, PathComponent: 0x80000142, Symbol: "GARD", Name: "Hashgard"},
	{Type: 323, PathComponent: 0x80000143, Symbol: "ZER", Name: "Zero"},
	{Type: 324, PathComponent: 0x80000144, Symbol: "EBST", Name: "eBoost"},
	{Type: 325, PathComponent: 0x80000145, Symbol: "SHARD", Name: "Shard"},
	{Type: 326, PathComponent: 0x80000146, Symbol: "MRX", Name: "Metrix Coin"},
	{Type: 327, PathComponent: 0x80000147, Symbol: "CMM", Name: "Commercium"},
	{Type: 328, PathComponent: 0x80000148, Symbol: "BLOCK", Name: "Blocknet"},
	{Type: 329, PathComponent: 0x80000149, Symbol: "AUDAX", Name: "AUDAX"},
	{Type: 330, PathComponent: 0x8000014a, Symbol: "LUNA", Name: "Terra"},
	{Type: 331, PathComponent: 0x8000014b, Symbol: "ZPM", Name: "zPrime"},
	{Type: 332, PathComponent: 0x8000014c, Symbol: "KUVA", Name: "Kuva Utility Note"},
	{Type: 333, PathComponent: 0x8000014d, Symbol: "MEM", Name: "MemCoin"},
	{Type: 334, PathComponent: 0x8000014e, Symbol: "CS", Name: "Credits"},
	{Type: 335, PathComponent: 0x8000014f, Symbol: "SWIFT", Name: "SwiftCash"},
	{Type: 336, PathComponent: 0x80000150, Symbol: "FIX", Name: "FIX"},
	{Type: 337, PathComponent: 0x80000151, Symbol: "CPC", Name: "CPChain"},
	{Type: 338, PathComponent: 0x80000152, Symbol: "VGO", Name: "VirtualGoodsToken"},
	{Type: 339, PathComponent: 0x80000153, Symbol: "DVT", Name: "DeVault"},
	{Type: 340, PathComponent: 0x80000154, Symbol: "N8V", Name: "N8VCoin"},
	{Type: 341, PathComponent: 0x80000155, Symbol: "MTNS", Name: "OmotenashiCoin"},
	{Type: 342, PathComponent: 0x80000156, Symbol: "BLAST", Name: "BLAST"},
	{Type: 343, PathComponent: 0x80000157, Symbol: "DCT", Name: "DECENT"},
	{Type: 344, PathComponent: 0x80000158, Symbol: "AUX", Name: "Auxilium"},
	{Type: 345, PathComponent: 0x80000159, Symbol: "USDP", Name: "USDP"},
	{Type: 346, PathComponent: 0x8000015a, Symbol: "HTDF", Name: "HTDF"},
	{Type: 347, PathComponent: 0x8000015b, Symbol: "YEC", Name: "Ycash"},
	{Type: 348, PathComponent: 0x8000015c, Symbol: "QLC", Name: "QLC Chain"},
	{Type: 349, PathComponent: 0x8000015d, Symbol: "TEA", Name: "Icetea Blockchain"},
	{Type: 350, PathComponent: 0x8000015e, Symbol: "ARW", Name: "ArrowChain"},
	{Type: 351, PathComponent: 0x8000015f, Symbol: "MDM", Name: "Medium"},
	{Type: 352, PathComponent: 0x80000160, Symbol: "CYB", Name: "Cybex"},
	{Type: 353, PathComponent: 0x80000161, Symbol: "LTO", Name: "LTO Network"},
	{Type: 354, PathComponent: 0x80000162, Symbol: "DOT", Name: "Polkadot"},
	{Type: 355, PathComponent: 0x80000163, Symbol: "AEON", Name: "Aeon"},
	{Type: 356, PathComponent: 0x80000164, Symbol: "RES", Name: "Resistance"},
	{Type: 357, PathComponent: 0x80000165, Symbol: "AYA", Name: "Aryacoin"},
	{Type: 358, PathComponent: 0x80000166, Symbol: "DAPS", Name: "Dapscoin"},
	{Type: 359, PathComponent: 0x80000167, Symbol: "CSC", Name: "CasinoCoin"},
	{Type: 360, PathComponent: 0x80000168, Symbol: "VSYS", Name: "V Systems"},
	{Type: 361, PathComponent: 0x80000169, Symbol: "NOLLAR", Name: "Nollar"},
	{Type: 362, PathComponent: 0x8000016a, Symbol: "XNOS", Name: "NOS"},
	{Type: 363, PathComponent: 0x8000016b, Symbol: "CPU", Name: "CPUchain"},
	{Type: 364, PathComponent: 0x8000016c, Symbol: "LAMB", Name: "Lambda Storage Chain"},
	{Type: 365, PathComponent: 0x8000016d, Symbol: "VCT", Name: "ValueCyber"},
	{Type: 366, PathComponent: 0x8000016e, Symbol: "CZR", Name: "Canonchain"},
	{Type: 367, PathComponent: 0x8000016f, Symbol: "ABBC", Name: "ABBC"},
	{Type: 368, PathComponent: 0x80000170, Symbol: "HET", Name: "HET"},
	{Type: 369, PathComponent: 0x80000171, Symbol: "XAS", Name: "Asch"},
	{Type: 370, PathComponent: 0x80000172, Symbol: "VDL", Name: "Vidulum"},
	{Type: 371, PathComponent: 0x80000173, Symbol: "MED", Name: "MediBloc"},
	{Type: 372, PathComponent: 0x80000174, Symbol: "ZVC", Name: "ZVChain"},
	{Type: 373, PathComponent: 0x80000175, Symbol: "VESTX", Name: "Vestx"},
	{Type: 374, PathComponent: 0x80000176, Symbol: "DBT", Name: "DarkBit"},
	{Type: 375, PathComponent: 0x80000177, Symbol: "SEOS", Name: "SuperEOS"},
	{Type: 376, PathComponent: 0x80000178, Symbol: "MXW", Name: "Maxonrow"},
	{Type: 377, PathComponent: 0x80000179, Symbol: "ZNZ", Name: "ZENZO"},
	{Type: 378, PathComponent: 0x8000017a, Symbol: "XCX", Name: "XChain"},
	{Type: 379, PathComponent: 0x8000017b, Symbol: "SOX", Name: "SonicX"},
	{Type: 380, PathComponent: 0x8000017c, Symbol: "NYZO", Name: "Nyzo"},
	{Type: 381, PathComponent: 0x8000017d, Symbol: "ULC", Name: "ULCoin"},
	{Type: 382, PathComponent: 0x8000017e, Symbol: "RYO", Name: "Ryo Currency"},
	{Type: 383, PathComponent: 0x8000017f, Symbol: "KAL", Name: "Kaleidochain"},
"#

/-- bip44/coins.go:397-460. -/
def t7 : List Nat := text! r#"	{Type: 384, PathComponent: 0x80000180, Symbol: "XSN", Name: "Stakenet"},
	{Type: 385, PathComponent: 0x80000181, Symbol: "DOGEC", Name: "DogeCash"},
	{Type: 386, PathComponent: 0x80000182, Symbol: "BMV", Name: "Bitcoin Matteo's Vision"},
	{Type: 387, PathComponent: 0x80000183, Symbol: "QBC", Name: "Quebecoin"},
	{Type: 388, PathComponent: 0x80000184, Symbol: "IMG", Name: "ImageCoin"},
	{Type: 389, PathComponent: 0x80000185, Symbol: "QOS", Name: "QOS"},
	{Type: 390, PathComponent: 0x80000186, Symbol: "PKT", Name: "PKT"},
	{Type: 391, PathComponent: 0x80000187, Symbol: "LHD", Name: "LitecoinHD"},
	{Type: 392, PathComponent: 0x80000188, Symbol: "CENNZ", Name: "CENNZnet"},
	{Type: 393, PathComponent: 0x80000189, Symbol: "HSN", Name: "Hyper Speed Network"},
	{Type: 394, PathComponent: 0x8000018a, Symbol: "CRO", Name: "Crypto Chain"},
	{Type: 395, PathComponent: 0x8000018b, Symbol: "UMBRU", Name: "Umbru"},
	{Type: 396, PathComponent: 0x8000018c, Symbol: "EVER", Name: "Everscale"},
	{Type: 397, PathComponent: 0x8000018d, Symbol: "NEAR", Name: "NEAR Protocol"},
	{Type: 398, PathComponent: 0x8000018e, Symbol: "XPC", Name: "XPChain"},
	{Type: 399, PathComponent: 0x8000018f, Symbol: "ZOC", Name: "01coin"},
	{Type: 400, PathComponent: 0x80000190, Symbol: "NIX", Name: "NIX"},
	{Type: 401, PathComponent: 0x80000191, Symbol: "UC", Name: "Utopiacoin"},
	{Type: 402, PathComponent: 0x80000192, Symbol: "GALI", Name: "Galilel"},
	{Type: 403, PathComponent: 0x80000193, Symbol: "OLT", Name: "Oneledger"},
	{Type: 404, PathComponent: 0x80000194, Symbol: "XBI", Name: "XBI"},
	{Type: 405, PathComponent: 0x80000195, Symbol: "DONU", Name: "DONU"},
	{Type: 406, PathComponent: 0x80000196, Symbol: "EARTHS", Name: "Earths"},
	{Type: 407, PathComponent: 0x80000197, Symbol: "HDD", Name: "HDDCash"},
	{Type: 408, PathComponent: 0x80000198, Symbol: "SUGAR", Name: "Sugarchain"},
	{Type: 409, PathComponent: 0x80000199, Symbol: "AILE", Name: "AileCoin"},
	{Type: 410, PathComponent: 0x8000019a, Symbol: "TENT", Name: "TENT"},
	{Type: 411, PathComponent: 0x8000019b, Symbol: "TAN", Name: "Tangerine Network"},
	{Type: 412, PathComponent: 0x8000019c, Symbol: "AIN", Name: "AIN"},
	{Type: 413, PathComponent: 0x8000019d, Symbol: "MSR", Name: "Masari"},
	{Type: 414, PathComponent: 0x8000019e, Symbol: "SUMO", Name: "Sumokoin"},
	{Type: 415, PathComponent: 0x8000019f, Symbol: "ETN", Name: "Electroneum"},
	{Type: 416, PathComponent: 0x800001a0, Symbol: "BYTZ", Name: "BYTZ"},
	{Type: 417, PathComponent: 0x800001a1, Symbol: "WOW", Name: "Wownero"},
	{Type: 418, PathComponent: 0x800001a2, Symbol: "XTNC", Name: "XtendCash"},
	{Type: 419, PathComponent: 0x800001a3, Symbol: "LTHN", Name: "Lethean"},
	{Type: 420, PathComponent: 0x800001a4, Symbol: "NODE", Name: "NodeHost"},
	{Type: 421, PathComponent: 0x800001a5, Symbol: "AGM", Name: "Argoneum"},
	{Type: 422, PathComponent: 0x800001a6, Symbol: "CCX", Name: "Conceal Network"},
	{Type: 423, PathComponent: 0x800001a7, Symbol: "TNET", Name: "Title Network"},
	{Type: 424, PathComponent: 0x800001a8, Symbol: "TELOS", Name: "TelosCoin"},
	{Type: 425, PathComponent: 0x800001a9, Symbol: "AION", Name: "Aion"},
	{Type: 426, PathComponent: 0x800001aa, Symbol: "BC", Name: "Bitcoin Confidential"},
	{Type: 427, PathComponent: 0x800001ab, Symbol: "KTV", Name: "KmushiCoin"},
	{Type: 428, PathComponent: 0x800001ac, Symbol: "ZCR", Name: "ZCore"},
	{Type: 429, PathComponent: 0x800001ad, Symbol: "ERG", Name: "Ergo"},
	{Type: 430, PathComponent: 0x800001ae, Symbol: "PESO", Name: "Criptopeso"},
	{Type: 431, PathComponent: 0x800001af, Symbol: "BTC2", Name: "Bitcoin 2"},
	{Type: 432, PathComponent: 0x800001b0, Symbol: "XRPHD", Name: "XRPHD"},
	{Type: 433, PathComponent: 0x800001b1, Symbol: "WE", Name: "WE Coin"},
	{Type: 434, PathComponent: 0x800001b2, Symbol: "KSM", Name: "Kusama"},
	{Type: 435, PathComponent: 0x800001b3, Symbol: "PCN", Name: "Peepcoin"},
	{Type: 436, PathComponent: 0x800001b4, Symbol: "NCH", Name: "NetCloth"},
	{Type: 437, PathComponent: 0x800001b5, Symbol: "ICU", Name: "CHIPO"},
	{Type: 438, PathComponent: 0x800001b6, Symbol: "FNSA", Name: "FINSCHIA"},
	{Type: 439, PathComponent: 0x800001b7, Symbol: "DTP", Name: "DeVault Token Protocol"},
	{Type: 440, PathComponent: 0x800001b8, Symbol: "BTCR", Name: "Bitcoin Royale"},
	{Type: 441, PathComponent: 0x800001b9, Symbol: "AERGO", Name: "AERGO"},
	{Type: 442, PathComponent: 0x800001ba, Symbol: "XTH", Name: "Dothereum"},
	{Type: 443, PathComponent: 0x800001bb, Symbol: "LV", Name: "Lava"},
	{Type: 444, PathComponent: 0x800001bc, Symbol: "PHR", Name: "Phore"},
	{Type: 445, PathComponent: 0x800001bd, Symbol: "VITAE", Name: "Vitae"},
	{Type: 446, PathComponent: 0x800001be, Symbol: "COCOS", Name: "Cocos-BCX"},
	{Type: 447, PathComponent: 0x800001bf, Symbol: "DIN", Name: "Dinero"},
"#

/-- bip44/coins.go:461-524. -/
def t8 : List Nat := text! r#"	{Type: 448, PathComponent: 0x800001c0, Symbol: "SPL", Name: "Simplicity"},
	{Type: 449, PathComponent: 0x800001c1, Symbol: "YCE", Name: "MYCE"},
	{Type: 450, PathComponent: 0x800001c2, Symbol: "XLR", Name: "Solaris"},
	{Type: 451, PathComponent: 0x800001c3, Symbol: "KTS", Name: "Klimatas"},
	{Type: 452, PathComponent: 0x800001c4, Symbol: "DGLD", Name: "DGLD"},
	{Type: 453, PathComponent: 0x800001c5, Symbol: "XNS", Name: "Insolar"},
	{Type: 454, PathComponent: 0x800001c6, Symbol: "EM", Name: "EMPOW"},
	{Type: 455, PathComponent: 0x800001c7, Symbol: "SHN", Name: "ShineBlocks"},
	{Type: 456, PathComponent: 0x800001c8, Symbol: "SEELE", Name: "Seele"},
	{Type: 457, PathComponent: 0x800001c9, Symbol: "AE", Name: "æternity"},
	{Type: 458, PathComponent: 0x800001ca, Symbol: "ODX", Name: "ObsidianX"},
	{Type: 459, PathComponent: 0x800001cb, Symbol: "KAVA", Name: "Kava"},
	{Type: 460, PathComponent: 0x800001cc, Symbol: "GLEEC", Name: "GLEEC"},
	{Type: 461, PathComponent: 0x800001cd, Symbol: "FIL", Name: "Filecoin"},
	{Type: 462, PathComponent: 0x800001ce, Symbol: "RUTA", Name: "Rutanio"},
	{Type: 463, PathComponent: 0x800001cf, Symbol: "CSDT", Name: "CSDT"},
	{Type: 464, PathComponent: 0x800001d0, Symbol: "ETI", Name: "EtherInc"},
	{Type: 465, PathComponent: 0x800001d1, Symbol: "ZSLP", Name: "Zclassic Simple Ledger Protocol"},
	{Type: 466, PathComponent: 0x800001d2, Symbol: "ERE", Name: "EtherCore"},
	{Type: 467, PathComponent: 0x800001d3, Symbol: "DX", Name: "DxChain Token"},
	{Type: 468, PathComponent: 0x800001d4, Symbol: "CPS", Name: "Capricoin+"},
	{Type: 469, PathComponent: 0x800001d5, Symbol: "BTH", Name: "Bithereum"},
	{Type: 470, PathComponent: 0x800001d6, Symbol: "MESG", Name: "MESG"},
	{Type: 471, PathComponent: 0x800001d7, Symbol: "FIMK", Name: "FIMK"},
	{Type: 472, PathComponent: 0x800001d8, Symbol: "AR", Name: "Arweave"},
	{Type: 473, PathComponent: 0x800001d9, Symbol: "OGO", Name: "Origo"},
	{Type: 474, PathComponent: 0x800001da, Symbol: "ROSE", Name: "Oasis Network"},
	{Type: 475, PathComponent: 0x800001db, Symbol: "BARE", Name: "BARE Network"},
	{Type: 476, PathComponent: 0x800001dc, Symbol: "GLEEC", Name: "GleecBTC"},
	{Type: 477, PathComponent: 0x800001dd, Symbol: "CLR", Name: "Color Coin"},
	{Type: 478, PathComponent: 0x800001de, Symbol: "RNG", Name: "Ring"},
	{Type: 479, PathComponent: 0x800001df, Symbol: "OLO", Name: "Tool Global"},
	{Type: 480, PathComponent: 0x800001e0, Symbol: "PEXA", Name: "Pexa"},
	{Type: 481, PathComponent: 0x800001e1, Symbol: "MOON", Name: "Mooncoin"},
	{Type: 482, PathComponent: 0x800001e2, Symbol: "OCEAN", Name: "Ocean Protocol"},
	{Type: 483, PathComponent: 0x800001e3, Symbol: "BNT", Name: "Bluzelle Native"},
	{Type: 484, PathComponent: 0x800001e4, Symbol: "AMO", Name: "AMO Blockchain"},
	{Type: 485, PathComponent: 0x800001e5, Symbol: "FCH", Name: "FreeCash"},
	{Type: 486, PathComponent: 0x800001e6, Symbol: "LAT", Name: "PlatON"},
	{Type: 487, PathComponent: 0x800001e7, Symbol: "COIN", Name: "Bitcoin Bank"},
	{Type: 488, PathComponent: 0x800001e8, Symbol: "VEO", Name: "Amoveo"},
	{Type: 489, PathComponent: 0x800001e9, Symbol: "CCA", Name: "Counos Coin"},
	{Type: 490, PathComponent: 0x800001ea, Symbol: "GFN", Name: "Graphene"},
	{Type: 491, PathComponent: 0x800001eb, Symbol: "BIP", Name: "Minter Network"},
	{Type: 492, PathComponent: 0x800001ec, Symbol: "KPG", Name: "Kunpeng Network"},
	{Type: 493, PathComponent: 0x800001ed, Symbol: "FIN", Name: "FINL Chain"},
	{Type: 494, PathComponent: 0x800001ee, Symbol: "BAND", Name: "Band"},
	{Type: 495, PathComponent: 0x800001ef, Symbol: "DROP", Name: "Dropil"},
	{Type: 496, PathComponent: 0x800001f0, Symbol: "BHT", Name: "Bluehelix Chain"},
	{Type: 497, PathComponent: 0x800001f1, Symbol: "LYRA", Name: "Scrypta"},
	{Type: 498, PathComponent: 0x800001f2, Symbol: "CS", Name: "Credits"},
	{Type: 499, PathComponent: 0x800001f3, Symbol: "RUPX", Name: "Rupaya"},
	{Type: 500, PathComponent: 0x800001f4, Symbol: "THETA", Name: "Theta"},
	{Type: 501, PathComponent: 0x800001f5, Symbol: "SOL", Name: "Solana"},
	{Type: 502, PathComponent: 0x800001f6, Symbol: "THT", Name: "ThoughtAI"},
	{Type: 503, PathComponent: 0x800001f7, Symbol: "CFX", Name: "Conflux"},
	{Type: 504, PathComponent: 0x800001f8, Symbol: "KUMA", Name: "Kumacoin"},
	{Type: 505, PathComponent: 0x800001f9, Symbol: "HASH", Name: "Provenance"},
	{Type: 506, PathComponent: 0x800001fa, Symbol: "CSPR", Name: "Casper"},
	{Type: 507, PathComponent: 0x800001fb, Symbol: "EARTH", Name: "EARTH"},
	{Type: 508, PathComponent: 0x800001fc, Symbol: "EGLD", Name: "MultiversX"},
	{Type: 509, PathComponent: 0x800001fd, Symbol: "CHI", Name: "Xaya"},
	{Type: 510, PathComponent: 0x800001fe, Symbol: "KOTO", Name: "Koto"},
	{Type: 511, PathComponent: 0x800001ff, Symbol: "OTC", Name: "θ"},
"#

/-- bip44/coins.go:525-588. -/
def t9 : List Nat := text! r#"	{Type: 512, PathComponent: 0x80000200, Symbol: "XRD", Name: "Radiant"},
	{Type: 513, PathComponent: 0x80000201, Symbol: "SEELEN", Name: "Seele-N"},
	{Type: 514, PathComponent: 0x80000202, Symbol: "AETH", Name: "AETH"},
	{Type: 515, PathComponent: 0x80000203, Symbol: "DNA", Name: "Idena"},
	{Type: 516, PathComponent: 0x80000204, Symbol: "VEE", Name: "Virtual Economy Era"},
	{Type: 517, PathComponent: 0x80000205, Symbol: "SIERRA", Name: "SierraCoin"},
	{Type: 518, PathComponent: 0x80000206, Symbol: "LET", Name: "Linkeye"},
	{Type: 519, PathComponent: 0x80000207, Symbol: "BSC", Name: "Bitcoin Smart Contract"},
	{Type: 520, PathComponent: 0x80000208, Symbol: "BTCV", Name: "BitcoinVIP"},
	{Type: 521, PathComponent: 0x80000209, Symbol: "ABA", Name: "Dabacus"},
	{Type: 522, PathComponent: 0x8000020a, Symbol: "SCC", Name: "StakeCubeCoin"},
	{Type: 523, PathComponent: 0x8000020b, Symbol: "EDG", Name: "Edgeware"},
	{Type: 524, PathComponent: 0x8000020c, Symbol: "AMS", Name: "AmsterdamCoin"},
	{Type: 525, PathComponent: 0x8000020d, Symbol: "GOSS", Name: "GOSSIP Coin"},
	{Type: 526, PathComponent: 0x8000020e, Symbol: "BU", Name: "BUMO"},
	{Type: 527, PathComponent: 0x8000020f, Symbol: "GRAM", Name: "GRAM"},
	{Type: 528, PathComponent: 0x80000210, Symbol: "YAP", Name: "Yapstone"},
	{Type: 529, PathComponent: 0x80000211, Symbol: "SCRT", Name: "Secret Network"},
	{Type: 530, PathComponent: 0x80000212, Symbol: "NOVO", Name: "Novo"},
	{Type: 531, PathComponent: 0x80000213, Symbol: "GHOST", Name: "Ghost"},
	{Type: 532, PathComponent: 0x80000214, Symbol: "HST", Name: "HST"},
	{Type: 533, PathComponent: 0x80000215, Symbol: "PRJ", Name: "ProjectCoin"},
	{Type: 534, PathComponent: 0x80000216, Symbol: "YOU", Name: "YOUChain"},
	{Type: 535, PathComponent: 0x80000217, Symbol: "XHV", Name: "Haven Protocol"},
	{Type: 536, PathComponent: 0x80000218, Symbol: "BYND", Name: "Beyondcoin"},
	{Type: 537, PathComponent: 0x80000219, Symbol: "JOYS", Name: "Joys Digital"},
	{Type: 538, PathComponent: 0x8000021a, Symbol: "VAL", Name: "Valorbit"},
	{Type: 539, PathComponent: 0x8000021b, Symbol: "FLOW", Name: "Flow"},
	{Type: 540, PathComponent: 0x8000021c, Symbol: "SMESH", Name: "Spacemesh Coin"},
	{Type: 541, PathComponent: 0x8000021d, Symbol: "SCDO", Name: "SCDO"},
	{Type: 542, PathComponent: 0x8000021e, Symbol: "IQS", Name: "IQ-Cash"},
	{Type: 543, PathComponent: 0x8000021f, Symbol: "BIND", Name: "Compendia"},
	{Type: 544, PathComponent: 0x80000220, Symbol: "COINEVO", Name: "Coinevo"},
	{Type: 545, PathComponent: 0x80000221, Symbol: "SCRIBE", Name: "Scribe"},
	{Type: 546, PathComponent: 0x80000222, Symbol: "HYN", Name: "Hyperion"},
	{Type: 547, PathComponent: 0x80000223, Symbol: "BHP", Name: "BHP"},
	{Type: 548, PathComponent: 0x80000224, Symbol: "BBC", Name: "BigBang Core"},
	{Type: 549, PathComponent: 0x80000225, Symbol: "MKF", Name: "MarketFinance"},
	{Type: 550, PathComponent: 0x80000226, Symbol: "XDC", Name: "XinFin"},
	{Type: 551, PathComponent: 0x80000227, Symbol: "STR", Name: "Straightedge"},
	{Type: 552, PathComponent: 0x80000228, Symbol: "SUM", Name: "Sumcoin"},
	{Type: 553, PathComponent: 0x80000229, Symbol: "HBC", Name: "HuobiChain"},
	{Type: 555, PathComponent: 0x8000022b, Symbol: "BCS", Name: "Bitcoin Smart"},
	{Type: 556, PathComponent: 0x8000022c, Symbol: "KTS", Name: "Kratos"},
	{Type: 557, PathComponent: 0x8000022d, Symbol: "LKR", Name: "Lkrcoin"},
	{Type: 558, PathComponent: 0x8000022e, Symbol: "TAO", Name: "Tao"},
	{Type: 559, PathComponent: 0x8000022f, Symbol: "XWC", Name: "Whitecoin"},
	{Type: 560, PathComponent: 0x80000230, Symbol: "DEAL", Name: "DEAL"},
	{Type: 561, PathComponent: 0x80000231, Symbol: "NTY", Name: "Nexty"},
	{Type: 562, PathComponent: 0x80000232, Symbol: "TOP", Name: "TOP NetWork"},
	{Type: 564, PathComponent: 0x80000234, Symbol: "AG", Name: "Agoric"},
	{Type: 565, PathComponent: 0x80000235, Symbol: "CICO", Name: "Coinicles"},
	{Type: 566, PathComponent: 0x80000236, Symbol: "IRIS", Name: "Irisnet"},
	{Type: 567, PathComponent: 0x80000237, Symbol: "NCG", Name: "Nine Chronicles"},
	{Type: 568, PathComponent: 0x80000238, Symbol: "LRG", Name: "Large Coin"},
	{Type: 569, PathComponent: 0x80000239, Symbol: "SERO", Name: "Super Zero Protocol"},
	{Type: 570, PathComponent: 0x8000023a, Symbol: "BDX", Name: "Beldex"},
	{Type: 571, PathComponent: 0x8000023b, Symbol: "CCXX", Name: "Counos X"},
	{Type: 572, PathComponent: 0x8000023c, Symbol: "SLS", Name: "Saluscoin"},
	{Type: 573, PathComponent: 0x8000023d, Symbol: "SRM", Name: "Serum"},
	{Type: 575, PathComponent: 0x8000023f, Symbol: "VIVT", Name: "VIDT Datalink"},
	{Type: 576, PathComponent: 0x80000240, Symbol: "BPS", Name: "BitcoinPoS"},
	{Type: 577, PathComponent: 0x80000241, Symbol: "NKN", Name: "NKN"},
	{Type: 578, PathComponent: 0x80000242, Symbol: "ICL", Name: "ILCOIN"},
"#

/-- bip44/coins.go:589-652. -/
def t10 : List Nat := text! r#"	{Type: 579, PathComponent: 0x80000243, Symbol: "BONO", Name: "Bonorum"},
	{Type: 580, PathComponent: 0x80000244, Symbol: "PLC", Name: "PLATINCOIN"},
	{Type: 581, PathComponent: 0x80000245, Symbol: "DUN", Name: "Dune"},
	{Type: 582, PathComponent: 0x80000246, Symbol: "DMCH", Name: "Darmacash"},
	{Type: 583, PathComponent: 0x80000247, Symbol: "CTC", Name: "Creditcoin"},
	{Type: 584, PathComponent: 0x80000248, Symbol: "KELP", Name: "Haidai Network"},
	{Type: 585, PathComponent: 0x80000249, Symbol: "GBCR", Name: "GoldBCR"},
	{Type: 586, PathComponent: 0x8000024a, Symbol: "XDAG", Name: "XDAG"},
	{Type: 587, PathComponent: 0x8000024b, Symbol: "PRV", Name: "Incognito Privacy"},
	{Type: 588, PathComponent: 0x8000024c, Symbol: "SCAP", Name: "SafeCapital"},
	{Type: 589, PathComponent: 0x8000024d, Symbol: "TFUEL", Name: "Theta Fuel"},
	{Type: 590, PathComponent: 0x8000024e, Symbol: "GTM", Name: "Gentarium"},
	{Type: 591, PathComponent: 0x8000024f, Symbol: "RNL", Name: "RentalChain"},
	{Type: 592, PathComponent: 0x80000250, Symbol: "GRIN", Name: "Grin"},
	{Type: 593, PathComponent: 0x80000251, Symbol: "MWC", Name: "MimbleWimbleCoin"},
	{Type: 594, PathComponent: 0x80000252, Symbol: "DOCK", Name: "Dock"},
	{Type: 595, PathComponent: 0x80000253, Symbol: "POLYX", Name: "Polymesh"},
	{Type: 596, PathComponent: 0x80000254, Symbol: "DIVER", Name: "Divergenti"},
	{Type: 597, PathComponent: 0x80000255, Symbol: "XEP", Name: "Electra Protocol"},
	{Type: 598, PathComponent: 0x80000256, Symbol: "APN", Name: "Apron"},
	{Type: 599, PathComponent: 0x80000257, Symbol: "TFC", Name: "Turbo File Coin"},
	{Type: 600, PathComponent: 0x80000258, Symbol: "UTE", Name: "Unit-e"},
	{Type: 601, PathComponent: 0x80000259, Symbol: "MTC", Name: "Metacoin"},
	{Type: 602, PathComponent: 0x8000025a, Symbol: "NC", Name: "NobodyCash"},
	{Type: 603, PathComponent: 0x8000025b, Symbol: "XINY", Name: "Xinyuehu"},
	{Type: 604, PathComponent: 0x8000025c, Symbol: "DYN", Name: "Dynamo"},
	{Type: 605, PathComponent: 0x8000025d, Symbol: "BUFS", Name: "Buffer"},
	{Type: 606, PathComponent: 0x8000025e, Symbol: "STOS", Name: "Stratos"},
	{Type: 607, PathComponent: 0x8000025f, Symbol: "TON", Name: "TON"},
	{Type: 608, PathComponent: 0x80000260, Symbol: "TAFT", Name: "TAFT"},
	{Type: 609, PathComponent: 0x80000261, Symbol: "HYDRA", Name: "HYDRA"},
	{Type: 610, PathComponent: 0x80000262, Symbol: "NOR", Name: "Noir"},
	{Type: 611, PathComponent: 0x80000263, Symbol: "", Name: "Manta Network Private Asset"},
	{Type: 612, PathComponent: 0x80000264, Symbol: "", Name: "Calamari Network Private Asset"},
	{Type: 613, PathComponent: 0x80000265, Symbol: "WCN", Name: "Widecoin"},
	{Type: 614, PathComponent: 0x80000266, Symbol: "OPT", Name: "Optimistic Ethereum"},
	{Type: 615, PathComponent: 0x80000267, Symbol: "PSWAP", Name: "PolkaSwap"},
	{Type: 616, PathComponent: 0x80000268, Symbol: "VAL", Name: "Validator"},
	{Type: 617, PathComponent: 0x80000269, Symbol: "XOR", Name: "Sora"},
	{Type: 618, PathComponent: 0x8000026a, Symbol: "SSP", Name: "SmartShare"},
	{Type: 619, PathComponent: 0x8000026b, Symbol: "DEI", Name: "DeimosX"},
	{Type: 621, PathComponent: 0x8000026d, Symbol: "ZERO", Name: "Singularity"},
	{Type: 622, PathComponent: 0x8000026e, Symbol: "ALPHA", Name: "AlphaDAO"},
	{Type: 623, PathComponent: 0x8000026f, Symbol: "BDECO", Name: "BDCashProtocol Ecosystem"},
	{Type: 624, PathComponent: 0x80000270, Symbol: "NOBL", Name: "Nobility"},
	{Type: 625, PathComponent: 0x80000271, Symbol: "EAST", Name: "Eastcoin"},
	{Type: 626, PathComponent: 0x80000272, Symbol: "KDA", Name: "Kadena"},
	{Type: 627, PathComponent: 0x80000273, Symbol: "SOUL", Name: "Phantasma"},
	{Type: 628, PathComponent: 0x80000274, Symbol: "LORE", Name: "Gitopia"},
	{Type: 629, PathComponent: 0x80000275, Symbol: "FNR", Name: "Fincor"},
	{Type: 630, PathComponent: 0x80000276, Symbol: "NEXUS", Name: "Nexus"},
	{Type: 631, PathComponent: 0x80000277, Symbol: "QTZ", Name: "Quartz"},
	{Type: 632, PathComponent: 0x80000278, Symbol: "MAS", Name: "Massa"},
	{Type: 633, PathComponent: 0x80000279, Symbol: "CALL", Name: "Callchain"},
	{Type: 634, PathComponent: 0x8000027a, Symbol: "VAL", Name: "Validity"},
	{Type: 635, PathComponent: 0x8000027b, Symbol: "POKT", Name: "Pocket Network"},
	{Type: 636, PathComponent: 0x8000027c, Symbol: "EMIT", Name: "EMIT"},
	{Type: 637, PathComponent: 0x8000027d, Symbol: "APTOS", Name: "Aptos"},
	{Type: 638, PathComponent: 0x8000027e, Symbol: "ADON", Name: "ADON"},
	{Type: 639, PathComponent: 0x8000027f, Symbol: "BTSG", Name: "BitSong"},
	{Type: 640, PathComponent: 0x80000280, Symbol: "LFC", Name: "Leofcoin"},
	{Type: 641, PathComponent: 0x80000281, Symbol: "KCS", Name: "KuCoin Shares"},
	{Type: 642, PathComponent: 0x80000282, Symbol: "KCC", Name: "KuCoin Community Chain"},
	{Type: 643, PathComponent: 0x80000283, Symbol: "AZERO", Name: "Aleph Zero"},
"#

/-- bip44/coins.go:653-716. -/
def t11 : List Nat := text! r#"	{Type: 644, PathComponent: 0x80000284, Symbol: "TREE", Name: "Tree"},
	{Type: 645, PathComponent: 0x80000285, Symbol: "LX", Name: "Lynx"},
	{Type: 646, PathComponent: 0x80000286, Symbol: "XLN", Name: "Lunarium"},
	{Type: 647, PathComponent: 0x80000287, Symbol: "CIC", Name: "CIC Chain"},
	{Type: 648, PathComponent: 0x80000288, Symbol: "ZRB", Name: "Zarb"},
	{Type: 650, PathComponent: 0x8000028a, Symbol: "UCO", Name: "Archethic"},
	{Type: 651, PathComponent: 0x8000028b, Symbol: "SFX", Name: "Safex Cash"},
	{Type: 652, PathComponent: 0x8000028c, Symbol: "SFT", Name: "Safex Token"},
	{Type: 653, PathComponent: 0x8000028d, Symbol: "WSFX", Name: "Wrapped Safex Cash"},
	{Type: 654, PathComponent: 0x8000028e, Symbol: "USDG", Name: "US Digital Gold"},
	{Type: 655, PathComponent: 0x8000028f, Symbol: "WMP", Name: "WAMP"},
	{Type: 656, PathComponent: 0x80000290, Symbol: "EKTA", Name: "Ekta"},
	{Type: 657, PathComponent: 0x80000291, Symbol: "YDA", Name: "YadaCoin"},
	{Type: 659, PathComponent: 0x80000293, Symbol: "KOIN", Name: "Koinos"},
	{Type: 660, PathComponent: 0x80000294, Symbol: "PIRATE", Name: "PirateCash"},
	{Type: 661, PathComponent: 0x80000295, Symbol: "UNQ", Name: "Unique"},
	{Type: 663, PathComponent: 0x80000297, Symbol: "SFRX", Name: "EtherGem Sapphire"},
	{Type: 664, PathComponent: 0x80000298, Symbol: "BSTY", Name: "GlobalBoost-Y"},
	{Type: 665, PathComponent: 0x80000299, Symbol: "IMP", Name: "Impact Protocol"},
	{Type: 666, PathComponent: 0x8000029a, Symbol: "ACT", Name: "Achain"},
	{Type: 667, PathComponent: 0x8000029b, Symbol: "PRKL", Name: "Perkle"},
	{Type: 668, PathComponent: 0x8000029c, Symbol: "SSC", Name: "SelfSell"},
	{Type: 669, PathComponent: 0x8000029d, Symbol: "GC", Name: "GateChain"},
	{Type: 670, PathComponent: 0x8000029e, Symbol: "PLGR", Name: "Pledger"},
	{Type: 671, PathComponent: 0x8000029f, Symbol: "MPLGR", Name: "Pledger"},
	{Type: 672, PathComponent: 0x800002a0, Symbol: "KNOX", Name: "Knox"},
	{Type: 673, PathComponent: 0x800002a1, Symbol: "ZED", Name: "ZED"},
	{Type: 674, PathComponent: 0x800002a2, Symbol: "CNDL", Name: "Candle"},
	{Type: 675, PathComponent: 0x800002a3, Symbol: "WLKR", Name: "Walker Crypto Innovation Index"},
	{Type: 676, PathComponent: 0x800002a4, Symbol: "WLKRR", Name: "Walker"},
	{Type: 677, PathComponent: 0x800002a5, Symbol: "YUNGE", Name: "Yunge"},
	{Type: 678, PathComponent: 0x800002a6, Symbol: "Voken", Name: "Voken"},
	{Type: 679, PathComponent: 0x800002a7, Symbol: "APL", Name: "Apollo"},
	{Type: 680, PathComponent: 0x800002a8, Symbol: "Evrynet", Name: "Evrynet"},
	{Type: 681, PathComponent: 0x800002a9, Symbol: "NENG", Name: "Nengcoin"},
	{Type: 682, PathComponent: 0x800002aa, Symbol: "CHTA", Name: "Cheetahcoin"},
	{Type: 683, PathComponent: 0x800002ab, Symbol: "ALEO", Name: "Aleo Network"},
	{Type: 685, PathComponent: 0x800002ad, Symbol: "OAS", Name: "Oasys"},
	{Type: 686, PathComponent: 0x800002ae, Symbol: "KAR", Name: "Karura Network"},
	{Type: 688, PathComponent: 0x800002b0, Symbol: "CET", Name: "CoinEx Chain"},
	{Type: 690, PathComponent: 0x800002b2, Symbol: "KLV", Name: "KleverChain"},
	{Type: 694, PathComponent: 0x800002b6, Symbol: "VTBC", Name: "VTB Community"},
	{Type: 698, PathComponent: 0x800002ba, Symbol: "VEIL", Name: "Veil"},
	{Type: 699, PathComponent: 0x800002bb, Symbol: "GTB", Name: "GotaBit"},
	{Type: 700, PathComponent: 0x800002bc, Symbol: "XDAI", Name: "xDai"},
	{Type: 701, PathComponent: 0x800002bd, Symbol: "COM", Name: "Commercio"},
	{Type: 702, PathComponent: 0x800002be, Symbol: "CCC", Name: "Commercio Cash Credit"},
	{Type: 704, PathComponent: 0x800002c0, Symbol: "RAQ", Name: "Ra Quantum"},
	{Type: 705, PathComponent: 0x800002c1, Symbol: "PEG", Name: "Pegasus Token"},
	{Type: 706, PathComponent: 0x800002c2, Symbol: "LKG", Name: "Lionking"},
	{Type: 707, PathComponent: 0x800002c3, Symbol: "MCOIN", Name: "Moneta Coin"},
	{Type: 710, PathComponent: 0x800002c6, Symbol: "FURY", Name: "Highbury"},
	{Type: 711, PathComponent: 0x800002c7, Symbol: "CHC", Name: "Chaincoin"},
	{Type: 712, PathComponent: 0x800002c8, Symbol: "SERF", Name: "Serfnet"},
	{Type: 713, PathComponent: 0x800002c9, Symbol: "XTL", Name: "Katal Chain"},
	{Type: 714, PathComponent: 0x800002ca, Symbol: "BNB", Name: "Binance"},
	{Type: 715, PathComponent: 0x800002cb, Symbol: "SIN", Name: "Sinovate"},
	{Type: 716, PathComponent: 0x800002cc, Symbol: "DLN", Name: "Delion"},
	{Type: 717, PathComponent: 0x800002cd, Symbol: "BONTE", Name: "Bontecoin"},
	{Type: 718, PathComponent: 0x800002ce, Symbol: "PEER", Name: "Peer"},
	{Type: 719, PathComponent: 0x800002cf, Symbol: "ZET", Name: "Zetacoin"},
	{Type: 720, PathComponent: 0x800002d0, Symbol: "ABY", Name: "Artbyte"},
	{Type: 721, PathComponent: 0x800002d1, Symbol: "PGX", Name: "Mirai Chain"},
	{Type: 722, PathComponent: 0x800002d2, Symbol: "IL8P", Name: "InfiniLooP"},
"#

/-- bip44/coins.go:717-780. -/
def t12 : List Nat := text! r#"	{Type: 724, PathComponent: 0x800002d4, Symbol: "XVC", Name: "Vanillacash"},
	{Type: 725, PathComponent: 0x800002d5, Symbol: "MCX", Name: "MultiCash"},
	{Type: 727, PathComponent: 0x800002d7, Symbol: "BLU", Name: "BluCrates"},
	{Type: 730, PathComponent: 0x800002da, Symbol: "HEALIOS", Name: "Tenacity"},
	{Type: 731, PathComponent: 0x800002db, Symbol: "BMK", Name: "Bitmark"},
	{Type: 734, PathComponent: 0x800002de, Symbol: "DENTX", Name: "DENTNet"},
	{Type: 737, PathComponent: 0x800002e1, Symbol: "ATOP", Name: "Financial Blockchain"},
	{Type: 747, PathComponent: 0x800002eb, Symbol: "CFG", Name: "Centrifuge"},
	{Type: 750, PathComponent: 0x800002ee, Symbol: "XPRT", Name: "Persistence"},
	{Type: 753, PathComponent: 0x800002f1, Symbol: "", Name: "Age X25519 Encryption"},
	{Type: 754, PathComponent: 0x800002f2, Symbol: "", Name: "Age NIST Encryption"},
	{Type: 757, PathComponent: 0x800002f5, Symbol: "HONEY", Name: "HoneyWood"},
	{Type: 768, PathComponent: 0x80000300, Symbol: "BALLZ", Name: "Ballzcoin"},
	{Type: 770, PathComponent: 0x80000302, Symbol: "COSA", Name: "Cosanta"},
	{Type: 771, PathComponent: 0x80000303, Symbol: "BR", Name: "BR"},
	{Type: 773, PathComponent: 0x80000305, Symbol: "CSB", Name: "CosmoBliss"},
	{Type: 775, PathComponent: 0x80000307, Symbol: "PLSR", Name: "Pulsar Coin"},
	{Type: 776, PathComponent: 0x80000308, Symbol: "KEY", Name: "Keymaker Coin"},
	{Type: 777, PathComponent: 0x80000309, Symbol: "BTW", Name: "Bitcoin World"},
	{Type: 780, PathComponent: 0x8000030c, Symbol: "PLCUC", Name: "PLC Ultima Classic"},
	{Type: 781, PathComponent: 0x8000030d, Symbol: "PLCUX", Name: "PLC Ultima X"},
	{Type: 782, PathComponent: 0x8000030e, Symbol: "PLCU", Name: "PLC Ultima"},
	{Type: 783, PathComponent: 0x8000030f, Symbol: "SMARTBC", Name: "SMART Blockchain"},
	{Type: 784, PathComponent: 0x80000310, Symbol: "SUI", Name: "Sui"},
	{Type: 786, PathComponent: 0x80000312, Symbol: "UIDD", Name: "UIDD"},
	{Type: 787, PathComponent: 0x80000313, Symbol: "ACA", Name: "Acala"},
	{Type: 788, PathComponent: 0x80000314, Symbol: "BNC", Name: "Bifrost"},
	{Type: 789, PathComponent: 0x80000315, Symbol: "TAU", Name: "Lamden"},
	{Type: 794, PathComponent: 0x8000031a, Symbol: "INTR", Name: "Interlay"},
	{Type: 795, PathComponent: 0x8000031b, Symbol: "KINT", Name: "Kintsugi"},
	{Type: 799, PathComponent: 0x8000031f, Symbol: "PDEX", Name: "Polkadex"},
	{Type: 800, PathComponent: 0x80000320, Symbol: "BEET", Name: "Beetle Coin"},
	{Type: 801, PathComponent: 0x80000321, Symbol: "DST", Name: "DSTRA"},
	{Type: 802, PathComponent: 0x80000322, Symbol: "CY", Name: "Cyberyen"},
	{Type: 804, PathComponent: 0x80000324, Symbol: "ZKS", Name: "zkSync"},
	{Type: 808, PathComponent: 0x80000328, Symbol: "QVT", Name: "Qvolta"},
	{Type: 809, PathComponent: 0x80000329, Symbol: "SDN", Name: "Shiden Network"},
	{Type: 810, PathComponent: 0x8000032a, Symbol: "ASTR", Name: "Astar Network"},
	{Type: 813, PathComponent: 0x8000032d, Symbol: "MEER", Name: "Qitmeer"},
	{Type: 816, PathComponent: 0x80000330, Symbol: "FSC", Name: "FSC"},
	{Type: 818, PathComponent: 0x80000332, Symbol: "VET", Name: "VeChain Token"},
	{Type: 819, PathComponent: 0x80000333, Symbol: "REEF", Name: "Reef"},
	{Type: 820, PathComponent: 0x80000334, Symbol: "CLO", Name: "Callisto"},
	{Type: 822, PathComponent: 0x80000336, Symbol: "BDB", Name: "BigchainDB"},
	{Type: 824, PathComponent: 0x80000338, Symbol: "RBNT", Name: "Redbelly Network"},
	{Type: 827, PathComponent: 0x8000033b, Symbol: "ACE", Name: "Endurance"},
	{Type: 828, PathComponent: 0x8000033c, Symbol: "CCN", Name: "ComputeCoin"},
	{Type: 829, PathComponent: 0x8000033d, Symbol: "BBA", Name: "BBACHAIN"},
	{Type: 831, PathComponent: 0x8000033f, Symbol: "CRUZ", Name: "cruzbit"},
	{Type: 832, PathComponent: 0x80000340, Symbol: "SAPP", Name: "Sapphire"},
	{Type: 833, PathComponent: 0x80000341, Symbol: "777", Name: "Jackpot"},
	{Type: 834, PathComponent: 0x80000342, Symbol: "KYAN", Name: "Kyanite"},
	{Type: 835, PathComponent: 0x80000343, Symbol: "AZR", Name: "Azzure"},
	{Type: 836, PathComponent: 0x80000344, Symbol: "CFL", Name: "CryptoFlow"},
	{Type: 837, PathComponent: 0x80000345, Symbol: "DASHD", Name: "Dash Diamond"},
	{Type: 838, PathComponent: 0x80000346, Symbol: "TRTT", Name: "Trittium"},
	{Type: 839, PathComponent: 0x80000347, Symbol: "UCR", Name: "Ultra Clear"},
	{Type: 840, PathComponent: 0x80000348, Symbol: "PNY", Name: "Peony"},
	{Type: 841, PathComponent: 0x80000349, Symbol: "BECN", Name: "Beacon"},
	{Type: 842, PathComponent: 0x8000034a, Symbol: "MONK", Name: "Monk"},
	{Type: 843, PathComponent: 0x8000034b, Symbol: "SAGA", Name: "CryptoSaga"},
	{Type: 844, PathComponent: 0x8000034c, Symbol: "SUV", Name: "Suvereno"},
	{Type: 845, PathComponent: 0x8000034d, Symbol: "ESK", Name: "EskaCoin"},
	{Type: 846, PathComponent: 0x8000034e, Symbol: "OWO", Name: "OneWorld Coin"},
"#

/-- bip44/coins.go:781-844. -/
def t13 : List Nat := text! r#"	{Type: 847, PathComponent: 0x8000034f, Symbol: "PEPS", Name: "PEPS Coin"},
	{Type: 848, PathComponent: 0x80000350, Symbol: "BIR", Name: "Birake"},
	{Type: 849, PathComponent: 0x80000351, Symbol: "MOBIC", Name: "MobilityCoin"},
	{Type: 850, PathComponent: 0x80000352, Symbol: "FLS", Name: "Flits"},
	{Type: 851, PathComponent: 0x80000353, Symbol: "FRECO", Name: "Freco"},
	{Type: 852, PathComponent: 0x80000354, Symbol: "DSM", Name: "Desmos"},
	{Type: 853, PathComponent: 0x80000355, Symbol: "PRCY", Name: "PRCY Coin"},
	{Type: 858, PathComponent: 0x8000035a, Symbol: "HVH", Name: "HAVAH"},
	{Type: 866, PathComponent: 0x80000362, Symbol: "MOB", Name: "MobileCoin"},
	{Type: 868, PathComponent: 0x80000364, Symbol: "IF", Name: "Infinitefuture"},
	{Type: 877, PathComponent: 0x8000036d, Symbol: "NAM", Name: "Namada"},
	{Type: 878, PathComponent: 0x8000036e, Symbol: "SCR", Name: "Scorum Network"},
	{Type: 880, PathComponent: 0x80000370, Symbol: "LUM", Name: "Lum Network"},
	{Type: 883, PathComponent: 0x80000373, Symbol: "ZBC", Name: "ZooBC"},
	{Type: 886, PathComponent: 0x80000376, Symbol: "ADF", Name: "AD Token"},
	{Type: 888, PathComponent: 0x80000378, Symbol: "NEO", Name: "NEO"},
	{Type: 889, PathComponent: 0x80000379, Symbol: "TOMO", Name: "TOMO"},
	{Type: 890, PathComponent: 0x8000037a, Symbol: "XSEL", Name: "Seln"},
	{Type: 896, PathComponent: 0x80000380, Symbol: "LKSC", Name: "LKSCoin"},
	{Type: 898, PathComponent: 0x80000382, Symbol: "AS", Name: "Assetchain"},
	{Type: 899, PathComponent: 0x80000383, Symbol: "XEC", Name: "eCash"},
	{Type: 900, PathComponent: 0x80000384, Symbol: "LMO", Name: "Lumeneo"},
	{Type: 901, PathComponent: 0x80000385, Symbol: "NXT", Name: "NxtMeta"},
	{Type: 904, PathComponent: 0x80000388, Symbol: "HNT", Name: "Helium"},
	{Type: 907, PathComponent: 0x8000038b, Symbol: "FIS", Name: "StaFi"},
	{Type: 909, PathComponent: 0x8000038d, Symbol: "SGE", Name: "Saage"},
	{Type: 911, PathComponent: 0x8000038f, Symbol: "GERT", Name: "Gert"},
	{Type: 913, PathComponent: 0x80000391, Symbol: "VARA", Name: "Vara Network"},
	{Type: 916, PathComponent: 0x80000394, Symbol: "META", Name: "Metadium"},
	{Type: 917, PathComponent: 0x80000395, Symbol: "FRA", Name: "Findora"},
	{Type: 919, PathComponent: 0x80000397, Symbol: "CCD", Name: "Concordium"},
	{Type: 921, PathComponent: 0x80000399, Symbol: "AVN", Name: "Avian Network"},
	{Type: 925, PathComponent: 0x8000039d, Symbol: "DIP", Name: "Dipper Network"},
	{Type: 928, PathComponent: 0x800003a0, Symbol: "GHM", Name: "HermitMatrixNetwork"},
	{Type: 931, PathComponent: 0x800003a3, Symbol: "RUNE", Name: "THORChain (RUNE)"},
	{Type: 945, PathComponent: 0x800003b1, Symbol: "UNLOCK", Name: "Jasiri protocol"},
	{Type: 955, PathComponent: 0x800003bb, Symbol: "LTP", Name: "LifetionCoin"},
	{Type: 958, PathComponent: 0x800003be, Symbol: "", Name: "KickSoccer"},
	{Type: 960, PathComponent: 0x800003c0, Symbol: "VKAX", Name: "Vkax"},
	{Type: 966, PathComponent: 0x800003c6, Symbol: "MATIC", Name: "Matic"},
	{Type: 968, PathComponent: 0x800003c8, Symbol: "UNW", Name: "UNW"},
	{Type: 969, PathComponent: 0x800003c9, Symbol: "QI", Name: "Quai Network"},
	{Type: 970, PathComponent: 0x800003ca, Symbol: "TWINS", Name: "TWINS"},
	{Type: 977, PathComponent: 0x800003d1, Symbol: "TLOS", Name: "Telos"},
	{Type: 981, PathComponent: 0x800003d5, Symbol: "TAFECO", Name: "Taf ECO Chain"},
	{Type: 985, PathComponent: 0x800003d9, Symbol: "AU", Name: "Autonomy"},
	{Type: 987, PathComponent: 0x800003db, Symbol: "VCG", Name: "VipCoin"},
	{Type: 988, PathComponent: 0x800003dc, Symbol: "XAZAB", Name: "Xazab core"},
	{Type: 989, PathComponent: 0x800003dd, Symbol: "AIOZ", Name: "AIOZ"},
	{Type: 990, PathComponent: 0x800003de, Symbol: "CORE", Name: "Coreum"},
	{Type: 991, PathComponent: 0x800003df, Symbol: "PEC", Name: "Phoenix"},
	{Type: 992, PathComponent: 0x800003e0, Symbol: "UNT", Name: "Unit"},
	{Type: 993, PathComponent: 0x800003e1, Symbol: "XRB", Name: "X Currency"},
	{Type: 994, PathComponent: 0x800003e2, Symbol: "QUAI", Name: "Quai Network"},
	{Type: 995, PathComponent: 0x800003e3, Symbol: "CAPS", Name: "Ternoa"},
	{Type: 996, PathComponent: 0x800003e4, Symbol: "OKT", Name: "OKChain Token"},
	{Type: 997, PathComponent: 0x800003e5, Symbol: "SUM", Name: "Solidum"},
	{Type: 998, PathComponent: 0x800003e6, Symbol: "LBTC", Name: "Lightning Bitcoin"},
	{Type: 999, PathComponent: 0x800003e7, Symbol: "BCD", Name: "Bitcoin Diamond"},
	{Type: 1000, PathComponent: 0x800003e8, Symbol: "BTN", Name: "Bitcoin New"},
	{Type: 1001, PathComponent: 0x800003e9, Symbol: "TT", Name: "ThunderCore"},
	{Type: 1002, PathComponent: 0x800003ea, Symbol: "BKT", Name: "BanKitt"},
	{Type: 1003, PathComponent: 0x800003eb, Symbol: "NODL", Name: "Nodle"},
	{Type: 1004, PathComponent: 0x800003ec, Symbol: "PCOIN", Name: "PCOIN"},
"#

/-- bip44/coins.go:845-908. -/
def t14 : List Nat := text! r#"	{Type: 1005, PathComponent: 0x800003ed, Symbol: "TAO", Name: "Bittensor"},
	{Type: 1006, PathComponent: 0x800003ee, Symbol: "HSK", Name: "HashKey Chain"},
	{Type: 1007, PathComponent: 0x800003ef, Symbol: "FTM", Name: "Fantom"},
	{Type: 1008, PathComponent: 0x800003f0, Symbol: "RPG", Name: "RPG"},
	{Type: 1009, PathComponent: 0x800003f1, Symbol: "LAKE", Name: "iconLake"},
	{Type: 1010, PathComponent: 0x800003f2, Symbol: "HT", Name: "Huobi ECO Chain"},
	{Type: 1011, PathComponent: 0x800003f3, Symbol: "ELV", Name: "Eluvio"},
	{Type: 1012, PathComponent: 0x800003f4, Symbol: "JOC", Name: "Japan Open Chain"},
	{Type: 1013, PathComponent: 0x800003f5, Symbol: "BIC", Name: "Beincrypto"},
	{Type: 1020, PathComponent: 0x800003fc, Symbol: "EVC", Name: "Evrice"},
	{Type: 1022, PathComponent: 0x800003fe, Symbol: "XRD", Name: "Radix DLT"},
	{Type: 1023, PathComponent: 0x800003ff, Symbol: "ONE", Name: "HARMONY-ONE (Legacy)"},
	{Type: 1024, PathComponent: 0x80000400, Symbol: "ONT", Name: "Ontology"},
	{Type: 1025, PathComponent: 0x80000401, Symbol: "CZZ", Name: "Classzz"},
	{Type: 1026, PathComponent: 0x80000402, Symbol: "KEX", Name: "Kira Exchange Token"},
	{Type: 1027, PathComponent: 0x80000403, Symbol: "MCM", Name: "Mochimo"},
	{Type: 1028, PathComponent: 0x80000404, Symbol: "PLS", Name: "Pulse Coin"},
	{Type: 1032, PathComponent: 0x80000408, Symbol: "BTCR", Name: "BTCR"},
	{Type: 1042, PathComponent: 0x80000412, Symbol: "MFID", Name: "Moonfish ID"},
	{Type: 1111, PathComponent: 0x80000457, Symbol: "BBC", Name: "Big Bitcoin"},
	{Type: 1116, PathComponent: 0x8000045c, Symbol: "CORE", Name: "Core"},
	{Type: 1120, PathComponent: 0x80000460, Symbol: "RISE", Name: "RISE"},
	{Type: 1122, PathComponent: 0x80000462, Symbol: "CMT", Name: "CyberMiles Token"},
	{Type: 1128, PathComponent: 0x80000468, Symbol: "ETSC", Name: "Ethereum Social"},
	{Type: 1129, PathComponent: 0x80000469, Symbol: "DFI", Name: "DeFiChain"},
	{Type: 1130, PathComponent: 0x8000046a, Symbol: "DFI", Name: "DeFiChain EVM Network"},
	{Type: 1137, PathComponent: 0x80000471, Symbol: "$DAG", Name: "Constellation Labs"},
	{Type: 1145, PathComponent: 0x80000479, Symbol: "CDY", Name: "Bitcoin Candy"},
	{Type: 1155, PathComponent: 0x80000483, Symbol: "ENJ", Name: "Enjin Coin"},
	{Type: 1170, PathComponent: 0x80000492, Symbol: "HOO", Name: "Hoo Smart Chain"},
	{Type: 1234, PathComponent: 0x800004d2, Symbol: "ALPH", Name: "Alephium"},
	{Type: 1236, PathComponent: 0x800004d4, Symbol: "", Name: "Masca"},
	{Type: 1237, PathComponent: 0x800004d5, Symbol: "", Name: "Nostr"},
	{Type: 1280, PathComponent: 0x80000500, Symbol: "", Name: "Kudos Setler"},
	{Type: 1284, PathComponent: 0x80000504, Symbol: "GLMR", Name: "Moonbeam"},
	{Type: 1285, PathComponent: 0x80000505, Symbol: "MOVR", Name: "Moonriver"},
	{Type: 1298, PathComponent: 0x80000512, Symbol: "WPC", Name: "Wpc"},
	{Type: 1308, PathComponent: 0x8000051c, Symbol: "WEI", Name: "WEI"},
	{Type: 1337, PathComponent: 0x80000539, Symbol: "DFC", Name: "Defcoin"},
	{Type: 1348, PathComponent: 0x80000544, Symbol: "ISLM", Name: "IslamicCoin"},
	{Type: 1397, PathComponent: 0x80000575, Symbol: "HYC", Name: "Hycon"},
	{Type: 1410, PathComponent: 0x80000582, Symbol: "TENTSLP", Name: "TENT Simple Ledger Protocol"},
	{Type: 1510, PathComponent: 0x800005e6, Symbol: "XSC", Name: "XT Smart Chain"},
	{Type: 1512, PathComponent: 0x800005e8, Symbol: "AAC", Name: "Double-A Chain"},
	{Type: 1524, PathComponent: 0x800005f4, Symbol: "", Name: "Taler"},
	{Type: 1533, PathComponent: 0x800005fd, Symbol: "BEAM", Name: "Beam"},
	{Type: 1551, PathComponent: 0x8000060f, Symbol: "SDK", Name: "Sovereign SDK"},
	{Type: 1555, PathComponent: 0x80000613, Symbol: "APC", Name: "Apc Chain"},
	{Type: 1616, PathComponent: 0x80000650, Symbol: "ELF", Name: "AELF"},
	{Type: 1618, PathComponent: 0x80000652, Symbol: "AUDL", Name: "AUDL"},
	{Type: 1620, PathComponent: 0x80000654, Symbol: "ATH", Name: "Atheios"},
	{Type: 1627, PathComponent: 0x8000065b, Symbol: "LUME", Name: "Lume Web"},
	{Type: 1642, PathComponent: 0x8000066a, Symbol: "NEW", Name: "Newton"},
	{Type: 1657, PathComponent: 0x80000679, Symbol: "BTA", Name: "Btachain"},
	{Type: 1668, PathComponent: 0x80000684, Symbol: "NEOX", Name: "Neoxa"},
	{Type: 1669, PathComponent: 0x80000685, Symbol: "MEWC", Name: "Meowcoin"},
	{Type: 1688, PathComponent: 0x80000698, Symbol: "BCX", Name: "BitcoinX"},
	{Type: 1729, PathComponent: 0x800006c1, Symbol: "XTZ", Name: "Tezos"},
	{Type: 1776, PathComponent: 0x800006f0, Symbol: "LBTC", Name: "Liquid BTC"},
	{Type: 1777, PathComponent: 0x800006f1, Symbol: "BBP", Name: "Biblepay"},
	{Type: 1784, PathComponent: 0x800006f8, Symbol: "JPYS", Name: "JPY Stablecoin"},
	{Type: 1789, PathComponent: 0x800006fd, Symbol: "VEGA", Name: "Vega Protocol"},
	{Type: 1815, PathComponent: 0x80000717, Symbol: "ADA", Name: "Cardano"},
	{Type: 1818, PathComponent: 0x8000071a, Symbol: "CUBE", Name: "Cube Chain Native Token"},
"#

/-- bip44/coins.go:909-972. -/
def t15 : List Nat := text! r#"	{Type: 1856, PathComponent: 0x80000743, Symbol: "TES", Name: "Teslacoin"},
	{Type: 1888, PathComponent: 0x80000760, Symbol: "ZTX", Name: "Zetrix"},
	{Type: 1899, PathComponent: 0x8000076b, Symbol: "XEC", Name: "eCash token"},
	{Type: 1901, PathComponent: 0x8000076d, Symbol: "CLC", Name: "Classica"},
	{Type: 1907, PathComponent: 0x80000773, Symbol: "BITCI", Name: "Bitcicoin"},
	{Type: 1919, PathComponent: 0x8000077f, Symbol: "VIPS", Name: "VIPSTARCOIN"},
	{Type: 1926, PathComponent: 0x80000786, Symbol: "CITY", Name: "City Coin"},
	{Type: 1955, PathComponent: 0x800007a3, Symbol: "XX", Name: "xx coin"},
	{Type: 1977, PathComponent: 0x800007b9, Symbol: "XMX", Name: "Xuma"},
	{Type: 1984, PathComponent: 0x800007c0, Symbol: "TRTL", Name: "TurtleCoin"},
	{Type: 1985, PathComponent: 0x800007c1, Symbol: "SLRT", Name: "Solarti Chain"},
	{Type: 1986, PathComponent: 0x800007c2, Symbol: "QTH", Name: "Qing Tong Horizon"},
	{Type: 1987, PathComponent: 0x800007c3, Symbol: "EGEM", Name: "EtherGem"},
	{Type: 1988, PathComponent: 0x800007c4, Symbol: "MIRA", Name: "Mira Chain"},
	{Type: 1989, PathComponent: 0x800007c5, Symbol: "HODL", Name: "HOdlcoin"},
	{Type: 1990, PathComponent: 0x800007c6, Symbol: "PHL", Name: "Placeholders"},
	{Type: 1991, PathComponent: 0x800007c7, Symbol: "SC", Name: "Sia"},
	{Type: 1996, PathComponent: 0x800007cc, Symbol: "MYT", Name: "Mineyourtime"},
	{Type: 1997, PathComponent: 0x800007cd, Symbol: "POLIS", Name: "Polis"},
	{Type: 1998, PathComponent: 0x800007ce, Symbol: "XMCC", Name: "Monoeci"},
	{Type: 1999, PathComponent: 0x800007cf, Symbol: "COLX", Name: "ColossusXT"},
	{Type: 2000, PathComponent: 0x800007d0, Symbol: "GIN", Name: "GinCoin"},
	{Type: 2001, PathComponent: 0x800007d1, Symbol: "MNP", Name: "MNPCoin"},
	{Type: 2002, PathComponent: 0x800007d2, Symbol: "MLN", Name: "Miraland"},
	{Type: 2017, PathComponent: 0x800007e1, Symbol: "KIN", Name: "Kin"},
	{Type: 2018, PathComponent: 0x800007e2, Symbol: "EOSC", Name: "EOSClassic"},
	{Type: 2019, PathComponent: 0x800007e3, Symbol: "GBT", Name: "GoldBean Token"},
	{Type: 2020, PathComponent: 0x800007e4, Symbol: "PKC", Name: "PKC"},
	{Type: 2021, PathComponent: 0x800007e5, Symbol: "SKT", Name: "Sukhavati"},
	{Type: 2024, PathComponent: 0x800007e8, Symbol: "USBC", Name: "Universal Ledger USBC"},
	{Type: 2022, PathComponent: 0x800007e6, Symbol: "XHT", Name: "Xinghuo Token"},
	{Type: 2023, PathComponent: 0x800007e7, Symbol: "COC", Name: "Chat On Chain"},
	{Type: 2046, PathComponent: 0x800007fe, Symbol: "ANY", Name: "Any"},
	{Type: 2048, PathComponent: 0x80000800, Symbol: "MCASH", Name: "MCashChain"},
	{Type: 2049, PathComponent: 0x80000801, Symbol: "TRUE", Name: "TrueChain"},
	{Type: 2050, PathComponent: 0x80000802, Symbol: "MOVO", Name: "Movo Smart Chain"},
	{Type: 2086, PathComponent: 0x80000826, Symbol: "KILT", Name: "KILT Spiritnet"},
	{Type: 2109, PathComponent: 0x8000083d, Symbol: "SAMA", Name: "Exosama Network"},
	{Type: 2112, PathComponent: 0x80000840, Symbol: "IoTE", Name: "IoTE"},
	{Type: 2125, PathComponent: 0x8000084d, Symbol: "BAY", Name: "BitBay"},
	{Type: 2137, PathComponent: 0x80000859, Symbol: "XRG", Name: "Ergon"},
	{Type: 2182, PathComponent: 0x80000888, Symbol: "CHZ", Name: "Chiliz"},
	{Type: 2199, PathComponent: 0x80000897, Symbol: "SAMA", Name: "Moonsama Network"},
	{Type: 2221, PathComponent: 0x800008ad, Symbol: "ASK", Name: "ASK"},
	{Type: 2222, PathComponent: 0x800008ae, Symbol: "CWEB", Name: "Coinweb"},
	{Type: 2285, PathComponent: 0x800008ed, Symbol: "", Name: "Qiyi Chain"},
	{Type: 2301, PathComponent: 0x800008fd, Symbol: "QTUM", Name: "QTUM"},
	{Type: 2302, PathComponent: 0x800008fe, Symbol: "ETP", Name: "Metaverse"},
	{Type: 2303, PathComponent: 0x800008ff, Symbol: "GXC", Name: "GXChain"},
	{Type: 2304, PathComponent: 0x80000900, Symbol: "CRP", Name: "CranePay"},
	{Type: 2305, PathComponent: 0x80000901, Symbol: "ELA", Name: "Elastos"},
	{Type: 2338, PathComponent: 0x80000922, Symbol: "SNOW", Name: "Snowblossom"},
	{Type: 2365, PathComponent: 0x8000093d, Symbol: "XIN", Name: "Mixin"},
	{Type: 2500, PathComponent: 0x800009c4, Symbol: "NEXI", Name: "Nexi"},
	{Type: 2570, PathComponent: 0x80000a0a, Symbol: "AOA", Name: "Aurora"},
	{Type: 2718, PathComponent: 0x80000a9e, Symbol: "NAS", Name: "Nebulas"},
	{Type: 2894, PathComponent: 0x80000b4e, Symbol: "REOSC", Name: "REOSC Ecosystem"},
	{Type: 2941, PathComponent: 0x80000b7d, Symbol: "BND", Name: "Blocknode"},
	{Type: 3000, PathComponent: 0x80000bb8, Symbol: "SM", Name: "Stealth Message"},
	{Type: 3003, PathComponent: 0x80000bbb, Symbol: "LUX", Name: "LUX"},
	{Type: 3030, PathComponent: 0x80000bd6, Symbol: "HBAR", Name: "Hedera HBAR"},
	{Type: 3077, PathComponent: 0x80000c05, Symbol: "COS", Name: "Contentos"},
	{Type: 3276, PathComponent: 0x80000ccc, Symbol: "CCC", Name: "CodeChain"},
	{Type: 3333, PathComponent: 0x80000d05, Symbol: "SXP", Name: "Solar"},
"#

/-- bip44/coins.go:973-1036. -/
def t16 : List Nat := text! r#"	{Type: 3377, PathComponent: 0x80000d31, Symbol: "ROI", Name: "ROIcoin"},
	{Type: 3381, PathComponent: 0x80000d35, Symbol: "DYN", Name: "Dynamic"},
	{Type: 3383, PathComponent: 0x80000d37, Symbol: "SEQ", Name: "Sequence"},
	{Type: 3501, PathComponent: 0x80000dad, Symbol: "JFIN", Name: "JFIN Coin"},
	{Type: 3552, PathComponent: 0x80000de0, Symbol: "DEO", Name: "Destocoin"},
	{Type: 3564, PathComponent: 0x80000dec, Symbol: "DST", Name: "DeStream"},
	{Type: 3601, PathComponent: 0x80000e11, Symbol: "CY", Name: "Cybits"},
	{Type: 3757, PathComponent: 0x80000ead, Symbol: "MPC", Name: "Partisia Blockchain"},
	{Type: 4040, PathComponent: 0x80000fc8, Symbol: "FC8", Name: "FCH Network"},
	{Type: 4096, PathComponent: 0x80001000, Symbol: "YEE", Name: "YeeCo"},
	{Type: 4218, PathComponent: 0x8000107a, Symbol: "IOTA", Name: "IOTA"},
	{Type: 4219, PathComponent: 0x8000107b, Symbol: "SMR", Name: "Shimmer"},
	{Type: 4242, PathComponent: 0x80001092, Symbol: "AXE", Name: "Axe"},
	{Type: 4343, PathComponent: 0x800010f7, Symbol: "XYM", Name: "Symbol"},
	{Type: 4444, PathComponent: 0x8000115c, Symbol: "C4E", Name: "Chain4Energy"},
	{Type: 4919, PathComponent: 0x80001337, Symbol: "XVM", Name: "Venidium"},
	{Type: 4999, PathComponent: 0x80001387, Symbol: "BXN", Name: "BlackFort Exchange Network"},
	{Type: 5000, PathComponent: 0x80001388, Symbol: "V12", Name: "Vet The Vote"},
	{Type: 5006, PathComponent: 0x8000138e, Symbol: "SBC", Name: "Senior Blockchain"},
	{Type: 5248, PathComponent: 0x80001480, Symbol: "FIC", Name: "FIC"},
	{Type: 5353, PathComponent: 0x800014e9, Symbol: "HNS", Name: "Handshake"},
	{Type: 5404, PathComponent: 0x8000151c, Symbol: "ISK", Name: "ISKRA"},
	{Type: 5467, PathComponent: 0x8000155b, Symbol: "ALTME", Name: "ALTME"},
	{Type: 5555, PathComponent: 0x800015b3, Symbol: "FUND", Name: "Unification"},
	{Type: 5757, PathComponent: 0x8000167d, Symbol: "STX", Name: "Stacks"},
	{Type: 5895, PathComponent: 0x80001707, Symbol: "VOW", Name: "VowChain VOW"},
	{Type: 5920, PathComponent: 0x80001720, Symbol: "SLU", Name: "SILUBIUM"},
	{Type: 5995, PathComponent: 0x8000176b, Symbol: "DUSK", Name: "Dusk Network"},
	{Type: 6060, PathComponent: 0x800017ac, Symbol: "GO", Name: "GoChain GO"},
	{Type: 6144, PathComponent: 0x80001800, Symbol: "DTS", Name: "Datos"},
	{Type: 6174, PathComponent: 0x8000181e, Symbol: "MOI", Name: "My Own Internet"},
	{Type: 6278, PathComponent: 0x80001886, Symbol: "STEAMX", Name: "Rails Network Mainnet"},
	{Type: 6532, PathComponent: 0x80001984, Symbol: "UM", Name: "Penumbra"},
	{Type: 6599, PathComponent: 0x800019c7, Symbol: "RSC", Name: "Royal Sports City"},
	{Type: 6666, PathComponent: 0x80001a0a, Symbol: "BPA", Name: "Bitcoin Pizza"},
	{Type: 6688, PathComponent: 0x80001a20, Symbol: "SAFE", Name: "SAFE"},
	{Type: 6779, PathComponent: 0x80001a7b, Symbol: "COTI", Name: "COTI"},
	{Type: 6969, PathComponent: 0x80001b39, Symbol: "ROGER", Name: "TheHolyrogerCoin"},
	{Type: 7000, PathComponent: 0x80001b58, Symbol: "ZETA", Name: "ZetaChain"},
	{Type: 7027, PathComponent: 0x80001b73, Symbol: "ELLA", Name: "Ella the heart"},
	{Type: 7028, PathComponent: 0x80001b74, Symbol: "AA", Name: "Arthera"},
	{Type: 7091, PathComponent: 0x80001bb3, Symbol: "TOPL", Name: "Topl"},
	{Type: 7331, PathComponent: 0x80001ca3, Symbol: "KLY", Name: "KLYNTAR"},
	{Type: 7341, PathComponent: 0x80001cad, Symbol: "SHFT", Name: "Shyft"},
	{Type: 7518, PathComponent: 0x80001d5e, Symbol: "MEV", Name: "MEVerse"},
	{Type: 7576, PathComponent: 0x80001d98, Symbol: "ADIL", Name: "ADIL Chain"},
	{Type: 7777, PathComponent: 0x80001e61, Symbol: "BTV", Name: "Bitvote"},
	{Type: 7779, PathComponent: 0x80001e63, Symbol: "CPV", Name: "Compverse"},
	{Type: 8000, PathComponent: 0x80001f40, Symbol: "SKY", Name: "Skycoin"},
	{Type: 8080, PathComponent: 0x80001f90, Symbol: "", Name: "DSRV"},
	{Type: 8181, PathComponent: 0x80001ff5, Symbol: "BOC", Name: "BeOne Chain"},
	{Type: 8192, PathComponent: 0x80002000, Symbol: "PAC", Name: "pacprotocol"},
	{Type: 8217, PathComponent: 0x80002019, Symbol: "KLAY", Name: "KLAY"},
	{Type: 8339, PathComponent: 0x80002093, Symbol: "BTQ", Name: "BitcoinQuark"},
	{Type: 8444, PathComponent: 0x800020fc, Symbol: "XCH", Name: "Chia"},
	{Type: 8680, PathComponent: 0x800021e8, Symbol: "PLMNT", Name: "Planetmint"},
	{Type: 8866, PathComponent: 0x800022a2, Symbol: "GGX", Name: "Golden Gate"},
	{Type: 8886, PathComponent: 0x800022b6, Symbol: "GGXT", Name: "Golden Gate Sydney"},
	{Type: 8888, PathComponent: 0x800022b8, Symbol: "SBTC", Name: "Super Bitcoin"},
	{Type: 8964, PathComponent: 0x80002304, Symbol: "NULS", Name: "NULS"},
	{Type: 8997, PathComponent: 0x80002325, Symbol: "BBC", Name: "Babacoin"},
	{Type: 8998, PathComponent: 0x80002326, Symbol: "JGC", Name: "JagoanCoin"},
	{Type: 8999, PathComponent: 0x80002327, Symbol: "BTP", Name: "Bitcoin Pay"},
	{Type: 9000, PathComponent: 0x80002328, Symbol: "AVAX", Name: "Avalanche"},
"#

/-- bip44/coins.go:1037-1100. -/
def t17 : List Nat := text! r#"	{Type: 9001, PathComponent: 0x80002329, Symbol: "ARB1", Name: "Arbitrum"},
	{Type: 9002, PathComponent: 0x8000232a, Symbol: "BOBA", Name: "Boba"},
	{Type: 9003, PathComponent: 0x8000232b, Symbol: "LOOP", Name: "Loopring"},
	{Type: 9004, PathComponent: 0x8000232c, Symbol: "STRK", Name: "StarkNet"},
	{Type: 9005, PathComponent: 0x8000232d, Symbol: "AVAXC", Name: "Avalanche C-Chain"},
	{Type: 9006, PathComponent: 0x8000232e, Symbol: "BSC", Name: "Binance Smart Chain"},
	{Type: 9797, PathComponent: 0x80002645, Symbol: "NRG", Name: "Energi"},
	{Type: 9888, PathComponent: 0x800026a0, Symbol: "BTF", Name: "Bitcoin Faith"},
	{Type: 9999, PathComponent: 0x8000270f, Symbol: "GOD", Name: "Bitcoin God"},
	{Type: 10000, PathComponent: 0x80002710, Symbol: "FO", Name: "FIBOS"},
	{Type: 10111, PathComponent: 0x8000277f, Symbol: "DHP", Name: "dHealth"},
	{Type: 10226, PathComponent: 0x800027f2, Symbol: "RTM", Name: "Raptoreum"},
	{Type: 10242, PathComponent: 0x80002802, Symbol: "AA", Name: "Arthera"},
	{Type: 10291, PathComponent: 0x80002833, Symbol: "XRC", Name: "XRhodium"},
	{Type: 10507, PathComponent: 0x8000290b, Symbol: "NUM", Name: "Numbers Protocol"},
	{Type: 10605, PathComponent: 0x8000296d, Symbol: "XPI", Name: "Lotus"},
	{Type: 11111, PathComponent: 0x80002b67, Symbol: "ESS", Name: "Essentia One"},
	{Type: 11742, PathComponent: 0x80002dde, Symbol: "VARCH", Name: "InvArch"},
	{Type: 11743, PathComponent: 0x80002ddf, Symbol: "TNKR", Name: "Tinkernet"},
	{Type: 12345, PathComponent: 0x80003039, Symbol: "IPOS", Name: "IPOS"},
	{Type: 12586, PathComponent: 0x8000312a, Symbol: "MINA", Name: "Mina"},
	{Type: 13107, PathComponent: 0x80003333, Symbol: "BTY", Name: "BitYuan"},
	{Type: 13108, PathComponent: 0x80003334, Symbol: "YCC", Name: "Yuan Chain Coin"},
	{Type: 14001, PathComponent: 0x800036b1, Symbol: "WAX", Name: "Worldwide Asset Exchange"},
	{Type: 15845, PathComponent: 0x80003de5, Symbol: "SDGO", Name: "SanDeGo"},
	{Type: 16181, PathComponent: 0x80003f35, Symbol: "XTX", Name: "Totem Live Network"},
	{Type: 16754, PathComponent: 0x80004172, Symbol: "ARDR", Name: "Ardor"},
	{Type: 18000, PathComponent: 0x80004650, Symbol: "MTR", Name: "Meter"},
	{Type: 19165, PathComponent: 0x80004add, Symbol: "SAFE", Name: "Safecoin"},
	{Type: 19167, PathComponent: 0x80004adf, Symbol: "FLUX", Name: "Flux"},
	{Type: 19169, PathComponent: 0x80004ae1, Symbol: "RITO", Name: "Ritocoin"},
	{Type: 19788, PathComponent: 0x80004d4c, Symbol: "ML", Name: "Mintlayer"},
	{Type: 20036, PathComponent: 0x80004e44, Symbol: "XND", Name: "ndau"},
	{Type: 21004, PathComponent: 0x8000520c, Symbol: "C4EI", Name: "c4ei"},
	{Type: 21888, PathComponent: 0x80005580, Symbol: "PAC", Name: "Pactus"},
	{Type: 22504, PathComponent: 0x800057e8, Symbol: "PWR", Name: "PWRcoin"},
	{Type: 23000, PathComponent: 0x800059d8, Symbol: "EPIC", Name: "Epic Cash"},
	{Type: 25252, PathComponent: 0x800062a4, Symbol: "BELL", Name: "Bellcoin"},
	{Type: 25718, PathComponent: 0x80006476, Symbol: "CHX", Name: "Own"},
	{Type: 29223, PathComponent: 0x80007227, Symbol: "NEXA", Name: "Nexa"},
	{Type: 31102, PathComponent: 0x8000797e, Symbol: "ESN", Name: "EtherSocial Network"},
	{Type: 31337, PathComponent: 0x80007a69, Symbol: "", Name: "ThePower"},
	{Type: 33416, PathComponent: 0x80008288, Symbol: "TEO", Name: "Trust Eth reOrigin"},
	{Type: 33878, PathComponent: 0x80008456, Symbol: "BTCS", Name: "Bitcoin Stake"},
	{Type: 34952, PathComponent: 0x80008888, Symbol: "BTT", Name: "ByteTrade"},
	{Type: 37992, PathComponent: 0x80009468, Symbol: "FXTC", Name: "FixedTradeCoin"},
	{Type: 39321, PathComponent: 0x80009999, Symbol: "AMA", Name: "Amabig"},
	{Type: 42069, PathComponent: 0x8000a455, Symbol: "FACT", Name: "FACT0RN"},
	{Type: 43028, PathComponent: 0x8000a814, Symbol: "AXIV", Name: "AXIV"},
	{Type: 47803, PathComponent: 0x8000babb, Symbol: "BAX", Name: "BAX"},
	{Type: 49262, PathComponent: 0x8000c06e, Symbol: "EVE", Name: "evan"},
	{Type: 49344, PathComponent: 0x8000c0c0, Symbol: "STASH", Name: "STASH"},
	{Type: 52752, PathComponent: 0x8000ce10, Symbol: "CELO", Name: "Celo"},
	{Type: 61616, PathComponent: 0x8000f0b0, Symbol: "TH", Name: "TianHe"},
	{Type: 65536, PathComponent: 0x80010000, Symbol: "KETH", Name: "Krypton World"},
	{Type: 69420, PathComponent: 0x80010f2c, Symbol: "GRLC", Name: "Garlicoin"},
	{Type: 70007, PathComponent: 0x80011177, Symbol: "GWL", Name: "Gewel"},
	{Type: 77777, PathComponent: 0x80012fd1, Symbol: "ZYN", Name: "Wethio"},
	{Type: 88888, PathComponent: 0x80015b38, Symbol: "RYO", Name: "c0ban"},
	{Type: 99999, PathComponent: 0x8001869f, Symbol: "WICC", Name: "Waykichain"},
	{Type: 100500, PathComponent: 0x80018894, Symbol: "HOME", Name: "HomeCoin"},
	{Type: 101010, PathComponent: 0x80018a92, Symbol: "STC", Name: "Starcoin"},
	{Type: 105105, PathComponent: 0x80019a91, Symbol: "STRAX", Name: "Strax"},
	{Type: 111111, PathComponent: 0x8001b207, Symbol: "KAS", Name: "Kaspa"},
"#

/-- bip44/coins.go:1101-1148. -/
def t18 : List Nat := text! r#"	{Type: 161803, PathComponent: 0x8002780b, Symbol: "APTA", Name: "Bloqs4Good"},
	{Type: 200625, PathComponent: 0x80030fb1, Symbol: "AKA", Name: "Akroma"},
	{Type: 200665, PathComponent: 0x80011000, Symbol: "GENOM", Name: "GENOM"},
	{Type: 224433, PathComponent: 0x80036cb1, Symbol: "CONET", Name: "CONET Holesky Network"},
	{Type: 246529, PathComponent: 0x8003c301, Symbol: "ATS", Name: "ARTIS sigma1"},
	{Type: 261131, PathComponent: 0x8003fc0b, Symbol: "ZAMA", Name: "Zama"},
	{Type: 314159, PathComponent: 0x8004cb2f, Symbol: "PI", Name: "Pi Network"},
	{Type: 333332, PathComponent: 0x80051614, Symbol: "VALUE", Name: "Value Chain"},
	{Type: 333333, PathComponent: 0x80051615, Symbol: "3333", Name: "Pi Value Consensus"},
	{Type: 424242, PathComponent: 0x80067932, Symbol: "X42", Name: "x42"},
	{Type: 534352, PathComponent: 0x80082750, Symbol: "SCR", Name: "Scroll"},
	{Type: 666666, PathComponent: 0x800a2c2a, Symbol: "VITE", Name: "Vite"},
	{Type: 888888, PathComponent: 0x800d9038, Symbol: "SEA", Name: "Second Exchange Alliance"},
	{Type: 999999, PathComponent: 0x800c9061, Symbol: "WTC", Name: "WaltonChain"},
	{Type: 1048576, PathComponent: 0x80100000, Symbol: "AMAX", Name: "Armonia Meta Chain"},
	{Type: 1171337, PathComponent: 0x8011df89, Symbol: "ILT", Name: "iOlite"},
	{Type: 1313114, PathComponent: 0x8014095a, Symbol: "ETHO", Name: "Etho Protocol"},
	{Type: 1313500, PathComponent: 0x80140adc, Symbol: "XERO", Name: "Xerom"},
	{Type: 1712144, PathComponent: 0x801a2010, Symbol: "LAX", Name: "LAPO"},
	{Type: 3924011, PathComponent: 0x803be02b, Symbol: "EPK", Name: "EPIK Protocol"},
	{Type: 4741444, PathComponent: 0x80485944, Symbol: "HYD", Name: "Hydra Token"},
	{Type: 5249353, PathComponent: 0x80501949, Symbol: "BCO", Name: "BitcoinOre"},
	{Type: 5249354, PathComponent: 0x8050194a, Symbol: "BHD", Name: "BitcoinHD"},
	{Type: 5264462, PathComponent: 0x8050544e, Symbol: "PTN", Name: "PalletOne"},
	{Type: 5655640, PathComponent: 0x80564c58, Symbol: "VLX", Name: "Velas"},
	{Type: 5718350, PathComponent: 0x8057414e, Symbol: "WAN", Name: "Wanchain"},
	{Type: 5741564, PathComponent: 0x80579bfc, Symbol: "WAVES", Name: "Waves"},
	{Type: 5741565, PathComponent: 0x80579bfd, Symbol: "WEST", Name: "Waves Enterprise"},
	{Type: 6382179, PathComponent: 0x80616263, Symbol: "ABC", Name: "Abcmint"},
	{Type: 6517357, PathComponent: 0x8063726d, Symbol: "CRM", Name: "Creamcoin"},
	{Type: 7171666, PathComponent: 0x806d6e52, Symbol: "BROCK", Name: "Bitrock"},
	{Type: 7562605, PathComponent: 0x8073656d, Symbol: "SEM", Name: "Semux"},
	{Type: 7567736, PathComponent: 0x80737978, Symbol: "ION", Name: "ION"},
	{Type: 7777777, PathComponent: 0x8076adf1, Symbol: "FCT", Name: "FirmaChain"},
	{Type: 7825266, PathComponent: 0x80776772, Symbol: "WGR", Name: "WGR"},
	{Type: 7825267, PathComponent: 0x80776773, Symbol: "OBSR", Name: "OBServer"},
	{Type: 8163271, PathComponent: 0x807c8fc7, Symbol: "AFS", Name: "ANFS"},
	{Type: 15118976, PathComponent: 0x80e6b280, Symbol: "XDS", Name: "XDS"},
	{Type: 61717561, PathComponent: 0x83adbc39, Symbol: "AQUA", Name: "Aquachain"},
	{Type: 88888888, PathComponent: 0x854c5638, Symbol: "HATCH", Name: "Hatch"},
	{Type: 91927009, PathComponent: 0x857ab1e1, Symbol: "kUSD", Name: "kUSD"},
	{Type: 99999996, PathComponent: 0x85f5e0fc, Symbol: "GENS", Name: "GENS"},
	{Type: 99999997, PathComponent: 0x85f5e0fd, Symbol: "EQ", Name: "EQ"},
	{Type: 99999998, PathComponent: 0x85f5e0fe, Symbol: "FLUID", Name: "Fluid Chains"},
	{Type: 99999999, PathComponent: 0x85f5e0ff, Symbol: "QKC", Name: "QuarkChain"},
	{Type: 11259375, PathComponent: 0x80abcdef, Symbol: "LBR", Name: "0L"},
	{Type: 608589380, PathComponent: 0xa4465644, Symbol: "FVDC", Name: "ForumCoin"},
	{Type: 1179993420, PathComponent: 0xc655454c, Symbol: "", Name: "Fuel"},
"#

/-- bip44/coins.go:1149-1149. -/
def t19 : List Nat := text! r#"}
"#

/-- The parts. -/
def parts : List (List Nat) := [t0, t1, t2, t3, t4, t5, t6, t7, t8, t9, t10, t11, t12, t13, t14, t15, t16, t17, t18, t19]

end Bips.Data.CoinsText
