import Verif.Data.CoinMacro

/-!
# bip44/coins.go:12-1149, the table `RegCoins`

Generated by tools/gen_coins.py, one row of the source per line.
-/

namespace Bips.Data.Coins

set_option maxRecDepth 10000

/-- bip44/coins.go:13-76. -/
def c0 : List CoinCode := [
  coin! 0 0x80000000 "BTC" "Bitcoin",
  coin! 1 0x80000001 "" "Testnet (all coins)",
  coin! 2 0x80000002 "LTC" "Litecoin",
  coin! 3 0x80000003 "DOGE" "Dogecoin",
  coin! 4 0x80000004 "RDD" "Reddcoin",
  coin! 5 0x80000005 "DASH" "Dash",
  coin! 6 0x80000006 "PPC" "Peercoin",
  coin! 7 0x80000007 "NMC" "Namecoin",
  coin! 8 0x80000008 "FTC" "Feathercoin",
  coin! 9 0x80000009 "XCP" "Counterparty",
  coin! 10 0x8000000a "BLK" "Blackcoin",
  coin! 11 0x8000000b "NSR" "NuShares",
  coin! 12 0x8000000c "NBT" "NuBits",
  coin! 13 0x8000000d "MZC" "Mazacoin",
  coin! 14 0x8000000e "VIA" "Viacoin",
  coin! 15 0x8000000f "XCH" "ClearingHouse",
  coin! 16 0x80000010 "RBY" "Rubycoin",
  coin! 17 0x80000011 "GRS" "Groestlcoin",
  coin! 18 0x80000012 "DGC" "Digitalcoin",
  coin! 19 0x80000013 "CCN" "Cannacoin",
  coin! 20 0x80000014 "DGB" "DigiByte",
  coin! 21 0x80000015 "" "Open Assets",
  coin! 22 0x80000016 "MONA" "Monacoin",
  coin! 23 0x80000017 "CLAM" "Clams",
  coin! 24 0x80000018 "XPM" "Primecoin",
  coin! 25 0x80000019 "NEOS" "Neoscoin",
  coin! 26 0x8000001a "JBS" "Jumbucks",
  coin! 27 0x8000001b "ZRC" "ziftrCOIN",
  coin! 28 0x8000001c "VTC" "Vertcoin",
  coin! 29 0x8000001d "NXT" "NXT",
  coin! 30 0x8000001e "BURST" "Burst",
  coin! 31 0x8000001f "MUE" "MonetaryUnit",
  coin! 32 0x80000020 "ZOOM" "Zoom",
  coin! 33 0x80000021 "VASH" "Virtual Cash",
  coin! 34 0x80000022 "CDN" "Canada eCoin",
  coin! 35 0x80000023 "SDC" "ShadowCash",
  coin! 36 0x80000024 "PKB" "ParkByte",
  coin! 37 0x80000025 "PND" "Pandacoin",
  coin! 38 0x80000026 "START" "StartCOIN",
  coin! 39 0x80000027 "MOIN" "MOIN",
  coin! 40 0x80000028 "EXP" "Expanse",
  coin! 41 0x80000029 "EMC2" "Einsteinium",
  coin! 42 0x8000002a "DCR" "Decred",
  coin! 43 0x8000002b "XEM" "NEM",
  coin! 44 0x8000002c "PART" "Particl",
  coin! 45 0x8000002d "ARG" "Argentum (dead)",
  coin! 46 0x8000002e "" "Libertas",
  coin! 47 0x8000002f "" "Posw coin",
  coin! 48 0x80000030 "SHR" "Shreeji",
  coin! 49 0x80000031 "GCR" "Global Currency Reserve (GCRcoin)",
  coin! 50 0x80000032 "NVC" "Novacoin",
  coin! 51 0x80000033 "AC" "Asiacoin",
  coin! 52 0x80000034 "BTCD" "BitcoinDark",
  coin! 53 0x80000035 "DOPE" "Dopecoin",
  coin! 54 0x80000036 "TPC" "Templecoin",
  coin! 55 0x80000037 "AIB" "AIB",
  coin! 56 0x80000038 "EDRC" "EDRCoin",
  coin! 57 0x80000039 "SYS" "Syscoin",
  coin! 58 0x8000003a "SLR" "Solarcoin",
  coin! 59 0x8000003b "SMLY" "Smileycoin",
  coin! 60 0x8000003c "ETH" "Ether",
  coin! 61 0x8000003d "ETC" "Ether Classic",
  coin! 62 0x8000003e "PSB" "Pesobit",
  coin! 63 0x8000003f "LDCN" "Landcoin (dead)"]

/-- bip44/coins.go:77-140. -/
def c1 : List CoinCode := [
  coin! 64 0x80000040 "" "Open Chain",
  coin! 65 0x80000041 "XBC" "Bitcoinplus",
  coin! 66 0x80000042 "IOP" "Internet of People",
  coin! 67 0x80000043 "NXS" "Nexus",
  coin! 68 0x80000044 "INSN" "InsaneCoin",
  coin! 69 0x80000045 "OK" "OKCash",
  coin! 70 0x80000046 "BRIT" "BritCoin",
  coin! 71 0x80000047 "CMP" "Compcoin",
  coin! 72 0x80000048 "CRW" "Crown",
  coin! 73 0x80000049 "BELA" "BelaCoin",
  coin! 74 0x8000004a "ICX" "ICON",
  coin! 75 0x8000004b "FJC" "FujiCoin",
  coin! 76 0x8000004c "MIX" "MIX",
  coin! 77 0x8000004d "XVG" "Verge Currency",
  coin! 78 0x8000004e "EFL" "Electronic Gulden",
  coin! 79 0x8000004f "CLUB" "ClubCoin",
  coin! 80 0x80000050 "RICHX" "RichCoin",
  coin! 81 0x80000051 "POT" "Potcoin",
  coin! 82 0x80000052 "QRK" "Quarkcoin",
  coin! 83 0x80000053 "TRC" "Terracoin",
  coin! 84 0x80000054 "GRC" "Gridcoin",
  coin! 85 0x80000055 "AUR" "Auroracoin",
  coin! 86 0x80000056 "IXC" "IXCoin",
  coin! 87 0x80000057 "NLG" "Gulden",
  coin! 88 0x80000058 "BITB" "BitBean",
  coin! 89 0x80000059 "BTA" "Bata",
  coin! 90 0x8000005a "XMY" "Myriadcoin",
  coin! 91 0x8000005b "BSD" "BitSend",
  coin! 92 0x8000005c "UNO" "Unobtanium",
  coin! 93 0x8000005d "MTR" "MasterTrader",
  coin! 94 0x8000005e "GB" "GoldBlocks",
  coin! 95 0x8000005f "SHM" "Saham",
  coin! 96 0x80000060 "CRX" "Chronos",
  coin! 97 0x80000061 "BIQ" "Ubiquoin",
  coin! 98 0x80000062 "EVO" "Evotion",
  coin! 99 0x80000063 "STO" "SaveTheOcean",
  coin! 100 0x80000064 "BIGUP" "BigUp",
  coin! 101 0x80000065 "GAME" "GameCredits",
  coin! 102 0x80000066 "DLC" "Dollarcoins",
  coin! 103 0x80000067 "ZYD" "Zayedcoin",
  coin! 104 0x80000068 "DBIC" "Dubaicoin",
  coin! 105 0x80000069 "STRAT" "Stratis",
  coin! 106 0x8000006a "SH" "Shilling",
  coin! 107 0x8000006b "MARS" "MarsCoin",
  coin! 108 0x8000006c "UBQ" "Ubiq",
  coin! 109 0x8000006d "PTC" "Pesetacoin",
  coin! 110 0x8000006e "NRO" "Neurocoin",
  coin! 111 0x8000006f "ARK" "ARK",
  coin! 112 0x80000070 "USC" "UltimateSecureCashMain",
  coin! 113 0x80000071 "THC" "Hempcoin",
  coin! 114 0x80000072 "LINX" "Linx",
  coin! 115 0x80000073 "ECN" "Ecoin",
  coin! 116 0x80000074 "DNR" "Denarius",
  coin! 117 0x80000075 "PINK" "Pinkcoin",
  coin! 118 0x80000076 "ATOM" "Atom",
  coin! 119 0x80000077 "PIVX" "Pivx",
  coin! 120 0x80000078 "FLASH" "Flashcoin",
  coin! 121 0x80000079 "ZEN" "Zencash",
  coin! 122 0x8000007a "PUT" "Putincoin",
  coin! 123 0x8000007b "ZNY" "BitZeny",
  coin! 124 0x8000007c "UNIFY" "Unify",
  coin! 125 0x8000007d "XST" "StealthCoin",
  coin! 126 0x8000007e "BRK" "Breakout Coin",
  coin! 127 0x8000007f "VC" "Vcash"]

/-- bip44/coins.go:141-204. -/
def c2 : List CoinCode := [
  coin! 128 0x80000080 "XMR" "Monero",
  coin! 129 0x80000081 "VOX" "Voxels",
  coin! 130 0x80000082 "NAV" "NavCoin",
  coin! 131 0x80000083 "FCT" "Factom Factoids",
  coin! 132 0x80000084 "EC" "Factom Entry Credits",
  coin! 133 0x80000085 "ZEC" "Zcash",
  coin! 134 0x80000086 "LSK" "Lisk",
  coin! 135 0x80000087 "STEEM" "Steem",
  coin! 136 0x80000088 "XZC" "ZCoin",
  coin! 137 0x80000089 "RBTC" "RSK",
  coin! 138 0x8000008a "" "Giftblock",
  coin! 139 0x8000008b "RPT" "RealPointCoin",
  coin! 140 0x8000008c "LBC" "LBRY Credits",
  coin! 141 0x8000008d "KMD" "Komodo",
  coin! 142 0x8000008e "BSQ" "bisq Token",
  coin! 143 0x8000008f "RIC" "Riecoin",
  coin! 144 0x80000090 "XRP" "Ripple",
  coin! 145 0x80000091 "BCH" "Bitcoin Cash",
  coin! 146 0x80000092 "NEBL" "Neblio",
  coin! 147 0x80000093 "ZCL" "ZClassic",
  coin! 148 0x80000094 "XLM" "Stellar Lumens",
  coin! 149 0x80000095 "NLC2" "NoLimitCoin2",
  coin! 150 0x80000096 "WHL" "WhaleCoin",
  coin! 151 0x80000097 "ERC" "EuropeCoin",
  coin! 152 0x80000098 "DMD" "Diamond",
  coin! 153 0x80000099 "BTM" "Bytom",
  coin! 154 0x8000009a "BIO" "Biocoin",
  coin! 155 0x8000009b "XWCC" "Whitecoin Classic",
  coin! 156 0x8000009c "BTG" "Bitcoin Gold",
  coin! 157 0x8000009d "BTC2X" "Bitcoin 2x",
  coin! 158 0x8000009e "SSN" "SuperSkynet",
  coin! 159 0x8000009f "TOA" "TOACoin",
  coin! 160 0x800000a0 "BTX" "Bitcore",
  coin! 161 0x800000a1 "ACC" "Adcoin",
  coin! 162 0x800000a2 "BCO" "Bridgecoin",
  coin! 163 0x800000a3 "ELLA" "Ellaism",
  coin! 164 0x800000a4 "PIRL" "Pirl",
  coin! 165 0x800000a5 "XNO" "Nano",
  coin! 166 0x800000a6 "VIVO" "Vivo",
  coin! 167 0x800000a7 "FRST" "Firstcoin",
  coin! 168 0x800000a8 "HNC" "Helleniccoin",
  coin! 169 0x800000a9 "BUZZ" "BUZZ",
  coin! 170 0x800000aa "MBRS" "Ember",
  coin! 171 0x800000ab "HC" "Hcash",
  coin! 172 0x800000ac "HTML" "HTMLCOIN",
  coin! 173 0x800000ad "ODN" "Obsidian",
  coin! 174 0x800000ae "ONX" "OnixCoin",
  coin! 175 0x800000af "RVN" "Ravencoin",
  coin! 176 0x800000b0 "GBX" "GoByte",
  coin! 177 0x800000b1 "BTCZ" "BitcoinZ",
  coin! 178 0x800000b2 "POA" "Poa",
  coin! 179 0x800000b3 "NYC" "NewYorkCoin",
  coin! 180 0x800000b4 "MXT" "MarteXcoin",
  coin! 181 0x800000b5 "WC" "Wincoin",
  coin! 182 0x800000b6 "MNX" "Minexcoin",
  coin! 183 0x800000b7 "BTCP" "Bitcoin Private",
  coin! 184 0x800000b8 "MUSIC" "Musicoin",
  coin! 185 0x800000b9 "BCA" "Bitcoin Atom",
  coin! 186 0x800000ba "CRAVE" "Crave",
  coin! 187 0x800000bb "STAK" "STRAKS",
  coin! 188 0x800000bc "WBTC" "World Bitcoin",
  coin! 189 0x800000bd "LCH" "LiteCash",
  coin! 190 0x800000be "EXCL" "ExclusiveCoin",
  coin! 191 0x800000bf "" "Lynx"]

/-- bip44/coins.go:205-268. -/
def c3 : List CoinCode := [
  coin! 192 0x800000c0 "LCC" "LitecoinCash",
  coin! 193 0x800000c1 "XFE" "Feirm",
  coin! 194 0x800000c2 "EOS" "EOS",
  coin! 195 0x800000c3 "TRX" "Tron",
  coin! 196 0x800000c4 "KOBO" "Kobocoin",
  coin! 197 0x800000c5 "HUSH" "HUSH",
  coin! 198 0x800000c6 "BAN" "Banano",
  coin! 199 0x800000c7 "ETF" "ETF",
  coin! 200 0x800000c8 "OMNI" "Omni",
  coin! 201 0x800000c9 "BIFI" "BitcoinFile",
  coin! 202 0x800000ca "UFO" "Uniform Fiscal Object",
  coin! 203 0x800000cb "CNMC" "Cryptonodes",
  coin! 204 0x800000cc "BCN" "Bytecoin",
  coin! 205 0x800000cd "RIN" "Ringo",
  coin! 206 0x800000ce "ATP" "Alaya",
  coin! 207 0x800000cf "EVT" "everiToken",
  coin! 208 0x800000d0 "ATN" "ATN",
  coin! 209 0x800000d1 "BIS" "Bismuth",
  coin! 210 0x800000d2 "NEET" "NEETCOIN",
  coin! 211 0x800000d3 "BOPO" "BopoChain",
  coin! 212 0x800000d4 "OOT" "Utrum",
  coin! 213 0x800000d5 "ALIAS" "Alias",
  coin! 214 0x800000d6 "MONK" "Monkey Project",
  coin! 215 0x800000d7 "BOXY" "BoxyCoin",
  coin! 216 0x800000d8 "FLO" "Flo",
  coin! 217 0x800000d9 "MEC" "Megacoin",
  coin! 218 0x800000da "BTDX" "BitCloud",
  coin! 219 0x800000db "XAX" "Artax",
  coin! 220 0x800000dc "ANON" "ANON",
  coin! 221 0x800000dd "LTZ" "LitecoinZ",
  coin! 222 0x800000de "BITG" "Bitcoin Green",
  coin! 223 0x800000df "ICP" "Internet Computer (DFINITY)",
  coin! 224 0x800000e0 "SMART" "Smartcash",
  coin! 225 0x800000e1 "XUEZ" "XUEZ",
  coin! 226 0x800000e2 "HLM" "Helium",
  coin! 227 0x800000e3 "WEB" "Webchain",
  coin! 228 0x800000e4 "ACM" "Actinium",
  coin! 229 0x800000e5 "NOS" "NOS Stable Coins",
  coin! 230 0x800000e6 "BITC" "BitCash",
  coin! 231 0x800000e7 "HTH" "Help The Homeless Coin",
  coin! 232 0x800000e8 "TZC" "Trezarcoin",
  coin! 233 0x800000e9 "VAR" "Varda",
  coin! 234 0x800000ea "IOV" "IOV",
  coin! 235 0x800000eb "FIO" "FIO",
  coin! 236 0x800000ec "BSV" "BitcoinSV",
  coin! 237 0x800000ed "DXN" "DEXON",
  coin! 238 0x800000ee "QRL" "Quantum Resistant Ledger",
  coin! 239 0x800000ef "PCX" "ChainX",
  coin! 240 0x800000f0 "LOKI" "Loki",
  coin! 241 0x800000f1 "" "Imagewallet",
  coin! 242 0x800000f2 "NIM" "Nimiq",
  coin! 243 0x800000f3 "SOV" "Sovereign Coin",
  coin! 244 0x800000f4 "JCT" "Jibital Coin",
  coin! 245 0x800000f5 "SLP" "Simple Ledger Protocol",
  coin! 246 0x800000f6 "EWT" "Energy Web",
  coin! 247 0x800000f7 "UC" "Ulord",
  coin! 248 0x800000f8 "EXOS" "EXOS",
  coin! 249 0x800000f9 "ECA" "Electra",
  coin! 250 0x800000fa "SOOM" "Soom",
  coin! 251 0x800000fb "XRD" "Redstone",
  coin! 252 0x800000fc "FREE" "FreeCoin",
  coin! 253 0x800000fd "NPW" "NewPowerCoin",
  coin! 254 0x800000fe "BST" "BlockStamp",
  coin! 255 0x800000ff "" "SmartHoldem"]

/-- bip44/coins.go:269-332. -/
def c4 : List CoinCode := [
  coin! 256 0x80000100 "NANO" "Bitcoin Nano",
  coin! 257 0x80000101 "BTCC" "Bitcoin Core",
  coin! 258 0x80000102 "" "Zen Protocol",
  coin! 259 0x80000103 "ZEST" "Zest",
  coin! 260 0x80000104 "ABT" "ArcBlock",
  coin! 261 0x80000105 "PION" "Pion",
  coin! 262 0x80000106 "DT3" "DreamTeam3",
  coin! 263 0x80000107 "ZBUX" "Zbux",
  coin! 264 0x80000108 "KPL" "Kepler",
  coin! 265 0x80000109 "TPAY" "TokenPay",
  coin! 266 0x8000010a "ZILLA" "ChainZilla",
  coin! 267 0x8000010b "ANK" "Anker",
  coin! 268 0x8000010c "BCC" "BCChain",
  coin! 269 0x8000010d "HPB" "HPB",
  coin! 270 0x8000010e "ONE" "ONE",
  coin! 271 0x8000010f "SBC" "SBC",
  coin! 272 0x80000110 "IPC" "IPChain",
  coin! 273 0x80000111 "DMTC" "Dominantchain",
  coin! 274 0x80000112 "OGC" "Onegram",
  coin! 275 0x80000113 "SHIT" "Shitcoin",
  coin! 276 0x80000114 "ANDES" "Andescoin",
  coin! 277 0x80000115 "AREPA" "Arepacoin",
  coin! 278 0x80000116 "BOLI" "Bolivarcoin",
  coin! 279 0x80000117 "RIL" "Rilcoin",
  coin! 280 0x80000118 "HTR" "Hathor Network",
  coin! 281 0x80000119 "ACME" "Accumulate",
  coin! 282 0x8000011a "BRAVO" "BRAVO",
  coin! 283 0x8000011b "ALGO" "Algorand",
  coin! 284 0x8000011c "BZX" "Bitcoinzero",
  coin! 285 0x8000011d "GXX" "GravityCoin",
  coin! 286 0x8000011e "HEAT" "HEAT",
  coin! 287 0x8000011f "XDN" "DigitalNote",
  coin! 288 0x80000120 "FSN" "FUSION",
  coin! 289 0x80000121 "CPC" "Capricoin",
  coin! 290 0x80000122 "BOLD" "Bold",
  coin! 291 0x80000123 "IOST" "IOST",
  coin! 292 0x80000124 "TKEY" "Tkeycoin",
  coin! 293 0x80000125 "USE" "Usechain",
  coin! 294 0x80000126 "BCZ" "BitcoinCZ",
  coin! 295 0x80000127 "IOC" "Iocoin",
  coin! 296 0x80000128 "ASF" "Asofe",
  coin! 297 0x80000129 "MASS" "MASS",
  coin! 298 0x8000012a "FAIR" "FairCoin",
  coin! 299 0x8000012b "NUKO" "Nekonium",
  coin! 300 0x8000012c "GNX" "Genaro Network",
  coin! 301 0x8000012d "DIVI" "Divi Project",
  coin! 302 0x8000012e "CMT" "Community",
  coin! 303 0x8000012f "EUNO" "EUNO",
  coin! 304 0x80000130 "IOTX" "IoTeX",
  coin! 305 0x80000131 "ONION" "DeepOnion",
  coin! 306 0x80000132 "8BIT" "8Bit",
  coin! 307 0x80000133 "ATC" "AToken Coin",
  coin! 308 0x80000134 "BTS" "Bitshares",
  coin! 309 0x80000135 "CKB" "Nervos CKB",
  coin! 310 0x80000136 "UGAS" "Ultrain",
  coin! 311 0x80000137 "ADS" "Adshares",
  coin! 312 0x80000138 "ARA" "Aura",
  coin! 313 0x80000139 "ZIL" "Zilliqa",
  coin! 314 0x8000013a "MOAC" "MOAC",
  coin! 315 0x8000013b "SWTC" "SWTC",
  coin! 316 0x8000013c "VNSC" "vnscoin",
  coin! 317 0x8000013d "PLUG" "Pl^g",
  coin! 318 0x8000013e "MAN" "Matrix AI Network",
  coin! 319 0x8000013f "ECC" "ECCoin"]

/-- bip44/coins.go:333-396. -/
def c5 : List CoinCode := [
  coin! 320 0x80000140 "RPD" "Rapids",
  coin! 321 0x80000141 "RAP" "Rapture",
  coin! 322 0x80000142 "GARD" "Hashgard",
  coin! 323 0x80000143 "ZER" "Zero",
  coin! 324 0x80000144 "EBST" "eBoost",
  coin! 325 0x80000145 "SHARD" "Shard",
  coin! 326 0x80000146 "MRX" "Metrix Coin",
  coin! 327 0x80000147 "CMM" "Commercium",
  coin! 328 0x80000148 "BLOCK" "Blocknet",
  coin! 329 0x80000149 "AUDAX" "AUDAX",
  coin! 330 0x8000014a "LUNA" "Terra",
  coin! 331 0x8000014b "ZPM" "zPrime",
  coin! 332 0x8000014c "KUVA" "Kuva Utility Note",
  coin! 333 0x8000014d "MEM" "MemCoin",
  coin! 334 0x8000014e "CS" "Credits",
  coin! 335 0x8000014f "SWIFT" "SwiftCash",
  coin! 336 0x80000150 "FIX" "FIX",
  coin! 337 0x80000151 "CPC" "CPChain",
  coin! 338 0x80000152 "VGO" "VirtualGoodsToken",
  coin! 339 0x80000153 "DVT" "DeVault",
  coin! 340 0x80000154 "N8V" "N8VCoin",
  coin! 341 0x80000155 "MTNS" "OmotenashiCoin",
  coin! 342 0x80000156 "BLAST" "BLAST",
  coin! 343 0x80000157 "DCT" "DECENT",
  coin! 344 0x80000158 "AUX" "Auxilium",
  coin! 345 0x80000159 "USDP" "USDP",
  coin! 346 0x8000015a "HTDF" "HTDF",
  coin! 347 0x8000015b "YEC" "Ycash",
  coin! 348 0x8000015c "QLC" "QLC Chain",
  coin! 349 0x8000015d "TEA" "Icetea Blockchain",
  coin! 350 0x8000015e "ARW" "ArrowChain",
  coin! 351 0x8000015f "MDM" "Medium",
  coin! 352 0x80000160 "CYB" "Cybex",
  coin! 353 0x80000161 "LTO" "LTO Network",
  coin! 354 0x80000162 "DOT" "Polkadot",
  coin! 355 0x80000163 "AEON" "Aeon",
  coin! 356 0x80000164 "RES" "Resistance",
  coin! 357 0x80000165 "AYA" "Aryacoin",
  coin! 358 0x80000166 "DAPS" "Dapscoin",
  coin! 359 0x80000167 "CSC" "CasinoCoin",
  coin! 360 0x80000168 "VSYS" "V Systems",
  coin! 361 0x80000169 "NOLLAR" "Nollar",
  coin! 362 0x8000016a "XNOS" "NOS",
  coin! 363 0x8000016b "CPU" "CPUchain",
  coin! 364 0x8000016c "LAMB" "Lambda Storage Chain",
  coin! 365 0x8000016d "VCT" "ValueCyber",
  coin! 366 0x8000016e "CZR" "Canonchain",
  coin! 367 0x8000016f "ABBC" "ABBC",
  coin! 368 0x80000170 "HET" "HET",
  coin! 369 0x80000171 "XAS" "Asch",
  coin! 370 0x80000172 "VDL" "Vidulum",
  coin! 371 0x80000173 "MED" "MediBloc",
  coin! 372 0x80000174 "ZVC" "ZVChain",
  coin! 373 0x80000175 "VESTX" "Vestx",
  coin! 374 0x80000176 "DBT" "DarkBit",
  coin! 375 0x80000177 "SEOS" "SuperEOS",
  coin! 376 0x80000178 "MXW" "Maxonrow",
  coin! 377 0x80000179 "ZNZ" "ZENZO",
  coin! 378 0x8000017a "XCX" "XChain",
  coin! 379 0x8000017b "SOX" "SonicX",
  coin! 380 0x8000017c "NYZO" "Nyzo",
  coin! 381 0x8000017d "ULC" "ULCoin",
  coin! 382 0x8000017e "RYO" "Ryo Currency",
  coin! 383 0x8000017f "KAL" "Kaleidochain"]

/-- bip44/coins.go:397-460. -/
def c6 : List CoinCode := [
  coin! 384 0x80000180 "XSN" "Stakenet",
  coin! 385 0x80000181 "DOGEC" "DogeCash",
  coin! 386 0x80000182 "BMV" "Bitcoin Matteo's Vision",
  coin! 387 0x80000183 "QBC" "Quebecoin",
  coin! 388 0x80000184 "IMG" "ImageCoin",
  coin! 389 0x80000185 "QOS" "QOS",
  coin! 390 0x80000186 "PKT" "PKT",
  coin! 391 0x80000187 "LHD" "LitecoinHD",
  coin! 392 0x80000188 "CENNZ" "CENNZnet",
  coin! 393 0x80000189 "HSN" "Hyper Speed Network",
  coin! 394 0x8000018a "CRO" "Crypto Chain",
  coin! 395 0x8000018b "UMBRU" "Umbru",
  coin! 396 0x8000018c "EVER" "Everscale",
  coin! 397 0x8000018d "NEAR" "NEAR Protocol",
  coin! 398 0x8000018e "XPC" "XPChain",
  coin! 399 0x8000018f "ZOC" "01coin",
  coin! 400 0x80000190 "NIX" "NIX",
  coin! 401 0x80000191 "UC" "Utopiacoin",
  coin! 402 0x80000192 "GALI" "Galilel",
  coin! 403 0x80000193 "OLT" "Oneledger",
  coin! 404 0x80000194 "XBI" "XBI",
  coin! 405 0x80000195 "DONU" "DONU",
  coin! 406 0x80000196 "EARTHS" "Earths",
  coin! 407 0x80000197 "HDD" "HDDCash",
  coin! 408 0x80000198 "SUGAR" "Sugarchain",
  coin! 409 0x80000199 "AILE" "AileCoin",
  coin! 410 0x8000019a "TENT" "TENT",
  coin! 411 0x8000019b "TAN" "Tangerine Network",
  coin! 412 0x8000019c "AIN" "AIN",
  coin! 413 0x8000019d "MSR" "Masari",
  coin! 414 0x8000019e "SUMO" "Sumokoin",
  coin! 415 0x8000019f "ETN" "Electroneum",
  coin! 416 0x800001a0 "BYTZ" "BYTZ",
  coin! 417 0x800001a1 "WOW" "Wownero",
  coin! 418 0x800001a2 "XTNC" "XtendCash",
  coin! 419 0x800001a3 "LTHN" "Lethean",
  coin! 420 0x800001a4 "NODE" "NodeHost",
  coin! 421 0x800001a5 "AGM" "Argoneum",
  coin! 422 0x800001a6 "CCX" "Conceal Network",
  coin! 423 0x800001a7 "TNET" "Title Network",
  coin! 424 0x800001a8 "TELOS" "TelosCoin",
  coin! 425 0x800001a9 "AION" "Aion",
  coin! 426 0x800001aa "BC" "Bitcoin Confidential",
  coin! 427 0x800001ab "KTV" "KmushiCoin",
  coin! 428 0x800001ac "ZCR" "ZCore",
  coin! 429 0x800001ad "ERG" "Ergo",
  coin! 430 0x800001ae "PESO" "Criptopeso",
  coin! 431 0x800001af "BTC2" "Bitcoin 2",
  coin! 432 0x800001b0 "XRPHD" "XRPHD",
  coin! 433 0x800001b1 "WE" "WE Coin",
  coin! 434 0x800001b2 "KSM" "Kusama",
  coin! 435 0x800001b3 "PCN" "Peepcoin",
  coin! 436 0x800001b4 "NCH" "NetCloth",
  coin! 437 0x800001b5 "ICU" "CHIPO",
  coin! 438 0x800001b6 "FNSA" "FINSCHIA",
  coin! 439 0x800001b7 "DTP" "DeVault Token Protocol",
  coin! 440 0x800001b8 "BTCR" "Bitcoin Royale",
  coin! 441 0x800001b9 "AERGO" "AERGO",
  coin! 442 0x800001ba "XTH" "Dothereum",
  coin! 443 0x800001bb "LV" "Lava",
  coin! 444 0x800001bc "PHR" "Phore",
  coin! 445 0x800001bd "VITAE" "Vitae",
  coin! 446 0x800001be "COCOS" "Cocos-BCX",
  coin! 447 0x800001bf "DIN" "Dinero"]

/-- bip44/coins.go:461-524. -/
def c7 : List CoinCode := [
  coin! 448 0x800001c0 "SPL" "Simplicity",
  coin! 449 0x800001c1 "YCE" "MYCE",
  coin! 450 0x800001c2 "XLR" "Solaris",
  coin! 451 0x800001c3 "KTS" "Klimatas",
  coin! 452 0x800001c4 "DGLD" "DGLD",
  coin! 453 0x800001c5 "XNS" "Insolar",
  coin! 454 0x800001c6 "EM" "EMPOW",
  coin! 455 0x800001c7 "SHN" "ShineBlocks",
  coin! 456 0x800001c8 "SEELE" "Seele",
  coin! 457 0x800001c9 "AE" "æternity",
  coin! 458 0x800001ca "ODX" "ObsidianX",
  coin! 459 0x800001cb "KAVA" "Kava",
  coin! 460 0x800001cc "GLEEC" "GLEEC",
  coin! 461 0x800001cd "FIL" "Filecoin",
  coin! 462 0x800001ce "RUTA" "Rutanio",
  coin! 463 0x800001cf "CSDT" "CSDT",
  coin! 464 0x800001d0 "ETI" "EtherInc",
  coin! 465 0x800001d1 "ZSLP" "Zclassic Simple Ledger Protocol",
  coin! 466 0x800001d2 "ERE" "EtherCore",
  coin! 467 0x800001d3 "DX" "DxChain Token",
  coin! 468 0x800001d4 "CPS" "Capricoin+",
  coin! 469 0x800001d5 "BTH" "Bithereum",
  coin! 470 0x800001d6 "MESG" "MESG",
  coin! 471 0x800001d7 "FIMK" "FIMK",
  coin! 472 0x800001d8 "AR" "Arweave",
  coin! 473 0x800001d9 "OGO" "Origo",
  coin! 474 0x800001da "ROSE" "Oasis Network",
  coin! 475 0x800001db "BARE" "BARE Network",
  coin! 476 0x800001dc "GLEEC" "GleecBTC",
  coin! 477 0x800001dd "CLR" "Color Coin",
  coin! 478 0x800001de "RNG" "Ring",
  coin! 479 0x800001df "OLO" "Tool Global",
  coin! 480 0x800001e0 "PEXA" "Pexa",
  coin! 481 0x800001e1 "MOON" "Mooncoin",
  coin! 482 0x800001e2 "OCEAN" "Ocean Protocol",
  coin! 483 0x800001e3 "BNT" "Bluzelle Native",
  coin! 484 0x800001e4 "AMO" "AMO Blockchain",
  coin! 485 0x800001e5 "FCH" "FreeCash",
  coin! 486 0x800001e6 "LAT" "PlatON",
  coin! 487 0x800001e7 "COIN" "Bitcoin Bank",
  coin! 488 0x800001e8 "VEO" "Amoveo",
  coin! 489 0x800001e9 "CCA" "Counos Coin",
  coin! 490 0x800001ea "GFN" "Graphene",
  coin! 491 0x800001eb "BIP" "Minter Network",
  coin! 492 0x800001ec "KPG" "Kunpeng Network",
  coin! 493 0x800001ed "FIN" "FINL Chain",
  coin! 494 0x800001ee "BAND" "Band",
  coin! 495 0x800001ef "DROP" "Dropil",
  coin! 496 0x800001f0 "BHT" "Bluehelix Chain",
  coin! 497 0x800001f1 "LYRA" "Scrypta",
  coin! 498 0x800001f2 "CS" "Credits",
  coin! 499 0x800001f3 "RUPX" "Rupaya",
  coin! 500 0x800001f4 "THETA" "Theta",
  coin! 501 0x800001f5 "SOL" "Solana",
  coin! 502 0x800001f6 "THT" "ThoughtAI",
  coin! 503 0x800001f7 "CFX" "Conflux",
  coin! 504 0x800001f8 "KUMA" "Kumacoin",
  coin! 505 0x800001f9 "HASH" "Provenance",
  coin! 506 0x800001fa "CSPR" "Casper",
  coin! 507 0x800001fb "EARTH" "EARTH",
  coin! 508 0x800001fc "EGLD" "MultiversX",
  coin! 509 0x800001fd "CHI" "Xaya",
  coin! 510 0x800001fe "KOTO" "Koto",
  coin! 511 0x800001ff "OTC" "θ"]

/-- bip44/coins.go:525-588. -/
def c8 : List CoinCode := [
  coin! 512 0x80000200 "XRD" "Radiant",
  coin! 513 0x80000201 "SEELEN" "Seele-N",
  coin! 514 0x80000202 "AETH" "AETH",
  coin! 515 0x80000203 "DNA" "Idena",
  coin! 516 0x80000204 "VEE" "Virtual Economy Era",
  coin! 517 0x80000205 "SIERRA" "SierraCoin",
  coin! 518 0x80000206 "LET" "Linkeye",
  coin! 519 0x80000207 "BSC" "Bitcoin Smart Contract",
  coin! 520 0x80000208 "BTCV" "BitcoinVIP",
  coin! 521 0x80000209 "ABA" "Dabacus",
  coin! 522 0x8000020a "SCC" "StakeCubeCoin",
  coin! 523 0x8000020b "EDG" "Edgeware",
  coin! 524 0x8000020c "AMS" "AmsterdamCoin",
  coin! 525 0x8000020d "GOSS" "GOSSIP Coin",
  coin! 526 0x8000020e "BU" "BUMO",
  coin! 527 0x8000020f "GRAM" "GRAM",
  coin! 528 0x80000210 "YAP" "Yapstone",
  coin! 529 0x80000211 "SCRT" "Secret Network",
  coin! 530 0x80000212 "NOVO" "Novo",
  coin! 531 0x80000213 "GHOST" "Ghost",
  coin! 532 0x80000214 "HST" "HST",
  coin! 533 0x80000215 "PRJ" "ProjectCoin",
  coin! 534 0x80000216 "YOU" "YOUChain",
  coin! 535 0x80000217 "XHV" "Haven Protocol",
  coin! 536 0x80000218 "BYND" "Beyondcoin",
  coin! 537 0x80000219 "JOYS" "Joys Digital",
  coin! 538 0x8000021a "VAL" "Valorbit",
  coin! 539 0x8000021b "FLOW" "Flow",
  coin! 540 0x8000021c "SMESH" "Spacemesh Coin",
  coin! 541 0x8000021d "SCDO" "SCDO",
  coin! 542 0x8000021e "IQS" "IQ-Cash",
  coin! 543 0x8000021f "BIND" "Compendia",
  coin! 544 0x80000220 "COINEVO" "Coinevo",
  coin! 545 0x80000221 "SCRIBE" "Scribe",
  coin! 546 0x80000222 "HYN" "Hyperion",
  coin! 547 0x80000223 "BHP" "BHP",
  coin! 548 0x80000224 "BBC" "BigBang Core",
  coin! 549 0x80000225 "MKF" "MarketFinance",
  coin! 550 0x80000226 "XDC" "XinFin",
  coin! 551 0x80000227 "STR" "Straightedge",
  coin! 552 0x80000228 "SUM" "Sumcoin",
  coin! 553 0x80000229 "HBC" "HuobiChain",
  coin! 555 0x8000022b "BCS" "Bitcoin Smart",
  coin! 556 0x8000022c "KTS" "Kratos",
  coin! 557 0x8000022d "LKR" "Lkrcoin",
  coin! 558 0x8000022e "TAO" "Tao",
  coin! 559 0x8000022f "XWC" "Whitecoin",
  coin! 560 0x80000230 "DEAL" "DEAL",
  coin! 561 0x80000231 "NTY" "Nexty",
  coin! 562 0x80000232 "TOP" "TOP NetWork",
  coin! 564 0x80000234 "AG" "Agoric",
  coin! 565 0x80000235 "CICO" "Coinicles",
  coin! 566 0x80000236 "IRIS" "Irisnet",
  coin! 567 0x80000237 "NCG" "Nine Chronicles",
  coin! 568 0x80000238 "LRG" "Large Coin",
  coin! 569 0x80000239 "SERO" "Super Zero Protocol",
  coin! 570 0x8000023a "BDX" "Beldex",
  coin! 571 0x8000023b "CCXX" "Counos X",
  coin! 572 0x8000023c "SLS" "Saluscoin",
  coin! 573 0x8000023d "SRM" "Serum",
  coin! 575 0x8000023f "VIVT" "VIDT Datalink",
  coin! 576 0x80000240 "BPS" "BitcoinPoS",
  coin! 577 0x80000241 "NKN" "NKN",
  coin! 578 0x80000242 "ICL" "ILCOIN"]

/-- bip44/coins.go:589-652. -/
def c9 : List CoinCode := [
  coin! 579 0x80000243 "BONO" "Bonorum",
  coin! 580 0x80000244 "PLC" "PLATINCOIN",
  coin! 581 0x80000245 "DUN" "Dune",
  coin! 582 0x80000246 "DMCH" "Darmacash",
  coin! 583 0x80000247 "CTC" "Creditcoin",
  coin! 584 0x80000248 "KELP" "Haidai Network",
  coin! 585 0x80000249 "GBCR" "GoldBCR",
  coin! 586 0x8000024a "XDAG" "XDAG",
  coin! 587 0x8000024b "PRV" "Incognito Privacy",
  coin! 588 0x8000024c "SCAP" "SafeCapital",
  coin! 589 0x8000024d "TFUEL" "Theta Fuel",
  coin! 590 0x8000024e "GTM" "Gentarium",
  coin! 591 0x8000024f "RNL" "RentalChain",
  coin! 592 0x80000250 "GRIN" "Grin",
  coin! 593 0x80000251 "MWC" "MimbleWimbleCoin",
  coin! 594 0x80000252 "DOCK" "Dock",
  coin! 595 0x80000253 "POLYX" "Polymesh",
  coin! 596 0x80000254 "DIVER" "Divergenti",
  coin! 597 0x80000255 "XEP" "Electra Protocol",
  coin! 598 0x80000256 "APN" "Apron",
  coin! 599 0x80000257 "TFC" "Turbo File Coin",
  coin! 600 0x80000258 "UTE" "Unit-e",
  coin! 601 0x80000259 "MTC" "Metacoin",
  coin! 602 0x8000025a "NC" "NobodyCash",
  coin! 603 0x8000025b "XINY" "Xinyuehu",
  coin! 604 0x8000025c "DYN" "Dynamo",
  coin! 605 0x8000025d "BUFS" "Buffer",
  coin! 606 0x8000025e "STOS" "Stratos",
  coin! 607 0x8000025f "TON" "TON",
  coin! 608 0x80000260 "TAFT" "TAFT",
  coin! 609 0x80000261 "HYDRA" "HYDRA",
  coin! 610 0x80000262 "NOR" "Noir",
  coin! 611 0x80000263 "" "Manta Network Private Asset",
  coin! 612 0x80000264 "" "Calamari Network Private Asset",
  coin! 613 0x80000265 "WCN" "Widecoin",
  coin! 614 0x80000266 "OPT" "Optimistic Ethereum",
  coin! 615 0x80000267 "PSWAP" "PolkaSwap",
  coin! 616 0x80000268 "VAL" "Validator",
  coin! 617 0x80000269 "XOR" "Sora",
  coin! 618 0x8000026a "SSP" "SmartShare",
  coin! 619 0x8000026b "DEI" "DeimosX",
  coin! 621 0x8000026d "ZERO" "Singularity",
  coin! 622 0x8000026e "ALPHA" "AlphaDAO",
  coin! 623 0x8000026f "BDECO" "BDCashProtocol Ecosystem",
  coin! 624 0x80000270 "NOBL" "Nobility",
  coin! 625 0x80000271 "EAST" "Eastcoin",
  coin! 626 0x80000272 "KDA" "Kadena",
  coin! 627 0x80000273 "SOUL" "Phantasma",
  coin! 628 0x80000274 "LORE" "Gitopia",
  coin! 629 0x80000275 "FNR" "Fincor",
  coin! 630 0x80000276 "NEXUS" "Nexus",
  coin! 631 0x80000277 "QTZ" "Quartz",
  coin! 632 0x80000278 "MAS" "Massa",
  coin! 633 0x80000279 "CALL" "Callchain",
  coin! 634 0x8000027a "VAL" "Validity",
  coin! 635 0x8000027b "POKT" "Pocket Network",
  coin! 636 0x8000027c "EMIT" "EMIT",
  coin! 637 0x8000027d "APTOS" "Aptos",
  coin! 638 0x8000027e "ADON" "ADON",
  coin! 639 0x8000027f "BTSG" "BitSong",
  coin! 640 0x80000280 "LFC" "Leofcoin",
  coin! 641 0x80000281 "KCS" "KuCoin Shares",
  coin! 642 0x80000282 "KCC" "KuCoin Community Chain",
  coin! 643 0x80000283 "AZERO" "Aleph Zero"]

/-- bip44/coins.go:653-716. -/
def c10 : List CoinCode := [
  coin! 644 0x80000284 "TREE" "Tree",
  coin! 645 0x80000285 "LX" "Lynx",
  coin! 646 0x80000286 "XLN" "Lunarium",
  coin! 647 0x80000287 "CIC" "CIC Chain",
  coin! 648 0x80000288 "ZRB" "Zarb",
  coin! 650 0x8000028a "UCO" "Archethic",
  coin! 651 0x8000028b "SFX" "Safex Cash",
  coin! 652 0x8000028c "SFT" "Safex Token",
  coin! 653 0x8000028d "WSFX" "Wrapped Safex Cash",
  coin! 654 0x8000028e "USDG" "US Digital Gold",
  coin! 655 0x8000028f "WMP" "WAMP",
  coin! 656 0x80000290 "EKTA" "Ekta",
  coin! 657 0x80000291 "YDA" "YadaCoin",
  coin! 659 0x80000293 "KOIN" "Koinos",
  coin! 660 0x80000294 "PIRATE" "PirateCash",
  coin! 661 0x80000295 "UNQ" "Unique",
  coin! 663 0x80000297 "SFRX" "EtherGem Sapphire",
  coin! 664 0x80000298 "BSTY" "GlobalBoost-Y",
  coin! 665 0x80000299 "IMP" "Impact Protocol",
  coin! 666 0x8000029a "ACT" "Achain",
  coin! 667 0x8000029b "PRKL" "Perkle",
  coin! 668 0x8000029c "SSC" "SelfSell",
  coin! 669 0x8000029d "GC" "GateChain",
  coin! 670 0x8000029e "PLGR" "Pledger",
  coin! 671 0x8000029f "MPLGR" "Pledger",
  coin! 672 0x800002a0 "KNOX" "Knox",
  coin! 673 0x800002a1 "ZED" "ZED",
  coin! 674 0x800002a2 "CNDL" "Candle",
  coin! 675 0x800002a3 "WLKR" "Walker Crypto Innovation Index",
  coin! 676 0x800002a4 "WLKRR" "Walker",
  coin! 677 0x800002a5 "YUNGE" "Yunge",
  coin! 678 0x800002a6 "Voken" "Voken",
  coin! 679 0x800002a7 "APL" "Apollo",
  coin! 680 0x800002a8 "Evrynet" "Evrynet",
  coin! 681 0x800002a9 "NENG" "Nengcoin",
  coin! 682 0x800002aa "CHTA" "Cheetahcoin",
  coin! 683 0x800002ab "ALEO" "Aleo Network",
  coin! 685 0x800002ad "OAS" "Oasys",
  coin! 686 0x800002ae "KAR" "Karura Network",
  coin! 688 0x800002b0 "CET" "CoinEx Chain",
  coin! 690 0x800002b2 "KLV" "KleverChain",
  coin! 694 0x800002b6 "VTBC" "VTB Community",
  coin! 698 0x800002ba "VEIL" "Veil",
  coin! 699 0x800002bb "GTB" "GotaBit",
  coin! 700 0x800002bc "XDAI" "xDai",
  coin! 701 0x800002bd "COM" "Commercio",
  coin! 702 0x800002be "CCC" "Commercio Cash Credit",
  coin! 704 0x800002c0 "RAQ" "Ra Quantum",
  coin! 705 0x800002c1 "PEG" "Pegasus Token",
  coin! 706 0x800002c2 "LKG" "Lionking",
  coin! 707 0x800002c3 "MCOIN" "Moneta Coin",
  coin! 710 0x800002c6 "FURY" "Highbury",
  coin! 711 0x800002c7 "CHC" "Chaincoin",
  coin! 712 0x800002c8 "SERF" "Serfnet",
  coin! 713 0x800002c9 "XTL" "Katal Chain",
  coin! 714 0x800002ca "BNB" "Binance",
  coin! 715 0x800002cb "SIN" "Sinovate",
  coin! 716 0x800002cc "DLN" "Delion",
  coin! 717 0x800002cd "BONTE" "Bontecoin",
  coin! 718 0x800002ce "PEER" "Peer",
  coin! 719 0x800002cf "ZET" "Zetacoin",
  coin! 720 0x800002d0 "ABY" "Artbyte",
  coin! 721 0x800002d1 "PGX" "Mirai Chain",
  coin! 722 0x800002d2 "IL8P" "InfiniLooP"]

/-- bip44/coins.go:717-780. -/
def c11 : List CoinCode := [
  coin! 724 0x800002d4 "XVC" "Vanillacash",
  coin! 725 0x800002d5 "MCX" "MultiCash",
  coin! 727 0x800002d7 "BLU" "BluCrates",
  coin! 730 0x800002da "HEALIOS" "Tenacity",
  coin! 731 0x800002db "BMK" "Bitmark",
  coin! 734 0x800002de "DENTX" "DENTNet",
  coin! 737 0x800002e1 "ATOP" "Financial Blockchain",
  coin! 747 0x800002eb "CFG" "Centrifuge",
  coin! 750 0x800002ee "XPRT" "Persistence",
  coin! 753 0x800002f1 "" "Age X25519 Encryption",
  coin! 754 0x800002f2 "" "Age NIST Encryption",
  coin! 757 0x800002f5 "HONEY" "HoneyWood",
  coin! 768 0x80000300 "BALLZ" "Ballzcoin",
  coin! 770 0x80000302 "COSA" "Cosanta",
  coin! 771 0x80000303 "BR" "BR",
  coin! 773 0x80000305 "CSB" "CosmoBliss",
  coin! 775 0x80000307 "PLSR" "Pulsar Coin",
  coin! 776 0x80000308 "KEY" "Keymaker Coin",
  coin! 777 0x80000309 "BTW" "Bitcoin World",
  coin! 780 0x8000030c "PLCUC" "PLC Ultima Classic",
  coin! 781 0x8000030d "PLCUX" "PLC Ultima X",
  coin! 782 0x8000030e "PLCU" "PLC Ultima",
  coin! 783 0x8000030f "SMARTBC" "SMART Blockchain",
  coin! 784 0x80000310 "SUI" "Sui",
  coin! 786 0x80000312 "UIDD" "UIDD",
  coin! 787 0x80000313 "ACA" "Acala",
  coin! 788 0x80000314 "BNC" "Bifrost",
  coin! 789 0x80000315 "TAU" "Lamden",
  coin! 794 0x8000031a "INTR" "Interlay",
  coin! 795 0x8000031b "KINT" "Kintsugi",
  coin! 799 0x8000031f "PDEX" "Polkadex",
  coin! 800 0x80000320 "BEET" "Beetle Coin",
  coin! 801 0x80000321 "DST" "DSTRA",
  coin! 802 0x80000322 "CY" "Cyberyen",
  coin! 804 0x80000324 "ZKS" "zkSync",
  coin! 808 0x80000328 "QVT" "Qvolta",
  coin! 809 0x80000329 "SDN" "Shiden Network",
  coin! 810 0x8000032a "ASTR" "Astar Network",
  coin! 813 0x8000032d "MEER" "Qitmeer",
  coin! 816 0x80000330 "FSC" "FSC",
  coin! 818 0x80000332 "VET" "VeChain Token",
  coin! 819 0x80000333 "REEF" "Reef",
  coin! 820 0x80000334 "CLO" "Callisto",
  coin! 822 0x80000336 "BDB" "BigchainDB",
  coin! 824 0x80000338 "RBNT" "Redbelly Network",
  coin! 827 0x8000033b "ACE" "Endurance",
  coin! 828 0x8000033c "CCN" "ComputeCoin",
  coin! 829 0x8000033d "BBA" "BBACHAIN",
  coin! 831 0x8000033f "CRUZ" "cruzbit",
  coin! 832 0x80000340 "SAPP" "Sapphire",
  coin! 833 0x80000341 "777" "Jackpot",
  coin! 834 0x80000342 "KYAN" "Kyanite",
  coin! 835 0x80000343 "AZR" "Azzure",
  coin! 836 0x80000344 "CFL" "CryptoFlow",
  coin! 837 0x80000345 "DASHD" "Dash Diamond",
  coin! 838 0x80000346 "TRTT" "Trittium",
  coin! 839 0x80000347 "UCR" "Ultra Clear",
  coin! 840 0x80000348 "PNY" "Peony",
  coin! 841 0x80000349 "BECN" "Beacon",
  coin! 842 0x8000034a "MONK" "Monk",
  coin! 843 0x8000034b "SAGA" "CryptoSaga",
  coin! 844 0x8000034c "SUV" "Suvereno",
  coin! 845 0x8000034d "ESK" "EskaCoin",
  coin! 846 0x8000034e "OWO" "OneWorld Coin"]

/-- bip44/coins.go:781-844. -/
def c12 : List CoinCode := [
  coin! 847 0x8000034f "PEPS" "PEPS Coin",
  coin! 848 0x80000350 "BIR" "Birake",
  coin! 849 0x80000351 "MOBIC" "MobilityCoin",
  coin! 850 0x80000352 "FLS" "Flits",
  coin! 851 0x80000353 "FRECO" "Freco",
  coin! 852 0x80000354 "DSM" "Desmos",
  coin! 853 0x80000355 "PRCY" "PRCY Coin",
  coin! 858 0x8000035a "HVH" "HAVAH",
  coin! 866 0x80000362 "MOB" "MobileCoin",
  coin! 868 0x80000364 "IF" "Infinitefuture",
  coin! 877 0x8000036d "NAM" "Namada",
  coin! 878 0x8000036e "SCR" "Scorum Network",
  coin! 880 0x80000370 "LUM" "Lum Network",
  coin! 883 0x80000373 "ZBC" "ZooBC",
  coin! 886 0x80000376 "ADF" "AD Token",
  coin! 888 0x80000378 "NEO" "NEO",
  coin! 889 0x80000379 "TOMO" "TOMO",
  coin! 890 0x8000037a "XSEL" "Seln",
  coin! 896 0x80000380 "LKSC" "LKSCoin",
  coin! 898 0x80000382 "AS" "Assetchain",
  coin! 899 0x80000383 "XEC" "eCash",
  coin! 900 0x80000384 "LMO" "Lumeneo",
  coin! 901 0x80000385 "NXT" "NxtMeta",
  coin! 904 0x80000388 "HNT" "Helium",
  coin! 907 0x8000038b "FIS" "StaFi",
  coin! 909 0x8000038d "SGE" "Saage",
  coin! 911 0x8000038f "GERT" "Gert",
  coin! 913 0x80000391 "VARA" "Vara Network",
  coin! 916 0x80000394 "META" "Metadium",
  coin! 917 0x80000395 "FRA" "Findora",
  coin! 919 0x80000397 "CCD" "Concordium",
  coin! 921 0x80000399 "AVN" "Avian Network",
  coin! 925 0x8000039d "DIP" "Dipper Network",
  coin! 928 0x800003a0 "GHM" "HermitMatrixNetwork",
  coin! 931 0x800003a3 "RUNE" "THORChain (RUNE)",
  coin! 945 0x800003b1 "UNLOCK" "Jasiri protocol",
  coin! 955 0x800003bb "LTP" "LifetionCoin",
  coin! 958 0x800003be "" "KickSoccer",
  coin! 960 0x800003c0 "VKAX" "Vkax",
  coin! 966 0x800003c6 "MATIC" "Matic",
  coin! 968 0x800003c8 "UNW" "UNW",
  coin! 969 0x800003c9 "QI" "Quai Network",
  coin! 970 0x800003ca "TWINS" "TWINS",
  coin! 977 0x800003d1 "TLOS" "Telos",
  coin! 981 0x800003d5 "TAFECO" "Taf ECO Chain",
  coin! 985 0x800003d9 "AU" "Autonomy",
  coin! 987 0x800003db "VCG" "VipCoin",
  coin! 988 0x800003dc "XAZAB" "Xazab core",
  coin! 989 0x800003dd "AIOZ" "AIOZ",
  coin! 990 0x800003de "CORE" "Coreum",
  coin! 991 0x800003df "PEC" "Phoenix",
  coin! 992 0x800003e0 "UNT" "Unit",
  coin! 993 0x800003e1 "XRB" "X Currency",
  coin! 994 0x800003e2 "QUAI" "Quai Network",
  coin! 995 0x800003e3 "CAPS" "Ternoa",
  coin! 996 0x800003e4 "OKT" "OKChain Token",
  coin! 997 0x800003e5 "SUM" "Solidum",
  coin! 998 0x800003e6 "LBTC" "Lightning Bitcoin",
  coin! 999 0x800003e7 "BCD" "Bitcoin Diamond",
  coin! 1000 0x800003e8 "BTN" "Bitcoin New",
  coin! 1001 0x800003e9 "TT" "ThunderCore",
  coin! 1002 0x800003ea "BKT" "BanKitt",
  coin! 1003 0x800003eb "NODL" "Nodle",
  coin! 1004 0x800003ec "PCOIN" "PCOIN"]

/-- bip44/coins.go:845-908. -/
def c13 : List CoinCode := [
  coin! 1005 0x800003ed "TAO" "Bittensor",
  coin! 1006 0x800003ee "HSK" "HashKey Chain",
  coin! 1007 0x800003ef "FTM" "Fantom",
  coin! 1008 0x800003f0 "RPG" "RPG",
  coin! 1009 0x800003f1 "LAKE" "iconLake",
  coin! 1010 0x800003f2 "HT" "Huobi ECO Chain",
  coin! 1011 0x800003f3 "ELV" "Eluvio",
  coin! 1012 0x800003f4 "JOC" "Japan Open Chain",
  coin! 1013 0x800003f5 "BIC" "Beincrypto",
  coin! 1020 0x800003fc "EVC" "Evrice",
  coin! 1022 0x800003fe "XRD" "Radix DLT",
  coin! 1023 0x800003ff "ONE" "HARMONY-ONE (Legacy)",
  coin! 1024 0x80000400 "ONT" "Ontology",
  coin! 1025 0x80000401 "CZZ" "Classzz",
  coin! 1026 0x80000402 "KEX" "Kira Exchange Token",
  coin! 1027 0x80000403 "MCM" "Mochimo",
  coin! 1028 0x80000404 "PLS" "Pulse Coin",
  coin! 1032 0x80000408 "BTCR" "BTCR",
  coin! 1042 0x80000412 "MFID" "Moonfish ID",
  coin! 1111 0x80000457 "BBC" "Big Bitcoin",
  coin! 1116 0x8000045c "CORE" "Core",
  coin! 1120 0x80000460 "RISE" "RISE",
  coin! 1122 0x80000462 "CMT" "CyberMiles Token",
  coin! 1128 0x80000468 "ETSC" "Ethereum Social",
  coin! 1129 0x80000469 "DFI" "DeFiChain",
  coin! 1130 0x8000046a "DFI" "DeFiChain EVM Network",
  coin! 1137 0x80000471 "$DAG" "Constellation Labs",
  coin! 1145 0x80000479 "CDY" "Bitcoin Candy",
  coin! 1155 0x80000483 "ENJ" "Enjin Coin",
  coin! 1170 0x80000492 "HOO" "Hoo Smart Chain",
  coin! 1234 0x800004d2 "ALPH" "Alephium",
  coin! 1236 0x800004d4 "" "Masca",
  coin! 1237 0x800004d5 "" "Nostr",
  coin! 1280 0x80000500 "" "Kudos Setler",
  coin! 1284 0x80000504 "GLMR" "Moonbeam",
  coin! 1285 0x80000505 "MOVR" "Moonriver",
  coin! 1298 0x80000512 "WPC" "Wpc",
  coin! 1308 0x8000051c "WEI" "WEI",
  coin! 1337 0x80000539 "DFC" "Defcoin",
  coin! 1348 0x80000544 "ISLM" "IslamicCoin",
  coin! 1397 0x80000575 "HYC" "Hycon",
  coin! 1410 0x80000582 "TENTSLP" "TENT Simple Ledger Protocol",
  coin! 1510 0x800005e6 "XSC" "XT Smart Chain",
  coin! 1512 0x800005e8 "AAC" "Double-A Chain",
  coin! 1524 0x800005f4 "" "Taler",
  coin! 1533 0x800005fd "BEAM" "Beam",
  coin! 1551 0x8000060f "SDK" "Sovereign SDK",
  coin! 1555 0x80000613 "APC" "Apc Chain",
  coin! 1616 0x80000650 "ELF" "AELF",
  coin! 1618 0x80000652 "AUDL" "AUDL",
  coin! 1620 0x80000654 "ATH" "Atheios",
  coin! 1627 0x8000065b "LUME" "Lume Web",
  coin! 1642 0x8000066a "NEW" "Newton",
  coin! 1657 0x80000679 "BTA" "Btachain",
  coin! 1668 0x80000684 "NEOX" "Neoxa",
  coin! 1669 0x80000685 "MEWC" "Meowcoin",
  coin! 1688 0x80000698 "BCX" "BitcoinX",
  coin! 1729 0x800006c1 "XTZ" "Tezos",
  coin! 1776 0x800006f0 "LBTC" "Liquid BTC",
  coin! 1777 0x800006f1 "BBP" "Biblepay",
  coin! 1784 0x800006f8 "JPYS" "JPY Stablecoin",
  coin! 1789 0x800006fd "VEGA" "Vega Protocol",
  coin! 1815 0x80000717 "ADA" "Cardano",
  coin! 1818 0x8000071a "CUBE" "Cube Chain Native Token"]

/-- bip44/coins.go:909-972. -/
def c14 : List CoinCode := [
  coin! 1856 0x80000743 "TES" "Teslacoin",
  coin! 1888 0x80000760 "ZTX" "Zetrix",
  coin! 1899 0x8000076b "XEC" "eCash token",
  coin! 1901 0x8000076d "CLC" "Classica",
  coin! 1907 0x80000773 "BITCI" "Bitcicoin",
  coin! 1919 0x8000077f "VIPS" "VIPSTARCOIN",
  coin! 1926 0x80000786 "CITY" "City Coin",
  coin! 1955 0x800007a3 "XX" "xx coin",
  coin! 1977 0x800007b9 "XMX" "Xuma",
  coin! 1984 0x800007c0 "TRTL" "TurtleCoin",
  coin! 1985 0x800007c1 "SLRT" "Solarti Chain",
  coin! 1986 0x800007c2 "QTH" "Qing Tong Horizon",
  coin! 1987 0x800007c3 "EGEM" "EtherGem",
  coin! 1988 0x800007c4 "MIRA" "Mira Chain",
  coin! 1989 0x800007c5 "HODL" "HOdlcoin",
  coin! 1990 0x800007c6 "PHL" "Placeholders",
  coin! 1991 0x800007c7 "SC" "Sia",
  coin! 1996 0x800007cc "MYT" "Mineyourtime",
  coin! 1997 0x800007cd "POLIS" "Polis",
  coin! 1998 0x800007ce "XMCC" "Monoeci",
  coin! 1999 0x800007cf "COLX" "ColossusXT",
  coin! 2000 0x800007d0 "GIN" "GinCoin",
  coin! 2001 0x800007d1 "MNP" "MNPCoin",
  coin! 2002 0x800007d2 "MLN" "Miraland",
  coin! 2017 0x800007e1 "KIN" "Kin",
  coin! 2018 0x800007e2 "EOSC" "EOSClassic",
  coin! 2019 0x800007e3 "GBT" "GoldBean Token",
  coin! 2020 0x800007e4 "PKC" "PKC",
  coin! 2021 0x800007e5 "SKT" "Sukhavati",
  coin! 2024 0x800007e8 "USBC" "Universal Ledger USBC",
  coin! 2022 0x800007e6 "XHT" "Xinghuo Token",
  coin! 2023 0x800007e7 "COC" "Chat On Chain",
  coin! 2046 0x800007fe "ANY" "Any",
  coin! 2048 0x80000800 "MCASH" "MCashChain",
  coin! 2049 0x80000801 "TRUE" "TrueChain",
  coin! 2050 0x80000802 "MOVO" "Movo Smart Chain",
  coin! 2086 0x80000826 "KILT" "KILT Spiritnet",
  coin! 2109 0x8000083d "SAMA" "Exosama Network",
  coin! 2112 0x80000840 "IoTE" "IoTE",
  coin! 2125 0x8000084d "BAY" "BitBay",
  coin! 2137 0x80000859 "XRG" "Ergon",
  coin! 2182 0x80000888 "CHZ" "Chiliz",
  coin! 2199 0x80000897 "SAMA" "Moonsama Network",
  coin! 2221 0x800008ad "ASK" "ASK",
  coin! 2222 0x800008ae "CWEB" "Coinweb",
  coin! 2285 0x800008ed "" "Qiyi Chain",
  coin! 2301 0x800008fd "QTUM" "QTUM",
  coin! 2302 0x800008fe "ETP" "Metaverse",
  coin! 2303 0x800008ff "GXC" "GXChain",
  coin! 2304 0x80000900 "CRP" "CranePay",
  coin! 2305 0x80000901 "ELA" "Elastos",
  coin! 2338 0x80000922 "SNOW" "Snowblossom",
  coin! 2365 0x8000093d "XIN" "Mixin",
  coin! 2500 0x800009c4 "NEXI" "Nexi",
  coin! 2570 0x80000a0a "AOA" "Aurora",
  coin! 2718 0x80000a9e "NAS" "Nebulas",
  coin! 2894 0x80000b4e "REOSC" "REOSC Ecosystem",
  coin! 2941 0x80000b7d "BND" "Blocknode",
  coin! 3000 0x80000bb8 "SM" "Stealth Message",
  coin! 3003 0x80000bbb "LUX" "LUX",
  coin! 3030 0x80000bd6 "HBAR" "Hedera HBAR",
  coin! 3077 0x80000c05 "COS" "Contentos",
  coin! 3276 0x80000ccc "CCC" "CodeChain",
  coin! 3333 0x80000d05 "SXP" "Solar"]

/-- bip44/coins.go:973-1036. -/
def c15 : List CoinCode := [
  coin! 3377 0x80000d31 "ROI" "ROIcoin",
  coin! 3381 0x80000d35 "DYN" "Dynamic",
  coin! 3383 0x80000d37 "SEQ" "Sequence",
  coin! 3501 0x80000dad "JFIN" "JFIN Coin",
  coin! 3552 0x80000de0 "DEO" "Destocoin",
  coin! 3564 0x80000dec "DST" "DeStream",
  coin! 3601 0x80000e11 "CY" "Cybits",
  coin! 3757 0x80000ead "MPC" "Partisia Blockchain",
  coin! 4040 0x80000fc8 "FC8" "FCH Network",
  coin! 4096 0x80001000 "YEE" "YeeCo",
  coin! 4218 0x8000107a "IOTA" "IOTA",
  coin! 4219 0x8000107b "SMR" "Shimmer",
  coin! 4242 0x80001092 "AXE" "Axe",
  coin! 4343 0x800010f7 "XYM" "Symbol",
  coin! 4444 0x8000115c "C4E" "Chain4Energy",
  coin! 4919 0x80001337 "XVM" "Venidium",
  coin! 4999 0x80001387 "BXN" "BlackFort Exchange Network",
  coin! 5000 0x80001388 "V12" "Vet The Vote",
  coin! 5006 0x8000138e "SBC" "Senior Blockchain",
  coin! 5248 0x80001480 "FIC" "FIC",
  coin! 5353 0x800014e9 "HNS" "Handshake",
  coin! 5404 0x8000151c "ISK" "ISKRA",
  coin! 5467 0x8000155b "ALTME" "ALTME",
  coin! 5555 0x800015b3 "FUND" "Unification",
  coin! 5757 0x8000167d "STX" "Stacks",
  coin! 5895 0x80001707 "VOW" "VowChain VOW",
  coin! 5920 0x80001720 "SLU" "SILUBIUM",
  coin! 5995 0x8000176b "DUSK" "Dusk Network",
  coin! 6060 0x800017ac "GO" "GoChain GO",
  coin! 6144 0x80001800 "DTS" "Datos",
  coin! 6174 0x8000181e "MOI" "My Own Internet",
  coin! 6278 0x80001886 "STEAMX" "Rails Network Mainnet",
  coin! 6532 0x80001984 "UM" "Penumbra",
  coin! 6599 0x800019c7 "RSC" "Royal Sports City",
  coin! 6666 0x80001a0a "BPA" "Bitcoin Pizza",
  coin! 6688 0x80001a20 "SAFE" "SAFE",
  coin! 6779 0x80001a7b "COTI" "COTI",
  coin! 6969 0x80001b39 "ROGER" "TheHolyrogerCoin",
  coin! 7000 0x80001b58 "ZETA" "ZetaChain",
  coin! 7027 0x80001b73 "ELLA" "Ella the heart",
  coin! 7028 0x80001b74 "AA" "Arthera",
  coin! 7091 0x80001bb3 "TOPL" "Topl",
  coin! 7331 0x80001ca3 "KLY" "KLYNTAR",
  coin! 7341 0x80001cad "SHFT" "Shyft",
  coin! 7518 0x80001d5e "MEV" "MEVerse",
  coin! 7576 0x80001d98 "ADIL" "ADIL Chain",
  coin! 7777 0x80001e61 "BTV" "Bitvote",
  coin! 7779 0x80001e63 "CPV" "Compverse",
  coin! 8000 0x80001f40 "SKY" "Skycoin",
  coin! 8080 0x80001f90 "" "DSRV",
  coin! 8181 0x80001ff5 "BOC" "BeOne Chain",
  coin! 8192 0x80002000 "PAC" "pacprotocol",
  coin! 8217 0x80002019 "KLAY" "KLAY",
  coin! 8339 0x80002093 "BTQ" "BitcoinQuark",
  coin! 8444 0x800020fc "XCH" "Chia",
  coin! 8680 0x800021e8 "PLMNT" "Planetmint",
  coin! 8866 0x800022a2 "GGX" "Golden Gate",
  coin! 8886 0x800022b6 "GGXT" "Golden Gate Sydney",
  coin! 8888 0x800022b8 "SBTC" "Super Bitcoin",
  coin! 8964 0x80002304 "NULS" "NULS",
  coin! 8997 0x80002325 "BBC" "Babacoin",
  coin! 8998 0x80002326 "JGC" "JagoanCoin",
  coin! 8999 0x80002327 "BTP" "Bitcoin Pay",
  coin! 9000 0x80002328 "AVAX" "Avalanche"]

/-- bip44/coins.go:1037-1100. -/
def c16 : List CoinCode := [
  coin! 9001 0x80002329 "ARB1" "Arbitrum",
  coin! 9002 0x8000232a "BOBA" "Boba",
  coin! 9003 0x8000232b "LOOP" "Loopring",
  coin! 9004 0x8000232c "STRK" "StarkNet",
  coin! 9005 0x8000232d "AVAXC" "Avalanche C-Chain",
  coin! 9006 0x8000232e "BSC" "Binance Smart Chain",
  coin! 9797 0x80002645 "NRG" "Energi",
  coin! 9888 0x800026a0 "BTF" "Bitcoin Faith",
  coin! 9999 0x8000270f "GOD" "Bitcoin God",
  coin! 10000 0x80002710 "FO" "FIBOS",
  coin! 10111 0x8000277f "DHP" "dHealth",
  coin! 10226 0x800027f2 "RTM" "Raptoreum",
  coin! 10242 0x80002802 "AA" "Arthera",
  coin! 10291 0x80002833 "XRC" "XRhodium",
  coin! 10507 0x8000290b "NUM" "Numbers Protocol",
  coin! 10605 0x8000296d "XPI" "Lotus",
  coin! 11111 0x80002b67 "ESS" "Essentia One",
  coin! 11742 0x80002dde "VARCH" "InvArch",
  coin! 11743 0x80002ddf "TNKR" "Tinkernet",
  coin! 12345 0x80003039 "IPOS" "IPOS",
  coin! 12586 0x8000312a "MINA" "Mina",
  coin! 13107 0x80003333 "BTY" "BitYuan",
  coin! 13108 0x80003334 "YCC" "Yuan Chain Coin",
  coin! 14001 0x800036b1 "WAX" "Worldwide Asset Exchange",
  coin! 15845 0x80003de5 "SDGO" "SanDeGo",
  coin! 16181 0x80003f35 "XTX" "Totem Live Network",
  coin! 16754 0x80004172 "ARDR" "Ardor",
  coin! 18000 0x80004650 "MTR" "Meter",
  coin! 19165 0x80004add "SAFE" "Safecoin",
  coin! 19167 0x80004adf "FLUX" "Flux",
  coin! 19169 0x80004ae1 "RITO" "Ritocoin",
  coin! 19788 0x80004d4c "ML" "Mintlayer",
  coin! 20036 0x80004e44 "XND" "ndau",
  coin! 21004 0x8000520c "C4EI" "c4ei",
  coin! 21888 0x80005580 "PAC" "Pactus",
  coin! 22504 0x800057e8 "PWR" "PWRcoin",
  coin! 23000 0x800059d8 "EPIC" "Epic Cash",
  coin! 25252 0x800062a4 "BELL" "Bellcoin",
  coin! 25718 0x80006476 "CHX" "Own",
  coin! 29223 0x80007227 "NEXA" "Nexa",
  coin! 31102 0x8000797e "ESN" "EtherSocial Network",
  coin! 31337 0x80007a69 "" "ThePower",
  coin! 33416 0x80008288 "TEO" "Trust Eth reOrigin",
  coin! 33878 0x80008456 "BTCS" "Bitcoin Stake",
  coin! 34952 0x80008888 "BTT" "ByteTrade",
  coin! 37992 0x80009468 "FXTC" "FixedTradeCoin",
  coin! 39321 0x80009999 "AMA" "Amabig",
  coin! 42069 0x8000a455 "FACT" "FACT0RN",
  coin! 43028 0x8000a814 "AXIV" "AXIV",
  coin! 47803 0x8000babb "BAX" "BAX",
  coin! 49262 0x8000c06e "EVE" "evan",
  coin! 49344 0x8000c0c0 "STASH" "STASH",
  coin! 52752 0x8000ce10 "CELO" "Celo",
  coin! 61616 0x8000f0b0 "TH" "TianHe",
  coin! 65536 0x80010000 "KETH" "Krypton World",
  coin! 69420 0x80010f2c "GRLC" "Garlicoin",
  coin! 70007 0x80011177 "GWL" "Gewel",
  coin! 77777 0x80012fd1 "ZYN" "Wethio",
  coin! 88888 0x80015b38 "RYO" "c0ban",
  coin! 99999 0x8001869f "WICC" "Waykichain",
  coin! 100500 0x80018894 "HOME" "HomeCoin",
  coin! 101010 0x80018a92 "STC" "Starcoin",
  coin! 105105 0x80019a91 "STRAX" "Strax",
  coin! 111111 0x8001b207 "KAS" "Kaspa"]

/-- bip44/coins.go:1101-1148. -/
def c17 : List CoinCode := [
  coin! 161803 0x8002780b "APTA" "Bloqs4Good",
  coin! 200625 0x80030fb1 "AKA" "Akroma",
  coin! 200665 0x80011000 "GENOM" "GENOM",
  coin! 224433 0x80036cb1 "CONET" "CONET Holesky Network",
  coin! 246529 0x8003c301 "ATS" "ARTIS sigma1",
  coin! 261131 0x8003fc0b "ZAMA" "Zama",
  coin! 314159 0x8004cb2f "PI" "Pi Network",
  coin! 333332 0x80051614 "VALUE" "Value Chain",
  coin! 333333 0x80051615 "3333" "Pi Value Consensus",
  coin! 424242 0x80067932 "X42" "x42",
  coin! 534352 0x80082750 "SCR" "Scroll",
  coin! 666666 0x800a2c2a "VITE" "Vite",
  coin! 888888 0x800d9038 "SEA" "Second Exchange Alliance",
  coin! 999999 0x800c9061 "WTC" "WaltonChain",
  coin! 1048576 0x80100000 "AMAX" "Armonia Meta Chain",
  coin! 1171337 0x8011df89 "ILT" "iOlite",
  coin! 1313114 0x8014095a "ETHO" "Etho Protocol",
  coin! 1313500 0x80140adc "XERO" "Xerom",
  coin! 1712144 0x801a2010 "LAX" "LAPO",
  coin! 3924011 0x803be02b "EPK" "EPIK Protocol",
  coin! 4741444 0x80485944 "HYD" "Hydra Token",
  coin! 5249353 0x80501949 "BCO" "BitcoinOre",
  coin! 5249354 0x8050194a "BHD" "BitcoinHD",
  coin! 5264462 0x8050544e "PTN" "PalletOne",
  coin! 5655640 0x80564c58 "VLX" "Velas",
  coin! 5718350 0x8057414e "WAN" "Wanchain",
  coin! 5741564 0x80579bfc "WAVES" "Waves",
  coin! 5741565 0x80579bfd "WEST" "Waves Enterprise",
  coin! 6382179 0x80616263 "ABC" "Abcmint",
  coin! 6517357 0x8063726d "CRM" "Creamcoin",
  coin! 7171666 0x806d6e52 "BROCK" "Bitrock",
  coin! 7562605 0x8073656d "SEM" "Semux",
  coin! 7567736 0x80737978 "ION" "ION",
  coin! 7777777 0x8076adf1 "FCT" "FirmaChain",
  coin! 7825266 0x80776772 "WGR" "WGR",
  coin! 7825267 0x80776773 "OBSR" "OBServer",
  coin! 8163271 0x807c8fc7 "AFS" "ANFS",
  coin! 15118976 0x80e6b280 "XDS" "XDS",
  coin! 61717561 0x83adbc39 "AQUA" "Aquachain",
  coin! 88888888 0x854c5638 "HATCH" "Hatch",
  coin! 91927009 0x857ab1e1 "kUSD" "kUSD",
  coin! 99999996 0x85f5e0fc "GENS" "GENS",
  coin! 99999997 0x85f5e0fd "EQ" "EQ",
  coin! 99999998 0x85f5e0fe "FLUID" "Fluid Chains",
  coin! 99999999 0x85f5e0ff "QKC" "QuarkChain",
  coin! 11259375 0x80abcdef "LBR" "0L",
  coin! 608589380 0xa4465644 "FVDC" "ForumCoin",
  coin! 1179993420 0xc655454c "" "Fuel"]

/-- The whole table. -/
def codes : List CoinCode :=
  c0 ++ (c1 ++ (c2 ++ (c3 ++ (c4 ++ (c5 ++ (c6 ++ (c7 ++ (c8 ++ (c9 ++ (c10 ++ (c11 ++ (c12 ++ (c13 ++ (c14 ++ (c15 ++ (c16 ++ (c17)))))))))))))))))

end Bips.Data.Coins
