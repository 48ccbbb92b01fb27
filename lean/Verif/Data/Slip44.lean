import Verif.Data.SlipMacro

/-!
# bip44/slip-0044.md

Generated by tools/gen_slip44.py, one line of the file per line.
-/

namespace Bips.Data.Slip44

set_option maxRecDepth 10000

/-- bip44/slip-0044.md:1-64. -/
def c0 : List MdLine := [
  [md! "0" 10, md! "0x80000000" 20, md! "BTC" 5, md! "Bitcoin" 27],
  [md! "1" 10, md! "0x80000001" 20, md! "" 8, md! "Testnet (all coins)" 15],
  [md! "2" 10, md! "0x80000002" 20, md! "LTC" 5, md! "Litecoin" 26],
  [md! "3" 10, md! "0x80000003" 20, md! "DOGE" 4, md! "Dogecoin" 26],
  [md! "4" 10, md! "0x80000004" 20, md! "RDD" 5, md! "Reddcoin" 26],
  [md! "5" 10, md! "0x80000005" 20, md! "DASH" 4, md! "Dash" 30],
  [md! "6" 10, md! "0x80000006" 20, md! "PPC" 5, md! "Peercoin" 26],
  [md! "7" 10, md! "0x80000007" 20, md! "NMC" 5, md! "Namecoin" 26],
  [md! "8" 10, md! "0x80000008" 20, md! "FTC" 5, md! "Feathercoin" 23],
  [md! "9" 10, md! "0x80000009" 20, md! "XCP" 5, md! "Counterparty" 22],
  [md! "10" 9, md! "0x8000000a" 20, md! "BLK" 5, md! "Blackcoin" 25],
  [md! "11" 9, md! "0x8000000b" 20, md! "NSR" 5, md! "NuShares" 26],
  [md! "12" 9, md! "0x8000000c" 20, md! "NBT" 5, md! "NuBits" 28],
  [md! "13" 9, md! "0x8000000d" 20, md! "MZC" 5, md! "Mazacoin" 26],
  [md! "14" 9, md! "0x8000000e" 20, md! "VIA" 5, md! "Viacoin" 27],
  [md! "15" 9, md! "0x8000000f" 20, md! "XCH" 5, md! "ClearingHouse" 21],
  [md! "16" 9, md! "0x80000010" 20, md! "RBY" 5, md! "Rubycoin" 26],
  [md! "17" 9, md! "0x80000011" 20, md! "GRS" 5, md! "Groestlcoin" 23],
  [md! "18" 9, md! "0x80000012" 20, md! "DGC" 5, md! "Digitalcoin" 23],
  [md! "19" 9, md! "0x80000013" 20, md! "CCN" 5, md! "Cannacoin" 25],
  [md! "20" 9, md! "0x80000014" 20, md! "DGB" 5, md! "DigiByte" 26],
  [md! "21" 9, md! "0x80000015" 20, md! "" 8, md! "Open Assets" 23],
  [md! "22" 9, md! "0x80000016" 20, md! "MONA" 4, md! "Monacoin" 26],
  [md! "23" 9, md! "0x80000017" 20, md! "CLAM" 4, md! "Clams" 29],
  [md! "24" 9, md! "0x80000018" 20, md! "XPM" 5, md! "Primecoin" 25],
  [md! "25" 9, md! "0x80000019" 20, md! "NEOS" 4, md! "Neoscoin" 26],
  [md! "26" 9, md! "0x8000001a" 20, md! "JBS" 5, md! "Jumbucks" 26],
  [md! "27" 9, md! "0x8000001b" 20, md! "ZRC" 5, md! "ziftrCOIN" 25],
  [md! "28" 9, md! "0x8000001c" 20, md! "VTC" 5, md! "Vertcoin" 26],
  [md! "29" 9, md! "0x8000001d" 20, md! "NXT" 5, md! "NXT" 31],
  [md! "30" 9, md! "0x8000001e" 20, md! "BURST" 3, md! "Burst" 29],
  [md! "31" 9, md! "0x8000001f" 20, md! "MUE" 5, md! "MonetaryUnit" 22],
  [md! "32" 9, md! "0x80000020" 20, md! "ZOOM" 4, md! "Zoom" 30],
  [md! "33" 9, md! "0x80000021" 20, md! "VASH" 4, md! "Virtual Cash" 22],
  [md! "34" 9, md! "0x80000022" 20, md! "CDN" 5, md! "Canada eCoin" 22],
  [md! "35" 9, md! "0x80000023" 20, md! "SDC" 5, md! "ShadowCash" 24],
  [md! "36" 9, md! "0x80000024" 20, md! "PKB" 5, md! "ParkByte" 26],
  [md! "37" 9, md! "0x80000025" 20, md! "PND" 5, md! "Pandacoin" 25],
  [md! "38" 9, md! "0x80000026" 20, md! "START" 3, md! "StartCOIN" 25],
  [md! "39" 9, md! "0x80000027" 20, md! "MOIN" 4, md! "MOIN" 30],
  [md! "40" 9, md! "0x80000028" 20, md! "EXP" 5, md! "Expanse" 27],
  [md! "41" 9, md! "0x80000029" 20, md! "EMC2" 4, md! "Einsteinium" 23],
  [md! "42" 9, md! "0x8000002a" 20, md! "DCR" 5, md! "Decred" 28],
  [md! "43" 9, md! "0x8000002b" 20, md! "XEM" 5, md! "NEM" 31],
  [md! "44" 9, md! "0x8000002c" 20, md! "PART" 4, md! "Particl" 27],
  [md! "45" 9, md! "0x8000002d" 20, md! "ARG" 5, md! "Argentum (dead)" 19],
  [md! "46" 9, md! "0x8000002e" 20, md! "" 8, md! "Libertas" 26],
  [md! "47" 9, md! "0x8000002f" 20, md! "" 8, md! "Posw coin" 25],
  [md! "48" 9, md! "0x80000030" 20, md! "SHR" 5, md! "Shreeji" 27],
  [md! "49" 9, md! "0x80000031" 20, md! "GCR" 5, md! "Global Currency Reserve (GCRcoin)" 1],
  [md! "50" 9, md! "0x80000032" 20, md! "NVC" 5, md! "Novacoin" 26],
  [md! "51" 9, md! "0x80000033" 20, md! "AC" 6, md! "Asiacoin" 26],
  [md! "52" 9, md! "0x80000034" 20, md! "BTCD" 4, md! "BitcoinDark" 23],
  [md! "53" 9, md! "0x80000035" 20, md! "DOPE" 4, md! "Dopecoin" 26],
  [md! "54" 9, md! "0x80000036" 20, md! "TPC" 5, md! "Templecoin" 24],
  [md! "55" 9, md! "0x80000037" 20, md! "AIB" 5, md! "AIB" 31],
  [md! "56" 9, md! "0x80000038" 20, md! "EDRC" 4, md! "EDRCoin" 27],
  [md! "57" 9, md! "0x80000039" 20, md! "SYS" 5, md! "Syscoin" 27],
  [md! "58" 9, md! "0x8000003a" 20, md! "SLR" 5, md! "Solarcoin" 25],
  [md! "59" 9, md! "0x8000003b" 20, md! "SMLY" 4, md! "Smileycoin" 24],
  [md! "60" 9, md! "0x8000003c" 20, md! "ETH" 5, md! "Ether" 29],
  [md! "61" 9, md! "0x8000003d" 20, md! "ETC" 5, md! "Ether Classic" 21],
  [md! "62" 9, md! "0x8000003e" 20, md! "PSB" 5, md! "Pesobit" 27],
  [md! "63" 9, md! "0x8000003f" 20, md! "LDCN" 4, md! "Landcoin (dead)" 19]]

/-- bip44/slip-0044.md:65-128. -/
def c1 : List MdLine := [
  [md! "64" 9, md! "0x80000040" 20, md! "" 8, md! "Open Chain" 24],
  [md! "65" 9, md! "0x80000041" 20, md! "XBC" 5, md! "Bitcoinplus" 23],
  [md! "66" 9, md! "0x80000042" 20, md! "IOP" 5, md! "Internet of People" 16],
  [md! "67" 9, md! "0x80000043" 20, md! "NXS" 5, md! "Nexus" 29],
  [md! "68" 9, md! "0x80000044" 20, md! "INSN" 4, md! "InsaneCoin" 24],
  [md! "69" 9, md! "0x80000045" 20, md! "OK" 6, md! "OKCash" 28],
  [md! "70" 9, md! "0x80000046" 20, md! "BRIT" 4, md! "BritCoin" 26],
  [md! "71" 9, md! "0x80000047" 20, md! "CMP" 5, md! "Compcoin" 26],
  [md! "72" 9, md! "0x80000048" 20, md! "CRW" 5, md! "Crown" 29],
  [md! "73" 9, md! "0x80000049" 20, md! "BELA" 4, md! "BelaCoin" 26],
  [md! "74" 9, md! "0x8000004a" 20, md! "ICX" 5, md! "ICON" 30],
  [md! "75" 9, md! "0x8000004b" 20, md! "FJC" 5, md! "FujiCoin" 26],
  [md! "76" 9, md! "0x8000004c" 20, md! "MIX" 5, md! "MIX" 31],
  [md! "77" 9, md! "0x8000004d" 20, md! "XVG" 5, md! "Verge Currency" 20],
  [md! "78" 9, md! "0x8000004e" 20, md! "EFL" 5, md! "Electronic Gulden" 17],
  [md! "79" 9, md! "0x8000004f" 20, md! "CLUB" 4, md! "ClubCoin" 26],
  [md! "80" 9, md! "0x80000050" 20, md! "RICHX" 3, md! "RichCoin" 26],
  [md! "81" 9, md! "0x80000051" 20, md! "POT" 5, md! "Potcoin" 27],
  [md! "82" 9, md! "0x80000052" 20, md! "QRK" 5, md! "Quarkcoin" 25],
  [md! "83" 9, md! "0x80000053" 20, md! "TRC" 5, md! "Terracoin" 25],
  [md! "84" 9, md! "0x80000054" 20, md! "GRC" 5, md! "Gridcoin" 26],
  [md! "85" 9, md! "0x80000055" 20, md! "AUR" 5, md! "Auroracoin" 24],
  [md! "86" 9, md! "0x80000056" 20, md! "IXC" 5, md! "IXCoin" 28],
  [md! "87" 9, md! "0x80000057" 20, md! "NLG" 5, md! "Gulden" 28],
  [md! "88" 9, md! "0x80000058" 20, md! "BITB" 4, md! "BitBean" 27],
  [md! "89" 9, md! "0x80000059" 20, md! "BTA" 5, md! "Bata" 30],
  [md! "90" 9, md! "0x8000005a" 20, md! "XMY" 5, md! "Myriadcoin" 24],
  [md! "91" 9, md! "0x8000005b" 20, md! "BSD" 5, md! "BitSend" 27],
  [md! "92" 9, md! "0x8000005c" 20, md! "UNO" 5, md! "Unobtanium" 24],
  [md! "93" 9, md! "0x8000005d" 20, md! "MTR" 5, md! "MasterTrader" 22],
  [md! "94" 9, md! "0x8000005e" 20, md! "GB" 6, md! "GoldBlocks" 24],
  [md! "95" 9, md! "0x8000005f" 20, md! "SHM" 5, md! "Saham" 29],
  [md! "96" 9, md! "0x80000060" 20, md! "CRX" 5, md! "Chronos" 27],
  [md! "97" 9, md! "0x80000061" 20, md! "BIQ" 5, md! "Ubiquoin" 26],
  [md! "98" 9, md! "0x80000062" 20, md! "EVO" 5, md! "Evotion" 27],
  [md! "99" 9, md! "0x80000063" 20, md! "STO" 5, md! "SaveTheOcean" 22],
  [md! "100" 8, md! "0x80000064" 20, md! "BIGUP" 3, md! "BigUp" 29],
  [md! "101" 8, md! "0x80000065" 20, md! "GAME" 4, md! "GameCredits" 23],
  [md! "102" 8, md! "0x80000066" 20, md! "DLC" 5, md! "Dollarcoins" 23],
  [md! "103" 8, md! "0x80000067" 20, md! "ZYD" 5, md! "Zayedcoin" 25],
  [md! "104" 8, md! "0x80000068" 20, md! "DBIC" 4, md! "Dubaicoin" 25],
  [md! "105" 8, md! "0x80000069" 20, md! "STRAT" 3, md! "Stratis" 27],
  [md! "106" 8, md! "0x8000006a" 20, md! "SH" 6, md! "Shilling" 26],
  [md! "107" 8, md! "0x8000006b" 20, md! "MARS" 4, md! "MarsCoin" 26],
  [md! "108" 8, md! "0x8000006c" 20, md! "UBQ" 5, md! "Ubiq" 30],
  [md! "109" 8, md! "0x8000006d" 20, md! "PTC" 5, md! "Pesetacoin" 24],
  [md! "110" 8, md! "0x8000006e" 20, md! "NRO" 5, md! "Neurocoin" 25],
  [md! "111" 8, md! "0x8000006f" 20, md! "ARK" 5, md! "ARK" 31],
  [md! "112" 8, md! "0x80000070" 20, md! "USC" 5, md! "UltimateSecureCashMain" 12],
  [md! "113" 8, md! "0x80000071" 20, md! "THC" 5, md! "Hempcoin" 26],
  [md! "114" 8, md! "0x80000072" 20, md! "LINX" 4, md! "Linx" 30],
  [md! "115" 8, md! "0x80000073" 20, md! "ECN" 5, md! "Ecoin" 29],
  [md! "116" 8, md! "0x80000074" 20, md! "DNR" 5, md! "Denarius" 26],
  [md! "117" 8, md! "0x80000075" 20, md! "PINK" 4, md! "Pinkcoin" 26],
  [md! "118" 8, md! "0x80000076" 20, md! "ATOM" 4, md! "Atom" 30],
  [md! "119" 8, md! "0x80000077" 20, md! "PIVX" 4, md! "Pivx" 30],
  [md! "120" 8, md! "0x80000078" 20, md! "FLASH" 3, md! "Flashcoin" 25],
  [md! "121" 8, md! "0x80000079" 20, md! "ZEN" 5, md! "Zencash" 27],
  [md! "122" 8, md! "0x8000007a" 20, md! "PUT" 5, md! "Putincoin" 25],
  [md! "123" 8, md! "0x8000007b" 20, md! "ZNY" 5, md! "BitZeny" 27],
  [md! "124" 8, md! "0x8000007c" 20, md! "UNIFY" 3, md! "Unify" 29],
  [md! "125" 8, md! "0x8000007d" 20, md! "XST" 5, md! "StealthCoin" 23],
  [md! "126" 8, md! "0x8000007e" 20, md! "BRK" 5, md! "Breakout Coin" 21],
  [md! "127" 8, md! "0x8000007f" 20, md! "VC" 6, md! "Vcash" 29]]

/-- bip44/slip-0044.md:129-192. -/
def c2 : List MdLine := [
  [md! "128" 8, md! "0x80000080" 20, md! "XMR" 5, md! "Monero" 28],
  [md! "129" 8, md! "0x80000081" 20, md! "VOX" 5, md! "Voxels" 28],
  [md! "130" 8, md! "0x80000082" 20, md! "NAV" 5, md! "NavCoin" 27],
  [md! "131" 8, md! "0x80000083" 20, md! "FCT" 5, md! "Factom Factoids" 19],
  [md! "132" 8, md! "0x80000084" 20, md! "EC" 6, md! "Factom Entry Credits" 14],
  [md! "133" 8, md! "0x80000085" 20, md! "ZEC" 5, md! "Zcash" 29],
  [md! "134" 8, md! "0x80000086" 20, md! "LSK" 5, md! "Lisk" 30],
  [md! "135" 8, md! "0x80000087" 20, md! "STEEM" 3, md! "Steem" 29],
  [md! "136" 8, md! "0x80000088" 20, md! "XZC" 5, md! "ZCoin" 29],
  [md! "137" 8, md! "0x80000089" 20, md! "RBTC" 4, md! "RSK" 31],
  [md! "138" 8, md! "0x8000008a" 20, md! "" 8, md! "Giftblock" 25],
  [md! "139" 8, md! "0x8000008b" 20, md! "RPT" 5, md! "RealPointCoin" 21],
  [md! "140" 8, md! "0x8000008c" 20, md! "LBC" 5, md! "LBRY Credits" 22],
  [md! "141" 8, md! "0x8000008d" 20, md! "KMD" 5, md! "Komodo" 28],
  [md! "142" 8, md! "0x8000008e" 20, md! "BSQ" 5, md! "bisq Token" 24],
  [md! "143" 8, md! "0x8000008f" 20, md! "RIC" 5, md! "Riecoin" 27],
  [md! "144" 8, md! "0x80000090" 20, md! "XRP" 5, md! "Ripple" 28],
  [md! "145" 8, md! "0x80000091" 20, md! "BCH" 5, md! "Bitcoin Cash" 22],
  [md! "146" 8, md! "0x80000092" 20, md! "NEBL" 4, md! "Neblio" 28],
  [md! "147" 8, md! "0x80000093" 20, md! "ZCL" 5, md! "ZClassic" 26],
  [md! "148" 8, md! "0x80000094" 20, md! "XLM" 5, md! "Stellar Lumens" 20],
  [md! "149" 8, md! "0x80000095" 20, md! "NLC2" 4, md! "NoLimitCoin2" 22],
  [md! "150" 8, md! "0x80000096" 20, md! "WHL" 5, md! "WhaleCoin" 25],
  [md! "151" 8, md! "0x80000097" 20, md! "ERC" 5, md! "EuropeCoin" 24],
  [md! "152" 8, md! "0x80000098" 20, md! "DMD" 5, md! "Diamond" 27],
  [md! "153" 8, md! "0x80000099" 20, md! "BTM" 5, md! "Bytom" 29],
  [md! "154" 8, md! "0x8000009a" 20, md! "BIO" 5, md! "Biocoin" 27],
  [md! "155" 8, md! "0x8000009b" 20, md! "XWCC" 4, md! "Whitecoin Classic" 17],
  [md! "156" 8, md! "0x8000009c" 20, md! "BTG" 5, md! "Bitcoin Gold" 22],
  [md! "157" 8, md! "0x8000009d" 20, md! "BTC2X" 3, md! "Bitcoin 2x" 24],
  [md! "158" 8, md! "0x8000009e" 20, md! "SSN" 5, md! "SuperSkynet" 23],
  [md! "159" 8, md! "0x8000009f" 20, md! "TOA" 5, md! "TOACoin" 27],
  [md! "160" 8, md! "0x800000a0" 20, md! "BTX" 5, md! "Bitcore" 27],
  [md! "161" 8, md! "0x800000a1" 20, md! "ACC" 5, md! "Adcoin" 28],
  [md! "162" 8, md! "0x800000a2" 20, md! "BCO" 5, md! "Bridgecoin" 24],
  [md! "163" 8, md! "0x800000a3" 20, md! "ELLA" 4, md! "Ellaism" 27],
  [md! "164" 8, md! "0x800000a4" 20, md! "PIRL" 4, md! "Pirl" 30],
  [md! "165" 8, md! "0x800000a5" 20, md! "XNO" 5, md! "Nano" 30],
  [md! "166" 8, md! "0x800000a6" 20, md! "VIVO" 4, md! "Vivo" 30],
  [md! "167" 8, md! "0x800000a7" 20, md! "FRST" 4, md! "Firstcoin" 25],
  [md! "168" 8, md! "0x800000a8" 20, md! "HNC" 5, md! "Helleniccoin" 22],
  [md! "169" 8, md! "0x800000a9" 20, md! "BUZZ" 4, md! "BUZZ" 30],
  [md! "170" 8, md! "0x800000aa" 20, md! "MBRS" 4, md! "Ember" 29],
  [md! "171" 8, md! "0x800000ab" 20, md! "HC" 6, md! "Hcash" 29],
  [md! "172" 8, md! "0x800000ac" 20, md! "HTML" 4, md! "HTMLCOIN" 26],
  [md! "173" 8, md! "0x800000ad" 20, md! "ODN" 5, md! "Obsidian" 26],
  [md! "174" 8, md! "0x800000ae" 20, md! "ONX" 5, md! "OnixCoin" 26],
  [md! "175" 8, md! "0x800000af" 20, md! "RVN" 5, md! "Ravencoin" 25],
  [md! "176" 8, md! "0x800000b0" 20, md! "GBX" 5, md! "GoByte" 28],
  [md! "177" 8, md! "0x800000b1" 20, md! "BTCZ" 4, md! "BitcoinZ" 26],
  [md! "178" 8, md! "0x800000b2" 20, md! "POA" 5, md! "Poa" 31],
  [md! "179" 8, md! "0x800000b3" 20, md! "NYC" 5, md! "NewYorkCoin" 23],
  [md! "180" 8, md! "0x800000b4" 20, md! "MXT" 5, md! "MarteXcoin" 24],
  [md! "181" 8, md! "0x800000b5" 20, md! "WC" 6, md! "Wincoin" 27],
  [md! "182" 8, md! "0x800000b6" 20, md! "MNX" 5, md! "Minexcoin" 25],
  [md! "183" 8, md! "0x800000b7" 20, md! "BTCP" 4, md! "Bitcoin Private" 19],
  [md! "184" 8, md! "0x800000b8" 20, md! "MUSIC" 3, md! "Musicoin" 26],
  [md! "185" 8, md! "0x800000b9" 20, md! "BCA" 5, md! "Bitcoin Atom" 22],
  [md! "186" 8, md! "0x800000ba" 20, md! "CRAVE" 3, md! "Crave" 29],
  [md! "187" 8, md! "0x800000bb" 20, md! "STAK" 4, md! "STRAKS" 28],
  [md! "188" 8, md! "0x800000bc" 20, md! "WBTC" 4, md! "World Bitcoin" 21],
  [md! "189" 8, md! "0x800000bd" 20, md! "LCH" 5, md! "LiteCash" 26],
  [md! "190" 8, md! "0x800000be" 20, md! "EXCL" 4, md! "ExclusiveCoin" 21],
  [md! "191" 8, md! "0x800000bf" 20, md! "" 8, md! "Lynx" 30]]

/-- bip44/slip-0044.md:193-256. -/
def c3 : List MdLine := [
  [md! "192" 8, md! "0x800000c0" 20, md! "LCC" 5, md! "LitecoinCash" 22],
  [md! "193" 8, md! "0x800000c1" 20, md! "XFE" 5, md! "Feirm" 29],
  [md! "194" 8, md! "0x800000c2" 20, md! "EOS" 5, md! "EOS" 31],
  [md! "195" 8, md! "0x800000c3" 20, md! "TRX" 5, md! "Tron" 30],
  [md! "196" 8, md! "0x800000c4" 20, md! "KOBO" 4, md! "Kobocoin" 26],
  [md! "197" 8, md! "0x800000c5" 20, md! "HUSH" 4, md! "HUSH" 30],
  [md! "198" 8, md! "0x800000c6" 20, md! "BAN" 5, md! "Banano" 28],
  [md! "199" 8, md! "0x800000c7" 20, md! "ETF" 5, md! "ETF" 31],
  [md! "200" 8, md! "0x800000c8" 20, md! "OMNI" 4, md! "Omni" 30],
  [md! "201" 8, md! "0x800000c9" 20, md! "BIFI" 4, md! "BitcoinFile" 23],
  [md! "202" 8, md! "0x800000ca" 20, md! "UFO" 5, md! "Uniform Fiscal Object" 13],
  [md! "203" 8, md! "0x800000cb" 20, md! "CNMC" 4, md! "Cryptonodes" 23],
  [md! "204" 8, md! "0x800000cc" 20, md! "BCN" 5, md! "Bytecoin" 26],
  [md! "205" 8, md! "0x800000cd" 20, md! "RIN" 5, md! "Ringo" 29],
  [md! "206" 8, md! "0x800000ce" 20, md! "ATP" 5, md! "Alaya" 29],
  [md! "207" 8, md! "0x800000cf" 20, md! "EVT" 5, md! "everiToken" 24],
  [md! "208" 8, md! "0x800000d0" 20, md! "ATN" 5, md! "ATN" 31],
  [md! "209" 8, md! "0x800000d1" 20, md! "BIS" 5, md! "Bismuth" 27],
  [md! "210" 8, md! "0x800000d2" 20, md! "NEET" 4, md! "NEETCOIN" 26],
  [md! "211" 8, md! "0x800000d3" 20, md! "BOPO" 4, md! "BopoChain" 25],
  [md! "212" 8, md! "0x800000d4" 20, md! "OOT" 5, md! "Utrum" 29],
  [md! "213" 8, md! "0x800000d5" 20, md! "ALIAS" 3, md! "Alias" 29],
  [md! "214" 8, md! "0x800000d6" 20, md! "MONK" 4, md! "Monkey Project" 20],
  [md! "215" 8, md! "0x800000d7" 20, md! "BOXY" 4, md! "BoxyCoin" 26],
  [md! "216" 8, md! "0x800000d8" 20, md! "FLO" 5, md! "Flo" 31],
  [md! "217" 8, md! "0x800000d9" 20, md! "MEC" 5, md! "Megacoin" 26],
  [md! "218" 8, md! "0x800000da" 20, md! "BTDX" 4, md! "BitCloud" 26],
  [md! "219" 8, md! "0x800000db" 20, md! "XAX" 5, md! "Artax" 29],
  [md! "220" 8, md! "0x800000dc" 20, md! "ANON" 4, md! "ANON" 30],
  [md! "221" 8, md! "0x800000dd" 20, md! "LTZ" 5, md! "LitecoinZ" 25],
  [md! "222" 8, md! "0x800000de" 20, md! "BITG" 4, md! "Bitcoin Green" 21],
  [md! "223" 8, md! "0x800000df" 20, md! "ICP" 5, md! "Internet Computer (DFINITY)" 7],
  [md! "224" 8, md! "0x800000e0" 20, md! "SMART" 3, md! "Smartcash" 25],
  [md! "225" 8, md! "0x800000e1" 20, md! "XUEZ" 4, md! "XUEZ" 30],
  [md! "226" 8, md! "0x800000e2" 20, md! "HLM" 5, md! "Helium" 28],
  [md! "227" 8, md! "0x800000e3" 20, md! "WEB" 5, md! "Webchain" 26],
  [md! "228" 8, md! "0x800000e4" 20, md! "ACM" 5, md! "Actinium" 26],
  [md! "229" 8, md! "0x800000e5" 20, md! "NOS" 5, md! "NOS Stable Coins" 18],
  [md! "230" 8, md! "0x800000e6" 20, md! "BITC" 4, md! "BitCash" 27],
  [md! "231" 8, md! "0x800000e7" 20, md! "HTH" 5, md! "Help The Homeless Coin" 12],
  [md! "232" 8, md! "0x800000e8" 20, md! "TZC" 5, md! "Trezarcoin" 24],
  [md! "233" 8, md! "0x800000e9" 20, md! "VAR" 5, md! "Varda" 29],
  [md! "234" 8, md! "0x800000ea" 20, md! "IOV" 5, md! "IOV" 31],
  [md! "235" 8, md! "0x800000eb" 20, md! "FIO" 5, md! "FIO" 31],
  [md! "236" 8, md! "0x800000ec" 20, md! "BSV" 5, md! "BitcoinSV" 25],
  [md! "237" 8, md! "0x800000ed" 20, md! "DXN" 5, md! "DEXON" 29],
  [md! "238" 8, md! "0x800000ee" 20, md! "QRL" 5, md! "Quantum Resistant Ledger" 10],
  [md! "239" 8, md! "0x800000ef" 20, md! "PCX" 5, md! "ChainX" 28],
  [md! "240" 8, md! "0x800000f0" 20, md! "LOKI" 4, md! "Loki" 30],
  [md! "241" 8, md! "0x800000f1" 20, md! "" 8, md! "Imagewallet" 23],
  [md! "242" 8, md! "0x800000f2" 20, md! "NIM" 5, md! "Nimiq" 29],
  [md! "243" 8, md! "0x800000f3" 20, md! "SOV" 5, md! "Sovereign Coin" 20],
  [md! "244" 8, md! "0x800000f4" 20, md! "JCT" 5, md! "Jibital Coin" 22],
  [md! "245" 8, md! "0x800000f5" 20, md! "SLP" 5, md! "Simple Ledger Protocol" 12],
  [md! "246" 8, md! "0x800000f6" 20, md! "EWT" 5, md! "Energy Web" 24],
  [md! "247" 8, md! "0x800000f7" 20, md! "UC" 6, md! "Ulord" 29],
  [md! "248" 8, md! "0x800000f8" 20, md! "EXOS" 4, md! "EXOS" 30],
  [md! "249" 8, md! "0x800000f9" 20, md! "ECA" 5, md! "Electra" 27],
  [md! "250" 8, md! "0x800000fa" 20, md! "SOOM" 4, md! "Soom" 30],
  [md! "251" 8, md! "0x800000fb" 20, md! "XRD" 5, md! "Redstone" 26],
  [md! "252" 8, md! "0x800000fc" 20, md! "FREE" 4, md! "FreeCoin" 26],
  [md! "253" 8, md! "0x800000fd" 20, md! "NPW" 5, md! "NewPowerCoin" 22],
  [md! "254" 8, md! "0x800000fe" 20, md! "BST" 5, md! "BlockStamp" 24],
  [md! "255" 8, md! "0x800000ff" 20, md! "" 8, md! "SmartHoldem" 23]]

/-- bip44/slip-0044.md:257-320. -/
def c4 : List MdLine := [
  [md! "256" 8, md! "0x80000100" 20, md! "NANO" 4, md! "Bitcoin Nano" 22],
  [md! "257" 8, md! "0x80000101" 20, md! "BTCC" 4, md! "Bitcoin Core" 22],
  [md! "258" 8, md! "0x80000102" 20, md! "" 8, md! "Zen Protocol" 22],
  [md! "259" 8, md! "0x80000103" 20, md! "ZEST" 4, md! "Zest" 30],
  [md! "260" 8, md! "0x80000104" 20, md! "ABT" 5, md! "ArcBlock" 26],
  [md! "261" 8, md! "0x80000105" 20, md! "PION" 4, md! "Pion" 30],
  [md! "262" 8, md! "0x80000106" 20, md! "DT3" 5, md! "DreamTeam3" 24],
  [md! "263" 8, md! "0x80000107" 20, md! "ZBUX" 4, md! "Zbux" 30],
  [md! "264" 8, md! "0x80000108" 20, md! "KPL" 5, md! "Kepler" 28],
  [md! "265" 8, md! "0x80000109" 20, md! "TPAY" 4, md! "TokenPay" 26],
  [md! "266" 8, md! "0x8000010a" 20, md! "ZILLA" 3, md! "ChainZilla" 24],
  [md! "267" 8, md! "0x8000010b" 20, md! "ANK" 5, md! "Anker" 29],
  [md! "268" 8, md! "0x8000010c" 20, md! "BCC" 5, md! "BCChain" 27],
  [md! "269" 8, md! "0x8000010d" 20, md! "HPB" 5, md! "HPB" 31],
  [md! "270" 8, md! "0x8000010e" 20, md! "ONE" 5, md! "ONE" 31],
  [md! "271" 8, md! "0x8000010f" 20, md! "SBC" 5, md! "SBC" 31],
  [md! "272" 8, md! "0x80000110" 20, md! "IPC" 5, md! "IPChain" 27],
  [md! "273" 8, md! "0x80000111" 20, md! "DMTC" 4, md! "Dominantchain" 21],
  [md! "274" 8, md! "0x80000112" 20, md! "OGC" 5, md! "Onegram" 27],
  [md! "275" 8, md! "0x80000113" 20, md! "SHIT" 4, md! "Shitcoin" 26],
  [md! "276" 8, md! "0x80000114" 20, md! "ANDES" 3, md! "Andescoin" 25],
  [md! "277" 8, md! "0x80000115" 20, md! "AREPA" 3, md! "Arepacoin" 25],
  [md! "278" 8, md! "0x80000116" 20, md! "BOLI" 4, md! "Bolivarcoin" 23],
  [md! "279" 8, md! "0x80000117" 20, md! "RIL" 5, md! "Rilcoin" 27],
  [md! "280" 8, md! "0x80000118" 20, md! "HTR" 5, md! "Hathor Network" 20],
  [md! "281" 8, md! "0x80000119" 20, md! "ACME" 4, md! "Accumulate" 24],
  [md! "282" 8, md! "0x8000011a" 20, md! "BRAVO" 3, md! "BRAVO" 29],
  [md! "283" 8, md! "0x8000011b" 20, md! "ALGO" 4, md! "Algorand" 26],
  [md! "284" 8, md! "0x8000011c" 20, md! "BZX" 5, md! "Bitcoinzero" 23],
  [md! "285" 8, md! "0x8000011d" 20, md! "GXX" 5, md! "GravityCoin" 23],
  [md! "286" 8, md! "0x8000011e" 20, md! "HEAT" 4, md! "HEAT" 30],
  [md! "287" 8, md! "0x8000011f" 20, md! "XDN" 5, md! "DigitalNote" 23],
  [md! "288" 8, md! "0x80000120" 20, md! "FSN" 5, md! "FUSION" 28],
  [md! "289" 8, md! "0x80000121" 20, md! "CPC" 5, md! "Capricoin" 25],
  [md! "290" 8, md! "0x80000122" 20, md! "BOLD" 4, md! "Bold" 30],
  [md! "291" 8, md! "0x80000123" 20, md! "IOST" 4, md! "IOST" 30],
  [md! "292" 8, md! "0x80000124" 20, md! "TKEY" 4, md! "Tkeycoin" 26],
  [md! "293" 8, md! "0x80000125" 20, md! "USE" 5, md! "Usechain" 26],
  [md! "294" 8, md! "0x80000126" 20, md! "BCZ" 5, md! "BitcoinCZ" 25],
  [md! "295" 8, md! "0x80000127" 20, md! "IOC" 5, md! "Iocoin" 28],
  [md! "296" 8, md! "0x80000128" 20, md! "ASF" 5, md! "Asofe" 29],
  [md! "297" 8, md! "0x80000129" 20, md! "MASS" 4, md! "MASS" 30],
  [md! "298" 8, md! "0x8000012a" 20, md! "FAIR" 4, md! "FairCoin" 26],
  [md! "299" 8, md! "0x8000012b" 20, md! "NUKO" 4, md! "Nekonium" 26],
  [md! "300" 8, md! "0x8000012c" 20, md! "GNX" 5, md! "Genaro Network" 20],
  [md! "301" 8, md! "0x8000012d" 20, md! "DIVI" 4, md! "Divi Project" 22],
  [md! "302" 8, md! "0x8000012e" 20, md! "CMT" 5, md! "Community" 25],
  [md! "303" 8, md! "0x8000012f" 20, md! "EUNO" 4, md! "EUNO" 30],
  [md! "304" 8, md! "0x80000130" 20, md! "IOTX" 4, md! "IoTeX" 29],
  [md! "305" 8, md! "0x80000131" 20, md! "ONION" 3, md! "DeepOnion" 25],
  [md! "306" 8, md! "0x80000132" 20, md! "8BIT" 4, md! "8Bit" 30],
  [md! "307" 8, md! "0x80000133" 20, md! "ATC" 5, md! "AToken Coin" 23],
  [md! "308" 8, md! "0x80000134" 20, md! "BTS" 5, md! "Bitshares" 25],
  [md! "309" 8, md! "0x80000135" 20, md! "CKB" 5, md! "Nervos CKB" 24],
  [md! "310" 8, md! "0x80000136" 20, md! "UGAS" 4, md! "Ultrain" 27],
  [md! "311" 8, md! "0x80000137" 20, md! "ADS" 5, md! "Adshares" 26],
  [md! "312" 8, md! "0x80000138" 20, md! "ARA" 5, md! "Aura" 30],
  [md! "313" 8, md! "0x80000139" 20, md! "ZIL" 5, md! "Zilliqa" 27],
  [md! "314" 8, md! "0x8000013a" 20, md! "MOAC" 4, md! "MOAC" 30],
  [md! "315" 8, md! "0x8000013b" 20, md! "SWTC" 4, md! "SWTC" 30],
  [md! "316" 8, md! "0x8000013c" 20, md! "VNSC" 4, md! "vnscoin" 27],
  [md! "317" 8, md! "0x8000013d" 20, md! "PLUG" 4, md! "Pl^g" 30],
  [md! "318" 8, md! "0x8000013e" 20, md! "MAN" 5, md! "Matrix AI Network" 17],
  [md! "319" 8, md! "0x8000013f" 20, md! "ECC" 5, md! "ECCoin" 28]]

/-- bip44/slip-0044.md:321-384. -/
def c5 : List MdLine := [
  [md! "320" 8, md! "0x80000140" 20, md! "RPD" 5, md! "Rapids" 28],
  [md! "321" 8, md! "0x80000141" 20, md! "RAP" 5, md! "Rapture" 27],
  [md! "322" 8, md! "0x80000142" 20, md! "GARD" 4, md! "Hashgard" 26],
  [md! "323" 8, md! "0x80000143" 20, md! "ZER" 5, md! "Zero" 30],
  [md! "324" 8, md! "0x80000144" 20, md! "EBST" 4, md! "eBoost" 28],
  [md! "325" 8, md! "0x80000145" 20, md! "SHARD" 3, md! "Shard" 29],
  [md! "326" 8, md! "0x80000146" 20, md! "MRX" 5, md! "Metrix Coin" 23],
  [md! "327" 8, md! "0x80000147" 20, md! "CMM" 5, md! "Commercium" 24],
  [md! "328" 8, md! "0x80000148" 20, md! "BLOCK" 3, md! "Blocknet" 26],
  [md! "329" 8, md! "0x80000149" 20, md! "AUDAX" 3, md! "AUDAX" 29],
  [md! "330" 8, md! "0x8000014a" 20, md! "LUNA" 4, md! "Terra" 29],
  [md! "331" 8, md! "0x8000014b" 20, md! "ZPM" 5, md! "zPrime" 28],
  [md! "332" 8, md! "0x8000014c" 20, md! "KUVA" 4, md! "Kuva Utility Note" 17],
  [md! "333" 8, md! "0x8000014d" 20, md! "MEM" 5, md! "MemCoin" 27],
  [md! "334" 8, md! "0x8000014e" 20, md! "CS" 6, md! "Credits" 27],
  [md! "335" 8, md! "0x8000014f" 20, md! "SWIFT" 3, md! "SwiftCash" 25],
  [md! "336" 8, md! "0x80000150" 20, md! "FIX" 5, md! "FIX" 31],
  [md! "337" 8, md! "0x80000151" 20, md! "CPC" 5, md! "CPChain" 27],
  [md! "338" 8, md! "0x80000152" 20, md! "VGO" 5, md! "VirtualGoodsToken" 17],
  [md! "339" 8, md! "0x80000153" 20, md! "DVT" 5, md! "DeVault" 27],
  [md! "340" 8, md! "0x80000154" 20, md! "N8V" 5, md! "N8VCoin" 27],
  [md! "341" 8, md! "0x80000155" 20, md! "MTNS" 4, md! "OmotenashiCoin" 20],
  [md! "342" 8, md! "0x80000156" 20, md! "BLAST" 3, md! "BLAST" 29],
  [md! "343" 8, md! "0x80000157" 20, md! "DCT" 5, md! "DECENT" 28],
  [md! "344" 8, md! "0x80000158" 20, md! "AUX" 5, md! "Auxilium" 26],
  [md! "345" 8, md! "0x80000159" 20, md! "USDP" 4, md! "USDP" 30],
  [md! "346" 8, md! "0x8000015a" 20, md! "HTDF" 4, md! "HTDF" 30],
  [md! "347" 8, md! "0x8000015b" 20, md! "YEC" 5, md! "Ycash" 29],
  [md! "348" 8, md! "0x8000015c" 20, md! "QLC" 5, md! "QLC Chain" 25],
  [md! "349" 8, md! "0x8000015d" 20, md! "TEA" 5, md! "Icetea Blockchain" 17],
  [md! "350" 8, md! "0x8000015e" 20, md! "ARW" 5, md! "ArrowChain" 24],
  [md! "351" 8, md! "0x8000015f" 20, md! "MDM" 5, md! "Medium" 28],
  [md! "352" 8, md! "0x80000160" 20, md! "CYB" 5, md! "Cybex" 29],
  [md! "353" 8, md! "0x80000161" 20, md! "LTO" 5, md! "LTO Network" 23],
  [md! "354" 8, md! "0x80000162" 20, md! "DOT" 5, md! "Polkadot" 26],
  [md! "355" 8, md! "0x80000163" 20, md! "AEON" 4, md! "Aeon" 30],
  [md! "356" 8, md! "0x80000164" 20, md! "RES" 5, md! "Resistance" 24],
  [md! "357" 8, md! "0x80000165" 20, md! "AYA" 5, md! "Aryacoin" 26],
  [md! "358" 8, md! "0x80000166" 20, md! "DAPS" 4, md! "Dapscoin" 26],
  [md! "359" 8, md! "0x80000167" 20, md! "CSC" 5, md! "CasinoCoin" 24],
  [md! "360" 8, md! "0x80000168" 20, md! "VSYS" 4, md! "V Systems" 25],
  [md! "361" 8, md! "0x80000169" 20, md! "NOLLAR" 2, md! "Nollar" 28],
  [md! "362" 8, md! "0x8000016a" 20, md! "XNOS" 4, md! "NOS" 31],
  [md! "363" 8, md! "0x8000016b" 20, md! "CPU" 5, md! "CPUchain" 26],
  [md! "364" 8, md! "0x8000016c" 20, md! "LAMB" 4, md! "Lambda Storage Chain" 14],
  [md! "365" 8, md! "0x8000016d" 20, md! "VCT" 5, md! "ValueCyber" 24],
  [md! "366" 8, md! "0x8000016e" 20, md! "CZR" 5, md! "Canonchain" 24],
  [md! "367" 8, md! "0x8000016f" 20, md! "ABBC" 4, md! "ABBC" 30],
  [md! "368" 8, md! "0x80000170" 20, md! "HET" 5, md! "HET" 31],
  [md! "369" 8, md! "0x80000171" 20, md! "XAS" 5, md! "Asch" 30],
  [md! "370" 8, md! "0x80000172" 20, md! "VDL" 5, md! "Vidulum" 27],
  [md! "371" 8, md! "0x80000173" 20, md! "MED" 5, md! "MediBloc" 26],
  [md! "372" 8, md! "0x80000174" 20, md! "ZVC" 5, md! "ZVChain" 27],
  [md! "373" 8, md! "0x80000175" 20, md! "VESTX" 3, md! "Vestx" 29],
  [md! "374" 8, md! "0x80000176" 20, md! "DBT" 5, md! "DarkBit" 27],
  [md! "375" 8, md! "0x80000177" 20, md! "SEOS" 4, md! "SuperEOS" 26],
  [md! "376" 8, md! "0x80000178" 20, md! "MXW" 5, md! "Maxonrow" 26],
  [md! "377" 8, md! "0x80000179" 20, md! "ZNZ" 5, md! "ZENZO" 29],
  [md! "378" 8, md! "0x8000017a" 20, md! "XCX" 5, md! "XChain" 28],
  [md! "379" 8, md! "0x8000017b" 20, md! "SOX" 5, md! "SonicX" 28],
  [md! "380" 8, md! "0x8000017c" 20, md! "NYZO" 4, md! "Nyzo" 30],
  [md! "381" 8, md! "0x8000017d" 20, md! "ULC" 5, md! "ULCoin" 28],
  [md! "382" 8, md! "0x8000017e" 20, md! "RYO" 5, md! "Ryo Currency" 22],
  [md! "383" 8, md! "0x8000017f" 20, md! "KAL" 5, md! "Kaleidochain" 22]]

/-- bip44/slip-0044.md:385-448. -/
def c6 : List MdLine := [
  [md! "384" 8, md! "0x80000180" 20, md! "XSN" 5, md! "Stakenet" 26],
  [md! "385" 8, md! "0x80000181" 20, md! "DOGEC" 3, md! "DogeCash" 26],
  [md! "386" 8, md! "0x80000182" 20, md! "BMV" 5, md! "Bitcoin Matteo's Vision" 11],
  [md! "387" 8, md! "0x80000183" 20, md! "QBC" 5, md! "Quebecoin" 25],
  [md! "388" 8, md! "0x80000184" 20, md! "IMG" 5, md! "ImageCoin" 25],
  [md! "389" 8, md! "0x80000185" 20, md! "QOS" 5, md! "QOS" 31],
  [md! "390" 8, md! "0x80000186" 20, md! "PKT" 5, md! "PKT" 31],
  [md! "391" 8, md! "0x80000187" 20, md! "LHD" 5, md! "LitecoinHD" 24],
  [md! "392" 8, md! "0x80000188" 20, md! "CENNZ" 3, md! "CENNZnet" 26],
  [md! "393" 8, md! "0x80000189" 20, md! "HSN" 5, md! "Hyper Speed Network" 15],
  [md! "394" 8, md! "0x8000018a" 20, md! "CRO" 5, md! "Crypto Chain" 22],
  [md! "395" 8, md! "0x8000018b" 20, md! "UMBRU" 3, md! "Umbru" 29],
  [md! "396" 8, md! "0x8000018c" 20, md! "EVER" 4, md! "Everscale" 25],
  [md! "397" 8, md! "0x8000018d" 20, md! "NEAR" 4, md! "NEAR Protocol" 21],
  [md! "398" 8, md! "0x8000018e" 20, md! "XPC" 5, md! "XPChain" 27],
  [md! "399" 8, md! "0x8000018f" 20, md! "ZOC" 5, md! "01coin" 28],
  [md! "400" 8, md! "0x80000190" 20, md! "NIX" 5, md! "NIX" 31],
  [md! "401" 8, md! "0x80000191" 20, md! "UC" 6, md! "Utopiacoin" 24],
  [md! "402" 8, md! "0x80000192" 20, md! "GALI" 4, md! "Galilel" 27],
  [md! "403" 8, md! "0x80000193" 20, md! "OLT" 5, md! "Oneledger" 25],
  [md! "404" 8, md! "0x80000194" 20, md! "XBI" 5, md! "XBI" 31],
  [md! "405" 8, md! "0x80000195" 20, md! "DONU" 4, md! "DONU" 30],
  [md! "406" 8, md! "0x80000196" 20, md! "EARTHS" 2, md! "Earths" 28],
  [md! "407" 8, md! "0x80000197" 20, md! "HDD" 5, md! "HDDCash" 27],
  [md! "408" 8, md! "0x80000198" 20, md! "SUGAR" 3, md! "Sugarchain" 24],
  [md! "409" 8, md! "0x80000199" 20, md! "AILE" 4, md! "AileCoin" 26],
  [md! "410" 8, md! "0x8000019a" 20, md! "TENT" 4, md! "TENT" 30],
  [md! "411" 8, md! "0x8000019b" 20, md! "TAN" 5, md! "Tangerine Network" 17],
  [md! "412" 8, md! "0x8000019c" 20, md! "AIN" 5, md! "AIN" 31],
  [md! "413" 8, md! "0x8000019d" 20, md! "MSR" 5, md! "Masari" 28],
  [md! "414" 8, md! "0x8000019e" 20, md! "SUMO" 4, md! "Sumokoin" 26],
  [md! "415" 8, md! "0x8000019f" 20, md! "ETN" 5, md! "Electroneum" 23],
  [md! "416" 8, md! "0x800001a0" 20, md! "BYTZ" 4, md! "BYTZ" 30],
  [md! "417" 8, md! "0x800001a1" 20, md! "WOW" 5, md! "Wownero" 27],
  [md! "418" 8, md! "0x800001a2" 20, md! "XTNC" 4, md! "XtendCash" 25],
  [md! "419" 8, md! "0x800001a3" 20, md! "LTHN" 4, md! "Lethean" 27],
  [md! "420" 8, md! "0x800001a4" 20, md! "NODE" 4, md! "NodeHost" 26],
  [md! "421" 8, md! "0x800001a5" 20, md! "AGM" 5, md! "Argoneum" 26],
  [md! "422" 8, md! "0x800001a6" 20, md! "CCX" 5, md! "Conceal Network" 19],
  [md! "423" 8, md! "0x800001a7" 20, md! "TNET" 4, md! "Title Network" 21],
  [md! "424" 8, md! "0x800001a8" 20, md! "TELOS" 3, md! "TelosCoin" 25],
  [md! "425" 8, md! "0x800001a9" 20, md! "AION" 4, md! "Aion" 30],
  [md! "426" 8, md! "0x800001aa" 20, md! "BC" 6, md! "Bitcoin Confidential" 14],
  [md! "427" 8, md! "0x800001ab" 20, md! "KTV" 5, md! "KmushiCoin" 24],
  [md! "428" 8, md! "0x800001ac" 20, md! "ZCR" 5, md! "ZCore" 29],
  [md! "429" 8, md! "0x800001ad" 20, md! "ERG" 5, md! "Ergo" 30],
  [md! "430" 8, md! "0x800001ae" 20, md! "PESO" 4, md! "Criptopeso" 24],
  [md! "431" 8, md! "0x800001af" 20, md! "BTC2" 4, md! "Bitcoin 2" 25],
  [md! "432" 8, md! "0x800001b0" 20, md! "XRPHD" 3, md! "XRPHD" 29],
  [md! "433" 8, md! "0x800001b1" 20, md! "WE" 6, md! "WE Coin" 27],
  [md! "434" 8, md! "0x800001b2" 20, md! "KSM" 5, md! "Kusama" 28],
  [md! "435" 8, md! "0x800001b3" 20, md! "PCN" 5, md! "Peepcoin" 26],
  [md! "436" 8, md! "0x800001b4" 20, md! "NCH" 5, md! "NetCloth" 26],
  [md! "437" 8, md! "0x800001b5" 20, md! "ICU" 5, md! "CHIPO" 29],
  [md! "438" 8, md! "0x800001b6" 20, md! "FNSA" 4, md! "FINSCHIA" 26],
  [md! "439" 8, md! "0x800001b7" 20, md! "DTP" 5, md! "DeVault Token Protocol" 12],
  [md! "440" 8, md! "0x800001b8" 20, md! "BTCR" 4, md! "Bitcoin Royale" 20],
  [md! "441" 8, md! "0x800001b9" 20, md! "AERGO" 3, md! "AERGO" 29],
  [md! "442" 8, md! "0x800001ba" 20, md! "XTH" 5, md! "Dothereum" 25],
  [md! "443" 8, md! "0x800001bb" 20, md! "LV" 6, md! "Lava" 30],
  [md! "444" 8, md! "0x800001bc" 20, md! "PHR" 5, md! "Phore" 29],
  [md! "445" 8, md! "0x800001bd" 20, md! "VITAE" 3, md! "Vitae" 29],
  [md! "446" 8, md! "0x800001be" 20, md! "COCOS" 3, md! "Cocos-BCX" 25],
  [md! "447" 8, md! "0x800001bf" 20, md! "DIN" 5, md! "Dinero" 28]]

/-- bip44/slip-0044.md:449-512. -/
def c7 : List MdLine := [
  [md! "448" 8, md! "0x800001c0" 20, md! "SPL" 5, md! "Simplicity" 24],
  [md! "449" 8, md! "0x800001c1" 20, md! "YCE" 5, md! "MYCE" 30],
  [md! "450" 8, md! "0x800001c2" 20, md! "XLR" 5, md! "Solaris" 27],
  [md! "451" 8, md! "0x800001c3" 20, md! "KTS" 5, md! "Klimatas" 26],
  [md! "452" 8, md! "0x800001c4" 20, md! "DGLD" 4, md! "DGLD" 30],
  [md! "453" 8, md! "0x800001c5" 20, md! "XNS" 5, md! "Insolar" 27],
  [md! "454" 8, md! "0x800001c6" 20, md! "EM" 6, md! "EMPOW" 29],
  [md! "455" 8, md! "0x800001c7" 20, md! "SHN" 5, md! "ShineBlocks" 23],
  [md! "456" 8, md! "0x800001c8" 20, md! "SEELE" 3, md! "Seele" 29],
  [md! "457" 8, md! "0x800001c9" 20, md! "AE" 6, md! "æternity" 26],
  [md! "458" 8, md! "0x800001ca" 20, md! "ODX" 5, md! "ObsidianX" 25],
  [md! "459" 8, md! "0x800001cb" 20, md! "KAVA" 4, md! "Kava" 30],
  [md! "460" 8, md! "0x800001cc" 20, md! "GLEEC" 3, md! "GLEEC" 29],
  [md! "461" 8, md! "0x800001cd" 20, md! "FIL" 5, md! "Filecoin" 26],
  [md! "462" 8, md! "0x800001ce" 20, md! "RUTA" 4, md! "Rutanio" 27],
  [md! "463" 8, md! "0x800001cf" 20, md! "CSDT" 4, md! "CSDT" 30],
  [md! "464" 8, md! "0x800001d0" 20, md! "ETI" 5, md! "EtherInc" 26],
  [md! "465" 8, md! "0x800001d1" 20, md! "ZSLP" 4, md! "Zclassic Simple Ledger Protocol" 3],
  [md! "466" 8, md! "0x800001d2" 20, md! "ERE" 5, md! "EtherCore" 25],
  [md! "467" 8, md! "0x800001d3" 20, md! "DX" 6, md! "DxChain Token" 21],
  [md! "468" 8, md! "0x800001d4" 20, md! "CPS" 5, md! "Capricoin+" 24],
  [md! "469" 8, md! "0x800001d5" 20, md! "BTH" 5, md! "Bithereum" 25],
  [md! "470" 8, md! "0x800001d6" 20, md! "MESG" 4, md! "MESG" 30],
  [md! "471" 8, md! "0x800001d7" 20, md! "FIMK" 4, md! "FIMK" 30],
  [md! "472" 8, md! "0x800001d8" 20, md! "AR" 6, md! "Arweave" 27],
  [md! "473" 8, md! "0x800001d9" 20, md! "OGO" 5, md! "Origo" 29],
  [md! "474" 8, md! "0x800001da" 20, md! "ROSE" 4, md! "Oasis Network" 21],
  [md! "475" 8, md! "0x800001db" 20, md! "BARE" 4, md! "BARE Network" 22],
  [md! "476" 8, md! "0x800001dc" 20, md! "GLEEC" 3, md! "GleecBTC" 26],
  [md! "477" 8, md! "0x800001dd" 20, md! "CLR" 5, md! "Color Coin" 24],
  [md! "478" 8, md! "0x800001de" 20, md! "RNG" 5, md! "Ring" 30],
  [md! "479" 8, md! "0x800001df" 20, md! "OLO" 5, md! "Tool Global" 23],
  [md! "480" 8, md! "0x800001e0" 20, md! "PEXA" 4, md! "Pexa" 30],
  [md! "481" 8, md! "0x800001e1" 20, md! "MOON" 4, md! "Mooncoin" 26],
  [md! "482" 8, md! "0x800001e2" 20, md! "OCEAN" 3, md! "Ocean Protocol" 20],
  [md! "483" 8, md! "0x800001e3" 20, md! "BNT" 5, md! "Bluzelle Native" 19],
  [md! "484" 8, md! "0x800001e4" 20, md! "AMO" 5, md! "AMO Blockchain" 20],
  [md! "485" 8, md! "0x800001e5" 20, md! "FCH" 5, md! "FreeCash" 26],
  [md! "486" 8, md! "0x800001e6" 20, md! "LAT" 5, md! "PlatON" 28],
  [md! "487" 8, md! "0x800001e7" 20, md! "COIN" 4, md! "Bitcoin Bank" 22],
  [md! "488" 8, md! "0x800001e8" 20, md! "VEO" 5, md! "Amoveo" 28],
  [md! "489" 8, md! "0x800001e9" 20, md! "CCA" 5, md! "Counos Coin" 23],
  [md! "490" 8, md! "0x800001ea" 20, md! "GFN" 5, md! "Graphene" 26],
  [md! "491" 8, md! "0x800001eb" 20, md! "BIP" 5, md! "Minter Network" 20],
  [md! "492" 8, md! "0x800001ec" 20, md! "KPG" 5, md! "Kunpeng Network" 19],
  [md! "493" 8, md! "0x800001ed" 20, md! "FIN" 5, md! "FINL Chain" 24],
  [md! "494" 8, md! "0x800001ee" 20, md! "BAND" 4, md! "Band" 30],
  [md! "495" 8, md! "0x800001ef" 20, md! "DROP" 4, md! "Dropil" 28],
  [md! "496" 8, md! "0x800001f0" 20, md! "BHT" 5, md! "Bluehelix Chain" 19],
  [md! "497" 8, md! "0x800001f1" 20, md! "LYRA" 4, md! "Scrypta" 27],
  [md! "498" 8, md! "0x800001f2" 20, md! "CS" 6, md! "Credits" 27],
  [md! "499" 8, md! "0x800001f3" 20, md! "RUPX" 4, md! "Rupaya" 28],
  [md! "500" 8, md! "0x800001f4" 20, md! "THETA" 3, md! "Theta" 29],
  [md! "501" 8, md! "0x800001f5" 20, md! "SOL" 5, md! "Solana" 28],
  [md! "502" 8, md! "0x800001f6" 20, md! "THT" 5, md! "ThoughtAI" 25],
  [md! "503" 8, md! "0x800001f7" 20, md! "CFX" 5, md! "Conflux" 27],
  [md! "504" 8, md! "0x800001f8" 20, md! "KUMA" 4, md! "Kumacoin" 26],
  [md! "505" 8, md! "0x800001f9" 20, md! "HASH" 4, md! "Provenance" 24],
  [md! "506" 8, md! "0x800001fa" 20, md! "CSPR" 4, md! "Casper" 28],
  [md! "507" 8, md! "0x800001fb" 20, md! "EARTH" 3, md! "EARTH" 29],
  [md! "508" 8, md! "0x800001fc" 20, md! "EGLD" 4, md! "MultiversX" 24],
  [md! "509" 8, md! "0x800001fd" 20, md! "CHI" 5, md! "Xaya" 30],
  [md! "510" 8, md! "0x800001fe" 20, md! "KOTO" 4, md! "Koto" 30],
  [md! "511" 8, md! "0x800001ff" 20, md! "OTC" 5, md! "θ" 33]]

/-- bip44/slip-0044.md:513-576. -/
def c8 : List MdLine := [
  [md! "512" 8, md! "0x80000200" 20, md! "XRD" 5, md! "Radiant" 27],
  [md! "513" 8, md! "0x80000201" 20, md! "SEELEN" 2, md! "Seele-N" 27],
  [md! "514" 8, md! "0x80000202" 20, md! "AETH" 4, md! "AETH" 30],
  [md! "515" 8, md! "0x80000203" 20, md! "DNA" 5, md! "Idena" 29],
  [md! "516" 8, md! "0x80000204" 20, md! "VEE" 5, md! "Virtual Economy Era" 15],
  [md! "517" 8, md! "0x80000205" 20, md! "SIERRA" 2, md! "SierraCoin" 24],
  [md! "518" 8, md! "0x80000206" 20, md! "LET" 5, md! "Linkeye" 27],
  [md! "519" 8, md! "0x80000207" 20, md! "BSC" 5, md! "Bitcoin Smart Contract" 12],
  [md! "520" 8, md! "0x80000208" 20, md! "BTCV" 4, md! "BitcoinVIP" 24],
  [md! "521" 8, md! "0x80000209" 20, md! "ABA" 5, md! "Dabacus" 27],
  [md! "522" 8, md! "0x8000020a" 20, md! "SCC" 5, md! "StakeCubeCoin" 21],
  [md! "523" 8, md! "0x8000020b" 20, md! "EDG" 5, md! "Edgeware" 26],
  [md! "524" 8, md! "0x8000020c" 20, md! "AMS" 5, md! "AmsterdamCoin" 21],
  [md! "525" 8, md! "0x8000020d" 20, md! "GOSS" 4, md! "GOSSIP Coin" 23],
  [md! "526" 8, md! "0x8000020e" 20, md! "BU" 6, md! "BUMO" 30],
  [md! "527" 8, md! "0x8000020f" 20, md! "GRAM" 4, md! "GRAM" 30],
  [md! "528" 8, md! "0x80000210" 20, md! "YAP" 5, md! "Yapstone" 26],
  [md! "529" 8, md! "0x80000211" 20, md! "SCRT" 4, md! "Secret Network" 20],
  [md! "530" 8, md! "0x80000212" 20, md! "NOVO" 4, md! "Novo" 30],
  [md! "531" 8, md! "0x80000213" 20, md! "GHOST" 3, md! "Ghost" 29],
  [md! "532" 8, md! "0x80000214" 20, md! "HST" 5, md! "HST" 31],
  [md! "533" 8, md! "0x80000215" 20, md! "PRJ" 5, md! "ProjectCoin" 23],
  [md! "534" 8, md! "0x80000216" 20, md! "YOU" 5, md! "YOUChain" 26],
  [md! "535" 8, md! "0x80000217" 20, md! "XHV" 5, md! "Haven Protocol" 20],
  [md! "536" 8, md! "0x80000218" 20, md! "BYND" 4, md! "Beyondcoin" 24],
  [md! "537" 8, md! "0x80000219" 20, md! "JOYS" 4, md! "Joys Digital" 22],
  [md! "538" 8, md! "0x8000021a" 20, md! "VAL" 5, md! "Valorbit" 26],
  [md! "539" 8, md! "0x8000021b" 20, md! "FLOW" 4, md! "Flow" 30],
  [md! "540" 8, md! "0x8000021c" 20, md! "SMESH" 3, md! "Spacemesh Coin" 20],
  [md! "541" 8, md! "0x8000021d" 20, md! "SCDO" 4, md! "SCDO" 30],
  [md! "542" 8, md! "0x8000021e" 20, md! "IQS" 5, md! "IQ-Cash" 27],
  [md! "543" 8, md! "0x8000021f" 20, md! "BIND" 4, md! "Compendia" 25],
  [md! "544" 8, md! "0x80000220" 20, md! "COINEVO" 1, md! "Coinevo" 27],
  [md! "545" 8, md! "0x80000221" 20, md! "SCRIBE" 2, md! "Scribe" 28],
  [md! "546" 8, md! "0x80000222" 20, md! "HYN" 5, md! "Hyperion" 26],
  [md! "547" 8, md! "0x80000223" 20, md! "BHP" 5, md! "BHP" 31],
  [md! "548" 8, md! "0x80000224" 20, md! "BBC" 5, md! "BigBang Core" 22],
  [md! "549" 8, md! "0x80000225" 20, md! "MKF" 5, md! "MarketFinance" 21],
  [md! "550" 8, md! "0x80000226" 20, md! "XDC" 5, md! "XinFin" 28],
  [md! "551" 8, md! "0x80000227" 20, md! "STR" 5, md! "Straightedge" 22],
  [md! "552" 8, md! "0x80000228" 20, md! "SUM" 5, md! "Sumcoin" 27],
  [md! "553" 8, md! "0x80000229" 20, md! "HBC" 5, md! "HuobiChain" 24],
  [md! "554" 8, md! "0x8000022a" 20, md! "---" 5, md! "reserved" 26],
  [md! "555" 8, md! "0x8000022b" 20, md! "BCS" 5, md! "Bitcoin Smart" 21],
  [md! "556" 8, md! "0x8000022c" 20, md! "KTS" 5, md! "Kratos" 28],
  [md! "557" 8, md! "0x8000022d" 20, md! "LKR" 5, md! "Lkrcoin" 27],
  [md! "558" 8, md! "0x8000022e" 20, md! "TAO" 5, md! "Tao" 31],
  [md! "559" 8, md! "0x8000022f" 20, md! "XWC" 5, md! "Whitecoin" 25],
  [md! "560" 8, md! "0x80000230" 20, md! "DEAL" 4, md! "DEAL" 30],
  [md! "561" 8, md! "0x80000231" 20, md! "NTY" 5, md! "Nexty" 29],
  [md! "562" 8, md! "0x80000232" 20, md! "TOP" 5, md! "TOP NetWork" 23],
  [md! "563" 8, md! "0x80000233" 20, md! "---" 5, md! "reserved" 26],
  [md! "564" 8, md! "0x80000234" 20, md! "AG" 6, md! "Agoric" 28],
  [md! "565" 8, md! "0x80000235" 20, md! "CICO" 4, md! "Coinicles" 25],
  [md! "566" 8, md! "0x80000236" 20, md! "IRIS" 4, md! "Irisnet" 27],
  [md! "567" 8, md! "0x80000237" 20, md! "NCG" 5, md! "Nine Chronicles" 19],
  [md! "568" 8, md! "0x80000238" 20, md! "LRG" 5, md! "Large Coin" 24],
  [md! "569" 8, md! "0x80000239" 20, md! "SERO" 4, md! "Super Zero Protocol" 15],
  [md! "570" 8, md! "0x8000023a" 20, md! "BDX" 5, md! "Beldex" 28],
  [md! "571" 8, md! "0x8000023b" 20, md! "CCXX" 4, md! "Counos X" 26],
  [md! "572" 8, md! "0x8000023c" 20, md! "SLS" 5, md! "Saluscoin" 25],
  [md! "573" 8, md! "0x8000023d" 20, md! "SRM" 5, md! "Serum" 29],
  [md! "574" 8, md! "0x8000023e" 20, md! "---" 5, md! "reserved" 26],
  [md! "575" 8, md! "0x8000023f" 20, md! "VIVT" 4, md! "VIDT Datalink" 21]]

/-- bip44/slip-0044.md:577-640. -/
def c9 : List MdLine := [
  [md! "576" 8, md! "0x80000240" 20, md! "BPS" 5, md! "BitcoinPoS" 24],
  [md! "577" 8, md! "0x80000241" 20, md! "NKN" 5, md! "NKN" 31],
  [md! "578" 8, md! "0x80000242" 20, md! "ICL" 5, md! "ILCOIN" 28],
  [md! "579" 8, md! "0x80000243" 20, md! "BONO" 4, md! "Bonorum" 27],
  [md! "580" 8, md! "0x80000244" 20, md! "PLC" 5, md! "PLATINCOIN" 24],
  [md! "581" 8, md! "0x80000245" 20, md! "DUN" 5, md! "Dune" 30],
  [md! "582" 8, md! "0x80000246" 20, md! "DMCH" 4, md! "Darmacash" 25],
  [md! "583" 8, md! "0x80000247" 20, md! "CTC" 5, md! "Creditcoin" 24],
  [md! "584" 8, md! "0x80000248" 20, md! "KELP" 4, md! "Haidai Network" 20],
  [md! "585" 8, md! "0x80000249" 20, md! "GBCR" 4, md! "GoldBCR" 27],
  [md! "586" 8, md! "0x8000024a" 20, md! "XDAG" 4, md! "XDAG" 30],
  [md! "587" 8, md! "0x8000024b" 20, md! "PRV" 5, md! "Incognito Privacy" 17],
  [md! "588" 8, md! "0x8000024c" 20, md! "SCAP" 4, md! "SafeCapital" 23],
  [md! "589" 8, md! "0x8000024d" 20, md! "TFUEL" 3, md! "Theta Fuel" 24],
  [md! "590" 8, md! "0x8000024e" 20, md! "GTM" 5, md! "Gentarium" 25],
  [md! "591" 8, md! "0x8000024f" 20, md! "RNL" 5, md! "RentalChain" 23],
  [md! "592" 8, md! "0x80000250" 20, md! "GRIN" 4, md! "Grin" 30],
  [md! "593" 8, md! "0x80000251" 20, md! "MWC" 5, md! "MimbleWimbleCoin" 18],
  [md! "594" 8, md! "0x80000252" 20, md! "DOCK" 4, md! "Dock" 30],
  [md! "595" 8, md! "0x80000253" 20, md! "POLYX" 3, md! "Polymesh" 26],
  [md! "596" 8, md! "0x80000254" 20, md! "DIVER" 3, md! "Divergenti" 24],
  [md! "597" 8, md! "0x80000255" 20, md! "XEP" 5, md! "Electra Protocol" 18],
  [md! "598" 8, md! "0x80000256" 20, md! "APN" 5, md! "Apron" 29],
  [md! "599" 8, md! "0x80000257" 20, md! "TFC" 5, md! "Turbo File Coin" 19],
  [md! "600" 8, md! "0x80000258" 20, md! "UTE" 5, md! "Unit-e" 28],
  [md! "601" 8, md! "0x80000259" 20, md! "MTC" 5, md! "Metacoin" 26],
  [md! "602" 8, md! "0x8000025a" 20, md! "NC" 6, md! "NobodyCash" 24],
  [md! "603" 8, md! "0x8000025b" 20, md! "XINY" 4, md! "Xinyuehu" 26],
  [md! "604" 8, md! "0x8000025c" 20, md! "DYN" 5, md! "Dynamo" 28],
  [md! "605" 8, md! "0x8000025d" 20, md! "BUFS" 4, md! "Buffer" 28],
  [md! "606" 8, md! "0x8000025e" 20, md! "STOS" 4, md! "Stratos" 27],
  [md! "607" 8, md! "0x8000025f" 20, md! "TON" 5, md! "TON" 31],
  [md! "608" 8, md! "0x80000260" 20, md! "TAFT" 4, md! "TAFT" 30],
  [md! "609" 8, md! "0x80000261" 20, md! "HYDRA" 3, md! "HYDRA" 29],
  [md! "610" 8, md! "0x80000262" 20, md! "NOR" 5, md! "Noir" 30],
  [md! "611" 8, md! "0x80000263" 20, md! "" 8, md! "Manta Network Private Asset" 7],
  [md! "612" 8, md! "0x80000264" 20, md! "" 8, md! "Calamari Network Private Asset" 4],
  [md! "613" 8, md! "0x80000265" 20, md! "WCN" 5, md! "Widecoin" 26],
  [md! "614" 8, md! "0x80000266" 20, md! "OPT" 5, md! "Optimistic Ethereum" 15],
  [md! "615" 8, md! "0x80000267" 20, md! "PSWAP" 3, md! "PolkaSwap" 25],
  [md! "616" 8, md! "0x80000268" 20, md! "VAL" 5, md! "Validator" 25],
  [md! "617" 8, md! "0x80000269" 20, md! "XOR" 5, md! "Sora" 30],
  [md! "618" 8, md! "0x8000026a" 20, md! "SSP" 5, md! "SmartShare" 24],
  [md! "619" 8, md! "0x8000026b" 20, md! "DEI" 5, md! "DeimosX" 27],
  [md! "620" 8, md! "0x8000026c" 20, md! "---" 5, md! "reserved" 26],
  [md! "621" 8, md! "0x8000026d" 20, md! "ZERO" 4, md! "Singularity" 23],
  [md! "622" 8, md! "0x8000026e" 20, md! "ALPHA" 3, md! "AlphaDAO" 26],
  [md! "623" 8, md! "0x8000026f" 20, md! "BDECO" 3, md! "BDCashProtocol Ecosystem" 10],
  [md! "624" 8, md! "0x80000270" 20, md! "NOBL" 4, md! "Nobility" 26],
  [md! "625" 8, md! "0x80000271" 20, md! "EAST" 4, md! "Eastcoin" 26],
  [md! "626" 8, md! "0x80000272" 20, md! "KDA" 5, md! "Kadena" 28],
  [md! "627" 8, md! "0x80000273" 20, md! "SOUL" 4, md! "Phantasma" 25],
  [md! "628" 8, md! "0x80000274" 20, md! "LORE" 4, md! "Gitopia" 27],
  [md! "629" 8, md! "0x80000275" 20, md! "FNR" 5, md! "Fincor" 28],
  [md! "630" 8, md! "0x80000276" 20, md! "NEXUS" 3, md! "Nexus" 29],
  [md! "631" 8, md! "0x80000277" 20, md! "QTZ" 5, md! "Quartz" 28],
  [md! "632" 8, md! "0x80000278" 20, md! "MAS" 5, md! "Massa" 29],
  [md! "633" 8, md! "0x80000279" 20, md! "CALL" 4, md! "Callchain" 25],
  [md! "634" 8, md! "0x8000027a" 20, md! "VAL" 5, md! "Validity" 26],
  [md! "635" 8, md! "0x8000027b" 20, md! "POKT" 4, md! "Pocket Network" 20],
  [md! "636" 8, md! "0x8000027c" 20, md! "EMIT" 4, md! "EMIT" 30],
  [md! "637" 8, md! "0x8000027d" 20, md! "APTOS" 3, md! "Aptos" 29],
  [md! "638" 8, md! "0x8000027e" 20, md! "ADON" 4, md! "ADON" 30],
  [md! "639" 8, md! "0x8000027f" 20, md! "BTSG" 4, md! "BitSong" 27]]

/-- bip44/slip-0044.md:641-704. -/
def c10 : List MdLine := [
  [md! "640" 8, md! "0x80000280" 20, md! "LFC" 5, md! "Leofcoin" 26],
  [md! "641" 8, md! "0x80000281" 20, md! "KCS" 5, md! "KuCoin Shares" 21],
  [md! "642" 8, md! "0x80000282" 20, md! "KCC" 5, md! "KuCoin Community Chain" 12],
  [md! "643" 8, md! "0x80000283" 20, md! "AZERO" 3, md! "Aleph Zero" 24],
  [md! "644" 8, md! "0x80000284" 20, md! "TREE" 4, md! "Tree" 30],
  [md! "645" 8, md! "0x80000285" 20, md! "LX" 6, md! "Lynx" 30],
  [md! "646" 8, md! "0x80000286" 20, md! "XLN" 5, md! "Lunarium" 26],
  [md! "647" 8, md! "0x80000287" 20, md! "CIC" 5, md! "CIC Chain" 25],
  [md! "648" 8, md! "0x80000288" 20, md! "ZRB" 5, md! "Zarb" 30],
  [md! "649" 8, md! "0x80000289" 20, md! "---" 5, md! "reserved" 26],
  [md! "650" 8, md! "0x8000028a" 20, md! "UCO" 5, md! "Archethic" 25],
  [md! "651" 8, md! "0x8000028b" 20, md! "SFX" 5, md! "Safex Cash" 24],
  [md! "652" 8, md! "0x8000028c" 20, md! "SFT" 5, md! "Safex Token" 23],
  [md! "653" 8, md! "0x8000028d" 20, md! "WSFX" 4, md! "Wrapped Safex Cash" 16],
  [md! "654" 8, md! "0x8000028e" 20, md! "USDG" 4, md! "US Digital Gold" 19],
  [md! "655" 8, md! "0x8000028f" 20, md! "WMP" 5, md! "WAMP" 30],
  [md! "656" 8, md! "0x80000290" 20, md! "EKTA" 4, md! "Ekta" 30],
  [md! "657" 8, md! "0x80000291" 20, md! "YDA" 5, md! "YadaCoin" 26],
  [md! "658" 8, md! "0x80000292" 20, md! "" 8],
  [md! "659" 8, md! "0x80000293" 20, md! "KOIN" 4, md! "Koinos" 28],
  [md! "660" 8, md! "0x80000294" 20, md! "PIRATE" 2, md! "PirateCash" 24],
  [md! "661" 8, md! "0x80000295" 20, md! "UNQ" 5, md! "Unique" 28],
  [md! "662" 8, md! "0x80000296" 20, md! "" 8],
  [md! "663" 8, md! "0x80000297" 20, md! "SFRX" 4, md! "EtherGem Sapphire" 17],
  [md! "664" 8, md! "0x80000298" 20, md! "BSTY" 4, md! "GlobalBoost-Y" 21],
  [md! "665" 8, md! "0x80000299" 20, md! "IMP" 5, md! "Impact Protocol" 19],
  [md! "666" 8, md! "0x8000029a" 20, md! "ACT" 5, md! "Achain" 28],
  [md! "667" 8, md! "0x8000029b" 20, md! "PRKL" 4, md! "Perkle" 28],
  [md! "668" 8, md! "0x8000029c" 20, md! "SSC" 5, md! "SelfSell" 26],
  [md! "669" 8, md! "0x8000029d" 20, md! "GC" 6, md! "GateChain" 25],
  [md! "670" 8, md! "0x8000029e" 20, md! "PLGR" 4, md! "Pledger" 27],
  [md! "671" 8, md! "0x8000029f" 20, md! "MPLGR" 3, md! "Pledger" 27],
  [md! "672" 8, md! "0x800002a0" 20, md! "KNOX" 4, md! "Knox" 30],
  [md! "673" 8, md! "0x800002a1" 20, md! "ZED" 5, md! "ZED" 31],
  [md! "674" 8, md! "0x800002a2" 20, md! "CNDL" 4, md! "Candle" 28],
  [md! "675" 8, md! "0x800002a3" 20, md! "WLKR" 4, md! "Walker Crypto Innovation Index" 4],
  [md! "676" 8, md! "0x800002a4" 20, md! "WLKRR" 3, md! "Walker" 28],
  [md! "677" 8, md! "0x800002a5" 20, md! "YUNGE" 3, md! "Yunge" 29],
  [md! "678" 8, md! "0x800002a6" 20, md! "Voken" 3, md! "Voken" 29],
  [md! "679" 8, md! "0x800002a7" 20, md! "APL" 5, md! "Apollo" 28],
  [md! "680" 8, md! "0x800002a8" 20, md! "Evrynet" 1, md! "Evrynet" 27],
  [md! "681" 8, md! "0x800002a9" 20, md! "NENG" 4, md! "Nengcoin" 26],
  [md! "682" 8, md! "0x800002aa" 20, md! "CHTA" 4, md! "Cheetahcoin" 23],
  [md! "683" 8, md! "0x800002ab" 20, md! "ALEO" 4, md! "Aleo Network" 22],
  [md! "684" 8, md! "0x800002ac" 20, md! "" 8],
  [md! "685" 8, md! "0x800002ad" 20, md! "OAS" 5, md! "Oasys" 29],
  [md! "686" 8, md! "0x800002ae" 20, md! "KAR" 5, md! "Karura Network" 20],
  [md! "687" 8, md! "0x800002af" 20, md! "" 8],
  [md! "688" 8, md! "0x800002b0" 20, md! "CET" 5, md! "CoinEx Chain" 22],
  [md! "689" 8, md! "0x800002b1" 20, md! "" 8],
  [md! "690" 8, md! "0x800002b2" 20, md! "KLV" 5, md! "KleverChain" 23],
  [md! "691" 8, md! "0x800002b3" 20, md! "" 8],
  [md! "692" 8, md! "0x800002b4" 20, md! "" 8],
  [md! "693" 8, md! "0x800002b5" 20, md! "" 8],
  [md! "694" 8, md! "0x800002b6" 20, md! "VTBC" 4, md! "VTB Community" 21],
  [md! "695" 8, md! "0x800002b7" 20, md! "" 8],
  [md! "696" 8, md! "0x800002b8" 20, md! "" 8],
  [md! "697" 8, md! "0x800002b9" 20, md! "" 8],
  [md! "698" 8, md! "0x800002ba" 20, md! "VEIL" 4, md! "Veil" 30],
  [md! "699" 8, md! "0x800002bb" 20, md! "GTB" 5, md! "GotaBit" 27],
  [md! "700" 8, md! "0x800002bc" 20, md! "XDAI" 4, md! "xDai" 30],
  [md! "701" 8, md! "0x800002bd" 20, md! "COM" 5, md! "Commercio" 25],
  [md! "702" 8, md! "0x800002be" 20, md! "CCC" 5, md! "Commercio Cash Credit" 13],
  [md! "703" 8, md! "0x800002bf" 20, md! "" 8]]

/-- bip44/slip-0044.md:705-768. -/
def c11 : List MdLine := [
  [md! "704" 8, md! "0x800002c0" 20, md! "RAQ" 5, md! "Ra Quantum" 24],
  [md! "705" 8, md! "0x800002c1" 20, md! "PEG" 5, md! "Pegasus Token" 21],
  [md! "706" 8, md! "0x800002c2" 20, md! "LKG" 5, md! "Lionking" 26],
  [md! "707" 8, md! "0x800002c3" 20, md! "MCOIN" 3, md! "Moneta Coin" 23],
  [md! "708" 8, md! "0x800002c4" 20, md! "" 8],
  [md! "709" 8, md! "0x800002c5" 20, md! "" 8],
  [md! "710" 8, md! "0x800002c6" 20, md! "FURY" 4, md! "Highbury" 26],
  [md! "711" 8, md! "0x800002c7" 20, md! "CHC" 5, md! "Chaincoin" 25],
  [md! "712" 8, md! "0x800002c8" 20, md! "SERF" 4, md! "Serfnet" 27],
  [md! "713" 8, md! "0x800002c9" 20, md! "XTL" 5, md! "Katal Chain" 23],
  [md! "714" 8, md! "0x800002ca" 20, md! "BNB" 5, md! "Binance" 27],
  [md! "715" 8, md! "0x800002cb" 20, md! "SIN" 5, md! "Sinovate" 26],
  [md! "716" 8, md! "0x800002cc" 20, md! "DLN" 5, md! "Delion" 28],
  [md! "717" 8, md! "0x800002cd" 20, md! "BONTE" 3, md! "Bontecoin" 25],
  [md! "718" 8, md! "0x800002ce" 20, md! "PEER" 4, md! "Peer" 30],
  [md! "719" 8, md! "0x800002cf" 20, md! "ZET" 5, md! "Zetacoin" 26],
  [md! "720" 8, md! "0x800002d0" 20, md! "ABY" 5, md! "Artbyte" 27],
  [md! "721" 8, md! "0x800002d1" 20, md! "PGX" 5, md! "Mirai Chain" 23],
  [md! "722" 8, md! "0x800002d2" 20, md! "IL8P" 4, md! "InfiniLooP" 24],
  [md! "723" 8, md! "0x800002d3" 20, md! "" 8],
  [md! "724" 8, md! "0x800002d4" 20, md! "XVC" 5, md! "Vanillacash" 23],
  [md! "725" 8, md! "0x800002d5" 20, md! "MCX" 5, md! "MultiCash" 25],
  [md! "726" 8, md! "0x800002d6" 20, md! "" 8],
  [md! "727" 8, md! "0x800002d7" 20, md! "BLU" 5, md! "BluCrates" 25],
  [md! "728" 8, md! "0x800002d8" 20, md! "" 8],
  [md! "729" 8, md! "0x800002d9" 20, md! "" 8],
  [md! "730" 8, md! "0x800002da" 20, md! "HEALIOS" 1, md! "Tenacity" 26],
  [md! "731" 8, md! "0x800002db" 20, md! "BMK" 5, md! "Bitmark" 27],
  [md! "732" 8, md! "0x800002dc" 20, md! "" 8],
  [md! "733" 8, md! "0x800002dd" 20, md! "" 8],
  [md! "734" 8, md! "0x800002de" 20, md! "DENTX" 3, md! "DENTNet" 27],
  [md! "735" 8, md! "0x800002df" 20, md! "" 8],
  [md! "736" 8, md! "0x800002e0" 20, md! "" 8],
  [md! "737" 8, md! "0x800002e1" 20, md! "ATOP" 4, md! "Financial Blockchain" 14],
  [md! "738" 8, md! "0x800002e2" 20, md! "" 8],
  [md! "739" 8, md! "0x800002e3" 20, md! "" 8],
  [md! "740" 8, md! "0x800002e4" 20, md! "" 8],
  [md! "741" 8, md! "0x800002e5" 20, md! "" 8],
  [md! "742" 8, md! "0x800002e6" 20, md! "" 8],
  [md! "743" 8, md! "0x800002e7" 20, md! "" 8],
  [md! "744" 8, md! "0x800002e8" 20, md! "" 8],
  [md! "745" 8, md! "0x800002e9" 20, md! "" 8],
  [md! "746" 8, md! "0x800002ea" 20, md! "" 8],
  [md! "747" 8, md! "0x800002eb" 20, md! "CFG" 5, md! "Centrifuge" 24],
  [md! "748" 8, md! "0x800002ec" 20, md! "" 8],
  [md! "749" 8, md! "0x800002ed" 20, md! "" 8],
  [md! "750" 8, md! "0x800002ee" 20, md! "XPRT" 4, md! "Persistence" 23],
  [md! "751" 8, md! "0x800002ef" 20, md! "" 8],
  [md! "752" 8, md! "0x800002f0" 20, md! "" 8],
  [md! "753" 8, md! "0x800002f1" 20, md! "" 8, md! "Age X25519 Encryption" 13],
  [md! "754" 8, md! "0x800002f2" 20, md! "" 8, md! "Age NIST Encryption" 15],
  [md! "755" 8, md! "0x800002f3" 20, md! "" 8],
  [md! "756" 8, md! "0x800002f4" 20, md! "" 8],
  [md! "757" 8, md! "0x800002f5" 20, md! "HONEY" 3, md! "HoneyWood" 25],
  [md! "758" 8, md! "0x800002f6" 20, md! "" 8],
  [md! "759" 8, md! "0x800002f7" 20, md! "" 8],
  [md! "760" 8, md! "0x800002f8" 20, md! "" 8],
  [md! "761" 8, md! "0x800002f9" 20, md! "" 8],
  [md! "762" 8, md! "0x800002fa" 20, md! "" 8],
  [md! "763" 8, md! "0x800002fb" 20, md! "" 8],
  [md! "764" 8, md! "0x800002fc" 20, md! "" 8],
  [md! "765" 8, md! "0x800002fd" 20, md! "" 8],
  [md! "766" 8, md! "0x800002fe" 20, md! "" 8],
  [md! "767" 8, md! "0x800002ff" 20, md! "" 8]]

/-- bip44/slip-0044.md:769-832. -/
def c12 : List MdLine := [
  [md! "768" 8, md! "0x80000300" 20, md! "BALLZ" 3, md! "Ballzcoin" 25],
  [md! "769" 8, md! "0x80000301" 20, md! "" 8],
  [md! "770" 8, md! "0x80000302" 20, md! "COSA" 4, md! "Cosanta" 27],
  [md! "771" 8, md! "0x80000303" 20, md! "BR" 6, md! "BR" 32],
  [md! "772" 8, md! "0x80000304" 20, md! "" 8],
  [md! "773" 8, md! "0x80000305" 20, md! "CSB" 5, md! "CosmoBliss" 24],
  [md! "774" 8, md! "0x80000306" 20, md! "" 8],
  [md! "775" 8, md! "0x80000307" 20, md! "PLSR" 4, md! "Pulsar Coin" 23],
  [md! "776" 8, md! "0x80000308" 20, md! "KEY" 5, md! "Keymaker Coin" 21],
  [md! "777" 8, md! "0x80000309" 20, md! "BTW" 5, md! "Bitcoin World" 21],
  [md! "778" 8, md! "0x8000030a" 20, md! "" 8],
  [md! "779" 8, md! "0x8000030b" 20, md! "" 8],
  [md! "780" 8, md! "0x8000030c" 20, md! "PLCUC" 3, md! "PLC Ultima Classic" 16],
  [md! "781" 8, md! "0x8000030d" 20, md! "PLCUX" 3, md! "PLC Ultima X" 22],
  [md! "782" 8, md! "0x8000030e" 20, md! "PLCU" 4, md! "PLC Ultima" 24],
  [md! "783" 8, md! "0x8000030f" 20, md! "SMARTBC" 1, md! "SMART Blockchain" 18],
  [md! "784" 8, md! "0x80000310" 20, md! "SUI" 5, md! "Sui" 31],
  [md! "785" 8, md! "0x80000311" 20, md! "" 8],
  [md! "786" 8, md! "0x80000312" 20, md! "UIDD" 4, md! "UIDD" 30],
  [md! "787" 8, md! "0x80000313" 20, md! "ACA" 5, md! "Acala" 29],
  [md! "788" 8, md! "0x80000314" 20, md! "BNC" 5, md! "Bifrost" 27],
  [md! "789" 8, md! "0x80000315" 20, md! "TAU" 5, md! "Lamden" 28],
  [md! "790" 8, md! "0x80000316" 20, md! "" 8],
  [md! "791" 8, md! "0x80000317" 20, md! "" 8],
  [md! "792" 8, md! "0x80000318" 20, md! "" 8],
  [md! "793" 8, md! "0x80000319" 20, md! "" 8],
  [md! "794" 8, md! "0x8000031a" 20, md! "INTR" 4, md! "Interlay" 26],
  [md! "795" 8, md! "0x8000031b" 20, md! "KINT" 4, md! "Kintsugi" 26],
  [md! "796" 8, md! "0x8000031c" 20, md! "" 8],
  [md! "797" 8, md! "0x8000031d" 20, md! "" 8],
  [md! "798" 8, md! "0x8000031e" 20, md! "" 8],
  [md! "799" 8, md! "0x8000031f" 20, md! "PDEX" 4, md! "Polkadex" 26],
  [md! "800" 8, md! "0x80000320" 20, md! "BEET" 4, md! "Beetle Coin" 23],
  [md! "801" 8, md! "0x80000321" 20, md! "DST" 5, md! "DSTRA" 29],
  [md! "802" 8, md! "0x80000322" 20, md! "CY" 6, md! "Cyberyen" 26],
  [md! "803" 8, md! "0x80000323" 20, md! "" 8],
  [md! "804" 8, md! "0x80000324" 20, md! "ZKS" 5, md! "zkSync" 28],
  [md! "805" 8, md! "0x80000325" 20, md! "" 8],
  [md! "806" 8, md! "0x80000326" 20, md! "" 8],
  [md! "807" 8, md! "0x80000327" 20, md! "" 8],
  [md! "808" 8, md! "0x80000328" 20, md! "QVT" 5, md! "Qvolta" 28],
  [md! "809" 8, md! "0x80000329" 20, md! "SDN" 5, md! "Shiden Network" 20],
  [md! "810" 8, md! "0x8000032a" 20, md! "ASTR" 4, md! "Astar Network" 21],
  [md! "811" 8, md! "0x8000032b" 20, md! "---" 5, md! "reserved" 26],
  [md! "812" 8, md! "0x8000032c" 20, md! "" 8],
  [md! "813" 8, md! "0x8000032d" 20, md! "MEER" 4, md! "Qitmeer" 27],
  [md! "814" 8, md! "0x8000032e" 20, md! "" 8],
  [md! "815" 8, md! "0x8000032f" 20, md! "" 8],
  [md! "816" 8, md! "0x80000330" 20, md! "FSC" 5, md! "FSC" 31],
  [md! "817" 8, md! "0x80000331" 20, md! "" 8],
  [md! "818" 8, md! "0x80000332" 20, md! "VET" 5, md! "VeChain Token" 21],
  [md! "819" 8, md! "0x80000333" 20, md! "REEF" 4, md! "Reef" 30],
  [md! "820" 8, md! "0x80000334" 20, md! "CLO" 5, md! "Callisto" 26],
  [md! "821" 8, md! "0x80000335" 20, md! "" 8],
  [md! "822" 8, md! "0x80000336" 20, md! "BDB" 5, md! "BigchainDB" 24],
  [md! "823" 8, md! "0x80000337" 20, md! "" 8],
  [md! "824" 8, md! "0x80000338" 20, md! "RBNT" 4, md! "Redbelly Network" 18],
  [md! "825" 8, md! "0x80000339" 20, md! "" 8],
  [md! "826" 8, md! "0x8000033a" 20, md! "" 8],
  [md! "827" 8, md! "0x8000033b" 20, md! "ACE" 5, md! "Endurance" 25],
  [md! "828" 8, md! "0x8000033c" 20, md! "CCN" 5, md! "ComputeCoin" 23],
  [md! "829" 8, md! "0x8000033d" 20, md! "BBA" 5, md! "BBACHAIN" 26],
  [md! "830" 8, md! "0x8000033e" 20, md! "" 8],
  [md! "831" 8, md! "0x8000033f" 20, md! "CRUZ" 4, md! "cruzbit" 27]]

/-- bip44/slip-0044.md:833-896. -/
def c13 : List MdLine := [
  [md! "832" 8, md! "0x80000340" 20, md! "SAPP" 4, md! "Sapphire" 26],
  [md! "833" 8, md! "0x80000341" 20, md! "777" 5, md! "Jackpot" 27],
  [md! "834" 8, md! "0x80000342" 20, md! "KYAN" 4, md! "Kyanite" 27],
  [md! "835" 8, md! "0x80000343" 20, md! "AZR" 5, md! "Azzure" 28],
  [md! "836" 8, md! "0x80000344" 20, md! "CFL" 5, md! "CryptoFlow" 24],
  [md! "837" 8, md! "0x80000345" 20, md! "DASHD" 3, md! "Dash Diamond" 22],
  [md! "838" 8, md! "0x80000346" 20, md! "TRTT" 4, md! "Trittium" 26],
  [md! "839" 8, md! "0x80000347" 20, md! "UCR" 5, md! "Ultra Clear" 23],
  [md! "840" 8, md! "0x80000348" 20, md! "PNY" 5, md! "Peony" 29],
  [md! "841" 8, md! "0x80000349" 20, md! "BECN" 4, md! "Beacon" 28],
  [md! "842" 8, md! "0x8000034a" 20, md! "MONK" 4, md! "Monk" 30],
  [md! "843" 8, md! "0x8000034b" 20, md! "SAGA" 4, md! "CryptoSaga" 24],
  [md! "844" 8, md! "0x8000034c" 20, md! "SUV" 5, md! "Suvereno" 26],
  [md! "845" 8, md! "0x8000034d" 20, md! "ESK" 5, md! "EskaCoin" 26],
  [md! "846" 8, md! "0x8000034e" 20, md! "OWO" 5, md! "OneWorld Coin" 21],
  [md! "847" 8, md! "0x8000034f" 20, md! "PEPS" 4, md! "PEPS Coin" 25],
  [md! "848" 8, md! "0x80000350" 20, md! "BIR" 5, md! "Birake" 28],
  [md! "849" 8, md! "0x80000351" 20, md! "MOBIC" 3, md! "MobilityCoin" 22],
  [md! "850" 8, md! "0x80000352" 20, md! "FLS" 5, md! "Flits" 29],
  [md! "851" 8, md! "0x80000353" 20, md! "FRECO" 3, md! "Freco" 29],
  [md! "852" 8, md! "0x80000354" 20, md! "DSM" 5, md! "Desmos" 28],
  [md! "853" 8, md! "0x80000355" 20, md! "PRCY" 4, md! "PRCY Coin" 25],
  [md! "854" 8, md! "0x80000356" 20, md! "" 8],
  [md! "855" 8, md! "0x80000357" 20, md! "" 8],
  [md! "856" 8, md! "0x80000358" 20, md! "" 8],
  [md! "857" 8, md! "0x80000359" 20, md! "" 8],
  [md! "858" 8, md! "0x8000035a" 20, md! "HVH" 5, md! "HAVAH" 29],
  [md! "859" 8, md! "0x8000035b" 20, md! "" 8],
  [md! "860" 8, md! "0x8000035c" 20, md! "" 8],
  [md! "861" 8, md! "0x8000035d" 20, md! "" 8],
  [md! "862" 8, md! "0x8000035e" 20, md! "" 8],
  [md! "863" 8, md! "0x8000035f" 20, md! "" 8],
  [md! "864" 8, md! "0x80000360" 20, md! "" 8],
  [md! "865" 8, md! "0x80000361" 20, md! "" 8],
  [md! "866" 8, md! "0x80000362" 20, md! "MOB" 5, md! "MobileCoin" 24],
  [md! "867" 8, md! "0x80000363" 20, md! "" 8],
  [md! "868" 8, md! "0x80000364" 20, md! "IF" 6, md! "Infinitefuture" 20],
  [md! "869" 8, md! "0x80000365" 20, md! "" 8],
  [md! "870" 8, md! "0x80000366" 20, md! "" 8],
  [md! "871" 8, md! "0x80000367" 20, md! "" 8],
  [md! "872" 8, md! "0x80000368" 20, md! "" 8],
  [md! "873" 8, md! "0x80000369" 20, md! "" 8],
  [md! "874" 8, md! "0x8000036a" 20, md! "" 8],
  [md! "875" 8, md! "0x8000036b" 20, md! "" 8],
  [md! "876" 8, md! "0x8000036c" 20, md! "" 8],
  [md! "877" 8, md! "0x8000036d" 20, md! "NAM" 5, md! "Namada" 28],
  [md! "878" 8, md! "0x8000036e" 20, md! "SCR" 5, md! "Scorum Network" 20],
  [md! "879" 8, md! "0x8000036f" 20, md! "" 8],
  [md! "880" 8, md! "0x80000370" 20, md! "LUM" 5, md! "Lum Network" 23],
  [md! "881" 8, md! "0x80000371" 20, md! "" 8],
  [md! "882" 8, md! "0x80000372" 20, md! "" 8],
  [md! "883" 8, md! "0x80000373" 20, md! "ZBC" 5, md! "ZooBC" 29],
  [md! "884" 8, md! "0x80000374" 20, md! "" 8],
  [md! "885" 8, md! "0x80000375" 20, md! "" 8],
  [md! "886" 8, md! "0x80000376" 20, md! "ADF" 5, md! "AD Token" 26],
  [md! "887" 8, md! "0x80000377" 20, md! "" 8],
  [md! "888" 8, md! "0x80000378" 20, md! "NEO" 5, md! "NEO" 31],
  [md! "889" 8, md! "0x80000379" 20, md! "TOMO" 4, md! "TOMO" 30],
  [md! "890" 8, md! "0x8000037a" 20, md! "XSEL" 4, md! "Seln" 30],
  [md! "891" 8, md! "0x8000037b" 20, md! "" 8],
  [md! "892" 8, md! "0x8000037c" 20, md! "" 8],
  [md! "893" 8, md! "0x8000037d" 20, md! "" 8],
  [md! "894" 8, md! "0x8000037e" 20, md! "" 8],
  [md! "895" 8, md! "0x8000037f" 20, md! "" 8]]

/-- bip44/slip-0044.md:897-960. -/
def c14 : List MdLine := [
  [md! "896" 8, md! "0x80000380" 20, md! "LKSC" 4, md! "LKSCoin" 27],
  [md! "897" 8, md! "0x80000381" 20, md! "" 8],
  [md! "898" 8, md! "0x80000382" 20, md! "AS" 6, md! "Assetchain" 24],
  [md! "899" 8, md! "0x80000383" 20, md! "XEC" 5, md! "eCash" 29],
  [md! "900" 8, md! "0x80000384" 20, md! "LMO" 5, md! "Lumeneo" 27],
  [md! "901" 8, md! "0x80000385" 20, md! "NXT" 5, md! "NxtMeta" 27],
  [md! "902" 8, md! "0x80000386" 20, md! "" 8],
  [md! "903" 8, md! "0x80000387" 20, md! "" 8],
  [md! "904" 8, md! "0x80000388" 20, md! "HNT" 5, md! "Helium" 28],
  [md! "905" 8, md! "0x80000389" 20, md! "" 8],
  [md! "906" 8, md! "0x8000038a" 20, md! "" 8],
  [md! "907" 8, md! "0x8000038b" 20, md! "FIS" 5, md! "StaFi" 29],
  [md! "908" 8, md! "0x8000038c" 20, md! "" 8],
  [md! "909" 8, md! "0x8000038d" 20, md! "SGE" 5, md! "Saage" 29],
  [md! "910" 8, md! "0x8000038e" 20, md! "" 8],
  [md! "911" 8, md! "0x8000038f" 20, md! "GERT" 4, md! "Gert" 30],
  [md! "912" 8, md! "0x80000390" 20, md! "" 8],
  [md! "913" 8, md! "0x80000391" 20, md! "VARA" 4, md! "Vara Network" 22],
  [md! "914" 8, md! "0x80000392" 20, md! "" 8],
  [md! "915" 8, md! "0x80000393" 20, md! "" 8],
  [md! "916" 8, md! "0x80000394" 20, md! "META" 4, md! "Metadium" 26],
  [md! "917" 8, md! "0x80000395" 20, md! "FRA" 5, md! "Findora" 27],
  [md! "918" 8, md! "0x80000396" 20, md! "" 8],
  [md! "919" 8, md! "0x80000397" 20, md! "CCD" 5, md! "Concordium" 24],
  [md! "920" 8, md! "0x80000398" 20, md! "" 8],
  [md! "921" 8, md! "0x80000399" 20, md! "AVN" 5, md! "Avian Network" 21],
  [md! "922" 8, md! "0x8000039a" 20, md! "" 8],
  [md! "923" 8, md! "0x8000039b" 20, md! "" 8],
  [md! "924" 8, md! "0x8000039c" 20, md! "" 8],
  [md! "925" 8, md! "0x8000039d" 20, md! "DIP" 5, md! "Dipper Network" 20],
  [md! "926" 8, md! "0x8000039e" 20, md! "" 8],
  [md! "927" 8, md! "0x8000039f" 20, md! "" 8],
  [md! "928" 8, md! "0x800003a0" 20, md! "GHM" 5, md! "HermitMatrixNetwork" 15],
  [md! "929" 8, md! "0x800003a1" 20, md! "" 8],
  [md! "930" 8, md! "0x800003a2" 20, md! "" 8],
  [md! "931" 8, md! "0x800003a3" 20, md! "RUNE" 4, md! "THORChain (RUNE)" 18],
  [md! "932" 8, md! "0x800003a4" 20, md! "" 8],
  [md! "933" 8, md! "0x800003a5" 20, md! "" 8],
  [md! "934" 8, md! "0x800003a6" 20, md! "" 8],
  [md! "935" 8, md! "0x800003a7" 20, md! "" 8],
  [md! "936" 8, md! "0x800003a8" 20, md! "" 8],
  [md! "937" 8, md! "0x800003a9" 20, md! "" 8],
  [md! "938" 8, md! "0x800003aa" 20, md! "" 8],
  [md! "939" 8, md! "0x800003ab" 20, md! "" 8],
  [md! "940" 8, md! "0x800003ac" 20, md! "" 8],
  [md! "941" 8, md! "0x800003ad" 20, md! "---" 5, md! "reserved" 26],
  [md! "942" 8, md! "0x800003ae" 20, md! "" 8],
  [md! "943" 8, md! "0x800003af" 20, md! "" 8],
  [md! "944" 8, md! "0x800003b0" 20, md! "" 8],
  [md! "945" 8, md! "0x800003b1" 20, md! "UNLOCK" 2, md! "Jasiri protocol" 19],
  [md! "946" 8, md! "0x800003b2" 20, md! "" 8],
  [md! "947" 8, md! "0x800003b3" 20, md! "" 8],
  [md! "948" 8, md! "0x800003b4" 20, md! "" 8],
  [md! "949" 8, md! "0x800003b5" 20, md! "" 8],
  [md! "950" 8, md! "0x800003b6" 20, md! "" 8],
  [md! "951" 8, md! "0x800003b7" 20, md! "" 8],
  [md! "952" 8, md! "0x800003b8" 20, md! "" 8],
  [md! "953" 8, md! "0x800003b9" 20, md! "" 8],
  [md! "954" 8, md! "0x800003ba" 20, md! "" 8],
  [md! "955" 8, md! "0x800003bb" 20, md! "LTP" 5, md! "LifetionCoin" 22],
  [md! "956" 8, md! "0x800003bc" 20, md! "" 8],
  [md! "957" 8, md! "0x800003bd" 20, md! "" 8],
  [md! "958" 8, md! "0x800003be" 20, md! "" 8, md! "KickSoccer" 24],
  [md! "959" 8, md! "0x800003bf" 20, md! "" 8]]

/-- bip44/slip-0044.md:961-1024. -/
def c15 : List MdLine := [
  [md! "960" 8, md! "0x800003c0" 20, md! "VKAX" 4, md! "Vkax" 30],
  [md! "961" 8, md! "0x800003c1" 20, md! "" 8],
  [md! "962" 8, md! "0x800003c2" 20, md! "" 8],
  [md! "963" 8, md! "0x800003c3" 20, md! "" 8],
  [md! "964" 8, md! "0x800003c4" 20, md! "" 8],
  [md! "965" 8, md! "0x800003c5" 20, md! "" 8],
  [md! "966" 8, md! "0x800003c6" 20, md! "MATIC" 3, md! "Matic" 29],
  [md! "967" 8, md! "0x800003c7" 20, md! "" 8],
  [md! "968" 8, md! "0x800003c8" 20, md! "UNW" 5, md! "UNW" 31],
  [md! "969" 8, md! "0x800003c9" 20, md! "QI" 6, md! "Quai Network" 22],
  [md! "970" 8, md! "0x800003ca" 20, md! "TWINS" 3, md! "TWINS" 29],
  [md! "971" 8, md! "0x800003cb" 20, md! "" 8],
  [md! "972" 8, md! "0x800003cc" 20, md! "" 8],
  [md! "973" 8, md! "0x800003cd" 20, md! "" 8],
  [md! "974" 8, md! "0x800003ce" 20, md! "" 8],
  [md! "975" 8, md! "0x800003cf" 20, md! "" 8],
  [md! "976" 8, md! "0x800003d0" 20, md! "" 8],
  [md! "977" 8, md! "0x800003d1" 20, md! "TLOS" 4, md! "Telos" 29],
  [md! "978" 8, md! "0x800003d2" 20, md! "" 8],
  [md! "979" 8, md! "0x800003d3" 20, md! "" 8],
  [md! "980" 8, md! "0x800003d4" 20, md! "" 8],
  [md! "981" 8, md! "0x800003d5" 20, md! "TAFECO" 2, md! "Taf ECO Chain" 21],
  [md! "982" 8, md! "0x800003d6" 20, md! "" 8],
  [md! "983" 8, md! "0x800003d7" 20, md! "" 8],
  [md! "984" 8, md! "0x800003d8" 20, md! "" 8],
  [md! "985" 8, md! "0x800003d9" 20, md! "AU" 6, md! "Autonomy" 26],
  [md! "986" 8, md! "0x800003da" 20, md! "" 8],
  [md! "987" 8, md! "0x800003db" 20, md! "VCG" 5, md! "VipCoin" 27],
  [md! "988" 8, md! "0x800003dc" 20, md! "XAZAB" 3, md! "Xazab core" 24],
  [md! "989" 8, md! "0x800003dd" 20, md! "AIOZ" 4, md! "AIOZ" 30],
  [md! "990" 8, md! "0x800003de" 20, md! "CORE" 4, md! "Coreum" 28],
  [md! "991" 8, md! "0x800003df" 20, md! "PEC" 5, md! "Phoenix" 27],
  [md! "992" 8, md! "0x800003e0" 20, md! "UNT" 5, md! "Unit" 30],
  [md! "993" 8, md! "0x800003e1" 20, md! "XRB" 5, md! "X Currency" 24],
  [md! "994" 8, md! "0x800003e2" 20, md! "QUAI" 4, md! "Quai Network" 22],
  [md! "995" 8, md! "0x800003e3" 20, md! "CAPS" 4, md! "Ternoa" 28],
  [md! "996" 8, md! "0x800003e4" 20, md! "OKT" 5, md! "OKChain Token" 21],
  [md! "997" 8, md! "0x800003e5" 20, md! "SUM" 5, md! "Solidum" 27],
  [md! "998" 8, md! "0x800003e6" 20, md! "LBTC" 4, md! "Lightning Bitcoin" 17],
  [md! "999" 8, md! "0x800003e7" 20, md! "BCD" 5, md! "Bitcoin Diamond" 19],
  [md! "1000" 7, md! "0x800003e8" 20, md! "BTN" 5, md! "Bitcoin New" 23],
  [md! "1001" 7, md! "0x800003e9" 20, md! "TT" 6, md! "ThunderCore" 23],
  [md! "1002" 7, md! "0x800003ea" 20, md! "BKT" 5, md! "BanKitt" 27],
  [md! "1003" 7, md! "0x800003eb" 20, md! "NODL" 4, md! "Nodle" 29],
  [md! "1004" 7, md! "0x800003ec" 20, md! "PCOIN" 3, md! "PCOIN" 29],
  [md! "1005" 7, md! "0x800003ed" 20, md! "TAO" 5, md! "Bittensor" 25],
  [md! "1006" 7, md! "0x800003ee" 20, md! "HSK" 5, md! "HashKey Chain" 21],
  [md! "1007" 7, md! "0x800003ef" 20, md! "FTM" 5, md! "Fantom" 28],
  [md! "1008" 7, md! "0x800003f0" 20, md! "RPG" 5, md! "RPG" 31],
  [md! "1009" 7, md! "0x800003f1" 20, md! "LAKE" 4, md! "iconLake" 26],
  [md! "1010" 7, md! "0x800003f2" 20, md! "HT" 6, md! "Huobi ECO Chain" 19],
  [md! "1011" 7, md! "0x800003f3" 20, md! "ELV" 5, md! "Eluvio" 28],
  [md! "1012" 7, md! "0x800003f4" 20, md! "JOC" 5, md! "Japan Open Chain" 18],
  [md! "1013" 7, md! "0x800003f5" 20, md! "BIC" 5, md! "Beincrypto" 24],
  [md! "1016" 7, md! "0x800003f8" 20, md! "---" 5, md! "reserved" 26],
  [md! "1020" 7, md! "0x800003fc" 20, md! "EVC" 5, md! "Evrice" 28],
  [md! "1022" 7, md! "0x800003fe" 20, md! "XRD" 5, md! "Radix DLT" 25],
  [md! "1023" 7, md! "0x800003ff" 20, md! "ONE" 5, md! "HARMONY-ONE (Legacy)" 14],
  [md! "1024" 7, md! "0x80000400" 20, md! "ONT" 5, md! "Ontology" 26],
  [md! "1025" 7, md! "0x80000401" 20, md! "CZZ" 5, md! "Classzz" 27],
  [md! "1026" 7, md! "0x80000402" 20, md! "KEX" 5, md! "Kira Exchange Token" 15],
  [md! "1027" 7, md! "0x80000403" 20, md! "MCM" 5, md! "Mochimo" 27],
  [md! "1028" 7, md! "0x80000404" 20, md! "PLS" 5, md! "Pulse Coin" 24],
  [md! "1032" 7, md! "0x80000408" 20, md! "BTCR" 4, md! "BTCR" 30]]

/-- bip44/slip-0044.md:1025-1088. -/
def c16 : List MdLine := [
  [md! "1042" 7, md! "0x80000412" 20, md! "MFID" 4, md! "Moonfish ID" 23],
  [md! "1111" 7, md! "0x80000457" 20, md! "BBC" 5, md! "Big Bitcoin" 23],
  [md! "1116" 7, md! "0x8000045c" 20, md! "CORE" 4, md! "Core" 30],
  [md! "1120" 7, md! "0x80000460" 20, md! "RISE" 4, md! "RISE" 30],
  [md! "1122" 7, md! "0x80000462" 20, md! "CMT" 5, md! "CyberMiles Token" 18],
  [md! "1128" 7, md! "0x80000468" 20, md! "ETSC" 4, md! "Ethereum Social" 19],
  [md! "1129" 7, md! "0x80000469" 20, md! "DFI" 5, md! "DeFiChain" 25],
  [md! "1130" 7, md! "0x8000046a" 20, md! "DFI" 5, md! "DeFiChain EVM Network" 13],
  [md! "1137" 7, md! "0x80000471" 20, md! "$DAG" 4, md! "Constellation Labs" 16],
  [md! "1145" 7, md! "0x80000479" 20, md! "CDY" 5, md! "Bitcoin Candy" 21],
  [md! "1155" 7, md! "0x80000483" 20, md! "ENJ" 5, md! "Enjin Coin" 24],
  [md! "1170" 7, md! "0x80000492" 20, md! "HOO" 5, md! "Hoo Smart Chain" 19],
  [md! "1234" 7, md! "0x800004d2" 20, md! "ALPH" 4, md! "Alephium" 26],
  [md! "1236" 7, md! "0x800004d4" 20, md! "" 8, md! "Masca" 29],
  [md! "1237" 7, md! "0x800004d5" 20, md! "" 8, md! "Nostr" 29],
  [md! "1280" 7, md! "0x80000500" 20, md! "" 8, md! "Kudos Setler" 22],
  [md! "1284" 7, md! "0x80000504" 20, md! "GLMR" 4, md! "Moonbeam" 26],
  [md! "1285" 7, md! "0x80000505" 20, md! "MOVR" 4, md! "Moonriver" 25],
  [md! "1298" 7, md! "0x80000512" 20, md! "WPC" 5, md! "Wpc" 31],
  [md! "1308" 7, md! "0x8000051c" 20, md! "WEI" 5, md! "WEI" 31],
  [md! "1337" 7, md! "0x80000539" 20, md! "DFC" 5, md! "Defcoin" 27],
  [md! "1348" 7, md! "0x80000544" 20, md! "ISLM" 4, md! "IslamicCoin" 23],
  [md! "1397" 7, md! "0x80000575" 20, md! "HYC" 5, md! "Hycon" 29],
  [md! "1410" 7, md! "0x80000582" 20, md! "TENTSLP" 1, md! "TENT Simple Ledger Protocol" 7],
  [md! "1510" 7, md! "0x800005e6" 20, md! "XSC" 5, md! "XT Smart Chain" 20],
  [md! "1512" 7, md! "0x800005e8" 20, md! "AAC" 5, md! "Double-A Chain" 20],
  [md! "1524" 7, md! "0x800005f4" 20, md! "" 8, md! "Taler" 29],
  [md! "1533" 7, md! "0x800005fd" 20, md! "BEAM" 4, md! "Beam" 30],
  [md! "1551" 7, md! "0x8000060f" 20, md! "SDK" 5, md! "Sovereign SDK" 21],
  [md! "1555" 7, md! "0x80000613" 20, md! "APC" 5, md! "Apc Chain" 25],
  [md! "1616" 7, md! "0x80000650" 20, md! "ELF" 5, md! "AELF" 30],
  [md! "1618" 7, md! "0x80000652" 20, md! "AUDL" 4, md! "AUDL" 30],
  [md! "1620" 7, md! "0x80000654" 20, md! "ATH" 5, md! "Atheios" 27],
  [md! "1627" 7, md! "0x8000065b" 20, md! "LUME" 4, md! "Lume Web" 26],
  [md! "1642" 7, md! "0x8000066a" 20, md! "NEW" 5, md! "Newton" 28],
  [md! "1657" 7, md! "0x80000679" 20, md! "BTA" 5, md! "Btachain" 26],
  [md! "1668" 7, md! "0x80000684" 20, md! "NEOX" 4, md! "Neoxa" 29],
  [md! "1669" 7, md! "0x80000685" 20, md! "MEWC" 4, md! "Meowcoin" 26],
  [md! "1688" 7, md! "0x80000698" 20, md! "BCX" 5, md! "BitcoinX" 26],
  [md! "1729" 7, md! "0x800006c1" 20, md! "XTZ" 5, md! "Tezos" 29],
  [md! "1776" 7, md! "0x800006f0" 20, md! "LBTC" 4, md! "Liquid BTC" 24],
  [md! "1777" 7, md! "0x800006f1" 20, md! "BBP" 5, md! "Biblepay" 26],
  [md! "1784" 7, md! "0x800006f8" 20, md! "JPYS" 4, md! "JPY Stablecoin" 20],
  [md! "1789" 7, md! "0x800006fd" 20, md! "VEGA" 4, md! "Vega Protocol" 21],
  [md! "1815" 7, md! "0x80000717" 20, md! "ADA" 5, md! "Cardano" 27],
  [md! "1818" 7, md! "0x8000071a" 20, md! "CUBE" 4, md! "Cube Chain Native Token" 11],
  [md! "1856" 7, md! "0x80000743" 20, md! "TES" 5, md! "Teslacoin" 25],
  [md! "1888" 7, md! "0x80000760" 20, md! "ZTX" 5, md! "Zetrix" 28],
  [md! "1899" 7, md! "0x8000076b" 20, md! "XEC" 5, md! "eCash token" 23],
  [md! "1901" 7, md! "0x8000076d" 20, md! "CLC" 5, md! "Classica" 26],
  [md! "1907" 7, md! "0x80000773" 20, md! "BITCI" 3, md! "Bitcicoin" 25],
  [md! "1919" 7, md! "0x8000077f" 20, md! "VIPS" 4, md! "VIPSTARCOIN" 23],
  [md! "1926" 7, md! "0x80000786" 20, md! "CITY" 4, md! "City Coin" 25],
  [md! "1955" 7, md! "0x800007a3" 20, md! "XX" 6, md! "xx coin" 27],
  [md! "1977" 7, md! "0x800007b9" 20, md! "XMX" 5, md! "Xuma" 30],
  [md! "1984" 7, md! "0x800007c0" 20, md! "TRTL" 4, md! "TurtleCoin" 24],
  [md! "1985" 7, md! "0x800007c1" 20, md! "SLRT" 4, md! "Solarti Chain" 21],
  [md! "1986" 7, md! "0x800007c2" 20, md! "QTH" 5, md! "Qing Tong Horizon" 17],
  [md! "1987" 7, md! "0x800007c3" 20, md! "EGEM" 4, md! "EtherGem" 26],
  [md! "1988" 7, md! "0x800007c4" 20, md! "MIRA" 4, md! "Mira Chain" 24],
  [md! "1989" 7, md! "0x800007c5" 20, md! "HODL" 4, md! "HOdlcoin" 26],
  [md! "1990" 7, md! "0x800007c6" 20, md! "PHL" 5, md! "Placeholders" 22],
  [md! "1991" 7, md! "0x800007c7" 20, md! "SC" 6, md! "Sia" 31],
  [md! "1996" 7, md! "0x800007cc" 20, md! "MYT" 5, md! "Mineyourtime" 22]]

/-- bip44/slip-0044.md:1089-1152. -/
def c17 : List MdLine := [
  [md! "1997" 7, md! "0x800007cd" 20, md! "POLIS" 3, md! "Polis" 29],
  [md! "1998" 7, md! "0x800007ce" 20, md! "XMCC" 4, md! "Monoeci" 27],
  [md! "1999" 7, md! "0x800007cf" 20, md! "COLX" 4, md! "ColossusXT" 24],
  [md! "2000" 7, md! "0x800007d0" 20, md! "GIN" 5, md! "GinCoin" 27],
  [md! "2001" 7, md! "0x800007d1" 20, md! "MNP" 5, md! "MNPCoin" 27],
  [md! "2002" 7, md! "0x800007d2" 20, md! "MLN" 5, md! "Miraland" 26],
  [md! "2017" 7, md! "0x800007e1" 20, md! "KIN" 5, md! "Kin" 31],
  [md! "2018" 7, md! "0x800007e2" 20, md! "EOSC" 4, md! "EOSClassic" 24],
  [md! "2019" 7, md! "0x800007e3" 20, md! "GBT" 5, md! "GoldBean Token" 20],
  [md! "2020" 7, md! "0x800007e4" 20, md! "PKC" 5, md! "PKC" 31],
  [md! "2021" 7, md! "0x800007e5" 20, md! "SKT" 5, md! "Sukhavati" 25],
  [md! "2024" 7, md! "0x800007e8" 20, md! "USBC" 4, md! "Universal Ledger USBC" 13],
  [md! "2022" 7, md! "0x800007e6" 20, md! "XHT" 5, md! "Xinghuo Token" 21],
  [md! "2023" 7, md! "0x800007e7" 20, md! "COC" 5, md! "Chat On Chain" 21],
  [md! "2046" 7, md! "0x800007fe" 20, md! "ANY" 5, md! "Any" 31],
  [md! "2048" 7, md! "0x80000800" 20, md! "MCASH" 3, md! "MCashChain" 24],
  [md! "2049" 7, md! "0x80000801" 20, md! "TRUE" 4, md! "TrueChain" 25],
  [md! "2050" 7, md! "0x80000802" 20, md! "MOVO" 4, md! "Movo Smart Chain" 18],
  [md! "2086" 7, md! "0x80000826" 20, md! "KILT" 4, md! "KILT Spiritnet" 20],
  [md! "2109" 7, md! "0x8000083d" 20, md! "SAMA" 4, md! "Exosama Network" 19],
  [md! "2112" 7, md! "0x80000840" 20, md! "IoTE" 4, md! "IoTE" 30],
  [md! "2125" 7, md! "0x8000084d" 20, md! "BAY" 5, md! "BitBay" 28],
  [md! "2137" 7, md! "0x80000859" 20, md! "XRG" 5, md! "Ergon" 29],
  [md! "2182" 7, md! "0x80000888" 20, md! "CHZ" 5, md! "Chiliz" 28],
  [md! "2199" 7, md! "0x80000897" 20, md! "SAMA" 4, md! "Moonsama Network" 18],
  [md! "2221" 7, md! "0x800008ad" 20, md! "ASK" 5, md! "ASK" 31],
  [md! "2222" 7, md! "0x800008ae" 20, md! "CWEB" 4, md! "Coinweb" 27],
  [md! "2285" 7, md! "0x800008ed" 20, md! "" 8, md! "Qiyi Chain" 24],
  [md! "2301" 7, md! "0x800008fd" 20, md! "QTUM" 4, md! "QTUM" 30],
  [md! "2302" 7, md! "0x800008fe" 20, md! "ETP" 5, md! "Metaverse" 25],
  [md! "2303" 7, md! "0x800008ff" 20, md! "GXC" 5, md! "GXChain" 27],
  [md! "2304" 7, md! "0x80000900" 20, md! "CRP" 5, md! "CranePay" 26],
  [md! "2305" 7, md! "0x80000901" 20, md! "ELA" 5, md! "Elastos" 27],
  [md! "2338" 7, md! "0x80000922" 20, md! "SNOW" 4, md! "Snowblossom" 23],
  [md! "2365" 7, md! "0x8000093d" 20, md! "XIN" 5, md! "Mixin" 29],
  [md! "2500" 7, md! "0x800009c4" 20, md! "NEXI" 4, md! "Nexi" 30],
  [md! "2570" 7, md! "0x80000a0a" 20, md! "AOA" 5, md! "Aurora" 28],
  [md! "2718" 7, md! "0x80000a9e" 20, md! "NAS" 5, md! "Nebulas" 27],
  [md! "2894" 7, md! "0x80000b4e" 20, md! "REOSC" 3, md! "REOSC Ecosystem" 19],
  [md! "2941" 7, md! "0x80000b7d" 20, md! "BND" 5, md! "Blocknode" 25],
  [md! "3000" 7, md! "0x80000bb8" 20, md! "SM" 6, md! "Stealth Message" 19],
  [md! "3003" 7, md! "0x80000bbb" 20, md! "LUX" 5, md! "LUX" 31],
  [md! "3030" 7, md! "0x80000bd6" 20, md! "HBAR" 4, md! "Hedera HBAR" 23],
  [md! "3077" 7, md! "0x80000c05" 20, md! "COS" 5, md! "Contentos" 25],
  [md! "3276" 7, md! "0x80000ccc" 20, md! "CCC" 5, md! "CodeChain" 25],
  [md! "3333" 7, md! "0x80000d05" 20, md! "SXP" 5, md! "Solar" 29],
  [md! "3377" 7, md! "0x80000d31" 20, md! "ROI" 5, md! "ROIcoin" 27],
  [md! "3381" 7, md! "0x80000d35" 20, md! "DYN" 5, md! "Dynamic" 27],
  [md! "3383" 7, md! "0x80000d37" 20, md! "SEQ" 5, md! "Sequence" 26],
  [md! "3501" 7, md! "0x80000dad" 20, md! "JFIN" 4, md! "JFIN Coin" 25],
  [md! "3552" 7, md! "0x80000de0" 20, md! "DEO" 5, md! "Destocoin" 25],
  [md! "3564" 7, md! "0x80000dec" 20, md! "DST" 5, md! "DeStream" 26],
  [md! "3601" 7, md! "0x80000e11" 20, md! "CY" 6, md! "Cybits" 28],
  [md! "3757" 7, md! "0x80000ead" 20, md! "MPC" 5, md! "Partisia Blockchain" 15],
  [md! "4040" 7, md! "0x80000fc8" 20, md! "FC8" 5, md! "FCH Network" 23],
  [md! "4096" 7, md! "0x80001000" 20, md! "YEE" 5, md! "YeeCo" 29],
  [md! "4218" 7, md! "0x8000107a" 20, md! "IOTA" 4, md! "IOTA" 30],
  [md! "4219" 7, md! "0x8000107b" 20, md! "SMR" 5, md! "Shimmer" 27],
  [md! "4242" 7, md! "0x80001092" 20, md! "AXE" 5, md! "Axe" 31],
  [md! "4343" 7, md! "0x800010f7" 20, md! "XYM" 5, md! "Symbol" 28],
  [md! "4444" 7, md! "0x8000115c" 20, md! "C4E" 5, md! "Chain4Energy" 22],
  [md! "4919" 7, md! "0x80001337" 20, md! "XVM" 5, md! "Venidium" 26],
  [md! "4999" 7, md! "0x80001387" 20, md! "BXN" 5, md! "BlackFort Exchange Network" 8],
  [md! "5000" 7, md! "0x80001388" 20, md! "V12" 5, md! "Vet The Vote" 22]]

/-- bip44/slip-0044.md:1153-1216. -/
def c18 : List MdLine := [
  [md! "5006" 7, md! "0x8000138e" 20, md! "SBC" 5, md! "Senior Blockchain" 17],
  [md! "5248" 7, md! "0x80001480" 20, md! "FIC" 5, md! "FIC" 31],
  [md! "5353" 7, md! "0x800014e9" 20, md! "HNS" 5, md! "Handshake" 25],
  [md! "5404" 7, md! "0x8000151c" 20, md! "ISK" 5, md! "ISKRA" 29],
  [md! "5467" 7, md! "0x8000155b" 20, md! "ALTME" 3, md! "ALTME" 29],
  [md! "5555" 7, md! "0x800015b3" 20, md! "FUND" 4, md! "Unification" 23],
  [md! "5757" 7, md! "0x8000167d" 20, md! "STX" 5, md! "Stacks" 28],
  [md! "5895" 7, md! "0x80001707" 20, md! "VOW" 5, md! "VowChain VOW" 22],
  [md! "5920" 7, md! "0x80001720" 20, md! "SLU" 5, md! "SILUBIUM" 26],
  [md! "5995" 7, md! "0x8000176B" 20, md! "DUSK" 4, md! "Dusk Network" 22],
  [md! "6060" 7, md! "0x800017ac" 20, md! "GO" 6, md! "GoChain GO" 24],
  [md! "6144" 7, md! "0x80001800" 20, md! "DTS" 5, md! "Datos" 29],
  [md! "6174" 7, md! "0x8000181e" 20, md! "MOI" 5, md! "My Own Internet" 19],
  [md! "6278" 7, md! "0x80001886" 20, md! "STEAMX" 2, md! "Rails Network Mainnet" 13],
  [md! "6532" 7, md! "0x80001984" 20, md! "UM" 6, md! "Penumbra" 26],
  [md! "6599" 7, md! "0x800019c7" 20, md! "RSC" 5, md! "Royal Sports City" 17],
  [md! "6666" 7, md! "0x80001a0a" 20, md! "BPA" 5, md! "Bitcoin Pizza" 21],
  [md! "6688" 7, md! "0x80001a20" 20, md! "SAFE" 4, md! "SAFE" 30],
  [md! "6779" 7, md! "0x80001a7b" 20, md! "COTI" 4, md! "COTI" 30],
  [md! "6969" 7, md! "0x80001b39" 20, md! "ROGER" 3, md! "TheHolyrogerCoin" 18],
  [md! "7000" 7, md! "0x80001b58" 20, md! "ZETA" 4, md! "ZetaChain" 25],
  [md! "7027" 7, md! "0x80001b73" 20, md! "ELLA" 4, md! "Ella the heart" 20],
  [md! "7028" 7, md! "0x80001b74" 20, md! "AA" 6, md! "Arthera" 27],
  [md! "7091" 7, md! "0x80001bb3" 20, md! "TOPL" 4, md! "Topl" 30],
  [md! "7331" 7, md! "0x80001ca3" 20, md! "KLY" 5, md! "KLYNTAR" 27],
  [md! "7341" 7, md! "0x80001cad" 20, md! "SHFT" 4, md! "Shyft" 29],
  [md! "7518" 7, md! "0x80001d5e" 20, md! "MEV" 5, md! "MEVerse" 27],
  [md! "7576" 7, md! "0x80001d98" 20, md! "ADIL" 4, md! "ADIL Chain" 24],
  [md! "7777" 7, md! "0x80001e61" 20, md! "BTV" 5, md! "Bitvote" 27],
  [md! "7779" 7, md! "0x80001e63" 20, md! "CPV" 5, md! "Compverse" 25],
  [md! "8000" 7, md! "0x80001f40" 20, md! "SKY" 5, md! "Skycoin" 27],
  [md! "8080" 7, md! "0x80001f90" 20, md! "" 8, md! "DSRV" 30],
  [md! "8181" 7, md! "0x80001ff5" 20, md! "BOC" 5, md! "BeOne Chain" 23],
  [md! "8192" 7, md! "0x80002000" 20, md! "PAC" 5, md! "pacprotocol" 23],
  [md! "8217" 7, md! "0x80002019" 20, md! "KLAY" 4, md! "KLAY" 30],
  [md! "8339" 7, md! "0x80002093" 20, md! "BTQ" 5, md! "BitcoinQuark" 22],
  [md! "8444" 7, md! "0x800020fc" 20, md! "XCH" 5, md! "Chia" 30],
  [md! "8520" 7, md! "0x80002148" 20, md! "---" 5, md! "reserved" 26],
  [md! "8680" 7, md! "0x800021e8" 20, md! "PLMNT" 3, md! "Planetmint" 24],
  [md! "8866" 7, md! "0x800022a2" 20, md! "GGX" 5, md! "Golden Gate" 23],
  [md! "8886" 7, md! "0x800022b6" 20, md! "GGXT" 4, md! "Golden Gate Sydney" 16],
  [md! "8888" 7, md! "0x800022b8" 20, md! "SBTC" 4, md! "Super Bitcoin" 21],
  [md! "8964" 7, md! "0x80002304" 20, md! "NULS" 4, md! "NULS" 30],
  [md! "8997" 7, md! "0x80002325" 20, md! "BBC" 5, md! "Babacoin" 26],
  [md! "8998" 7, md! "0x80002326" 20, md! "JGC" 5, md! "JagoanCoin" 24],
  [md! "8999" 7, md! "0x80002327" 20, md! "BTP" 5, md! "Bitcoin Pay" 23],
  [md! "9000" 7, md! "0x80002328" 20, md! "AVAX" 4, md! "Avalanche" 25],
  [md! "9001" 7, md! "0x80002329" 20, md! "ARB1" 4, md! "Arbitrum" 26],
  [md! "9002" 7, md! "0x8000232a" 20, md! "BOBA" 4, md! "Boba" 30],
  [md! "9003" 7, md! "0x8000232b" 20, md! "LOOP" 4, md! "Loopring" 26],
  [md! "9004" 7, md! "0x8000232c" 20, md! "STRK" 4, md! "StarkNet" 26],
  [md! "9005" 7, md! "0x8000232d" 20, md! "AVAXC" 3, md! "Avalanche C-Chain" 17],
  [md! "9006" 7, md! "0x8000232e" 20, md! "BSC" 5, md! "Binance Smart Chain" 15],
  [md! "9797" 7, md! "0x80002645" 20, md! "NRG" 5, md! "Energi" 28],
  [md! "9888" 7, md! "0x800026a0" 20, md! "BTF" 5, md! "Bitcoin Faith" 21],
  [md! "9999" 7, md! "0x8000270f" 20, md! "GOD" 5, md! "Bitcoin God" 23],
  [md! "10000" 6, md! "0x80002710" 20, md! "FO" 6, md! "FIBOS" 29],
  [md! "10111" 6, md! "0x8000277f" 20, md! "DHP" 5, md! "dHealth" 27],
  [md! "10226" 6, md! "0x800027f2" 20, md! "RTM" 5, md! "Raptoreum" 25],
  [md! "10242" 6, md! "0x80002802" 20, md! "AA" 6, md! "Arthera" 27],
  [md! "10291" 6, md! "0x80002833" 20, md! "XRC" 5, md! "XRhodium" 26],
  [md! "10507" 6, md! "0x8000290b" 20, md! "NUM" 5, md! "Numbers Protocol" 18],
  [md! "10605" 6, md! "0x8000296d" 20, md! "XPI" 5, md! "Lotus" 29],
  [md! "11111" 6, md! "0x80002b67" 20, md! "ESS" 5, md! "Essentia One" 22]]

/-- bip44/slip-0044.md:1217-1280. -/
def c19 : List MdLine := [
  [md! "11742" 6, md! "0x80002dde" 20, md! "VARCH" 3, md! "InvArch" 27],
  [md! "11743" 6, md! "0x80002ddf" 20, md! "TNKR" 4, md! "Tinkernet" 25],
  [md! "12345" 6, md! "0x80003039" 20, md! "IPOS" 4, md! "IPOS" 30],
  [md! "12586" 6, md! "0x8000312a" 20, md! "MINA" 4, md! "Mina" 30],
  [md! "13107" 6, md! "0x80003333" 20, md! "BTY" 5, md! "BitYuan" 27],
  [md! "13108" 6, md! "0x80003334" 20, md! "YCC" 5, md! "Yuan Chain Coin" 19],
  [md! "14001" 6, md! "0x800036b1" 20, md! "WAX" 5, md! "Worldwide Asset Exchange" 10],
  [md! "15845" 6, md! "0x80003de5" 20, md! "SDGO" 4, md! "SanDeGo" 27],
  [md! "16181" 6, md! "0x80003f35" 20, md! "XTX" 5, md! "Totem Live Network" 16],
  [md! "16754" 6, md! "0x80004172" 20, md! "ARDR" 4, md! "Ardor" 29],
  [md! "18000" 6, md! "0x80004650" 20, md! "MTR" 5, md! "Meter" 29],
  [md! "19165" 6, md! "0x80004add" 20, md! "SAFE" 4, md! "Safecoin" 26],
  [md! "19167" 6, md! "0x80004adf" 20, md! "FLUX" 4, md! "Flux" 30],
  [md! "19169" 6, md! "0x80004ae1" 20, md! "RITO" 4, md! "Ritocoin" 26],
  [md! "19788" 6, md! "0x80004d4c" 20, md! "ML" 6, md! "Mintlayer" 25],
  [md! "20036" 6, md! "0x80004e44" 20, md! "XND" 5, md! "ndau" 30],
  [md! "21004" 6, md! "0x8000520c" 20, md! "C4EI" 4, md! "c4ei" 30],
  [md! "21888" 6, md! "0x80005580" 20, md! "PAC" 5, md! "Pactus" 28],
  [md! "22504" 6, md! "0x800057e8" 20, md! "PWR" 5, md! "PWRcoin" 27],
  [md! "23000" 6, md! "0x800059d8" 20, md! "EPIC" 4, md! "Epic Cash" 25],
  [md! "25252" 6, md! "0x800062a4" 20, md! "BELL" 4, md! "Bellcoin" 26],
  [md! "25718" 6, md! "0x80006476" 20, md! "CHX" 5, md! "Own" 31],
  [md! "29223" 6, md! "0x80007227" 20, md! "NEXA" 4, md! "Nexa" 30],
  [md! "30001" 6, md! "0x80007531" 20, md! "---" 5, md! "reserved" 26],
  [md! "31102" 6, md! "0x8000797e" 20, md! "ESN" 5, md! "EtherSocial Network" 15],
  [md! "31337" 6, md! "0x80007a69" 20, md! "" 8, md! "ThePower" 26],
  [md! "33416" 6, md! "0x80008288" 20, md! "TEO" 5, md! "Trust Eth reOrigin" 16],
  [md! "33878" 6, md! "0x80008456" 20, md! "BTCS" 4, md! "Bitcoin Stake" 21],
  [md! "34952" 6, md! "0x80008888" 20, md! "BTT" 5, md! "ByteTrade" 25],
  [md! "37992" 6, md! "0x80009468" 20, md! "FXTC" 4, md! "FixedTradeCoin" 20],
  [md! "39321" 6, md! "0x80009999" 20, md! "AMA" 5, md! "Amabig" 28],
  [md! "42069" 6, md! "0x8000a455" 20, md! "FACT" 4, md! "FACT0RN" 27],
  [md! "43028" 6, md! "0x8000a814" 20, md! "AXIV" 4, md! "AXIV" 30],
  [md! "47803" 6, md! "0x8000babb" 20, md! "BAX" 5, md! "BAX" 31],
  [md! "49262" 6, md! "0x8000c06e" 20, md! "EVE" 5, md! "evan" 30],
  [md! "49344" 6, md! "0x8000c0c0" 20, md! "STASH" 3, md! "STASH" 29],
  [md! "52752" 6, md! "0x8000ce10" 20, md! "CELO" 4, md! "Celo" 30],
  [md! "61616" 6, md! "0x8000f0b0" 20, md! "TH" 6, md! "TianHe" 28],
  [md! "65536" 6, md! "0x80010000" 20, md! "KETH" 4, md! "Krypton World" 21],
  [md! "69420" 6, md! "0x80010f2c" 20, md! "GRLC" 4, md! "Garlicoin" 25],
  [md! "70007" 6, md! "0x80011177" 20, md! "GWL" 5, md! "Gewel" 29],
  [md! "77777" 6, md! "0x80012fd1" 20, md! "ZYN" 5, md! "Wethio" 28],
  [md! "88888" 6, md! "0x80015b38" 20, md! "RYO" 5, md! "c0ban" 29],
  [md! "99999" 6, md! "0x8001869f" 20, md! "WICC" 4, md! "Waykichain" 24],
  [md! "100500" 5, md! "0x80018894" 20, md! "HOME" 4, md! "HomeCoin" 26],
  [md! "101010" 5, md! "0x80018a92" 20, md! "STC" 5, md! "Starcoin" 26],
  [md! "105105" 5, md! "0x80019a91" 20, md! "STRAX" 3, md! "Strax" 29],
  [md! "111111" 5, md! "0x8001b207" 20, md! "KAS" 5, md! "Kaspa" 29],
  [md! "161803" 5, md! "0x8002780b" 20, md! "APTA" 4, md! "Bloqs4Good" 24],
  [md! "200625" 5, md! "0x80030fb1" 20, md! "AKA" 5, md! "Akroma" 28],
  [md! "200665" 5, md! "0x80011000" 20, md! "GENOM" 3, md! "GENOM" 29],
  [md! "224433" 5, md! "0x80036cb1" 20, md! "CONET" 3, md! "CONET Holesky Network" 13],
  [md! "246529" 5, md! "0x8003c301" 20, md! "ATS" 5, md! "ARTIS sigma1" 22],
  [md! "261131" 5, md! "0x8003fc0b" 20, md! "ZAMA" 4, md! "Zama" 30],
  [md! "314159" 5, md! "0x8004cb2f" 20, md! "PI" 6, md! "Pi Network" 24],
  [md! "333332" 5, md! "0x80051614" 20, md! "VALUE" 3, md! "Value Chain" 23],
  [md! "333333" 5, md! "0x80051615" 20, md! "3333" 4, md! "Pi Value Consensus" 16],
  [md! "424242" 5, md! "0x80067932" 20, md! "X42" 5, md! "x42" 31],
  [md! "534352" 5, md! "0x80082750" 20, md! "SCR" 5, md! "Scroll" 28],
  [md! "666666" 5, md! "0x800a2c2a" 20, md! "VITE" 4, md! "Vite" 30],
  [md! "888888" 5, md! "0x800d9038" 20, md! "SEA" 5, md! "Second Exchange Alliance" 10],
  [md! "999999" 5, md! "0x800c9061" 20, md! "WTC" 5, md! "WaltonChain" 23],
  [md! "1048576" 4, md! "0x80100000" 20, md! "AMAX" 4, md! "Armonia Meta Chain" 16],
  [md! "1171337" 4, md! "0x8011df89" 20, md! "ILT" 5, md! "iOlite" 28]]

/-- bip44/slip-0044.md:1281-1312. -/
def c20 : List MdLine := [
  [md! "1313114" 4, md! "0x8014095a" 20, md! "ETHO" 4, md! "Etho Protocol" 21],
  [md! "1313500" 4, md! "0x80140adc" 20, md! "XERO" 4, md! "Xerom" 29],
  [md! "1712144" 4, md! "0x801a2010" 20, md! "LAX" 5, md! "LAPO" 30],
  [md! "3924011" 4, md! "0x803be02b" 20, md! "EPK" 5, md! "EPIK Protocol" 21],
  [md! "4741444" 4, md! "0x80485944" 20, md! "HYD" 5, md! "Hydra Token" 23],
  [md! "5249353" 4, md! "0x80501949" 20, md! "BCO" 5, md! "BitcoinOre" 24],
  [md! "5249354" 4, md! "0x8050194a" 20, md! "BHD" 5, md! "BitcoinHD" 25],
  [md! "5264462" 4, md! "0x8050544e" 20, md! "PTN" 5, md! "PalletOne" 25],
  [md! "5655640" 4, md! "0x80564c58" 20, md! "VLX" 5, md! "Velas" 29],
  [md! "5718350" 4, md! "0x8057414e" 20, md! "WAN" 5, md! "Wanchain" 26],
  [md! "5741564" 4, md! "0x80579bfc" 20, md! "WAVES" 3, md! "Waves" 29],
  [md! "5741565" 4, md! "0x80579bfd" 20, md! "WEST" 4, md! "Waves Enterprise" 18],
  [md! "6382179" 4, md! "0x80616263" 20, md! "ABC" 5, md! "Abcmint" 27],
  [md! "6517357" 4, md! "0x8063726d" 20, md! "CRM" 5, md! "Creamcoin" 25],
  [md! "7171666" 4, md! "0x806d6e52" 20, md! "BROCK" 3, md! "Bitrock" 27],
  [md! "7562605" 4, md! "0x8073656d" 20, md! "SEM" 5, md! "Semux" 29],
  [md! "7567736" 4, md! "0x80737978" 20, md! "ION" 5, md! "ION" 31],
  [md! "7777777" 4, md! "0x8076adf1" 20, md! "FCT" 5, md! "FirmaChain" 24],
  [md! "7825266" 4, md! "0x80776772" 20, md! "WGR" 5, md! "WGR" 31],
  [md! "7825267" 4, md! "0x80776773" 20, md! "OBSR" 4, md! "OBServer" 26],
  [md! "8163271" 4, md! "0x807c8fc7" 20, md! "AFS" 5, md! "ANFS" 30],
  [md! "15118976" 3, md! "0x80e6b280" 20, md! "XDS" 5, md! "XDS" 31],
  [md! "61717561" 3, md! "0x83adbc39" 20, md! "AQUA" 4, md! "Aquachain" 25],
  [md! "88888888" 3, md! "0x854c5638" 20, md! "HATCH" 3, md! "Hatch" 29],
  [md! "91927009" 3, md! "0x857ab1e1" 20, md! "kUSD" 4, md! "kUSD" 30],
  [md! "99999996" 3, md! "0x85f5e0fc" 20, md! "GENS" 4, md! "GENS" 30],
  [md! "99999997" 3, md! "0x85f5e0fd" 20, md! "EQ" 6, md! "EQ" 32],
  [md! "99999998" 3, md! "0x85f5e0fe" 20, md! "FLUID" 3, md! "Fluid Chains" 22],
  [md! "99999999" 3, md! "0x85f5e0ff" 20, md! "QKC" 5, md! "QuarkChain" 24],
  [md! "11259375" 3, md! "0x80abcdef" 20, md! "LBR" 5, md! "0L" 32],
  [md! "608589380" 2, md! "0xa4465644" 20, md! "FVDC" 4, md! "ForumCoin" 25],
  [md! "1179993420" 1, md! "0xc655454c" 20, md! "" 8, md! "Fuel" 30]]

/-- The whole file. -/
def lines : List MdLine :=
  c0 ++ (c1 ++ (c2 ++ (c3 ++ (c4 ++ (c5 ++ (c6 ++ (c7 ++ (c8 ++ (c9 ++ (c10 ++ (c11 ++ (c12 ++ (c13 ++ (c14 ++ (c15 ++ (c16 ++ (c17 ++ (c18 ++ (c19 ++ (c20))))))))))))))))))))

end Bips.Data.Slip44
