import Verif.Go.Bytes

/-!
# bip32/slip-0132.md

Generated by tools/gen_slip132.py, one line of the file per line, from line 6, behind the header, to the last line that
is not empty.
-/

namespace Bips.Data.Slip132

/-- bip32/slip-0132.md:6-34. -/
def lines : List Bytes := [
  str "Bitcoin                                    `0x0488b21e` - `xpub`  `0x0488ade4` - `xprv`  P2PKH or P2SH                     m/44'/0'    ",
  str "Bitcoin                                    `0x049d7cb2` - `ypub`  `0x049d7878` - `yprv`  P2WPKH in P2SH                    m/49'/0'    ",
  str "Bitcoin                                    `0x04b24746` - `zpub`  `0x04b2430c` - `zprv`  P2WPKH                            m/84'/0'    ",
  str "Bitcoin                                    `0x0295b43f` - `Ypub`  `0x0295b005` - `Yprv`  Multi-signature P2WSH in P2SH     -           ",
  str "Bitcoin                                    `0x02aa7ed3` - `Zpub`  `0x02aa7a99` - `Zprv`  Multi-signature P2WSH             -           ",
  str "Bitcoin Testnet                            `0x043587cf` - `tpub`  `0x04358394` - `tprv`  P2PKH or P2SH                     m/44'/1'    ",
  str "Bitcoin Testnet                            `0x044a5262` - `upub`  `0x044a4e28` - `uprv`  P2WPKH in P2SH                    m/49'/1'    ",
  str "Bitcoin Testnet                            `0x045f1cf6` - `vpub`  `0x045f18bc` - `vprv`  P2WPKH                            m/84'/1'    ",
  str "Bitcoin Testnet                            `0x024289ef` - `Upub`  `0x024285b5` - `Uprv`  Multi-signature P2WSH in P2SH     -           ",
  str "Bitcoin Testnet                            `0x02575483` - `Vpub`  `0x02575048` - `Vprv`  Multi-signature P2WSH             -           ",
  str "Groestlcoin                                `0x0488b21e` - `xpub`  `0x0488ade4` - `xprv`  P2PKH or P2SH                     m/44'/17'   ",
  str "Groestlcoin                                `0x049d7cb2` - `ypub`  `0x049d7878` - `yprv`  P2WPKH in P2SH                    m/49'/17'   ",
  str "Groestlcoin                                `0x04b24746` - `zpub`  `0x04b2430c` - `zprv`  P2WPKH                            m/84'/17'   ",
  str "Groestlcoin                                `0x0295b43f` - `Ypub`  `0x0295b005` - `Yprv`  Multi-signature P2WSH in P2SH     -           ",
  str "Groestlcoin                                `0x02aa7ed3` - `Zpub`  `0x02aa7a99` - `Zprv`  Multi-signature P2WSH             -           ",
  str "Groestlcoin Testnet                        `0x043587cf` - `tpub`  `0x04358394` - `tprv`  P2PKH or P2SH                     m/44'/1'    ",
  str "Groestlcoin Testnet                        `0x044a5262` - `upub`  `0x044a4e28` - `uprv`  P2WPKH in P2SH                    m/49'/1'    ",
  str "Groestlcoin Testnet                        `0x045f1cf6` - `vpub`  `0x045f18bc` - `vprv`  P2WPKH                            m/84'/1'    ",
  str "Groestlcoin Testnet                        `0x024289ef` - `Upub`  `0x024285b5` - `Uprv`  Multi-signature P2WSH in P2SH     -           ",
  str "Groestlcoin Testnet                        `0x02575483` - `Vpub`  `0x02575048` - `Vprv`  Multi-signature P2WSH             -           ",
  str "Litecoin                                   `0x019da462` - `Ltub`  `0x019d9cfe` - `Ltpv`  P2PKH or P2SH                     m/44'/2'    ",
  str "Litecoin                                   `0x01b26ef6` - `Mtub`  `0x01b26792` - `Mtpv`  P2WPKH in P2SH                    m/49'/2'    ",
  str "Litecoin Testnet                           `0x0436f6e1` - `ttub`  `0x0436ef7d` - `ttpv`  P2PKH or P2SH                     m/44'/1'    ",
  str "Nexa                                       `0x42696720` - `xpub`  `0x426c6b73` - `xprv`  P2PKT or P2PKH or P2SH            m/44'/29223'",
  str "Nexa Testnet                               `0x043587cf` - `xpub`  `0x04358394` - `xprv`  P2PKT or P2PKH or P2SH            m/44'/1'    ",
  str "Vertcoin                                   `0x0488b21e` - `vtcp`  `0x0488ade4` - `vtcv`  P2PKH or P2SH                     m/44'/28'   ",
  str "Polis                                      `0x03e25d7e` - `ppub`  `0x03e25945` - `pprv`  P2PKH                             m/44'/1997' ",
  str "Syscoin                                    `0x04b24746` - `zpub`  `0x04b2430c` - `zprv`  P2WPKH                            m/84'/57'   ",
  str "Syscoin                                    `0x02aa7ed3` - `Zpub`  `0x02aa7a99` - `Zprv`  Multi-signature P2WSH             -           "]

end Bips.Data.Slip132
