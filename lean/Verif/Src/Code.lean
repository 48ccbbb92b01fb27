import Verif.Src.Lang

/-!
# The functions of the repository as terms

Written by tools/gen_src.py from the text of the Go files; do not edit.
-/

namespace Bips.Src

open Bips (str)

/-- `String` (bip32/path.go:24-27). Variables: 0 `p`, 1 `reg`. -/
def bip32_Path_String : Stmt :=
  .set 1 (.lit (.str (str "\\s"))) ;;
  .ret ⟪(.lib .regexReplaceAll ⟪(.var 1), (.var 0), (.lit (.str (str "")))⟫)⟫

/-- `Formatted` (bip32/path.go:29-31). Variables: 0 `p`. -/
def bip32_Path_Formatted : Stmt :=
  .call [some 1] .bip32_Path_String ⟪(.var 0)⟫ ;;
  .ret ⟪(.var 1)⟫

/-- `IsValid` (bip32/path.go:33-36). Variables: 0 `p`, 2 `err`. -/
def bip32_Path_IsValid : Stmt :=
  .call [some 1, some 2] .bip32_Path_ValuesAtDepth ⟪(.var 0)⟫ ;;
  .ret ⟪(.lib .isNil ⟪(.var 2)⟫)⟫

/-- The body of loop 1 of `ValuesAtDepth` (bip32/path.go:45-75). -/
def bip32_Path_ValuesAtDepth_body1 : Stmt :=
  .set 6 (.lib .contains ⟪(.var 5), (.lit (.str (str "'")))⟫) ;;
  .ite (.var 6) (
    .set 7 (.lib .replaceAll ⟪(.var 5), (.lit (.str (str "'"))), (.lit (.str (str "")))⟫) ;;
    .setTuple [8, 9] (.lib .atoi ⟪(.var 7)⟫) ;;
    .ite (.not (.lib .isNil ⟪(.var 9)⟫)) (
      .ret ⟪(.var 2), (.var 9)⟫) (
      .skip) ;;
    .ite (.bin .ge (.lib (.conv .u32) ⟪(.var 8)⟫) (.lit (.u32 2147483648))) (
      .ret ⟪(.var 2), (.lit (.err (some .unSupportedOrInvalidPath)))⟫) (
      .skip) ;;
    .set 2 (.lib .snoc ⟪(.var 2), (.bin .add (.lib (.conv .u32) ⟪(.var 8)⟫) (.lit (.u32 2147483648)))⟫)) (
    .setTuple [10, 11] (.lib .atoi ⟪(.var 5)⟫) ;;
    .ite (.not (.lib .isNil ⟪(.var 11)⟫)) (
      .ret ⟪(.var 2), (.var 11)⟫) (
      .skip) ;;
    .set 2 (.lib .snoc ⟪(.var 2), (.lib (.conv .u32) ⟪(.var 10)⟫)⟫))

/-- `ValuesAtDepth` (bip32/path.go:45-75). Variables: 0 `p`, 2 `pathArr`, 4 `pth`, 5 `s`, 6 `isHardened`, 7 `fmtStr`, 8 `val`, 9 `err`, 10 `val`, 11 `err`. -/
def bip32_Path_ValuesAtDepth : Stmt :=
  .call [some 1] .bip32_Path_String ⟪(.var 0)⟫ ;;
  .ite (.not (.lib .regexMatch ⟪(.lit (.str (str "^[mM](/\\d+')*(/\\d+)*$"))), (.var 1)⟫)) (
    .ret ⟪(.lit (.list [])), (.lit (.err (some .unSupportedOrInvalidPath)))⟫) (
    .skip) ;;
  .set 2 ⟪(.lit (.u32 0))⟫ ;;
  .call [some 3] .bip32_Path_String ⟪(.var 0)⟫ ;;
  .set 4 (.lib .split ⟪(.var 3), (.lit (.str (str "/")))⟫) ;;
  .range none (some 5) (.lib .sliceFrom ⟪(.var 4), (.lit (.int 1))⟫) bip32_Path_ValuesAtDepth_body1 ;;
  .ret ⟪(.var 2), (.lit (.err none))⟫

/-- `ValueAtDepth` (bip32/path.go:81-90). Variables: 0 `p`, 1 `b`, 2 `vals`, 3 `err`. -/
def bip32_Path_ValueAtDepth : Stmt :=
  .call [some 2, some 3] .bip32_Path_ValuesAtDepth ⟪(.var 0)⟫ ;;
  .ite (.not (.lib .isNil ⟪(.var 3)⟫)) (
    .ret ⟪(.lit (.u32 0)), (.var 3)⟫) (
    .skip) ;;
  .ite (.not (.bin .lt (.var 1) (.lib (.conv .u8) ⟪(.lib .len ⟪(.var 2)⟫)⟫))) (
    .ret ⟪(.lit (.u32 0)), (.lit (.err (some .unSupportedOrInvalidPath)))⟫) (
    .skip) ;;
  .ret ⟪(.lib .index ⟪(.var 2), (.var 1)⟫), (.lit (.err none))⟫

/-- `ReplaceValueAtDepth` (bip32/path.go:91-107). Variables: 0 `p`, 1 `b`, 2 `val`, 3 `newPath`, 4 `vals`, 5 `err`, 7 `valsArr`. -/
def bip32_Path_ReplaceValueAtDepth : Stmt :=
  .set 3 (.var 0) ;;
  .call [some 4, some 5] .bip32_Path_ValuesAtDepth ⟪(.var 3)⟫ ;;
  .ite (.not (.lib .isNil ⟪(.var 5)⟫)) (
    .ret ⟪(.var 3), (.var 5)⟫) (
    .skip) ;;
  .ite (.not (.bin .lt (.var 1) (.lib (.conv .u8) ⟪(.lib .len ⟪(.var 4)⟫)⟫))) (
    .ret ⟪(.var 3), (.lit (.err (some .unSupportedOrInvalidPath)))⟫) (
    .skip) ;;
  .call [some 6] .bip32_Path_String ⟪(.var 3)⟫ ;;
  .set 7 (.lib .split ⟪(.var 6), (.lit (.str (str "/")))⟫) ;;
  .ite (.bin .ge (.var 2) (.lit (.u32 2147483648))) (
    .set 7 (.lib .setIndex ⟪(.var 7), (.var 1), (.lib .sprintf ⟪(.lit (.str (str "%d'"))), (.bin .mod (.var 2) (.lit (.u32 2147483648)))⟫)⟫)) (
    .set 7 (.lib .setIndex ⟪(.var 7), (.var 1), (.lib .sprintf ⟪(.lit (.str (str "%d"))), (.var 2)⟫)⟫)) ;;
  .ret ⟪(.lib .join ⟪(.var 7), (.lit (.str (str "/")))⟫), (.lit (.err none))⟫

/-- `hashRipeMD160` (bip32/utils.go:21-28). Variables: 0 `data`, 1 `hsr`, 2 `err`. -/
def bip32_hashRipeMD160 : Stmt :=
  .set 1 (.lit (.hash .ripemd160 [] [])) ;;
  .set 1 (.lib .hashWrite ⟪(.var 1), (.lib .toBytes ⟪(.lib .toStr ⟪(.var 0)⟫)⟫)⟫) ;;
  .set 2 (.lit (.err none)) ;;
  .ite (.not (.lib .isNil ⟪(.var 2)⟫)) (
    .ret ⟪(.lit (.bytes [])), (.var 2)⟫) (
    .skip) ;;
  .ret ⟪(.lib .hashSum ⟪(.var 1)⟫), (.lit (.err none))⟫

/-- `HashRipeMD160onSha256` (bip32/utils.go:31-39). Variables: 0 `data`, 1 `hash1`, 2 `hash2`, 3 `err`. -/
def bip32_HashRipeMD160onSha256 : Stmt :=
  .set 1 (.lib .sha256 ⟪(.var 0)⟫) ;;
  .call [some 2, some 3] .bip32_hashRipeMD160 ⟪(.lib .sliceFrom ⟪(.var 1), (.lit (.int 0))⟫)⟫ ;;
  .ite (.not (.lib .isNil ⟪(.var 3)⟫)) (
    .ret ⟪(.lit (.bytes [])), (.var 3)⟫) (
    .skip) ;;
  .ret ⟪(.var 2), (.lit (.err none))⟫

/-- `ChecksumDblSha256` (bip32/utils.go:41-44). Variables: 0 `data`, 1 `hash`. -/
def bip32_ChecksumDblSha256 : Stmt :=
  .set 1 (.lib .dblSha256 ⟪(.var 0)⟫) ;;
  .ret ⟪(.lib .slice ⟪(.var 1), (.lit (.int 0)), (.lit (.int 4))⟫), (.lit (.err none))⟫

/-- `AddChecksumDblSha256ToBytes` (bip32/utils.go:46-52). Variables: 0 `data`, 1 `checksum`, 2 `err`. -/
def bip32_AddChecksumDblSha256ToBytes : Stmt :=
  .call [some 1, some 2] .bip32_ChecksumDblSha256 ⟪(.var 0)⟫ ;;
  .ite (.not (.lib .isNil ⟪(.var 2)⟫)) (
    .ret ⟪(.lit (.bytes [])), (.var 2)⟫) (
    .skip) ;;
  .ret ⟪(.lib .append ⟪(.var 0), (.var 1)⟫), (.lit (.err none))⟫

/-- `ValidatePrivateKey` (bip32/utils.go:54-60). Variables: 0 `key`. -/
def bip32_ValidatePrivateKey : Stmt :=
  .ite (.or (.bin .eq (.lib .sprintf ⟪(.lit (.str (str "%x"))), (.var 0)⟫) (.lib .repeatStr ⟪(.lit (.str (str "0"))), (.lit (.int 64))⟫)) (.bin .ge (.lib .bytesCompare ⟪(.lib .sliceFrom ⟪(.var 0), (.lit (.int 0))⟫), (.lib .bigBytes ⟪(.glob .curveN)⟫)⟫) (.lit (.int 0)))) (
    .ret ⟪(.lit (.err (some .invalidPrivateKey)))⟫) (
    .skip) ;;
  .ret ⟪(.lit (.err none))⟫

/-- `publicKeyForPrivateKey` (bip32/utils.go:63-65). Variables: 0 `key`. -/
def bip32_publicKeyForPrivateKey : Stmt :=
  .setTuple [1, 2] (.lib .baseMult ⟪(.var 0)⟫) ;;
  .call [some 3] .bip32_compressPublicKey ⟪(.var 1), (.var 2)⟫ ;;
  .ret ⟪(.var 3)⟫

/-- `addPublicKeys` (bip32/utils.go:67-71). Variables: 0 `key1`, 1 `key2`, 2 `x1`, 3 `y1`, 4 `x2`, 5 `y2`. -/
def bip32_addPublicKeys : Stmt :=
  .call [some 2, some 3] .bip32_ExpandPublicKey ⟪(.var 0)⟫ ;;
  .call [some 4, some 5] .bip32_ExpandPublicKey ⟪(.var 1)⟫ ;;
  .setTuple [6, 7] (.lib .curveAdd ⟪(.var 2), (.var 3), (.var 4), (.var 5)⟫) ;;
  .call [some 8] .bip32_compressPublicKey ⟪(.var 6), (.var 7)⟫ ;;
  .ret ⟪(.var 8)⟫

/-- `addPrivateKeys` (bip32/utils.go:73-88). Variables: 0 `key1`, 1 `key2`, 2 `key1Int`, 3 `key2Int`, 4 `b`, 5 `extra`. -/
def bip32_addPrivateKeys : Stmt :=
  .set 2 (.lit (.big 0)) ;;
  .set 3 (.lit (.big 0)) ;;
  .set 2 (.lib .bigSetBytes ⟪(.var 0)⟫) ;;
  .set 3 (.lib .bigSetBytes ⟪(.var 1)⟫) ;;
  .set 2 (.lib .bigAdd ⟪(.var 2), (.var 3)⟫) ;;
  .set 2 (.lib .bigMod ⟪(.var 2), (.glob .curveN)⟫) ;;
  .set 4 (.lib .bigBytes ⟪(.var 2)⟫) ;;
  .ite (.bin .lt (.lib .len ⟪(.var 4)⟫) (.lit (.int 32))) (
    .set 5 (.lib .makeBytes ⟪(.bin .sub (.lit (.int 32)) (.lib .len ⟪(.var 4)⟫))⟫) ;;
    .set 4 (.lib .append ⟪(.var 5), (.var 4)⟫)) (
    .skip) ;;
  .ret ⟪(.var 4)⟫

/-- The body of loop 1 of `compressPublicKey` (bip32/utils.go:90-104). -/
def bip32_compressPublicKey_body1 : Stmt :=
  .set 2 (.lib .snoc ⟪(.var 2), (.lit (.u8 0))⟫)

/-- The condition of loop 1 of `compressPublicKey` (bip32/utils.go:90-104). -/
def bip32_compressPublicKey_cond1 : Expr :=
  (.bin .lt (.var 4) (.bin .sub (.lit (.int 32)) (.lib .len ⟪(.var 3)⟫)))

/-- The post statement of loop 1 of `compressPublicKey` (bip32/utils.go:90-104). -/
def bip32_compressPublicKey_post1 : Stmt :=
  .set 4 (.bin .add (.var 4) (.lit (.int 1)))

/-- `compressPublicKey` (bip32/utils.go:90-104). Variables: 0 `x`, 1 `y`, 2 `key`, 3 `xBytes`, 4 `i`. -/
def bip32_compressPublicKey : Stmt :=
  .set 2 (.lit (.bytes [])) ;;
  .set 2 (.lib .snoc ⟪(.var 2), (.bin .add (.lit (.u8 2)) (.lib (.conv .u8) ⟪(.lib .bigBit ⟪(.var 1), (.lit (.int 0))⟫)⟫))⟫) ;;
  .set 3 (.lib .bigBytes ⟪(.var 0)⟫) ;;
  .set 4 (.lit (.int 0)) ;;
  .for_ bip32_compressPublicKey_cond1 bip32_compressPublicKey_post1 bip32_compressPublicKey_body1 ;;
  .set 2 (.lib .append ⟪(.var 2), (.var 3)⟫) ;;
  .ret ⟪(.var 2)⟫

/-- `ExpandPublicKey` (bip32/utils.go:107-130). Variables: 0 `key`, 1 `Y`, 2 `X`, 3 `ySquared`, 4 `Ymod2`, 5 `signY`. -/
def bip32_ExpandPublicKey : Stmt :=
  .set 1 (.lib .bigNew ⟪(.lit (.i64 0))⟫) ;;
  .set 2 (.lib .bigNew ⟪(.lit (.i64 0))⟫) ;;
  .set 2 (.lib .bigSetBytes ⟪(.lib .sliceFrom ⟪(.var 0), (.lit (.int 1))⟫)⟫) ;;
  .set 3 (.lib .bigNew ⟪(.lit (.i64 0))⟫) ;;
  .set 3 (.lib .bigExp ⟪(.var 2), (.lib .bigNew ⟪(.lit (.i64 3))⟫)⟫) ;;
  .set 3 (.lib .bigAdd ⟪(.var 3), (.glob .curveB)⟫) ;;
  .set 1 (.lib .bigModSqrt ⟪(.var 1), (.var 3), (.glob .curveP)⟫) ;;
  .set 4 (.lib .bigNew ⟪(.lit (.i64 0))⟫) ;;
  .set 4 (.lib .bigMod ⟪(.var 1), (.lib .bigNew ⟪(.lit (.i64 2))⟫)⟫) ;;
  .set 5 (.bin .sub (.lib (.conv .u64) ⟪(.lib .index ⟪(.var 0), (.lit (.int 0))⟫)⟫) (.lit (.u64 2))) ;;
  .ite (.bin .ne (.var 5) (.lib .bigUint64 ⟪(.var 4)⟫)) (
    .set 1 (.lib .bigSub ⟪(.glob .curveP), (.var 1)⟫)) (
    .skip) ;;
  .ret ⟪(.var 2), (.var 1)⟫

/-- `validateChildPublicKey` (bip32/utils.go:132-140). Variables: 0 `key`, 1 `x`, 2 `y`. -/
def bip32_validateChildPublicKey : Stmt :=
  .call [some 1, some 2] .bip32_ExpandPublicKey ⟪(.var 0)⟫ ;;
  .ite (.or (.bin .eq (.lib .bigSign ⟪(.var 1)⟫) (.lit (.int 0))) (.bin .eq (.lib .bigSign ⟪(.var 2)⟫) (.lit (.int 0)))) (
    .ret ⟪(.lit (.err (some .invalidPublicKey)))⟫) (
    .skip) ;;
  .ret ⟪(.lit (.err none))⟫

/-- `uint32Bytes` (bip32/utils.go:143-147). Variables: 0 `i`, 1 `b`. -/
def bip32_uint32Bytes : Stmt :=
  .set 1 (.lib .makeBytes ⟪(.lit (.int 4))⟫) ;;
  .set 1 (.lib .putUint32 ⟪(.var 1), (.var 0)⟫) ;;
  .ret ⟪(.var 1)⟫

/-- `NewMasterKey` (bip32/bip32.go:79-101). Variables: 0 `seed`, 1 `hm`, 2 `err`, 3 `intermediary`, 4 `keyBytes`, 5 `chainCode`, 7 `key`, 8 `vs`. -/
def bip32_NewMasterKey : Stmt :=
  .set 1 (.lib .hmacNew ⟪(.lib .toBytes ⟪(.lit (.str (str "Bitcoin seed")))⟫)⟫) ;;
  .set 1 (.lib .hashWrite ⟪(.var 1), (.var 0)⟫) ;;
  .set 2 (.lit (.err none)) ;;
  .ite (.not (.lib .isNil ⟪(.var 2)⟫)) (
    .ret ⟪(.lit .nil), (.var 2)⟫) (
    .skip) ;;
  .set 3 (.lib .hashSum ⟪(.var 1)⟫) ;;
  .set 4 (.lib .toArray ⟪(.lit (.int 32)), (.lib .slice ⟪(.var 3), (.lit (.int 0)), (.lit (.int 32))⟫)⟫) ;;
  .set 5 (.lib .toArray ⟪(.lit (.int 32)), (.lib .sliceFrom ⟪(.var 3), (.lit (.int 32))⟫)⟫) ;;
  .call [some 6] .bip32_ValidatePrivateKey ⟪(.var 4)⟫ ;;
  .set 2 (.var 6) ;;
  .ite (.not (.lib .isNil ⟪(.var 2)⟫)) (
    .ret ⟪(.lit .nil), (.var 2)⟫) (
    .skip) ;;
  .set 7 (.lit (.bytes (List.replicate 78 0))) ;;
  .call [some 8] .bip32_VersionBytes_PvtKeyFlagBytes ⟪(.lit (.vb bitcoinxprvxpub))⟫ ;;
  .call [some 7] .bip32_Key_SetVersion ⟪(.var 7), (.var 8)⟫ ;;
  .call [some 7] .bip32_Key_setChainCode ⟪(.var 7), (.var 5)⟫ ;;
  .call [some 7] .bip32_Key_setPvtKeyBytes ⟪(.var 7), (.var 4)⟫ ;;
  .ret ⟪(.var 7), (.lit (.err none))⟫

/-- `IsPrivate` (bip32/bip32.go:103-105). Variables: 0 `key`. -/
def bip32_Key_IsPrivate : Stmt :=
  .ret ⟪(.bin .eq (.lib .index ⟪(.var 0), (.lit (.int 45))⟫) (.lit (.u8 0)))⟫

/-- `NewChildKey` (bip32/bip32.go:108-172). Variables: 0 `key`, 1 `childIdx`, 2 `childKey`, 4 `intermediary`, 5 `err`, 6 `vs`, 7 `vsVal`, 8 `hdBsArr`, 9 `ok`, 17 `fingerprint`, 18 `err`, 19 `kbs`, 23 `keyBytes`, 24 `err`, 25 `fingerprint`, 27 `kbs`. -/
def bip32_Key_NewChildKey : Stmt :=
  .set 2 (.lit (.bytes (List.replicate 78 0))) ;;
  .call [some 3] .bip32_Key_IsPrivate ⟪(.var 0)⟫ ;;
  .ite (.and (.not (.var 3)) (.bin .ge (.var 1) (.lit (.u32 2147483648)))) (
    .ret ⟪(.var 2), (.lit (.err (some .hardenedChildPublicKey)))⟫) (
    .skip) ;;
  .call [some 4, some 5] .bip32_Key_getIntermediary ⟪(.var 0), (.var 1)⟫ ;;
  .ite (.not (.lib .isNil ⟪(.var 5)⟫)) (
    .ret ⟪(.var 2), (.var 5)⟫) (
    .skip) ;;
  .set 6 (.lib .toArray ⟪(.lit (.int 4)), (.lib .slice ⟪(.var 0), (.lit (.int 0)), (.lit (.int 4))⟫)⟫) ;;
  .set 7 (.lib .getUint32 ⟪(.lib .sliceFrom ⟪(.var 6), (.lit (.int 0))⟫)⟫) ;;
  .setTuple [8, 9] (.lib .pvtFlagGet ⟪(.var 7)⟫) ;;
  .call [some 10] .bip32_Key_IsPrivate ⟪(.var 0)⟫ ;;
  .ite (.var 10) (
    .ite (.or (.not (.var 9)) (.bin .eq (.lib .len ⟪(.var 8)⟫) (.lit (.int 0)))) (
      .ret ⟪(.var 2), (.lit (.err (some .unSupportedHDVersionBytes)))⟫) (
      .skip)) (
    .setTuple [11, 12] (.lib .pubFlagGet ⟪(.var 7)⟫) ;;
    .set 8 (.var 11) ;;
    .set 9 (.var 12) ;;
    .ite (.or (.not (.var 9)) (.bin .eq (.lib .len ⟪(.var 8)⟫) (.lit (.int 0)))) (
      .ret ⟪(.var 2), (.lit (.err (some .unSupportedHDVersionBytes)))⟫) (
      .skip) ;;
    .call [some 13] .bip32_VersionBytes_PubKeyFlagBytes ⟪(.lib .index ⟪(.var 8), (.lit (.int 0))⟫)⟫ ;;
    .set 6 (.var 13)) ;;
  .call [some 14] .bip32_uint32Bytes ⟪(.var 1)⟫ ;;
  .call [some 2] .bip32_Key_setChildNumber ⟪(.var 2), (.lib .toArray ⟪(.lit (.int 4)), (.var 14)⟫)⟫ ;;
  .call [some 2] .bip32_Key_setChainCode ⟪(.var 2), (.lib .toArray ⟪(.lit (.int 32)), (.lib .sliceFrom ⟪(.var 4), (.lit (.int 32))⟫)⟫)⟫ ;;
  .call [some 2] .bip32_Key_setDepth ⟪(.var 2), (.bin .add (.lib .index ⟪(.var 0), (.lit (.int 4))⟫) (.lit (.u8 1)))⟫ ;;
  .call [some 2] .bip32_Key_SetVersion ⟪(.var 2), (.var 6)⟫ ;;
  .call [some 15] .bip32_Key_IsPrivate ⟪(.var 0)⟫ ;;
  .ite (.var 15) (
    .call [some 16] .bip32_publicKeyForPrivateKey ⟪(.lib .slice ⟪(.var 0), (.lit (.int 46)), (.lit (.int 78))⟫)⟫ ;;
    .call [some 17, some 18] .bip32_HashRipeMD160onSha256 ⟪(.var 16)⟫ ;;
    .ite (.not (.lib .isNil ⟪(.var 18)⟫)) (
      .ret ⟪(.var 2), (.var 18)⟫) (
      .skip) ;;
    .call [some 2] .bip32_Key_setFingerPrint ⟪(.var 2), (.lib .toArray ⟪(.lit (.int 4)), (.var 17)⟫)⟫ ;;
    .call [some 19] .bip32_addPrivateKeys ⟪(.lib .slice ⟪(.var 4), (.lit (.int 0)), (.lit (.int 32))⟫), (.lib .sliceFrom ⟪(.var 0), (.lit (.int 46))⟫)⟫ ;;
    .call [some 2] .bip32_Key_setPvtKeyBytes ⟪(.var 2), (.lib .toArray ⟪(.lit (.int 32)), (.var 19)⟫)⟫ ;;
    .call [some 20] .bip32_Key_GetPvtKeyBytes ⟪(.var 2)⟫ ;;
    .call [some 21] .bip32_ValidatePrivateKey ⟪(.var 20)⟫ ;;
    .set 18 (.var 21) ;;
    .ite (.not (.lib .isNil ⟪(.var 18)⟫)) (
      .ret ⟪(.var 2), (.var 18)⟫) (
      .skip)) (
    .call [some 22] .bip32_VersionBytes_PubKeyFlagBytes ⟪(.lib .index ⟪(.var 8), (.lit (.int 0))⟫)⟫ ;;
    .set 6 (.var 22) ;;
    .call [some 23] .bip32_publicKeyForPrivateKey ⟪(.lib .slice ⟪(.var 4), (.lit (.int 0)), (.lit (.int 32))⟫)⟫ ;;
    .call [some 24] .bip32_validateChildPublicKey ⟪(.var 23)⟫ ;;
    .ite (.not (.lib .isNil ⟪(.var 24)⟫)) (
      .ret ⟪(.var 2), (.var 24)⟫) (
      .skip) ;;
    .call [some 25, some 26] .bip32_HashRipeMD160onSha256 ⟪(.lib .sliceFrom ⟪(.var 0), (.lit (.int 45))⟫)⟫ ;;
    .set 24 (.var 26) ;;
    .ite (.not (.lib .isNil ⟪(.var 24)⟫)) (
      .ret ⟪(.var 2), (.var 24)⟫) (
      .skip) ;;
    .set 2 (.lib .copyInto ⟪(.var 2), (.lit (.int 5)), (.lit (.int 9)), (.var 25)⟫) ;;
    .call [some 27] .bip32_addPublicKeys ⟪(.var 23), (.lib .sliceFrom ⟪(.var 0), (.lit (.int 45))⟫)⟫ ;;
    .call [some 2] .bip32_Key_setPubKeyBytes ⟪(.var 2), (.lib .toArray ⟪(.lit (.int 33)), (.var 27)⟫)⟫) ;;
  .ret ⟪(.var 2), (.lit (.err none))⟫

/-- `getIntermediary` (bip32/bip32.go:174-196). Variables: 0 `key`, 1 `childIdx`, 2 `childIndexBytes`, 3 `data`, 6 `dataN`, 7 `hm`, 8 `err`. -/
def bip32_Key_getIntermediary : Stmt :=
  .call [some 2] .bip32_uint32Bytes ⟪(.var 1)⟫ ;;
  .set 3 (.lit (.bytes (List.replicate 33 0))) ;;
  .ite (.bin .ge (.var 1) (.lit (.u32 2147483648))) (
    .set 3 (.lib .copyInto ⟪(.var 3), (.lit (.int 1)), (.lib .len ⟪(.var 3)⟫), (.lib .slice ⟪(.var 0), (.lit (.int 46)), (.lit (.int 78))⟫)⟫)) (
    .call [some 4] .bip32_Key_IsPrivate ⟪(.var 0)⟫ ;;
    .ite (.var 4) (
      .call [some 5] .bip32_publicKeyForPrivateKey ⟪(.lib .slice ⟪(.var 0), (.lit (.int 46)), (.lit (.int 78))⟫)⟫ ;;
      .set 3 (.lib .copyInto ⟪(.var 3), (.lit (.int 0)), (.lib .len ⟪(.var 3)⟫), (.var 5)⟫)) (
      .set 3 (.lib .copyInto ⟪(.var 3), (.lit (.int 0)), (.lib .len ⟪(.var 3)⟫), (.lib .sliceFrom ⟪(.var 0), (.lit (.int 45))⟫)⟫))) ;;
  .set 6 (.lib .append ⟪(.lib .sliceFrom ⟪(.var 3), (.lit (.int 0))⟫), (.var 2)⟫) ;;
  .set 7 (.lib .hmacNew ⟪(.lib .slice ⟪(.var 0), (.lit (.int 13)), (.lit (.int 45))⟫)⟫) ;;
  .set 7 (.lib .hashWrite ⟪(.var 7), (.var 6)⟫) ;;
  .set 8 (.lit (.err none)) ;;
  .ite (.not (.lib .isNil ⟪(.var 8)⟫)) (
    .ret ⟪(.lit (.bytes [])), (.var 8)⟫) (
    .skip) ;;
  .ret ⟪(.lib .hashSum ⟪(.var 7)⟫), (.lit (.err none))⟫

/-- `PublicKeyExtended` (bip32/bip32.go:202-225). Variables: 0 `key`, 1 `vs`, 2 `vsVal`, 3 `hdBsArr`, 4 `ok`, 5 `extendedPubKey`. -/
def bip32_Key_PublicKeyExtended : Stmt :=
  .set 1 (.lib .toArray ⟪(.lit (.int 4)), (.lib .slice ⟪(.var 0), (.lit (.int 0)), (.lit (.int 4))⟫)⟫) ;;
  .set 2 (.lib .getUint32 ⟪(.lib .sliceFrom ⟪(.var 1), (.lit (.int 0))⟫)⟫) ;;
  .setTuple [3, 4] (.lib .pvtFlagGet ⟪(.var 2)⟫) ;;
  .set 5 (.lit (.bytes (List.replicate 78 0))) ;;
  .set 5 (.lib .copyInto ⟪(.var 5), (.lit (.int 0)), (.lib .len ⟪(.var 5)⟫), (.lib .sliceFrom ⟪(.var 0), (.lit (.int 0))⟫)⟫) ;;
  .call [some 6] .bip32_Key_IsPrivate ⟪(.var 0)⟫ ;;
  .ite (.var 6) (
    .ite (.or (.not (.var 4)) (.bin .eq (.lib .len ⟪(.var 3)⟫) (.lit (.int 0)))) (
      .call [some 7] .bip32_VersionBytes_PubKeyFlagBytes ⟪(.lit (.vb bitcoinxprvxpub))⟫ ;;
      .set 1 (.var 7)) (
      .call [some 8] .bip32_VersionBytes_PubKeyFlagBytes ⟪(.lib .index ⟪(.var 3), (.lit (.int 0))⟫)⟫ ;;
      .set 1 (.var 8)) ;;
    .call [some 9] .bip32_publicKeyForPrivateKey ⟪(.lib .sliceFrom ⟪(.var 0), (.lit (.int 46))⟫)⟫ ;;
    .set 5 (.lib .copyInto ⟪(.var 5), (.lit (.int 45)), (.lit (.int 78)), (.var 9)⟫)) (
    .setTuple [10, 11] (.lib .pubFlagGet ⟪(.var 2)⟫) ;;
    .set 3 (.var 10) ;;
    .set 4 (.var 11) ;;
    .ite (.or (.not (.var 4)) (.bin .eq (.lib .len ⟪(.var 3)⟫) (.lit (.int 0)))) (
      .call [some 12] .bip32_VersionBytes_PubKeyFlagBytes ⟪(.lit (.vb bitcoinxprvxpub))⟫ ;;
      .set 1 (.var 12)) (
      .skip)) ;;
  .call [some 5] .bip32_Key_SetVersion ⟪(.var 5), (.var 1)⟫ ;;
  .ret ⟪(.var 5)⟫

/-- `PrivateKeyHex` (bip32/bip32.go:228-233). Variables: 0 `key`. -/
def bip32_Key_PrivateKeyHex : Stmt :=
  .call [some 1] .bip32_Key_IsPrivate ⟪(.var 0)⟫ ;;
  .ite (.var 1) (
    .ret ⟪(.lib .hexEncode ⟪(.lib .slice ⟪(.var 0), (.lit (.int 46)), (.lit (.int 78))⟫)⟫)⟫) (
    .skip) ;;
  .ret ⟪(.lit (.str (str "")))⟫

/-- `PublicKeyHex` (bip32/bip32.go:236-242). Variables: 0 `key`, 2 `pubKey`. -/
def bip32_Key_PublicKeyHex : Stmt :=
  .call [some 1] .bip32_Key_IsPrivate ⟪(.var 0)⟫ ;;
  .ite (.var 1) (
    .call [some 2] .bip32_Key_PublicKeyExtended ⟪(.var 0)⟫ ;;
    .ret ⟪(.lib .hexEncode ⟪(.lib .slice ⟪(.var 2), (.lit (.int 45)), (.lit (.int 78))⟫)⟫)⟫) (
    .skip) ;;
  .ret ⟪(.lib .hexEncode ⟪(.lib .slice ⟪(.var 0), (.lit (.int 45)), (.lit (.int 78))⟫)⟫)⟫

/-- The body of loop 1 of `Serialize` (bip32/bip32.go:246-263). -/
def bip32_Key_Serialize_body1 : Stmt :=
  .ite (.bin .ne (.var 2) (.lit (.u8 0))) (
    .set 1 (.lit (.bool false)) ;;
    .brk) (
    .skip)

/-- `Serialize` (bip32/bip32.go:246-263). Variables: 0 `key`, 1 `isEmpty`, 2 `v`, 3 `serializedKey`, 4 `err`. -/
def bip32_Key_Serialize : Stmt :=
  .set 1 (.lit (.bool true)) ;;
  .range none (some 2) (.var 0) bip32_Key_Serialize_body1 ;;
  .ite (.var 1) (
    .ret ⟪(.lit (.bytes [])), (.lit (.err (some .emptyKey)))⟫) (
    .skip) ;;
  .call [some 3, some 4] .bip32_AddChecksumDblSha256ToBytes ⟪(.lib .sliceFrom ⟪(.var 0), (.lit (.int 0))⟫)⟫ ;;
  .ite (.not (.lib .isNil ⟪(.var 4)⟫)) (
    .ret ⟪(.lit (.bytes [])), (.var 4)⟫) (
    .skip) ;;
  .ret ⟪(.var 3), (.lit (.err none))⟫

/-- `B58Serialize` (bip32/bip32.go:266-272). Variables: 0 `key`, 1 `serializedKey`, 2 `err`. -/
def bip32_Key_B58Serialize : Stmt :=
  .call [some 1, some 2] .bip32_Key_Serialize ⟪(.var 0)⟫ ;;
  .ite (.not (.lib .isNil ⟪(.var 2)⟫)) (
    .ret ⟪(.lit (.str (str "")))⟫) (
    .skip) ;;
  .ret ⟪(.lib .b58Encode ⟪(.var 1)⟫)⟫

/-- `String` (bip32/bip32.go:276-278). Variables: 0 `key`. -/
def bip32_Key_String : Stmt :=
  .call [some 1] .bip32_Key_B58Serialize ⟪(.var 0)⟫ ;;
  .ret ⟪(.var 1)⟫

/-- `IsValid` (bip32/bip32.go:280-290). Variables: 0 `key`, 1 `bs`, 2 `err`. -/
def bip32_Key_IsValid : Stmt :=
  .call [some 1, some 2] .bip32_Key_Serialize ⟪(.var 0)⟫ ;;
  .ite (.not (.lib .isNil ⟪(.var 2)⟫)) (
    .ret ⟪(.lit (.bool false))⟫) (
    .skip) ;;
  .call [some 3, some 4] .bip32_Deserialize ⟪(.var 1)⟫ ;;
  .set 2 (.var 4) ;;
  .ite (.not (.lib .isNil ⟪(.var 2)⟫)) (
    .ret ⟪(.lit (.bool false))⟫) (
    .skip) ;;
  .ret ⟪(.lit (.bool true))⟫

/-- The body of loop 1 of `Deserialize` (bip32/bip32.go:293-313). -/
def bip32_Deserialize_body1 : Stmt :=
  .ite (.bin .ne (.lib .index ⟪(.var 2), (.var 5)⟫) (.lib .index ⟪(.var 4), (.var 5)⟫)) (
    .ret ⟪(.lib .toArray ⟪(.lit (.int 78)), (.lib .slice ⟪(.var 0), (.lit (.int 0)), (.lit (.int 78))⟫)⟫), (.lit (.err (some .invalidChecksum)))⟫) (
    .skip)

/-- `Deserialize` (bip32/bip32.go:293-313). Variables: 0 `data`, 1 `exData`, 2 `cs1`, 3 `err`, 4 `cs2`, 5 `i`. -/
def bip32_Deserialize : Stmt :=
  .ite (.bin .ne (.lib .len ⟪(.var 0)⟫) (.lit (.int 82))) (
    .ite (.bin .lt (.lib .len ⟪(.var 0)⟫) (.lit (.int 82))) (
      .set 1 (.lib .makeBytes ⟪(.bin .sub (.lit (.int 82)) (.lib .len ⟪(.var 0)⟫))⟫) ;;
      .set 0 (.lib .append ⟪(.var 0), (.var 1)⟫)) (
      .skip) ;;
    .ret ⟪(.lib .toArray ⟪(.lit (.int 78)), (.lib .slice ⟪(.var 0), (.lit (.int 0)), (.lit (.int 78))⟫)⟫), (.lit (.err (some .serializedKeyWrongSize)))⟫) (
    .skip) ;;
  .call [some 2, some 3] .bip32_ChecksumDblSha256 ⟪(.lib .slice ⟪(.var 0), (.lit (.int 0)), (.bin .sub (.lib .len ⟪(.var 0)⟫) (.lit (.int 4)))⟫)⟫ ;;
  .ite (.not (.lib .isNil ⟪(.var 3)⟫)) (
    .ret ⟪(.lib .toArray ⟪(.lit (.int 78)), (.lib .slice ⟪(.var 0), (.lit (.int 0)), (.lit (.int 78))⟫)⟫), (.var 3)⟫) (
    .skip) ;;
  .set 4 (.lib .sliceFrom ⟪(.var 0), (.bin .sub (.lib .len ⟪(.var 0)⟫) (.lit (.int 4)))⟫) ;;
  .range (some 5) none (.var 2) bip32_Deserialize_body1 ;;
  .ret ⟪(.lib .toArray ⟪(.lit (.int 78)), (.lib .slice ⟪(.var 0), (.lit (.int 0)), (.lit (.int 78))⟫)⟫), (.lit (.err none))⟫

/-- `SetVersionUint32` (bip32/bip32.go:315-318). Variables: 0 `key`, 1 `v`, 2 `vsVal`. -/
def bip32_Key_SetVersionUint32 : Stmt :=
  .call [some 2] .bip32_uint32Bytes ⟪(.var 1)⟫ ;;
  .call [some 0] .bip32_Key_SetVersion ⟪(.var 0), (.lib .toArray ⟪(.lit (.int 4)), (.var 2)⟫)⟫ ;;
  .ret ⟪(.var 0)⟫

/-- `SetVersion` (bip32/bip32.go:320-322). Variables: 0 `key`, 1 `v`. -/
def bip32_Key_SetVersion : Stmt :=
  .set 0 (.lib .copyInto ⟪(.var 0), (.lit (.int 0)), (.lit (.int 4)), (.lib .sliceFrom ⟪(.var 1), (.lit (.int 0))⟫)⟫) ;;
  .ret ⟪(.var 0)⟫

/-- `GetVersion` (bip32/bip32.go:324-326). Variables: 0 `key`. -/
def bip32_Key_GetVersion : Stmt :=
  .ret ⟪(.lib .getUint32 ⟪(.lib .slice ⟪(.var 0), (.lit (.int 0)), (.lit (.int 4))⟫)⟫)⟫

/-- `setChainCodeUint32` (bip32/bip32.go:328-331). Variables: 0 `key`, 1 `code`, 2 `codeVal`. -/
def bip32_Key_setChainCodeUint32 : Stmt :=
  .call [some 2] .bip32_uint32Bytes ⟪(.var 1)⟫ ;;
  .call [some 0] .bip32_Key_setChainCode ⟪(.var 0), (.lib .toArray ⟪(.lit (.int 32)), (.var 2)⟫)⟫ ;;
  .ret ⟪(.var 0)⟫

/-- `setChainCode` (bip32/bip32.go:333-335). Variables: 0 `key`, 1 `code`. -/
def bip32_Key_setChainCode : Stmt :=
  .set 0 (.lib .copyInto ⟪(.var 0), (.lit (.int 13)), (.lit (.int 45)), (.lib .sliceFrom ⟪(.var 1), (.lit (.int 0))⟫)⟫) ;;
  .ret ⟪(.var 0)⟫

/-- `GetChainCode` (bip32/bip32.go:337-339). Variables: 0 `key`. -/
def bip32_Key_GetChainCode : Stmt :=
  .ret ⟪(.lib .toArray ⟪(.lit (.int 32)), (.lib .slice ⟪(.var 0), (.lit (.int 13)), (.lit (.int 45))⟫)⟫)⟫

/-- `setFingerPrint` (bip32/bip32.go:341-343). Variables: 0 `key`, 1 `f`. -/
def bip32_Key_setFingerPrint : Stmt :=
  .set 0 (.lib .copyInto ⟪(.var 0), (.lit (.int 5)), (.lit (.int 9)), (.lib .sliceFrom ⟪(.var 1), (.lit (.int 0))⟫)⟫) ;;
  .ret ⟪(.var 0)⟫

/-- `GetFingerPrint` (bip32/bip32.go:345-347). Variables: 0 `key`. -/
def bip32_Key_GetFingerPrint : Stmt :=
  .ret ⟪(.lib .toArray ⟪(.lit (.int 4)), (.lib .slice ⟪(.var 0), (.lit (.int 5)), (.lit (.int 9))⟫)⟫)⟫

/-- `setDepth` (bip32/bip32.go:349-351). Variables: 0 `key`, 1 `d`. -/
def bip32_Key_setDepth : Stmt :=
  .set 0 (.lib .setIndex ⟪(.var 0), (.lit (.int 4)), (.var 1)⟫) ;;
  .ret ⟪(.var 0)⟫

/-- `GetDepth` (bip32/bip32.go:353-355). Variables: 0 `key`. -/
def bip32_Key_GetDepth : Stmt :=
  .ret ⟪(.lib .toArray ⟪(.lit (.int 1)), (.lib .slice ⟪(.var 0), (.lit (.int 4)), (.lit (.int 5))⟫)⟫)⟫

/-- `setPvtKeyBytes` (bip32/bip32.go:357-359). Variables: 0 `key`, 1 `b`. -/
def bip32_Key_setPvtKeyBytes : Stmt :=
  .set 0 (.lib .copyInto ⟪(.var 0), (.lit (.int 46)), (.lit (.int 78)), (.lib .sliceFrom ⟪(.var 1), (.lit (.int 0))⟫)⟫) ;;
  .ret ⟪(.var 0)⟫

/-- `GetPvtKeyBytes` (bip32/bip32.go:361-363). Variables: 0 `key`. -/
def bip32_Key_GetPvtKeyBytes : Stmt :=
  .ret ⟪(.lib .toArray ⟪(.lit (.int 32)), (.lib .slice ⟪(.var 0), (.lit (.int 46)), (.lit (.int 78))⟫)⟫)⟫

/-- `setPubKeyBytes` (bip32/bip32.go:365-367). Variables: 0 `key`, 1 `b`. -/
def bip32_Key_setPubKeyBytes : Stmt :=
  .set 0 (.lib .copyInto ⟪(.var 0), (.lit (.int 45)), (.lit (.int 78)), (.lib .sliceFrom ⟪(.var 1), (.lit (.int 0))⟫)⟫) ;;
  .ret ⟪(.var 0)⟫

/-- `GetKeyBytes` (bip32/bip32.go:369-371). Variables: 0 `key`. -/
def bip32_Key_GetKeyBytes : Stmt :=
  .ret ⟪(.lib .toArray ⟪(.lit (.int 33)), (.lib .slice ⟪(.var 0), (.lit (.int 45)), (.lit (.int 78))⟫)⟫)⟫

/-- `setChildNumber` (bip32/bip32.go:373-375). Variables: 0 `key`, 1 `c`. -/
def bip32_Key_setChildNumber : Stmt :=
  .set 0 (.lib .copyInto ⟪(.var 0), (.lit (.int 9)), (.lit (.int 13)), (.lib .sliceFrom ⟪(.var 1), (.lit (.int 0))⟫)⟫) ;;
  .ret ⟪(.var 0)⟫

/-- `GetChildNumber` (bip32/bip32.go:377-379). Variables: 0 `key`. -/
def bip32_Key_GetChildNumber : Stmt :=
  .ret ⟪(.lib .toArray ⟪(.lit (.int 4)), (.lib .slice ⟪(.var 0), (.lit (.int 9)), (.lit (.int 13))⟫)⟫)⟫

/-- `B58Deserialize` (bip32/bip32.go:382-385). Variables: 0 `data`, 1 `b`. -/
def bip32_B58Deserialize : Stmt :=
  .set 1 (.lib .b58Decode ⟪(.var 0)⟫) ;;
  .call [some 2, some 3] .bip32_Deserialize ⟪(.var 1)⟫ ;;
  .ret ⟪(.var 2), (.var 3)⟫

/-- `NewSeed` (bip32/bip32.go:388-393). Variables: 0 `s`, 1 `err`. -/
def bip32_NewSeed : Stmt :=
  .set 0 (.lib .makeBytes ⟪(.lit (.int 256))⟫) ;;
  .set 0 (.lib .randRead ⟪(.var 0)⟫) ;;
  .set 1 (.lit (.err none)) ;;
  .ret ⟪(.var 0), (.var 1)⟫

/-- `PvtKeyFlagBytes` (bip32/reg_ver_bytes.go:62-66). Variables: 0 `h`, 1 `b`. -/
def bip32_VersionBytes_PvtKeyFlagBytes : Stmt :=
  .set 1 (.lit (.bytes (List.replicate 4 0))) ;;
  .set 1 (.lib .putUint32 ⟪(.var 1), (.lib .vbPvtKeyFlag ⟪(.var 0)⟫)⟫) ;;
  .ret ⟪(.var 1)⟫

/-- `PubKeyFlagBytes` (bip32/reg_ver_bytes.go:68-72). Variables: 0 `h`, 1 `b`. -/
def bip32_VersionBytes_PubKeyFlagBytes : Stmt :=
  .set 1 (.lit (.bytes (List.replicate 4 0))) ;;
  .set 1 (.lib .putUint32 ⟪(.var 1), (.lib .vbPubKeyFlag ⟪(.var 0)⟫)⟫) ;;
  .ret ⟪(.var 1)⟫

/-- `IsValid` (bip32/reg_ver_bytes.go:74-77). Variables: 0 `h`, 1 `regex`. -/
def bip32_VersionBytes_IsValid : Stmt :=
  .set 1 (.lit (.str (str "^m/\\d{0,8}'/\\d{0,8}'$"))) ;;
  .call [some 2] .bip32_Path_String ⟪(.lib .vbPath ⟪(.var 0)⟫)⟫ ;;
  .ret ⟪(.lib .regexMatch ⟪(.var 1), (.var 2)⟫)⟫

/-- `IsRegistered` (bip32/reg_ver_bytes.go:79-82). Variables: 0 `h`, 3 `ok`. -/
def bip32_VersionBytes_IsRegistered : Stmt :=
  .call [some 1] .bip32_Path_String ⟪(.lib .vbPath ⟪(.var 0)⟫)⟫ ;;
  .setTuple [2, 3] (.lib .pathTableGet ⟪(.var 1)⟫) ;;
  .ret ⟪(.var 3)⟫

/-- `PurposeVal` (bip32/reg_ver_bytes.go:86-100). Variables: 0 `h`, 3 `pathArr`, 4 `purposeStr`, 5 `purposeVal`, 6 `err`. -/
def bip32_VersionBytes_PurposeVal : Stmt :=
  .call [some 1] .bip32_VersionBytes_IsValid ⟪(.var 0)⟫ ;;
  .ite (.not (.var 1)) (
    .ret ⟪(.lit (.u32 0)), (.lit (.err (some .unSupportedHDVersionBytes)))⟫) (
    .skip) ;;
  .call [some 2] .bip32_Path_String ⟪(.lib .vbPath ⟪(.var 0)⟫)⟫ ;;
  .set 3 (.lib .split ⟪(.var 2), (.lit (.str (str "/")))⟫) ;;
  .set 4 (.lib .replaceAll ⟪(.lib .index ⟪(.var 3), (.lit (.int 1))⟫), (.lit (.str (str "'"))), (.lit (.str (str "")))⟫) ;;
  .setTuple [5, 6] (.lib .atoi ⟪(.var 4)⟫) ;;
  .ite (.not (.lib .isNil ⟪(.var 6)⟫)) (
    .ret ⟪(.lit (.u32 0)), (.var 6)⟫) (
    .skip) ;;
  .ite (.bin .ge (.lib (.conv .u32) ⟪(.var 5)⟫) (.lit (.u32 2147483648))) (
    .ret ⟪(.lit (.u32 0)), (.lit (.err (some .invalidPurpose)))⟫) (
    .skip) ;;
  .ret ⟪(.lib (.conv .u32) ⟪(.var 5)⟫), (.var 6)⟫

/-- `CoinVal` (bip32/reg_ver_bytes.go:104-118). Variables: 0 `h`, 3 `pathArr`, 4 `coinStr`, 5 `coinVal`, 6 `err`. -/
def bip32_VersionBytes_CoinVal : Stmt :=
  .call [some 1] .bip32_VersionBytes_IsValid ⟪(.var 0)⟫ ;;
  .ite (.not (.var 1)) (
    .ret ⟪(.lit (.u32 0)), (.lit (.err (some .unSupportedHDVersionBytes)))⟫) (
    .skip) ;;
  .call [some 2] .bip32_Path_String ⟪(.lib .vbPath ⟪(.var 0)⟫)⟫ ;;
  .set 3 (.lib .split ⟪(.var 2), (.lit (.str (str "/")))⟫) ;;
  .set 4 (.lib .replaceAll ⟪(.lib .index ⟪(.var 3), (.lit (.int 2))⟫), (.lit (.str (str "'"))), (.lit (.str (str "")))⟫) ;;
  .setTuple [5, 6] (.lib .atoi ⟪(.var 4)⟫) ;;
  .ite (.not (.lib .isNil ⟪(.var 6)⟫)) (
    .ret ⟪(.lit (.u32 0)), (.var 6)⟫) (
    .skip) ;;
  .ite (.bin .ge (.lib (.conv .u32) ⟪(.var 5)⟫) (.lit (.u32 2147483648))) (
    .ret ⟪(.lit (.u32 0)), (.lit (.err (some .invalidCoin)))⟫) (
    .skip) ;;
  .ret ⟪(.lib (.conv .u32) ⟪(.var 5)⟫), (.var 6)⟫

/-- `PurposeValFull` (bip32/reg_ver_bytes.go:120-129). Variables: 0 `h`, 2 `val`, 3 `err`. -/
def bip32_VersionBytes_PurposeValFull : Stmt :=
  .call [some 1] .bip32_VersionBytes_IsValid ⟪(.var 0)⟫ ;;
  .ite (.not (.var 1)) (
    .ret ⟪(.lit (.u32 0)), (.lit (.err (some .unSupportedHDVersionBytes)))⟫) (
    .skip) ;;
  .call [some 2, some 3] .bip32_VersionBytes_PurposeVal ⟪(.var 0)⟫ ;;
  .ite (.not (.lib .isNil ⟪(.var 3)⟫)) (
    .ret ⟪(.lit (.u32 0)), (.var 3)⟫) (
    .skip) ;;
  .ret ⟪(.bin .add (.var 2) (.lit (.u32 2147483648))), (.lit (.err none))⟫

/-- `CoinValFull` (bip32/reg_ver_bytes.go:130-139). Variables: 0 `h`, 2 `val`, 3 `err`. -/
def bip32_VersionBytes_CoinValFull : Stmt :=
  .call [some 1] .bip32_VersionBytes_IsValid ⟪(.var 0)⟫ ;;
  .ite (.not (.var 1)) (
    .ret ⟪(.lit (.u32 0)), (.lit (.err (some .unSupportedHDVersionBytes)))⟫) (
    .skip) ;;
  .call [some 2, some 3] .bip32_VersionBytes_CoinVal ⟪(.var 0)⟫ ;;
  .ite (.not (.lib .isNil ⟪(.var 3)⟫)) (
    .ret ⟪(.lit (.u32 0)), (.var 3)⟫) (
    .skip) ;;
  .ret ⟪(.bin .add (.var 2) (.lit (.u32 2147483648))), (.lit (.err none))⟫

/-- The body of loop 1 of `init` (bip32/reg_ver_bytes.go:426-442). -/
def bip32_init_body1 : Stmt :=
  .setTuple [10, 11] (.lib .tableGet ⟪(.var 2), (.lib .vbPvtKeyFlag ⟪(.var 9)⟫), (.lit (.list []))⟫) ;;
  .set 2 (.lib .tableSet ⟪(.var 2), (.lib .vbPvtKeyFlag ⟪(.var 9)⟫), (.lib .snoc ⟪(.var 10), (.var 9)⟫)⟫) ;;
  .setTuple [12, 13] (.lib .tableGet ⟪(.var 3), (.lib .vbPubKeyFlag ⟪(.var 9)⟫), (.lit (.list []))⟫) ;;
  .set 10 (.var 12) ;;
  .set 3 (.lib .tableSet ⟪(.var 3), (.lib .vbPubKeyFlag ⟪(.var 9)⟫), (.lib .snoc ⟪(.var 10), (.var 9)⟫)⟫) ;;
  .call [some 14, some 15] .bip32_VersionBytes_PurposeVal ⟪(.var 9)⟫ ;;
  .call [some 16, some 17] .bip32_VersionBytes_PurposeValFull ⟪(.var 9)⟫ ;;
  .set 4 (.lib .tableSet ⟪(.var 4), (.var 14), (.lib .snoc ⟪(.lib (.field 0) ⟪(.lib .tableGet ⟪(.var 4), (.var 14), (.lit (.list []))⟫)⟫), (.var 9)⟫)⟫) ;;
  .set 5 (.lib .tableSet ⟪(.var 5), (.var 16), (.lib .snoc ⟪(.lib (.field 0) ⟪(.lib .tableGet ⟪(.var 5), (.var 16), (.lit (.list []))⟫)⟫), (.var 9)⟫)⟫) ;;
  .call [some 18, some 19] .bip32_VersionBytes_CoinVal ⟪(.var 9)⟫ ;;
  .set 6 (.lib .tableSet ⟪(.var 6), (.var 18), (.lib .snoc ⟪(.lib (.field 0) ⟪(.lib .tableGet ⟪(.var 6), (.var 18), (.lit (.list []))⟫)⟫), (.var 9)⟫)⟫)

/-- The body of loop 2 of `init` (bip32/reg_ver_bytes.go:426-442). -/
def bip32_init_body2 : Stmt :=
  .set 8 (.lib (.field 1) ⟪(.var 7)⟫) ;;
  .set 1 (.lib .append ⟪(.var 1), (.var 8)⟫) ;;
  .range none (some 9) (.var 8) bip32_init_body1

/-- `init` (bip32/reg_ver_bytes.go:426-442). Variables: 0 `PathToHDBytesSlice`, 1 `HDVersionBytesSlice`, 2 `PvtFlagToHDBytesSlice`, 3 `PubFlagToHDBytesSlice`, 4 `PurposeToHDBytesSlice`, 5 `PurposeFullToHDBytesSlice`, 6 `CoinTypeToHDBytesSlice`, 8 `hdBytesArr`, 9 `hdBytes`, 10 `val`, 14 `purposeVal`, 16 `purposeFullVal`, 18 `coinVal`. -/
def bip32_init : Stmt :=
  .range none (some 7) (.var 0) bip32_init_body2 ;;
  .ret ⟪(.var 0), (.var 1), (.var 2), (.var 3), (.var 4), (.var 5), (.var 6)⟫

/-- `init` (bip39/bip39.go:71-73). Variables: 0 `wordList`, 1 `wordMap`. -/
def bip39_init : Stmt :=
  .call [some 0, some 1] .bip39_SetWordList ⟪(.var 0), (.var 1), (.glob .english)⟫ ;;
  .ret ⟪(.var 0), (.var 1)⟫

/-- The body of loop 1 of `SetWordList` (bip39/bip39.go:77-84). -/
def bip39_SetWordList_body1 : Stmt :=
  .set 1 (.lib .tableSet ⟪(.var 1), (.var 4), (.var 3)⟫)

/-- `SetWordList` (bip39/bip39.go:77-84). Variables: 0 `wordList`, 1 `wordMap`, 2 `list`, 3 `i`, 4 `v`. -/
def bip39_SetWordList : Stmt :=
  .set 0 (.var 2) ;;
  .set 1 (.lit (.list [])) ;;
  .range (some 3) (some 4) (.var 0) bip39_SetWordList_body1 ;;
  .ret ⟪(.var 0), (.var 1)⟫

/-- `GetWordList` (bip39/bip39.go:87-89). Variables: none. -/
def bip39_GetWordList : Stmt :=
  .ret ⟪(.glob .wordList)⟫

/-- `GetWordIndex` (bip39/bip39.go:92-95). Variables: 0 `word`, 1 `idx`, 2 `ok`. -/
def bip39_GetWordIndex : Stmt :=
  .setTuple [1, 2] (.lib .wordMapGet ⟪(.var 0)⟫) ;;
  .ret ⟪(.var 1), (.var 2)⟫

/-- `NewEntropy` (bip39/bip39.go:101-110). Variables: 0 `bitSize`, 1 `err`, 2 `entropy`. -/
def bip39_NewEntropy : Stmt :=
  .call [some 1] .bip39_validateEntropyBitSize ⟪(.var 0)⟫ ;;
  .ite (.not (.lib .isNil ⟪(.var 1)⟫)) (
    .ret ⟪(.lit (.bytes [])), (.var 1)⟫) (
    .skip) ;;
  .set 2 (.lib .makeBytes ⟪(.bin .div (.var 0) (.lit (.int 8)))⟫) ;;
  .set 2 (.lib .randRead ⟪(.var 2)⟫) ;;
  .ret ⟪(.var 2), (.lit (.err none))⟫

/-- The body of loop 1 of `EntropyFromMnemonic` (bip39/bip39.go:115-165). -/
def bip39_EntropyFromMnemonic_body1 : Stmt :=
  .setTuple [6, 7] (.lib .wordMapGet ⟪(.var 5)⟫) ;;
  .ite (.not (.var 7)) (
    .ret ⟪(.lit (.bytes [])), (.lib .errorf ⟪(.lit (.str (str "word `%v` not found in reverse map"))), (.var 5)⟫)⟫) (
    .skip) ;;
  .set 3 (.lib .putUint16 ⟪(.var 3), (.lib (.conv .u16) ⟪(.var 6)⟫)⟫) ;;
  .set 4 (.lib .bigMul ⟪(.var 4), (.lit (.big 2048))⟫) ;;
  .set 4 (.lib .bigOr ⟪(.var 4), (.lib .bigSetBytes ⟪(.lib .sliceFrom ⟪(.var 3), (.lit (.int 0))⟫)⟫)⟫)

/-- `EntropyFromMnemonic` (bip39/bip39.go:115-165). Variables: 0 `mnemonic`, 1 `mnemonicSlice`, 2 `isValid`, 3 `wordBytes`, 4 `b`, 5 `v`, 6 `index`, 7 `found`, 8 `checksum`, 9 `checksumMask`, 10 `entropy`, 12 `entropyChecksumBytes`, 13 `entropyChecksum`, 14 `l`, 15 `checksumShift`. -/
def bip39_EntropyFromMnemonic : Stmt :=
  .call [some 1, some 2] .bip39_splitMnemonicWords ⟪(.var 0)⟫ ;;
  .ite (.not (.var 2)) (
    .ret ⟪(.lit (.bytes [])), (.lit (.err (some .invalidMnemonic)))⟫) (
    .skip) ;;
  .set 3 (.lit (.bytes (List.replicate 2 0))) ;;
  .set 4 (.lib .bigNew ⟪(.lit (.i64 0))⟫) ;;
  .range none (some 5) (.var 1) bip39_EntropyFromMnemonic_body1 ;;
  .set 8 (.lib .bigNew ⟪(.lit (.i64 0))⟫) ;;
  .set 9 (.lib .mapGet ⟪(.lit (.list [.list [.int 12, .big 15], .list [.int 15, .big 31], .list [.int 18, .big 63], .list [.int 21, .big 127], .list [.int 24, .big 255]])), (.lib .len ⟪(.var 1)⟫)⟫) ;;
  .set 8 (.lib .bigAnd ⟪(.var 4), (.var 9)⟫) ;;
  .set 8 (.var 8) ;;
  .set 4 (.lib .bigDiv ⟪(.var 4), (.lib .bigAdd ⟪(.var 9), (.lit (.big 1))⟫)⟫) ;;
  .set 10 (.lib .bigBytes ⟪(.var 4)⟫) ;;
  .call [some 11] .bip39_padByteSlice ⟪(.var 10), (.bin .mul (.bin .div (.lib .len ⟪(.var 1)⟫) (.lit (.int 3))) (.lit (.int 4)))⟫ ;;
  .set 10 (.var 11) ;;
  .call [some 12] .bip39_computeChecksum ⟪(.var 10)⟫ ;;
  .set 13 (.lib .bigNew ⟪(.lib (.conv .i64) ⟪(.lib .index ⟪(.var 12), (.lit (.int 0))⟫)⟫)⟫) ;;
  .set 14 (.lib .len ⟪(.var 1)⟫) ;;
  .ite (.bin .ne (.var 14) (.lit (.int 24))) (
    .set 15 (.lib .mapGet ⟪(.lit (.list [.list [.int 12, .big 16], .list [.int 15, .big 8], .list [.int 18, .big 4], .list [.int 21, .big 2]])), (.var 14)⟫) ;;
    .set 13 (.lib .bigDiv ⟪(.var 13), (.var 15)⟫)) (
    .skip) ;;
  .ite (.bin .ne (.lib .bigCmp ⟪(.var 8), (.var 13)⟫) (.lit (.int 0))) (
    .ret ⟪(.lit (.bytes [])), (.lit (.err (some .checksumIncorrect)))⟫) (
    .skip) ;;
  .ret ⟪(.var 10), (.lit (.err none))⟫

/-- The body of loop 1 of `NewMnemonic` (bip39/bip39.go:170-212). -/
def bip39_NewMnemonic_body1 : Stmt :=
  .set 8 (.lib .bigAnd ⟪(.var 6), (.lit (.big 2047))⟫) ;;
  .set 6 (.lib .bigDiv ⟪(.var 6), (.lit (.big 2048))⟫) ;;
  .call [some 10] .bip39_padByteSlice ⟪(.lib .bigBytes ⟪(.var 8)⟫), (.lit (.int 2))⟫ ;;
  .set 7 (.lib .setIndex ⟪(.var 7), (.var 9), (.lib .index ⟪(.glob .wordList), (.lib .getUint16 ⟪(.var 10)⟫)⟫)⟫)

/-- The condition of loop 1 of `NewMnemonic` (bip39/bip39.go:170-212). -/
def bip39_NewMnemonic_cond1 : Expr :=
  (.bin .ge (.var 9) (.lit (.int 0)))

/-- The post statement of loop 1 of `NewMnemonic` (bip39/bip39.go:170-212). -/
def bip39_NewMnemonic_post1 : Stmt :=
  .set 9 (.bin .sub (.var 9) (.lit (.int 1)))

/-- `NewMnemonic` (bip39/bip39.go:170-212). Variables: 0 `entropy`, 1 `entropyBitLength`, 2 `checksumBitLength`, 3 `sentenceLength`, 4 `err`, 6 `entropyInt`, 7 `words`, 8 `word`, 9 `i`, 10 `wordBytes`. -/
def bip39_NewMnemonic : Stmt :=
  .set 1 (.bin .mul (.lib .len ⟪(.var 0)⟫) (.lit (.int 8))) ;;
  .set 2 (.bin .div (.var 1) (.lit (.int 32))) ;;
  .set 3 (.bin .div (.bin .add (.var 1) (.var 2)) (.lit (.int 11))) ;;
  .call [some 4] .bip39_validateEntropyBitSize ⟪(.var 1)⟫ ;;
  .ite (.not (.lib .isNil ⟪(.var 4)⟫)) (
    .ret ⟪(.lit (.str (str ""))), (.var 4)⟫) (
    .skip) ;;
  .call [some 5] .bip39_addChecksum ⟪(.var 0)⟫ ;;
  .set 0 (.var 5) ;;
  .set 6 (.lib .bigSetBytes ⟪(.var 0)⟫) ;;
  .set 7 (.lib .makeList ⟪(.lit (.str [])), (.var 3)⟫) ;;
  .set 8 (.lib .bigNew ⟪(.lit (.i64 0))⟫) ;;
  .set 9 (.bin .sub (.var 3) (.lit (.int 1))) ;;
  .for_ bip39_NewMnemonic_cond1 bip39_NewMnemonic_post1 bip39_NewMnemonic_body1 ;;
  .ret ⟪(.lib .join ⟪(.var 7), (.lit (.str (str " ")))⟫), (.lit (.err none))⟫

/-- `MnemonicToByteArray` (bip39/bip39.go:217-238). Variables: 0 `mnemonic`, 1 `raw`, 2 `mnemonicSlice`, 3 `entropyBitSize`, 4 `checksumBitSize`, 5 `fullByteSize`, 6 `rawEntropyBytes`, 7 `err`. -/
def bip39_MnemonicToByteArray : Stmt :=
  .set 2 (.lib .split ⟪(.var 0), (.lit (.str (str " ")))⟫) ;;
  .set 3 (.bin .mul (.lib .len ⟪(.var 2)⟫) (.lit (.int 11))) ;;
  .set 4 (.bin .mod (.var 3) (.lit (.int 32))) ;;
  .set 5 (.bin .add (.bin .div (.bin .sub (.var 3) (.var 4)) (.lit (.int 8))) (.lit (.int 1))) ;;
  .call [some 6, some 7] .bip39_EntropyFromMnemonic ⟪(.var 0)⟫ ;;
  .ite (.not (.lib .isNil ⟪(.var 7)⟫)) (
    .ret ⟪(.lit (.bytes [])), (.var 7)⟫) (
    .skip) ;;
  .ite (.and (.bin .gt (.lib .len ⟪(.var 1)⟫) (.lit (.int 0))) (.lib .index ⟪(.var 1), (.lit (.int 0))⟫)) (
    .ret ⟪(.var 6), (.lit (.err none))⟫) (
    .skip) ;;
  .call [some 8] .bip39_addChecksum ⟪(.var 6)⟫ ;;
  .call [some 9] .bip39_padByteSlice ⟪(.var 8), (.var 5)⟫ ;;
  .ret ⟪(.var 9), (.lit (.err none))⟫

/-- `NewSeedWithErrorChecking` (bip39/bip39.go:242-249). Variables: 0 `mnemonic`, 1 `password`, 3 `err`. -/
def bip39_NewSeedWithErrorChecking : Stmt :=
  .call [some 2, some 3] .bip39_MnemonicToByteArray ⟪(.var 0), ⟪⟫⟫ ;;
  .ite (.not (.lib .isNil ⟪(.var 3)⟫)) (
    .ret ⟪(.lit (.bytes [])), (.var 3)⟫) (
    .skip) ;;
  .call [some 4] .bip39_NewSeed ⟪(.var 0), (.var 1)⟫ ;;
  .ret ⟪(.var 4), (.lit (.err none))⟫

/-- `NewSeed` (bip39/bip39.go:253-255). Variables: 0 `mnemonic`, 1 `password`. -/
def bip39_NewSeed : Stmt :=
  .ret ⟪(.lib .pbkdf2 ⟪(.lib .toBytes ⟪(.var 0)⟫), (.lib .toBytes ⟪(.bin .add (.lit (.str (str "mnemonic"))) (.var 1))⟫), (.lit (.int 2048)), (.lit (.int 64))⟫)⟫

/-- `IsMnemonicValid` (bip39/bip39.go:260-263). Variables: 0 `mnemonic`, 2 `err`. -/
def bip39_IsMnemonicValid : Stmt :=
  .call [some 1, some 2] .bip39_EntropyFromMnemonic ⟪(.var 0)⟫ ;;
  .ret ⟪(.lib .isNil ⟪(.var 2)⟫)⟫

/-- The body of loop 1 of `addChecksum` (bip39/bip39.go:267-291). -/
def bip39_addChecksum_body1 : Stmt :=
  .set 4 (.lib .bigMul ⟪(.var 4), (.lit (.big 2))⟫) ;;
  .ite (.bin .gt (.bin .band (.var 2) (.bin .shl (.lit (.u8 1)) (.bin .sub (.lit (.uint 7)) (.var 5)))) (.lit (.u8 0))) (
    .set 4 (.lib .bigOr ⟪(.var 4), (.lit (.big 1))⟫)) (
    .skip)

/-- The condition of loop 1 of `addChecksum` (bip39/bip39.go:267-291). -/
def bip39_addChecksum_cond1 : Expr :=
  (.bin .lt (.var 5) (.var 3))

/-- The post statement of loop 1 of `addChecksum` (bip39/bip39.go:267-291). -/
def bip39_addChecksum_post1 : Stmt :=
  .set 5 (.bin .add (.var 5) (.lit (.uint 1)))

/-- `addChecksum` (bip39/bip39.go:267-291). Variables: 0 `data`, 1 `hash`, 2 `firstChecksumByte`, 3 `checksumBitLength`, 4 `dataBigInt`, 5 `i`. -/
def bip39_addChecksum : Stmt :=
  .call [some 1] .bip39_computeChecksum ⟪(.var 0)⟫ ;;
  .set 2 (.lib .index ⟪(.var 1), (.lit (.int 0))⟫) ;;
  .set 3 (.lib (.conv .uint) ⟪(.bin .div (.lib .len ⟪(.var 0)⟫) (.lit (.int 4)))⟫) ;;
  .set 4 (.lib .bigSetBytes ⟪(.var 0)⟫) ;;
  .set 5 (.lit (.uint 0)) ;;
  .for_ bip39_addChecksum_cond1 bip39_addChecksum_post1 bip39_addChecksum_body1 ;;
  .ret ⟪(.lib .bigBytes ⟪(.var 4)⟫)⟫

/-- `computeChecksum` (bip39/bip39.go:293-296). Variables: 0 `data`, 1 `bs`. -/
def bip39_computeChecksum : Stmt :=
  .set 1 (.lib .sha256 ⟪(.var 0)⟫) ;;
  .ret ⟪(.lib .sliceFrom ⟪(.var 1), (.lit (.int 0))⟫)⟫

/-- `validateEntropyBitSize` (bip39/bip39.go:300-306). Variables: 0 `bitSize`. -/
def bip39_validateEntropyBitSize : Stmt :=
  .ite (.or (.or (.bin .ne (.bin .mod (.var 0) (.lit (.int 32))) (.lit (.int 0))) (.bin .lt (.var 0) (.lit (.int 128)))) (.bin .gt (.var 0) (.lit (.int 256)))) (
    .ret ⟪(.lit (.err (some .entropyLengthInvalid)))⟫) (
    .skip) ;;
  .ret ⟪(.lit (.err none))⟫

/-- `padByteSlice` (bip39/bip39.go:310-320). Variables: 0 `slice`, 1 `length`, 2 `offset`, 3 `newSlice`. -/
def bip39_padByteSlice : Stmt :=
  .set 2 (.bin .sub (.var 1) (.lib .len ⟪(.var 0)⟫)) ;;
  .ite (.bin .le (.var 2) (.lit (.int 0))) (
    .ret ⟪(.var 0)⟫) (
    .skip) ;;
  .set 3 (.lib .makeBytes ⟪(.var 1)⟫) ;;
  .set 3 (.lib .copyInto ⟪(.var 3), (.var 2), (.lib .len ⟪(.var 3)⟫), (.var 0)⟫) ;;
  .ret ⟪(.var 3)⟫

/-- The body of loop 1 of `compareByteSlices` (bip39/bip39.go:324-336). -/
def bip39_compareByteSlices_body1 : Stmt :=
  .ite (.bin .ne (.lib .index ⟪(.var 0), (.var 2)⟫) (.lib .index ⟪(.var 1), (.var 2)⟫)) (
    .ret ⟪(.lit (.bool false))⟫) (
    .skip)

/-- `compareByteSlices` (bip39/bip39.go:324-336). Variables: 0 `a`, 1 `b`, 2 `i`. -/
def bip39_compareByteSlices : Stmt :=
  .ite (.bin .ne (.lib .len ⟪(.var 0)⟫) (.lib .len ⟪(.var 1)⟫)) (
    .ret ⟪(.lit (.bool false))⟫) (
    .skip) ;;
  .range (some 2) none (.var 0) bip39_compareByteSlices_body1 ;;
  .ret ⟪(.lit (.bool true))⟫

/-- `splitMnemonicWords` (bip39/bip39.go:338-351). Variables: 0 `mnemonic`, 1 `words`, 2 `numOfWords`. -/
def bip39_splitMnemonicWords : Stmt :=
  .set 1 (.lib .fields ⟪(.var 0)⟫) ;;
  .set 2 (.lib .len ⟪(.var 1)⟫) ;;
  .ite (.or (.or (.bin .ne (.bin .mod (.var 2) (.lit (.int 3))) (.lit (.int 0))) (.bin .lt (.var 2) (.lit (.int 12)))) (.bin .gt (.var 2) (.lit (.int 24)))) (
    .ret ⟪(.lit (.list [])), (.lit (.bool false))⟫) (
    .skip) ;;
  .ret ⟪(.var 1), (.lit (.bool true))⟫

/-- `GenerateMnemonic` (util/util.go:20-45). Variables: 0 `wordsCount`, 1 `bitSize`, 2 `bs`, 3 `err`, 4 `mnemonic`. -/
def util_GenerateMnemonic : Stmt :=
  .set 1 (.lit (.int 0)) ;;
  .ite (.bin .eq (.var 0) (.lit (.u8 12))) (
    .set 1 (.lit (.int 128))) (
    .ite (.bin .eq (.var 0) (.lit (.u8 15))) (
      .set 1 (.lit (.int 160))) (
      .ite (.bin .eq (.var 0) (.lit (.u8 18))) (
        .set 1 (.lit (.int 192))) (
        .ite (.bin .eq (.var 0) (.lit (.u8 21))) (
          .set 1 (.lit (.int 224))) (
          .ite (.bin .eq (.var 0) (.lit (.u8 24))) (
            .set 1 (.lit (.int 256))) (
            .ret ⟪(.lit (.str (str ""))), (.lit (.err (some .invalidMnemonicWordsCount)))⟫))))) ;;
  .call [some 2, some 3] .bip39_NewEntropy ⟪(.var 1)⟫ ;;
  .ite (.not (.lib .isNil ⟪(.var 3)⟫)) (
    .ret ⟪(.lit (.str (str ""))), (.var 3)⟫) (
    .skip) ;;
  .call [some 4, some 5] .bip39_NewMnemonic ⟪(.var 2)⟫ ;;
  .set 3 (.var 5) ;;
  .ite (.not (.lib .isNil ⟪(.var 3)⟫)) (
    .ret ⟪(.lit (.str (str ""))), (.var 3)⟫) (
    .skip) ;;
  .ret ⟪(.var 4), (.lit (.err none))⟫

/-- `DeriveSeedFromMnemonic` (util/util.go:47-53). Variables: 0 `mnemonic`, 1 `mnemonicPassphrase`, 3 `err`. -/
def util_DeriveSeedFromMnemonic : Stmt :=
  .call [some 2, some 3] .bip39_EntropyFromMnemonic ⟪(.var 0)⟫ ;;
  .ite (.not (.lib .isNil ⟪(.var 3)⟫)) (
    .ret ⟪(.lit (.str (str ""))), (.var 3)⟫) (
    .skip) ;;
  .call [some 4] .bip39_NewSeed ⟪(.var 0), (.var 1)⟫ ;;
  .ret ⟪(.lib .hexEncode ⟪(.var 4)⟫), (.lit (.err none))⟫

/-- `RootKeyFromSeed` (util/util.go:56-75). Variables: 0 `seed`, 1 `rootKey`, 2 `seedBs`, 3 `err`, 6 `ser`. -/
def util_RootKeyFromSeed : Stmt :=
  .set 1 (.lit (.bytes (List.replicate 78 0))) ;;
  .setTuple [2, 3] (.lib .hexDecode ⟪(.var 0)⟫) ;;
  .ite (.not (.lib .isNil ⟪(.var 3)⟫)) (
    .ret ⟪(.var 1), (.var 3)⟫) (
    .skip) ;;
  .ite (.bin .lt (.lib .len ⟪(.var 2)⟫) (.lit (.int 16))) (
    .ret ⟪(.var 1), (.lit (.err (some .invalidBIP39Seed)))⟫) (
    .skip) ;;
  .call [some 4, some 5] .bip32_NewMasterKey ⟪(.var 2)⟫ ;;
  .set 1 (.var 4) ;;
  .set 3 (.var 5) ;;
  .call [some 6, some 7] .bip32_Key_Serialize ⟪(.var 1)⟫ ;;
  .set 3 (.var 7) ;;
  .ite (.not (.lib .isNil ⟪(.var 3)⟫)) (
    .ret ⟪(.var 1), (.var 3)⟫) (
    .skip) ;;
  .call [some 8, some 9] .bip32_Deserialize ⟪(.var 6)⟫ ;;
  .set 3 (.var 9) ;;
  .ite (.not (.lib .isNil ⟪(.var 3)⟫)) (
    .ret ⟪(.var 1), (.var 3)⟫) (
    .skip) ;;
  .ret ⟪(.var 1), (.lit (.err none))⟫

/-- `SetRootKey` (util/util.go:83-85). Variables: 0 `g`, 1 `k`. -/
def util_Generator_SetRootKey : Stmt :=
  .set 0 (.lib (.setField 0) ⟪(.var 0), (.var 1)⟫) ;;
  .ret ⟪(.var 0)⟫

/-- `RootKey` (util/util.go:87-89). Variables: 0 `g`. -/
def util_Generator_RootKey : Stmt :=
  .ret ⟪(.lib (.field 0) ⟪(.var 0)⟫)⟫

/-- The body of loop 1 of `DeriveBIP32Result` (util/util.go:91-127). -/
def util_Generator_DeriveBIP32Result_body1 : Stmt :=
  .set 9 (.lib .sprintf ⟪(.lit (.str (str "%s/%d"))), (.var 9), (.bin .mod (.var 13) (.lit (.u32 2147483648)))⟫) ;;
  .ite (.bin .ge (.var 13) (.lit (.u32 2147483648))) (
    .set 9 (.bin .add (.var 9) (.lit (.str (str "'"))))) (
    .skip) ;;
  .call [some 14, some 15] .bip32_Key_NewChildKey ⟪(.var 12), (.var 13)⟫ ;;
  .set 12 (.var 14) ;;
  .call [some 16] .bip32_Path_Formatted ⟪(.var 9)⟫ ;;
  .set 11 (.lib .snoc ⟪(.var 11), ⟪(.var 16), (.var 12)⟫⟫)

/-- `DeriveBIP32Result` (util/util.go:91-127). Variables: 0 `g`, 1 `p`, 2 `rootKey`, 7 `pathItems`, 8 `err`, 9 `derivedPath`, 10 `keyPath`, 11 `keyPaths`, 12 `currentKey`, 13 `val`. -/
def util_Generator_DeriveBIP32Result : Stmt :=
  .call [some 2] .util_Generator_RootKey ⟪(.var 0)⟫ ;;
  .call [some 3] .bip32_Key_IsValid ⟪(.var 2)⟫ ;;
  .set 4 (.not (.var 3)) ;;
  .ite (.var 4) (
    .skip) (
    .call [some 5] .bip32_Key_IsPrivate ⟪(.var 2)⟫ ;;
    .set 4 (.not (.var 5))) ;;
  .ite (.or (.var 4) (.bin .ne (.lib .index ⟪(.var 2), (.lit (.int 4))⟫) (.lit (.u8 0)))) (
    .ret ⟪(.lit (.list [])), (.lit (.err (some .invalidRootKey)))⟫) (
    .skip) ;;
  .call [some 6] .bip32_Path_IsValid ⟪(.var 1)⟫ ;;
  .ite (.not (.var 6)) (
    .ret ⟪(.lit (.list [])), (.lit (.err (some .utilUnSupportedOrInvalidPath)))⟫) (
    .skip) ;;
  .call [some 7, some 8] .bip32_Path_ValuesAtDepth ⟪(.var 1)⟫ ;;
  .ite (.not (.lib .isNil ⟪(.var 8)⟫)) (
    .ret ⟪(.lit (.list [])), (.var 8)⟫) (
    .skip) ;;
  .set 9 (.lit (.str (str "m"))) ;;
  .set 10 ⟪(.var 9), (.lib .deref ⟪(.var 2)⟫)⟫ ;;
  .set 11 (.lib .makeList ⟪(.cons (.lit (.str [])) (.cons (.lit (.bytes (List.replicate 78 0))) .nilL)), (.lit (.int 1))⟫) ;;
  .set 11 (.lib .setIndex ⟪(.var 11), (.lit (.int 0)), (.var 10)⟫) ;;
  .set 12 (.lib .deref ⟪(.var 2)⟫) ;;
  .ite (.bin .gt (.lib .len ⟪(.var 7)⟫) (.lit (.int 0))) (
    .range none (some 13) (.lib .sliceFrom ⟪(.var 7), (.lit (.int 1))⟫) util_Generator_DeriveBIP32Result_body1) (
    .skip) ;;
  .ret ⟪(.var 11), (.lit (.err none))⟫

/-- `AddrHex` (util/key_path.go:16-26). Variables: 0 `b`, 2 `pbs`, 3 `err`, 4 `x`, 5 `y`, 6 `addrBs`, 7 `kckHash`. -/
def util_KeyPath_AddrHex : Stmt :=
  .call [some 1] .bip32_Key_PublicKeyHex ⟪(.lib (.field 1) ⟪(.var 0)⟫)⟫ ;;
  .setTuple [2, 3] (.lib .hexDecode ⟪(.var 1)⟫) ;;
  .ite (.not (.lib .isNil ⟪(.var 3)⟫)) (
    .ret ⟪(.lit (.str (str "")))⟫) (
    .skip) ;;
  .call [some 4, some 5] .bip32_ExpandPublicKey ⟪(.var 2)⟫ ;;
  .set 6 (.lib .append ⟪(.lib .bigBytes ⟪(.var 4)⟫), (.lib .bigBytes ⟪(.var 5)⟫)⟫) ;;
  .set 7 (.lit (.hash .keccak256 [] [])) ;;
  .set 7 (.lib .hashWrite ⟪(.var 7), (.var 6)⟫) ;;
  .ret ⟪(.lib .hexEncode ⟪(.lib .sliceFrom ⟪(.lib .hashSum ⟪(.var 7)⟫), (.lit (.int 12))⟫)⟫)⟫

/-- `AddrP2SH` (util/key_path.go:28-44). Variables: 0 `b`, 1 `verPrefix`, 3 `pbs`, 4 `err`, 5 `pubKeyHash`, 7 `verPubKeyHash`, 8 `chkSum`, 10 `addBs`. -/
def util_KeyPath_AddrP2SH : Stmt :=
  .call [some 2] .bip32_Key_PublicKeyHex ⟪(.lib (.field 1) ⟪(.var 0)⟫)⟫ ;;
  .setTuple [3, 4] (.lib .hexDecode ⟪(.var 2)⟫) ;;
  .ite (.not (.lib .isNil ⟪(.var 4)⟫)) (
    .ret ⟪(.lit (.str (str "")))⟫) (
    .skip) ;;
  .call [some 5, some 6] .bip32_HashRipeMD160onSha256 ⟪(.var 3)⟫ ;;
  .set 4 (.var 6) ;;
  .ite (.not (.lib .isNil ⟪(.var 4)⟫)) (
    .ret ⟪(.lit (.str (str "")))⟫) (
    .skip) ;;
  .set 7 (.lib .append ⟪(.lib .bytesOf ⟪(.var 1)⟫), (.var 5)⟫) ;;
  .call [some 8, some 9] .bip32_ChecksumDblSha256 ⟪(.var 7)⟫ ;;
  .set 4 (.var 9) ;;
  .ite (.not (.lib .isNil ⟪(.var 4)⟫)) (
    .ret ⟪(.lit (.str (str "")))⟫) (
    .skip) ;;
  .set 10 (.lib .append ⟪(.var 7), (.var 8)⟫) ;;
  .ret ⟪(.lib .b58Encode ⟪(.var 10)⟫)⟫

/-- The body of loop 1 of `GenerateRange` (util/key_path.go:76-106). -/
def util_KeyPathRange_GenerateRange_body1 : Stmt :=
  .set 6 (.lib .sprintf ⟪(.lit (.str (str "%s/%d"))), (.var 6), (.bin .mod (.var 8) (.lit (.u32 2147483648)))⟫) ;;
  .ite (.bin .ge (.var 8) (.lit (.u32 2147483648))) (
    .set 6 (.bin .add (.var 6) (.lit (.str (str "'"))))) (
    .skip) ;;
  .call [some 9, some 10] .bip32_Key_NewChildKey ⟪(.var 5), (.var 8)⟫ ;;
  .set 5 (.var 9) ;;
  .call [some 11] .bip32_Path_Formatted ⟪(.var 6)⟫ ;;
  .set 7 (.lib .snoc ⟪(.var 7), ⟪(.var 11), (.var 5)⟫⟫)

/-- The condition of loop 1 of `GenerateRange` (util/key_path.go:76-106). -/
def util_KeyPathRange_GenerateRange_cond1 : Expr :=
  (.bin .lt (.var 8) (.var 2))

/-- The post statement of loop 1 of `GenerateRange` (util/key_path.go:76-106). -/
def util_KeyPathRange_GenerateRange_post1 : Stmt :=
  .set 8 (.bin .add (.var 8) (.lit (.u32 1)))

/-- `GenerateRange` (util/key_path.go:76-106). Variables: 0 `k`, 1 `startIndex`, 2 `endIndex`, 5 `currentKey`, 6 `derivedPath`, 7 `keyPaths`, 8 `i`. -/
def util_KeyPathRange_GenerateRange : Stmt :=
  .set 1 (.lib (.field 0) ⟪(.var 0)⟫) ;;
  .set 2 (.lib (.field 1) ⟪(.var 0)⟫) ;;
  .ite (.bin .lt (.bin .sub (.var 2) (.var 1)) (.lit (.u32 1))) (
    .ret ⟪(.var 0), (.lit (.err (some .invalidRangeProvided)))⟫) (
    .skip) ;;
  .call [some 3] .bip32_Key_IsValid ⟪(.lib (.field 1) ⟪(.lib (.field 2) ⟪(.var 0)⟫)⟫)⟫ ;;
  .ite (.not (.var 3)) (
    .ret ⟪(.var 0), (.lit (.err (some .invalidRootKey)))⟫) (
    .skip) ;;
  .call [some 4] .bip32_Path_IsValid ⟪(.lib (.field 0) ⟪(.lib (.field 2) ⟪(.var 0)⟫)⟫)⟫ ;;
  .ite (.not (.var 4)) (
    .ret ⟪(.var 0), (.lit (.err (some .utilUnSupportedOrInvalidPath)))⟫) (
    .skip) ;;
  .set 5 (.lib (.field 1) ⟪(.lib (.field 2) ⟪(.var 0)⟫)⟫) ;;
  .call [some 6] .bip32_Path_String ⟪(.lib (.field 0) ⟪(.lib (.field 2) ⟪(.var 0)⟫)⟫)⟫ ;;
  .set 7 (.lib .makeList ⟪(.cons (.lit (.str [])) (.cons (.lit (.bytes (List.replicate 78 0))) .nilL)), (.lit (.int 0))⟫) ;;
  .set 8 (.var 1) ;;
  .for_ util_KeyPathRange_GenerateRange_cond1 util_KeyPathRange_GenerateRange_post1 util_KeyPathRange_GenerateRange_body1 ;;
  .set 0 (.lib (.setField 3) ⟪(.var 0), (.var 7)⟫) ;;
  .ret ⟪(.var 0), (.lit (.err none))⟫

/-- `StringForMD` (bip44/coin.go:16-20). Variables: 0 `c`. -/
def bip44_Coin_StringForMD : Stmt :=
  .ret ⟪(.lib .sprintf ⟪(.lit (.str (str "{Type: %d, PathComponent: 0x%x, Symbol: \"%s\", Name: \"%s\"}"))), (.lib (.field 0) ⟪(.var 0)⟫), (.lib (.field 1) ⟪(.var 0)⟫), (.lib (.field 2) ⟪(.var 0)⟫), (.lib (.field 3) ⟪(.var 0)⟫)⟫)⟫

/-- `String` (bip44/coin.go:22-31). Variables: 0 `c`, 1 `name`. -/
def bip44_Coin_String : Stmt :=
  .set 1 (.lit (.str [])) ;;
  .ite (.bin .eq (.lib (.field 2) ⟪(.var 0)⟫) (.lit (.str (str "")))) (
    .set 1 (.lib (.field 3) ⟪(.var 0)⟫)) (
    .set 1 (.bin .add (.bin .add (.lib (.field 2) ⟪(.var 0)⟫) (.lit (.str (str " - ")))) (.lib (.field 3) ⟪(.var 0)⟫))) ;;
  .set 1 (.lib .sprintf ⟪(.lit (.str (str "%s (Type %d)"))), (.var 1), (.lib (.field 0) ⟪(.var 0)⟫)⟫) ;;
  .ret ⟪(.var 1)⟫

/-- `IsValid` (bip44/coin.go:33-37). Variables: 0 `c`. -/
def bip44_Coin_IsValid : Stmt :=
  .ret ⟪(.and (.and (.and (.bin .ne (.bin .add (.lib .trimSpace ⟪(.lib (.field 3) ⟪(.var 0)⟫)⟫) (.lib .trimSpace ⟪(.lib (.field 2) ⟪(.var 0)⟫)⟫)) (.lit (.str (str "")))) (.bin .lt (.lib (.field 0) ⟪(.var 0)⟫) (.lit (.u32 2147483648)))) (.bin .ge (.lib (.field 1) ⟪(.var 0)⟫) (.lit (.u32 2147483648)))) (.bin .eq (.bin .add (.lib (.field 0) ⟪(.var 0)⟫) (.lit (.u32 2147483648))) (.lib (.field 1) ⟪(.var 0)⟫)))⟫

/-- `init, the comparison of the sort` (bip44/coins.go:1152-1154). Variables: 0 `RegCoins`, 1 `i`, 2 `j`. -/
def bip44_less : Stmt :=
  .ret ⟪(.var 0), (.bin .lt (.lib (.field 3) ⟪(.lib .index ⟪(.var 0), (.var 1)⟫)⟫) (.lib (.field 3) ⟪(.lib .index ⟪(.var 0), (.var 2)⟫)⟫))⟫

/-- The body of loop 1 of `init` (bip44/coins.go:1151-1165). -/
def bip44_init_body1 : Stmt :=
  .call [some 5] .bip44_Coin_IsValid ⟪(.lib .index ⟪(.var 0), (.var 4)⟫)⟫ ;;
  .ite (.not (.var 5)) (
    .set 0 (.lib .setIndex ⟪(.var 0), (.var 4), (.lib (.setField 0) ⟪(.lib .index ⟪(.var 0), (.var 4)⟫), (.bin .mod (.lib (.field 1) ⟪(.lib .index ⟪(.var 0), (.var 4)⟫)⟫) (.lit (.u32 2147483648)))⟫)⟫)) (
    .skip) ;;
  .set 1 (.lib .tableSet ⟪(.var 1), (.lib (.field 0) ⟪(.lib .index ⟪(.var 0), (.var 4)⟫)⟫), (.lib .index ⟪(.var 0), (.var 4)⟫)⟫) ;;
  .set 2 (.lib .tableSet ⟪(.var 2), (.lib (.field 3) ⟪(.lib .index ⟪(.var 0), (.var 4)⟫)⟫), (.lib .index ⟪(.var 0), (.var 4)⟫)⟫) ;;
  .set 3 (.lib .tableSet ⟪(.var 3), (.lib (.field 1) ⟪(.lib .index ⟪(.var 0), (.var 4)⟫)⟫), (.lib .index ⟪(.var 0), (.var 4)⟫)⟫)

/-- `init` (bip44/coins.go:1151-1165). Variables: 0 `RegCoins`, 1 `RegBip44CoinsTypeToValMap`, 2 `RegBip44CoinsNameToValMap`, 3 `RegBip44CoinsPathCompToValMap`, 4 `i`. -/
def bip44_init : Stmt :=
  .range (some 4) none (.var 0) bip44_init_body1 ;;
  .ret ⟪(.var 0), (.var 1), (.var 2), (.var 3)⟫

/-- `PushLeft` (examples/ui/one/slider.go:31-31). Variables: 0 `s`. -/
def main_Slider_PushLeft : Stmt :=
  .set 0 (.lib (.setField 1) ⟪(.var 0), (.lit (.int 1))⟫) ;;
  .ret ⟪(.var 0)⟫

/-- `PushRight` (examples/ui/one/slider.go:34-34). Variables: 0 `s`. -/
def main_Slider_PushRight : Stmt :=
  .set 0 (.lib (.setField 1) ⟪(.var 0), (.lit (.int (-1)))⟫) ;;
  .ret ⟪(.var 0)⟫

/-- `Layout` (examples/ui/one/slider.go:37-116). Variables: 0 `bufs`, 1 `s`, 2 `w`, 3 `width`, 4 `gtx.Now`, 5 `gtx.Ops`, 6 `draws`, 7 `again`, 8 `shift`, 9 `delta`, 10 `now`, 11 `duration`, 12 `movement`, 13 `dims`, 14 `gtx.Ops`, 15 `m`, 16 `offset`. -/
def main_Slider_Layout : Stmt :=
  .set 6 (.lit (.list [])) ;;
  .set 7 (.lit (.bool false)) ;;
  .set 8 (.lit (.int 0)) ;;
  .ite (.bin .ne (.lib (.field 1) ⟪(.var 1)⟫) (.lit (.int 0))) (
    .set 1 (.lib (.setField 2) ⟪(.var 1), (.lit .nil)⟫) ;;
    .set 1 (.lib (.setField 4) ⟪(.var 1), (.lib (.field 3) ⟪(.var 1)⟫)⟫) ;;
    .set 1 (.lib (.setField 6) ⟪(.var 1), (.lib .toF32 ⟪(.lib (.field 1) ⟪(.var 1)⟫)⟫)⟫) ;;
    .set 1 (.lib (.setField 5) ⟪(.var 1), (.var 4)⟫) ;;
    .set 1 (.lib (.setField 1) ⟪(.var 1), (.lit (.int 0))⟫)) (
    .skip) ;;
  .set 9 (.lit (.int 0)) ;;
  .ite (.not (.bin .eq (.lib (.field 5) ⟪(.var 1)⟫) (.lit (.int 0)))) (
    .set 10 (.var 4) ;;
    .set 9 (.lib .timeSub ⟪(.var 10), (.lib (.field 5) ⟪(.var 1)⟫)⟫) ;;
    .set 1 (.lib (.setField 5) ⟪(.var 1), (.var 10)⟫)) (
    .skip) ;;
  .ite (.bin .ne (.lib (.field 6) ⟪(.var 1)⟫) (.lit (.f32 0))) (
    .set 11 (.lib (.field 0) ⟪(.var 1)⟫) ;;
    .ite (.bin .eq (.var 11) (.lit (.int 0))) (
      .set 11 (.lit (.int 300000000))) (
      .skip) ;;
    .set 12 (.bin .div (.lib .toF32 ⟪(.lib .seconds ⟪(.var 9)⟫)⟫) (.lib .toF32 ⟪(.lib .seconds ⟪(.var 11)⟫)⟫)) ;;
    .ite (.bin .lt (.lib (.field 6) ⟪(.var 1)⟫) (.lit (.f32 0))) (
      .set 1 (.lib (.setField 6) ⟪(.var 1), (.bin .add (.lib (.field 6) ⟪(.var 1)⟫) (.var 12))⟫) ;;
      .ite (.bin .ge (.lib (.field 6) ⟪(.var 1)⟫) (.lit (.f32 0))) (
        .set 1 (.lib (.setField 6) ⟪(.var 1), (.lit (.f32 0))⟫)) (
        .skip)) (
      .set 1 (.lib (.setField 6) ⟪(.var 1), (.bin .sub (.lib (.field 6) ⟪(.var 1)⟫) (.var 12))⟫) ;;
      .ite (.bin .le (.lib (.field 6) ⟪(.var 1)⟫) (.lit (.f32 0))) (
        .set 1 (.lib (.setField 6) ⟪(.var 1), (.lit (.f32 0))⟫)) (
        .skip)) ;;
    .set 7 (.lit (.bool true))) (
    .skip) ;;
  .set 13 (.lit (.int 0)) ;;
  .ite (.lib .isNil ⟪(.lib (.field 2) ⟪(.var 1)⟫)⟫) (
    .set 1 (.lib (.setField 2) ⟪(.var 1), (.lib .len ⟪(.var 0)⟫)⟫) ;;
    .set 0 (.lib .snoc ⟪(.var 0), (.lit .nil)⟫)) (
    .skip) ;;
  .set 14 (.var 5) ;;
  .set 14 (.lib (.field 2) ⟪(.var 1)⟫) ;;
  .set 0 (.lib .setIndex ⟪(.var 0), (.var 14), (.lit .nil)⟫) ;;
  .set 15 (.var 14) ;;
  .set 0 (.lib .setIndex ⟪(.var 0), (.var 14), (.var 2)⟫) ;;
  .set 13 (.var 3) ;;
  .set 1 (.lib (.setField 3) ⟪(.var 1), (.var 15)⟫) ;;
  .ite (.bin .eq (.lib (.field 6) ⟪(.var 1)⟫) (.lit (.f32 0))) (
    .ite (.not (.lib .isNil ⟪(.lib (.field 3) ⟪(.var 1)⟫)⟫)) (
      .set 6 (.lib .snoc ⟪(.var 6), ⟪(.var 8), (.lib .index ⟪(.var 0), (.lib (.field 3) ⟪(.var 1)⟫)⟫)⟫⟫)) (
      .skip) ;;
    .ret ⟪(.var 0), (.var 1), (.var 6), (.var 7), (.var 13)⟫) (
    .skip) ;;
  .call [some 16] .main_smooth ⟪(.lib (.field 6) ⟪(.var 1)⟫)⟫ ;;
  .ite (.bin .gt (.lib (.field 6) ⟪(.var 1)⟫) (.lit (.f32 0))) (
    .set 8 (.bin .add (.var 8) (.lib .truncF ⟪(.bin .mul (.lib .toF32 ⟪(.var 13)⟫) (.bin .sub (.var 16) (.lit (.f32 1))))⟫)) ;;
    .ite (.not (.lib .isNil ⟪(.lib (.field 4) ⟪(.var 1)⟫)⟫)) (
      .set 6 (.lib .snoc ⟪(.var 6), ⟪(.var 8), (.lib .index ⟪(.var 0), (.lib (.field 4) ⟪(.var 1)⟫)⟫)⟫⟫)) (
      .skip) ;;
    .set 8 (.bin .add (.var 8) (.var 13)) ;;
    .ite (.not (.lib .isNil ⟪(.lib (.field 3) ⟪(.var 1)⟫)⟫)) (
      .set 6 (.lib .snoc ⟪(.var 6), ⟪(.var 8), (.lib .index ⟪(.var 0), (.lib (.field 3) ⟪(.var 1)⟫)⟫)⟫⟫)) (
      .skip)) (
    .set 8 (.bin .add (.var 8) (.lib .truncF ⟪(.bin .mul (.lib .toF32 ⟪(.var 13)⟫) (.bin .add (.var 16) (.lit (.f32 1))))⟫)) ;;
    .ite (.not (.lib .isNil ⟪(.lib (.field 4) ⟪(.var 1)⟫)⟫)) (
      .set 6 (.lib .snoc ⟪(.var 6), ⟪(.var 8), (.lib .index ⟪(.var 0), (.lib (.field 4) ⟪(.var 1)⟫)⟫)⟫⟫)) (
      .skip) ;;
    .set 8 (.bin .add (.var 8) (.lib .neg ⟪(.var 13)⟫)) ;;
    .ite (.not (.lib .isNil ⟪(.lib (.field 3) ⟪(.var 1)⟫)⟫)) (
      .set 6 (.lib .snoc ⟪(.var 6), ⟪(.var 8), (.lib .index ⟪(.var 0), (.lib (.field 3) ⟪(.var 1)⟫)⟫)⟫⟫)) (
      .skip)) ;;
  .ret ⟪(.var 0), (.var 1), (.var 6), (.var 7), (.var 13)⟫

/-- `smooth` (examples/ui/one/slider.go:119-124). Variables: 0 `t`. -/
def main_smooth : Stmt :=
  .ite (.bin .lt (.var 0) (.lit (.f32 0))) (
    .call [some 1] .main_easeInOutCubic ⟪(.lib .neg ⟪(.var 0)⟫)⟫ ;;
    .ret ⟪(.lib .neg ⟪(.var 1)⟫)⟫) (
    .skip) ;;
  .call [some 2] .main_easeInOutCubic ⟪(.var 0)⟫ ;;
  .ret ⟪(.var 2)⟫

/-- `easeInOutCubic` (examples/ui/one/slider.go:127-132). Variables: 0 `t`. -/
def main_easeInOutCubic : Stmt :=
  .ite (.bin .lt (.var 0) (.lit (.f32 (1 / 2)))) (
    .ret ⟪(.bin .mul (.bin .mul (.bin .mul (.lit (.f32 4)) (.var 0)) (.var 0)) (.var 0))⟫) (
    .skip) ;;
  .ret ⟪(.bin .add (.bin .mul (.bin .mul (.bin .sub (.var 0) (.lit (.f32 1))) (.bin .sub (.bin .mul (.lit (.f32 2)) (.var 0)) (.lit (.f32 2)))) (.bin .sub (.bin .mul (.lit (.f32 2)) (.var 0)) (.lit (.f32 2)))) (.lit (.f32 1)))⟫

/-- The body of loop 1 of `onKeyPathChange` (examples/ui/one/main.go:76-89). -/
def main_onKeyPathChange_body1 : Stmt :=
  .set 13 (.lib .snoc ⟪(.var 13), ⟪(.var 21)⟫⟫)

/-- `onKeyPathChange` (examples/ui/one/main.go:76-89). Variables: 0 `mnemonicField`, 1 `mnemonicPassphraseField`, 2 `bip39SeedField`, 3 `bip32RootKeyField`, 4 `derivationField`, 5 `radioGroupMnemonicWords`, 6 `mnemonic`, 7 `mnemonicPassPhrase`, 8 `seed`, 9 `rootKeyStr`, 10 `derivationStr`, 11 `derivationPath`, 12 `bps`, 13 `keyPathTabs.tabs`, 14 `keyPathTabs.selected`, 15 `tabsSlider`, 16 `str`, 19 `keyPaths`, 21 `keyPath`. -/
def main_onKeyPathChange : Stmt :=
  .set 16 (.lit (.str (str "m"))) ;;
  .call [some 17] .bip32_Path_IsValid ⟪(.var 11)⟫ ;;
  .ite (.var 17) (
    .call [some 18] .bip32_Path_String ⟪(.var 11)⟫ ;;
    .set 16 (.var 18)) (
    .skip) ;;
  .call [some 19, some 20] .util_Generator_DeriveBIP32Result ⟪(.var 12), (.var 16)⟫ ;;
  .set 13 (.lib .makeList ⟪(.cons (.cons (.lit (.str [])) (.cons (.lit (.bytes (List.replicate 78 0))) .nilL)) .nilL), (.lit (.int 0))⟫) ;;
  .range none (some 21) (.var 19) main_onKeyPathChange_body1 ;;
  .ite (.bin .ge (.var 14) (.lib .len ⟪(.var 13)⟫)) (
    .set 14 (.bin .sub (.lib .len ⟪(.var 13)⟫) (.lit (.int 1)))) (
    .skip) ;;
  .ret ⟪(.var 0), (.var 1), (.var 2), (.var 3), (.var 4), (.var 5), (.var 6), (.var 7), (.var 8), (.var 9), (.var 10), (.var 11), (.var 12), (.var 13), (.var 14), (.var 15)⟫

/-- `onAutoCreateMnemonicClicked` (examples/ui/one/main.go:91-104). Variables: 0 `mnemonicField`, 1 `mnemonicPassphraseField`, 2 `bip39SeedField`, 3 `bip32RootKeyField`, 4 `derivationField`, 5 `radioGroupMnemonicWords`, 6 `mnemonic`, 7 `mnemonicPassPhrase`, 8 `seed`, 9 `rootKeyStr`, 10 `derivationStr`, 11 `derivationPath`, 12 `bps`, 13 `keyPathTabs.tabs`, 14 `keyPathTabs.selected`, 15 `tabsSlider`, 16 `val`, 17 `wordsCount`, 23 `rootKey`. -/
def main_onAutoCreateMnemonicClicked : Stmt :=
  .set 16 (.var 5) ;;
  .setTuple [17, 18] (.lib .atoi ⟪(.var 16)⟫) ;;
  .call [some 19, some 20] .util_GenerateMnemonic ⟪(.lib (.conv .u8) ⟪(.var 17)⟫)⟫ ;;
  .set 6 (.var 19) ;;
  .set 0 (.var 6) ;;
  .call [some 21, some 22] .util_DeriveSeedFromMnemonic ⟪(.var 6), (.var 7)⟫ ;;
  .set 8 (.var 21) ;;
  .set 2 (.var 8) ;;
  .call [some 23, some 24] .util_RootKeyFromSeed ⟪(.var 8)⟫ ;;
  .call [some 12] .util_Generator_SetRootKey ⟪(.var 12), (.lib .deref ⟪(.var 23)⟫)⟫ ;;
  .call [some 0, some 1, some 2, some 3, some 4, some 5, some 6, some 7, some 8, some 9, some 10, some 11, some 12, some 13, some 14, some 15] .main_onKeyPathChange ⟪(.var 0), (.var 1), (.var 2), (.var 3), (.var 4), (.var 5), (.var 6), (.var 7), (.var 8), (.var 9), (.var 10), (.var 11), (.var 12), (.var 13), (.var 14), (.var 15)⟫ ;;
  .call [some 25] .util_Generator_RootKey ⟪(.var 12)⟫ ;;
  .set 23 (.var 25) ;;
  .call [some 26] .bip32_Key_String ⟪(.var 23)⟫ ;;
  .set 9 (.var 26) ;;
  .set 3 (.var 9) ;;
  .ret ⟪(.var 0), (.var 1), (.var 2), (.var 3), (.var 4), (.var 5), (.var 6), (.var 7), (.var 8), (.var 9), (.var 10), (.var 11), (.var 12), (.var 13), (.var 14), (.var 15)⟫

/-- `onMnemonicChange` (examples/ui/one/main.go:105-115). Variables: 0 `mnemonicField`, 1 `mnemonicPassphraseField`, 2 `bip39SeedField`, 3 `bip32RootKeyField`, 4 `derivationField`, 5 `radioGroupMnemonicWords`, 6 `mnemonic`, 7 `mnemonicPassPhrase`, 8 `seed`, 9 `rootKeyStr`, 10 `derivationStr`, 11 `derivationPath`, 12 `bps`, 13 `keyPathTabs.tabs`, 14 `keyPathTabs.selected`, 15 `tabsSlider`, 18 `rootKey`. -/
def main_onMnemonicChange : Stmt :=
  .set 6 (.var 0) ;;
  .call [some 16, some 17] .util_DeriveSeedFromMnemonic ⟪(.var 6), (.var 7)⟫ ;;
  .set 8 (.var 16) ;;
  .set 2 (.var 8) ;;
  .call [some 18, some 19] .util_RootKeyFromSeed ⟪(.var 8)⟫ ;;
  .call [some 12] .util_Generator_SetRootKey ⟪(.var 12), (.lib .deref ⟪(.var 18)⟫)⟫ ;;
  .call [some 0, some 1, some 2, some 3, some 4, some 5, some 6, some 7, some 8, some 9, some 10, some 11, some 12, some 13, some 14, some 15] .main_onKeyPathChange ⟪(.var 0), (.var 1), (.var 2), (.var 3), (.var 4), (.var 5), (.var 6), (.var 7), (.var 8), (.var 9), (.var 10), (.var 11), (.var 12), (.var 13), (.var 14), (.var 15)⟫ ;;
  .call [some 20] .util_Generator_RootKey ⟪(.var 12)⟫ ;;
  .set 18 (.var 20) ;;
  .call [some 21] .bip32_Key_String ⟪(.var 18)⟫ ;;
  .set 9 (.var 21) ;;
  .set 3 (.var 9) ;;
  .ret ⟪(.var 0), (.var 1), (.var 2), (.var 3), (.var 4), (.var 5), (.var 6), (.var 7), (.var 8), (.var 9), (.var 10), (.var 11), (.var 12), (.var 13), (.var 14), (.var 15)⟫

/-- `onMnemonicPassphraseChange` (examples/ui/one/main.go:117-127). Variables: 0 `mnemonicField`, 1 `mnemonicPassphraseField`, 2 `bip39SeedField`, 3 `bip32RootKeyField`, 4 `derivationField`, 5 `radioGroupMnemonicWords`, 6 `mnemonic`, 7 `mnemonicPassPhrase`, 8 `seed`, 9 `rootKeyStr`, 10 `derivationStr`, 11 `derivationPath`, 12 `bps`, 13 `keyPathTabs.tabs`, 14 `keyPathTabs.selected`, 15 `tabsSlider`, 18 `rootKey`. -/
def main_onMnemonicPassphraseChange : Stmt :=
  .set 7 (.var 1) ;;
  .call [some 16, some 17] .util_DeriveSeedFromMnemonic ⟪(.var 6), (.var 7)⟫ ;;
  .set 8 (.var 16) ;;
  .set 2 (.var 8) ;;
  .call [some 18, some 19] .util_RootKeyFromSeed ⟪(.var 8)⟫ ;;
  .call [some 12] .util_Generator_SetRootKey ⟪(.var 12), (.lib .deref ⟪(.var 18)⟫)⟫ ;;
  .call [some 0, some 1, some 2, some 3, some 4, some 5, some 6, some 7, some 8, some 9, some 10, some 11, some 12, some 13, some 14, some 15] .main_onKeyPathChange ⟪(.var 0), (.var 1), (.var 2), (.var 3), (.var 4), (.var 5), (.var 6), (.var 7), (.var 8), (.var 9), (.var 10), (.var 11), (.var 12), (.var 13), (.var 14), (.var 15)⟫ ;;
  .call [some 20] .util_Generator_RootKey ⟪(.var 12)⟫ ;;
  .set 18 (.var 20) ;;
  .call [some 21] .bip32_Key_String ⟪(.var 18)⟫ ;;
  .set 9 (.var 21) ;;
  .set 3 (.var 9) ;;
  .ret ⟪(.var 0), (.var 1), (.var 2), (.var 3), (.var 4), (.var 5), (.var 6), (.var 7), (.var 8), (.var 9), (.var 10), (.var 11), (.var 12), (.var 13), (.var 14), (.var 15)⟫

/-- `onSeedChange` (examples/ui/one/main.go:129-139). Variables: 0 `mnemonicField`, 1 `mnemonicPassphraseField`, 2 `bip39SeedField`, 3 `bip32RootKeyField`, 4 `derivationField`, 5 `radioGroupMnemonicWords`, 6 `mnemonic`, 7 `mnemonicPassPhrase`, 8 `seed`, 9 `rootKeyStr`, 10 `derivationStr`, 11 `derivationPath`, 12 `bps`, 13 `keyPathTabs.tabs`, 14 `keyPathTabs.selected`, 15 `tabsSlider`, 16 `rootKey`. -/
def main_onSeedChange : Stmt :=
  .set 8 (.var 2) ;;
  .set 6 (.lit (.str (str ""))) ;;
  .set 0 (.var 6) ;;
  .call [some 16, some 17] .util_RootKeyFromSeed ⟪(.var 8)⟫ ;;
  .call [some 12] .util_Generator_SetRootKey ⟪(.var 12), (.lib .deref ⟪(.var 16)⟫)⟫ ;;
  .call [some 0, some 1, some 2, some 3, some 4, some 5, some 6, some 7, some 8, some 9, some 10, some 11, some 12, some 13, some 14, some 15] .main_onKeyPathChange ⟪(.var 0), (.var 1), (.var 2), (.var 3), (.var 4), (.var 5), (.var 6), (.var 7), (.var 8), (.var 9), (.var 10), (.var 11), (.var 12), (.var 13), (.var 14), (.var 15)⟫ ;;
  .call [some 18] .util_Generator_RootKey ⟪(.var 12)⟫ ;;
  .set 16 (.var 18) ;;
  .call [some 19] .bip32_Key_String ⟪(.var 16)⟫ ;;
  .set 9 (.var 19) ;;
  .set 3 (.var 9) ;;
  .ret ⟪(.var 0), (.var 1), (.var 2), (.var 3), (.var 4), (.var 5), (.var 6), (.var 7), (.var 8), (.var 9), (.var 10), (.var 11), (.var 12), (.var 13), (.var 14), (.var 15)⟫

/-- `onRootKeyStrChange` (examples/ui/one/main.go:141-157). Variables: 0 `mnemonicField`, 1 `mnemonicPassphraseField`, 2 `bip39SeedField`, 3 `bip32RootKeyField`, 4 `derivationField`, 5 `radioGroupMnemonicWords`, 6 `mnemonic`, 7 `mnemonicPassPhrase`, 8 `seed`, 9 `rootKeyStr`, 10 `derivationStr`, 11 `derivationPath`, 12 `bps`, 13 `keyPathTabs.tabs`, 14 `keyPathTabs.selected`, 15 `tabsSlider`, 16 `rootKey`, 17 `err`. -/
def main_onRootKeyStrChange : Stmt :=
  .set 9 (.var 3) ;;
  .set 6 (.lit (.str (str ""))) ;;
  .set 0 (.var 6) ;;
  .set 8 (.lit (.str (str ""))) ;;
  .set 2 (.var 8) ;;
  .call [some 16, some 17] .bip32_B58Deserialize ⟪(.var 9)⟫ ;;
  .ite (.lib .isNil ⟪(.var 17)⟫) (
    .call [some 12] .util_Generator_SetRootKey ⟪(.var 12), (.var 16)⟫ ;;
    .call [some 0, some 1, some 2, some 3, some 4, some 5, some 6, some 7, some 8, some 9, some 10, some 11, some 12, some 13, some 14, some 15] .main_onKeyPathChange ⟪(.var 0), (.var 1), (.var 2), (.var 3), (.var 4), (.var 5), (.var 6), (.var 7), (.var 8), (.var 9), (.var 10), (.var 11), (.var 12), (.var 13), (.var 14), (.var 15)⟫ ;;
    .call [some 18] .util_Generator_RootKey ⟪(.var 12)⟫ ;;
    .set 16 (.lib .deref ⟪(.var 18)⟫) ;;
    .call [some 19] .bip32_Key_String ⟪(.var 16)⟫ ;;
    .set 9 (.var 19) ;;
    .set 3 (.var 9)) (
    .call [some 12] .util_Generator_SetRootKey ⟪(.var 12), (.lit (.bytes (List.replicate 78 0)))⟫) ;;
  .ret ⟪(.var 0), (.var 1), (.var 2), (.var 3), (.var 4), (.var 5), (.var 6), (.var 7), (.var 8), (.var 9), (.var 10), (.var 11), (.var 12), (.var 13), (.var 14), (.var 15)⟫

/-- `OnDerivationPathChange` (examples/ui/one/main.go:158-166). Variables: 0 `mnemonicField`, 1 `mnemonicPassphraseField`, 2 `bip39SeedField`, 3 `bip32RootKeyField`, 4 `derivationField`, 5 `radioGroupMnemonicWords`, 6 `mnemonic`, 7 `mnemonicPassPhrase`, 8 `seed`, 9 `rootKeyStr`, 10 `derivationStr`, 11 `derivationPath`, 12 `bps`, 13 `keyPathTabs.tabs`, 14 `keyPathTabs.selected`, 15 `tabsSlider`, 18 `rootKey`. -/
def main_OnDerivationPathChange : Stmt :=
  .set 10 (.var 4) ;;
  .call [some 16] .bip32_Path_Formatted ⟪(.var 10)⟫ ;;
  .set 11 (.var 16) ;;
  .call [some 0, some 1, some 2, some 3, some 4, some 5, some 6, some 7, some 8, some 9, some 10, some 11, some 12, some 13, some 14, some 15] .main_onKeyPathChange ⟪(.var 0), (.var 1), (.var 2), (.var 3), (.var 4), (.var 5), (.var 6), (.var 7), (.var 8), (.var 9), (.var 10), (.var 11), (.var 12), (.var 13), (.var 14), (.var 15)⟫ ;;
  .call [some 17] .util_Generator_RootKey ⟪(.var 12)⟫ ;;
  .set 18 (.lib .deref ⟪(.var 17)⟫) ;;
  .call [some 19] .bip32_Key_String ⟪(.var 18)⟫ ;;
  .set 9 (.var 19) ;;
  .set 3 (.var 9) ;;
  .ret ⟪(.var 0), (.var 1), (.var 2), (.var 3), (.var 4), (.var 5), (.var 6), (.var 7), (.var 8), (.var 9), (.var 10), (.var 11), (.var 12), (.var 13), (.var 14), (.var 15)⟫

/-- `loop, before the first frame` (examples/ui/one/main.go:172-172). Variables: 0 `mnemonicField`, 1 `mnemonicPassphraseField`, 2 `bip39SeedField`, 3 `bip32RootKeyField`, 4 `derivationField`, 5 `radioGroupMnemonicWords`, 6 `mnemonic`, 7 `mnemonicPassPhrase`, 8 `seed`, 9 `rootKeyStr`, 10 `derivationStr`, 11 `derivationPath`, 12 `bps`, 13 `keyPathTabs.tabs`, 14 `keyPathTabs.selected`, 15 `tabsSlider`. -/
def main_start : Stmt :=
  .set 5 (.lit (.str (str "12"))) ;;
  .ret ⟪(.var 0), (.var 1), (.var 2), (.var 3), (.var 4), (.var 5), (.var 6), (.var 7), (.var 8), (.var 9), (.var 10), (.var 11), (.var 12), (.var 13), (.var 14), (.var 15)⟫

/-- `loop, the checks of a frame` (examples/ui/one/main.go:180-199). Variables: 0 `mnemonicField`, 1 `mnemonicPassphraseField`, 2 `bip39SeedField`, 3 `bip32RootKeyField`, 4 `derivationField`, 5 `radioGroupMnemonicWords`, 6 `mnemonic`, 7 `mnemonicPassPhrase`, 8 `seed`, 9 `rootKeyStr`, 10 `derivationStr`, 11 `derivationPath`, 12 `bps`, 13 `keyPathTabs.tabs`, 14 `keyPathTabs.selected`, 15 `tabsSlider`, 16 `clicked`. -/
def main_update : Stmt :=
  .call [some 17] .bip32_Path_Formatted ⟪(.var 10)⟫ ;;
  .set 11 (.var 17) ;;
  .ite (.var 16) (
    .call [some 0, some 1, some 2, some 3, some 4, some 5, some 6, some 7, some 8, some 9, some 10, some 11, some 12, some 13, some 14, some 15] .main_onAutoCreateMnemonicClicked ⟪(.var 0), (.var 1), (.var 2), (.var 3), (.var 4), (.var 5), (.var 6), (.var 7), (.var 8), (.var 9), (.var 10), (.var 11), (.var 12), (.var 13), (.var 14), (.var 15)⟫) (
    .skip) ;;
  .ite (.bin .ne (.var 0) (.var 6)) (
    .call [some 0, some 1, some 2, some 3, some 4, some 5, some 6, some 7, some 8, some 9, some 10, some 11, some 12, some 13, some 14, some 15] .main_onMnemonicChange ⟪(.var 0), (.var 1), (.var 2), (.var 3), (.var 4), (.var 5), (.var 6), (.var 7), (.var 8), (.var 9), (.var 10), (.var 11), (.var 12), (.var 13), (.var 14), (.var 15)⟫) (
    .skip) ;;
  .ite (.bin .ne (.var 1) (.var 7)) (
    .call [some 0, some 1, some 2, some 3, some 4, some 5, some 6, some 7, some 8, some 9, some 10, some 11, some 12, some 13, some 14, some 15] .main_onMnemonicPassphraseChange ⟪(.var 0), (.var 1), (.var 2), (.var 3), (.var 4), (.var 5), (.var 6), (.var 7), (.var 8), (.var 9), (.var 10), (.var 11), (.var 12), (.var 13), (.var 14), (.var 15)⟫) (
    .skip) ;;
  .ite (.bin .ne (.var 2) (.var 8)) (
    .call [some 0, some 1, some 2, some 3, some 4, some 5, some 6, some 7, some 8, some 9, some 10, some 11, some 12, some 13, some 14, some 15] .main_onSeedChange ⟪(.var 0), (.var 1), (.var 2), (.var 3), (.var 4), (.var 5), (.var 6), (.var 7), (.var 8), (.var 9), (.var 10), (.var 11), (.var 12), (.var 13), (.var 14), (.var 15)⟫) (
    .skip) ;;
  .ite (.bin .ne (.var 9) (.var 3)) (
    .call [some 0, some 1, some 2, some 3, some 4, some 5, some 6, some 7, some 8, some 9, some 10, some 11, some 12, some 13, some 14, some 15] .main_onRootKeyStrChange ⟪(.var 0), (.var 1), (.var 2), (.var 3), (.var 4), (.var 5), (.var 6), (.var 7), (.var 8), (.var 9), (.var 10), (.var 11), (.var 12), (.var 13), (.var 14), (.var 15)⟫) (
    .skip) ;;
  .call [some 18] .bip32_Path_String ⟪(.var 4)⟫ ;;
  .call [some 19] .bip32_Path_String ⟪(.var 10)⟫ ;;
  .ite (.bin .ne (.var 18) (.var 19)) (
    .call [some 0, some 1, some 2, some 3, some 4, some 5, some 6, some 7, some 8, some 9, some 10, some 11, some 12, some 13, some 14, some 15] .main_OnDerivationPathChange ⟪(.var 0), (.var 1), (.var 2), (.var 3), (.var 4), (.var 5), (.var 6), (.var 7), (.var 8), (.var 9), (.var 10), (.var 11), (.var 12), (.var 13), (.var 14), (.var 15)⟫) (
    .skip) ;;
  .ret ⟪(.var 0), (.var 1), (.var 2), (.var 3), (.var 4), (.var 5), (.var 6), (.var 7), (.var 8), (.var 9), (.var 10), (.var 11), (.var 12), (.var 13), (.var 14), (.var 15)⟫

/-- `loop, the left arrow` (examples/ui/one/main.go:305-311). Variables: 0 `mnemonicField`, 1 `mnemonicPassphraseField`, 2 `bip39SeedField`, 3 `bip32RootKeyField`, 4 `derivationField`, 5 `radioGroupMnemonicWords`, 6 `mnemonic`, 7 `mnemonicPassPhrase`, 8 `seed`, 9 `rootKeyStr`, 10 `derivationStr`, 11 `derivationPath`, 12 `bps`, 13 `keyPathTabs.tabs`, 14 `keyPathTabs.selected`, 15 `tabsSlider`, 16 `clicked`. -/
def main_left : Stmt :=
  .ite (.var 16) (
    .ite (.bin .gt (.var 14) (.lit (.int 0))) (
      .call [some 15] .main_Slider_PushRight ⟪(.var 15)⟫ ;;
      .set 14 (.bin .sub (.var 14) (.lit (.int 1)))) (
      .skip)) (
    .skip) ;;
  .ret ⟪(.var 0), (.var 1), (.var 2), (.var 3), (.var 4), (.var 5), (.var 6), (.var 7), (.var 8), (.var 9), (.var 10), (.var 11), (.var 12), (.var 13), (.var 14), (.var 15)⟫

/-- `loop, the right arrow` (examples/ui/one/main.go:357-363). Variables: 0 `mnemonicField`, 1 `mnemonicPassphraseField`, 2 `bip39SeedField`, 3 `bip32RootKeyField`, 4 `derivationField`, 5 `radioGroupMnemonicWords`, 6 `mnemonic`, 7 `mnemonicPassPhrase`, 8 `seed`, 9 `rootKeyStr`, 10 `derivationStr`, 11 `derivationPath`, 12 `bps`, 13 `keyPathTabs.tabs`, 14 `keyPathTabs.selected`, 15 `tabsSlider`, 16 `clicked`. -/
def main_right : Stmt :=
  .ite (.var 16) (
    .ite (.bin .lt (.var 14) (.bin .sub (.lib .len ⟪(.var 13)⟫) (.lit (.int 1)))) (
      .call [some 15] .main_Slider_PushLeft ⟪(.var 15)⟫ ;;
      .set 14 (.bin .add (.var 14) (.lit (.int 1)))) (
      .skip)) (
    .skip) ;;
  .ret ⟪(.var 0), (.var 1), (.var 2), (.var 3), (.var 4), (.var 5), (.var 6), (.var 7), (.var 8), (.var 9), (.var 10), (.var 11), (.var 12), (.var 13), (.var 14), (.var 15)⟫

/-- `loop, a tab` (examples/ui/one/main.go:321-329). Variables: 0 `mnemonicField`, 1 `mnemonicPassphraseField`, 2 `bip39SeedField`, 3 `bip32RootKeyField`, 4 `derivationField`, 5 `radioGroupMnemonicWords`, 6 `mnemonic`, 7 `mnemonicPassPhrase`, 8 `seed`, 9 `rootKeyStr`, 10 `derivationStr`, 11 `derivationPath`, 12 `bps`, 13 `keyPathTabs.tabs`, 14 `keyPathTabs.selected`, 15 `tabsSlider`, 16 `tabIdx`, 17 `clicked`, 18 `t`. -/
def main_tab : Stmt :=
  .set 18 (.lib .index ⟪(.var 13), (.var 16)⟫) ;;
  .ite (.var 17) (
    .ite (.bin .lt (.var 14) (.var 16)) (
      .call [some 15] .main_Slider_PushLeft ⟪(.var 15)⟫) (
      .ite (.bin .gt (.var 14) (.var 16)) (
        .call [some 15] .main_Slider_PushRight ⟪(.var 15)⟫) (
        .skip)) ;;
    .set 14 (.var 16)) (
    .skip) ;;
  .ret ⟪(.var 0), (.var 1), (.var 2), (.var 3), (.var 4), (.var 5), (.var 6), (.var 7), (.var 8), (.var 9), (.var 10), (.var 11), (.var 12), (.var 13), (.var 14), (.var 15)⟫

/-- `loop, the text of a tab` (examples/ui/one/main.go:334-334). Variables: 0 `mnemonicField`, 1 `mnemonicPassphraseField`, 2 `bip39SeedField`, 3 `bip32RootKeyField`, 4 `derivationField`, 5 `radioGroupMnemonicWords`, 6 `mnemonic`, 7 `mnemonicPassPhrase`, 8 `seed`, 9 `rootKeyStr`, 10 `derivationStr`, 11 `derivationPath`, 12 `bps`, 13 `keyPathTabs.tabs`, 14 `keyPathTabs.selected`, 15 `tabsSlider`, 16 `tabIdx`, 17 `t`. -/
def main_tabText : Stmt :=
  .set 17 (.lib .index ⟪(.var 13), (.var 16)⟫) ;;
  .call [some 18] .bip32_Path_String ⟪(.lib (.field 0) ⟪(.lib (.field 0) ⟪(.var 17)⟫)⟫)⟫ ;;
  .ret ⟪(.var 0), (.var 1), (.var 2), (.var 3), (.var 4), (.var 5), (.var 6), (.var 7), (.var 8), (.var 9), (.var 10), (.var 11), (.var 12), (.var 13), (.var 14), (.var 15), (.var 18)⟫

/-- `loop, the labels` (examples/ui/one/main.go:375-402). Variables: 0 `mnemonicField`, 1 `mnemonicPassphraseField`, 2 `bip39SeedField`, 3 `bip32RootKeyField`, 4 `derivationField`, 5 `radioGroupMnemonicWords`, 6 `mnemonic`, 7 `mnemonicPassPhrase`, 8 `seed`, 9 `rootKeyStr`, 10 `derivationStr`, 11 `derivationPath`, 12 `bps`, 13 `keyPathTabs.tabs`, 14 `keyPathTabs.selected`, 15 `tabsSlider`, 16 `labels`, 17 `isValid`, 18 `keyPath`, 21 `publicKeyExtended`, 24 `publicKeyExtended`. -/
def main_labels : Stmt :=
  .set 16 (.lit (.list [])) ;;
  .set 17 (.and (.and (.bin .lt (.var 14) (.lib .len ⟪(.var 13)⟫)) (.bin .ne (.lib .len ⟪(.var 13)⟫) (.lit (.int 0)))) (.bin .ge (.var 14) (.lit (.int 0)))) ;;
  .ite (.not (.var 17)) (
    .ret ⟪(.var 0), (.var 1), (.var 2), (.var 3), (.var 4), (.var 5), (.var 6), (.var 7), (.var 8), (.var 9), (.var 10), (.var 11), (.var 12), (.var 13), (.var 14), (.var 15), (.var 16)⟫) (
    .skip) ;;
  .set 18 (.lib .index ⟪(.var 13), (.var 14)⟫) ;;
  .call [some 19] .bip32_Path_String ⟪(.lib (.field 0) ⟪(.lib (.field 0) ⟪(.var 18)⟫)⟫)⟫ ;;
  .set 16 (.lib .snoc ⟪(.var 16), (.var 19)⟫) ;;
  .call [some 20] .bip32_Key_String ⟪(.lib (.field 1) ⟪(.lib (.field 0) ⟪(.var 18)⟫)⟫)⟫ ;;
  .set 16 (.lib .snoc ⟪(.var 16), (.var 20)⟫) ;;
  .call [some 21] .bip32_Key_PublicKeyExtended ⟪(.lib (.field 1) ⟪(.lib (.field 0) ⟪(.var 18)⟫)⟫)⟫ ;;
  .call [some 22] .bip32_Key_String ⟪(.var 21)⟫ ;;
  .set 16 (.lib .snoc ⟪(.var 16), (.var 22)⟫) ;;
  .call [some 23] .bip32_Key_PrivateKeyHex ⟪(.lib (.field 1) ⟪(.lib (.field 0) ⟪(.var 18)⟫)⟫)⟫ ;;
  .set 16 (.lib .snoc ⟪(.var 16), (.var 23)⟫) ;;
  .call [some 24] .bip32_Key_PublicKeyExtended ⟪(.lib (.field 1) ⟪(.lib (.field 0) ⟪(.var 18)⟫)⟫)⟫ ;;
  .call [some 25] .bip32_Key_PublicKeyHex ⟪(.var 24)⟫ ;;
  .set 16 (.lib .snoc ⟪(.var 16), (.var 25)⟫) ;;
  .call [some 26] .util_KeyPath_AddrHex ⟪(.lib (.field 0) ⟪(.var 18)⟫)⟫ ;;
  .set 16 (.lib .snoc ⟪(.var 16), (.var 26)⟫) ;;
  .ret ⟪(.var 0), (.var 1), (.var 2), (.var 3), (.var 4), (.var 5), (.var 6), (.var 7), (.var 8), (.var 9), (.var 10), (.var 11), (.var 12), (.var 13), (.var 14), (.var 15), (.var 16)⟫

/-- `loop, a radio button` (examples/ui/one/main.go:224-241). Variables: 0 `i`, 1 `k`, 2 `lbl`. -/
def main_radio : Stmt :=
  .set 1 (.lit (.str [])) ;;
  .set 2 (.lit (.str [])) ;;
  .ite (.bin .eq (.var 0) (.lit (.int 0))) (
    .set 1 (.lit (.str (str "12"))) ;;
    .set 2 (.lit (.str (str "12 words")))) (
    .ite (.bin .eq (.var 0) (.lit (.int 1))) (
      .set 1 (.lit (.str (str "15"))) ;;
      .set 2 (.lit (.str (str "15 words")))) (
      .ite (.bin .eq (.var 0) (.lit (.int 2))) (
        .set 1 (.lit (.str (str "18"))) ;;
        .set 2 (.lit (.str (str "18 words")))) (
        .ite (.bin .eq (.var 0) (.lit (.int 3))) (
          .set 1 (.lit (.str (str "21"))) ;;
          .set 2 (.lit (.str (str "21 words")))) (
          .ite (.bin .eq (.var 0) (.lit (.int 4))) (
            .set 1 (.lit (.str (str "24"))) ;;
            .set 2 (.lit (.str (str "24 words")))) (
            .skip))))) ;;
  .ret ⟪(.var 1), (.var 2)⟫

/-- The body of loop 1 of `generateFileFromSlip44MD` (bip44/script.go:23-66). -/
def bip44_generateFileFromSlip44MD_body1 : Stmt :=
  .set 9 (.lib .setIndex ⟪(.var 9), (.var 10), (.lib .trimSpace ⟪(.lib .index ⟪(.var 9), (.var 10)⟫)⟫)⟫)

/-- The body of loop 2 of `generateFileFromSlip44MD` (bip44/script.go:23-66). -/
def bip44_generateFileFromSlip44MD_body2 : Stmt :=
  .set 9 (.lib .sliceFrom ⟪(.lib .split ⟪(.var 8), (.lit (.str (str "| ")))⟫), (.lit (.int 1))⟫) ;;
  .range (some 10) none (.var 9) bip44_generateFileFromSlip44MD_body1 ;;
  .set 11 (.and (.and (.bin .gt (.lib .len ⟪(.var 9)⟫) (.lit (.int 2))) (.not (.lib .contains ⟪(.lib .index ⟪(.var 9), (.bin .sub (.lib .len ⟪(.var 9)⟫) (.lit (.int 1)))⟫), (.lit (.str (str "reserved")))⟫))) (.not (.lib .contains ⟪(.lib .index ⟪(.var 9), (.bin .sub (.lib .len ⟪(.var 9)⟫) (.lit (.int 1)))⟫), (.lit (.str (str "dead")))⟫))) ;;
  .ite (.var 11) (
    .set 12 (.cons (.lit (.u32 0)) (.cons (.lit (.u32 0)) (.cons (.lit (.str [])) (.cons (.lit (.str [])) .nilL)))) ;;
    .setTuple [13, 14] (.lib .parseUint ⟪(.lib .index ⟪(.var 9), (.lit (.int 0))⟫), (.lit (.int 10)), (.lit (.int 32))⟫) ;;
    .ite (.lib .isNil ⟪(.var 14)⟫) (
      .set 12 (.lib (.setField 0) ⟪(.var 12), (.lib (.conv .u32) ⟪(.var 13)⟫)⟫) ;;
      .setTuple [15, 16] (.lib .parseUint ⟪(.lib .index ⟪(.var 9), (.lit (.int 1))⟫), (.lit (.int 10)), (.lit (.int 32))⟫) ;;
      .set 12 (.lib (.setField 1) ⟪(.var 12), (.lib (.conv .u32) ⟪(.var 15)⟫)⟫) ;;
      .ite (.lib .isNil ⟪(.var 16)⟫) (
        .ite (.bin .eq (.lib .len ⟪(.var 9)⟫) (.lit (.int 3))) (
          .set 12 (.lib (.setField 3) ⟪(.var 12), (.lib .index ⟪(.var 9), (.lit (.int 2))⟫)⟫)) (
          .set 12 (.lib (.setField 2) ⟪(.var 12), (.lib .index ⟪(.var 9), (.lit (.int 2))⟫)⟫) ;;
          .set 12 (.lib (.setField 3) ⟪(.var 12), (.lib .join ⟪(.lib .sliceFrom ⟪(.var 9), (.lit (.int 3))⟫), (.lit (.str (str " ")))⟫)⟫)) ;;
        .ite (.not (.and (.bin .eq (.lib (.field 2) ⟪(.var 12)⟫) (.lit (.str (str "")))) (.bin .eq (.lib (.field 3) ⟪(.var 12)⟫) (.lit (.str (str "")))))) (
          .set 2 (.lib .snoc ⟪(.var 2), (.var 12)⟫)) (
          .skip)) (
        .skip)) (
      .skip)) (
    .skip)

/-- The body of loop 3 of `generateFileFromSlip44MD` (bip44/script.go:23-66). -/
def bip44_generateFileFromSlip44MD_body3 : Stmt :=
  .call [some 19] .bip44_Coin_StringForMD ⟪(.var 18)⟫ ;;
  .set 17 (.bin .add (.var 17) (.bin .add (.var 19) (.lit (.str (str ",\n")))))

/-- `generateFileFromSlip44MD` (bip44/script.go:23-66). Variables: 0 `Slip044FS`, 1 `testing.go`, 2 `registeredCoins`, 3 `val`, 4 `err`, 6 `st`, 7 `multiLines`, 8 `eachLine`, 9 `fields`, 10 `i`, 11 `canParse`, 12 `regCoin`, 13 `coinType`, 14 `err`, 15 `pathComp`, 16 `err`, 17 `contents`, 18 `regCoin`. -/
def bip44_generateFileFromSlip44MD : Stmt :=
  .set 2 (.lit (.list [])) ;;
  .setTuple [3, 4] (.lib .readFile ⟪(.var 0), (.lit (.str (str "slip-0044.md")))⟫) ;;
  .ite (.not (.lib .isNil ⟪(.var 4)⟫)) (
    .set 5 (.lib .goPanic ⟪(.var 4)⟫)) (
    .skip) ;;
  .set 6 (.lib .toStr ⟪(.var 3)⟫) ;;
  .set 7 (.lib .split ⟪(.var 6), (.lit (.str (str "\n")))⟫) ;;
  .range none (some 8) (.var 7) bip44_generateFileFromSlip44MD_body2 ;;
  .set 17 (.lit (.str [])) ;;
  .range none (some 18) (.var 2) bip44_generateFileFromSlip44MD_body3 ;;
  .set 1 (.lib .toBytes ⟪(.var 17)⟫) ;;
  .ret ⟪(.var 0), (.var 1)⟫

/-- `init` (bip39/wordlists/chinese_simplified.go:9-18). Variables: 0 `chineseSimplified`, 1 `checksum`. -/
def wordlists_chinese_simplified_init : Stmt :=
  .set 1 (.lib .crc32 ⟪(.lib .toBytes ⟪(.var 0)⟫)⟫) ;;
  .ite (.bin .ne (.lib .sprintf ⟪(.lit (.str (str "%x"))), (.var 1)⟫) (.lit (.str (str "e3721bbf")))) (
    .set 2 (.lib .goPanic ⟪(.lit (.str (str "chineseSimplified checksum invalid")))⟫)) (
    .skip) ;;
  .ret ⟪⟫

/-- `ChineseSimplified` (bip39/wordlists/chinese_simplified.go:22-22). Variables: 0 `chineseSimplified`. -/
def wordlists_chinese_simplified_ChineseSimplified : Stmt :=
  .ret ⟪(.lib .split ⟪(.lib .trimSpace ⟪(.var 0)⟫), (.lit (.str (str "\n")))⟫)⟫

/-- `init` (bip39/wordlists/chinese_traditional.go:9-18). Variables: 0 `chineseTraditional`, 1 `checksum`. -/
def wordlists_chinese_traditional_init : Stmt :=
  .set 1 (.lib .crc32 ⟪(.lib .toBytes ⟪(.var 0)⟫)⟫) ;;
  .ite (.bin .ne (.lib .sprintf ⟪(.lit (.str (str "%x"))), (.var 1)⟫) (.lit (.str (str "3c20b443")))) (
    .set 2 (.lib .goPanic ⟪(.lit (.str (str "chineseTraditional checksum invalid")))⟫)) (
    .skip) ;;
  .ret ⟪⟫

/-- `ChineseTraditional` (bip39/wordlists/chinese_traditional.go:22-22). Variables: 0 `chineseTraditional`. -/
def wordlists_chinese_traditional_ChineseTraditional : Stmt :=
  .ret ⟪(.lib .split ⟪(.lib .trimSpace ⟪(.var 0)⟫), (.lit (.str (str "\n")))⟫)⟫

/-- `init` (bip39/wordlists/czech.go:9-18). Variables: 0 `czech`, 1 `checksum`. -/
def wordlists_czech_init : Stmt :=
  .set 1 (.lib .crc32 ⟪(.lib .toBytes ⟪(.var 0)⟫)⟫) ;;
  .ite (.bin .ne (.lib .sprintf ⟪(.lit (.str (str "%x"))), (.var 1)⟫) (.lit (.str (str "d1b5fda0")))) (
    .set 2 (.lib .goPanic ⟪(.lit (.str (str "czech checksum invalid")))⟫)) (
    .skip) ;;
  .ret ⟪⟫

/-- `Czech` (bip39/wordlists/czech.go:22-22). Variables: 0 `czech`. -/
def wordlists_czech_Czech : Stmt :=
  .ret ⟪(.lib .split ⟪(.lib .trimSpace ⟪(.var 0)⟫), (.lit (.str (str "\n")))⟫)⟫

/-- `init` (bip39/wordlists/english.go:9-18). Variables: 0 `english`, 1 `checksum`. -/
def wordlists_english_init : Stmt :=
  .set 1 (.lib .crc32 ⟪(.lib .toBytes ⟪(.var 0)⟫)⟫) ;;
  .ite (.bin .ne (.lib .sprintf ⟪(.lit (.str (str "%x"))), (.var 1)⟫) (.lit (.str (str "c1dbd296")))) (
    .set 2 (.lib .goPanic ⟪(.lit (.str (str "english checksum invalid")))⟫)) (
    .skip) ;;
  .ret ⟪⟫

/-- `English` (bip39/wordlists/english.go:22-22). Variables: 0 `english`. -/
def wordlists_english_English : Stmt :=
  .ret ⟪(.lib .split ⟪(.lib .trimSpace ⟪(.var 0)⟫), (.lit (.str (str "\n")))⟫)⟫

/-- `init` (bip39/wordlists/french.go:9-18). Variables: 0 `french`, 1 `checksum`. -/
def wordlists_french_init : Stmt :=
  .set 1 (.lib .crc32 ⟪(.lib .toBytes ⟪(.var 0)⟫)⟫) ;;
  .ite (.bin .ne (.lib .sprintf ⟪(.lit (.str (str "%x"))), (.var 1)⟫) (.lit (.str (str "3e56b216")))) (
    .set 2 (.lib .goPanic ⟪(.lit (.str (str "french checksum invalid")))⟫)) (
    .skip) ;;
  .ret ⟪⟫

/-- `French` (bip39/wordlists/french.go:22-22). Variables: 0 `french`. -/
def wordlists_french_French : Stmt :=
  .ret ⟪(.lib .split ⟪(.lib .trimSpace ⟪(.var 0)⟫), (.lit (.str (str "\n")))⟫)⟫

/-- `init` (bip39/wordlists/italian.go:9-18). Variables: 0 `italian`, 1 `checksum`. -/
def wordlists_italian_init : Stmt :=
  .set 1 (.lib .crc32 ⟪(.lib .toBytes ⟪(.var 0)⟫)⟫) ;;
  .ite (.bin .ne (.lib .sprintf ⟪(.lit (.str (str "%x"))), (.var 1)⟫) (.lit (.str (str "2fc7d07e")))) (
    .set 2 (.lib .goPanic ⟪(.lit (.str (str "italian checksum invalid")))⟫)) (
    .skip) ;;
  .ret ⟪⟫

/-- `Italian` (bip39/wordlists/italian.go:22-22). Variables: 0 `italian`. -/
def wordlists_italian_Italian : Stmt :=
  .ret ⟪(.lib .split ⟪(.lib .trimSpace ⟪(.var 0)⟫), (.lit (.str (str "\n")))⟫)⟫

/-- `init` (bip39/wordlists/japanese.go:9-18). Variables: 0 `japanese`, 1 `checksum`. -/
def wordlists_japanese_init : Stmt :=
  .set 1 (.lib .crc32 ⟪(.lib .toBytes ⟪(.var 0)⟫)⟫) ;;
  .ite (.bin .ne (.lib .sprintf ⟪(.lit (.str (str "%x"))), (.var 1)⟫) (.lit (.str (str "acc1419")))) (
    .set 2 (.lib .goPanic ⟪(.lib .sprintf ⟪(.lit (.str (str "japanese checksum invalid: %x"))), (.var 1)⟫)⟫)) (
    .skip) ;;
  .ret ⟪⟫

/-- `Japanese` (bip39/wordlists/japanese.go:22-22). Variables: 0 `japanese`. -/
def wordlists_japanese_Japanese : Stmt :=
  .ret ⟪(.lib .split ⟪(.lib .trimSpace ⟪(.var 0)⟫), (.lit (.str (str "\n")))⟫)⟫

/-- `init` (bip39/wordlists/korean.go:9-18). Variables: 0 `korean`, 1 `checksum`. -/
def wordlists_korean_init : Stmt :=
  .set 1 (.lib .crc32 ⟪(.lib .toBytes ⟪(.var 0)⟫)⟫) ;;
  .ite (.bin .ne (.lib .sprintf ⟪(.lit (.str (str "%x"))), (.var 1)⟫) (.lit (.str (str "4ef461eb")))) (
    .set 2 (.lib .goPanic ⟪(.lit (.str (str "korean checksum invalid")))⟫)) (
    .skip) ;;
  .ret ⟪⟫

/-- `Korean` (bip39/wordlists/korean.go:22-22). Variables: 0 `korean`. -/
def wordlists_korean_Korean : Stmt :=
  .ret ⟪(.lib .split ⟪(.lib .trimSpace ⟪(.var 0)⟫), (.lit (.str (str "\n")))⟫)⟫

/-- `init` (bip39/wordlists/portuguese.go:9-18). Variables: 0 `portuguese`, 1 `checksum`. -/
def wordlists_portuguese_init : Stmt :=
  .set 1 (.lib .crc32 ⟪(.lib .toBytes ⟪(.var 0)⟫)⟫) ;;
  .ite (.bin .ne (.lib .sprintf ⟪(.lit (.str (str "%x"))), (.var 1)⟫) (.lit (.str (str "e627a546")))) (
    .set 2 (.lib .goPanic ⟪(.lit (.str (str "portuguese checksum invalid")))⟫)) (
    .skip) ;;
  .ret ⟪⟫

/-- `Portuguese` (bip39/wordlists/portuguese.go:22-22). Variables: 0 `portuguese`. -/
def wordlists_portuguese_Portuguese : Stmt :=
  .ret ⟪(.lib .split ⟪(.lib .trimSpace ⟪(.var 0)⟫), (.lit (.str (str "\n")))⟫)⟫

/-- `init` (bip39/wordlists/spanish.go:9-18). Variables: 0 `spanish`, 1 `checksum`. -/
def wordlists_spanish_init : Stmt :=
  .set 1 (.lib .crc32 ⟪(.lib .toBytes ⟪(.var 0)⟫)⟫) ;;
  .ite (.bin .ne (.lib .sprintf ⟪(.lit (.str (str "%x"))), (.var 1)⟫) (.lit (.str (str "266e4f3d")))) (
    .set 2 (.lib .goPanic ⟪(.lit (.str (str "spanish checksum invalid")))⟫)) (
    .skip) ;;
  .ret ⟪⟫

/-- `Spanish` (bip39/wordlists/spanish.go:22-22). Variables: 0 `spanish`. -/
def wordlists_spanish_Spanish : Stmt :=
  .ret ⟪(.lib .split ⟪(.lib .trimSpace ⟪(.var 0)⟫), (.lit (.str (str "\n")))⟫)⟫

/-- The body of each function and the number of its variables. -/
def code : Fn → Stmt × Nat
  | .bip32_Path_String => (bip32_Path_String, 2)
  | .bip32_Path_Formatted => (bip32_Path_Formatted, 2)
  | .bip32_Path_IsValid => (bip32_Path_IsValid, 3)
  | .bip32_Path_ValuesAtDepth => (bip32_Path_ValuesAtDepth, 12)
  | .bip32_Path_ValueAtDepth => (bip32_Path_ValueAtDepth, 4)
  | .bip32_Path_ReplaceValueAtDepth => (bip32_Path_ReplaceValueAtDepth, 8)
  | .bip32_hashRipeMD160 => (bip32_hashRipeMD160, 3)
  | .bip32_HashRipeMD160onSha256 => (bip32_HashRipeMD160onSha256, 4)
  | .bip32_ChecksumDblSha256 => (bip32_ChecksumDblSha256, 2)
  | .bip32_AddChecksumDblSha256ToBytes => (bip32_AddChecksumDblSha256ToBytes, 3)
  | .bip32_ValidatePrivateKey => (bip32_ValidatePrivateKey, 1)
  | .bip32_publicKeyForPrivateKey => (bip32_publicKeyForPrivateKey, 4)
  | .bip32_addPublicKeys => (bip32_addPublicKeys, 9)
  | .bip32_addPrivateKeys => (bip32_addPrivateKeys, 6)
  | .bip32_compressPublicKey => (bip32_compressPublicKey, 5)
  | .bip32_ExpandPublicKey => (bip32_ExpandPublicKey, 6)
  | .bip32_validateChildPublicKey => (bip32_validateChildPublicKey, 3)
  | .bip32_uint32Bytes => (bip32_uint32Bytes, 2)
  | .bip32_NewMasterKey => (bip32_NewMasterKey, 9)
  | .bip32_Key_IsPrivate => (bip32_Key_IsPrivate, 1)
  | .bip32_Key_NewChildKey => (bip32_Key_NewChildKey, 28)
  | .bip32_Key_getIntermediary => (bip32_Key_getIntermediary, 9)
  | .bip32_Key_PublicKeyExtended => (bip32_Key_PublicKeyExtended, 13)
  | .bip32_Key_PrivateKeyHex => (bip32_Key_PrivateKeyHex, 2)
  | .bip32_Key_PublicKeyHex => (bip32_Key_PublicKeyHex, 3)
  | .bip32_Key_Serialize => (bip32_Key_Serialize, 5)
  | .bip32_Key_B58Serialize => (bip32_Key_B58Serialize, 3)
  | .bip32_Key_String => (bip32_Key_String, 2)
  | .bip32_Key_IsValid => (bip32_Key_IsValid, 5)
  | .bip32_Deserialize => (bip32_Deserialize, 6)
  | .bip32_Key_SetVersionUint32 => (bip32_Key_SetVersionUint32, 3)
  | .bip32_Key_SetVersion => (bip32_Key_SetVersion, 2)
  | .bip32_Key_GetVersion => (bip32_Key_GetVersion, 1)
  | .bip32_Key_setChainCodeUint32 => (bip32_Key_setChainCodeUint32, 3)
  | .bip32_Key_setChainCode => (bip32_Key_setChainCode, 2)
  | .bip32_Key_GetChainCode => (bip32_Key_GetChainCode, 1)
  | .bip32_Key_setFingerPrint => (bip32_Key_setFingerPrint, 2)
  | .bip32_Key_GetFingerPrint => (bip32_Key_GetFingerPrint, 1)
  | .bip32_Key_setDepth => (bip32_Key_setDepth, 2)
  | .bip32_Key_GetDepth => (bip32_Key_GetDepth, 1)
  | .bip32_Key_setPvtKeyBytes => (bip32_Key_setPvtKeyBytes, 2)
  | .bip32_Key_GetPvtKeyBytes => (bip32_Key_GetPvtKeyBytes, 1)
  | .bip32_Key_setPubKeyBytes => (bip32_Key_setPubKeyBytes, 2)
  | .bip32_Key_GetKeyBytes => (bip32_Key_GetKeyBytes, 1)
  | .bip32_Key_setChildNumber => (bip32_Key_setChildNumber, 2)
  | .bip32_Key_GetChildNumber => (bip32_Key_GetChildNumber, 1)
  | .bip32_B58Deserialize => (bip32_B58Deserialize, 4)
  | .bip32_NewSeed => (bip32_NewSeed, 2)
  | .bip32_VersionBytes_PvtKeyFlagBytes => (bip32_VersionBytes_PvtKeyFlagBytes, 2)
  | .bip32_VersionBytes_PubKeyFlagBytes => (bip32_VersionBytes_PubKeyFlagBytes, 2)
  | .bip32_VersionBytes_IsValid => (bip32_VersionBytes_IsValid, 3)
  | .bip32_VersionBytes_IsRegistered => (bip32_VersionBytes_IsRegistered, 4)
  | .bip32_VersionBytes_PurposeVal => (bip32_VersionBytes_PurposeVal, 7)
  | .bip32_VersionBytes_CoinVal => (bip32_VersionBytes_CoinVal, 7)
  | .bip32_VersionBytes_PurposeValFull => (bip32_VersionBytes_PurposeValFull, 4)
  | .bip32_VersionBytes_CoinValFull => (bip32_VersionBytes_CoinValFull, 4)
  | .bip32_init => (bip32_init, 20)
  | .bip39_init => (bip39_init, 2)
  | .bip39_SetWordList => (bip39_SetWordList, 5)
  | .bip39_GetWordList => (bip39_GetWordList, 0)
  | .bip39_GetWordIndex => (bip39_GetWordIndex, 3)
  | .bip39_NewEntropy => (bip39_NewEntropy, 3)
  | .bip39_EntropyFromMnemonic => (bip39_EntropyFromMnemonic, 16)
  | .bip39_NewMnemonic => (bip39_NewMnemonic, 11)
  | .bip39_MnemonicToByteArray => (bip39_MnemonicToByteArray, 10)
  | .bip39_NewSeedWithErrorChecking => (bip39_NewSeedWithErrorChecking, 5)
  | .bip39_NewSeed => (bip39_NewSeed, 2)
  | .bip39_IsMnemonicValid => (bip39_IsMnemonicValid, 3)
  | .bip39_addChecksum => (bip39_addChecksum, 6)
  | .bip39_computeChecksum => (bip39_computeChecksum, 2)
  | .bip39_validateEntropyBitSize => (bip39_validateEntropyBitSize, 1)
  | .bip39_padByteSlice => (bip39_padByteSlice, 4)
  | .bip39_compareByteSlices => (bip39_compareByteSlices, 3)
  | .bip39_splitMnemonicWords => (bip39_splitMnemonicWords, 3)
  | .util_GenerateMnemonic => (util_GenerateMnemonic, 6)
  | .util_DeriveSeedFromMnemonic => (util_DeriveSeedFromMnemonic, 5)
  | .util_RootKeyFromSeed => (util_RootKeyFromSeed, 10)
  | .util_Generator_SetRootKey => (util_Generator_SetRootKey, 2)
  | .util_Generator_RootKey => (util_Generator_RootKey, 1)
  | .util_Generator_DeriveBIP32Result => (util_Generator_DeriveBIP32Result, 17)
  | .util_KeyPath_AddrHex => (util_KeyPath_AddrHex, 8)
  | .util_KeyPath_AddrP2SH => (util_KeyPath_AddrP2SH, 11)
  | .util_KeyPathRange_GenerateRange => (util_KeyPathRange_GenerateRange, 12)
  | .bip44_Coin_StringForMD => (bip44_Coin_StringForMD, 1)
  | .bip44_Coin_String => (bip44_Coin_String, 2)
  | .bip44_Coin_IsValid => (bip44_Coin_IsValid, 1)
  | .bip44_less => (bip44_less, 3)
  | .bip44_init => (bip44_init, 6)
  | .main_Slider_PushLeft => (main_Slider_PushLeft, 1)
  | .main_Slider_PushRight => (main_Slider_PushRight, 1)
  | .main_Slider_Layout => (main_Slider_Layout, 17)
  | .main_smooth => (main_smooth, 3)
  | .main_easeInOutCubic => (main_easeInOutCubic, 1)
  | .main_onKeyPathChange => (main_onKeyPathChange, 22)
  | .main_onAutoCreateMnemonicClicked => (main_onAutoCreateMnemonicClicked, 27)
  | .main_onMnemonicChange => (main_onMnemonicChange, 22)
  | .main_onMnemonicPassphraseChange => (main_onMnemonicPassphraseChange, 22)
  | .main_onSeedChange => (main_onSeedChange, 20)
  | .main_onRootKeyStrChange => (main_onRootKeyStrChange, 20)
  | .main_OnDerivationPathChange => (main_OnDerivationPathChange, 20)
  | .main_start => (main_start, 16)
  | .main_update => (main_update, 20)
  | .main_left => (main_left, 17)
  | .main_right => (main_right, 17)
  | .main_tab => (main_tab, 19)
  | .main_tabText => (main_tabText, 19)
  | .main_labels => (main_labels, 27)
  | .main_radio => (main_radio, 3)
  | .bip44_generateFileFromSlip44MD => (bip44_generateFileFromSlip44MD, 20)
  | .wordlists_chinese_simplified_init => (wordlists_chinese_simplified_init, 3)
  | .wordlists_chinese_simplified_ChineseSimplified => (wordlists_chinese_simplified_ChineseSimplified, 1)
  | .wordlists_chinese_traditional_init => (wordlists_chinese_traditional_init, 3)
  | .wordlists_chinese_traditional_ChineseTraditional => (wordlists_chinese_traditional_ChineseTraditional, 1)
  | .wordlists_czech_init => (wordlists_czech_init, 3)
  | .wordlists_czech_Czech => (wordlists_czech_Czech, 1)
  | .wordlists_english_init => (wordlists_english_init, 3)
  | .wordlists_english_English => (wordlists_english_English, 1)
  | .wordlists_french_init => (wordlists_french_init, 3)
  | .wordlists_french_French => (wordlists_french_French, 1)
  | .wordlists_italian_init => (wordlists_italian_init, 3)
  | .wordlists_italian_Italian => (wordlists_italian_Italian, 1)
  | .wordlists_japanese_init => (wordlists_japanese_init, 3)
  | .wordlists_japanese_Japanese => (wordlists_japanese_Japanese, 1)
  | .wordlists_korean_init => (wordlists_korean_init, 3)
  | .wordlists_korean_Korean => (wordlists_korean_Korean, 1)
  | .wordlists_portuguese_init => (wordlists_portuguese_init, 3)
  | .wordlists_portuguese_Portuguese => (wordlists_portuguese_Portuguese, 1)
  | .wordlists_spanish_init => (wordlists_spanish_init, 3)
  | .wordlists_spanish_Spanish => (wordlists_spanish_Spanish, 1)

end Bips.Src
