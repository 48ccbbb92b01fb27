import Verif.Vectors.Base
import Verif.Model.Util

/-!
# A well-known wallet

The seed of the mnemonic "abandon … about" (eleven times "abandon") without a passphrase, and the first Ethereum and the first
Bitcoin address that every BIP-44 wallet gives for it. Tests of the model, like the other modules of this directory. Written by
tools/gen_addresses.py.
-/

namespace Bips

set_option maxRecDepth 100000

theorem wallet_root : rootKeyFromSeed goHashes (str "5eb00bbddcf069084889a8ab9155568165f5c453ccb85e70811aaed6f6da5fc19a5ac40b389cd370d086206dec8aa6c43daea6690f20ad3d8d48b2d2ce9e38e4") =
    .ok ((keyN 0x0488ade40000000000000000007923408dadd3c7b56eed15567707ae5e5dca089de972e07f3b860450e2a3b70e001837c1be8e2995ec11cda2b066151be2cfb48adf9e47b151d46adab3a21cdf67), none) := by
  decide +kernel

theorem wallet_44h : ((keyN 0x0488ade40000000000000000007923408dadd3c7b56eed15567707ae5e5dca089de972e07f3b860450e2a3b70e001837c1be8e2995ec11cda2b066151be2cfb48adf9e47b151d46adab3a21cdf67).newChildKey goHashes reg 2147483692).1 =
    (keyN 0x0488ade40173c5da0a8000002c45d3b0e8206db10a08d555317c7e245c5bbd12254ce968f3c79a959d4e6af98a00cd46049fb82a4fccbd967c5234e61152f4df87d01d1ef833420814c67ee4b7ea) := by
  unfold Key.newChildKey Key.getIntermediary publicKeyForPrivateKey
  simp only [tableBaseMult_eq]
  decide +kernel

theorem wallet_44h_60h : ((keyN 0x0488ade40173c5da0a8000002c45d3b0e8206db10a08d555317c7e245c5bbd12254ce968f3c79a959d4e6af98a00cd46049fb82a4fccbd967c5234e61152f4df87d01d1ef833420814c67ee4b7ea).newChildKey goHashes reg 2147483708).1 =
    (keyN 0x0488ade40288b3582b8000003cff0603122d4dc5bf9b36606ef1b1b6e5a6c9e79fc6a4b08f7e871eee10457a7100eea62fd3712ad7ff27f7145280d07f0041a51ef2f35432d6b488cb294cf79bef) := by
  unfold Key.newChildKey Key.getIntermediary publicKeyForPrivateKey
  simp only [tableBaseMult_eq]
  decide +kernel

theorem wallet_44h_60h_0h : ((keyN 0x0488ade40288b3582b8000003cff0603122d4dc5bf9b36606ef1b1b6e5a6c9e79fc6a4b08f7e871eee10457a7100eea62fd3712ad7ff27f7145280d07f0041a51ef2f35432d6b488cb294cf79bef).newChildKey goHashes reg 2147483648).1 =
    (keyN 0x0488ade403d32e450880000000d882718b7a42806803eeb17f7483f20620611adb88fc943c898dc5aba94c281900e9b91c428e679f857fbfa0203440eaeaabb0ca46d80e70b6aa6250696ac0dfc7) := by
  unfold Key.newChildKey Key.getIntermediary publicKeyForPrivateKey
  simp only [tableBaseMult_eq]
  decide +kernel

theorem wallet_44h_60h_0h_0 : ((keyN 0x0488ade403d32e450880000000d882718b7a42806803eeb17f7483f20620611adb88fc943c898dc5aba94c281900e9b91c428e679f857fbfa0203440eaeaabb0ca46d80e70b6aa6250696ac0dfc7).newChildKey goHashes reg 0).1 =
    (keyN 0x0488ade40460b68b6900000000c879d136f02003dc804811e42390714ea06448aeaee158c62d65f12a421d988f00a29ac2cb17e31cdab42a8fe2d83f04f4b69c5e73bc8d3bf6b5dc96ac239b145a) := by
  unfold Key.newChildKey Key.getIntermediary publicKeyForPrivateKey
  simp only [tableBaseMult_eq]
  decide +kernel

theorem wallet_44h_60h_0h_0_0 : ((keyN 0x0488ade40460b68b6900000000c879d136f02003dc804811e42390714ea06448aeaee158c62d65f12a421d988f00a29ac2cb17e31cdab42a8fe2d83f04f4b69c5e73bc8d3bf6b5dc96ac239b145a).newChildKey goHashes reg 0).1 =
    (keyN 0x0488ade405e438961400000000736094f4f24b67e838a4b3d23d31d229ca03e00c9bb99ce95da6d86e8b3847b5001ab42cc412b618bdea3a599e3c9bae199ebf030895b039e9db1e30dafb12b727) := by
  unfold Key.newChildKey Key.getIntermediary publicKeyForPrivateKey
  simp only [tableBaseMult_eq]
  decide +kernel

theorem ethereum_0_key : ((deriveBIP32Result goHashes reg (keyN 0x0488ade40000000000000000007923408dadd3c7b56eed15567707ae5e5dca089de972e07f3b860450e2a3b70e001837c1be8e2995ec11cda2b066151be2cfb48adf9e47b151d46adab3a21cdf67) (str "m/44'/60'/0'/0/0")).1.getLast?.map (·.key)) =
    some (keyN 0x0488ade405e438961400000000736094f4f24b67e838a4b3d23d31d229ca03e00c9bb99ce95da6d86e8b3847b5001ab42cc412b618bdea3a599e3c9bae199ebf030895b039e9db1e30dafb12b727) := by
  have hr : ((keyN 0x0488ade40000000000000000007923408dadd3c7b56eed15567707ae5e5dca089de972e07f3b860450e2a3b70e001837c1be8e2995ec11cda2b066151be2cfb48adf9e47b151d46adab3a21cdf67).isValid goHashes) = true := by decide +kernel
  have hp : (keyN 0x0488ade40000000000000000007923408dadd3c7b56eed15567707ae5e5dca089de972e07f3b860450e2a3b70e001837c1be8e2995ec11cda2b066151be2cfb48adf9e47b151d46adab3a21cdf67).isPrivate = true := by decide +kernel
  have hd : (keyN 0x0488ade40000000000000000007923408dadd3c7b56eed15567707ae5e5dca089de972e07f3b860450e2a3b70e001837c1be8e2995ec11cda2b066151be2cfb48adf9e47b151d46adab3a21cdf67).byteAt depthStart = 0 := by decide +kernel
  have hv : pathIsValid (str "m/44'/60'/0'/0/0") = true := by decide +kernel
  have hs : valuesAtDepth (str "m/44'/60'/0'/0/0") = ([0, 2147483692, 2147483708, 2147483648, 0, 0], none) := by decide +kernel
  unfold deriveBIP32Result
  rw [hr, hp, hd, hv, hs]
  simp [deriveLoop, wallet_44h, wallet_44h_60h, wallet_44h_60h_0h, wallet_44h_60h_0h_0, wallet_44h_60h_0h_0_0]

theorem ethereum_0_address (p : Bytes) : (KeyPath.mk p (keyN 0x0488ade405e438961400000000736094f4f24b67e838a4b3d23d31d229ca03e00c9bb99ce95da6d86e8b3847b5001ab42cc412b618bdea3a599e3c9bae199ebf030895b039e9db1e30dafb12b727)).addrHex goHashes reg =
    str "9858effd232b4033e47d90003d41ec34ecaeda94" := by
  unfold KeyPath.addrHex Key.publicKeyHex Key.publicKeyExtended publicKeyForPrivateKey
  simp only [tableBaseMult_eq]
  decide +kernel

theorem wallet_44h_0h : ((keyN 0x0488ade40173c5da0a8000002c45d3b0e8206db10a08d555317c7e245c5bbd12254ce968f3c79a959d4e6af98a00cd46049fb82a4fccbd967c5234e61152f4df87d01d1ef833420814c67ee4b7ea).newChildKey goHashes reg 2147483648).1 =
    (keyN 0x0488ade40288b3582b80000000af0894dc5f2d5bed0dc85b2fd2053a98575765c144e4e64126ee1009b38860b200a7661fa497f67a7d5a17f299e76635e16d69aca8b89ac8022cabad47690f47f6) := by
  unfold Key.newChildKey Key.getIntermediary publicKeyForPrivateKey
  simp only [tableBaseMult_eq]
  decide +kernel

theorem wallet_44h_0h_0h : ((keyN 0x0488ade40288b3582b80000000af0894dc5f2d5bed0dc85b2fd2053a98575765c144e4e64126ee1009b38860b200a7661fa497f67a7d5a17f299e76635e16d69aca8b89ac8022cabad47690f47f6).newChildKey goHashes reg 2147483648).1 =
    (keyN 0x0488ade403155bca59800000003da4bc190a2680111d31fadfdc905f2a7f6ce77c6f109919116f253d4344521900fe64af825b5b78554c33a28b23085fc082f691b3c712cc1d4e66e133297da87a) := by
  unfold Key.newChildKey Key.getIntermediary publicKeyForPrivateKey
  simp only [tableBaseMult_eq]
  decide +kernel

theorem wallet_44h_0h_0h_0 : ((keyN 0x0488ade403155bca59800000003da4bc190a2680111d31fadfdc905f2a7f6ce77c6f109919116f253d4344521900fe64af825b5b78554c33a28b23085fc082f691b3c712cc1d4e66e133297da87a).newChildKey goHashes reg 0).1 =
    (keyN 0x0488ade4046cc9f25200000000bce80dd580792cd18af542790e56aa813178dc28644bb5f03dbd44c85f2d2e7a0083bda5c7add17ef9bbc1f03391913fe6cc947aa18c4a343607724e815c83eeb7) := by
  unfold Key.newChildKey Key.getIntermediary publicKeyForPrivateKey
  simp only [tableBaseMult_eq]
  decide +kernel

theorem wallet_44h_0h_0h_0_0 : ((keyN 0x0488ade4046cc9f25200000000bce80dd580792cd18af542790e56aa813178dc28644bb5f03dbd44c85f2d2e7a0083bda5c7add17ef9bbc1f03391913fe6cc947aa18c4a343607724e815c83eeb7).newChildKey goHashes reg 0).1 =
    (keyN 0x0488ade4051962ab5800000000213909708058e0ec4a99c19d8e041c014ae6c7dc21d2a1fac86772df7ca357a600e284129cc0922579a535bbf4d1a3b25773090d28c909bc0fed73b5e0222cc372) := by
  unfold Key.newChildKey Key.getIntermediary publicKeyForPrivateKey
  simp only [tableBaseMult_eq]
  decide +kernel

theorem bitcoin_0_key : ((deriveBIP32Result goHashes reg (keyN 0x0488ade40000000000000000007923408dadd3c7b56eed15567707ae5e5dca089de972e07f3b860450e2a3b70e001837c1be8e2995ec11cda2b066151be2cfb48adf9e47b151d46adab3a21cdf67) (str "m/44'/0'/0'/0/0")).1.getLast?.map (·.key)) =
    some (keyN 0x0488ade4051962ab5800000000213909708058e0ec4a99c19d8e041c014ae6c7dc21d2a1fac86772df7ca357a600e284129cc0922579a535bbf4d1a3b25773090d28c909bc0fed73b5e0222cc372) := by
  have hr : ((keyN 0x0488ade40000000000000000007923408dadd3c7b56eed15567707ae5e5dca089de972e07f3b860450e2a3b70e001837c1be8e2995ec11cda2b066151be2cfb48adf9e47b151d46adab3a21cdf67).isValid goHashes) = true := by decide +kernel
  have hp : (keyN 0x0488ade40000000000000000007923408dadd3c7b56eed15567707ae5e5dca089de972e07f3b860450e2a3b70e001837c1be8e2995ec11cda2b066151be2cfb48adf9e47b151d46adab3a21cdf67).isPrivate = true := by decide +kernel
  have hd : (keyN 0x0488ade40000000000000000007923408dadd3c7b56eed15567707ae5e5dca089de972e07f3b860450e2a3b70e001837c1be8e2995ec11cda2b066151be2cfb48adf9e47b151d46adab3a21cdf67).byteAt depthStart = 0 := by decide +kernel
  have hv : pathIsValid (str "m/44'/0'/0'/0/0") = true := by decide +kernel
  have hs : valuesAtDepth (str "m/44'/0'/0'/0/0") = ([0, 2147483692, 2147483648, 2147483648, 0, 0], none) := by decide +kernel
  unfold deriveBIP32Result
  rw [hr, hp, hd, hv, hs]
  simp [deriveLoop, wallet_44h, wallet_44h_0h, wallet_44h_0h_0h, wallet_44h_0h_0h_0, wallet_44h_0h_0h_0_0]

theorem bitcoin_0_address (p : Bytes) : (KeyPath.mk p (keyN 0x0488ade4051962ab5800000000213909708058e0ec4a99c19d8e041c014ae6c7dc21d2a1fac86772df7ca357a600e284129cc0922579a535bbf4d1a3b25773090d28c909bc0fed73b5e0222cc372)).addrP2SH goHashes reg 0 =
    str "1LqBGSKuX5yYUonjxT5qGfpUsXKYYWeabA" := by
  unfold KeyPath.addrP2SH Key.publicKeyHex Key.publicKeyExtended publicKeyForPrivateKey
  simp only [tableBaseMult_eq]
  decide +kernel

/-! The defect of C50 in this wallet: the public key of the 63rd Ethereum account has a coordinate that begins with a zero
byte. The address shown is that of nobody; the one of the account, with both coordinates in 32 bytes, is the last one. -/

theorem wallet_44h_60h_0h_0_62 : ((keyN 0x0488ade40460b68b6900000000c879d136f02003dc804811e42390714ea06448aeaee158c62d65f12a421d988f00a29ac2cb17e31cdab42a8fe2d83f04f4b69c5e73bc8d3bf6b5dc96ac239b145a).newChildKey goHashes reg 62).1 =
    (keyN 0x0488ade405e43896140000003ef7f52565ec15d5901aa5427a7ed7a5737b5d5cbafe4236ca540364078fcdaf67000aa3e55c220c0e10bed888d60cc614106fde780f238fbfed61bc8231306f5dd9) := by
  unfold Key.newChildKey Key.getIntermediary publicKeyForPrivateKey
  simp only [tableBaseMult_eq]
  decide +kernel

theorem ethereum_62_key : ((deriveBIP32Result goHashes reg (keyN 0x0488ade40000000000000000007923408dadd3c7b56eed15567707ae5e5dca089de972e07f3b860450e2a3b70e001837c1be8e2995ec11cda2b066151be2cfb48adf9e47b151d46adab3a21cdf67) (str "m/44'/60'/0'/0/62")).1.getLast?.map (·.key)) =
    some (keyN 0x0488ade405e43896140000003ef7f52565ec15d5901aa5427a7ed7a5737b5d5cbafe4236ca540364078fcdaf67000aa3e55c220c0e10bed888d60cc614106fde780f238fbfed61bc8231306f5dd9) := by
  have hr : ((keyN 0x0488ade40000000000000000007923408dadd3c7b56eed15567707ae5e5dca089de972e07f3b860450e2a3b70e001837c1be8e2995ec11cda2b066151be2cfb48adf9e47b151d46adab3a21cdf67).isValid goHashes) = true := by decide +kernel
  have hp : (keyN 0x0488ade40000000000000000007923408dadd3c7b56eed15567707ae5e5dca089de972e07f3b860450e2a3b70e001837c1be8e2995ec11cda2b066151be2cfb48adf9e47b151d46adab3a21cdf67).isPrivate = true := by decide +kernel
  have hd : (keyN 0x0488ade40000000000000000007923408dadd3c7b56eed15567707ae5e5dca089de972e07f3b860450e2a3b70e001837c1be8e2995ec11cda2b066151be2cfb48adf9e47b151d46adab3a21cdf67).byteAt depthStart = 0 := by decide +kernel
  have hv : pathIsValid (str "m/44'/60'/0'/0/62") = true := by decide +kernel
  have hs : valuesAtDepth (str "m/44'/60'/0'/0/62") = ([0, 2147483692, 2147483708, 2147483648, 0, 62], none) := by decide +kernel
  unfold deriveBIP32Result
  rw [hr, hp, hd, hv, hs]
  simp [deriveLoop, wallet_44h, wallet_44h_60h, wallet_44h_60h_0h, wallet_44h_60h_0h_0, wallet_44h_60h_0h_0_62]

theorem ethereum_62_address (p : Bytes) : (KeyPath.mk p (keyN 0x0488ade405e43896140000003ef7f52565ec15d5901aa5427a7ed7a5737b5d5cbafe4236ca540364078fcdaf67000aa3e55c220c0e10bed888d60cc614106fde780f238fbfed61bc8231306f5dd9)).addrHex goHashes reg =
    str "246f9234a380b33c1e547f95758efb167b0180ff" := by
  unfold KeyPath.addrHex Key.publicKeyHex Key.publicKeyExtended publicKeyForPrivateKey
  simp only [tableBaseMult_eq]
  decide +kernel

theorem ethereum_62_true_address :
    (let q := scalarBaseMult (beBytes 32 0x0aa3e55c220c0e10bed888d60cc614106fde780f238fbfed61bc8231306f5dd9)
     hexEncode ((goHashes.keccak256 (beBytes 32 q.1 ++ beBytes 32 q.2)).drop 12)) =
    str "059e1d7a2d1ecc50e5d7ab3d97a73d857c9530f1" := by
  simp only [tableBaseMult_eq]
  decide +kernel

end Bips
