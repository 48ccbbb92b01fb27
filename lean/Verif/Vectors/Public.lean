import Verif.Vectors.Base

namespace Bips

set_option maxRecDepth 100000

/-! ### Public derivation -/

theorem public_parent : b58Deserialize goHashes
    (str "xpub6DxSCdWu6jKqr4isjo7bsPeDD6s3J4YVQV1JSHZg12Eagdqnf7XX4fxqyW2sLhUoFWutL7tAELU2LiGZrEXtjVbvYptvTX5Eoa4Mamdjm9u") =
    ((keyN 0x0488b21e04398ade8000000000aa8011b221ad54eeb67b38f7194a8d2ac9bc790c42da44f4c7b8ce44eb2a17ad03ef4f5c466e6df264169153dd9f7d2c2572e62e84d005782c590a6eab3e8d5686), none) := by decide +kernel

theorem public_child_1 : ((keyN 0x0488b21e04398ade8000000000aa8011b221ad54eeb67b38f7194a8d2ac9bc790c42da44f4c7b8ce44eb2a17ad03ef4f5c466e6df264169153dd9f7d2c2572e62e84d005782c590a6eab3e8d5686).newChildKey goHashes reg 1).2 = none ∧
    ((keyN 0x0488b21e04398ade8000000000aa8011b221ad54eeb67b38f7194a8d2ac9bc790c42da44f4c7b8ce44eb2a17ad03ef4f5c466e6df264169153dd9f7d2c2572e62e84d005782c590a6eab3e8d5686).newChildKey goHashes reg 1).1.bytes.drop 45 = beBytes 33 0x023790d11eb715c4320d8e31fba3a09b700051dc2cdbcce03f44b11c274d1e220b := by
  unfold Key.newChildKey Key.getIntermediary publicKeyForPrivateKey addPublicKeys curveAdd
  simp only [tableBaseMult_eq, ← fastChord_eq, ← fastDouble_eq]
  decide +kernel

theorem public_child_109 : ((keyN 0x0488b21e04398ade8000000000aa8011b221ad54eeb67b38f7194a8d2ac9bc790c42da44f4c7b8ce44eb2a17ad03ef4f5c466e6df264169153dd9f7d2c2572e62e84d005782c590a6eab3e8d5686).newChildKey goHashes reg 109).2 = none ∧
    ((keyN 0x0488b21e04398ade8000000000aa8011b221ad54eeb67b38f7194a8d2ac9bc790c42da44f4c7b8ce44eb2a17ad03ef4f5c466e6df264169153dd9f7d2c2572e62e84d005782c590a6eab3e8d5686).newChildKey goHashes reg 109).1.bytes.drop 45 = beBytes 33 0x02479c6d4a64b93a2f4343aa862c938fbc658c99219dd7bebb4830307cbd76c9e9 := by
  unfold Key.newChildKey Key.getIntermediary publicKeyForPrivateKey addPublicKeys curveAdd
  simp only [tableBaseMult_eq, ← fastChord_eq, ← fastDouble_eq]
  decide +kernel

/-! ### Texts that are no keys -/

theorem bad_text_0 : (b58Deserialize goHashes
    (str "xprv9s21ZrQH143K4YUcKrp6cVxQaX59ZFkN6MFdeZjt8CHVYNs55xxQSvZpHWfojWMv6zgjmzopCyWPSFAnV4RU33J4pwCcnhsB4R4mPEnTsM")).2 =
    some .serializedKeyWrongSize := by decide +kernel

theorem bad_text_1 : (b58Deserialize goHashes
    (str "xprv9s21ZrQH143K3YSbAXLMPCzJso5QAarQksAGc5rQCyZCBfw4Rj2PqVLFNgezSBhktYkiL3Ta2stLPDF9yZtLMaxk6Spiqh3DNFG8p8MVeEc")).2 =
    some .invalidChecksum := by decide +kernel

theorem bad_text_2 : (b58Deserialize goHashes
    (str "notbase58iiiiiIIIIIbAXLMPCzJso5QAarQksAGc5rQCyZCBfw4Rj2PqVLFNgezSBhktYkiL3Ta2stLPDF9yZtLMaxk6Spiqh3DNFG8p8MVeEc")).2 ≠
    none := by decide +kernel

end Bips
