import Verif.Spec.Bip32

/-!
# Specification: valid extended keys

The serialization format of BIP-32, and the ways in which a key can be malformed that its Test Vector 5 lists. `prv` and `pub`
say which version bytes are those of private and of public keys.
-/

namespace Bips.Spec

/-- The 78 bytes are a valid extended key: 4 bytes version, 1 byte depth, 4 bytes parent fingerprint, 4 bytes child number, 32
bytes chain code, 33 bytes key. A key of depth 0 has no parent. -/
def ValidExtended (prv pub : Bytes → Prop) (b : Bytes) : Prop :=
  b.length = 78 ∧ (b.getD 4 0 = 0 → (b.drop 5).take 8 = List.replicate 8 0) ∧
  ((prv (b.take 4) ∧ ∃ k, 1 ≤ k ∧ k < secpN ∧ b.drop 45 = 0 :: ser256 k) ∨
    (pub (b.take 4) ∧ ∃ K : Pt, K ≠ 0 ∧ b.drop 45 = serP K))

/-- The defects of Test Vector 5 (the wrong checksum apart). -/
inductive Defect
  | publicVersionPrivateKey
  | privateVersionPublicKey
  | publicPrefix
  | privatePrefix
  | fingerprintAtDepthZero
  | childNumberAtDepthZero
  | unknownVersion
  | scalarOutOfRange
  | notOnCurve

/-- The 78 bytes have the defect. -/
def Defect.In (prv pub : Bytes → Prop) (b : Bytes) : Defect → Prop
  | publicVersionPrivateKey => pub (b.take 4) ∧ b.getD 45 0 = 0
  | privateVersionPublicKey => prv (b.take 4) ∧ (b.getD 45 0 = 2 ∨ b.getD 45 0 = 3)
  | publicPrefix => pub (b.take 4) ∧ b.getD 45 0 ≠ 0 ∧ b.getD 45 0 ≠ 2 ∧ b.getD 45 0 ≠ 3
  | privatePrefix => prv (b.take 4) ∧ b.getD 45 0 ≠ 0 ∧ b.getD 45 0 ≠ 2 ∧ b.getD 45 0 ≠ 3
  | fingerprintAtDepthZero => b.getD 4 0 = 0 ∧ (b.drop 5).take 4 ≠ List.replicate 4 0
  | childNumberAtDepthZero => b.getD 4 0 = 0 ∧ (b.drop 9).take 4 ≠ List.replicate 4 0
  | unknownVersion => ¬ prv (b.take 4) ∧ ¬ pub (b.take 4)
  | scalarOutOfRange => prv (b.take 4) ∧ b.getD 45 0 = 0 ∧ (parse256 (b.drop 46) = 0 ∨ secpN ≤ parse256 (b.drop 46))
  | notOnCurve => pub (b.take 4) ∧ (b.getD 45 0 = 2 ∨ b.getD 45 0 = 3) ∧
      ¬ ∃ y : Nat, parse256 (b.drop 46) < secpP ∧ y ^ 2 % secpP = (parse256 (b.drop 46) ^ 3 + 7) % secpP

end Bips.Spec
