import Verif.Vectors.Seed.Plain.Part0
import Verif.Vectors.Seed.Plain.Part1
import Verif.Vectors.Seed.Plain.Part2
import Verif.Vectors.Seed.Plain.Part3

/-!
# The seed of the first test vector of BIP-39 (bip39/bip39_test.go)

Written by tools/gen_seed.py.
-/

namespace Bips.Seed.Plain

open Fast

/-- The mnemonic. -/
def mnemonic : Bytes := str "abandon abandon abandon abandon abandon abandon abandon abandon abandon abandon abandon about"

/-- The passphrase. -/
def passphrase : Bytes := str "TREZOR"

/-- The seed. -/
def seed : Bytes := [0xc5, 0x52, 0x57, 0xc3, 0x60, 0xc0, 0x7c, 0x72, 0x02, 0x9a, 0xeb, 0xc1, 0xb5, 0x3c, 0x05, 0xed, 0x03, 0x62, 0xad, 0xa3, 0x8e, 0xad, 0x3e, 0x3e, 0x9e, 0xfa, 0x37, 0x08, 0xe5, 0x34, 0x95, 0x53, 0x1f, 0x09, 0xa6, 0x98, 0x75, 0x99, 0xd1, 0x82, 0x64, 0xc1, 0xe1, 0xc9, 0x2f, 0x2c, 0xf1, 0x41, 0x63, 0x0c, 0x7a, 0x3c, 0x4a, 0xb7, 0xc8, 0x1b, 0x2f, 0x00, 0x16, 0x98, 0xe7, 0x46, 0x3b, 0x04]

/-- The whole loop. -/
theorem loop : iter 2047 i o u0 u0 = (u16, t16) :=
  iter_trans 2047 rfl (iter_trans 1920 rfl (iter_trans 1792 rfl (iter_trans 1664 rfl (iter_trans 1536 rfl (iter_trans 1408 rfl (iter_trans 1280 rfl (iter_trans 1152 rfl (iter_trans 1024 rfl (iter_trans 896 rfl (iter_trans 768 rfl (iter_trans 640 rfl (iter_trans 512 rfl (iter_trans 384 rfl (iter_trans 256 rfl step0 step1) step2) step3) step4) step5) step6) step7) step8) step9) step10) step11) step12) step13) step14) step15

set_option maxRecDepth 100000 in
theorem newSeed_eq : newSeed goHashes mnemonic passphrase = seed := by
  have hi : keyed mnemonic 0x36 = i := by decide +kernel
  have ho : keyed mnemonic 0x5c = o := by decide +kernel
  have hu : hmacSha512 mnemonic (str "mnemonic" ++ passphrase ++ [0, 0, 0, 1]) = bytesOf u0 := by decide +kernel
  have hs : bytesOf t16 = seed := by decide +kernel
  rw [← hs]
  exact Fast.newSeed_eq hi ho
    (by constructor <;> decide +kernel) (by constructor <;> decide +kernel) (by constructor <;> decide +kernel) hu loop

end Bips.Seed.Plain
