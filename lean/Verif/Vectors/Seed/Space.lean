import Verif.Vectors.Seed.Space.Part0
import Verif.Vectors.Seed.Space.Part1
import Verif.Vectors.Seed.Space.Part2
import Verif.Vectors.Seed.Space.Part3

/-!
# The seed of the same words followed by a space

Written by tools/gen_seed.py.
-/

namespace Bips.Seed.Space

open Fast

/-- The mnemonic. -/
def mnemonic : Bytes := str "abandon abandon abandon abandon abandon abandon abandon abandon abandon abandon abandon about "

/-- The passphrase. -/
def passphrase : Bytes := str "TREZOR"

/-- The seed. -/
def seed : Bytes := [0x05, 0x93, 0x45, 0x79, 0x37, 0xe8, 0x3d, 0xe5, 0x93, 0x14, 0xd3, 0xe8, 0xdc, 0x6a, 0x3a, 0x24, 0x6a, 0x39, 0x75, 0xf7, 0x17, 0x4e, 0x16, 0x7d, 0x05, 0x03, 0xd5, 0xed, 0xc0, 0x86, 0xa3, 0x69, 0x05, 0x1e, 0x47, 0x13, 0x5e, 0xdf, 0x18, 0x18, 0xc7, 0xfc, 0x1e, 0x60, 0x40, 0xec, 0x21, 0xfd, 0x4f, 0x47, 0x6a, 0xe9, 0x0c, 0x9d, 0x86, 0x27, 0x2d, 0x69, 0xc1, 0xe0, 0xec, 0xdd, 0x57, 0xf9]

/-- The whole loop. -/
theorem loop : iter 2047 i o u0 u0 = (u16, t16) :=
  iter_trans 2047 rfl (iter_trans 1920 rfl (iter_trans 1792 rfl (iter_trans 1664 rfl (iter_trans 1536 rfl (iter_trans 1408 rfl (iter_trans 1280 rfl (iter_trans 1152 rfl (iter_trans 1024 rfl (iter_trans 896 rfl (iter_trans 768 rfl (iter_trans 640 rfl (iter_trans 512 rfl (iter_trans 384 rfl (iter_trans 256 rfl step0 step1) step2) step3) step4) step5) step6) step7) step8) step9) step10) step11) step12) step13) step14) step15

set_option maxRecDepth 100000 in
theorem newSeed_eq : newSeed goHashes mnemonic passphrase = seed := by
  have hi : keyed mnemonic 0x36 = i := by decide +kernel
  have ho : keyed mnemonic 0x5c = o := by decide +kernel
  have hu : hmacSha512 mnemonic (str "mnemonic" ++ passphrase ++ [0, 0, 0, 1]) = bytesOf u0 := by decide +kernel
  have hs : bytesOf t16 = seed := by decide +kernel
  rw [← hs]
  exact Fast.newSeed_eq hi ho
    (by constructor <;> decide +kernel) (by constructor <;> decide +kernel) (by constructor <;> decide +kernel) hu loop

end Bips.Seed.Space
