import Verif.Vectors.Seed.Japanese.Part0
import Verif.Vectors.Seed.Japanese.Part1
import Verif.Vectors.Seed.Japanese.Part2
import Verif.Vectors.Seed.Japanese.Part3

/-!
# The seed of the first Japanese test vector of BIP-39 as the code computes it

Written by tools/gen_seed.py.
-/

namespace Bips.Seed.Japanese

open Fast

/-- The mnemonic. -/
def mnemonic : Bytes := str "あいこくしん　あいこくしん　あいこくしん　あいこくしん　あいこくしん　あいこくしん　あいこくしん　あいこくしん　あいこくしん　あいこくしん　あいこくしん　あおぞら"

/-- The passphrase. -/
def passphrase : Bytes := str "㍍ガバヴァぱばぐゞちぢ十人十色"

/-- The seed. -/
def seed : Bytes := [0x43, 0x54, 0x12, 0xcf, 0xf8, 0x02, 0xb2, 0xbd, 0xbe, 0x70, 0x7b, 0xc8, 0x8c, 0x85, 0xda, 0xbc, 0x1e, 0xd3, 0xe9, 0xcc, 0x1e, 0x86, 0x29, 0x76, 0xac, 0xbe, 0x9c, 0x13, 0xd4, 0x0d, 0x54, 0x44, 0x88, 0xc8, 0xef, 0xe6, 0xd3, 0xe9, 0xb7, 0xd9, 0xe9, 0x00, 0x08, 0x76, 0x4a, 0x25, 0x5d, 0x88, 0xec, 0x1e, 0xe9, 0x69, 0x8b, 0xea, 0x46, 0xbd, 0x1b, 0x7f, 0x62, 0xc5, 0xbe, 0x62, 0x75, 0xba]

/-- The whole loop. -/
theorem loop : iter 2047 i o u0 u0 = (u16, t16) :=
  iter_trans 2047 rfl (iter_trans 1920 rfl (iter_trans 1792 rfl (iter_trans 1664 rfl (iter_trans 1536 rfl (iter_trans 1408 rfl (iter_trans 1280 rfl (iter_trans 1152 rfl (iter_trans 1024 rfl (iter_trans 896 rfl (iter_trans 768 rfl (iter_trans 640 rfl (iter_trans 512 rfl (iter_trans 384 rfl (iter_trans 256 rfl step0 step1) step2) step3) step4) step5) step6) step7) step8) step9) step10) step11) step12) step13) step14) step15

set_option maxRecDepth 100000 in
theorem newSeed_eq : newSeed goHashes mnemonic passphrase = seed := by
  have hi : keyed mnemonic 0x36 = i := by decide +kernel
  have ho : keyed mnemonic 0x5c = o := by decide +kernel
  have hu : hmacSha512 mnemonic (str "mnemonic" ++ passphrase ++ [0, 0, 0, 1]) = bytesOf u0 := by decide +kernel
  have hs : bytesOf t16 = seed := by decide +kernel
  rw [← hs]
  exact Fast.newSeed_eq hi ho
    (by constructor <;> decide +kernel) (by constructor <;> decide +kernel) (by constructor <;> decide +kernel) hu loop

end Bips.Seed.Japanese
