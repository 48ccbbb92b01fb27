import Verif.Vectors.Seed.JapaneseNfkd.Part0
import Verif.Vectors.Seed.JapaneseNfkd.Part1
import Verif.Vectors.Seed.JapaneseNfkd.Part2
import Verif.Vectors.Seed.JapaneseNfkd.Part3

/-!
# The seed of the first Japanese test vector of BIP-39 after normalization

Written by tools/gen_seed.py.
-/

namespace Bips.Seed.JapaneseNfkd

open Fast

/-- The mnemonic. -/
def mnemonic : Bytes := str "あいこくしん あいこくしん あいこくしん あいこくしん あいこくしん あいこくしん あいこくしん あいこくしん あいこくしん あいこくしん あいこくしん あおぞら"

/-- The passphrase. -/
def passphrase : Bytes := str "メートルガバヴァぱばぐゞちぢ十人十色"

/-- The seed. -/
def seed : Bytes := [0xa2, 0x62, 0xd6, 0xfb, 0x61, 0x22, 0xec, 0xf4, 0x5b, 0xe0, 0x9c, 0x50, 0x49, 0x2b, 0x31, 0xf9, 0x2e, 0x9b, 0xeb, 0x7d, 0x9a, 0x84, 0x59, 0x87, 0xa0, 0x2c, 0xef, 0xda, 0x57, 0xa1, 0x5f, 0x9c, 0x46, 0x7a, 0x17, 0x87, 0x20, 0x29, 0xa9, 0xe9, 0x22, 0x99, 0xb5, 0xcb, 0xdf, 0x30, 0x6e, 0x3a, 0x0e, 0xe6, 0x20, 0x24, 0x5c, 0xbd, 0x50, 0x89, 0x59, 0xb6, 0xcb, 0x7c, 0xa6, 0x37, 0xbd, 0x55]

/-- The whole loop. -/
theorem loop : iter 2047 i o u0 u0 = (u16, t16) :=
  iter_trans 2047 rfl (iter_trans 1920 rfl (iter_trans 1792 rfl (iter_trans 1664 rfl (iter_trans 1536 rfl (iter_trans 1408 rfl (iter_trans 1280 rfl (iter_trans 1152 rfl (iter_trans 1024 rfl (iter_trans 896 rfl (iter_trans 768 rfl (iter_trans 640 rfl (iter_trans 512 rfl (iter_trans 384 rfl (iter_trans 256 rfl step0 step1) step2) step3) step4) step5) step6) step7) step8) step9) step10) step11) step12) step13) step14) step15

set_option maxRecDepth 100000 in
theorem newSeed_eq : newSeed goHashes mnemonic passphrase = seed := by
  have hi : keyed mnemonic 0x36 = i := by decide +kernel
  have ho : keyed mnemonic 0x5c = o := by decide +kernel
  have hu : hmacSha512 mnemonic (str "mnemonic" ++ passphrase ++ [0, 0, 0, 1]) = bytesOf u0 := by decide +kernel
  have hs : bytesOf t16 = seed := by decide +kernel
  rw [← hs]
  exact Fast.newSeed_eq hi ho
    (by constructor <;> decide +kernel) (by constructor <;> decide +kernel) (by constructor <;> decide +kernel) hu loop

end Bips.Seed.JapaneseNfkd
