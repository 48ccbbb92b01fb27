import Verif.Vectors.Seed.JapaneseNfkd.States

/-! Written by tools/gen_seed.py. -/

namespace Bips.Seed.JapaneseNfkd

open Fast

set_option maxRecDepth 100000 in
theorem step4 : iter 128 i o u4 t4 = (u5, t5) := by decide +kernel

set_option maxRecDepth 100000 in
theorem step5 : iter 128 i o u5 t5 = (u6, t6) := by decide +kernel

set_option maxRecDepth 100000 in
theorem step6 : iter 128 i o u6 t6 = (u7, t7) := by decide +kernel

set_option maxRecDepth 100000 in
theorem step7 : iter 128 i o u7 t7 = (u8, t8) := by decide +kernel

end Bips.Seed.JapaneseNfkd
