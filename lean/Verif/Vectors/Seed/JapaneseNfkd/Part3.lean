import Verif.Vectors.Seed.JapaneseNfkd.States

/-! Written by tools/gen_seed.py. -/

namespace Bips.Seed.JapaneseNfkd

open Fast

set_option maxRecDepth 100000 in
theorem step12 : iter 128 i o u12 t12 = (u13, t13) := by decide +kernel

set_option maxRecDepth 100000 in
theorem step13 : iter 128 i o u13 t13 = (u14, t14) := by decide +kernel

set_option maxRecDepth 100000 in
theorem step14 : iter 128 i o u14 t14 = (u15, t15) := by decide +kernel

set_option maxRecDepth 100000 in
theorem step15 : iter 127 i o u15 t15 = (u16, t16) := by decide +kernel

end Bips.Seed.JapaneseNfkd
