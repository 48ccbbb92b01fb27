import Verif.Vectors.Seed.JapaneseNfkd.States

/-! Written by tools/gen_seed.py. -/

namespace Bips.Seed.JapaneseNfkd

open Fast

set_option maxRecDepth 100000 in
theorem step8 : iter 128 i o u8 t8 = (u9, t9) := by decide +kernel

set_option maxRecDepth 100000 in
theorem step9 : iter 128 i o u9 t9 = (u10, t10) := by decide +kernel

set_option maxRecDepth 100000 in
theorem step10 : iter 128 i o u10 t10 = (u11, t11) := by decide +kernel

set_option maxRecDepth 100000 in
theorem step11 : iter 128 i o u11 t11 = (u12, t12) := by decide +kernel

end Bips.Seed.JapaneseNfkd
