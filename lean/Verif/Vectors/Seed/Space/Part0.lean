import Verif.Vectors.Seed.Space.States

/-! Written by tools/gen_seed.py. -/

namespace Bips.Seed.Space

open Fast

set_option maxRecDepth 100000 in
theorem step0 : iter 128 i o u0 u0 = (u1, t1) := by decide +kernel

set_option maxRecDepth 100000 in
theorem step1 : iter 128 i o u1 t1 = (u2, t2) := by decide +kernel

set_option maxRecDepth 100000 in
theorem step2 : iter 128 i o u2 t2 = (u3, t3) := by decide +kernel

set_option maxRecDepth 100000 in
theorem step3 : iter 128 i o u3 t3 = (u4, t4) := by decide +kernel

end Bips.Seed.Space
