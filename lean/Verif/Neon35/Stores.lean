import Verif.Neon35.Sym

/-! # What the inner product routines store -/

namespace Verif.Neon35

open Verif.Neon

set_option maxRecDepth 100000 in
theorem acc5_stores : storesBelow 256 pointwiseAccAsm5 (ptrs [0, 256, 1536, 2816]) = true := by decide +kernel
set_option maxRecDepth 100000 in
theorem acc7_stores : storesBelow 256 pointwiseAccAsm7 (ptrs [0, 256, 2048, 3840]) = true := by decide +kernel

end Verif.Neon35
