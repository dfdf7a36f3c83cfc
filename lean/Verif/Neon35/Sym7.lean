import Verif.Neon35.Sym5

/-! # The inner product routine with L = 7, run by the kernel -/

namespace Verif.Neon35

open Verif.Neon

set_option maxRecDepth 100000
set_option Elab.async false

theorem acc7_pre : symRun2 961 pointwiseAccAsm7_pre (start (rowsX 64 id) [0, 256, 2048, 3840]) (fun s => sbeq s (mid 7 0)) = some true := by decide +kernel
theorem acc7_post : symRun2 961 pointwiseAccAsm7_post (mid 7 15) (outAre (accT 7)) = some true := by decide +kernel
theorem acc7_0 : symRun2 961 pointwiseAccAsm7_body (mid 7 0) (fun s => sbeq s (mid 7 1)) = some true := by decide +kernel
theorem acc7_1 : symRun2 961 pointwiseAccAsm7_body (mid 7 1) (fun s => sbeq s (mid 7 2)) = some true := by decide +kernel
theorem acc7_2 : symRun2 961 pointwiseAccAsm7_body (mid 7 2) (fun s => sbeq s (mid 7 3)) = some true := by decide +kernel
theorem acc7_3 : symRun2 961 pointwiseAccAsm7_body (mid 7 3) (fun s => sbeq s (mid 7 4)) = some true := by decide +kernel
theorem acc7_4 : symRun2 961 pointwiseAccAsm7_body (mid 7 4) (fun s => sbeq s (mid 7 5)) = some true := by decide +kernel
theorem acc7_5 : symRun2 961 pointwiseAccAsm7_body (mid 7 5) (fun s => sbeq s (mid 7 6)) = some true := by decide +kernel
theorem acc7_6 : symRun2 961 pointwiseAccAsm7_body (mid 7 6) (fun s => sbeq s (mid 7 7)) = some true := by decide +kernel
theorem acc7_7 : symRun2 961 pointwiseAccAsm7_body (mid 7 7) (fun s => sbeq s (mid 7 8)) = some true := by decide +kernel
theorem acc7_8 : symRun2 961 pointwiseAccAsm7_body (mid 7 8) (fun s => sbeq s (mid 7 9)) = some true := by decide +kernel
theorem acc7_9 : symRun2 961 pointwiseAccAsm7_body (mid 7 9) (fun s => sbeq s (mid 7 10)) = some true := by decide +kernel
theorem acc7_10 : symRun2 961 pointwiseAccAsm7_body (mid 7 10) (fun s => sbeq s (mid 7 11)) = some true := by decide +kernel
theorem acc7_11 : symRun2 961 pointwiseAccAsm7_body (mid 7 11) (fun s => sbeq s (mid 7 12)) = some true := by decide +kernel
theorem acc7_12 : symRun2 961 pointwiseAccAsm7_body (mid 7 12) (fun s => sbeq s (mid 7 13)) = some true := by decide +kernel
theorem acc7_13 : symRun2 961 pointwiseAccAsm7_body (mid 7 13) (fun s => sbeq s (mid 7 14)) = some true := by decide +kernel
theorem acc7_14 : symRun2 961 pointwiseAccAsm7_body (mid 7 14) (fun s => sbeq s (mid 7 15)) = some true := by decide +kernel

theorem acc7_turn (j : Nat) (h : j < 15) : symRun2 961 pointwiseAccAsm7_body (mid 7 (0 + j)) (fun s => sbeq s (mid 7 (0 + j + 1))) = some true := by
  rw [Nat.zero_add]
  match j, h with
  | 0, _ => exact acc7_0
  | 1, _ => exact acc7_1
  | 2, _ => exact acc7_2
  | 3, _ => exact acc7_3
  | 4, _ => exact acc7_4
  | 5, _ => exact acc7_5
  | 6, _ => exact acc7_6
  | 7, _ => exact acc7_7
  | 8, _ => exact acc7_8
  | 9, _ => exact acc7_9
  | 10, _ => exact acc7_10
  | 11, _ => exact acc7_11
  | 12, _ => exact acc7_12
  | 13, _ => exact acc7_13
  | 14, _ => exact acc7_14

theorem acc7_sym : symRun id 961 pointwiseAccAsm7 (plain 961 [0, 256, 2048, 3840]) (allIs (accT 7)) = some true := by
  refine plain2 961 (by decide) _ _ _ (accT_ge 7) ?_
  rw [pointwiseAccAsm7, List.append_assoc, symRun2_piece 961 _ _ _ (mid 7 0) (by unfold start rowsX; simp) acc7_pre, symRun2_turns 961 7 _ _ 15 0 acc7_turn]
  exact acc7_post

end Verif.Neon35
