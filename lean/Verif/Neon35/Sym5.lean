import Verif.Neon35.Chunk

/-! # The inner product routine with L = 5, run by the kernel -/

namespace Verif.Neon35

open Verif.Neon

set_option maxRecDepth 100000
set_option Elab.async false

theorem acc5_pre : symRun2 705 pointwiseAccAsm5_pre (start (rowsX 64 id) [0, 256, 1536, 2816]) (fun s => sbeq s (mid 5 0)) = some true := by decide +kernel
theorem acc5_post : symRun2 705 pointwiseAccAsm5_post (mid 5 15) (outAre (accT 5)) = some true := by decide +kernel
theorem acc5_0 : symRun2 705 pointwiseAccAsm5_body (mid 5 0) (fun s => sbeq s (mid 5 1)) = some true := by decide +kernel
theorem acc5_1 : symRun2 705 pointwiseAccAsm5_body (mid 5 1) (fun s => sbeq s (mid 5 2)) = some true := by decide +kernel
theorem acc5_2 : symRun2 705 pointwiseAccAsm5_body (mid 5 2) (fun s => sbeq s (mid 5 3)) = some true := by decide +kernel
theorem acc5_3 : symRun2 705 pointwiseAccAsm5_body (mid 5 3) (fun s => sbeq s (mid 5 4)) = some true := by decide +kernel
theorem acc5_4 : symRun2 705 pointwiseAccAsm5_body (mid 5 4) (fun s => sbeq s (mid 5 5)) = some true := by decide +kernel
theorem acc5_5 : symRun2 705 pointwiseAccAsm5_body (mid 5 5) (fun s => sbeq s (mid 5 6)) = some true := by decide +kernel
theorem acc5_6 : symRun2 705 pointwiseAccAsm5_body (mid 5 6) (fun s => sbeq s (mid 5 7)) = some true := by decide +kernel
theorem acc5_7 : symRun2 705 pointwiseAccAsm5_body (mid 5 7) (fun s => sbeq s (mid 5 8)) = some true := by decide +kernel
theorem acc5_8 : symRun2 705 pointwiseAccAsm5_body (mid 5 8) (fun s => sbeq s (mid 5 9)) = some true := by decide +kernel
theorem acc5_9 : symRun2 705 pointwiseAccAsm5_body (mid 5 9) (fun s => sbeq s (mid 5 10)) = some true := by decide +kernel
theorem acc5_10 : symRun2 705 pointwiseAccAsm5_body (mid 5 10) (fun s => sbeq s (mid 5 11)) = some true := by decide +kernel
theorem acc5_11 : symRun2 705 pointwiseAccAsm5_body (mid 5 11) (fun s => sbeq s (mid 5 12)) = some true := by decide +kernel
theorem acc5_12 : symRun2 705 pointwiseAccAsm5_body (mid 5 12) (fun s => sbeq s (mid 5 13)) = some true := by decide +kernel
theorem acc5_13 : symRun2 705 pointwiseAccAsm5_body (mid 5 13) (fun s => sbeq s (mid 5 14)) = some true := by decide +kernel
theorem acc5_14 : symRun2 705 pointwiseAccAsm5_body (mid 5 14) (fun s => sbeq s (mid 5 15)) = some true := by decide +kernel

theorem acc5_turn (j : Nat) (h : j < 15) : symRun2 705 pointwiseAccAsm5_body (mid 5 (0 + j)) (fun s => sbeq s (mid 5 (0 + j + 1))) = some true := by
  rw [Nat.zero_add]
  match j, h with
  | 0, _ => exact acc5_0
  | 1, _ => exact acc5_1
  | 2, _ => exact acc5_2
  | 3, _ => exact acc5_3
  | 4, _ => exact acc5_4
  | 5, _ => exact acc5_5
  | 6, _ => exact acc5_6
  | 7, _ => exact acc5_7
  | 8, _ => exact acc5_8
  | 9, _ => exact acc5_9
  | 10, _ => exact acc5_10
  | 11, _ => exact acc5_11
  | 12, _ => exact acc5_12
  | 13, _ => exact acc5_13
  | 14, _ => exact acc5_14

theorem acc5_sym : symRun id 705 pointwiseAccAsm5 (plain 705 [0, 256, 1536, 2816]) (allIs (accT 5)) = some true := by
  refine plain2 705 (by decide) _ _ _ (accT_ge 5) ?_
  rw [pointwiseAccAsm5, List.append_assoc, symRun2_piece 705 _ _ _ (mid 5 0) (by unfold start rowsX; simp) acc5_pre, symRun2_turns 705 5 _ _ 15 0 acc5_turn]
  exact acc5_post

end Verif.Neon35
