import Verif.Lemmas.Code
import Verif.Lemmas.SourceText
import Verif.Model.GenCode2
import Verif.Model.GenText
import Verif.Model.GenSource

/-! Generated by `tools/gencode.py`: the functions in each piece of the text; do not edit. -/

namespace Ublox.Gen
open Src Code

set_option maxRecDepth 100000

theorem packetsRs20_program : programOf (codes packetsRs20) = some ([packetsRs_AckAckRef_impl, packetsRs_AckNakRef_impl], []) := by
  rw [codes_eq (s := packetsRs20) (chars := charsOf% packetsRs20) rfl]
  kernel_rfl

theorem packetsRs21_program : programOf (codes packetsRs21) = some ([], []) := by
  rw [codes_eq (s := packetsRs21) (chars := charsOf% packetsRs21) rfl]
  kernel_rfl

theorem packetsRs22_program : programOf (codes packetsRs22) = some ([], []) := by
  rw [codes_eq (s := packetsRs22) (chars := charsOf% packetsRs22) rfl]
  kernel_rfl

theorem packetsRs23_program : programOf (codes packetsRs23) = some ([], []) := by
  rw [codes_eq (s := packetsRs23) (chars := charsOf% packetsRs23) rfl]
  kernel_rfl

theorem packetsRs24_program : programOf (codes packetsRs24) = some ([], []) := by
  rw [codes_eq (s := packetsRs24) (chars := charsOf% packetsRs24) rfl]
  kernel_rfl

theorem packetsRs25_program : programOf (codes packetsRs25) = some ([], []) := by
  rw [codes_eq (s := packetsRs25) (chars := charsOf% packetsRs25) rfl]
  kernel_rfl

theorem packetsRs26_program : programOf (codes packetsRs26) = some ([], []) := by
  rw [codes_eq (s := packetsRs26) (chars := charsOf% packetsRs26) rfl]
  kernel_rfl

theorem packetsRs27_program : programOf (codes packetsRs27) = some ([], []) := by
  rw [codes_eq (s := packetsRs27) (chars := charsOf% packetsRs27) rfl]
  kernel_rfl

theorem packetsRs28_program : programOf (codes packetsRs28) = some ([packetsRs_NavBbrMask_From_NavBbrPredefinedMask_impl, packetsRs_NavBbrPredefinedMask_impl], [packetsRs_NavBbrPredefinedMask_decl]) := by
  rw [codes_eq (s := packetsRs28) (chars := charsOf% packetsRs28) rfl]
  kernel_rfl

theorem packetsRs29_program : programOf (codes packetsRs29) = some ([packetsRs_ResetMode_impl, packetsRs_CfgValIter_impl], [packetsRs_ResetMode_decl, packetsRs_CfgValIter_decl]) := by
  rw [codes_eq (s := packetsRs29) (chars := charsOf% packetsRs29) rfl]
  kernel_rfl

theorem packetsRs30_program : programOf (codes packetsRs30) = some ([packetsRs_CfgValIter_Iterator_impl, packetsRs_CfgLayer_Default_impl], []) := by
  rw [codes_eq (s := packetsRs30) (chars := charsOf% packetsRs30) rfl]
  kernel_rfl

theorem packetsRs31_program : programOf (codes packetsRs31) = some ([packetsRs_UartMode_impl], [packetsRs_UartMode_decl]) := by
  rw [codes_eq (s := packetsRs31) (chars := charsOf% packetsRs31) rfl]
  kernel_rfl

theorem packetsRs32_program : programOf (codes packetsRs32) = some ([packetsRs_UartMode_From_u32_impl, packetsRs_DataBits_impl, packetsRs_DataBits_From_u32_impl, packetsRs_Parity_impl], [packetsRs_DataBits_decl, packetsRs_Parity_decl]) := by
  rw [codes_eq (s := packetsRs32) (chars := charsOf% packetsRs32) rfl]
  kernel_rfl

theorem packetsRs33_program : programOf (codes packetsRs33) = some ([packetsRs_Parity_From_u32_impl, packetsRs_StopBits_impl, packetsRs_StopBits_From_u32_impl], [packetsRs_StopBits_decl]) := by
  rw [codes_eq (s := packetsRs33) (chars := charsOf% packetsRs33) rfl]
  kernel_rfl

theorem packetsRs34_program : programOf (codes packetsRs34) = some ([], []) := by
  rw [codes_eq (s := packetsRs34) (chars := charsOf% packetsRs34) rfl]
  kernel_rfl

theorem packetsRs35_program : programOf (codes packetsRs35) = some ([], []) := by
  rw [codes_eq (s := packetsRs35) (chars := charsOf% packetsRs35) rfl]
  kernel_rfl

theorem packetsRs36_program : programOf (codes packetsRs36) = some ([packetsRs_AlignmentToReferenceTime_impl, packetsRs_CfgMsgSinglePortBuilder_impl, packetsRs_CfgMsgAllPortsBuilder_impl], [packetsRs_AlignmentToReferenceTime_decl]) := by
  rw [codes_eq (s := packetsRs36) (chars := charsOf% packetsRs36) rfl]
  kernel_rfl

theorem packetsRs37_program : programOf (codes packetsRs37) = some ([], []) := by
  rw [codes_eq (s := packetsRs37) (chars := charsOf% packetsRs37) rfl]
  kernel_rfl

theorem packetsRs38_program : programOf (codes packetsRs38) = some ([], []) := by
  rw [codes_eq (s := packetsRs38) (chars := charsOf% packetsRs38) rfl]
  kernel_rfl

theorem packetsRs39_program : programOf (codes packetsRs39) = some ([packetsRs_ScaleBack_impl], [packetsRs_ScaleBack_decl]) := by
  rw [codes_eq (s := packetsRs39) (chars := charsOf% packetsRs39) rfl]
  kernel_rfl

end Ublox.Gen
