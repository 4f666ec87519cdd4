import Verif.Lemmas.Code
import Verif.Lemmas.SourceText
import Verif.Model.GenCode2
import Verif.Model.GenText
import Verif.Model.GenSource

/-! Generated by `tools/gencode.py`: the functions in each piece of the text; do not edit. -/

namespace Ublox.Gen
open Src Code

set_option maxRecDepth 100000

theorem packetsRs40_program : programOf (codes packetsRs40) = some ([], []) := by
  rw [codes_eq (s := packetsRs40) (chars := charsOf% packetsRs40) rfl]
  kernel_rfl

theorem packetsRs41_program : programOf (codes packetsRs41) = some ([], []) := by
  rw [codes_eq (s := packetsRs41) (chars := charsOf% packetsRs41) rfl]
  kernel_rfl

theorem packetsRs42_program : programOf (codes packetsRs42) = some ([], []) := by
  rw [codes_eq (s := packetsRs42) (chars := charsOf% packetsRs42) rfl]
  kernel_rfl

theorem packetsRs43_program : programOf (codes packetsRs43) = some ([packetsRs_TimTpFlags_impl], [packetsRs_TimTpFlags_decl]) := by
  rw [codes_eq (s := packetsRs43) (chars := charsOf% packetsRs43) rfl]
  kernel_rfl

theorem packetsRs44_program : programOf (codes packetsRs44) = some ([packetsRs_TimTpRefInfo_impl], [packetsRs_TimTpTimeBase_decl, packetsRs_TimTpRefInfo_decl]) := by
  rw [codes_eq (s := packetsRs44) (chars := charsOf% packetsRs44) rfl]
  kernel_rfl

theorem packetsRs45_program : programOf (codes packetsRs45) = some ([packetsRs_TimTm2Flags_impl], [packetsRs_TimTpRefInfoTimeRefGnss_decl, packetsRs_TimTpRefInfoUtcStandard_decl, packetsRs_TimTm2Flags_decl]) := by
  rw [codes_eq (s := packetsRs45) (chars := charsOf% packetsRs45) rfl]
  kernel_rfl

theorem packetsRs46_program : programOf (codes packetsRs46) = some ([], [packetsRs_TimTm2Mode_decl, packetsRs_TimTm2Run_decl, packetsRs_TimTm2TimeBase_decl]) := by
  rw [codes_eq (s := packetsRs46) (chars := charsOf% packetsRs46) rfl]
  kernel_rfl

theorem packetsRs47_program : programOf (codes packetsRs47) = some ([], []) := by
  rw [codes_eq (s := packetsRs47) (chars := charsOf% packetsRs47) rfl]
  kernel_rfl

theorem packetsRs48_program : programOf (codes packetsRs48) = some ([packetsRs_MonVerExtensionIter_impl, packetsRs_MonVerExtensionIter_Iterator_impl], [packetsRs_MonVerExtensionIter_decl]) := by
  rw [codes_eq (s := packetsRs48) (chars := charsOf% packetsRs48) rfl]
  kernel_rfl

theorem packetsRs49_program : programOf (codes packetsRs49) = some ([packetsRs_mon_ver_impl], []) := by
  rw [codes_eq (s := packetsRs49) (chars := charsOf% packetsRs49) rfl]
  kernel_rfl

theorem packetsRs50_program : programOf (codes packetsRs50) = some ([packetsRs_EsfMeas_impl, packetsRs_EsfMeasRef_impl], [packetsRs_EsfMeasData_decl]) := by
  rw [codes_eq (s := packetsRs50) (chars := charsOf% packetsRs50) rfl]
  kernel_rfl

theorem packetsRs51_program : programOf (codes packetsRs51) = some ([packetsRs_EsfMeasDataIter_impl, packetsRs_EsfMeasDataIter_Iterator_impl, packetsRs_EsfRawDataIter_impl], [packetsRs_EsfMeasDataIter_decl, packetsRs_EsfRawData_decl, packetsRs_EsfRawDataIter_decl]) := by
  rw [codes_eq (s := packetsRs51) (chars := charsOf% packetsRs51) rfl]
  kernel_rfl

theorem packetsRs52_program : programOf (codes packetsRs52) = some ([packetsRs_EsfRawDataIter_Iterator_impl], []) := by
  rw [codes_eq (s := packetsRs52) (chars := charsOf% packetsRs52) rfl]
  kernel_rfl

theorem packetsRs53_program : programOf (codes packetsRs53) = some ([], []) := by
  rw [codes_eq (s := packetsRs53) (chars := charsOf% packetsRs53) rfl]
  kernel_rfl

theorem packetsRs54_program : programOf (codes packetsRs54) = some ([], []) := by
  rw [codes_eq (s := packetsRs54) (chars := charsOf% packetsRs54) rfl]
  kernel_rfl

theorem packetsRs55_program : programOf (codes packetsRs55) = some ([], []) := by
  rw [codes_eq (s := packetsRs55) (chars := charsOf% packetsRs55) rfl]
  kernel_rfl

theorem packetsRs56_program : programOf (codes packetsRs56) = some ([packetsRs_DwrdIter_impl, packetsRs_DwrdIter_Iterator_impl], [packetsRs_DwrdIter_decl]) := by
  rw [codes_eq (s := packetsRs56) (chars := charsOf% packetsRs56) rfl]
  kernel_rfl

theorem packetsRs57_program : programOf (codes packetsRs57) = some ([], []) := by
  rw [codes_eq (s := packetsRs57) (chars := charsOf% packetsRs57) rfl]
  kernel_rfl

theorem packetsRs58_program : programOf (codes packetsRs58) = some ([packetsRs_RxmRawxInfoIter_impl], [packetsRs_RxmRawxInfoIter_decl]) := by
  rw [codes_eq (s := packetsRs58) (chars := charsOf% packetsRs58) rfl]
  kernel_rfl

theorem packetsRs59_program : programOf (codes packetsRs59) = some ([packetsRs_RxmRawxInfoIter_Iterator_impl], []) := by
  rw [codes_eq (s := packetsRs59) (chars := charsOf% packetsRs59) rfl]
  kernel_rfl

end Ublox.Gen
