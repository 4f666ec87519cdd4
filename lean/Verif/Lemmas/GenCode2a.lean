import Verif.Lemmas.Code
import Verif.Lemmas.SourceText
import Verif.Model.GenCode2
import Verif.Model.GenText
import Verif.Model.GenSource

/-! Generated by `tools/gencode.py`: the functions in each piece of the text; do not edit. -/

namespace Ublox.Gen
open Src Code

set_option maxRecDepth 100000

theorem metaRs0_program : programOf (codes metaRs0) = some ([metaRs_UbxPacketMeta_impl, metaRs_SYNC_CHAR_1_impl, metaRs_SYNC_CHAR_2_impl, metaRs_ubx_checksum_impl, metaRs_UbxChecksumCalc_impl], [metaRs_UbxChecksumCalc_decl]) := by
  rw [codes_eq (s := metaRs0) (chars := charsOf% metaRs0) rfl]
  kernel_rfl

theorem metaRs1_program : programOf (codes metaRs1) = some ([metaRs_MemWriter_impl, metaRs_Vec_MemWriter_impl, metaRs_UbxPacketCreator_impl], [metaRs_UbxUnknownPacketRef_decl]) := by
  rw [codes_eq (s := metaRs1) (chars := charsOf% metaRs1) rfl]
  kernel_rfl

theorem metaRs2_program : programOf (codes metaRs2) = some ([metaRs_UbxPacketRequest_impl], [metaRs_UbxPacketRequest_decl]) := by
  rw [codes_eq (s := metaRs2) (chars := charsOf% metaRs2) rfl]
  kernel_rfl

theorem typesRs0_program : programOf (codes typesRs0) = some ([typesRs_Position_From_NavPosLlhRef_impl], [typesRs_Position_decl, typesRs_PositionECEF_decl, typesRs_Velocity_decl]) := by
  rw [codes_eq (s := typesRs0) (chars := charsOf% typesRs0) rfl]
  kernel_rfl

theorem typesRs1_program : programOf (codes typesRs1) = some ([typesRs_Position_From_NavHpPosLlhRef_impl, typesRs_PositionECEF_From_NavHpPosEcefRef_impl, typesRs_Velocity_From_NavVelNedRef_impl, typesRs_Position_From_NavPvtRef_impl, typesRs_Velocity_From_NavPvtRef_impl], []) := by
  rw [codes_eq (s := typesRs1) (chars := charsOf% typesRs1) rfl]
  kernel_rfl

theorem typesRs2_program : programOf (codes typesRs2) = some ([typesRs_DateTime_TryFrom_NavPvtRef_impl, typesRs_FieldIter_fmt_Debug_impl, typesRs_FieldIter_serde_Serialize_impl], [typesRs_FieldIter_decl]) := by
  rw [codes_eq (s := typesRs2) (chars := charsOf% typesRs2) rfl]
  kernel_rfl

theorem cfgHeadRs0_program : programOf (codes cfgHeadRs0) = some ([cfgHeadRs_StorageSize_impl, cfgHeadRs_KeyId_impl], [cfgHeadRs_KeyId_decl, cfgHeadRs_StorageSize_decl]) := by
  rw [codes_eq (s := cfgHeadRs0) (chars := charsOf% cfgHeadRs0) rfl]
  kernel_rfl

theorem packetsRs0_program : programOf (codes packetsRs0) = some ([packetsRs_SerializeUbxPacketFields_impl], []) := by
  rw [codes_eq (s := packetsRs0) (chars := charsOf% packetsRs0) rfl]
  kernel_rfl

theorem packetsRs1_program : programOf (codes packetsRs1) = some ([], []) := by
  rw [codes_eq (s := packetsRs1) (chars := charsOf% packetsRs1) rfl]
  kernel_rfl

theorem packetsRs2_program : programOf (codes packetsRs2) = some ([], []) := by
  rw [codes_eq (s := packetsRs2) (chars := charsOf% packetsRs2) rfl]
  kernel_rfl

theorem packetsRs3_program : programOf (codes packetsRs3) = some ([], []) := by
  rw [codes_eq (s := packetsRs3) (chars := charsOf% packetsRs3) rfl]
  kernel_rfl

theorem packetsRs4_program : programOf (codes packetsRs4) = some ([], []) := by
  rw [codes_eq (s := packetsRs4) (chars := charsOf% packetsRs4) rfl]
  kernel_rfl

theorem packetsRs5_program : programOf (codes packetsRs5) = some ([], []) := by
  rw [codes_eq (s := packetsRs5) (chars := charsOf% packetsRs5) rfl]
  kernel_rfl

theorem packetsRs6_program : programOf (codes packetsRs6) = some ([], []) := by
  rw [codes_eq (s := packetsRs6) (chars := charsOf% packetsRs6) rfl]
  kernel_rfl

theorem packetsRs7_program : programOf (codes packetsRs7) = some ([packetsRs_FixStatusInfo_impl], [packetsRs_FixStatusInfo_decl]) := by
  rw [codes_eq (s := packetsRs7) (chars := charsOf% packetsRs7) rfl]
  kernel_rfl

theorem packetsRs8_program : programOf (codes packetsRs8) = some ([packetsRs_FixStatusInfo_fmt_Debug_impl, packetsRs_NavSatSvFlags_impl], [packetsRs_MapMatchingStatus_decl, packetsRs_NavSatSvFlags_decl]) := by
  rw [codes_eq (s := packetsRs8) (chars := charsOf% packetsRs8) rfl]
  kernel_rfl

theorem packetsRs9_program : programOf (codes packetsRs9) = some ([packetsRs_NavSatSvFlags_fmt_Debug_impl], [packetsRs_NavSatQualityIndicator_decl]) := by
  rw [codes_eq (s := packetsRs9) (chars := charsOf% packetsRs9) rfl]
  kernel_rfl

theorem packetsRs10_program : programOf (codes packetsRs10) = some ([packetsRs_NavSatIter_impl, packetsRs_NavSatIter_Iterator_impl], [packetsRs_NavSatSvHealth_decl, packetsRs_NavSatOrbitSource_decl, packetsRs_NavSatIter_decl]) := by
  rw [codes_eq (s := packetsRs10) (chars := charsOf% packetsRs10) rfl]
  kernel_rfl

theorem packetsRs11_program : programOf (codes packetsRs11) = some ([], []) := by
  rw [codes_eq (s := packetsRs11) (chars := charsOf% packetsRs11) rfl]
  kernel_rfl

theorem packetsRs12_program : programOf (codes packetsRs12) = some ([], [packetsRs_CfgItfmConfig_decl]) := by
  rw [codes_eq (s := packetsRs12) (chars := charsOf% packetsRs12) rfl]
  kernel_rfl

theorem packetsRs13_program : programOf (codes packetsRs13) = some ([packetsRs_CfgItfmConfig_impl, packetsRs_CfgItfmConfig_From_u32_impl, packetsRs_CfgItfmBbThreshold_impl], [packetsRs_CfgItfmBbThreshold_decl]) := by
  rw [codes_eq (s := packetsRs13) (chars := charsOf% packetsRs13) rfl]
  kernel_rfl

theorem packetsRs14_program : programOf (codes packetsRs14) = some ([packetsRs_CfgItfmBbThreshold_Default_impl, packetsRs_CfgItfmBbThreshold_From_u32_impl, packetsRs_CfgItfmCwThreshold_impl, packetsRs_CfgItfmCwThreshold_Default_impl, packetsRs_CfgItfmCwThreshold_From_u32_impl, packetsRs_CfgItfmAlgoBits_impl, packetsRs_CfgItfmAlgoBits_Default_impl], [packetsRs_CfgItfmCwThreshold_decl, packetsRs_CfgItfmAlgoBits_decl]) := by
  rw [codes_eq (s := packetsRs14) (chars := charsOf% packetsRs14) rfl]
  kernel_rfl

theorem packetsRs15_program : programOf (codes packetsRs15) = some ([packetsRs_CfgItfmAlgoBits_From_u32_impl, packetsRs_CfgItfmConfig2_impl, packetsRs_CfgItfmConfig2_From_u32_impl], [packetsRs_CfgItfmConfig2_decl]) := by
  rw [codes_eq (s := packetsRs15) (chars := charsOf% packetsRs15) rfl]
  kernel_rfl

theorem packetsRs16_program : programOf (codes packetsRs16) = some ([packetsRs_CfgItfmGeneralBits_impl, packetsRs_CfgItfmGeneralBits_Default_impl, packetsRs_CfgItfmGeneralBits_From_u32_impl, packetsRs_CfgItfmAntennaSettings_From_u32_impl], [packetsRs_CfgItfmGeneralBits_decl]) := by
  rw [codes_eq (s := packetsRs16) (chars := charsOf% packetsRs16) rfl]
  kernel_rfl

theorem packetsRs17_program : programOf (codes packetsRs17) = some ([], []) := by
  rw [codes_eq (s := packetsRs17) (chars := charsOf% packetsRs17) rfl]
  kernel_rfl

theorem packetsRs18_program : programOf (codes packetsRs18) = some ([], []) := by
  rw [codes_eq (s := packetsRs18) (chars := charsOf% packetsRs18) rfl]
  kernel_rfl

theorem packetsRs19_program : programOf (codes packetsRs19) = some ([packetsRs_inf_impl, packetsRs_AidIniBuilder_impl], []) := by
  rw [codes_eq (s := packetsRs19) (chars := charsOf% packetsRs19) rfl]
  kernel_rfl

end Ublox.Gen
