import Verif.Lemmas.GenCode2a
import Verif.Lemmas.GenCode2b
import Verif.Lemmas.GenCode2c

/-! Generated by `tools/gencode.py`: the functions in the whole text; do not edit. -/

namespace Ublox.Gen
open Src Code

theorem metaRs_program : programOf (codes (String.join metaRs)) = some (metaRs_code, metaRs_decls) :=
  programOf_strings (ls := [([metaRs_UbxPacketMeta_impl, metaRs_SYNC_CHAR_1_impl, metaRs_SYNC_CHAR_2_impl, metaRs_ubx_checksum_impl, metaRs_UbxChecksumCalc_impl], [metaRs_UbxChecksumCalc_decl]), ([metaRs_MemWriter_impl, metaRs_Vec_MemWriter_impl, metaRs_UbxPacketCreator_impl], [metaRs_UbxUnknownPacketRef_decl]), ([metaRs_UbxPacketRequest_impl], [metaRs_UbxPacketRequest_decl])]) <|
    .cons metaRs0_program <|
    .cons metaRs1_program <|
    .cons metaRs2_program .nil

theorem typesRs_program : programOf (codes (String.join typesRs)) = some (typesRs_code, typesRs_decls) :=
  programOf_strings (ls := [([typesRs_Position_From_NavPosLlhRef_impl], [typesRs_Position_decl, typesRs_PositionECEF_decl, typesRs_Velocity_decl]), ([typesRs_Position_From_NavHpPosLlhRef_impl, typesRs_PositionECEF_From_NavHpPosEcefRef_impl, typesRs_Velocity_From_NavVelNedRef_impl, typesRs_Position_From_NavPvtRef_impl, typesRs_Velocity_From_NavPvtRef_impl], []), ([typesRs_DateTime_TryFrom_NavPvtRef_impl, typesRs_FieldIter_fmt_Debug_impl, typesRs_FieldIter_serde_Serialize_impl], [typesRs_FieldIter_decl])]) <|
    .cons typesRs0_program <|
    .cons typesRs1_program <|
    .cons typesRs2_program .nil

theorem cfgHeadRs_program : programOf (codes (String.join cfgHeadRs)) = some (cfgHeadRs_code, cfgHeadRs_decls) :=
  programOf_strings (ls := [([cfgHeadRs_StorageSize_impl, cfgHeadRs_KeyId_impl], [cfgHeadRs_KeyId_decl, cfgHeadRs_StorageSize_decl])]) <|
    .cons cfgHeadRs0_program .nil

theorem packetsRs_program : programOf (codes (String.join packetsRs)) = some (packetsRs_code, packetsRs_decls) :=
  programOf_strings (ls := [([packetsRs_SerializeUbxPacketFields_impl], []), ([], []), ([], []), ([], []), ([], []), ([], []), ([], []), ([packetsRs_FixStatusInfo_impl], [packetsRs_FixStatusInfo_decl]), ([packetsRs_FixStatusInfo_fmt_Debug_impl, packetsRs_NavSatSvFlags_impl], [packetsRs_MapMatchingStatus_decl, packetsRs_NavSatSvFlags_decl]), ([packetsRs_NavSatSvFlags_fmt_Debug_impl], [packetsRs_NavSatQualityIndicator_decl]), ([packetsRs_NavSatIter_impl, packetsRs_NavSatIter_Iterator_impl], [packetsRs_NavSatSvHealth_decl, packetsRs_NavSatOrbitSource_decl, packetsRs_NavSatIter_decl]), ([], []), ([], [packetsRs_CfgItfmConfig_decl]), ([packetsRs_CfgItfmConfig_impl, packetsRs_CfgItfmConfig_From_u32_impl, packetsRs_CfgItfmBbThreshold_impl], [packetsRs_CfgItfmBbThreshold_decl]), ([packetsRs_CfgItfmBbThreshold_Default_impl, packetsRs_CfgItfmBbThreshold_From_u32_impl, packetsRs_CfgItfmCwThreshold_impl, packetsRs_CfgItfmCwThreshold_Default_impl, packetsRs_CfgItfmCwThreshold_From_u32_impl, packetsRs_CfgItfmAlgoBits_impl, packetsRs_CfgItfmAlgoBits_Default_impl], [packetsRs_CfgItfmCwThreshold_decl, packetsRs_CfgItfmAlgoBits_decl]), ([packetsRs_CfgItfmAlgoBits_From_u32_impl, packetsRs_CfgItfmConfig2_impl, packetsRs_CfgItfmConfig2_From_u32_impl], [packetsRs_CfgItfmConfig2_decl]), ([packetsRs_CfgItfmGeneralBits_impl, packetsRs_CfgItfmGeneralBits_Default_impl, packetsRs_CfgItfmGeneralBits_From_u32_impl, packetsRs_CfgItfmAntennaSettings_From_u32_impl], [packetsRs_CfgItfmGeneralBits_decl]), ([], []), ([], []), ([packetsRs_inf_impl, packetsRs_AidIniBuilder_impl], []), ([packetsRs_AckAckRef_impl, packetsRs_AckNakRef_impl], []), ([], []), ([], []), ([], []), ([], []), ([], []), ([], []), ([], []), ([packetsRs_NavBbrMask_From_NavBbrPredefinedMask_impl, packetsRs_NavBbrPredefinedMask_impl], [packetsRs_NavBbrPredefinedMask_decl]), ([packetsRs_ResetMode_impl, packetsRs_CfgValIter_impl], [packetsRs_ResetMode_decl, packetsRs_CfgValIter_decl]), ([packetsRs_CfgValIter_Iterator_impl, packetsRs_CfgLayer_Default_impl], []), ([packetsRs_UartMode_impl], [packetsRs_UartMode_decl]), ([packetsRs_UartMode_From_u32_impl, packetsRs_DataBits_impl, packetsRs_DataBits_From_u32_impl, packetsRs_Parity_impl], [packetsRs_DataBits_decl, packetsRs_Parity_decl]), ([packetsRs_Parity_From_u32_impl, packetsRs_StopBits_impl, packetsRs_StopBits_From_u32_impl], [packetsRs_StopBits_decl]), ([], []), ([], []), ([packetsRs_AlignmentToReferenceTime_impl, packetsRs_CfgMsgSinglePortBuilder_impl, packetsRs_CfgMsgAllPortsBuilder_impl], [packetsRs_AlignmentToReferenceTime_decl]), ([], []), ([], []), ([packetsRs_ScaleBack_impl], [packetsRs_ScaleBack_decl]), ([], []), ([], []), ([], []), ([packetsRs_TimTpFlags_impl], [packetsRs_TimTpFlags_decl]), ([packetsRs_TimTpRefInfo_impl], [packetsRs_TimTpTimeBase_decl, packetsRs_TimTpRefInfo_decl]), ([packetsRs_TimTm2Flags_impl], [packetsRs_TimTpRefInfoTimeRefGnss_decl, packetsRs_TimTpRefInfoUtcStandard_decl, packetsRs_TimTm2Flags_decl]), ([], [packetsRs_TimTm2Mode_decl, packetsRs_TimTm2Run_decl, packetsRs_TimTm2TimeBase_decl]), ([], []), ([packetsRs_MonVerExtensionIter_impl, packetsRs_MonVerExtensionIter_Iterator_impl], [packetsRs_MonVerExtensionIter_decl]), ([packetsRs_mon_ver_impl], []), ([packetsRs_EsfMeas_impl, packetsRs_EsfMeasRef_impl], [packetsRs_EsfMeasData_decl]), ([packetsRs_EsfMeasDataIter_impl, packetsRs_EsfMeasDataIter_Iterator_impl, packetsRs_EsfRawDataIter_impl], [packetsRs_EsfMeasDataIter_decl, packetsRs_EsfRawData_decl, packetsRs_EsfRawDataIter_decl]), ([packetsRs_EsfRawDataIter_Iterator_impl], []), ([], []), ([], []), ([], []), ([packetsRs_DwrdIter_impl, packetsRs_DwrdIter_Iterator_impl], [packetsRs_DwrdIter_decl]), ([], []), ([packetsRs_RxmRawxInfoIter_impl], [packetsRs_RxmRawxInfoIter_decl]), ([packetsRs_RxmRawxInfoIter_Iterator_impl], [])]) <|
    .cons packetsRs0_program <|
    .cons packetsRs1_program <|
    .cons packetsRs2_program <|
    .cons packetsRs3_program <|
    .cons packetsRs4_program <|
    .cons packetsRs5_program <|
    .cons packetsRs6_program <|
    .cons packetsRs7_program <|
    .cons packetsRs8_program <|
    .cons packetsRs9_program <|
    .cons packetsRs10_program <|
    .cons packetsRs11_program <|
    .cons packetsRs12_program <|
    .cons packetsRs13_program <|
    .cons packetsRs14_program <|
    .cons packetsRs15_program <|
    .cons packetsRs16_program <|
    .cons packetsRs17_program <|
    .cons packetsRs18_program <|
    .cons packetsRs19_program <|
    .cons packetsRs20_program <|
    .cons packetsRs21_program <|
    .cons packetsRs22_program <|
    .cons packetsRs23_program <|
    .cons packetsRs24_program <|
    .cons packetsRs25_program <|
    .cons packetsRs26_program <|
    .cons packetsRs27_program <|
    .cons packetsRs28_program <|
    .cons packetsRs29_program <|
    .cons packetsRs30_program <|
    .cons packetsRs31_program <|
    .cons packetsRs32_program <|
    .cons packetsRs33_program <|
    .cons packetsRs34_program <|
    .cons packetsRs35_program <|
    .cons packetsRs36_program <|
    .cons packetsRs37_program <|
    .cons packetsRs38_program <|
    .cons packetsRs39_program <|
    .cons packetsRs40_program <|
    .cons packetsRs41_program <|
    .cons packetsRs42_program <|
    .cons packetsRs43_program <|
    .cons packetsRs44_program <|
    .cons packetsRs45_program <|
    .cons packetsRs46_program <|
    .cons packetsRs47_program <|
    .cons packetsRs48_program <|
    .cons packetsRs49_program <|
    .cons packetsRs50_program <|
    .cons packetsRs51_program <|
    .cons packetsRs52_program <|
    .cons packetsRs53_program <|
    .cons packetsRs54_program <|
    .cons packetsRs55_program <|
    .cons packetsRs56_program <|
    .cons packetsRs57_program <|
    .cons packetsRs58_program <|
    .cons packetsRs59_program .nil

end Ublox.Gen
