import Verif.Lemmas.Code
import Verif.Lemmas.RustAttr
import Verif.Model.Program

/-! Generated by `tools/gencode.py`: where functions are found; do not edit. -/

namespace Ublox.Gen
open Code Exec

set_option maxRecDepth 100000

theorem metaRs_SYNC_CHAR_1_lookup : lookup program.impls [i!"mod"] i!"" i!"SYNC_CHAR_1" =
    some metaRs_SYNC_CHAR_1 := by kernel_rfl

theorem metaRs_SYNC_CHAR_2_lookup : lookup program.impls [i!"mod"] i!"" i!"SYNC_CHAR_2" =
    some metaRs_SYNC_CHAR_2 := by kernel_rfl

theorem metaRs_ubx_checksum_lookup : lookup program.impls [i!"mod"] i!"" i!"ubx_checksum" =
    some metaRs_ubx_checksum := by kernel_rfl

theorem metaRs_UbxChecksumCalc_update_lookup : lookup program.impls [] i!"UbxChecksumCalc" i!"update" =
    some metaRs_UbxChecksumCalc_update := by kernel_rfl

theorem metaRs_UbxChecksumCalc_result_lookup : lookup program.impls [] i!"UbxChecksumCalc" i!"result" =
    some metaRs_UbxChecksumCalc_result := by kernel_rfl

theorem metaRs_Vec_MemWriter_reserve_allocate_lookup : lookup program.impls [] i!"Vec" i!"reserve_allocate" =
    some metaRs_Vec_MemWriter_reserve_allocate := by kernel_rfl

theorem metaRs_Vec_MemWriter_write_lookup : lookup program.impls [] i!"Vec" i!"write" =
    some metaRs_Vec_MemWriter_write := by kernel_rfl

theorem metaRs_UbxPacketRequest_PACKET_LEN_lookup : lookup program.impls [] i!"UbxPacketRequest" i!"PACKET_LEN" =
    some metaRs_UbxPacketRequest_PACKET_LEN := by kernel_rfl

theorem metaRs_UbxPacketRequest_request_for_lookup : lookup program.impls [] i!"UbxPacketRequest" i!"request_for" =
    some metaRs_UbxPacketRequest_request_for := by kernel_rfl

theorem metaRs_UbxPacketRequest_request_for_unknown_lookup : lookup program.impls [] i!"UbxPacketRequest" i!"request_for_unknown" =
    some metaRs_UbxPacketRequest_request_for_unknown := by kernel_rfl

theorem metaRs_UbxPacketRequest_into_packet_bytes_lookup : lookup program.impls [] i!"UbxPacketRequest" i!"into_packet_bytes" =
    some metaRs_UbxPacketRequest_into_packet_bytes := by kernel_rfl

theorem typesRs_Position_From_NavPosLlhRef_from_lookup : lookup program.impls [i!"From", i!"NavPosLlhRef"] i!"Position" i!"from" =
    some typesRs_Position_From_NavPosLlhRef_from := by kernel_rfl

theorem typesRs_Position_From_NavHpPosLlhRef_from_lookup : lookup program.impls [i!"From", i!"NavHpPosLlhRef"] i!"Position" i!"from" =
    some typesRs_Position_From_NavHpPosLlhRef_from := by kernel_rfl

theorem typesRs_PositionECEF_From_NavHpPosEcefRef_from_lookup : lookup program.impls [] i!"PositionECEF" i!"from" =
    some typesRs_PositionECEF_From_NavHpPosEcefRef_from := by kernel_rfl

theorem typesRs_Velocity_From_NavVelNedRef_from_lookup : lookup program.impls [i!"From", i!"NavVelNedRef"] i!"Velocity" i!"from" =
    some typesRs_Velocity_From_NavVelNedRef_from := by kernel_rfl

theorem typesRs_Position_From_NavPvtRef_from_lookup : lookup program.impls [i!"From", i!"NavPvtRef"] i!"Position" i!"from" =
    some typesRs_Position_From_NavPvtRef_from := by kernel_rfl

theorem typesRs_Velocity_From_NavPvtRef_from_lookup : lookup program.impls [i!"From", i!"NavPvtRef"] i!"Velocity" i!"from" =
    some typesRs_Velocity_From_NavPvtRef_from := by kernel_rfl

theorem typesRs_DateTime_TryFrom_NavPvtRef_try_from_lookup : lookup program.impls [] i!"DateTime" i!"try_from" =
    some typesRs_DateTime_TryFrom_NavPvtRef_try_from := by kernel_rfl

theorem typesRs_FieldIter_fmt_Debug_fmt_lookup : lookup program.impls [] i!"FieldIter" i!"fmt" =
    some typesRs_FieldIter_fmt_Debug_fmt := by kernel_rfl

theorem typesRs_FieldIter_serde_Serialize_serialize_lookup : lookup program.impls [] i!"FieldIter" i!"serialize" =
    some typesRs_FieldIter_serde_Serialize_serialize := by kernel_rfl

theorem cfgHeadRs_StorageSize_to_usize_lookup : lookup program.impls [] i!"StorageSize" i!"to_usize" =
    some cfgHeadRs_StorageSize_to_usize := by kernel_rfl

theorem cfgHeadRs_KeyId_SIZE_lookup : lookup program.impls [] i!"KeyId" i!"SIZE" =
    some cfgHeadRs_KeyId_SIZE := by kernel_rfl

theorem cfgHeadRs_KeyId_value_size_lookup : lookup program.impls [] i!"KeyId" i!"value_size" =
    some cfgHeadRs_KeyId_value_size := by kernel_rfl

theorem cfgHeadRs_KeyId_group_id_lookup : lookup program.impls [] i!"KeyId" i!"group_id" =
    some cfgHeadRs_KeyId_group_id := by kernel_rfl

theorem cfgHeadRs_KeyId_item_id_lookup : lookup program.impls [] i!"KeyId" i!"item_id" =
    some cfgHeadRs_KeyId_item_id := by kernel_rfl

theorem packetsRs_FixStatusInfo_has_pr_prr_correction_lookup : lookup program.impls [] i!"FixStatusInfo" i!"has_pr_prr_correction" =
    some packetsRs_FixStatusInfo_has_pr_prr_correction := by kernel_rfl

theorem packetsRs_FixStatusInfo_map_matching_lookup : lookup program.impls [] i!"FixStatusInfo" i!"map_matching" =
    some packetsRs_FixStatusInfo_map_matching := by kernel_rfl

theorem packetsRs_FixStatusInfo_from_lookup : lookup program.impls [] i!"FixStatusInfo" i!"from" =
    some packetsRs_FixStatusInfo_from := by kernel_rfl

theorem packetsRs_FixStatusInfo_fmt_Debug_fmt_lookup : lookup program.impls [] i!"FixStatusInfo" i!"fmt" =
    some packetsRs_FixStatusInfo_fmt_Debug_fmt := by kernel_rfl

theorem packetsRs_NavSatSvFlags_quality_ind_lookup : lookup program.impls [] i!"NavSatSvFlags" i!"quality_ind" =
    some packetsRs_NavSatSvFlags_quality_ind := by kernel_rfl

theorem packetsRs_NavSatSvFlags_sv_used_lookup : lookup program.impls [] i!"NavSatSvFlags" i!"sv_used" =
    some packetsRs_NavSatSvFlags_sv_used := by kernel_rfl

theorem packetsRs_NavSatSvFlags_health_lookup : lookup program.impls [] i!"NavSatSvFlags" i!"health" =
    some packetsRs_NavSatSvFlags_health := by kernel_rfl

theorem packetsRs_NavSatSvFlags_differential_correction_available_lookup : lookup program.impls [] i!"NavSatSvFlags" i!"differential_correction_available" =
    some packetsRs_NavSatSvFlags_differential_correction_available := by kernel_rfl

theorem packetsRs_NavSatSvFlags_smoothed_lookup : lookup program.impls [] i!"NavSatSvFlags" i!"smoothed" =
    some packetsRs_NavSatSvFlags_smoothed := by kernel_rfl

theorem packetsRs_NavSatSvFlags_orbit_source_lookup : lookup program.impls [] i!"NavSatSvFlags" i!"orbit_source" =
    some packetsRs_NavSatSvFlags_orbit_source := by kernel_rfl

theorem packetsRs_NavSatSvFlags_ephemeris_available_lookup : lookup program.impls [] i!"NavSatSvFlags" i!"ephemeris_available" =
    some packetsRs_NavSatSvFlags_ephemeris_available := by kernel_rfl

theorem packetsRs_NavSatSvFlags_almanac_available_lookup : lookup program.impls [] i!"NavSatSvFlags" i!"almanac_available" =
    some packetsRs_NavSatSvFlags_almanac_available := by kernel_rfl

theorem packetsRs_NavSatSvFlags_an_offline_available_lookup : lookup program.impls [] i!"NavSatSvFlags" i!"an_offline_available" =
    some packetsRs_NavSatSvFlags_an_offline_available := by kernel_rfl

theorem packetsRs_NavSatSvFlags_an_auto_available_lookup : lookup program.impls [] i!"NavSatSvFlags" i!"an_auto_available" =
    some packetsRs_NavSatSvFlags_an_auto_available := by kernel_rfl

theorem packetsRs_NavSatSvFlags_sbas_corr_lookup : lookup program.impls [] i!"NavSatSvFlags" i!"sbas_corr" =
    some packetsRs_NavSatSvFlags_sbas_corr := by kernel_rfl

theorem packetsRs_NavSatSvFlags_rtcm_corr_lookup : lookup program.impls [] i!"NavSatSvFlags" i!"rtcm_corr" =
    some packetsRs_NavSatSvFlags_rtcm_corr := by kernel_rfl

theorem packetsRs_NavSatSvFlags_slas_corr_lookup : lookup program.impls [] i!"NavSatSvFlags" i!"slas_corr" =
    some packetsRs_NavSatSvFlags_slas_corr := by kernel_rfl

theorem packetsRs_NavSatSvFlags_spartn_corr_lookup : lookup program.impls [] i!"NavSatSvFlags" i!"spartn_corr" =
    some packetsRs_NavSatSvFlags_spartn_corr := by kernel_rfl

theorem packetsRs_NavSatSvFlags_pr_corr_lookup : lookup program.impls [] i!"NavSatSvFlags" i!"pr_corr" =
    some packetsRs_NavSatSvFlags_pr_corr := by kernel_rfl

theorem packetsRs_NavSatSvFlags_cr_corr_lookup : lookup program.impls [] i!"NavSatSvFlags" i!"cr_corr" =
    some packetsRs_NavSatSvFlags_cr_corr := by kernel_rfl

theorem packetsRs_NavSatSvFlags_do_corr_lookup : lookup program.impls [] i!"NavSatSvFlags" i!"do_corr" =
    some packetsRs_NavSatSvFlags_do_corr := by kernel_rfl

theorem packetsRs_NavSatSvFlags_from_lookup : lookup program.impls [] i!"NavSatSvFlags" i!"from" =
    some packetsRs_NavSatSvFlags_from := by kernel_rfl

theorem packetsRs_NavSatSvFlags_fmt_Debug_fmt_lookup : lookup program.impls [] i!"NavSatSvFlags" i!"fmt" =
    some packetsRs_NavSatSvFlags_fmt_Debug_fmt := by kernel_rfl

theorem packetsRs_NavSatIter_new_lookup : lookup program.impls [] i!"NavSatIter" i!"new" =
    some packetsRs_NavSatIter_new := by kernel_rfl

theorem packetsRs_NavSatIter_is_valid_lookup : lookup program.impls [] i!"NavSatIter" i!"is_valid" =
    some packetsRs_NavSatIter_is_valid := by kernel_rfl

theorem packetsRs_NavSatIter_Iterator_next_lookup : lookup program.impls [] i!"NavSatIter" i!"next" =
    some packetsRs_NavSatIter_Iterator_next := by kernel_rfl

theorem packetsRs_CfgItfmConfig_new_lookup : lookup program.impls [] i!"CfgItfmConfig" i!"new" =
    some packetsRs_CfgItfmConfig_new := by kernel_rfl

theorem packetsRs_CfgItfmConfig_into_raw_lookup : lookup program.impls [] i!"CfgItfmConfig" i!"into_raw" =
    some packetsRs_CfgItfmConfig_into_raw := by kernel_rfl

theorem packetsRs_CfgItfmConfig_From_u32_from_lookup : lookup program.impls [] i!"CfgItfmConfig" i!"from" =
    some packetsRs_CfgItfmConfig_From_u32_from := by kernel_rfl

theorem packetsRs_CfgItfmConfig_From_u32_from_lookup_from : lookup program.impls [i!"From", i!"u32"] i!"CfgItfmConfig" i!"from" =
    some packetsRs_CfgItfmConfig_From_u32_from := by kernel_rfl

theorem packetsRs_CfgItfmBbThreshold_POSITION_lookup : lookup program.impls [] i!"CfgItfmBbThreshold" i!"POSITION" =
    some packetsRs_CfgItfmBbThreshold_POSITION := by kernel_rfl

theorem packetsRs_CfgItfmBbThreshold_LENGTH_lookup : lookup program.impls [] i!"CfgItfmBbThreshold" i!"LENGTH" =
    some packetsRs_CfgItfmBbThreshold_LENGTH := by kernel_rfl

theorem packetsRs_CfgItfmBbThreshold_MASK_lookup : lookup program.impls [] i!"CfgItfmBbThreshold" i!"MASK" =
    some packetsRs_CfgItfmBbThreshold_MASK := by kernel_rfl

theorem packetsRs_CfgItfmBbThreshold_into_raw_lookup : lookup program.impls [] i!"CfgItfmBbThreshold" i!"into_raw" =
    some packetsRs_CfgItfmBbThreshold_into_raw := by kernel_rfl

theorem packetsRs_CfgItfmBbThreshold_Default_default_lookup : lookup program.impls [] i!"CfgItfmBbThreshold" i!"default" =
    some packetsRs_CfgItfmBbThreshold_Default_default := by kernel_rfl

theorem packetsRs_CfgItfmBbThreshold_From_u32_from_lookup : lookup program.impls [] i!"CfgItfmBbThreshold" i!"from" =
    some packetsRs_CfgItfmBbThreshold_From_u32_from := by kernel_rfl

theorem packetsRs_CfgItfmBbThreshold_From_u32_from_lookup_from : lookup program.impls [i!"From", i!"u32"] i!"CfgItfmBbThreshold" i!"from" =
    some packetsRs_CfgItfmBbThreshold_From_u32_from := by kernel_rfl

theorem packetsRs_CfgItfmCwThreshold_POSITION_lookup : lookup program.impls [] i!"CfgItfmCwThreshold" i!"POSITION" =
    some packetsRs_CfgItfmCwThreshold_POSITION := by kernel_rfl

theorem packetsRs_CfgItfmCwThreshold_LENGTH_lookup : lookup program.impls [] i!"CfgItfmCwThreshold" i!"LENGTH" =
    some packetsRs_CfgItfmCwThreshold_LENGTH := by kernel_rfl

theorem packetsRs_CfgItfmCwThreshold_MASK_lookup : lookup program.impls [] i!"CfgItfmCwThreshold" i!"MASK" =
    some packetsRs_CfgItfmCwThreshold_MASK := by kernel_rfl

theorem packetsRs_CfgItfmCwThreshold_into_raw_lookup : lookup program.impls [] i!"CfgItfmCwThreshold" i!"into_raw" =
    some packetsRs_CfgItfmCwThreshold_into_raw := by kernel_rfl

theorem packetsRs_CfgItfmCwThreshold_Default_default_lookup : lookup program.impls [] i!"CfgItfmCwThreshold" i!"default" =
    some packetsRs_CfgItfmCwThreshold_Default_default := by kernel_rfl

theorem packetsRs_CfgItfmCwThreshold_From_u32_from_lookup : lookup program.impls [] i!"CfgItfmCwThreshold" i!"from" =
    some packetsRs_CfgItfmCwThreshold_From_u32_from := by kernel_rfl

theorem packetsRs_CfgItfmCwThreshold_From_u32_from_lookup_from : lookup program.impls [i!"From", i!"u32"] i!"CfgItfmCwThreshold" i!"from" =
    some packetsRs_CfgItfmCwThreshold_From_u32_from := by kernel_rfl

theorem packetsRs_CfgItfmAlgoBits_POSITION_lookup : lookup program.impls [] i!"CfgItfmAlgoBits" i!"POSITION" =
    some packetsRs_CfgItfmAlgoBits_POSITION := by kernel_rfl

theorem packetsRs_CfgItfmAlgoBits_LENGTH_lookup : lookup program.impls [] i!"CfgItfmAlgoBits" i!"LENGTH" =
    some packetsRs_CfgItfmAlgoBits_LENGTH := by kernel_rfl

theorem packetsRs_CfgItfmAlgoBits_MASK_lookup : lookup program.impls [] i!"CfgItfmAlgoBits" i!"MASK" =
    some packetsRs_CfgItfmAlgoBits_MASK := by kernel_rfl

theorem packetsRs_CfgItfmAlgoBits_into_raw_lookup : lookup program.impls [] i!"CfgItfmAlgoBits" i!"into_raw" =
    some packetsRs_CfgItfmAlgoBits_into_raw := by kernel_rfl

theorem packetsRs_CfgItfmAlgoBits_Default_default_lookup : lookup program.impls [] i!"CfgItfmAlgoBits" i!"default" =
    some packetsRs_CfgItfmAlgoBits_Default_default := by kernel_rfl

theorem packetsRs_CfgItfmAlgoBits_From_u32_from_lookup : lookup program.impls [] i!"CfgItfmAlgoBits" i!"from" =
    some packetsRs_CfgItfmAlgoBits_From_u32_from := by kernel_rfl

theorem packetsRs_CfgItfmAlgoBits_From_u32_from_lookup_from : lookup program.impls [i!"From", i!"u32"] i!"CfgItfmAlgoBits" i!"from" =
    some packetsRs_CfgItfmAlgoBits_From_u32_from := by kernel_rfl

theorem packetsRs_CfgItfmConfig2_new_lookup : lookup program.impls [] i!"CfgItfmConfig2" i!"new" =
    some packetsRs_CfgItfmConfig2_new := by kernel_rfl

theorem packetsRs_CfgItfmConfig2_into_raw_lookup : lookup program.impls [] i!"CfgItfmConfig2" i!"into_raw" =
    some packetsRs_CfgItfmConfig2_into_raw := by kernel_rfl

theorem packetsRs_CfgItfmConfig2_From_u32_from_lookup : lookup program.impls [] i!"CfgItfmConfig2" i!"from" =
    some packetsRs_CfgItfmConfig2_From_u32_from := by kernel_rfl

theorem packetsRs_CfgItfmConfig2_From_u32_from_lookup_from : lookup program.impls [i!"From", i!"u32"] i!"CfgItfmConfig2" i!"from" =
    some packetsRs_CfgItfmConfig2_From_u32_from := by kernel_rfl

theorem packetsRs_CfgItfmGeneralBits_POSITION_lookup : lookup program.impls [] i!"CfgItfmGeneralBits" i!"POSITION" =
    some packetsRs_CfgItfmGeneralBits_POSITION := by kernel_rfl

theorem packetsRs_CfgItfmGeneralBits_LENGTH_lookup : lookup program.impls [] i!"CfgItfmGeneralBits" i!"LENGTH" =
    some packetsRs_CfgItfmGeneralBits_LENGTH := by kernel_rfl

theorem packetsRs_CfgItfmGeneralBits_MASK_lookup : lookup program.impls [] i!"CfgItfmGeneralBits" i!"MASK" =
    some packetsRs_CfgItfmGeneralBits_MASK := by kernel_rfl

theorem packetsRs_CfgItfmGeneralBits_into_raw_lookup : lookup program.impls [] i!"CfgItfmGeneralBits" i!"into_raw" =
    some packetsRs_CfgItfmGeneralBits_into_raw := by kernel_rfl

theorem packetsRs_CfgItfmGeneralBits_Default_default_lookup : lookup program.impls [] i!"CfgItfmGeneralBits" i!"default" =
    some packetsRs_CfgItfmGeneralBits_Default_default := by kernel_rfl

theorem packetsRs_CfgItfmGeneralBits_From_u32_from_lookup : lookup program.impls [] i!"CfgItfmGeneralBits" i!"from" =
    some packetsRs_CfgItfmGeneralBits_From_u32_from := by kernel_rfl

theorem packetsRs_CfgItfmGeneralBits_From_u32_from_lookup_from : lookup program.impls [i!"From", i!"u32"] i!"CfgItfmGeneralBits" i!"from" =
    some packetsRs_CfgItfmGeneralBits_From_u32_from := by kernel_rfl

theorem packetsRs_CfgItfmAntennaSettings_From_u32_from_lookup : lookup program.impls [] i!"CfgItfmAntennaSettings" i!"from" =
    some packetsRs_CfgItfmAntennaSettings_From_u32_from := by kernel_rfl

theorem packetsRs_CfgItfmAntennaSettings_From_u32_from_lookup_from : lookup program.impls [i!"From", i!"u32"] i!"CfgItfmAntennaSettings" i!"from" =
    some packetsRs_CfgItfmAntennaSettings_From_u32_from := by kernel_rfl

theorem packetsRs_inf_convert_to_str_lookup : lookup program.impls [] i!"inf" i!"convert_to_str" =
    some packetsRs_inf_convert_to_str := by kernel_rfl

theorem packetsRs_inf_is_valid_lookup : lookup program.impls [] i!"inf" i!"is_valid" =
    some packetsRs_inf_is_valid := by kernel_rfl

theorem packetsRs_AidIniBuilder_set_position_lookup : lookup program.impls [] i!"AidIniBuilder" i!"set_position" =
    some packetsRs_AidIniBuilder_set_position := by kernel_rfl

theorem packetsRs_AidIniBuilder_set_time_lookup : lookup program.impls [] i!"AidIniBuilder" i!"set_time" =
    some packetsRs_AidIniBuilder_set_time := by kernel_rfl

theorem packetsRs_AckAckRef_is_ack_for_lookup : lookup program.impls [] i!"AckAckRef" i!"is_ack_for" =
    some packetsRs_AckAckRef_is_ack_for := by kernel_rfl

theorem packetsRs_AckNakRef_is_nak_for_lookup : lookup program.impls [] i!"AckNakRef" i!"is_nak_for" =
    some packetsRs_AckNakRef_is_nak_for := by kernel_rfl

theorem packetsRs_NavBbrMask_From_NavBbrPredefinedMask_from_lookup : lookup program.impls [] i!"NavBbrMask" i!"from" =
    some packetsRs_NavBbrMask_From_NavBbrPredefinedMask_from := by kernel_rfl

theorem packetsRs_NavBbrPredefinedMask_HOT_START_lookup : lookup program.impls [] i!"NavBbrPredefinedMask" i!"HOT_START" =
    some packetsRs_NavBbrPredefinedMask_HOT_START := by kernel_rfl

theorem packetsRs_NavBbrPredefinedMask_WARM_START_lookup : lookup program.impls [] i!"NavBbrPredefinedMask" i!"WARM_START" =
    some packetsRs_NavBbrPredefinedMask_WARM_START := by kernel_rfl

theorem packetsRs_NavBbrPredefinedMask_COLD_START_lookup : lookup program.impls [] i!"NavBbrPredefinedMask" i!"COLD_START" =
    some packetsRs_NavBbrPredefinedMask_COLD_START := by kernel_rfl

theorem packetsRs_ResetMode_into_raw_lookup : lookup program.impls [] i!"ResetMode" i!"into_raw" =
    some packetsRs_ResetMode_into_raw := by kernel_rfl

theorem packetsRs_CfgValIter_new_lookup : lookup program.impls [] i!"CfgValIter" i!"new" =
    some packetsRs_CfgValIter_new := by kernel_rfl

theorem packetsRs_CfgValIter_Iterator_next_lookup : lookup program.impls [] i!"CfgValIter" i!"next" =
    some packetsRs_CfgValIter_Iterator_next := by kernel_rfl

theorem packetsRs_CfgLayer_Default_default_lookup : lookup program.impls [] i!"CfgLayer" i!"default" =
    some packetsRs_CfgLayer_Default_default := by kernel_rfl

theorem packetsRs_UartMode_new_lookup : lookup program.impls [] i!"UartMode" i!"new" =
    some packetsRs_UartMode_new := by kernel_rfl

theorem packetsRs_UartMode_into_raw_lookup : lookup program.impls [] i!"UartMode" i!"into_raw" =
    some packetsRs_UartMode_into_raw := by kernel_rfl

theorem packetsRs_UartMode_From_u32_from_lookup : lookup program.impls [] i!"UartMode" i!"from" =
    some packetsRs_UartMode_From_u32_from := by kernel_rfl

theorem packetsRs_UartMode_From_u32_from_lookup_from : lookup program.impls [i!"From", i!"u32"] i!"UartMode" i!"from" =
    some packetsRs_UartMode_From_u32_from := by kernel_rfl

theorem packetsRs_DataBits_POSITION_lookup : lookup program.impls [] i!"DataBits" i!"POSITION" =
    some packetsRs_DataBits_POSITION := by kernel_rfl

theorem packetsRs_DataBits_MASK_lookup : lookup program.impls [] i!"DataBits" i!"MASK" =
    some packetsRs_DataBits_MASK := by kernel_rfl

theorem packetsRs_DataBits_into_raw_lookup : lookup program.impls [] i!"DataBits" i!"into_raw" =
    some packetsRs_DataBits_into_raw := by kernel_rfl

theorem packetsRs_DataBits_From_u32_from_lookup : lookup program.impls [] i!"DataBits" i!"from" =
    some packetsRs_DataBits_From_u32_from := by kernel_rfl

theorem packetsRs_DataBits_From_u32_from_lookup_from : lookup program.impls [i!"From", i!"u32"] i!"DataBits" i!"from" =
    some packetsRs_DataBits_From_u32_from := by kernel_rfl

theorem packetsRs_Parity_POSITION_lookup : lookup program.impls [] i!"Parity" i!"POSITION" =
    some packetsRs_Parity_POSITION := by kernel_rfl

theorem packetsRs_Parity_MASK_lookup : lookup program.impls [] i!"Parity" i!"MASK" =
    some packetsRs_Parity_MASK := by kernel_rfl

theorem packetsRs_Parity_into_raw_lookup : lookup program.impls [] i!"Parity" i!"into_raw" =
    some packetsRs_Parity_into_raw := by kernel_rfl

theorem packetsRs_Parity_From_u32_from_lookup : lookup program.impls [] i!"Parity" i!"from" =
    some packetsRs_Parity_From_u32_from := by kernel_rfl

theorem packetsRs_Parity_From_u32_from_lookup_from : lookup program.impls [i!"From", i!"u32"] i!"Parity" i!"from" =
    some packetsRs_Parity_From_u32_from := by kernel_rfl

theorem packetsRs_StopBits_POSITION_lookup : lookup program.impls [] i!"StopBits" i!"POSITION" =
    some packetsRs_StopBits_POSITION := by kernel_rfl

theorem packetsRs_StopBits_MASK_lookup : lookup program.impls [] i!"StopBits" i!"MASK" =
    some packetsRs_StopBits_MASK := by kernel_rfl

theorem packetsRs_StopBits_into_raw_lookup : lookup program.impls [] i!"StopBits" i!"into_raw" =
    some packetsRs_StopBits_into_raw := by kernel_rfl

theorem packetsRs_StopBits_From_u32_from_lookup : lookup program.impls [] i!"StopBits" i!"from" =
    some packetsRs_StopBits_From_u32_from := by kernel_rfl

theorem packetsRs_StopBits_From_u32_from_lookup_from : lookup program.impls [i!"From", i!"u32"] i!"StopBits" i!"from" =
    some packetsRs_StopBits_From_u32_from := by kernel_rfl

theorem packetsRs_AlignmentToReferenceTime_into_raw_lookup : lookup program.impls [] i!"AlignmentToReferenceTime" i!"into_raw" =
    some packetsRs_AlignmentToReferenceTime_into_raw := by kernel_rfl

theorem packetsRs_CfgMsgSinglePortBuilder_set_rate_for_lookup : lookup program.impls [] i!"CfgMsgSinglePortBuilder" i!"set_rate_for" =
    some packetsRs_CfgMsgSinglePortBuilder_set_rate_for := by kernel_rfl

theorem packetsRs_CfgMsgAllPortsBuilder_set_rate_for_lookup : lookup program.impls [] i!"CfgMsgAllPortsBuilder" i!"set_rate_for" =
    some packetsRs_CfgMsgAllPortsBuilder_set_rate_for := by kernel_rfl

theorem packetsRs_ScaleBack_as_i8_lookup : lookup program.impls [] i!"ScaleBack" i!"as_i8" =
    some packetsRs_ScaleBack_as_i8 := by kernel_rfl

theorem packetsRs_ScaleBack_as_i16_lookup : lookup program.impls [] i!"ScaleBack" i!"as_i16" =
    some packetsRs_ScaleBack_as_i16 := by kernel_rfl

theorem packetsRs_ScaleBack_as_i32_lookup : lookup program.impls [] i!"ScaleBack" i!"as_i32" =
    some packetsRs_ScaleBack_as_i32 := by kernel_rfl

theorem packetsRs_ScaleBack_as_u32_lookup : lookup program.impls [] i!"ScaleBack" i!"as_u32" =
    some packetsRs_ScaleBack_as_u32 := by kernel_rfl

theorem packetsRs_ScaleBack_as_u16_lookup : lookup program.impls [] i!"ScaleBack" i!"as_u16" =
    some packetsRs_ScaleBack_as_u16 := by kernel_rfl

theorem packetsRs_ScaleBack_as_u8_lookup : lookup program.impls [] i!"ScaleBack" i!"as_u8" =
    some packetsRs_ScaleBack_as_u8 := by kernel_rfl

theorem packetsRs_TimTpFlags_time_base_lookup : lookup program.impls [] i!"TimTpFlags" i!"time_base" =
    some packetsRs_TimTpFlags_time_base := by kernel_rfl

theorem packetsRs_TimTpFlags_utc_available_lookup : lookup program.impls [] i!"TimTpFlags" i!"utc_available" =
    some packetsRs_TimTpFlags_utc_available := by kernel_rfl

theorem packetsRs_TimTpFlags_raim_active_lookup : lookup program.impls [] i!"TimTpFlags" i!"raim_active" =
    some packetsRs_TimTpFlags_raim_active := by kernel_rfl

theorem packetsRs_TimTpFlags_q_err_valid_lookup : lookup program.impls [] i!"TimTpFlags" i!"q_err_valid" =
    some packetsRs_TimTpFlags_q_err_valid := by kernel_rfl

theorem packetsRs_TimTpRefInfo_time_ref_gnss_lookup : lookup program.impls [] i!"TimTpRefInfo" i!"time_ref_gnss" =
    some packetsRs_TimTpRefInfo_time_ref_gnss := by kernel_rfl

theorem packetsRs_TimTpRefInfo_utc_standard_lookup : lookup program.impls [] i!"TimTpRefInfo" i!"utc_standard" =
    some packetsRs_TimTpRefInfo_utc_standard := by kernel_rfl

theorem packetsRs_TimTm2Flags_mode_lookup : lookup program.impls [] i!"TimTm2Flags" i!"mode" =
    some packetsRs_TimTm2Flags_mode := by kernel_rfl

theorem packetsRs_TimTm2Flags_run_lookup : lookup program.impls [] i!"TimTm2Flags" i!"run" =
    some packetsRs_TimTm2Flags_run := by kernel_rfl

theorem packetsRs_TimTm2Flags_new_falling_edge_lookup : lookup program.impls [] i!"TimTm2Flags" i!"new_falling_edge" =
    some packetsRs_TimTm2Flags_new_falling_edge := by kernel_rfl

theorem packetsRs_TimTm2Flags_new_rising_edge_lookup : lookup program.impls [] i!"TimTm2Flags" i!"new_rising_edge" =
    some packetsRs_TimTm2Flags_new_rising_edge := by kernel_rfl

theorem packetsRs_TimTm2Flags_time_base_lookup : lookup program.impls [] i!"TimTm2Flags" i!"time_base" =
    some packetsRs_TimTm2Flags_time_base := by kernel_rfl

theorem packetsRs_TimTm2Flags_utc_available_lookup : lookup program.impls [] i!"TimTm2Flags" i!"utc_available" =
    some packetsRs_TimTm2Flags_utc_available := by kernel_rfl

theorem packetsRs_TimTm2Flags_time_valid_lookup : lookup program.impls [] i!"TimTm2Flags" i!"time_valid" =
    some packetsRs_TimTm2Flags_time_valid := by kernel_rfl

theorem packetsRs_MonVerExtensionIter_new_lookup : lookup program.impls [] i!"MonVerExtensionIter" i!"new" =
    some packetsRs_MonVerExtensionIter_new := by kernel_rfl

theorem packetsRs_MonVerExtensionIter_is_valid_lookup : lookup program.impls [] i!"MonVerExtensionIter" i!"is_valid" =
    some packetsRs_MonVerExtensionIter_is_valid := by kernel_rfl

theorem packetsRs_MonVerExtensionIter_Iterator_next_lookup : lookup program.impls [] i!"MonVerExtensionIter" i!"next" =
    some packetsRs_MonVerExtensionIter_Iterator_next := by kernel_rfl

theorem packetsRs_mon_ver_convert_to_str_unchecked_lookup : lookup program.impls [] i!"mon_ver" i!"convert_to_str_unchecked" =
    some packetsRs_mon_ver_convert_to_str_unchecked := by kernel_rfl

theorem packetsRs_mon_ver_is_cstr_valid_lookup : lookup program.impls [] i!"mon_ver" i!"is_cstr_valid" =
    some packetsRs_mon_ver_is_cstr_valid := by kernel_rfl

theorem packetsRs_EsfMeas_calib_tag_lookup : lookup program.impls [] i!"EsfMeas" i!"calib_tag" =
    some packetsRs_EsfMeas_calib_tag := by kernel_rfl

theorem packetsRs_EsfMeasRef_data_len_lookup : lookup program.impls [] i!"EsfMeasRef" i!"data_len" =
    some packetsRs_EsfMeasRef_data_len := by kernel_rfl

theorem packetsRs_EsfMeasRef_calib_tag_len_lookup : lookup program.impls [] i!"EsfMeasRef" i!"calib_tag_len" =
    some packetsRs_EsfMeasRef_calib_tag_len := by kernel_rfl

theorem packetsRs_EsfMeasDataIter_new_lookup : lookup program.impls [] i!"EsfMeasDataIter" i!"new" =
    some packetsRs_EsfMeasDataIter_new := by kernel_rfl

theorem packetsRs_EsfMeasDataIter_is_valid_lookup : lookup program.impls [] i!"EsfMeasDataIter" i!"is_valid" =
    some packetsRs_EsfMeasDataIter_is_valid := by kernel_rfl

theorem packetsRs_EsfMeasDataIter_Iterator_next_lookup : lookup program.impls [] i!"EsfMeasDataIter" i!"next" =
    some packetsRs_EsfMeasDataIter_Iterator_next := by kernel_rfl

theorem packetsRs_EsfRawDataIter_new_lookup : lookup program.impls [] i!"EsfRawDataIter" i!"new" =
    some packetsRs_EsfRawDataIter_new := by kernel_rfl

theorem packetsRs_EsfRawDataIter_is_valid_lookup : lookup program.impls [] i!"EsfRawDataIter" i!"is_valid" =
    some packetsRs_EsfRawDataIter_is_valid := by kernel_rfl

theorem packetsRs_EsfRawDataIter_Iterator_next_lookup : lookup program.impls [] i!"EsfRawDataIter" i!"next" =
    some packetsRs_EsfRawDataIter_Iterator_next := by kernel_rfl

theorem packetsRs_DwrdIter_new_lookup : lookup program.impls [] i!"DwrdIter" i!"new" =
    some packetsRs_DwrdIter_new := by kernel_rfl

theorem packetsRs_DwrdIter_is_valid_lookup : lookup program.impls [] i!"DwrdIter" i!"is_valid" =
    some packetsRs_DwrdIter_is_valid := by kernel_rfl

theorem packetsRs_DwrdIter_Iterator_next_lookup : lookup program.impls [] i!"DwrdIter" i!"next" =
    some packetsRs_DwrdIter_Iterator_next := by kernel_rfl

theorem packetsRs_RxmRawxInfoIter_new_lookup : lookup program.impls [] i!"RxmRawxInfoIter" i!"new" =
    some packetsRs_RxmRawxInfoIter_new := by kernel_rfl

theorem packetsRs_RxmRawxInfoIter_is_valid_lookup : lookup program.impls [] i!"RxmRawxInfoIter" i!"is_valid" =
    some packetsRs_RxmRawxInfoIter_is_valid := by kernel_rfl

theorem packetsRs_RxmRawxInfoIter_Iterator_next_lookup : lookup program.impls [] i!"RxmRawxInfoIter" i!"next" =
    some packetsRs_RxmRawxInfoIter_Iterator_next := by kernel_rfl

end Ublox.Gen
