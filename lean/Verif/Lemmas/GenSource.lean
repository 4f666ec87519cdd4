import Verif.Lemmas.Source
import Verif.Lemmas.GenSource1
import Verif.Lemmas.GenSource2
import Verif.Lemmas.GenSource3

/-! Generated by `tools/gen.py`: the declarations in the whole text; do not edit. -/

namespace Ublox.Gen
open Src

theorem packetsRs_items : itemsOf (codes (String.join packetsRs)) = some (List.flatten [
    [.packet navPosLlh_decl],
    [.packet navVelNed_decl, .packet navHpPosLlh_decl],
    [.flags navHpPosEcefFlags_decl, .packet navHpPosEcef_decl],
    [.packet navPvt_decl],
    [.flags navPvtFlags_decl, .flags navPvtFlags2_decl],
    [.packet navStatus_decl, .packet navDop_decl],
    [.packet navEoe_decl, .packet navSolution_decl],
    [.enum gpsFix_decl, .flags navStatusFlags_decl],
    [.enum navStatusFlags2_decl],
    [],
    [.packet navSatSvInfo_decl],
    [.packet navSat_decl, .packet navOdo_decl, .packet navResetOdo_decl, .packet cfgOdo_decl],
    [.flags odoCogFilterFlags_decl, .enum odoProfile_decl, .packet cfgItfm_decl],
    [],
    [],
    [],
    [.enum cfgItfmAntennaSettings_decl],
    [.packet cfgInf_decl, .flags cfgInfMask_decl, .packet infError_decl],
    [.packet infNotice_decl, .packet infTest_decl, .packet infWarning_decl, .packet infDebug_decl],
    [.packet aidIni_decl],
    [.packet alpSrv_decl, .packet ackAck_decl, .packet ackNak_decl],
    [.packet cfgRst_decl, .packet cfgAnt_decl, .flags antFlags_decl],
    [.packet cfgTp5_decl],
    [.enum cfgTp5TimePulseMode_decl, .packet cfgTmode2_decl],
    [.enum cfgTmode2TimeXferModes_decl, .flags cfgTmode2Flags_decl, .packet timSvin_decl],
    [.packet navTimeLs_decl],
    [.flags navTimeLsFlags_decl, .packet cfgTmode3_decl],
    [.flags cfgTmode3RcvrMode_decl, .flags cfgTp5Flags_decl],
    [.flags cfgTmode3Flags_decl, .flags navBbrMask_decl],
    [.packet cfgValSet_decl],
    [.flags cfgLayer_decl, .packet cfgPrtI2c_decl],
    [.enum i2cPortId_decl, .packet cfgPrtUart_decl, .enum uartPortId_decl],
    [],
    [.packet cfgPrtSpi_decl],
    [.flags inProtoMask_decl, .flags outProtoMask_decl, .enum spiPortId_decl],
    [.packet navTimeUTC_decl, .flags navTimeUtcFlags_decl, .packet cfgRate_decl],
    [.packet cfgMsgSinglePort_decl, .packet cfgMsgAllPorts_decl],
    [.packet cfgNav5_decl],
    [.flags cfgNav5Params_decl, .enum cfgNav5DynModel_decl],
    [.enum cfgNav5FixMode_decl, .enum cfgNav5UtcStandard_decl],
    [.packet cfgNavX5_decl],
    [.flags cfgNavX5Params1_decl, .flags cfgNavX5Params2_decl, .packet mgaAck_decl],
    [.enum msgAckInfoCode_decl, .packet mgaGloEph_decl, .packet mgaGpsIono_decl],
    [.packet mgaGpsEph_decl, .packet timTp_decl],
    [],
    [.packet timTm2_decl],
    [.packet rxmRawx_decl, .flags recStatFlags_decl],
    [.packet monHw_decl, .enum antennaStatus_decl, .packet monGnss_decl],
    [.flags monGnssConstellMask_decl, .enum antennaPower_decl],
    [.packet monVer_decl],
    [.packet rxmRtcm_decl, .packet esfMeas_decl],
    [.packet esfRaw_decl],
    [.packet esfIns_decl],
    [.flags esfInsBitFlags_decl, .packet hnrAtt_decl, .packet hnrIns_decl],
    [.flags hnrInsBitFlags_decl, .packet hnrPvt_decl],
    [.packet navAtt_decl, .packet navClock_decl, .flags hnrPvtFlags_decl],
    [.flags hnrPvtValidFlags_decl, .packet rxmSfrbx_decl, .packet navVelECEF_decl],
    [.packet mgaGpsEPH_decl],
    [.packet rxmRawxInfo_decl, .flags stdevFlags_decl, .flags trkStatFlags_decl],
    [.packet secUniqId_decl, .recv recvDecl]]) :=
  itemsOf_strings <|
    .cons packetsRs0_items <|
    .cons packetsRs1_items <|
    .cons packetsRs2_items <|
    .cons packetsRs3_items <|
    .cons packetsRs4_items <|
    .cons packetsRs5_items <|
    .cons packetsRs6_items <|
    .cons packetsRs7_items <|
    .cons packetsRs8_items <|
    .cons packetsRs9_items <|
    .cons packetsRs10_items <|
    .cons packetsRs11_items <|
    .cons packetsRs12_items <|
    .cons packetsRs13_items <|
    .cons packetsRs14_items <|
    .cons packetsRs15_items <|
    .cons packetsRs16_items <|
    .cons packetsRs17_items <|
    .cons packetsRs18_items <|
    .cons packetsRs19_items <|
    .cons packetsRs20_items <|
    .cons packetsRs21_items <|
    .cons packetsRs22_items <|
    .cons packetsRs23_items <|
    .cons packetsRs24_items <|
    .cons packetsRs25_items <|
    .cons packetsRs26_items <|
    .cons packetsRs27_items <|
    .cons packetsRs28_items <|
    .cons packetsRs29_items <|
    .cons packetsRs30_items <|
    .cons packetsRs31_items <|
    .cons packetsRs32_items <|
    .cons packetsRs33_items <|
    .cons packetsRs34_items <|
    .cons packetsRs35_items <|
    .cons packetsRs36_items <|
    .cons packetsRs37_items <|
    .cons packetsRs38_items <|
    .cons packetsRs39_items <|
    .cons packetsRs40_items <|
    .cons packetsRs41_items <|
    .cons packetsRs42_items <|
    .cons packetsRs43_items <|
    .cons packetsRs44_items <|
    .cons packetsRs45_items <|
    .cons packetsRs46_items <|
    .cons packetsRs47_items <|
    .cons packetsRs48_items <|
    .cons packetsRs49_items <|
    .cons packetsRs50_items <|
    .cons packetsRs51_items <|
    .cons packetsRs52_items <|
    .cons packetsRs53_items <|
    .cons packetsRs54_items <|
    .cons packetsRs55_items <|
    .cons packetsRs56_items <|
    .cons packetsRs57_items <|
    .cons packetsRs58_items <|
    .cons packetsRs59_items .nil

theorem cfgValRs_rows : rowsOf (codes (String.join cfgValRs)) = some (List.flatten [
    ((cfgItems.drop 0).take 33),
    ((cfgItems.drop 33).take 26),
    ((cfgItems.drop 59).take 16),
    ((cfgItems.drop 75).take 16),
    ((cfgItems.drop 91).take 16),
    ((cfgItems.drop 107).take 16),
    ((cfgItems.drop 123).take 15),
    ((cfgItems.drop 138).take 15),
    ((cfgItems.drop 153).take 15),
    ((cfgItems.drop 168).take 15),
    ((cfgItems.drop 183).take 15),
    ((cfgItems.drop 198).take 16),
    ((cfgItems.drop 214).take 16),
    ((cfgItems.drop 230).take 16),
    ((cfgItems.drop 246).take 16),
    ((cfgItems.drop 262).take 15),
    ((cfgItems.drop 277).take 15),
    ((cfgItems.drop 292).take 15),
    ((cfgItems.drop 307).take 16),
    ((cfgItems.drop 323).take 15),
    ((cfgItems.drop 338).take 15),
    ((cfgItems.drop 353).take 15),
    ((cfgItems.drop 368).take 16),
    ((cfgItems.drop 384).take 16),
    ((cfgItems.drop 400).take 29),
    ((cfgItems.drop 429).take 5)]) :=
  rowsOf_strings <|
    .cons cfgValRs0_rows <|
    .cons cfgValRs1_rows <|
    .cons cfgValRs2_rows <|
    .cons cfgValRs3_rows <|
    .cons cfgValRs4_rows <|
    .cons cfgValRs5_rows <|
    .cons cfgValRs6_rows <|
    .cons cfgValRs7_rows <|
    .cons cfgValRs8_rows <|
    .cons cfgValRs9_rows <|
    .cons cfgValRs10_rows <|
    .cons cfgValRs11_rows <|
    .cons cfgValRs12_rows <|
    .cons cfgValRs13_rows <|
    .cons cfgValRs14_rows <|
    .cons cfgValRs15_rows <|
    .cons cfgValRs16_rows <|
    .cons cfgValRs17_rows <|
    .cons cfgValRs18_rows <|
    .cons cfgValRs19_rows <|
    .cons cfgValRs20_rows <|
    .cons cfgValRs21_rows <|
    .cons cfgValRs22_rows <|
    .cons cfgValRs23_rows <|
    .cons cfgValRs24_rows <|
    .cons cfgValRs25_rows .nil

end Ublox.Gen
