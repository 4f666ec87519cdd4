import Verif.Lemmas.SourceText
import Verif.Model.GenDecls
import Verif.Model.GenCfgVal
import Verif.Model.GenSource

/-! Generated by `tools/gen.py`: the declarations in each piece of the text; do not edit. -/

namespace Ublox.Gen
open Src

set_option maxRecDepth 100000

theorem packetsRs30_items : itemsOf (codes packetsRs30) = some [.flags cfgLayer_decl, .packet cfgPrtI2c_decl] := by
  rw [codes_eq (s := packetsRs30) (chars := charsOf% packetsRs30) rfl]
  decide +kernel

theorem packetsRs31_items : itemsOf (codes packetsRs31) = some [.enum i2cPortId_decl, .packet cfgPrtUart_decl, .enum uartPortId_decl] := by
  rw [codes_eq (s := packetsRs31) (chars := charsOf% packetsRs31) rfl]
  decide +kernel

theorem packetsRs32_items : itemsOf (codes packetsRs32) = some [] := by
  rw [codes_eq (s := packetsRs32) (chars := charsOf% packetsRs32) rfl]
  decide +kernel

theorem packetsRs33_items : itemsOf (codes packetsRs33) = some [.packet cfgPrtSpi_decl] := by
  rw [codes_eq (s := packetsRs33) (chars := charsOf% packetsRs33) rfl]
  decide +kernel

theorem packetsRs34_items : itemsOf (codes packetsRs34) = some [.flags inProtoMask_decl, .flags outProtoMask_decl, .enum spiPortId_decl] := by
  rw [codes_eq (s := packetsRs34) (chars := charsOf% packetsRs34) rfl]
  decide +kernel

theorem packetsRs35_items : itemsOf (codes packetsRs35) = some [.packet navTimeUTC_decl, .flags navTimeUtcFlags_decl, .packet cfgRate_decl] := by
  rw [codes_eq (s := packetsRs35) (chars := charsOf% packetsRs35) rfl]
  decide +kernel

theorem packetsRs36_items : itemsOf (codes packetsRs36) = some [.packet cfgMsgSinglePort_decl, .packet cfgMsgAllPorts_decl] := by
  rw [codes_eq (s := packetsRs36) (chars := charsOf% packetsRs36) rfl]
  decide +kernel

theorem packetsRs37_items : itemsOf (codes packetsRs37) = some [.packet cfgNav5_decl] := by
  rw [codes_eq (s := packetsRs37) (chars := charsOf% packetsRs37) rfl]
  decide +kernel

theorem packetsRs38_items : itemsOf (codes packetsRs38) = some [.flags cfgNav5Params_decl, .enum cfgNav5DynModel_decl] := by
  rw [codes_eq (s := packetsRs38) (chars := charsOf% packetsRs38) rfl]
  decide +kernel

theorem packetsRs39_items : itemsOf (codes packetsRs39) = some [.enum cfgNav5FixMode_decl, .enum cfgNav5UtcStandard_decl] := by
  rw [codes_eq (s := packetsRs39) (chars := charsOf% packetsRs39) rfl]
  decide +kernel

theorem packetsRs40_items : itemsOf (codes packetsRs40) = some [.packet cfgNavX5_decl] := by
  rw [codes_eq (s := packetsRs40) (chars := charsOf% packetsRs40) rfl]
  decide +kernel

theorem packetsRs41_items : itemsOf (codes packetsRs41) = some [.flags cfgNavX5Params1_decl, .flags cfgNavX5Params2_decl, .packet mgaAck_decl] := by
  rw [codes_eq (s := packetsRs41) (chars := charsOf% packetsRs41) rfl]
  decide +kernel

theorem packetsRs42_items : itemsOf (codes packetsRs42) = some [.enum msgAckInfoCode_decl, .packet mgaGloEph_decl, .packet mgaGpsIono_decl] := by
  rw [codes_eq (s := packetsRs42) (chars := charsOf% packetsRs42) rfl]
  decide +kernel

theorem packetsRs43_items : itemsOf (codes packetsRs43) = some [.packet mgaGpsEph_decl, .packet timTp_decl] := by
  rw [codes_eq (s := packetsRs43) (chars := charsOf% packetsRs43) rfl]
  decide +kernel

theorem packetsRs44_items : itemsOf (codes packetsRs44) = some [] := by
  rw [codes_eq (s := packetsRs44) (chars := charsOf% packetsRs44) rfl]
  decide +kernel

theorem packetsRs45_items : itemsOf (codes packetsRs45) = some [.packet timTm2_decl] := by
  rw [codes_eq (s := packetsRs45) (chars := charsOf% packetsRs45) rfl]
  decide +kernel

theorem packetsRs46_items : itemsOf (codes packetsRs46) = some [.packet rxmRawx_decl, .flags recStatFlags_decl] := by
  rw [codes_eq (s := packetsRs46) (chars := charsOf% packetsRs46) rfl]
  decide +kernel

theorem packetsRs47_items : itemsOf (codes packetsRs47) = some [.packet monHw_decl, .enum antennaStatus_decl, .packet monGnss_decl] := by
  rw [codes_eq (s := packetsRs47) (chars := charsOf% packetsRs47) rfl]
  decide +kernel

theorem packetsRs48_items : itemsOf (codes packetsRs48) = some [.flags monGnssConstellMask_decl, .enum antennaPower_decl] := by
  rw [codes_eq (s := packetsRs48) (chars := charsOf% packetsRs48) rfl]
  decide +kernel

theorem packetsRs49_items : itemsOf (codes packetsRs49) = some [.packet monVer_decl] := by
  rw [codes_eq (s := packetsRs49) (chars := charsOf% packetsRs49) rfl]
  decide +kernel

theorem packetsRs50_items : itemsOf (codes packetsRs50) = some [.packet rxmRtcm_decl, .packet esfMeas_decl] := by
  rw [codes_eq (s := packetsRs50) (chars := charsOf% packetsRs50) rfl]
  decide +kernel

theorem packetsRs51_items : itemsOf (codes packetsRs51) = some [.packet esfRaw_decl] := by
  rw [codes_eq (s := packetsRs51) (chars := charsOf% packetsRs51) rfl]
  decide +kernel

theorem packetsRs52_items : itemsOf (codes packetsRs52) = some [.packet esfIns_decl] := by
  rw [codes_eq (s := packetsRs52) (chars := charsOf% packetsRs52) rfl]
  decide +kernel

theorem packetsRs53_items : itemsOf (codes packetsRs53) = some [.flags esfInsBitFlags_decl, .packet hnrAtt_decl, .packet hnrIns_decl] := by
  rw [codes_eq (s := packetsRs53) (chars := charsOf% packetsRs53) rfl]
  decide +kernel

theorem packetsRs54_items : itemsOf (codes packetsRs54) = some [.flags hnrInsBitFlags_decl, .packet hnrPvt_decl] := by
  rw [codes_eq (s := packetsRs54) (chars := charsOf% packetsRs54) rfl]
  decide +kernel

theorem packetsRs55_items : itemsOf (codes packetsRs55) = some [.packet navAtt_decl, .packet navClock_decl, .flags hnrPvtFlags_decl] := by
  rw [codes_eq (s := packetsRs55) (chars := charsOf% packetsRs55) rfl]
  decide +kernel

theorem packetsRs56_items : itemsOf (codes packetsRs56) = some [.flags hnrPvtValidFlags_decl, .packet rxmSfrbx_decl, .packet navVelECEF_decl] := by
  rw [codes_eq (s := packetsRs56) (chars := charsOf% packetsRs56) rfl]
  decide +kernel

theorem packetsRs57_items : itemsOf (codes packetsRs57) = some [.packet mgaGpsEPH_decl] := by
  rw [codes_eq (s := packetsRs57) (chars := charsOf% packetsRs57) rfl]
  decide +kernel

theorem packetsRs58_items : itemsOf (codes packetsRs58) = some [.packet rxmRawxInfo_decl, .flags stdevFlags_decl, .flags trkStatFlags_decl] := by
  rw [codes_eq (s := packetsRs58) (chars := charsOf% packetsRs58) rfl]
  decide +kernel

theorem packetsRs59_items : itemsOf (codes packetsRs59) = some [.packet secUniqId_decl, .recv recvDecl] := by
  rw [codes_eq (s := packetsRs59) (chars := charsOf% packetsRs59) rfl]
  decide +kernel

end Ublox.Gen
