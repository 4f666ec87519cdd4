import Verif.Lemmas.SourceText
import Verif.Model.GenDecls
import Verif.Model.GenCfgVal
import Verif.Model.GenSource

/-! Generated by `tools/gen.py`: the declarations in each piece of the text; do not edit. -/

namespace Ublox.Gen
open Src

set_option maxRecDepth 100000

theorem packetsRs0_items : itemsOf (codes packetsRs0) = some [.packet navPosLlh_decl] := by
  rw [codes_eq (s := packetsRs0) (chars := charsOf% packetsRs0) rfl]
  decide +kernel

theorem packetsRs1_items : itemsOf (codes packetsRs1) = some [.packet navVelNed_decl, .packet navHpPosLlh_decl] := by
  rw [codes_eq (s := packetsRs1) (chars := charsOf% packetsRs1) rfl]
  decide +kernel

theorem packetsRs2_items : itemsOf (codes packetsRs2) = some [.flags navHpPosEcefFlags_decl, .packet navHpPosEcef_decl] := by
  rw [codes_eq (s := packetsRs2) (chars := charsOf% packetsRs2) rfl]
  decide +kernel

theorem packetsRs3_items : itemsOf (codes packetsRs3) = some [.packet navPvt_decl] := by
  rw [codes_eq (s := packetsRs3) (chars := charsOf% packetsRs3) rfl]
  decide +kernel

theorem packetsRs4_items : itemsOf (codes packetsRs4) = some [.flags navPvtFlags_decl, .flags navPvtFlags2_decl] := by
  rw [codes_eq (s := packetsRs4) (chars := charsOf% packetsRs4) rfl]
  decide +kernel

theorem packetsRs5_items : itemsOf (codes packetsRs5) = some [.packet navStatus_decl, .packet navDop_decl] := by
  rw [codes_eq (s := packetsRs5) (chars := charsOf% packetsRs5) rfl]
  decide +kernel

theorem packetsRs6_items : itemsOf (codes packetsRs6) = some [.packet navEoe_decl, .packet navSolution_decl] := by
  rw [codes_eq (s := packetsRs6) (chars := charsOf% packetsRs6) rfl]
  decide +kernel

theorem packetsRs7_items : itemsOf (codes packetsRs7) = some [.enum gpsFix_decl, .flags navStatusFlags_decl] := by
  rw [codes_eq (s := packetsRs7) (chars := charsOf% packetsRs7) rfl]
  decide +kernel

theorem packetsRs8_items : itemsOf (codes packetsRs8) = some [.enum navStatusFlags2_decl] := by
  rw [codes_eq (s := packetsRs8) (chars := charsOf% packetsRs8) rfl]
  decide +kernel

theorem packetsRs9_items : itemsOf (codes packetsRs9) = some [] := by
  rw [codes_eq (s := packetsRs9) (chars := charsOf% packetsRs9) rfl]
  decide +kernel

theorem packetsRs10_items : itemsOf (codes packetsRs10) = some [.packet navSatSvInfo_decl] := by
  rw [codes_eq (s := packetsRs10) (chars := charsOf% packetsRs10) rfl]
  decide +kernel

theorem packetsRs11_items : itemsOf (codes packetsRs11) = some [.packet navSat_decl, .packet navOdo_decl, .packet navResetOdo_decl, .packet cfgOdo_decl] := by
  rw [codes_eq (s := packetsRs11) (chars := charsOf% packetsRs11) rfl]
  decide +kernel

theorem packetsRs12_items : itemsOf (codes packetsRs12) = some [.flags odoCogFilterFlags_decl, .enum odoProfile_decl, .packet cfgItfm_decl] := by
  rw [codes_eq (s := packetsRs12) (chars := charsOf% packetsRs12) rfl]
  decide +kernel

theorem packetsRs13_items : itemsOf (codes packetsRs13) = some [] := by
  rw [codes_eq (s := packetsRs13) (chars := charsOf% packetsRs13) rfl]
  decide +kernel

theorem packetsRs14_items : itemsOf (codes packetsRs14) = some [] := by
  rw [codes_eq (s := packetsRs14) (chars := charsOf% packetsRs14) rfl]
  decide +kernel

theorem packetsRs15_items : itemsOf (codes packetsRs15) = some [] := by
  rw [codes_eq (s := packetsRs15) (chars := charsOf% packetsRs15) rfl]
  decide +kernel

theorem packetsRs16_items : itemsOf (codes packetsRs16) = some [.enum cfgItfmAntennaSettings_decl] := by
  rw [codes_eq (s := packetsRs16) (chars := charsOf% packetsRs16) rfl]
  decide +kernel

theorem packetsRs17_items : itemsOf (codes packetsRs17) = some [.packet cfgInf_decl, .flags cfgInfMask_decl, .packet infError_decl] := by
  rw [codes_eq (s := packetsRs17) (chars := charsOf% packetsRs17) rfl]
  decide +kernel

theorem packetsRs18_items : itemsOf (codes packetsRs18) = some [.packet infNotice_decl, .packet infTest_decl, .packet infWarning_decl, .packet infDebug_decl] := by
  rw [codes_eq (s := packetsRs18) (chars := charsOf% packetsRs18) rfl]
  decide +kernel

theorem packetsRs19_items : itemsOf (codes packetsRs19) = some [.packet aidIni_decl] := by
  rw [codes_eq (s := packetsRs19) (chars := charsOf% packetsRs19) rfl]
  decide +kernel

theorem packetsRs20_items : itemsOf (codes packetsRs20) = some [.packet alpSrv_decl, .packet ackAck_decl, .packet ackNak_decl] := by
  rw [codes_eq (s := packetsRs20) (chars := charsOf% packetsRs20) rfl]
  decide +kernel

theorem packetsRs21_items : itemsOf (codes packetsRs21) = some [.packet cfgRst_decl, .packet cfgAnt_decl, .flags antFlags_decl] := by
  rw [codes_eq (s := packetsRs21) (chars := charsOf% packetsRs21) rfl]
  decide +kernel

theorem packetsRs22_items : itemsOf (codes packetsRs22) = some [.packet cfgTp5_decl] := by
  rw [codes_eq (s := packetsRs22) (chars := charsOf% packetsRs22) rfl]
  decide +kernel

theorem packetsRs23_items : itemsOf (codes packetsRs23) = some [.enum cfgTp5TimePulseMode_decl, .packet cfgTmode2_decl] := by
  rw [codes_eq (s := packetsRs23) (chars := charsOf% packetsRs23) rfl]
  decide +kernel

theorem packetsRs24_items : itemsOf (codes packetsRs24) = some [.enum cfgTmode2TimeXferModes_decl, .flags cfgTmode2Flags_decl, .packet timSvin_decl] := by
  rw [codes_eq (s := packetsRs24) (chars := charsOf% packetsRs24) rfl]
  decide +kernel

theorem packetsRs25_items : itemsOf (codes packetsRs25) = some [.packet navTimeLs_decl] := by
  rw [codes_eq (s := packetsRs25) (chars := charsOf% packetsRs25) rfl]
  decide +kernel

theorem packetsRs26_items : itemsOf (codes packetsRs26) = some [.flags navTimeLsFlags_decl, .packet cfgTmode3_decl] := by
  rw [codes_eq (s := packetsRs26) (chars := charsOf% packetsRs26) rfl]
  decide +kernel

theorem packetsRs27_items : itemsOf (codes packetsRs27) = some [.flags cfgTmode3RcvrMode_decl, .flags cfgTp5Flags_decl] := by
  rw [codes_eq (s := packetsRs27) (chars := charsOf% packetsRs27) rfl]
  decide +kernel

theorem packetsRs28_items : itemsOf (codes packetsRs28) = some [.flags cfgTmode3Flags_decl, .flags navBbrMask_decl] := by
  rw [codes_eq (s := packetsRs28) (chars := charsOf% packetsRs28) rfl]
  decide +kernel

theorem packetsRs29_items : itemsOf (codes packetsRs29) = some [.packet cfgValSet_decl] := by
  rw [codes_eq (s := packetsRs29) (chars := charsOf% packetsRs29) rfl]
  decide +kernel

end Ublox.Gen
