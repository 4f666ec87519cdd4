import Verif.Lemmas.SourceText
import Verif.Model.GenDecls
import Verif.Model.GenCfgVal
import Verif.Model.GenSource

/-! Generated by `tools/gen.py`: the declarations in each piece of the text; do not edit. -/

namespace Ublox.Gen
open Src

set_option maxRecDepth 100000

theorem cfgValRs0_rows : rowsOf (codes cfgValRs0) = some ((cfgItems.drop 0).take 33) := by
  rw [codes_eq (s := cfgValRs0) (chars := charsOf% cfgValRs0) rfl]
  decide +kernel

theorem cfgValRs1_rows : rowsOf (codes cfgValRs1) = some ((cfgItems.drop 33).take 26) := by
  rw [codes_eq (s := cfgValRs1) (chars := charsOf% cfgValRs1) rfl]
  decide +kernel

theorem cfgValRs2_rows : rowsOf (codes cfgValRs2) = some ((cfgItems.drop 59).take 16) := by
  rw [codes_eq (s := cfgValRs2) (chars := charsOf% cfgValRs2) rfl]
  decide +kernel

theorem cfgValRs3_rows : rowsOf (codes cfgValRs3) = some ((cfgItems.drop 75).take 16) := by
  rw [codes_eq (s := cfgValRs3) (chars := charsOf% cfgValRs3) rfl]
  decide +kernel

theorem cfgValRs4_rows : rowsOf (codes cfgValRs4) = some ((cfgItems.drop 91).take 16) := by
  rw [codes_eq (s := cfgValRs4) (chars := charsOf% cfgValRs4) rfl]
  decide +kernel

theorem cfgValRs5_rows : rowsOf (codes cfgValRs5) = some ((cfgItems.drop 107).take 16) := by
  rw [codes_eq (s := cfgValRs5) (chars := charsOf% cfgValRs5) rfl]
  decide +kernel

theorem cfgValRs6_rows : rowsOf (codes cfgValRs6) = some ((cfgItems.drop 123).take 15) := by
  rw [codes_eq (s := cfgValRs6) (chars := charsOf% cfgValRs6) rfl]
  decide +kernel

theorem cfgValRs7_rows : rowsOf (codes cfgValRs7) = some ((cfgItems.drop 138).take 15) := by
  rw [codes_eq (s := cfgValRs7) (chars := charsOf% cfgValRs7) rfl]
  decide +kernel

theorem cfgValRs8_rows : rowsOf (codes cfgValRs8) = some ((cfgItems.drop 153).take 15) := by
  rw [codes_eq (s := cfgValRs8) (chars := charsOf% cfgValRs8) rfl]
  decide +kernel

theorem cfgValRs9_rows : rowsOf (codes cfgValRs9) = some ((cfgItems.drop 168).take 15) := by
  rw [codes_eq (s := cfgValRs9) (chars := charsOf% cfgValRs9) rfl]
  decide +kernel

theorem cfgValRs10_rows : rowsOf (codes cfgValRs10) = some ((cfgItems.drop 183).take 15) := by
  rw [codes_eq (s := cfgValRs10) (chars := charsOf% cfgValRs10) rfl]
  decide +kernel

theorem cfgValRs11_rows : rowsOf (codes cfgValRs11) = some ((cfgItems.drop 198).take 16) := by
  rw [codes_eq (s := cfgValRs11) (chars := charsOf% cfgValRs11) rfl]
  decide +kernel

theorem cfgValRs12_rows : rowsOf (codes cfgValRs12) = some ((cfgItems.drop 214).take 16) := by
  rw [codes_eq (s := cfgValRs12) (chars := charsOf% cfgValRs12) rfl]
  decide +kernel

theorem cfgValRs13_rows : rowsOf (codes cfgValRs13) = some ((cfgItems.drop 230).take 16) := by
  rw [codes_eq (s := cfgValRs13) (chars := charsOf% cfgValRs13) rfl]
  decide +kernel

theorem cfgValRs14_rows : rowsOf (codes cfgValRs14) = some ((cfgItems.drop 246).take 16) := by
  rw [codes_eq (s := cfgValRs14) (chars := charsOf% cfgValRs14) rfl]
  decide +kernel

theorem cfgValRs15_rows : rowsOf (codes cfgValRs15) = some ((cfgItems.drop 262).take 15) := by
  rw [codes_eq (s := cfgValRs15) (chars := charsOf% cfgValRs15) rfl]
  decide +kernel

theorem cfgValRs16_rows : rowsOf (codes cfgValRs16) = some ((cfgItems.drop 277).take 15) := by
  rw [codes_eq (s := cfgValRs16) (chars := charsOf% cfgValRs16) rfl]
  decide +kernel

theorem cfgValRs17_rows : rowsOf (codes cfgValRs17) = some ((cfgItems.drop 292).take 15) := by
  rw [codes_eq (s := cfgValRs17) (chars := charsOf% cfgValRs17) rfl]
  decide +kernel

theorem cfgValRs18_rows : rowsOf (codes cfgValRs18) = some ((cfgItems.drop 307).take 16) := by
  rw [codes_eq (s := cfgValRs18) (chars := charsOf% cfgValRs18) rfl]
  decide +kernel

theorem cfgValRs19_rows : rowsOf (codes cfgValRs19) = some ((cfgItems.drop 323).take 15) := by
  rw [codes_eq (s := cfgValRs19) (chars := charsOf% cfgValRs19) rfl]
  decide +kernel

theorem cfgValRs20_rows : rowsOf (codes cfgValRs20) = some ((cfgItems.drop 338).take 15) := by
  rw [codes_eq (s := cfgValRs20) (chars := charsOf% cfgValRs20) rfl]
  decide +kernel

theorem cfgValRs21_rows : rowsOf (codes cfgValRs21) = some ((cfgItems.drop 353).take 15) := by
  rw [codes_eq (s := cfgValRs21) (chars := charsOf% cfgValRs21) rfl]
  decide +kernel

theorem cfgValRs22_rows : rowsOf (codes cfgValRs22) = some ((cfgItems.drop 368).take 16) := by
  rw [codes_eq (s := cfgValRs22) (chars := charsOf% cfgValRs22) rfl]
  decide +kernel

theorem cfgValRs23_rows : rowsOf (codes cfgValRs23) = some ((cfgItems.drop 384).take 16) := by
  rw [codes_eq (s := cfgValRs23) (chars := charsOf% cfgValRs23) rfl]
  decide +kernel

theorem cfgValRs24_rows : rowsOf (codes cfgValRs24) = some ((cfgItems.drop 400).take 29) := by
  rw [codes_eq (s := cfgValRs24) (chars := charsOf% cfgValRs24) rfl]
  decide +kernel

theorem cfgValRs25_rows : rowsOf (codes cfgValRs25) = some ((cfgItems.drop 429).take 5) := by
  rw [codes_eq (s := cfgValRs25) (chars := charsOf% cfgValRs25) rfl]
  decide +kernel

end Ublox.Gen
