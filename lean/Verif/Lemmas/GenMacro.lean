import Verif.Lemmas.MacroText
import Verif.Model.GenCfgVal
import Verif.Model.GenCode2
import Verif.Model.GenText
import Verif.Model.GenSource

/-! Generated by `tools/genmacro.py`: the macros and the rows in each piece of the text; do not edit. -/

namespace Ublox.Gen

open Src Code Macro

set_option maxRecDepth 100000

theorem cfgHeadRs0_stage : stage [] (codes cfgHeadRs0) = some ([], cfgHeadRs_code, cfgHeadRs_decls) := by
  rw [codes_eq (s := cfgHeadRs0) (chars := charsOf% cfgHeadRs0) rfl]
  kernel_rfl

theorem macrosRs0_stage : stage [] (codes macrosRs0) = some ([fromCfgVBytes_macro], [], []) := by
  rw [codes_eq (s := macrosRs0) (chars := charsOf% macrosRs0) rfl]
  kernel_rfl

theorem macrosRs1_stage : stage [fromCfgVBytes_macro] (codes macrosRs1) = some ([intoCfgKvBytes_macro, fromCfgVBytes_macro], [], []) := by
  rw [codes_eq (s := macrosRs1) (chars := charsOf% macrosRs1) rfl]
  kernel_rfl

theorem macrosRs2_stage : stage [intoCfgKvBytes_macro, fromCfgVBytes_macro] (codes macrosRs2) = some ([cfgVal_macro, intoCfgKvBytes_macro, fromCfgVBytes_macro], [], []) := by
  rw [codes_eq (s := macrosRs2) (chars := charsOf% macrosRs2) rfl]
  kernel_rfl

theorem cfgCallRs_tokens : tokensIn (codes cfgCallRs) = some [.id c!"cfg_val", .p 33, .p 123] := by
  rw [codes_eq (s := cfgCallRs) (chars := charsOf% cfgCallRs) rfl]
  kernel_rfl

theorem cfgEndRs_tokens : tokensIn (codes cfgEndRs) = some [.p 125] := by
  rw [codes_eq (s := cfgEndRs) (chars := charsOf% cfgEndRs) rfl]
  kernel_rfl

theorem cfgTailRs_stage : stage [cfgVal_macro, intoCfgKvBytes_macro, fromCfgVBytes_macro] (codes cfgTailRs) =
    some ([cfgVal_macro, intoCfgKvBytes_macro, fromCfgVBytes_macro], [], [tpPulseDecl, tpPulseLengthDecl]) := by
  rw [codes_eq (s := cfgTailRs) (chars := charsOf% cfgTailRs) rfl]
  kernel_rfl

theorem cfgValRs0_tokens : tokensIn (codes cfgValRs0) =
    some (((cfgItems.drop 0).take 33).flatMap fun i => (rowOf i).tokens) := by
  rw [codes_eq (s := cfgValRs0) (chars := charsOf% cfgValRs0) rfl]
  kernel_rfl

theorem cfgValRs1_tokens : tokensIn (codes cfgValRs1) =
    some (((cfgItems.drop 33).take 26).flatMap fun i => (rowOf i).tokens) := by
  rw [codes_eq (s := cfgValRs1) (chars := charsOf% cfgValRs1) rfl]
  kernel_rfl

theorem cfgValRs2_tokens : tokensIn (codes cfgValRs2) =
    some (((cfgItems.drop 59).take 16).flatMap fun i => (rowOf i).tokens) := by
  rw [codes_eq (s := cfgValRs2) (chars := charsOf% cfgValRs2) rfl]
  kernel_rfl

theorem cfgValRs3_tokens : tokensIn (codes cfgValRs3) =
    some (((cfgItems.drop 75).take 16).flatMap fun i => (rowOf i).tokens) := by
  rw [codes_eq (s := cfgValRs3) (chars := charsOf% cfgValRs3) rfl]
  kernel_rfl

theorem cfgValRs4_tokens : tokensIn (codes cfgValRs4) =
    some (((cfgItems.drop 91).take 16).flatMap fun i => (rowOf i).tokens) := by
  rw [codes_eq (s := cfgValRs4) (chars := charsOf% cfgValRs4) rfl]
  kernel_rfl

theorem cfgValRs5_tokens : tokensIn (codes cfgValRs5) =
    some (((cfgItems.drop 107).take 16).flatMap fun i => (rowOf i).tokens) := by
  rw [codes_eq (s := cfgValRs5) (chars := charsOf% cfgValRs5) rfl]
  kernel_rfl

theorem cfgValRs6_tokens : tokensIn (codes cfgValRs6) =
    some (((cfgItems.drop 123).take 15).flatMap fun i => (rowOf i).tokens) := by
  rw [codes_eq (s := cfgValRs6) (chars := charsOf% cfgValRs6) rfl]
  kernel_rfl

theorem cfgValRs7_tokens : tokensIn (codes cfgValRs7) =
    some (((cfgItems.drop 138).take 15).flatMap fun i => (rowOf i).tokens) := by
  rw [codes_eq (s := cfgValRs7) (chars := charsOf% cfgValRs7) rfl]
  kernel_rfl

theorem cfgValRs8_tokens : tokensIn (codes cfgValRs8) =
    some (((cfgItems.drop 153).take 15).flatMap fun i => (rowOf i).tokens) := by
  rw [codes_eq (s := cfgValRs8) (chars := charsOf% cfgValRs8) rfl]
  kernel_rfl

theorem cfgValRs9_tokens : tokensIn (codes cfgValRs9) =
    some (((cfgItems.drop 168).take 15).flatMap fun i => (rowOf i).tokens) := by
  rw [codes_eq (s := cfgValRs9) (chars := charsOf% cfgValRs9) rfl]
  kernel_rfl

theorem cfgValRs10_tokens : tokensIn (codes cfgValRs10) =
    some (((cfgItems.drop 183).take 15).flatMap fun i => (rowOf i).tokens) := by
  rw [codes_eq (s := cfgValRs10) (chars := charsOf% cfgValRs10) rfl]
  kernel_rfl

theorem cfgValRs11_tokens : tokensIn (codes cfgValRs11) =
    some (((cfgItems.drop 198).take 16).flatMap fun i => (rowOf i).tokens) := by
  rw [codes_eq (s := cfgValRs11) (chars := charsOf% cfgValRs11) rfl]
  kernel_rfl

theorem cfgValRs12_tokens : tokensIn (codes cfgValRs12) =
    some (((cfgItems.drop 214).take 16).flatMap fun i => (rowOf i).tokens) := by
  rw [codes_eq (s := cfgValRs12) (chars := charsOf% cfgValRs12) rfl]
  kernel_rfl

theorem cfgValRs13_tokens : tokensIn (codes cfgValRs13) =
    some (((cfgItems.drop 230).take 16).flatMap fun i => (rowOf i).tokens) := by
  rw [codes_eq (s := cfgValRs13) (chars := charsOf% cfgValRs13) rfl]
  kernel_rfl

theorem cfgValRs14_tokens : tokensIn (codes cfgValRs14) =
    some (((cfgItems.drop 246).take 16).flatMap fun i => (rowOf i).tokens) := by
  rw [codes_eq (s := cfgValRs14) (chars := charsOf% cfgValRs14) rfl]
  kernel_rfl

theorem cfgValRs15_tokens : tokensIn (codes cfgValRs15) =
    some (((cfgItems.drop 262).take 15).flatMap fun i => (rowOf i).tokens) := by
  rw [codes_eq (s := cfgValRs15) (chars := charsOf% cfgValRs15) rfl]
  kernel_rfl

theorem cfgValRs16_tokens : tokensIn (codes cfgValRs16) =
    some (((cfgItems.drop 277).take 15).flatMap fun i => (rowOf i).tokens) := by
  rw [codes_eq (s := cfgValRs16) (chars := charsOf% cfgValRs16) rfl]
  kernel_rfl

theorem cfgValRs17_tokens : tokensIn (codes cfgValRs17) =
    some (((cfgItems.drop 292).take 15).flatMap fun i => (rowOf i).tokens) := by
  rw [codes_eq (s := cfgValRs17) (chars := charsOf% cfgValRs17) rfl]
  kernel_rfl

theorem cfgValRs18_tokens : tokensIn (codes cfgValRs18) =
    some (((cfgItems.drop 307).take 16).flatMap fun i => (rowOf i).tokens) := by
  rw [codes_eq (s := cfgValRs18) (chars := charsOf% cfgValRs18) rfl]
  kernel_rfl

theorem cfgValRs19_tokens : tokensIn (codes cfgValRs19) =
    some (((cfgItems.drop 323).take 15).flatMap fun i => (rowOf i).tokens) := by
  rw [codes_eq (s := cfgValRs19) (chars := charsOf% cfgValRs19) rfl]
  kernel_rfl

theorem cfgValRs20_tokens : tokensIn (codes cfgValRs20) =
    some (((cfgItems.drop 338).take 15).flatMap fun i => (rowOf i).tokens) := by
  rw [codes_eq (s := cfgValRs20) (chars := charsOf% cfgValRs20) rfl]
  kernel_rfl

theorem cfgValRs21_tokens : tokensIn (codes cfgValRs21) =
    some (((cfgItems.drop 353).take 15).flatMap fun i => (rowOf i).tokens) := by
  rw [codes_eq (s := cfgValRs21) (chars := charsOf% cfgValRs21) rfl]
  kernel_rfl

theorem cfgValRs22_tokens : tokensIn (codes cfgValRs22) =
    some (((cfgItems.drop 368).take 16).flatMap fun i => (rowOf i).tokens) := by
  rw [codes_eq (s := cfgValRs22) (chars := charsOf% cfgValRs22) rfl]
  kernel_rfl

theorem cfgValRs23_tokens : tokensIn (codes cfgValRs23) =
    some (((cfgItems.drop 384).take 16).flatMap fun i => (rowOf i).tokens) := by
  rw [codes_eq (s := cfgValRs23) (chars := charsOf% cfgValRs23) rfl]
  kernel_rfl

theorem cfgValRs24_tokens : tokensIn (codes cfgValRs24) =
    some (((cfgItems.drop 400).take 29).flatMap fun i => (rowOf i).tokens) := by
  rw [codes_eq (s := cfgValRs24) (chars := charsOf% cfgValRs24) rfl]
  kernel_rfl

theorem cfgValRs25_tokens : tokensIn (codes cfgValRs25) =
    some (((cfgItems.drop 429).take 5).flatMap fun i => (rowOf i).tokens) := by
  rw [codes_eq (s := cfgValRs25) (chars := charsOf% cfgValRs25) rfl]
  kernel_rfl

theorem cfgValRs_tokens : tokensIn (codes (String.join cfgValRs)) = some (cfgItems.flatMap fun i => (rowOf i).tokens) := by
  have h := tokensIn_strings (ss := cfgValRs) (ls := [(cfgItems.drop 0).take 33, (cfgItems.drop 33).take 26, (cfgItems.drop 59).take 16, (cfgItems.drop 75).take 16, (cfgItems.drop 91).take 16, (cfgItems.drop 107).take 16, (cfgItems.drop 123).take 15, (cfgItems.drop 138).take 15, (cfgItems.drop 153).take 15, (cfgItems.drop 168).take 15, (cfgItems.drop 183).take 15, (cfgItems.drop 198).take 16, (cfgItems.drop 214).take 16, (cfgItems.drop 230).take 16, (cfgItems.drop 246).take 16, (cfgItems.drop 262).take 15, (cfgItems.drop 277).take 15, (cfgItems.drop 292).take 15, (cfgItems.drop 307).take 16, (cfgItems.drop 323).take 15, (cfgItems.drop 338).take 15, (cfgItems.drop 353).take 15, (cfgItems.drop 368).take 16, (cfgItems.drop 384).take 16, (cfgItems.drop 400).take 29, (cfgItems.drop 429).take 5])
    (.cons cfgValRs0_tokens <|
    .cons cfgValRs1_tokens <|
    .cons cfgValRs2_tokens <|
    .cons cfgValRs3_tokens <|
    .cons cfgValRs4_tokens <|
    .cons cfgValRs5_tokens <|
    .cons cfgValRs6_tokens <|
    .cons cfgValRs7_tokens <|
    .cons cfgValRs8_tokens <|
    .cons cfgValRs9_tokens <|
    .cons cfgValRs10_tokens <|
    .cons cfgValRs11_tokens <|
    .cons cfgValRs12_tokens <|
    .cons cfgValRs13_tokens <|
    .cons cfgValRs14_tokens <|
    .cons cfgValRs15_tokens <|
    .cons cfgValRs16_tokens <|
    .cons cfgValRs17_tokens <|
    .cons cfgValRs18_tokens <|
    .cons cfgValRs19_tokens <|
    .cons cfgValRs20_tokens <|
    .cons cfgValRs21_tokens <|
    .cons cfgValRs22_tokens <|
    .cons cfgValRs23_tokens <|
    .cons cfgValRs24_tokens <|
    .cons cfgValRs25_tokens .nil)
  have : List.flatten [(cfgItems.drop 0).take 33, (cfgItems.drop 33).take 26, (cfgItems.drop 59).take 16, (cfgItems.drop 75).take 16, (cfgItems.drop 91).take 16, (cfgItems.drop 107).take 16, (cfgItems.drop 123).take 15, (cfgItems.drop 138).take 15, (cfgItems.drop 153).take 15, (cfgItems.drop 168).take 15, (cfgItems.drop 183).take 15, (cfgItems.drop 198).take 16, (cfgItems.drop 214).take 16, (cfgItems.drop 230).take 16, (cfgItems.drop 246).take 16, (cfgItems.drop 262).take 15, (cfgItems.drop 277).take 15, (cfgItems.drop 292).take 15, (cfgItems.drop 307).take 16, (cfgItems.drop 323).take 15, (cfgItems.drop 338).take 15, (cfgItems.drop 353).take 15, (cfgItems.drop 368).take 16, (cfgItems.drop 384).take 16, (cfgItems.drop 400).take 29, (cfgItems.drop 429).take 5] = cfgItems := by kernel_rfl
  rw [h, this]

/-- `cfg_val.rs` as a whole -/
theorem cfgFileRs_program : Macro.programOf (codes (String.join cfgFileRs)) =
    some (cfgHeadRs_code ++ cfgValImpl (cfgItems.map rowOf) :: (cfgItems.map rowOf).map Row.impl,
      cfgHeadRs_decls ++ cfgValDecl (cfgItems.map rowOf) :: (cfgItems.map rowOf).map Row.decl ++
        [tpPulseDecl, tpPulseLengthDecl]) := by
  have h := stage_append cfgHeadRs0_stage (stage_append macrosRs0_stage (stage_append macrosRs1_stage
    (stage_append macrosRs2_stage (stage_append (stage_call (rows := cfgItems.map rowOf) cfgCallRs_tokens
      (by rw [cfgValRs_tokens, List.flatMap_map]) cfgEndRs_tokens) cfgTailRs_stage))))
  rw [programOf_eq, codes_join]
  have e : cfgFileRs.flatMap codes = codes cfgHeadRs0 ++ (codes macrosRs0 ++ (codes macrosRs1 ++ (codes macrosRs2 ++
      ((codes cfgCallRs ++ (codes (String.join cfgValRs) ++ codes cfgEndRs)) ++ codes cfgTailRs)))) := by
    simp only [cfgFileRs, cfgHeadRs, List.cons_append, List.nil_append, List.flatMap_cons, List.flatMap_nil,
      List.append_nil, List.append_assoc]
  rw [e, h]
  simp only [Option.map_some, List.nil_append, List.append_nil, List.append_assoc, List.cons_append]

end Ublox.Gen
