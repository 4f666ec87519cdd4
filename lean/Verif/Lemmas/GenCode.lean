import Verif.Lemmas.Code
import Verif.Lemmas.SourceText
import Verif.Model.GenCode
import Verif.Model.GenText

/-! Generated by `tools/gencode.py`: the functions in each piece of the text; do not edit. -/

namespace Ublox.Gen
open Src Code

set_option maxRecDepth 100000

theorem parserRs0_impls : implsOf (codes parserRs0) = some [parserRs_UnderlyingBuffer_impl] := by
  rw [codes_eq (s := parserRs0) (chars := charsOf% parserRs0) rfl]
  kernel_rfl

theorem parserRs1_impls : implsOf (codes parserRs1) = some [parserRs_Vec_UnderlyingBuffer_impl, parserRs_FixedLinearBuffer_impl, parserRs_FixedLinearBuffer_Index_Range_impl, parserRs_FixedLinearBuffer_Index_impl] := by
  rw [codes_eq (s := parserRs1) (chars := charsOf% parserRs1) rfl]
  kernel_rfl

theorem parserRs2_impls : implsOf (codes parserRs2) = some [parserRs_FixedLinearBuffer_UnderlyingBuffer_impl] := by
  rw [codes_eq (s := parserRs2) (chars := charsOf% parserRs2) rfl]
  kernel_rfl

theorem parserRs3_impls : implsOf (codes parserRs3) = some [parserRs_Parser_Default_impl, parserRs_Parser_impl, parserRs_DualBuffer_Index_impl] := by
  rw [codes_eq (s := parserRs3) (chars := charsOf% parserRs3) rfl]
  kernel_rfl

theorem parserRs4_impls : implsOf (codes parserRs4) = some [parserRs_DualBuffer_impl] := by
  rw [codes_eq (s := parserRs4) (chars := charsOf% parserRs4) rfl]
  kernel_rfl

theorem parserRs5_impls : implsOf (codes parserRs5) = some [parserRs_DualBuffer_Drop_impl, parserRs_UbxChecksumCalc_impl, parserRs_ParserIter_impl] := by
  rw [codes_eq (s := parserRs5) (chars := charsOf% parserRs5) rfl]
  kernel_rfl

theorem parserRs_impls : implsOf (codes (String.join parserRs)) = some parserRs_code :=
  implsOf_strings (ls := [[parserRs_UnderlyingBuffer_impl], [parserRs_Vec_UnderlyingBuffer_impl, parserRs_FixedLinearBuffer_impl, parserRs_FixedLinearBuffer_Index_Range_impl, parserRs_FixedLinearBuffer_Index_impl], [parserRs_FixedLinearBuffer_UnderlyingBuffer_impl], [parserRs_Parser_Default_impl, parserRs_Parser_impl, parserRs_DualBuffer_Index_impl], [parserRs_DualBuffer_impl], [parserRs_DualBuffer_Drop_impl, parserRs_UbxChecksumCalc_impl, parserRs_ParserIter_impl]]) <|
    .cons parserRs0_impls <|
    .cons parserRs1_impls <|
    .cons parserRs2_impls <|
    .cons parserRs3_impls <|
    .cons parserRs4_impls <|
    .cons parserRs5_impls .nil

end Ublox.Gen
