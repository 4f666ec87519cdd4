import Verif.Lemmas.Quote
import Verif.Lemmas.SourceText
import Verif.Model.GenQuote

/-! Generated by `tools/genquote.py`: the functions in each piece of the text; do not edit. -/

namespace Ublox.Gen
open Src
open Code hiding Fn
open Quote

set_option maxRecDepth 100000

theorem outputRs0_fns : fnsOf (codes outputRs0) = some [generate_debug_impl] := by
  rw [codes_eq (s := outputRs0) (chars := charsOf% outputRs0) rfl]
  kernel_rfl

theorem outputRs1_fns : fnsOf (codes outputRs1) = some [generate_serialize_impl] := by
  rw [codes_eq (s := outputRs1) (chars := charsOf% outputRs1) rfl]
  kernel_rfl

theorem outputRs2_fns : fnsOf (codes outputRs2) = some [generate_recv_code_for_packet] := by
  rw [codes_eq (s := outputRs2) (chars := charsOf% outputRs2) rfl]
  kernel_rfl

theorem outputRs3_fns : fnsOf (codes outputRs3) = some [generate_types_for_packet] := by
  rw [codes_eq (s := outputRs3) (chars := charsOf% outputRs3) rfl]
  kernel_rfl

theorem outputRs4_fns : fnsOf (codes outputRs4) = some [generate_send_code_for_packet] := by
  rw [codes_eq (s := outputRs4) (chars := charsOf% outputRs4) rfl]
  kernel_rfl

theorem outputRs5_fns : fnsOf (codes outputRs5) = some [generate_code_to_extend_enum] := by
  rw [codes_eq (s := outputRs5) (chars := charsOf% outputRs5) rfl]
  kernel_rfl

theorem outputRs6_fns : fnsOf (codes outputRs6) = some [generate_code_to_extend_bitflags] := by
  rw [codes_eq (s := outputRs6) (chars := charsOf% outputRs6) rfl]
  kernel_rfl

theorem outputRs7_fns : fnsOf (codes outputRs7) = some [generate_code_for_parse] := by
  rw [codes_eq (s := outputRs7) (chars := charsOf% outputRs7) rfl]
  kernel_rfl

theorem outputRs8_fns : fnsOf (codes outputRs8) = some [get_raw_field_code] := by
  rw [codes_eq (s := outputRs8) (chars := charsOf% outputRs8) rfl]
  kernel_rfl

theorem outputRs_fnsOf : fnsOf (codes (String.join outputRs)) = some outputRs_fns :=
  fnsOf_strings (ls := [[generate_debug_impl], [generate_serialize_impl], [generate_recv_code_for_packet], [generate_types_for_packet], [generate_send_code_for_packet], [generate_code_to_extend_enum], [generate_code_to_extend_bitflags], [generate_code_for_parse], [get_raw_field_code]]) <|
    .cons outputRs0_fns <|
    .cons outputRs1_fns <|
    .cons outputRs2_fns <|
    .cons outputRs3_fns <|
    .cons outputRs4_fns <|
    .cons outputRs5_fns <|
    .cons outputRs6_fns <|
    .cons outputRs7_fns <|
    .cons outputRs8_fns .nil

end Ublox.Gen
