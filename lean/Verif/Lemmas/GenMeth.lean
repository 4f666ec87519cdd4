import Verif.Lemmas.Code
import Verif.Lemmas.SourceText
import Verif.Model.GenMeth

/-! Generated by `tools/genmeth.py`: the functions in the texts; do not edit. -/

namespace Ublox.Gen.Meth
open Src
open Ublox.Meth

set_option maxRecDepth 100000

theorem typesRs_fnsOf : fnsOf (codes typesRs) = some typesRs_fns := by
  rw [codes_eq (s := typesRs) (chars := charsOf% typesRs) rfl]
  kernel_rfl

theorem libRs_fnsOf : fnsOf (codes libRs) = some libRs_fns := by
  rw [codes_eq (s := libRs) (chars := charsOf% libRs) rfl]
  kernel_rfl

end Ublox.Gen.Meth
