import Verif.Model.CfgProgram
import Verif.Model.Program

/-!
# The program with the functions that the macros of `cfg_val.rs` make
-/

namespace Ublox.Exec

open Macro

/-- The functions and declarations of `ublox/src/ubx_packets.rs` and of the files in `ublox/src/ubx_packets`, with
those that `cfg_val!` makes of a table (`cfg_val.rs:211-301`). -/
def whole (rows : List Row) : Prog where
  impls := Gen.metaRs_code ++ Gen.typesRs_code ++
    (Gen.cfgHeadRs_code ++ cfgValImpl rows :: rows.map Row.impl) ++ Gen.packetsRs_code
  decls := Gen.metaRs_decls ++ Gen.typesRs_decls ++
    (Gen.cfgHeadRs_decls ++ cfgValDecl rows :: rows.map Row.decl ++ [tpPulseDecl, tpPulseLengthDecl]) ++
    Gen.packetsRs_decls
  enums := Gen.allEnums
  flags := Gen.allFlags
  items := []

end Ublox.Exec
