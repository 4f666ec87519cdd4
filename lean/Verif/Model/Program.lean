import Verif.Model.Exec
import Verif.Model.GenCfgVal
import Verif.Model.GenCode2

/-!
# The program
-/

namespace Ublox.Exec

/-- The functions of `ublox/src/ubx_packets.rs:1-132`, `ubx_packets/types.rs:1-152`,
`ubx_packets/cfg_val.rs:1-49` and `ubx_packets/packets.rs`, and the declarations of the last file that macros
work on. -/
def program : Prog where
  impls := Gen.metaRs_code ++ Gen.typesRs_code ++ Gen.cfgHeadRs_code ++ Gen.packetsRs_code
  decls := Gen.metaRs_decls ++ Gen.typesRs_decls ++ Gen.cfgHeadRs_decls ++ Gen.packetsRs_decls
  enums := Gen.allEnums
  flags := Gen.allFlags
  items := Gen.cfgItems

end Ublox.Exec
