import Verif.Lemmas.SgTable.All
import Verif.Lemmas.SgSystem

/-! # The crystal systems of the lookups -/

namespace Systre.Sg.Data
set_option maxRecDepth 1000000
set_option maxHeartbeats 0

theorem systems_ok : allB (fun l => (nth b0 blocks l.block).c.sysOk l.system) looks = true := by decide +kernel

end Systre.Sg.Data
