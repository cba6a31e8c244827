/-
The files of rfc1057, read.  (The proofs are computations by the kernel; they take a while.)
-/
import Verif.Text.Pieces
import Verif.Inst.Text1057
import Verif.Inst.Shipped

namespace Verif.Inst
open Verif.Gen Verif.Text

theorem Rfc1057.protRead : lexLines Rfc1057.protText = some (pSpec Rfc1057.spec) := by decide +kernel
theorem Rfc1057.codeRead : lowPieces2 60 Rfc1057.typesText Rfc1057.codeText =
    some (codes "rfc1057", Rfc1057.prog, Rfc1057.goVers) := by decide +kernel

end Verif.Inst
