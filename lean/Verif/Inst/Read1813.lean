/-
The files of rfc1813, read.  (The proofs are computations by the kernel; they take a while.)
-/
import Verif.Text.Pieces
import Verif.Inst.Text1813
import Verif.Inst.Shipped

namespace Verif.Inst
open Verif.Gen Verif.Text

theorem Rfc1813.protRead : lexLines Rfc1813.protText = some (pSpec Rfc1813.spec) := by decide +kernel
theorem Rfc1813.codeRead : lowPieces2 60 Rfc1813.typesText Rfc1813.codeText =
    some (codes "rfc1813", Rfc1813.prog, Rfc1813.goVers) := by decide +kernel

end Verif.Inst
