/-
The two shipped packages: the generator's output for the checked-in prot.x is the checked-in code.
(The proofs are computations by the kernel; they take a while.)
-/
import Verif.Inst.Rfc1057Data
import Verif.Inst.Rfc1813Data
import Verif.Gen.Supported

namespace Verif.Inst
open Verif.Gen

/-- The flags the Makefile passes for both packages: `-unsigned-enum -const-type uint32`. -/
def fl : Flags := ⟨true, "uint32"⟩

/-- The package rfc1057 as it is checked in. -/
def Rfc1057.prog : GoProg := ⟨Rfc1057.goConsts, Rfc1057.goTypes, Rfc1057.goMethods⟩
/-- The package rfc1813 as it is checked in. -/
def Rfc1813.prog : GoProg := ⟨Rfc1813.goConsts, Rfc1813.goTypes, Rfc1813.goMethods⟩

theorem Rfc1057.gen : generate fl Rfc1057.spec = some Rfc1057.prog := by decide +kernel
theorem Rfc1057.genVers : generateVers Rfc1057.spec = some Rfc1057.goVers := by decide +kernel
theorem Rfc1057.supp : supported fl Rfc1057.spec = true := by decide +kernel
theorem Rfc1813.gen : generate fl Rfc1813.spec = some Rfc1813.prog := by decide +kernel
theorem Rfc1813.genVers : generateVers Rfc1813.spec = some Rfc1813.goVers := by decide +kernel
theorem Rfc1813.supp : supported fl Rfc1813.spec = true := by decide +kernel

end Verif.Inst
