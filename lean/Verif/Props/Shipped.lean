/-
PROPERTY C25: the shipped generated code.
-/
import Verif.Inst.Shipped
import Verif.Props.Codec

namespace Verif.Props
open Verif.Xdr Verif.Spec Verif.Gen Verif.Inst

/-- rfc1057/types.go and xdr.go are the generator's output for rfc1057/prot.x: the same constants,
types, methods, interfaces, wrappers and registration tables, in the same order. -/
theorem C25_rfc1057 : generate fl Rfc1057.spec =
      some ⟨Rfc1057.goConsts, Rfc1057.goTypes, Rfc1057.goMethods⟩ ∧
    generateVers Rfc1057.spec = some Rfc1057.goVers :=
  ⟨Rfc1057.gen, Rfc1057.genVers⟩

/-- The same for rfc1813. -/
theorem C25_rfc1813 : generate fl Rfc1813.spec =
      some ⟨Rfc1813.goConsts, Rfc1813.goTypes, Rfc1813.goMethods⟩ ∧
    generateVers Rfc1813.spec = some Rfc1813.goVers :=
  ⟨Rfc1813.gen, Rfc1813.genVers⟩

/-- Both specifications are supported, so that all theorems about supported specifications apply to
the code that is checked in. -/
theorem C25_supported : supported fl Rfc1057.spec = true ∧ supported fl Rfc1813.spec = true :=
  ⟨Rfc1057.supp, Rfc1813.supp⟩

-- for instance C18 (no panic, termination) for NFS3 `READDIRPLUS3resok`
example (v : GoVal) (b : List UInt8)
    (hv : Typed (envOf true Rfc1813.spec) "READDIRPLUS3resok" v) :
    ∃ xs' v', Runs Rfc1813.prog (i "READDIRPLUS3resok") (makeReader b) v xs' v' := by
  obtain ⟨xs', v', h, _⟩ := C18_total Rfc1813.gen Rfc1813.supp hv (makeReader b)
  exact ⟨xs', v', h⟩

-- which is a non-empty claim: the type has a zero value
example : ∃ z, Rfc1813.prog.zeroNamed (i "READDIRPLUS3resok") = some z ∧
    Typed (envOf true Rfc1813.spec) "READDIRPLUS3resok" z := by
  obtain ⟨z, h1, h2, _⟩ := zero_fresh (n := "READDIRPLUS3resok") Rfc1813.gen Rfc1813.supp (by decide +kernel)
  exact ⟨z, h1, h2⟩

end Verif.Props
