/-
PROPERTY C25, at the level of text: the checked-in files, character for character.
-/
import Verif.Inst.Read1057
import Verif.Inst.Read1813
import Verif.Props.Emission

namespace Verif.Props
open Verif.Gen Verif.Inst Verif.Text

theorem means_pieces {n : Nat} {types code : List (List Text)} {pkg : Ident} {g : GoProg} {vs : List GoVers}
    (h : lowPieces2 n types code = some (codes pkg, g, vs)) :
    Means2 types.flatten.flatten code.flatten.flatten pkg g vs := by
  obtain ⟨f, f', h1, h2, h3, h4, h5⟩ := lowPieces2_eq h
  exact ⟨f, f', h1, fun _ h' => h'.unique h1, h2, fun _ h' => h'.unique h2, h3, h4, h5⟩

/-- The files `types` and `code` are what `go-rpcgen -t types -o code -p pkg -unsigned-enum -const-type uint32`
makes of the file `prot`, up to the layout: the specification is read, the generator prints two texts, and
they and the files declare the same things. -/
def IsOutput (pkg : Ident) (prot types code : Text) : Prop :=
  ∃ s t c g vs, readSpec prot = some s ∧ emitTwo fl pkg s = some (t, c) ∧ generate fl s = some g ∧
    generateVers s = some vs ∧ (∀ t' c', Spells t t' → Spells c c' → Means2 t' c' pkg g vs) ∧
    Means2 types code pkg g vs

theorem isOutput {n : Nat} {prot types code : List (List Text)} {pkg : Ident} {s : Spec} {g : GoProg}
    {vs : List GoVers} (h1 : lexLines prot = some (pSpec s)) (h2 : okSpec s = true)
    (h3 : lowPieces2 n types code = some (codes pkg, g, vs)) (h4 : generate fl s = some g)
    (h5 : generateVers s = some vs) (h6 : rawOk (rawsSpec s) = true) (h7 : flagsOk fl pkg = true) :
    IsOutput pkg prot.flatten.flatten types.flatten.flatten code.flatten.flatten := by
  have hr := read_pieces h1 h2
  obtain ⟨t, c, vs', e1, e2, e3⟩ := C46_two h7 hr h6 h4
  rw [h5] at e2
  cases e2
  exact ⟨s, t, c, g, vs, hr, e1, h4, h5, e3, means_pieces h3⟩

/-- **C25** rfc1057/types.go and rfc1057/xdr.go are the output for rfc1057/prot.x. -/
theorem C25_rfc1057_text : IsOutput "rfc1057" Rfc1057.protText.flatten.flatten
    Rfc1057.typesText.flatten.flatten Rfc1057.codeText.flatten.flatten :=
  isOutput Rfc1057.protRead (by decide +kernel) Rfc1057.codeRead Rfc1057.gen Rfc1057.genVers (by decide +kernel)
    (by decide +kernel)

/-- **C25** rfc1813/types.go and rfc1813/xdr.go are the output for rfc1813/prot.x. -/
theorem C25_rfc1813_text : IsOutput "rfc1813" Rfc1813.protText.flatten.flatten
    Rfc1813.typesText.flatten.flatten Rfc1813.codeText.flatten.flatten :=
  isOutput Rfc1813.protRead (by decide +kernel) Rfc1813.codeRead Rfc1813.gen Rfc1813.genVers (by decide +kernel)
    (by decide +kernel)

end Verif.Props
