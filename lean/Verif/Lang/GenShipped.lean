/-
The packages that come with the project have what the generator prints: rfc1057, and rfc1813 (Verif.Lang.Gen1813).
-/
import Verif.Lang.GenLink
import Verif.Lang.Facts
import Verif.Inst.Shipped

namespace Verif.Lang.Text

theorem isText_of {g : Gen.GoProg} {q : Pkg} (h0 : ["xdr"].map (fun x => q.imports.contains x) = [true])
    (h1 : g.consts.map (fun c => q.consts.lookup c.name) = g.consts.map fun c => some (if c.ty = "" then none else some (.name c.ty), valE c.val))
    (h2 : g.types.map (fun p => q.types.lookup p.1) = g.types.map fun p => some (tyG p.2))
    (h3 : g.methods.map (fun p => q.meths.lookup (p.1, "Xdr")) = g.methods.map fun p => some (methG p.1 (stmtsG p.2)))
    (h4 : ["nil", "true", "false"].map (fun x => (q.consts.lookup x).isNone) = [true, true, true]) : IsText g q where
  imp := by simpa using h0
  consts := List.map_inj_left.mp h1
  types n t h := List.map_inj_left.mp h2 (n, t) h
  meths n b h := List.map_inj_left.mp h3 (n, b) h
  pre := by simpa using h4

theorem rfc1057_text : IsText Inst.Rfc1057.prog rpcPkg :=
  isText_of (by kernel_rfl) (by kernel_rfl) (by kernel_rfl) (by kernel_rfl) (by kernel_rfl)

end Verif.Lang.Text
