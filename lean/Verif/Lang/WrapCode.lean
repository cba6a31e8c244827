/-
The wrapper methods and the registration functions that the generator prints (Verif.Gen.Prog) in the abstract syntax of
Verif.Lang.Syntax.
-/
import Verif.Lang.GenCode
import Verif.Gen.Prog

namespace Verif.Lang.Text

/-- One statement of a wrapper (out.go:403-429). -/
def wstmtG : Gen.WStmt → Stmt
  | .varIn t => .var ["in"] (tyG t)
  | .inXdr => .expr (.call (.sel (.id "in") "Xdr") [.id "args"] false)
  | .setErr => .assign [.id "err"] [.call (.sel (.id "args") "Error") [] false]
  | .retIfErr => .ite (.bin "!=" (.id "err") (.id "nil")) [.ret []] []
  | .varOut t => .var ["out"] (tyG t)
  | .varOutVoid => .var ["out"] (.qual "xdr" "Void")
  | .callH m true a => .assign [.id "out"] [.call (.sel (.sel (.id "w") "h") m) (if a then [.id "in"] else []) false]
  | .callH m false a => .expr (.call (.sel (.sel (.id "w") "h") m) (if a then [.id "in"] else []) false)
  | .retOut => .ret [.un "&" (.id "out"), .id "nil"]

/-- A wrapper (out.go:399-429). -/
def wrapF (recv name : String) (body : List Stmt) : Func :=
  ⟨some ("w", .ptr (.name recv)), name, [("args", .ptr (.qual "xdr" "XdrState"))],
    [("res", .qual "xdr" "Xdrable"), ("err", .name "error")], body⟩

def wrapG (w : Gen.GoWrapper) : Func := wrapF w.recv w.name (w.body.map wstmtG)

/-- `xdr.ProcRegistration` -/
def regT : Ty := .qual "xdr" "ProcRegistration"

/-- One registration (out.go:432-437); `m` is the method value. -/
def regE (r : Gen.GoReg) (m : Expr) : Expr :=
  .lit regT ["Prog", "Vers", "Proc", "Handler"] [.id r.prog, .id r.vers, .id r.proc, m]

/-- `w := &wrapper{h}` (out.go:429) -/
def regsW (wrapper : String) : Stmt := .define ["w"] [.un "&" (.lit (.name wrapper) [""] [.id "h"])]

/-- A registration function (out.go:428-440). -/
def regsF (name param : String) (body : List Stmt) : Func :=
  ⟨none, name, [("h", .name param)], [("", .slice regT)], body⟩

def regsG (v : Gen.GoVers) : Func :=
  regsF v.regsName v.regsParam [regsW v.regsWrapper,
    .ret [.lit (.slice regT) (v.regs.map fun _ => "") (v.regs.map fun r => regE r (.sel (.id "w") r.handler))]]

/-- The package has the interfaces, wrappers and registration functions of these versions. -/
structure HasVers (vs : List Gen.GoVers) (q : Pkg) : Prop where
  iface : ∀ v ∈ vs, q.types.lookup v.iface = some .iface
  wrapper : ∀ v ∈ vs, v.wrapperType ≠ "" → q.types.lookup v.wrapperType = some (.struct [("h", .name v.wrapperField)])
  wraps : ∀ v ∈ vs, ∀ w ∈ v.wrappers, q.meths.lookup (w.recv, w.name) = some (wrapG w)
  regs : ∀ v ∈ vs, q.funcs.lookup v.regsName = some (regsG v)

end Verif.Lang.Text
