/-
The Go that the generator prints (Verif.Gen.Go has it as trees of its own, which are what C12 to C16 are
about) in the abstract syntax of Verif.Lang.Syntax, that is, as Verif.Lang.Parse reads it.  Parentheses leave
no trace.
-/
import Verif.Lang.Sem
import Verif.Gen.Out
namespace Verif.Lang.Text

/-- A constant (out.go prints numbers and names). -/
def valE : Gen.Val → Expr
  | .lit n => .int n
  | .ident s => .id s

mutual
/-- Types (out.go:38-142, 187-341). -/
def tyG : Gen.GoType → Ty
  | .uint32 => .name "uint32"
  | .int32 => .name "int32"
  | .uint64 => .name "uint64"
  | .int64 => .name "int64"
  | .bool => .name "bool"
  | .float32 => .name "float32"
  | .float64 => .name "float64"
  | .string => .name "string"
  | .bytes => .slice (.name "byte")
  | .byteArray (.lit n) => .arr n (.name "byte")
  | .byteArray (.ident c) => .arrc c (.name "byte")
  | .array (.lit n) t => .arr n (tyG t)
  | .array (.ident c) t => .arrc c (tyG t)
  | .slice t => .slice (tyG t)
  | .ptr t => .ptr (tyG t)
  | .struct fs => .struct (fieldsG fs)
  | .named n => .name n
def fieldsG : Gen.GoFields → List (String × Ty)
  | .nil => []
  | .cons n t fs => (n, tyG t) :: fieldsG fs
end

/-- A type as an argument of `new`. -/
def tyE (t : Ty) : Expr :=
  match t with
  | .name n => .id n
  | t => .ty t

/-- Pointer and place expressions. -/
def exG : Gen.Ex → Expr
  | .recv => .id "v"
  | .var x => .id x
  | .addr e => .un "&" (exG e)
  | .deref e => .un "*" (exG e)
  | .field e f => .sel (exG e) f
  | .index e ix => .idx (exG e) (.id ix)

/-- `xdr.F(xs, (*t)(e))`. -/
def xdrE (f t : String) (e : Expr) : Stmt :=
  .expr (.call (.sel (.id "xdr") f) [.id "xs", .call (.un "*" (.id t)) [e] false] false)

/-- `int(max)`, where no maximum is `int(-1)` (out.go:112-117, 128-133). -/
def maxE (m : Option Gen.Val) : Expr :=
  .call (.id "int") [match m with | some v => valE v | none => .un "-" (.int 1)] false

/-- `xs.m(args)`. -/
def xsE (m : String) (args : List Expr) : Expr := .call (.sel (.id "xs") m) args false

mutual
/-- Statements; the comments in Verif.Gen.Go have the text. -/
def stmtG : Gen.Stmt → Stmt
  | .xdrU32 p => xdrE "XdrU32" "uint32" (exG p)
  | .xdrS32 p => xdrE "XdrS32" "int32" (exG p)
  | .xdrU64 p => xdrE "XdrU64" "uint64" (exG p)
  | .xdrS64 p => xdrE "XdrS64" "int64" (exG p)
  | .xdrBool p => xdrE "XdrBool" "bool" (exG p)
  | .xdrArray p =>
    .expr (.call (.sel (.id "xdr") "XdrArray") [.id "xs", .slc (.un "*" (exG p)) none none none] false)
  | .xdrVarArray m p =>
    .expr (.call (.sel (.id "xdr") "XdrVarArray")
      [.id "xs", maxE m, .call (.un "*" (.ty (.slice (.name "byte")))) [exG p] false] false)
  | .xdrString m p =>
    .expr (.call (.sel (.id "xdr") "XdrString")
      [.id "xs", maxE m, .call (.un "*" (.id "string")) [exG p] false] false)
  | .callXdr t p => .expr (.call (.sel (.call (.un "*" (.id t)) [exG p] false) "Xdr") [.id "xs"] false)
  | .block b => .block (stmtsG b)
  | .varU32 x => .var [x] (.name "uint32")
  | .varBool x => .var [x] (.name "bool")
  | .defNotNil x p => .define [x] [.bin "!=" (.un "*" (exG p)) (.id "nil")]
  | .encSetSize x p =>
    .expr (xsE "EncodingSetSize" [.un "&" (.id x), .call (.id "len") [.un "*" (exG p)] false])
  | .ifGt x sz els =>
    .ite (.bin ">" (.id x) (valE sz)) [.expr (xsE "SetError" [.str "array too large"])] (stmtsG els)
  | .ifEncoding b => .ite (xsE "Encoding" []) (stmtsG b) []
  | .ifDecoding b => .ite (xsE "Decoding" []) (stmtsG b) []
  | .ifVar x b => .ite (.id x) (stmtsG b) []
  | .assignMake p t n =>
    .assign [.un "*" (exG p)] [.call (.id "make") [.ty (.slice (tyG t)), .id n] false]
  | .assignNew p t => .assign [.un "*" (exG p)] [.call (.id "new") [tyE (tyG t)] false]
  | .forInt x sz b => .loop (.define [x] [.int 0]) (.bin "<" (.id x) (valE sz)) (.inc (.id x)) (stmtsG b)
  | .forU64 x n b =>
    .loop (.define [x] [.call (.id "uint64") [.int 0] false])
      (.bin "<" (.id x) (.call (.id "uint64") [.id n] false)) (.inc (.id x)) (stmtsG b)
  | .switch e cs => .switch (exG e) (casesG cs).1 (casesG cs).2
def stmtsG : Gen.Stmts → List Stmt
  | .nil => []
  | .cons s b => stmtG s :: stmtsG b
/-- Clauses: one that only falls through is read as a further label of the next. -/
def casesG : Gen.GoCases → List (List Expr) × List (List Stmt)
  | .nil => ([], [])
  | .dflt b => ([[]], [stmtsG b])
  | .cons l b ft cs =>
    if ft then
      match casesG cs with
      | (ls :: cs, bs) => ((valE l :: ls) :: cs, bs)
      | r => r
    else ([valE l] :: (casesG cs).1, stmtsG b :: (casesG cs).2)
end

/-- `func (v *T) Xdr(xs *xdr.XdrState) { … }` (out.go:460-466 and the like). -/
def methG (n : String) (b : List Stmt) : Func :=
  ⟨some ("v", .ptr (.name n)), "Xdr", [("xs", .ptr (.qual "xdr" "XdrState"))], [], b⟩

end Verif.Lang.Text
