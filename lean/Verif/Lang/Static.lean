/-
Conversions that follow from the types of local variables.

A value of Verif.Lang.Sem knows its type only if it is a structure, so that `x.m(…)` and an interface made of `&x` have
no meaning there when `x` is of a named type that is not a structure (`type Uint32 uint32`).  Go takes the type from the
declaration `var x T`: `x.m(…)` stands for `(&x).m(…)` if `m` is a method of `*T`, and the interface value made of `&x`
is of type `*T`.  Here both are written with a conversion, `(*T)(&x)`, which changes nothing in Go.

The same goes for method values: in `x.m`, where `x` was made by `x := &T{…}` and `m` is a method of `*T`, the type is written
(`Expr.mval`).

Only what generated code has is treated: statements of the body of a function, not those inside of them; calls of
methods that are a statement, and what is returned (for method values: the fields of the elements of a slice).
-/
import Verif.Lang.GenLink

namespace Verif.Lang.Text

/-- Predeclared types. -/
def predeclared : List String := ["int", "uint32", "int32", "uint64", "int64", "bool", "string", "error"]

/-- A type declared in the package. -/
def declared (q : Pkg) (t : String) : Bool := !predeclared.contains t && (q.types.lookup t).isSome

/-- A method of `*t`. -/
def ptrMeth (q : Pkg) (t m : String) : Bool :=
  match q.meths.lookup (t, m) with
  | some ⟨some (_, .ptr _), _, _, _, _⟩ => true
  | _ => false

/-- `(*t)(&x)` -/
def addrE (t x : String) : Expr := .call (.un "*" (.id t)) [.un "&" (.id x)] false

/-- The variables declared so far, with their types. -/
abbrev Vars := List (String × String)

/-- `&x` as a value of its own. -/
def typedE (Γ : Vars) (e : Expr) : Expr :=
  match e with
  | .un op (.id x) =>
    match op == "&", Γ.lookup x with
    | true, some t => addrE t x
    | _, _ => e
  | e => e

/-- `x.m(…)` -/
def typedC (q : Pkg) (Γ : Vars) (e : Expr) : Expr :=
  match e with
  | .call (.sel (.id x) m) as sp =>
    match Γ.lookup x with
    | some t => if ptrMeth q t m then .call (.sel (addrE t x) m) as sp else e
    | none => e
  | e => e

/-- One statement, and the variables after it. -/
def typedS (q : Pkg) (Γ : Vars) (s : Stmt) : Vars × Stmt :=
  match s with
  | .var [x] (.name t) => (if declared q t then (x, t) :: Γ else Γ, s)
  | .expr e => (Γ, .expr (typedC q Γ e))
  | .ret es => (Γ, .ret (es.map (typedE Γ)))
  | s => (Γ, s)

/-- The body of a function. -/
def typedB (q : Pkg) : Vars → List Stmt → List Stmt
  | _, [] => []
  | Γ, s :: b => (typedS q Γ s).2 :: typedB q (typedS q Γ s).1 b

/-- `x.m` as a value. -/
def bindV (q : Pkg) (Γ : Vars) (e : Expr) : Expr :=
  match e with
  | .sel (.id x) m =>
    match Γ.lookup x with
    | some t => if ptrMeth q t m then .mval t (.id x) m else e
    | none => e
  | e => e

/-- An element of a slice. -/
def bindL (q : Pkg) (Γ : Vars) (e : Expr) : Expr :=
  match e with
  | .lit t fs es => .lit t fs (es.map (bindV q Γ))
  | e => e

/-- A slice. -/
def bindR (q : Pkg) (Γ : Vars) (e : Expr) : Expr :=
  match e with
  | .lit (.slice t) fs es => .lit (.slice t) fs (es.map (bindL q Γ))
  | e => e

/-- One statement, and the pointers `x := &T{…}` after it. -/
def bindS (q : Pkg) (Γ : Vars) (s : Stmt) : Vars × Stmt :=
  match s with
  | .define [x] [.un op (.lit (.name t) _ _)] => (if op = "&" then (x, t) :: Γ else Γ, s)
  | .ret es => (Γ, .ret (es.map (bindR q Γ)))
  | s => (Γ, s)

/-- The body of a function. -/
def bindB (q : Pkg) : Vars → List Stmt → List Stmt
  | _, [] => []
  | Γ, s :: b => (bindS q Γ s).2 :: bindB q (bindS q Γ s).1 b

def typedF (q : Pkg) (f : Func) : Func := { f with body := bindB q [] (typedB q [] f.body) }

/-- The package with the conversions written. -/
def typedPkg (q : Pkg) : Pkg :=
  { q with funcs := q.funcs.map fun p => (p.1, typedF q p.2), meths := q.meths.map fun p => (p.1, typedF q p.2) }

/-! ### The methods `Xdr` need none -/

theorem typedE_nil (e : Expr) : typedE [] e = e := by
  cases e <;> try rfl
  rename_i op e
  cases e <;> try rfl
  rename_i x
  simp only [typedE, List.lookup_nil]
  split <;> first | rfl | (rename_i h; cases h)

theorem typedC_nil (q : Pkg) (e : Expr) : typedC q [] e = e := by
  cases e <;> try rfl
  rename_i f as sp
  cases f <;> try rfl
  rename_i e m
  cases e <;> rfl

theorem typedS_stmtG (q : Pkg) (s : Gen.Stmt) : typedS q [] (stmtG s) = ([], stmtG s) := by
  cases s <;> simp only [stmtG, xdrE, typedS, typedC_nil]
  · rw [if_neg]; simp [declared, predeclared]
  · rw [if_neg]; simp [declared, predeclared]

theorem typedB_stmtsG (q : Pkg) : ∀ b : Gen.Stmts, typedB q [] (stmtsG b) = stmtsG b
  | .nil => by rw [stmtsG]; rfl
  | .cons s b => by rw [stmtsG, typedB, typedS_stmtG, typedB_stmtsG q b]

theorem bindV_nil (q : Pkg) (e : Expr) : bindV q [] e = e := by
  cases e <;> try rfl
  rename_i e f
  cases e <;> rfl

theorem bindL_nil (q : Pkg) (e : Expr) : bindL q [] e = e := by
  cases e <;> try rfl
  rename_i t fs es
  rw [bindL, funext (bindV_nil q), List.map_id']

theorem bindR_nil (q : Pkg) (e : Expr) : bindR q [] e = e := by
  cases e <;> try rfl
  rename_i t fs es
  cases t <;> try rfl
  rw [bindR, funext (bindL_nil q), List.map_id']

/-- A statement that makes no pointers. -/
def plainS : Stmt → Bool
  | .define [_] [.un _ (.lit _ _ _)] => false
  | _ => true

theorem bindS_nil (q : Pkg) {s : Stmt} (h : plainS s = true) : bindS q [] s = ([], s) := by
  unfold bindS
  split
  · cases h
  · rw [funext (bindR_nil q), List.map_id']
  · rfl

theorem bindB_nil (q : Pkg) : ∀ {b : List Stmt}, (∀ s ∈ b, plainS s = true) → bindB q [] b = b
  | [], _ => rfl
  | s :: b, h => by rw [bindB, bindS_nil q (h s (by simp)), bindB_nil q fun s hs => h s (by simp [hs])]

theorem plainS_stmtG (s : Gen.Stmt) : plainS (stmtG s) = true := by
  cases s <;> simp only [stmtG, xdrE, xsE] <;> rfl

theorem plainS_stmtsG : ∀ b : Gen.Stmts, ∀ s ∈ stmtsG b, plainS s = true
  | .nil, s, h => by rw [stmtsG] at h; cases h
  | .cons a b, s, h => by
    rw [stmtsG] at h
    rcases List.mem_cons.mp h with rfl | h
    · exact plainS_stmtG a
    · exact plainS_stmtsG b s h

theorem lookup_map {α β γ : Type} [BEq α] (f : β → γ) (a : α) : ∀ l : List (α × β), (l.map fun p => (p.1, f p.2)).lookup a = (l.lookup a).map f
  | [] => rfl
  | (b, c) :: l => by
    simp only [List.map_cons, List.lookup_cons]
    split
    · rfl
    · exact lookup_map f a l

theorem typed_meth {q : Pkg} {k : String × String} {f : Func} (h : q.meths.lookup k = some f) : (typedPkg q).meths.lookup k = some (typedF q f) := by
  simp only [typedPkg]
  rw [lookup_map, h]
  rfl

theorem IsText.typed {g : Gen.GoProg} {q : Pkg} (T : IsText g q) : IsText g (typedPkg q) where
  imp := T.imp
  consts := T.consts
  types := T.types
  meths n b h := by
    rw [typed_meth (T.meths n b h), typedF, methG, typedB_stmtsG, bindB_nil q (plainS_stmtsG b)]
  pre := T.pre

theorem ptrMeth_xdr {g : Gen.GoProg} {q : Pkg} (T : IsText g q) {n : String} {b : Gen.Stmts} (h : (n, b) ∈ g.methods) : ptrMeth q n "Xdr" = true := by
  rw [ptrMeth, T.meths n b h]
  rfl

end Verif.Lang.Text
