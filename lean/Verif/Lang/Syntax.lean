/-
Abstract syntax of the part of Go in which the hand-written files of /repo are written (xdr/lib.go,
xdr/helper.go, xdr/types.go, rfc1057/client.go, rfc1057/server.go, out.go, scan.go) and the generated files
of rfc1057.

Verif.Lang.Lex and Verif.Lang.Parse read the text of such files, Verif.Lang.Sem gives the meaning.
-/
namespace Verif.Lang

/-- Types. -/
inductive Ty where
  | name (s : String)
  | qual (p s : String)                       -- p.s
  | ptr (t : Ty)
  | slice (t : Ty)
  | arr (n : Nat) (t : Ty)
  | arrc (c : String) (t : Ty)                -- [c]t for a constant c
  | map (k v : Ty)
  | func (params results : List (String × Ty))
  | struct (fields : List (String × Ty))
  | iface
  deriving Repr, Inhabited

/-- Expressions; parentheses leave no trace. -/
inductive Expr where
  | id (s : String)
  | int (n : Nat)
  | str (s : String)
  | sel (e : Expr) (f : String)               -- e.f
  | idx (e i : Expr)                          -- e[i]
  | slc (e : Expr) (lo hi max : Option Expr)  -- e[lo:hi:max]
  | call (f : Expr) (args : List Expr) (spread : Bool)  -- f(args), f(args...)
  | un (op : String) (e : Expr)
  | bin (op : String) (a b : Expr)
  | lit (t : Ty) (fs : List String) (es : List Expr)  -- t{f: e, ...}; without keys the fs are ""
  | ty (t : Ty)                               -- a type where an expression is expected
  | assert (e : Expr) (t : Ty)                -- e.(t)
  | mval (T : String) (e : Expr) (m : String) -- the method value e.m for e of type *T; made by Lang/Static only
  deriving Repr, Inhabited

/-- Statements. -/
inductive Stmt where
  | expr (e : Expr)
  | define (xs : List String) (es : List Expr)      -- xs := es
  | assign (ls es : List Expr)                      -- ls = es
  | inc (e : Expr)                                  -- e++
  | var (xs : List String) (t : Ty)                 -- var xs t
  | ite (c : Expr) (a b : List Stmt)
  | forever (b : List Stmt)                         -- for { b }
  | range (k v : String) (e : Expr) (b : List Stmt) -- for k, v := range e { b }
  | loop (init : Stmt) (c : Expr) (post : Stmt) (b : List Stmt)  -- for init; c; post { b }
  | switch (e : Expr) (cs : List (List Expr)) (bs : List (List Stmt))  -- `default` has no expressions
  | tswitch (x : String) (e : Expr) (cs : List (List Ty)) (bs : List (List Stmt))  -- switch x := e.(type); x may be ""
  | ret (es : List Expr)
  | goto (l : String)
  | label (l : String)
  | go (e : Expr)
  | defer (e : Expr)
  | block (b : List Stmt)
  deriving Repr, Inhabited

/-- Functions and methods. -/
structure Func where
  recv : Option (String × Ty)
  name : String
  params : List (String × Ty)
  results : List (String × Ty)
  body : List Stmt
  deriving Repr, Inhabited

/-- Top-level declarations. -/
inductive Top where
  | typ (n : String) (t : Ty)
  | const (n : String) (t : Option Ty) (e : Expr)
  | var (n : String) (t : Ty)
  | init (n : String) (e : Expr)                    -- var n = e
  | func (f : Func)
  deriving Repr, Inhabited

/-- A file: package name, imported paths, declarations. -/
structure File where
  pkg : String
  imports : List String
  decls : List Top
  deriving Repr, Inhabited

end Verif.Lang
