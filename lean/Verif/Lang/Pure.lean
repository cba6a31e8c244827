/-
The part of the language without pointers: variables are values, memory is only read.  Programs that stay
within it (the generator, out.go) can be run by computing; Verif.Lang.PureSim proves that this gives what
Verif.Lang.Sem gives.  `stuck` says nothing about the program.
-/
import Verif.Lang.Sem

namespace Verif.Lang

/-- Computations that may print. -/
def PM (W α : Type) := W → Except Stop (α × W)

namespace PM
variable {W α β : Type}
def pure (a : α) : PM W α := fun w => .ok (a, w)
def bind (m : PM W α) (f : α → PM W β) : PM W β := fun w =>
  match m w with
  | .ok (a, w) => f a w
  | .error e => .error e
end PM

section
variable {W : Type}

instance : Monad (PM W) where
  pure := PM.pure
  bind := PM.bind

def pstop {α : Type} (e : Stop) : PM W α := fun _ => .error e

def psome {α : Type} : Option α → PM W α
  | some a => pure a
  | none => pstop .stuck

/-- Variables and their values, by scopes. -/
abbrev VEnv := List (List (String × V))

def VEnv.find (ρ : VEnv) (x : String) : Option V := ρ.findSome? fun s => s.lookup x

/-- The scope with the variable `x` changed. -/
def setScope (x : String) (v : V) : List (String × V) → Option (List (String × V))
  | [] => none
  | (y, w) :: s => if x = y then some ((y, v) :: s) else (setScope x v s).map ((y, w) :: ·)

def VEnv.set (x : String) (v : V) : VEnv → Option VEnv
  | [] => none
  | s :: ρ =>
    match setScope x v s with
    | some s => some (s :: ρ)
    | none => (VEnv.set x v ρ).map (s :: ·)

/-- What the meaning depends on. -/
structure PSem (W : Type) where
  prog : Prog
  call : FKey → List V → PM W (List V)
  ext : String → List V → PM W (List V)
  /-- the memory, of which the cells below `bound` are not written -/
  heap : Nat → V
  bound : Nat

def pone : List V → PM W V
  | [v] => pure v
  | _ => pstop .stuck

def plen : V → PM W V
  | .nil => pure (.int 0)
  | .slice s => pure (.int s.len)
  | .str s => pure (.int s.length)
  | _ => pstop .stuck

def pbuiltin (f : String) (args : List V) : PM W (List V) :=
  if f = "len" then
    match args with
    | [v] => do pure [← plen v]
    | _ => pstop .stuck
  else if f = "panic" then pstop .panic
  else pstop .stuck

def pslice (v : V) (lo hi : Option Nat) : PM W V :=
  match v with
  | .str s =>
    if lo.getD 0 ≤ hi.getD s.length ∧ hi.getD s.length ≤ s.length then
      pure (.str ((s.drop (lo.getD 0)).take (hi.getD s.length - lo.getD 0)))
    else pstop .panic
  | _ => pstop .stuck

def pnat : V → PM W Nat
  | .int n => if 0 ≤ n then pure n.toNat else pstop .panic
  | .const n => if 0 ≤ n then pure n.toNat else pstop .panic
  | _ => pstop .stuck

/-- The elements of a slice. -/
def pelems (S : PSem W) : V → PM W (List V)
  | .nil => pure []
  | .slice s =>
    if s.base.id < S.bound then
      match (S.heap s.base.id).at s.base.path with
      | some (.vals l) => pure ((l.drop s.off).take s.len)
      | _ => pstop .stuck
    else pstop .stuck
  | _ => pstop .stuck

def pcallPkg (S : PSem W) (q f : String) (args : List V) : PM W (List V) :=
  if q = "fmt" ∧ f = "Sprintf" then
    match args with
    | .str s :: vs => do pure [.str (← psome (sprintf s vs))]
    | _ => pstop .stuck
  else if q = "strings" ∧ f = "ToUpper" then
    match args with
    | [.str s] => if s.all (· < 128) then pure [.str (s.map upper)] else pstop .stuck
    | _ => pstop .stuck
  else if q = "errors" ∨ f = "Errorf" then pstop .stuck
  else if (S.prog.pkg q).isNone then S.ext (q ++ "." ++ f) args
  else pstop .stuck

def pcallMeth (S : PSem W) (recv : V) (m : String) (args : List V) : PM W (List V) :=
  match recv with
  | .struct T _ => if byValue S.prog T m then S.call (.meth T m) (recv :: args) else pstop .stuck
  | _ => pstop .stuck

def ppkgName (P : Prog) (p : String) (ρ : VEnv) : Expr → Option String
  | .id x =>
    match ρ.find x with
    | some _ => none
    | none => if isImport P p x then some x else none
  | _ => none

def pevalId (S : PSem W) (p : String) (ρ : VEnv) (x : String) : PM W V :=
  match ρ.find x with
  | some v => pure v
  | none =>
    match S.prog.const p x with
    | some v => pure v
    | none =>
      if x = "nil" then pure .nil
      else if x = "true" then pure (.bool true)
      else if x = "false" then pure (.bool false)
      else if isVar S.prog p x then pure (.glob (p ++ "." ++ x))
      else pstop .stuck

def pmember (S : PSem W) (q x : String) : PM W V :=
  if q = "math" then pstop .stuck
  else
    match S.prog.const q x with
    | some v => pure v
    | none => pure (.glob (q ++ "." ++ x))

def pderef (S : PSem W) : V → PM W V
  | .glob x => do S.ext "*" [.glob x] >>= pone
  | _ => pstop .stuck

def pfield (v : V) (f : String) : PM W V :=
  match v with
  | .struct T fs => psome ((V.struct T fs).field f)
  | _ => pstop .stuck

def pbool : V → PM W Bool
  | .bool b => pure b
  | _ => pstop .stuck

mutual
def peval (S : PSem W) (p : String) (ρ : VEnv) : Expr → PM W (List V)
  | .id x => do pure [← pevalId S p ρ x]
  | .int n => pure [.const n]
  | .str s => pure [.str (strBytes s)]
  | .sel e f =>
    match ppkgName S.prog p ρ e with
    | some q => do pure [← pmember S q f]
    | none => do
      let v ← (peval S p ρ e >>= pone)
      pure [← pfield v f]
  | .slc e lo hi none => do
    let v ← (peval S p ρ e >>= pone)
    match v with
    | .str s => do
      let lo ← pbound S p ρ lo
      let hi ← pbound S p ρ hi
      pure [← pslice (.str s) lo hi]
    | _ => pstop .stuck
  | .call (.id f) args _ =>
    match ρ.find f with
    | some _ => pstop .stuck
    | none =>
      if f = "make" then pstop .stuck
      else if f = "new" then pstop .stuck
      else do
        let vs ← pargs S p ρ args
        if builtins.contains f then pbuiltin f vs
        else if isType S.prog p f then pstop .stuck
        else S.call (.fn p f) vs
  | .call (.sel e m) args _ =>
    if isBE e then pstop .stuck
    else
      match ppkgName S.prog p ρ e with
      | some q => do
        let vs ← pargs S p ρ args
        pcallPkg S q m vs
      | none => do
        let v ← (peval S p ρ e >>= pone)
        match v with
        | .struct T fs =>
          if byValue S.prog T m then do
            let vs ← pargs S p ρ args
            S.call (.meth T m) (.struct T fs :: vs)
          else pstop .stuck
        | _ => pstop .stuck
  | .un op e =>
    if op = "*" then do
      let v ← (peval S p ρ e >>= pone)
      pure [← pderef S v]
    else if op = "!" then do
      let v ← (peval S p ρ e >>= pone)
      let b ← pbool v
      pure [.bool (!b)]
    else pstop .stuck
  | .bin op a b =>
    if op = "&&" then pstop .stuck
    else if op = "||" then pstop .stuck
    else do
      let x ← (peval S p ρ a >>= pone)
      let y ← (peval S p ρ b >>= pone)
      pure [← psome (binop op x y)]
  | .lit (.name n) fs es => do
    let z ← psome (S.prog.zero p (.name n))
    let vs ← pargs S p ρ es
    pure [← psome (setFields (fieldNames fs z) vs z)]
  | _ => pstop .stuck

def pargs (S : PSem W) (p : String) (ρ : VEnv) : List Expr → PM W (List V)
  | [] => pure []
  | e :: es => do
    let v ← (peval S p ρ e >>= pone)
    let vs ← pargs S p ρ es
    pure (v :: vs)

def pbound (S : PSem W) (p : String) (ρ : VEnv) : Option Expr → PM W (Option Nat)
  | none => pure none
  | some e => do
    let v ← (peval S p ρ e >>= pone)
    pure (some (← pnat v))
end

def pdeclare (x : String) (v : V) (ρ : VEnv) : PM W VEnv :=
  match ρ with
  | s :: ρ => pure (((x, v) :: s) :: ρ)
  | [] => pstop .stuck

def pdefine (x : String) (v : V) (ρ : VEnv) : PM W VEnv :=
  if x = "_" then pure ρ
  else
    match (ρ.headD []).lookup x with
    | some _ => pstop .stuck
    | none => pdeclare x (coerce (.int 0) v) ρ

def passign (x : String) (v : V) (ρ : VEnv) : PM W VEnv := do
  if x = "_" then pure ρ
  else do
    let old ← psome (ρ.find x)
    psome (VEnv.set x (coerce old v) ρ)

def prange (f : Nat → V → VEnv → PM W (VEnv × Ctl)) : Nat → List V → VEnv → PM W (VEnv × Ctl)
  | _, [], ρ => pure (ρ, .next)
  | i, v :: vs, ρ => do
    let r ← f i v ρ
    match r.2 with
    | .next => prange f (i + 1) vs r.1
    | c => pure (r.1, c)

def panyCase (S : PSem W) (p : String) (ρ : VEnv) (v : V) : List Expr → PM W Bool
  | [] => pure false
  | e :: es => do
    let w ← (peval S p ρ e >>= pone)
    let b ← (psome (binop "==" v w) >>= pbool)
    if b then pure true else panyCase S p ρ v es

def pchoose (S : PSem W) (p : String) (ρ : VEnv) (v : V) : Nat → Option Nat → List (List Expr) → PM W (Option Nat)
  | _, d, [] => pure d
  | i, _, [] :: cs => pchoose S p ρ v (i + 1) (some i) cs
  | i, d, (e :: es) :: cs => do
    if ← panyCase S p ρ v (e :: es) then pure (some i)
    else pchoose S p ρ v (i + 1) d cs

/-- The scopes outside the innermost. -/
def outer (r : VEnv × Ctl) : VEnv × Ctl := (r.1.tail, r.2)

/-- The right-hand side of an assignment to one variable, or what is returned. -/
def prhs (S : PSem W) (p : String) (ρ : VEnv) : List Expr → PM W (List V)
  | [e] => peval S p ρ e
  | es => pargs S p ρ es

mutual
def pexec (S : PSem W) (p : String) : Stmt → VEnv → PM W (VEnv × Ctl)
  | .expr e, ρ => do
    let _ ← peval S p ρ e
    pure (ρ, .next)
  | .define [x] [e], ρ => do
    let v ← (peval S p ρ e >>= pone)
    let ρ ← pdefine x v ρ
    pure (ρ, .next)
  | .assign [.id x] [e], ρ => do
    let v ← (peval S p ρ e >>= pone)
    let ρ ← passign x v ρ
    pure (ρ, .next)
  | .var [x] t, ρ => do
    let z ← psome (S.prog.zero p t)
    let ρ ← pdeclare x z ρ
    pure (ρ, .next)
  | .ite c a b, ρ => do
    let v ← (peval S p ρ c >>= pone)
    let t ← pbool v
    if t then do
      let r ← pexecs S p a ([] :: ρ) .next
      pure (outer r)
    else do
      let r ← pexecs S p b ([] :: ρ) .next
      pure (outer r)
  | .range k v e b, ρ => do
    let l ← (peval S p ρ e >>= pone)
    let vs ← pelems S l
    prange (fun i w ρ => do
      let ρ' ← pdefine k (.int i) ([] :: ρ)
      let ρ' ← pdefine v w ρ'
      let r ← pexecs S p b ([] :: ρ') .next
      pure (outer (outer r))) 0 vs ρ
  | .switch e cs bs, ρ => do
    let v ← (peval S p ρ e >>= pone)
    match ← pchoose S p ρ v 0 none cs with
    | none => pure (ρ, .next)
    | some i => pexecNth S p bs i ρ
  | .tswitch x e cs bs, ρ => do
    let v ← (peval S p ρ e >>= pone)
    match ← psome (chooseT p v 0 none cs) with
    | none => pure (ρ, .next)
    | some i =>
      if x = "" then pexecNth S p bs i ρ
      else do
        let r ← pexecNth S p bs i ([(x, v)] :: ρ)
        pure (outer r)
  | .ret es, ρ => do
    let vs ← prhs S p ρ es
    pure (ρ, .ret vs)
  | .block b, ρ => do
    let r ← pexecs S p b ([] :: ρ) .next
    pure (outer r)
  | _, _ => pstop .stuck

def pexecs (S : PSem W) (p : String) : List Stmt → VEnv → Ctl → PM W (VEnv × Ctl)
  | [], ρ, c => pure (ρ, c)
  | s :: b, ρ, .next => do
    let r ← pexec S p s ρ
    pexecs S p b r.1 r.2
  | _ :: b, ρ, .ret vs => pexecs S p b ρ (.ret vs)
  | _ :: _, _, .goto _ => pstop .stuck

def pexecNth (S : PSem W) (p : String) : List (List Stmt) → Nat → VEnv → PM W (VEnv × Ctl)
  | [], _, _ => pstop .stuck
  | b :: _, 0, ρ => do
    let r ← pexecs S p b ([] :: ρ) .next
    pure (outer r)
  | _ :: bs, i + 1, ρ => pexecNth S p bs i ρ
end

def pbindParams (P : Prog) (p : String) : List (String × Ty) → List V → VEnv → PM W VEnv
  | [], [], ρ => pure ρ
  | (x, t) :: ps, v :: vs, ρ => do
    let z ← psome (P.zero p t)
    let ρ ← pdeclare x (coerce z v) ρ
    pbindParams P p ps vs ρ
  | _, _, _ => pstop .stuck

def presults (P : Prog) (p : String) : List (String × Ty) → List V → PM W (List V)
  | [], [] => pure []
  | (_, t) :: rs, v :: vs => do
    let z ← psome (P.zero p t)
    let vs ← presults P p rs vs
    pure (coerce z v :: vs)
  | _, _ => pstop .stuck

def pfinish (P : Prog) (p : String) (f : Func) (c : Ctl) : PM W (List V) :=
  match c with
  | .ret [] => pstop .stuck
  | .ret vs => presults P p f.results vs
  | .next => if f.results.isEmpty then pure [] else pstop .stuck
  | .goto _ => pstop .stuck

def pcallFunc (S : PSem W) (p : String) (f : Func) (args : List V) : PM W (List V) :=
  if f.results.all (·.1 == "") then do
    let ρ ← pbindParams S.prog p f.args args [[]]
    let r ← pexecs S p f.body ρ .next
    pfinish S.prog p f r.2
  else pstop .stuck

/-- What is outside the program and what it reads of the memory. -/
structure PExt (W : Type) where
  ext : String → List V → PM W (List V)
  heap : Nat → V
  bound : Nat

def pcallN (P : Prog) (E : PExt W) : Nat → FKey → List V → PM W (List V)
  | 0, _, _ => pstop .fuel
  | k + 1, key, args =>
    match P.find key with
    | some (p, f) => pcallFunc ⟨P, pcallN P E k, E.ext, E.heap, E.bound⟩ p f args
    | none => pstop .stuck

end
end Verif.Lang
