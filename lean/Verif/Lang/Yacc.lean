/-
Reading xdr.y: its rules, and what goyacc makes of its declarations and actions.

goyacc writes a Go file with the type `xdrSymType` of values (one field for each line of `%union`), a constant for each
token, and the actions as clauses of one large switch, in which `$$` and `$1`, `$2`, … are replaced by the fields, that the
symbols' tags select, of `xdrVAL` and of the entries of a stack.  Here each action is a function of its own, whose
parameters are the values of the tagged symbols of the right-hand side, and whose result is what is assigned to `$$`.
The automaton is not modelled: that it runs the actions of a derivation, in the order of the derivation, is trusted.
-/
import Verif.Lang.Lex
import Verif.Lang.Syntax

namespace Verif.Lang
open Verif.Text (Text isLetter isDigit)

inductive YTok where
  | word (s : Text)
  | chr (c : Nat)                -- 'c'
  | dir (s : Text)               -- %s
  | marks                        -- %%
  | op (c : Nat)
  | code (s : Text)              -- { s }
  deriving DecidableEq, Repr

/-- Up to the brace that closes, and the rest. -/
def bracesY : Nat → Text → Option (Text × Text)
  | _, [] => none
  | d, c :: t =>
    if Nat.beq c 123 then (bracesY (d + 1) t).map fun (a, b) => (c :: a, b)
    else if Nat.beq c 125 then
      match d with
      | 0 => some ([], t)
      | d + 1 => (bracesY d t).map fun (a, b) => (c :: a, b)
    else (bracesY d t).map fun (a, b) => (c :: a, b)

/-- After `%}`. -/
def skipCodeY : Text → Text
  | 37 :: 125 :: t => t
  | _ :: t => skipCodeY t
  | [] => []

def lexY : Nat → Text → Option (List YTok)
  | 0, _ => none
  | _ + 1, [] => some []
  | n + 1, c :: t =>
    if Nat.beq c 32 || Nat.beq c 9 || Nat.beq c 10 then lexY n t
    else if isLetter c then
      let (w, r) := spanWord (c :: t)
      (lexY n r).map (.word w :: ·)
    else if Nat.beq c 37 then
      match t with
      | 37 :: r => (lexY n r).map (.marks :: ·)
      | 123 :: r => lexY n (skipCodeY r)
      | t =>
        let (w, r) := spanWord t
        (lexY n r).map (.dir w :: ·)
    else if Nat.beq c 39 then
      match t with
      | d :: 39 :: r => (lexY n r).map (.chr d :: ·)
      | _ => none
    else if Nat.beq c 123 then
      match bracesY 0 t with
      | some (s, r) => (lexY n r).map (.code s :: ·)
      | none => none
    else (lexY n t).map (.op c :: ·)

/-- A rule: the symbols (a character token with its quotes) and the action. -/
structure YRule where
  lhs : Text
  rhs : List Text
  act : Option Text
  deriving DecidableEq, Repr

structure Yacc where
  union : Text
  tokens : List Text
  tags : List (Text × Text)
  rules : List YRule
  deriving DecidableEq, Repr

def YTok.sym : YTok → Option Text
  | .word w => some w
  | .chr c => some [39, c, 39]
  | _ => none

/-- The symbols at the front. -/
def symsY : List YTok → List Text × List YTok
  | [] => ([], [])
  | t :: ts =>
    match t.sym with
    | some s => let (a, b) := symsY ts; (s :: a, b)
    | none => ([], t :: ts)

/-- The tag at the front. -/
def tagY : List YTok → Option Text × List YTok
  | .op 60 :: .word f :: .op 62 :: ts => (some f, ts)
  | ts => (none, ts)

/-- The declarations (before the first `%%`). -/
def declsY : Nat → List YTok → Option (Yacc × List YTok)
  | 0, _ => none
  | _ + 1, .marks :: ts => some (⟨[], [], [], []⟩, ts)
  | n + 1, .dir d :: ts =>
    if d == t!"union" then
      match ts with
      | .code s :: ts => (declsY n ts).map fun (y, r) => ({ y with union := s }, r)
      | _ => none
    else
      let (f, ts) := tagY ts
      let (l, ts) := symsY ts
      let tags := match f with | some f => l.map fun s => (s, f) | none => []
      if d == t!"token" then
        (declsY n ts).map fun (y, r) => ({ y with tokens := l ++ y.tokens, tags := tags ++ y.tags }, r)
      else if d == t!"type" then
        (declsY n ts).map fun (y, r) => ({ y with tags := tags ++ y.tags }, r)
      else none
  | _, _ => none

/-- The rules: we are behind the symbols `acc` of a rule for `lhs`. -/
def rulesY : Nat → Text → List Text → List YTok → Option (List YRule)
  | 0, _, _, _ => none
  | n + 1, lhs, acc, ts =>
    match ts with
    | [] => some [⟨lhs, acc, none⟩]
    | .marks :: _ => some [⟨lhs, acc, none⟩]
    | .op 124 :: ts => (rulesY n lhs [] ts).map (⟨lhs, acc, none⟩ :: ·)
    | .word w :: .op 58 :: ts => (rulesY n w [] ts).map (⟨lhs, acc, none⟩ :: ·)
    | .word w :: ts => rulesY n lhs (acc ++ [w]) ts
    | .chr c :: ts => rulesY n lhs (acc ++ [[39, c, 39]]) ts
    | .code a :: ts =>
      match ts with
      | [] => some [⟨lhs, acc, some a⟩]
      | .marks :: _ => some [⟨lhs, acc, some a⟩]
      | .op 124 :: ts => (rulesY n lhs [] ts).map (⟨lhs, acc, some a⟩ :: ·)
      | .word w :: .op 58 :: ts => (rulesY n w [] ts).map (⟨lhs, acc, some a⟩ :: ·)
      | _ => none
    | _ => none

def readYacc (t : Text) : Option Yacc := do
  let ts ← lexY (t.length + 1) t
  let (y, ts) ← declsY (ts.length + 1) ts
  match ts with
  | .word w :: .op 58 :: ts => do
    let r ← rulesY (ts.length + 1) w [] ts
    pure { y with rules := r }
  | _ => none

/-! ### What goyacc writes -/

def dropSpaceY : Text → Text
  | 32 :: t => dropSpaceY t
  | 9 :: t => dropSpaceY t
  | 10 :: t => dropSpaceY t
  | t => t

/-- Up to a semicolon. -/
def upToY : Text → Text × Text
  | [] => ([], [])
  | 59 :: t => ([], t)
  | c :: t => let (a, b) := upToY t; (c :: a, b)

/-- The fields of the union and their types. -/
def fieldsY : Nat → Text → List (Text × Text)
  | 0, _ => []
  | n + 1, t =>
    let (w, r) := spanWord (dropSpaceY t)
    if w.isEmpty then []
    else
      let (ty, r) := upToY (dropSpaceY r)
      (w, ty) :: fieldsY n r

def decDigitsY : Nat → Nat → Text
  | 0, _ => []
  | n + 1, k => (if k < 10 then [] else decDigitsY n (k / 10)) ++ [48 + k % 10]

def decY (k : Nat) : Text := decDigitsY (k + 1) k

/-- Values of the symbols in an action. -/
def substY : Text → Text
  | 36 :: 36 :: t => t!"xdrVAL" ++ substY t
  | 36 :: t => t!"xdrD" ++ substY t
  | c :: t => c :: substY t
  | [] => []

/-- The body of an action: `$$ = e` gives the value `e`. -/
def actY (a : Text) : Text :=
  match dropPrefix t!"$$ =" (dropSpaceY a) with
  | some r => t!" return" ++ substY r
  | none => t!" " ++ substY (dropSpaceY a)

/-- The type of a symbol's value. -/
def Yacc.typeOf (y : Yacc) (fs : List (Text × Text)) (s : Text) : Option Text := do fs.lookup (← y.tags.lookup s)

/-- The parameters, from the `i`th symbol on. -/
def paramsY (ty : Text → Option Text) : Nat → List Text → List Text
  | _, [] => []
  | i, s :: ss =>
    match ty s with
    | some t => (t!"xdrD" ++ decY i ++ t!" " ++ t) :: paramsY ty (i + 1) ss
    | none => paramsY ty (i + 1) ss

def joinY : List Text → Text
  | [] => []
  | [a] => a
  | a :: l => a ++ t!", " ++ joinY l

/-- The function of the `k`th rule. -/
def funcY (ty : Text → Option Text) (k : Nat) (r : YRule) : Text :=
  match r.act with
  | none => []
  | some a => t!"func xdrAct" ++ decY k ++ t!"(" ++ joinY (paramsY ty 1 r.rhs) ++ t!") " ++ (ty r.lhs).getD [] ++ t!" {" ++ actY a ++
      t!"}\n"

def constsY : Nat → List Text → Text
  | _, [] => []
  | k, s :: ss =>
    match s with
    | 39 :: _ => constsY k ss
    | s => t!"const " ++ s ++ t!" = " ++ decY k ++ t!"\n" ++ constsY (k + 1) ss

def funcsY (ty : Text → Option Text) : Nat → List YRule → Text
  | _, [] => []
  | k, r :: rs => funcY ty k r ++ funcsY ty (k + 1) rs

/-- The Go file. -/
def Yacc.go (y : Yacc) : Text :=
  let fs := fieldsY y.union.length y.union
  t!"package main\n\ntype xdrSymType struct {\n\tyys int\n" ++ y.union ++ t!"}\n\n" ++ constsY 57346 y.tokens ++
    funcsY (y.typeOf fs) 1 y.rules

/-! ### The grammar -/

structure GRule where
  lhs : String
  rhs : List String
  act : Bool
  deriving DecidableEq, Repr

/-- The rules in order, and the symbols that have a value. -/
structure Grammar where
  rules : List GRule
  tagged : List String
  deriving DecidableEq, Repr

def strT (t : Text) : String := String.ofList (t.map Char.ofNat)

def Yacc.grammar (y : Yacc) : Grammar :=
  ⟨y.rules.map fun r => ⟨strT r.lhs, r.rhs.map strT, r.act.isSome⟩, y.tags.map fun t => strT t.1⟩

end Verif.Lang
