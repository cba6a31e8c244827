/-
A part of the syntax of Go (The Go Programming Language Specification), as much as out.go uses.

A file is described by a tree that records parentheses and the optional semicolons and commas, its tokens
(`gFile`), and conditions under which these tokens are to be read as this tree (`wFile`): operators bind as
the language says, a composite literal does not stand bare in the header of a statement, the semicolon
after a statement is left out only before a closing brace.  Verif.Text.GoParse proves that no tokens are
to be read as two different trees.
-/
import Verif.Text.Scan

namespace Verif.Text

mutual
/-- Expressions and types. -/
inductive GE where
  | id (s : List Nat)
  | int (n : Nat)
  | str (s : List Nat)
  | paren (e : GE)
  | sel (e : GE) (f : List Nat)           -- e.f
  | idx (e i : GE)                        -- e[i]
  | slc (e : GE)                          -- e[:]
  | call (e : GE) (as : GArgs)            -- e(as)
  | lit (t : GE) (es : GElts)             -- t{es}
  | star (e : GE)                         -- *e
  | addr (e : GE)                         -- &e
  | neg (e : GE)                          -- -e
  | bin (o : Op) (a b : GE)               -- a o b
  | slice (t : GE)                        -- []t
  | array (n t : GE)                      -- [n]t
  | struct (fs : GFs)                     -- struct { fs }
/-- Arguments; `nil` after a comma is the optional trailing comma. -/
inductive GArgs where
  | nil
  | last (e : GE)
  | cons (e : GE) (as : GArgs)
/-- Elements of a composite literal, with keys or without. -/
inductive GElts where
  | nil
  | last (e : GE)
  | cons (e : GE) (es : GElts)
  | lastKey (k : List Nat) (e : GE)
  | consKey (k : List Nat) (e : GE) (es : GElts)
/-- Fields; `last` is a field without semicolon. -/
inductive GFs where
  | nil
  | last (f : List Nat) (t : GE)
  | cons (f : List Nat) (t : GE) (fs : GFs)
end

mutual
/-- Statements. -/
inductive GS where
  | expr (e : GE)
  | assign (a b : GE)                               -- a = b
  | define (x : List Nat) (e : GE)                  -- x := e
  | var (x : List Nat) (t : GE)                     -- var x t
  | block (b : GSs)                                 -- { b }
  | ifThen (c : GE) (b : GSs)                       -- if c { b }
  | ifElse (c : GE) (b b' : GSs)                    -- if c { b } else { b' }
  | forInc (x : List Nat) (a c : GE) (y : List Nat) (b : GSs)  -- for x := a; c; y++ { b }
  | switch (e : GE) (cs : GCs)                      -- switch e { cs }
  | ret0                                            -- return
  | ret1 (a : GE)                                   -- return a
  | ret2 (a b : GE)                                 -- return a, b
  | fall                                            -- fallthrough
/-- Statement lists; `last` is a statement without semicolon. -/
inductive GSs where
  | nil
  | last (s : GS)
  | cons (s : GS) (b : GSs)
/-- Clauses of a switch. -/
inductive GCs where
  | nil
  | case (e : GE) (b : GSs) (cs : GCs)              -- case e: b
  | default (b : GSs) (cs : GCs)                    -- default: b
end

/-- Results of a function. -/
inductive GRes where
  | none
  | type (t : GE)
  | named (l : List (List Nat × GE))

/-- A method of an interface: `name(arg) res`, both optional. -/
structure GMeth where
  name : List Nat
  arg : Option GE
  res : Option GE

/-- Declarations. -/
inductive GD where
  | const (n : List Nat) (t : Option GE) (v : GE)   -- const n t = v
  | type (n : List Nat) (t : GE)                    -- type n t
  | iface (n : List Nat) (ms : List GMeth)          -- type n interface { ms }
  | func (recv : Option (List Nat × GE)) (n : List Nat) (ps : List (List Nat × GE)) (res : GRes) (b : GSs)

structure GFile where
  pkg : List Nat
  imports : List (List Nat)
  decls : List GD

/-! ### Tokens -/

def kwStruct : Tok := .kw t!"struct"
def kwVar : Tok := .kw t!"var"
def kwIf : Tok := .kw t!"if"
def kwElse : Tok := .kw t!"else"
def kwFor : Tok := .kw t!"for"
def kwSwitch : Tok := .kw t!"switch"
def kwCase : Tok := .kw t!"case"
def kwDefault : Tok := .kw t!"default"
def kwReturn : Tok := .kw t!"return"
def kwFallthrough : Tok := .kw t!"fallthrough"
def kwConst : Tok := .kw t!"const"
def kwType : Tok := .kw t!"type"
def kwInterface : Tok := .kw t!"interface"
def kwFunc : Tok := .kw t!"func"
def kwPackage : Tok := .kw t!"package"
def kwImport : Tok := .kw t!"import"

mutual
def gE : GE → List Tok
  | .id s => [.ident s]
  | .int n => [.int n]
  | .str s => [.str s]
  | .paren e => .op .lparen :: (gE e ++ [.op .rparen])
  | .sel e f => gE e ++ [.op .period, .ident f]
  | .idx e i => gE e ++ .op .lbrack :: (gE i ++ [.op .rbrack])
  | .slc e => gE e ++ [.op .lbrack, .op .colon, .op .rbrack]
  | .call e as => gE e ++ .op .lparen :: gArgs as
  | .lit t es => gE t ++ .op .lbrace :: gElts es
  | .star e => .op .mul :: gE e
  | .addr e => .op .and :: gE e
  | .neg e => .op .sub :: gE e
  | .bin o a b => gE a ++ .op o :: gE b
  | .slice t => .op .lbrack :: .op .rbrack :: gE t
  | .array n t => .op .lbrack :: (gE n ++ .op .rbrack :: gE t)
  | .struct fs => kwStruct :: .op .lbrace :: gFs fs
/-- With the closing parenthesis. -/
def gArgs : GArgs → List Tok
  | .nil => [.op .rparen]
  | .last e => gE e ++ [.op .rparen]
  | .cons e as => gE e ++ .op .comma :: gArgs as
/-- With the closing brace. -/
def gElts : GElts → List Tok
  | .nil => [.op .rbrace]
  | .last e => gE e ++ [.op .rbrace]
  | .cons e es => gE e ++ .op .comma :: gElts es
  | .lastKey k e => .ident k :: .op .colon :: (gE e ++ [.op .rbrace])
  | .consKey k e es => .ident k :: .op .colon :: (gE e ++ .op .comma :: gElts es)
/-- With the closing brace. -/
def gFs : GFs → List Tok
  | .nil => [.op .rbrace]
  | .last f t => .ident f :: (gE t ++ [.op .rbrace])
  | .cons f t fs => .ident f :: (gE t ++ .semi :: gFs fs)
end

mutual
def gS : GS → List Tok
  | .expr e => gE e
  | .assign a b => gE a ++ .op .assign :: gE b
  | .define x e => .ident x :: .op .define :: gE e
  | .var x t => kwVar :: .ident x :: gE t
  | .block b => .op .lbrace :: (gSs b ++ [.op .rbrace])
  | .ifThen c b => kwIf :: (gE c ++ .op .lbrace :: (gSs b ++ [.op .rbrace]))
  | .ifElse c b b' => kwIf :: (gE c ++ .op .lbrace :: (gSs b ++ .op .rbrace :: kwElse :: .op .lbrace ::
      (gSs b' ++ [.op .rbrace])))
  | .forInc x a c y b => kwFor :: .ident x :: .op .define :: (gE a ++ .semi :: (gE c ++ .semi ::
      .ident y :: .op .inc :: .op .lbrace :: (gSs b ++ [.op .rbrace])))
  | .switch e cs => kwSwitch :: (gE e ++ .op .lbrace :: (gCs cs ++ [.op .rbrace]))
  | .ret0 => [kwReturn]
  | .ret1 a => kwReturn :: gE a
  | .ret2 a b => kwReturn :: (gE a ++ .op .comma :: gE b)
  | .fall => [kwFallthrough]
def gSs : GSs → List Tok
  | .nil => []
  | .last s => gS s
  | .cons s b => gS s ++ .semi :: gSs b
def gCs : GCs → List Tok
  | .nil => []
  | .case e b cs => kwCase :: (gE e ++ .op .colon :: (gSs b ++ gCs cs))
  | .default b cs => kwDefault :: .op .colon :: (gSs b ++ gCs cs)
end

/-- Parameters, with the closing parenthesis. -/
def gPs : List (List Nat × GE) → List Tok
  | [] => [.op .rparen]
  | [p] => .ident p.1 :: (gE p.2 ++ [.op .rparen])
  | p :: q :: l => .ident p.1 :: (gE p.2 ++ .op .comma :: gPs (q :: l))

def gRes : GRes → List Tok
  | .none => []
  | .type t => gE t
  | .named l => .op .lparen :: gPs l

def gOpt : Option GE → List Tok
  | none => []
  | some e => gE e

def gMeth (m : GMeth) : List Tok :=
  .ident m.name :: .op .lparen :: (gOpt m.arg ++ .op .rparen :: (gOpt m.res ++ [.semi]))

def gRecv : Option (List Nat × GE) → List Tok
  | none => []
  | some p => .op .lparen :: gPs [p]

def gD : GD → List Tok
  | .const n t v => kwConst :: .ident n :: (gOpt t ++ .op .assign :: gE v)
  | .type n t => kwType :: .ident n :: gE t
  | .iface n ms => kwType :: .ident n :: kwInterface :: .op .lbrace :: (ms.flatMap gMeth ++ [.op .rbrace])
  | .func r n ps res b => kwFunc :: (gRecv r ++ .ident n :: .op .lparen :: (gPs ps ++ (gRes res ++
      .op .lbrace :: (gSs b ++ [.op .rbrace]))))

def gFile (f : GFile) : List Tok :=
  kwPackage :: .ident f.pkg :: .semi :: (f.imports.flatMap (fun s => [kwImport, .str s, .semi]) ++
    f.decls.flatMap fun d => gD d ++ [.semi])

/-! ### Conditions -/

/-- Where an expression stands: anywhere (`expr`), as operand of a binary operator (`unary`), of a unary
operator (`unary` again), without operators (`prim`), before a selector, index or call (`base`), or as a
type. -/
inductive Lvl where
  | expr | unary | prim | base | type
  deriving DecidableEq

/-- Comparison operators; the subset has no other binary ones. -/
def isCmp : Op → Bool
  | .neq => true
  | .lss => true
  | .gtr => true
  | _ => false

/-- A type that may begin a composite literal. -/
def litType : GE → Bool
  | .id _ => true
  | .sel (.id _) _ => true
  | .slice _ => true
  | .array _ _ => true
  | .struct _ => true
  | _ => false

mutual
/-- `hdr`: in the header of a statement, outside of parentheses and brackets. -/
def wE : Lvl → Bool → GE → Bool
  | _, _, .id _ => true
  | l, _, .int _ => l != .base && l != .type
  | l, _, .str _ => l != .base && l != .type
  | l, _, .paren e => l != .type && wE .expr false e
  | l, h, .sel e _ => if l = .type then (match e with | .id _ => true | _ => false) else wE .base h e
  | l, h, .idx e i => l != .type && wE .base h e && wE .expr false i
  | l, h, .slc e => l != .type && wE .base h e
  | l, h, .call e as => l != .type && wE .base h e && wArgs as
  | l, h, .lit t es => l != .base && l != .type && !h && litType t && wE .type h t && wElts es
  | l, h, .star e => if l = .type then wE .type h e else l != .prim && l != .base && wE .unary h e
  | l, h, .addr e => l != .type && l != .prim && l != .base && wE .unary h e
  | l, h, .neg e => l != .type && l != .prim && l != .base && wE .unary h e
  | l, h, .bin o a b => l == .expr && isCmp o && wE .unary h a && wE .unary h b
  | l, h, .slice t => l != .base && wE .type h t
  | l, h, .array n t => l != .base && wE .expr false n && wE .type h t
  | l, _, .struct fs => l != .base && wFs fs
def wArgs : GArgs → Bool
  | .nil => true
  | .last e => wE .expr false e
  | .cons e as => wE .expr false e && wArgs as
def wElts : GElts → Bool
  | .nil => true
  | .last e => wE .expr false e
  | .cons e es => wE .expr false e && wElts es
  | .lastKey _ e => wE .expr false e
  | .consKey _ e es => wE .expr false e && wElts es
def wFs : GFs → Bool
  | .nil => true
  | .last _ t => wE .type false t
  | .cons _ t fs => wE .type false t && wFs fs
end

/-- Every statement has its semicolon. -/
def GSs.closed : GSs → Bool
  | .nil => true
  | .last _ => false
  | .cons _ b => b.closed

def GCs.isNil : GCs → Bool
  | .nil => true
  | _ => false

mutual
def wS : GS → Bool
  | .expr e => wE .expr false e
  | .assign a b => wE .expr false a && wE .expr false b
  | .define _ e => wE .expr false e
  | .var _ t => wE .type false t
  | .block b => wSs b
  | .ifThen c b => wE .expr true c && wSs b
  | .ifElse c b b' => wE .expr true c && wSs b && wSs b'
  | .forInc _ a c _ b => wE .expr true a && wE .expr true c && wSs b
  | .switch e cs => wE .expr true e && wCs cs
  | .ret0 => true
  | .ret1 a => wE .expr false a
  | .ret2 a b => wE .expr false a && wE .expr false b
  | .fall => true
def wSs : GSs → Bool
  | .nil => true
  | .last s => wS s
  | .cons s b => wS s && wSs b
def wCs : GCs → Bool
  | .nil => true
  | .case e b cs => wE .expr false e && wSs b && (b.closed || cs.isNil) && wCs cs
  | .default b cs => wSs b && (b.closed || cs.isNil) && wCs cs
end

def wOpt : Option GE → Bool
  | none => true
  | some t => wE .type false t

def wRes : GRes → Bool
  | .none => true
  | .type t => wE .type false t
  | .named l => l.all fun p => wE .type false p.2

def wD : GD → Bool
  | .const _ t v => wOpt t && wE .expr false v
  | .type _ t => wE .type false t
  | .iface _ ms => ms.all fun m => wOpt m.arg && wOpt m.res
  | .func r _ ps res b => (r.all fun p => wE .type false p.2) && (ps.all fun p => wE .type false p.2) &&
      wRes res && wSs b

def wFile (f : GFile) : Bool := f.decls.all wD

/-- The text is a Go file with this syntax tree. -/
def IsGo (t : Text) (f : GFile) : Prop := scan t = some (gFile f) ∧ wFile f = true

end Verif.Text
