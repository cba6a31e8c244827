/-
From the syntax tree of a Go file to the programs of Verif.Gen.Go and Verif.Gen.Prog: which Go text the
statements, types and declarations there stand for.  Parentheses and optional semicolons do not matter.
`none`: the file is not of the form these programs describe.
-/
import Verif.Text.GoSyn
import Verif.Text.Lex
import Verif.Gen.Prog

namespace Verif.Text
open Verif.Gen

/-- A literal or the name of a constant. -/
def lowVal : GE → Option Val
  | .id s => some (.ident (name s))
  | .int n => some (.lit n)
  | _ => none

/-- The basic types, by name. -/
def basicTy (s : List Nat) : Option GoType :=
  if s = t!"uint32" then some .uint32
  else if s = t!"int32" then some .int32
  else if s = t!"uint64" then some .uint64
  else if s = t!"int64" then some .int64
  else if s = t!"bool" then some .bool
  else if s = t!"float32" then some .float32
  else if s = t!"float64" then some .float64
  else if s = t!"string" then some .string
  else none

def isByte : GE → Bool
  | .id s => s == t!"byte"
  | _ => false

mutual
def lowTy : GE → Option GoType
  | .id s =>
    match basicTy s with
    | some t => some t
    | none => some (.named (name s))
  | .star t =>
    match lowTy t with
    | some g => some (.ptr g)
    | none => none
  | .slice t =>
    if isByte t then some .bytes
    else
      match lowTy t with
      | some g => some (.slice g)
      | none => none
  | .array n t =>
    match lowVal n with
    | some v =>
      if isByte t then some (.byteArray v)
      else
        match lowTy t with
        | some g => some (.array v g)
        | none => none
    | none => none
  | .struct fs =>
    match lowFs fs with
    | some f => some (.struct f)
    | none => none
  | _ => none
def lowFs : GFs → Option GoFields
  | .nil => some .nil
  | .last f t =>
    match lowTy t with
    | some g => some (.cons (name f) g .nil)
    | none => none
  | .cons f t fs =>
    match lowTy t, lowFs fs with
    | some g, some l => some (.cons (name f) g l)
    | _, _ => none
end

/-- Pointer and place expressions; `v` is the receiver. -/
def lowEx : GE → Option Ex
  | .id s => if s = t!"v" then some .recv else some (.var (name s))
  | .paren e => lowEx e
  | .addr e =>
    match lowEx e with
    | some x => some (.addr x)
    | none => none
  | .star e =>
    match lowEx e with
    | some x => some (.deref x)
    | none => none
  | .sel e f =>
    match lowEx e with
    | some x => some (.field x (name f))
    | none => none
  | .idx e (.id s) =>
    match lowEx e with
    | some x => some (.index x (name s))
    | none => none
  | _ => none

/-- `xdr.f` -/
def isXdr (e : GE) (f : List Nat) : Bool :=
  match e with
  | .sel (.id x) g => x == t!"xdr" && g == f
  | _ => false

/-- `xs.f` -/
def isXs (e : GE) (f : List Nat) : Bool :=
  match e with
  | .sel (.id x) g => x == t!"xs" && g == f
  | _ => false

def isId (e : GE) (s : List Nat) : Bool :=
  match e with
  | .id x => x == s
  | _ => false

/-- `(*t)(p)` -/
def convPtr : GE → Option (GE × GE)
  | .call (.paren (.star t)) (.last p) => some (t, p)
  | _ => none

/-- `int(m)` with a constant, or `int(-1)` -/
def lowMax : GE → Option (Option Val)
  | .call f (.last m) =>
    if isId f t!"int" then
      match m with
      | .neg (.int 1) => some none
      | .id s => some (some (.ident (name s)))
      | .int n => some (some (.lit n))
      | _ => none
    else none
  | _ => none

/-- `[]byte` -/
def isBytes : GE → Bool
  | .slice t => isByte t
  | _ => false

/-- `f(xs, a)` for the functions of package xdr with two arguments. -/
def lowCall2 (f a : GE) : Option Stmt :=
  if isXdr f t!"XdrArray" then
    match a with
    | .slc (.paren (.star p)) => (lowEx p).map .xdrArray
    | _ => none
  else
    match convPtr a with
    | some (t, p) =>
      if isXdr f t!"XdrU32" && isId t t!"uint32" then (lowEx p).map .xdrU32
      else if isXdr f t!"XdrS32" && isId t t!"int32" then (lowEx p).map .xdrS32
      else if isXdr f t!"XdrU64" && isId t t!"uint64" then (lowEx p).map .xdrU64
      else if isXdr f t!"XdrS64" && isId t t!"int64" then (lowEx p).map .xdrS64
      else if isXdr f t!"XdrBool" && isId t t!"bool" then (lowEx p).map .xdrBool
      else none
    | none => none

/-- `f(xs, m, a)`. -/
def lowCall3 (f m a : GE) : Option Stmt :=
  match lowMax m, convPtr a with
  | some max, some (t, p) =>
    if isXdr f t!"XdrVarArray" && isBytes t then (lowEx p).map (.xdrVarArray max)
    else if isXdr f t!"XdrString" && isId t t!"string" then (lowEx p).map (.xdrString max)
    else none
  | _, _ => none

/-- A call as a statement. -/
def lowCall (f : GE) (as : GArgs) : Option Stmt :=
  match as with
  | .cons x (.last a) =>
    if isId x t!"xs" then lowCall2 f a
    else
      match x, a with                                   -- xs.EncodingSetSize(&x, len(*p))
      | .addr (.id y), .call l (.last (.star p)) =>
        if isXs f t!"EncodingSetSize" && isId l t!"len" then (lowEx p).map (.encSetSize (name y)) else none
      | _, _ => none
  | .cons x (.cons m (.last a)) => if isId x t!"xs" then lowCall3 f m a else none
  | .last x =>                                          -- (*T)(p).Xdr(xs)
    match f with
    | .sel c g =>
      match convPtr c with
      | some (.id t, p) => if isId x t!"xs" && g == t!"Xdr" then (lowEx p).map (.callXdr (name t)) else none
      | _ => none
    | _ => none
  | _ => none

/-- `*p = make([]T, n)` and `*(p) = new(T)` -/
def lowAssign (a b : GE) : Option Stmt :=
  match a, b with
  | .star p, .call f (.cons (.slice t) (.last (.id n))) =>
    if isId f t!"make" then
      match lowEx p, lowTy t with
      | some x, some g => some (.assignMake x g (name n))
      | _, _ => none
    else none
  | .star p, .call f (.last t) =>
    if isId f t!"new" then
      match lowEx p, lowTy t with
      | some x, some g => some (.assignNew x g)
      | _, _ => none
    else none
  | _, _ => none

/-- `xs.SetError("array too large")` -/
def isTooLarge : GSs → Bool
  | .last (.expr (.call f (.last (.str s)))) => isXs f t!"SetError" && s == t!"array too large"
  | .cons (.expr (.call f (.last (.str s)))) .nil => isXs f t!"SetError" && s == t!"array too large"
  | _ => false

/-- `uint64(e)` -/
def convU64 : GE → Option GE
  | .call f (.last e) => if isId f t!"uint64" then some e else none
  | _ => none

mutual
def lowS : GS → Option Stmt
  | .expr (.call f as) => lowCall f as
  | .expr _ => none
  | .assign a b => lowAssign a b
  | .define x (.bin o (.star p) n) =>                     -- x := *(p) != nil
    if o = .neq ∧ isId n t!"nil" = true then (lowEx p).map (.defNotNil (name x)) else none
  | .define _ _ => none
  | .var x t =>
    if isId t t!"uint32" then some (.varU32 (name x))
    else if isId t t!"bool" then some (.varBool (name x))
    else none
  | .block b => (lowSs b).map .block
  | .ifThen c b =>
    match c with
    | .id x => (lowSs b).map (.ifVar (name x))
    | .call f .nil =>
      if isXs f t!"Encoding" then (lowSs b).map .ifEncoding
      else if isXs f t!"Decoding" then (lowSs b).map .ifDecoding
      else none
    | _ => none
  | .ifElse c b b' =>
    match c with
    | .bin o (.id x) m =>
      if o = .gtr ∧ isTooLarge b = true then
        match lowVal m, lowSs b' with
        | some v, some s => some (.ifGt (name x) v s)
        | _, _ => none
      else none
    | _ => none
  | .forInc x a c y b =>
    match c with
    | .bin o (.id z) m =>
      if o = .lss ∧ z = x ∧ y = x then
        match a with
        | .int 0 =>                                       -- for x := 0; x < m; x++
          match lowVal m, lowSs b with
          | some v, some s => some (.forInt (name x) v s)
          | _, _ => none
        | _ =>                                            -- for x := uint64(0); x < uint64(n); x++
          match convU64 a, convU64 m, lowSs b with
          | some (.int 0), some (.id n), some s => some (.forU64 (name x) (name n) s)
          | _, _, _ => none
      else none
    | _ => none
  | .switch e cs =>
    match lowEx e, lowCs cs with
    | some x, some c => some (.switch x c)
    | _, _ => none
  | _ => none
def lowSs : GSs → Option Stmts
  | .nil => some .nil
  | .last s =>
    match lowS s with
    | some x => some (.cons x .nil)
    | none => none
  | .cons s b =>
    match lowS s, lowSs b with
    | some x, some l => some (.cons x l)
    | _, _ => none
/-- The body of a clause, and whether it ends in `fallthrough`. -/
def lowBody : GSs → Option (Stmts × Bool)
  | .nil => some (.nil, false)
  | .last .fall => some (.nil, true)
  | .cons .fall .nil => some (.nil, true)
  | .last s =>
    match lowS s with
    | some x => some (.cons x .nil, false)
    | none => none
  | .cons s b =>
    match lowS s, lowBody b with
    | some x, some (l, ft) => some (.cons x l, ft)
    | _, _ => none
/-- The default clause comes last. -/
def lowCs : GCs → Option GoCases
  | .nil => some .nil
  | .case e b cs =>
    match lowVal e, lowBody b, lowCs cs with
    | some v, some (l, ft), some c => some (.cons v l ft c)
    | _, _, _ => none
  | .default b .nil => (lowSs b).map .dflt
  | .default _ _ => none
end

/-! ### Wrappers -/

/-- A statement of a wrapper. -/
def lowW : GS → Option WStmt
  | .var x t =>
    if x = t!"in" then (lowTy t).map .varIn
    else if x = t!"out" then (if isXdr t t!"Void" then some .varOutVoid else (lowTy t).map .varOut)
    else none
  | .expr (.call (.sel e m) as) =>
    if isId e t!"in" && m == t!"Xdr" then
      match as with
      | .last x => if isId x t!"args" then some .inXdr else none
      | _ => none
    else lowH e m as false
  | .assign a (.call (.sel e m) as) =>
    if isId a t!"err" then
      match as with
      | .nil => if isId e t!"args" && m == t!"Error" then some .setErr else none
      | _ => none
    else if isId a t!"out" then lowH e m as true
    else none
  | .ifThen (.bin o a b) (.last .ret0) =>
    if o = .neq ∧ isId a t!"err" = true ∧ isId b t!"nil" = true then some .retIfErr else none
  | .ifThen (.bin o a b) (.cons .ret0 .nil) =>
    if o = .neq ∧ isId a t!"err" = true ∧ isId b t!"nil" = true then some .retIfErr else none
  | .ret2 (.addr a) b => if isId a t!"out" && isId b t!"nil" then some .retOut else none
  | _ => none
where
  /-- `w.h.m([in])` -/
  lowH (e : GE) (m : List Nat) (as : GArgs) (assign : Bool) : Option WStmt :=
    match e, as with
    | .sel x h, .nil => if isId x t!"w" && h == t!"h" then some (.callH (name m) assign false) else none
    | .sel x h, .last a =>
      if isId x t!"w" && h == t!"h" && isId a t!"in" then some (.callH (name m) assign true) else none
    | _, _ => none

def lowWs : GSs → Option (List WStmt)
  | .nil => some []
  | .last s =>
    match lowW s with
    | some x => some [x]
    | none => none
  | .cons s b =>
    match lowW s, lowWs b with
    | some x, some l => some (x :: l)
    | _, _ => none

def lowOptTy : Option GE → Option (Option GoType)
  | none => some none
  | some t =>
    match lowTy t with
    | some g => some (some g)
    | none => none

def lowSig (m : GMeth) : Option GoSig :=
  match lowOptTy m.arg, lowOptTy m.res with
  | some a, some r => some ⟨name m.name, a, r⟩
  | _, _ => none

def lowSigs : List GMeth → Option (List GoSig)
  | [] => some []
  | m :: l =>
    match lowSig m, lowSigs l with
    | some x, some l => some (x :: l)
    | _, _ => none

/-- `xdr.ProcRegistration{Prog: p, Vers: v, Proc: c, Handler: w.h,}` -/
def lowReg : GE → Option GoReg
  | .lit t (.consKey k1 (.id p) (.consKey k2 (.id v) (.consKey k3 (.id c) (.consKey k4 (.sel w h) .nil)))) =>
    if isXdr t t!"ProcRegistration" && k1 == t!"Prog" && k2 == t!"Vers" && k3 == t!"Proc" && k4 == t!"Handler" &&
      isId w t!"w" then some ⟨name p, name v, name c, name h⟩ else none
  | _ => none

def lowRegs : GElts → Option (List GoReg)
  | .nil => some []
  | .cons e es =>
    match lowReg e, lowRegs es with
    | some x, some l => some (x :: l)
    | _, _ => none
  | _ => none

/-! ### Declarations -/

/-- What has been read: the program, the finished versions, and the version being read. -/
structure Low where
  prog : GoProg
  vers : List GoVers
  cur : Option GoVers

/-- `*xdr.XdrState` -/
def isState : GE → Bool
  | .star t => isXdr t t!"XdrState"
  | _ => false

/-- One declaration.  The declarations of a version are the interface, the wrapper type (`wrapperType` is
empty until it has been read), the wrappers, and the registration function. -/
def lowD (st : Low) : GD → Option Low
  | .const n t v =>
    match lowVal v with
    | some x =>
      match t with
      | none => some { st with prog := st.prog.append ⟨[⟨name n, "", x⟩], [], []⟩ }
      | some (.id s) => some { st with prog := st.prog.append ⟨[⟨name n, name s, x⟩], [], []⟩ }
      | _ => none
    | none => none
  | .type n t =>
    match st.cur with
    | none =>
      match lowTy t with
      | some g => some { st with prog := st.prog.append ⟨[], [(name n, g)], []⟩ }
      | none => none
    | some c =>
      match t with
      | .struct (.cons f (.id s) .nil) =>
        if f = t!"h" ∧ c.wrapperType = "" ∧ n ≠ [] then some { st with cur := some { c with wrapperType := name n, wrapperField := name s } }
        else none
      | _ => none
  | .iface n ms =>
    match st.cur, lowSigs ms with
    | none, some sigs =>
      some { st with cur := some ⟨name n, sigs, "", "", [], "", "", "", []⟩ }
    | _, _ => none
  | .func (some (r, .star (.id t))) n [(p, pt)] res b =>
    if isState pt = true then
      match res with
      | .none =>
        if r = t!"v" ∧ p = t!"xs" ∧ n = t!"Xdr" then
          match lowSs b with
          | some body => some { st with prog := st.prog.append ⟨[], [], [(name t, body)]⟩ }
          | none => none
        else none
      | .named [(r1, t1), (r2, t2)] =>
        if r = t!"w" ∧ p = t!"args" ∧ r1 = t!"res" ∧ isXdr t1 t!"Xdrable" = true ∧ r2 = t!"err" ∧
            isId t2 t!"error" = true then
          match st.cur, lowWs b with
          | some c, some body =>
            some { st with cur := some { c with wrappers := c.wrappers ++ [⟨name t, name n, body⟩] } }
          | _, _ => none
        else none
      | _ => none
    else none
  | .func none n [(p, .id pt)] (.type (.slice t))
      (.cons (.define w (.addr (.lit (.id wt) (.last h)))) (.cons (.ret1 (.lit (.slice t') es)) .nil)) =>
    if p = t!"h" ∧ isXdr t t!"ProcRegistration" = true ∧ isXdr t' t!"ProcRegistration" = true ∧ w = t!"w" ∧
        isId h t!"h" = true then
      match st.cur, lowRegs es with
      | some c, some regs =>
        some { st with
          vers := st.vers ++ [{ c with regsName := name n, regsParam := name pt, regsWrapper := name wt, regs := regs }]
          cur := none }
      | _, _ => none
    else none
  | _ => none

def lowDs : Low → List GD → Option Low
  | st, [] => some st
  | st, d :: ds =>
    match lowD st d with
    | some st => lowDs st ds
    | none => none

/-- The import that every file with code needs. -/
def xdrPath : List Nat := t!"github.com/zeldovich/go-rpcgen/xdr"

/-- A file that is a whole generated package. -/
def lowFile (f : GFile) : Option (GoProg × List GoVers) :=
  if f.imports = [xdrPath] then
    match lowDs ⟨.empty, [], none⟩ f.decls with
    | some ⟨p, vs, none⟩ => some (p, vs)
    | _ => none
  else none

/-- A package in two files: the types and constants, and the rest. -/
def lowFiles (types code : GFile) : Option (GoProg × List GoVers) :=
  if types.pkg = code.pkg ∧ types.imports = [] ∧ code.imports = [xdrPath] then
    match lowDs ⟨.empty, [], none⟩ types.decls with
    | some ⟨p, [], none⟩ =>
      match lowDs ⟨p, [], none⟩ code.decls with
      | some ⟨p, vs, none⟩ => some (p, vs)
      | _ => none
    | _ => none
  else none

end Verif.Text
