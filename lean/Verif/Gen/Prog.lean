/-
The server half of `emitProg` (out.go:380-442): handler interface, wrapper type, wrapper methods and
registration table of every version of a program; and what the wrappers do when they are run.
-/
import Verif.Gen.Out

namespace Verif.Gen
open Verif.Xdr

/-- The statements of a wrapper method (out.go:403-429), with their Go text. -/
inductive WStmt where
  | varIn (t : GoType)                            -- var in T
  | inXdr                                         -- in.Xdr(args)
  | setErr                                        -- err = args.Error()
  | retIfErr                                      -- if err != nil { return }
  | varOut (t : GoType)                           -- var out T
  | varOutVoid                                    -- var out xdr.Void
  | callH (m : Ident) (assign : Bool) (arg : Bool) -- [out = ]w.h.m([in])
  | retOut                                        -- return &out, nil
  deriving DecidableEq, Repr

/-- A method of the handler interface: `name(arg) res`. -/
structure GoSig where
  name : Ident
  arg : Option GoType
  res : Option GoType
  deriving DecidableEq, Repr

/-- `func (w *recv) name(args *xdr.XdrState) (res xdr.Xdrable, err error) { body }` -/
structure GoWrapper where
  recv : Ident
  name : Ident
  body : List WStmt
  deriving DecidableEq, Repr

/-- `xdr.ProcRegistration{ Prog: prog, Vers: vers, Proc: proc, Handler: w.handler }` -/
structure GoReg where
  prog : Ident
  vers : Ident
  proc : Ident
  handler : Ident
  deriving DecidableEq, Repr

/-- Everything emitted for one version of a program. -/
structure GoVers where
  iface : Ident
  sigs : List GoSig
  wrapperType : Ident                     -- type wrapperType struct { h wrapperField }
  wrapperField : Ident
  wrappers : List GoWrapper
  regsName : Ident                        -- func regsName(h regsParam) []xdr.ProcRegistration
  regsParam : Ident
  regsWrapper : Ident                     -- w := &regsWrapper{h}
  regs : List GoReg
  deriving DecidableEq, Repr

/-- `maybeGoType` (out.go:175-181). -/
def maybeGoType : TypespecOpt → Option (Option GoType)
  | none => some none
  | some t => (t.goType).map some

/-- `fmt.Fprintf(out, "%s_%s_handler", i(d.name), i(v.name))` and the like. -/
def versName (p : ProgDef) (v : ProgVer) (suffix : String) : Ident :=
  i p.name ++ "_" ++ i v.name ++ suffix

/-- One wrapper (out.go:399-427). -/
def emitWrapper (p : ProgDef) (v : ProgVer) (c : ProgCall) : Option GoWrapper := do
  let inp ← match c.arg with
    | some t => do
      let gt ← t.goType
      pure [.varIn gt, .inXdr, .setErr, .retIfErr]
    | none => pure []
  let outp ← match c.res with
    | some t => do
      let gt ← t.goType
      pure [WStmt.varOut gt]
    | none => pure [.varOutVoid]
  pure ⟨versName p v "_handler_wrapper", i c.name,
    inp ++ outp ++ [.callH (i c.name) c.res.isSome c.arg.isSome, .retOut]⟩

/-- `List.map` for functions that may fail. -/
def mapM' {α β} (f : α → Option β) : List α → Option (List β)
  | [] => some []
  | a :: l => do
    let b ← f a
    let bs ← mapM' f l
    pure (b :: bs)

/-- One version (out.go:383-441). -/
def emitVers (p : ProgDef) (v : ProgVer) : Option GoVers := do
  let sigs ← mapM' (fun c : ProgCall => do
    let a ← maybeGoType c.arg
    let r ← maybeGoType c.res
    pure (⟨i c.name, a, r⟩ : GoSig)) v.calls
  let ws ← mapM' (emitWrapper p v) v.calls
  pure {
    iface := versName p v "_handler"
    sigs := sigs
    wrapperType := versName p v "_handler_wrapper"
    wrapperField := versName p v "_handler"
    wrappers := ws
    regsName := versName p v "_regs"
    regsParam := versName p v "_handler"
    regsWrapper := versName p v "_handler_wrapper"
    regs := v.calls.map fun c => ⟨i p.name, i v.name, i c.name, i c.name⟩ }

/-- `emitProg` (out.go:380-442), all versions. -/
def emitProg (p : ProgDef) : Option (List GoVers) := mapM' (emitVers p) p.vers

/-- The versions of all programs of a specification. -/
def generateVers : Spec → Option (List GoVers)
  | [] => some []
  | .program p :: ds => do
    let a ← emitProg p
    let b ← generateVers ds
    pure (a ++ b)
  | _ :: ds => generateVers ds

end Verif.Gen
