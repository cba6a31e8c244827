/-
What the generated wrapper methods and registration tables (`Gen/Prog.lean`, out.go:399-441) do when
they are run: a wrapper decodes the argument, calls the user's method and returns the result.

The user's method gets and returns values.  (That opaque arguments alias the request buffer is the
subject of `Verif.Rpc.Machine`.)
-/
import Verif.Gen.Run
import Verif.Gen.Prog
import Verif.Rpc.Server

namespace Verif.Rpc
open Verif.Xdr Verif.Gen

/-- The object behind the field `h` of a wrapper (out.go:395-397): what calling its method `m` with
the given argument (`none`: no argument) does.  The result is `none` for a method without result. -/
abbrev Impl (σ : Type) := Ident → Option GoVal → Proc Unit σ (Option GoVal)

open Classical in
/-- The outcome of `(*T)(p).Xdr(xs)` with `*p = v` (`Runs`); `none` if it does not end normally. -/
noncomputable def callMethod (g : GoProg) (T : Ident) (xs : XdrState) (v : GoVal) :
    Option (XdrState × GoVal) :=
  if h : ∃ r : XdrState × GoVal, Runs g T xs v r.1 r.2 then some h.choose else none

theorem callMethod_eq {g : GoProg} {T : Ident} {xs xs' : XdrState} {v v' : GoVal}
    (h : Runs g T xs v xs' v') : callMethod g T xs v = some (xs', v') := by
  have hex : ∃ r : XdrState × GoVal, Runs g T xs v r.1 r.2 := ⟨(xs', v'), h⟩
  obtain ⟨h1, h2⟩ := hex.choose_spec.unique h
  rw [callMethod, dif_pos hex]
  exact congrArg some (Prod.ext h1 h2)

/-- `&x` as an `xdr.Xdrable`, for `x` of type `T` with value `v`.  A method that does not end
normally (no supported specification has any, C18) is represented by an error. -/
noncomputable def methodXdrable (g : GoProg) (T : Ident) (v : GoVal) : Xdrable := fun xs =>
  match callMethod g T xs v with
  | some (xs', _) => xs'
  | none => { xs with err := some (.msg "") }

/-- `func (v *Void) Xdr(xs *XdrState) {}` (xdr/types.go:22). -/
def voidXdrable : Xdrable := id

/-- The variables of a wrapper method: the state behind `args`, the result `err`, and `in`, `out`
once they are declared (`out` of type `xdr.Void` is `some none`). -/
structure WState where
  args : XdrState
  err : Bool
  inV : Option (GoType × GoVal)
  outV : Option (Option (GoType × GoVal))

def Proc.map {V σ α β : Type} (f : α → β) : Proc V σ α → Proc V σ β
  | .ret a => .ret (f a)
  | .act u n => .act u fun v s => (n v s).map f

/-- The body of a wrapper (out.go:401-425).  `stuck` marks text that the Go compiler refuses: calling
`Xdr` on, or returning as `xdr.Xdrable`, a variable whose type is not a declared type with a method. -/
noncomputable def execW {σ : Type} (g : GoProg) (h : Impl σ) :
    List WStmt → WState → Proc XdrState σ (Res (Option Xdrable × Bool))
  | [], _ => .ret (.error .stuck)                                  -- missing return
  | .varIn t :: b, st =>
    match g.zero t with
    | some z => execW g h b { st with inV := some (t, z) }
    | none => .ret (.error .stuck)
  | .inXdr :: b, st =>
    match st.inV with
    | some (.named T, v) =>
      match g.methods.lookup T with
      | none => .ret (.error .stuck)
      | some _ =>
        match callMethod g T st.args v with
        | some (xs, v) => execW g h b { st with args := xs, inV := some (.named T, v) }
        | none => .ret (.error .panic)
    | _ => .ret (.error .stuck)
  | .setErr :: b, st => execW g h b { st with err := (error st.args).isSome }
  | .retIfErr :: b, st => if st.err then .ret (.ok (none, true)) else execW g h b st
  | .varOut t :: b, st =>
    match g.zero t with
    | some z => execW g h b { st with outV := some (some (t, z)) }
    | none => .ret (.error .stuck)
  | .varOutVoid :: b, st => execW g h b { st with outV := some none }
  | .callH m assign arg :: b, st =>
    if arg = true ∧ st.inV.isNone then .ret (.error .stuck)
    else
      ((h m (if arg then st.inV.map (·.2) else none)).comap fun _ => ()).bind fun r =>
        match assign, r, st.outV with
        | false, _, _ => execW g h b st
        | true, some v, some (some (t, _)) => execW g h b { st with outV := some (some (t, v)) }
        | true, _, _ => .ret (.error .stuck)
  | .retOut :: _, st =>
    match st.outV with
    | some none => .ret (.ok (some voidXdrable, false))
    | some (some (.named T, v)) =>
      match g.methods.lookup T with
      | none => .ret (.error .stuck)
      | some _ => .ret (.ok (some (methodXdrable g T v), false))
    | _ => .ret (.error .stuck)

/-- Calling a wrapper method; the argument is decoded from the live memory in one action. -/
noncomputable def wrapperRun {σ : Type} (g : GoProg) (h : Impl σ) (w : GoWrapper) :
    Proc XdrState σ (Res (Option Xdrable × Bool)) :=
  .act (fun _ s => s) fun rd _ =>
    execW g h w.body { args := rd, err := false, inV := none, outV := none }

/-- The wrapper as a handler.  Outcomes other than a normal return, which a package that compiles
does not have (`C40_returns`), count as errors. -/
noncomputable def wrapperHandler {σ : Type} (g : GoProg) (h : Impl σ) (w : GoWrapper) : ProcHandler σ :=
  (wrapperRun g h w).map fun
    | .ok r => r
    | .error _ => (none, true)

/-- A constant of Go type `uint32`; a larger value is refused by the compiler. -/
def constU32 (g : GoProg) (n : Ident) : Option UInt32 :=
  match g.const (.ident n) with
  | some c => if c < 2 ^ 32 then some (UInt32.ofNat c) else none
  | none => none

/-- One entry of the registration table (out.go:432-437): the numbers are those of the constants,
`w.name` is the method of that name of the wrapper type. -/
noncomputable def evalReg {σ : Type} (g : GoProg) (h : Impl σ) (gv : GoVers) (r : GoReg) :
    Option (ProcReg σ) := do
  let prog ← constU32 g r.prog
  let vers ← constU32 g r.vers
  let proc ← constU32 g r.proc
  let w ← gv.wrappers.find? fun w => w.recv == gv.regsWrapper && w.name == r.handler
  pure ⟨prog, vers, proc, wrapperHandler g h w⟩

/-- `X_Y_regs(h)` (out.go:428-440). -/
noncomputable def regsOf {σ : Type} (g : GoProg) (h : Impl σ) (gv : GoVers) : Option (List (ProcReg σ)) :=
  mapM' (evalReg g h gv) gv.regs

end Verif.Rpc
