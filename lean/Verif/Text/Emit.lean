/-
out.go as it is: functions that return and print text.  `none` is a panic.

The text is that of Verif.Text.Scan: an integer literal of the specification is the single code
`lit0 + n`, which stands for the way it is spelled there.
-/
import Verif.Text.Lex
import Verif.Gen.Out

namespace Verif.Text
open Verif.Gen

/-- A size or the value of an enumeration constant, copied from the specification (xdr.y:105-108). -/
def vTxt : Val → Text
  | .lit n => [lit0 + n]
  | .ident s => codes s

/-- `i` (out.go:8-17). -/
def iTxt (s : Ident) : Text := codes (i s)

/-- `i(cval)` (out.go:316): a literal does not change (its first character is a digit). -/
def ivTxt : Val → Text
  | .lit n => [lit0 + n]
  | .ident s => iTxt s

mutual
/-- `goType` of the typespecs (out.go:187-341). -/
def tTypespec : Typespec → Option Text
  | .int true => some t!"uint32"                          -- out.go:187-193
  | .int false => some t!"int32"
  | .hyper true => some t!"uint64"                        -- out.go:207-213
  | .hyper false => some t!"int64"
  | .float => some t!"float32"                            -- out.go:225
  | .double => some t!"float64"                           -- out.go:230
  | .quadruple => none                                    -- out.go:235
  | .bool => some t!"bool"                                -- out.go:240
  | .enum _ => some t!"int32"                             -- out.go:249
  | .struct ds => do                                      -- out.go:265-272
    let fs ← tDecls ds
    pure (t!"struct { " ++ fs ++ t!"}")
  | .union sw cs => do                                    -- out.go:290-301
    let f ← tDecl sw
    let fs ← tCases cs
    pure (t!"struct { " ++ f ++ fs ++ t!"}")
  | .ident n => some (iTxt n)                             -- out.go:341
/-- `goType` of the declared types (out.go:38-142). -/
def tDeclType : DeclType → Option Text
  | .typespec t => tTypespec t                            -- out.go:38-40
  | .array t sz => do                                     -- out.go:51-53
    let g ← tTypespec t
    pure (t!"[" ++ vTxt sz ++ t!"]" ++ g)
  | .varArray t _ => do                                   -- out.go:68-70
    let g ← tTypespec t
    pure (t!"[]" ++ g)
  | .opaqueArray sz => some (t!"[" ++ vTxt sz ++ t!"]byte")  -- out.go:96-98
  | .opaqueVarArray _ => some t!"[]byte"                  -- out.go:108-110
  | .string _ => some t!"string"                          -- out.go:124-126
  | .ptr t => do                                          -- out.go:140-142
    let g ← tTypespec t
    pure (t!"*" ++ g)
/-- `declToNameGotype` (out.go:252-260). -/
def tDecl : Decl → Option Text
  | .void => some []
  | .name t n => do
    let g ← tDeclType t
    pure (iTxt n ++ t!" " ++ g ++ t!";")
/-- The loop of out.go:267-269. -/
def tDecls : Decls → Option Text
  | .nil => some []
  | .cons d ds => do
    let f ← tDecl d
    let fs ← tDecls ds
    pure (f ++ fs)
/-- The loop of out.go:293-298. -/
def tCases : Cases → Option Text
  | .nil => some []
  | .dflt d => tDecl d
  | .cons _ _ d cs => do
    let f ← tDecl d
    let fs ← tCases cs
    pure (f ++ fs)
end

/-- The size of an opaque array or string (out.go:113-116, 129-132). -/
def szTxt : Option Val → Text
  | none => t!"-1"
  | some v => vTxt v

/-- `fmt.Sprintf("&((%s).%s)", valPtr, i(v.n))` (out.go:279, 323, 330). -/
def fieldTxt (p : Text) (n : Ident) : Text := t!"&((" ++ p ++ t!")." ++ iTxt n ++ t!")"

/-- The inner loop of out.go:315-320. -/
def labelTxt (l : Val) : List Val → Text
  | [] => t!"case " ++ ivTxt l ++ t!":\n"
  | l' :: ls => t!"case " ++ ivTxt l ++ t!":\n" ++ t!"fallthrough\n" ++ labelTxt l' ls

/-- `typeInt.goXdr` (out.go:195-201). -/
def xInt (unsig : Bool) (p : Text) : Text :=
  if unsig then t!"xdr.XdrU32(xs, (*uint32)(" ++ p ++ t!"));\n"
  else t!"xdr.XdrS32(xs, (*int32)(" ++ p ++ t!"));\n"

/-- `typeBool.goXdr` (out.go:241-243). -/
def xBool (p : Text) : Text := t!"xdr.XdrBool(xs, (*bool)(" ++ p ++ t!"));\n"

/-- The length check (out.go:78-80, 85-87). -/
def maxTxt (sz : Option Val) (body : Text) : Text :=
  match sz with
  | none => body
  | some m => t!"if __arraysz > " ++ vTxt m ++ t!" { xs.SetError(\"array too large\") } else {\n" ++ body ++ t!"}\n"

mutual
/-- `goXdr` of the typespecs (out.go:195-344). -/
def xTypespec : Typespec → Text → Option Text
  | .int u, p => some (xInt u p)                          -- out.go:195-201
  | .hyper true, p => some (t!"xdr.XdrU64(xs, (*uint64)(" ++ p ++ t!"));\n")  -- out.go:215-221
  | .hyper false, p => some (t!"xdr.XdrS64(xs, (*int64)(" ++ p ++ t!"));\n")
  | .float, _ => none                                     -- out.go:226
  | .double, _ => none                                    -- out.go:231
  | .quadruple, _ => none                                 -- out.go:236
  | .bool, p => some (xBool p)                            -- out.go:241-243
  | .enum _, _ => none                                    -- out.go:250
  | .struct ds, p => xDecls ds p                          -- out.go:274-283
  | .union sw cs, p =>                                    -- out.go:303-335
    match sw with
    | .void => none
    | .name t n => do
      let s ← xDeclType t (t!"&(" ++ (t!"(" ++ p ++ t!")." ++ iTxt n) ++ t!")")
      let c ← xCases cs p
      pure (s ++ (t!"switch " ++ (t!"(" ++ p ++ t!")." ++ iTxt n) ++ t!" {\n") ++ c ++ t!"}\n")
  | .ident n, p => some (t!"(*" ++ iTxt n ++ t!")(" ++ p ++ t!").Xdr(xs);\n")  -- out.go:342-344
/-- `goXdr` of the declared types (out.go:42-163). -/
def xDeclType : DeclType → Text → Option Text
  | .typespec t, p => xTypespec t p                       -- out.go:42-44
  | .array t sz, p => do                                  -- out.go:55-61
    let b ← xTypespec t (t!"&(*(" ++ p ++ t!")[i])")
    pure (t!"for i := 0; i < " ++ vTxt sz ++ t!"; i++ {\n" ++ (b ++ t!"\n") ++ t!"}\n")
  | .varArray t sz, p => do                               -- out.go:72-90
    let g ← tTypespec t
    let b ← xTypespec t (t!"&((*(" ++ p ++ t!"))[i])")
    let body := (t!"if xs.Decoding() { *" ++ p ++ t!" = make([]" ++ g ++ t!", __arraysz); }\n") ++
      t!"for i := uint64(0); i < uint64(__arraysz); i++ {\n" ++ (b ++ t!"\n") ++ t!"}\n"
    pure (t!"{\n" ++ t!"var __arraysz uint32\n" ++
      (t!"xs.EncodingSetSize(&__arraysz, len(*" ++ p ++ t!"));\n") ++
      (xInt true t!"&__arraysz" ++ t!"\n") ++
      maxTxt sz body ++ t!"}\n")
  | .opaqueArray _, p => some (t!"xdr.XdrArray(xs, (*" ++ p ++ t!")[:]);\n")  -- out.go:100-102
  | .opaqueVarArray sz, p =>                              -- out.go:112-118
    some (t!"xdr.XdrVarArray(xs, int(" ++ szTxt sz ++ t!"), (*[]byte)(" ++ p ++ t!"));\n")
  | .string sz, p =>                                      -- out.go:128-134
    some (t!"xdr.XdrString(xs, int(" ++ szTxt sz ++ t!"), (*string)(" ++ p ++ t!"));\n")
  | .ptr t, p => do                                       -- out.go:144-163
    let g ← tTypespec t
    let b ← xTypespec t (t!"*(" ++ p ++ t!")")
    pure (t!"if xs.Encoding() {\n" ++ (t!"opted := *(" ++ p ++ t!") != nil\n") ++ xBool t!"&opted" ++
      t!"if opted {\n" ++ b ++ t!"}\n" ++ t!"}\n" ++
      t!"if xs.Decoding() {\n" ++ t!"var opted bool\n" ++ xBool t!"&opted" ++
      t!"if opted {\n" ++ (t!"*(" ++ p ++ t!") = new(" ++ g ++ t!")\n") ++ b ++ t!"}\n" ++ t!"}\n")
/-- The field of a struct, the body of an arm (out.go:277-280, 321-324, 328-331). -/
def xDecl : Decl → Text → Option Text
  | .void, _ => some []
  | .name t n, p => xDeclType t (fieldTxt p n)
def xDecls : Decls → Text → Option Text
  | .nil, _ => some []
  | .cons d ds, p => do
    let s ← xDecl d p
    let b ← xDecls ds p
    pure (s ++ b)
/-- The clauses of the switch (out.go:314-333). -/
def xCases : Cases → Text → Option Text
  | .nil, _ => some []
  | .dflt d, p => do
    let s ← xDecl d p
    pure (t!"default:\n" ++ s)
  | .cons l more d cs, p => do
    let s ← xDecl d p
    let c ← xCases cs p
    pure (labelTxt l more ++ s ++ c)
end

/-! ### What is printed -/

/-- A call of `fmt.Fprintf` on `tout` (true) or `out` (false). -/
abbrev Writes := List (Bool × Text)

def toTypes (t : Text) : Writes := [(true, t)]
def toOut (t : Text) : Writes := [(false, t)]

/-- `emitConst` (out.go:444-446). -/
def wConst (fl : Flags) (n : Ident) (v : Nat) : Writes :=
  toTypes (t!"const " ++ codes n ++ t!" " ++ codes fl.constType ++ t!" = " ++ [lit0 + v] ++ t!"\n")

/-- `func (v *%s) Xdr(xs *xdr.XdrState) {\n`, the body, `}\n` (out.go:464-466, 478-480, 497-499, 505-507). -/
def wMethod (n : Ident) (body : Text) : Writes :=
  toOut (t!"func (v *" ++ iTxt n ++ t!") Xdr(xs *xdr.XdrState) {\n") ++ toOut body ++ toOut t!"}\n"

/-- `emitTypedef` (out.go:448-468). -/
def wTypedef : Decl → Option Writes
  | .void => some []
  | .name t n => do
    let g ← tDeclType t
    let (g, ref) := match t with
      | .ptr _ => (t!"struct { P " ++ g ++ t!" }", t!"&v.P")
      | _ => (g, t!"v")
    let b ← xDeclType t ref
    pure (toTypes (t!"type " ++ iTxt n ++ t!" " ++ g ++ t!"\n") ++ wMethod n b)

/-- `emitEnum` (out.go:470-485). -/
def wEnum (fl : Flags) (n : Ident) (items : List EnumItem) : Writes :=
  toTypes (t!"type " ++ iTxt n ++ t!" " ++ (if fl.unsignedEnum then t!"uint32" else t!"int32") ++ t!"\n") ++
  wMethod n (xInt fl.unsignedEnum t!"v") ++
  items.flatMap fun it => toTypes (t!"const " ++ iTxt it.name ++ t!" " ++ iTxt n ++ t!" = " ++ vTxt it.val ++ t!"\n")

/-- The fields of `emitStruct` (out.go:489-494). -/
def wFields : Decls → Option Writes
  | .nil => some []
  | .cons .void ds => wFields ds
  | .cons (.name t n) ds => do
    let g ← tDeclType t
    let l ← wFields ds
    pure (toTypes (t!"  " ++ iTxt n ++ t!" " ++ g ++ t!";\n") ++ l)

/-- `emitStruct` (out.go:487-500). -/
def wStruct (n : Ident) (ds : Decls) : Option Writes := do
  let fs ← wFields ds
  let b ← xTypespec (.struct ds) t!"v"
  pure (toTypes (t!"type " ++ iTxt n ++ t!" struct {\n") ++ fs ++ toTypes t!"}\n" ++ wMethod n b)

/-- `emitUnion` (out.go:502-508). -/
def wUnion (n : Ident) (sw : Decl) (cs : Cases) : Option Writes := do
  let g ← tTypespec (.union sw cs)
  let b ← xTypespec (.union sw cs) t!"v"
  pure (toTypes (t!"type " ++ iTxt n ++ t!" " ++ g ++ t!"\n") ++ wMethod n b)

/-- `fmt.Sprintf("%s_%s", i(d.name), i(v.name))` and a suffix. -/
def vnTxt (p : ProgDef) (v : ProgVer) (suffix : Text) : Text := iTxt p.name ++ t!"_" ++ iTxt v.name ++ suffix

/-- `maybeGoType` (out.go:175-181). -/
def tOpt : TypespecOpt → Option Text
  | none => some []
  | some t => tTypespec t

/-- One line of the interface (out.go:390-392). -/
def wSig (c : ProgCall) : Option Writes := do
  let a ← tOpt c.arg
  let r ← tOpt c.res
  pure (toOut (iTxt c.name ++ t!"(" ++ a ++ t!") " ++ r ++ t!"\n"))

/-- One wrapper (out.go:399-427). -/
def wWrapper (p : ProgDef) (v : ProgVer) (c : ProgCall) : Option Writes := do
  let inp ← match c.arg with
    | some t => do
      let g ← tTypespec t
      pure (toOut (t!"var in " ++ g ++ t!"\n") ++ toOut t!"in.Xdr(args)\n" ++ toOut t!"err = args.Error()\n" ++
        toOut t!"if err != nil { return }\n")
    | none => pure []
  let outp ← match c.res with
    | some t => do
      let g ← tTypespec t
      pure (toOut (t!"var out " ++ g ++ t!"\n"))
    | none => pure (toOut t!"var out xdr.Void\n")
  pure (toOut (t!"func (w *" ++ vnTxt p v t!"_handler_wrapper" ++ t!") " ++ iTxt c.name ++
      t!"(args *xdr.XdrState) (res xdr.Xdrable, err error) {\n") ++ inp ++ outp ++
    (if c.res.isSome then toOut t!"out = " else []) ++
    toOut (t!"w.h." ++ iTxt c.name ++ t!"(") ++
    (if c.arg.isSome then toOut t!"in" else []) ++
    toOut t!")\n" ++ toOut t!"return &out, nil" ++ toOut t!"}\n")

/-- One registration (out.go:432-438). -/
def wReg (p : ProgDef) (v : ProgVer) (c : ProgCall) : Writes :=
  toOut t!"xdr.ProcRegistration{\n" ++ toOut (t!"Prog: " ++ iTxt p.name ++ t!",\n") ++
  toOut (t!"Vers: " ++ iTxt v.name ++ t!",\n") ++ toOut (t!"Proc: " ++ iTxt c.name ++ t!",\n") ++
  toOut (t!"Handler: w." ++ iTxt c.name ++ t!",\n") ++ toOut t!"},\n"

/-- A loop of functions that print. -/
def wAll {α} (f : α → Option Writes) : List α → Option Writes
  | [] => some []
  | a :: l => do
    let x ← f a
    let y ← wAll f l
    pure (x ++ y)

/-- One version (out.go:382-441). -/
def wVers (p : ProgDef) (v : ProgVer) : Option Writes := do
  let sigs ← wAll wSig v.calls
  let ws ← wAll (wWrapper p v) v.calls
  pure (toTypes (t!"const " ++ iTxt v.name ++ t!" uint32 = " ++ [lit0 + v.id] ++ t!"\n") ++
    v.calls.flatMap (fun c => toTypes (t!"const " ++ iTxt c.name ++ t!" uint32 = " ++ [lit0 + c.id] ++ t!"\n")) ++
    toOut (t!"type " ++ vnTxt p v t!"_handler" ++ t!" interface {\n") ++ sigs ++ toOut t!"}\n" ++
    toOut (t!"type " ++ vnTxt p v t!"_handler_wrapper" ++ t!" struct {\n") ++
    toOut (t!"h " ++ vnTxt p v t!"_handler" ++ t!"\n") ++ toOut t!"}\n" ++ ws ++
    toOut (t!"func " ++ vnTxt p v t!"_regs" ++ t!"(h " ++ vnTxt p v t!"_handler" ++ t!") []xdr.ProcRegistration {\n") ++
    toOut (t!"w := &" ++ vnTxt p v t!"_handler_wrapper" ++ t!"{h}\n") ++
    toOut t!"return []xdr.ProcRegistration{\n" ++ v.calls.flatMap (wReg p v) ++ toOut t!"}\n" ++ toOut t!"}\n")

/-- `emitProg` (out.go:380-442). -/
def wProg (p : ProgDef) : Option Writes := do
  let vs ← wAll (wVers p) p.vers
  pure (toTypes (t!"const " ++ iTxt p.name ++ t!" uint32 = " ++ [lit0 + p.id] ++ t!"\n") ++ vs)

/-- One definition (actions xdr.y:178-191). -/
def wDefn (fl : Flags) : Defn → Option Writes
  | .const n v => some (wConst fl n v)
  | .typedef d => wTypedef d
  | .enum n items => some (wEnum fl n items)
  | .struct n ds => wStruct n ds
  | .union n sw cs => wUnion n sw cs
  | .program p => wProg p

/-- Everything printed while the specification is parsed. -/
def wSpec (fl : Flags) (s : Spec) : Option Writes := wAll (wDefn fl) s

/-- What ends up in the files. -/
def written (types : Bool) : Writes → Text
  | [] => []
  | (b, t) :: l => if b = types then t ++ written types l else written types l
def writtenAll : Writes → Text
  | [] => []
  | (_, t) :: l => t ++ writtenAll l

/-- The first lines (main.go:57-58, 70). -/
def headTypes (pkg : Ident) : Text := t!"package " ++ codes pkg ++ t!"\n"
def headOut (pkg : Ident) : Text := headTypes pkg ++ t!"import \"github.com/zeldovich/go-rpcgen/xdr\"\n"

/-- The one file written without `-t` (main.go:73: `tout = outf`), before formatting. -/
def emitOne (fl : Flags) (pkg : Ident) (s : Spec) : Option Text := do
  let ws ← wSpec fl s
  pure (headOut pkg ++ writtenAll ws)

/-- The two files written with `-t` (main.go:57-71), before formatting: types, and the rest. -/
def emitTwo (fl : Flags) (pkg : Ident) (s : Spec) : Option (Text × Text) := do
  let ws ← wSpec fl s
  pure (headTypes pkg ++ written true ws, headOut pkg ++ written false ws)

end Verif.Text
