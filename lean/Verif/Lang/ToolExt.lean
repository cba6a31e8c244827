/-
What is outside the text of main.go: the flags, the files, go/scanner, go/format, and the parser that goyacc generates.

Strings are bytes in the text and characters in `Verif.Tool`; names of files and of packages are ASCII here.
Simplifications: those of `Verif.Tool.Main`; `Fprintf` always says that it wrote everything (nobody looks); the position
that `AddFile` returns is not modelled, and `Scan` returns the tokens that `scan` gives for the bytes given to `Init`.
-/
import Verif.Lang.LexAll
import Verif.Lang.OutRun
import Verif.Tool.Main

namespace Verif.Lang
open Verif.Tool Verif.Gen

/-- What the system does at each call (counted for each function), and the standard library. -/
structure Sys where
  readFails : Nat → Bool
  openFails : Nat → Bool
  write : Nat → WriteOutcome
  removeFails : Path → Bool
  short : Nat → Option Nat
  format : Content → Option Content
  scan : Content → List Scanned

/-- The flags (main.go:13-19). -/
structure ToolFlags where
  args : Args
  gen : Flags
  debug : Bool

/-- The files; the variables `out` and `tout` (main.go:21-22); the names of the files that were opened; how many calls of
`ReadFile`, `OpenFile`, `WriteFile` and `Fprintf` there were; and the tokens that the scanner has not returned yet. -/
structure TW where
  fs : FS
  out : V
  tout : V
  opened : List Path
  reads : Nat
  opens : Nat
  writes : Nat
  prints : Nat
  toks : List Scanned

/-- One more call. -/
def TW.didRead (g : TW) : TW := { g with reads := g.reads + 1 }
def TW.didOpen (g : TW) : TW := { g with opens := g.opens + 1 }
def TW.created (g : TW) (p : Path) (fs : FS) : TW := { g with fs := fs, opens := g.opens + 1, opened := g.opened ++ [p] }
def TW.removed (g : TW) (fs : FS) : TW := { g with fs := fs }
def TW.wrote (g : TW) (fs : FS) : TW := { g with fs := fs, writes := g.writes + 1 }
def TW.printed (g : TW) (fs : FS) : TW := { g with fs := fs, prints := g.prints + 1 }
def TW.setOut (g : TW) (v : V) : TW := { g with out := v }
def TW.setTout (g : TW) (v : V) : TW := { g with tout := v }
def TW.init (g : TW) (ts : List Scanned) : TW := { g with toks := ts }

def TW.start (fs : FS) : TW := ⟨fs, .nil, .nil, [], 0, 0, 0, 0, []⟩

/-- A name of a file. -/
def pathOf (b : List UInt8) : Path := String.ofList (b.map fun c => Char.ofNat c.toNat)

/-- An error of the system. -/
def sysErr : V := .err [] []

/-- `ioutil.ReadFile`. -/
def doRead (sys : Sys) : List V → M TW (List V)
  | [.str p] => fun st =>
    match Tool.readFile st.world.fs (pathOf p) (sys.readFails st.world.reads) with
    | none => .ok ([.nil, sysErr], st.to st.world.didRead)
    | some c => (newSlice c c.length >>= fun v => pure [v, .nil]) (st.to st.world.didRead)
  | _ => stop .stuck

/-- `os.OpenFile`, with the flags that main.go gives; a file is the number of the call that opened it. -/
def doOpen (sys : Sys) : List V → M TW (List V)
  | [.str p, .glob fl, .const m] => fun st =>
    if fl = "os.O_WRONLY|os.O_EXCL|os.O_CREATE|os.O_TRUNC" ∧ m = 438 then
      match createExcl st.world.fs (pathOf p) (sys.openFails st.world.opens) with
      | none => .ok ([.nil, sysErr], st.to st.world.didOpen)
      | some fs => .ok ([.obj st.world.opened.length, .nil], st.to (st.world.created (pathOf p) fs))
    else .error (.stuck, st)
  | _ => stop .stuck

/-- `os.Remove`. -/
def doRemove (sys : Sys) : List V → M TW (List V)
  | [.str p] => fun st =>
    .ok ([if sys.removeFails (pathOf p) then sysErr else .nil],
      st.to (st.world.removed (remove st.world.fs (pathOf p) (sys.removeFails (pathOf p)))))
  | _ => stop .stuck

/-- `ioutil.WriteFile`. -/
def doWrite (sys : Sys) : List V → M TW (List V)
  | [.str p, v, .const m] => do
    let b ← bytesOf v
    fun st =>
      if m = 438 then
        .ok ([if (Tool.writeFile st.world.fs (pathOf p) b (sys.write st.world.writes)).2 then .nil else sysErr],
          st.to (st.world.wrote (Tool.writeFile st.world.fs (pathOf p) b (sys.write st.world.writes)).1))
      else .error (.stuck, st)
  | _ => stop .stuck

/-- `format.Source`. -/
def doFormat (sys : Sys) : List V → M TW (List V)
  | [v] => do
    let b ← bytesOf v
    match sys.format b with
    | none => pure [.nil, sysErr]
    | some c => do pure [← newSlice c c.length, .nil]
  | _ => stop .stuck

/-- One write to a file. -/
def TW.print (sys : Sys) (g : TW) (p : Path) (b : Content) : TW :=
  g.printed (fprintf (sys.short g.prints) g.fs p b)

/-- The file in a variable. -/
def TW.file (g : TW) : V → Option Path
  | .obj n => g.opened[n]?
  | _ => none

/-- A write to the file in a variable. -/
def printTo (sys : Sys) (var : TW → V) (b : Content) : M TW (List V) := fun st =>
  match st.world.file (var st.world) with
  | some p => .ok ([.int b.length, .nil], st.to (st.world.print sys p b))
  | none => .error (.panic, st)

/-- `fmt.Fprintf`. -/
def doPrint (sys : Sys) : List V → M TW (List V)
  | .glob w :: .str s :: vs => do
    let b ← some! (sprintf s vs)
    if w = "os.Stderr" then pure [.int b.length, .nil]
    else if w = "main.out" then printTo sys TW.out b
    else if w = "main.tout" then printTo sys TW.tout b
    else stop .stuck
  | _ => stop .stuck

/-- Assignments to the variables of the package. -/
def doAssign : List V → M TW (List V)
  | [.glob x, v] => fun st =>
    if x = "main.out" then .ok ([], st.to (st.world.setOut v))
    else if x = "main.tout" then .ok ([], st.to (st.world.setTout v))
    else .error (.stuck, st)
  | _ => stop .stuck

/-- The flags. -/
def doFlag (fl : ToolFlags) : List V → M TW (List V)
  | [.glob x] =>
    if x = "main.inputFile" then pure [.str (strBytes fl.args.input)]
    else if x = "main.outputFile" then pure [.str (strBytes fl.args.output)]
    else if x = "main.outputPackage" then pure [.str (strBytes fl.args.pkg)]
    else if x = "main.typesFile" then pure [.str (strBytes fl.args.types)]
    else if x = "main.debugFlag" then pure [.bool fl.debug]
    else if x = "main.unsignedEnumFlag" then pure [.bool fl.gen.unsignedEnum]
    else if x = "main.constTypeFlag" then pure [.str (strBytes fl.gen.constType)]
    else stop .stuck
  | _ => stop .stuck

/-- `Init` and `Scan` of go/scanner. -/
def doInit (sys : Sys) : List V → M TW (List V)
  | [_, _, src, _, _] => do
    let b ← bytesOf src
    fun st => .ok ([], st.to (st.world.init (sys.scan b)))
  | _ => stop .stuck

def TW.scan (g : TW) : Scanned × TW :=
  match g.toks with
  | [] => (⟨0, "token.EOF", []⟩, g)
  | t :: ts => (t, g.init ts)

def doScan : List V → M TW (List V)
  | [_] => fun st => .ok ([.int st.world.scan.1.pos, .glob st.world.scan.1.tok, .str st.world.scan.1.lit], st.to st.world.scan.2)
  | _ => stop .stuck

/-- `os.Exit`, with the status that main.go gives. -/
def doExit : List V → M TW (List V)
  | [.const c] => if c = 1 then stop .exit else stop .stuck
  | _ => stop .stuck

/-- What is outside the text.  `parse` is `xdrParse`, of the file that goyacc generates. -/
def toolFn (sys : Sys) (fl : ToolFlags) (parse : List V → M TW (List V)) (f : String) (args : List V) : M TW (List V) :=
  if f = "fmt.Fprintf" then doPrint sys args
  else if f = "*" then doFlag fl args
  else if f = "=" then doAssign args
  else if f = "scanner.Scanner.Scan" then doScan args
  else if f = "fmt.Printf" then pure [.int 0, .nil]
  else if f = "scanner.Scanner.Init" then doInit sys args
  else if f = "flag.Parse" then pure []
  else if f = "os.Exit" then doExit args
  else if f = "ioutil.ReadFile" then doRead sys args
  else if f = "ioutil.WriteFile" then doWrite sys args
  else if f = "os.OpenFile" then doOpen sys args
  else if f = "os.Remove" then doRemove sys args
  else if f = "format.Source" then doFormat sys args
  else if f = "token.NewFileSet" then pure [.obj 0]
  else if f = "AddFile" then pure [.obj 0]
  else if f = "Close" then pure [.nil]
  else if f = "main.xdrParse" then parse args
  else stop .stuck

def toolExt (sys : Sys) (fl : ToolFlags) (parse : List V → M TW (List V)) (grow : Nat → Nat → Nat) (loops : Nat) : Ext TW :=
  ⟨toolFn sys fl parse, fun _ _ => stop .stuck, grow, loops⟩

/-- The same world for the hand-written model. -/
def Sys.world (sys : Sys) (a : Args) (parse : Content → Parse) : World where
  parse := parse
  format := sys.format
  readInput := sys.readFails 0
  openOut := sys.openFails 0
  openTypes := sys.openFails 1
  short := sys.short
  rereadOut := sys.readFails 1
  rereadTypes := sys.readFails 2
  writeOut := sys.write 0
  writeTypes := sys.write 1
  removeOut := sys.removeFails (a.output ++ ".tmp")
  removeTypes := sys.removeFails (a.types ++ ".tmp")

theorem toolExt_lex (sys : Sys) (fl : ToolFlags) (parse : List V → M TW (List V)) (grow : Nat → Nat → Nat) (loops : Nat) :
    LexExt (toolExt sys fl parse grow loops) TW.scan fl.debug fun _ => [.int 0, .nil] :=
  ⟨fun _ _ => rfl, fun _ => rfl, fun _ _ => rfl⟩

end Verif.Lang
