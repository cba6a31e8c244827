/-
Model of `main` and `refmt` (main.go:24-102): what a run of the generator does to the files.

Parameters are what is outside main.go: the parser together with the generator (`xdrParse`, modelled
in `Verif.Text`), `format.Source` of the Go standard library, and the operating system, which may make
any call fail.

Simplifications: a path is a name (no links, no two spellings of one path), nobody else changes the
files during the run, the process is not killed, and `Close` does nothing.
-/
import Verif.Xdr.Lib

namespace Verif.Tool

abbrev Content := List UInt8
abbrev Path := String

/-- The files; `none` is a file that does not exist. -/
abbrev FS := Path → Option Content

def FS.set (fs : FS) (p : Path) (c : Option Content) : FS := fun q => if q = p then c else fs q

/-- The flags (main.go:13-19) that `main` itself looks at; no types file is `""`. -/
structure Args where
  input : Path
  output : Path
  types : Path
  pkg : String
  deriving DecidableEq, Repr

/-- How a run ends. -/
inductive Status where
  | done
  | panic
  | exit (code : Nat)
  deriving DecidableEq, Repr

/-- What `ioutil.WriteFile` does: it opens the file, emptying it, and writes. -/
inductive WriteOutcome where
  | ok
  | cannotOpen
  /-- Writing stops after `n` bytes. -/
  | stops (n : Nat)
  deriving DecidableEq, Repr

/-- What `xdrParse(&l)` (main.go:76) does: its `Fprintf` calls, in order (`true`: to `tout`), and
whether it returns (it panics otherwise: on lexical and syntax errors, scan.go:146-154, and on types
without codec). -/
structure Parse where
  writes : List (Bool × Content)
  returns : Bool

/-- The world: other code, and what the system does at each call. -/
structure World where
  parse : Content → Parse
  format : Content → Option Content
  /-- `ioutil.ReadFile(*inputFile)` fails. -/
  readInput : Bool
  /-- `os.OpenFile` fails although the file does not exist. -/
  openOut : Bool
  openTypes : Bool
  /-- The `n`-th `Fprintf` writes that many bytes at most (`none`: all).  The result of `Fprintf` is
  never looked at. -/
  short : Nat → Option Nat
  /-- `ioutil.ReadFile(infile)` in `refmt` fails. -/
  rereadOut : Bool
  rereadTypes : Bool
  writeOut : WriteOutcome
  writeTypes : WriteOutcome
  /-- `os.Remove` fails. -/
  removeOut : Bool
  removeTypes : Bool

/-- `ioutil.ReadFile`. -/
def readFile (fs : FS) (p : Path) (fails : Bool) : Option Content := if fails then none else fs p

/-- `os.OpenFile(p, O_WRONLY|O_EXCL|O_CREATE|O_TRUNC, 0666)`: fails if the file exists. -/
def createExcl (fs : FS) (p : Path) (fails : Bool) : Option FS :=
  if fails || (fs p).isSome then none else some (fs.set p (some []))

/-- One `Fprintf` to a file. -/
def fprintf (short : Option Nat) (fs : FS) (p : Path) (d : Content) : FS :=
  fs.set p (some ((fs p).getD [] ++ match short with | none => d | some n => d.take n))

/-- `os.Remove`. -/
def remove (fs : FS) (p : Path) (fails : Bool) : FS := if fails then fs else fs.set p none

/-- `ioutil.WriteFile`. -/
def writeFile (fs : FS) (p : Path) (d : Content) : WriteOutcome → FS × Bool
  | .ok => (fs.set p (some d), true)
  | .cannotOpen => (fs, false)
  | .stops n => (fs.set p (some (d.take n)), false)

/-- `refmt` (main.go:87-102); `false` is a panic. -/
def refmt (w : World) (fs : FS) (infile outfile : Path) (rereadFails : Bool) (wr : WriteOutcome) :
    FS × Bool :=
  match readFile fs infile rereadFails with
  | none => (fs, false)
  | some buf =>
    match w.format buf with
    | none => (fs, false)
    | some buf => writeFile fs outfile buf wr

def bytes (s : String) : Content := s.toList.map fun c => UInt8.ofNat c.toNat

/-- `fmt.Fprintf(out, "package %s\n", *outputPackage)` (main.go:57). -/
def pkgLine (a : Args) : Content := bytes ("package " ++ a.pkg ++ "\n")
/-- main.go:58 -/
def importLine : Content := bytes "import \"github.com/zeldovich/go-rpcgen/xdr\"\n"

/-- The `Fprintf` calls of the parser, from the `n`-th call on. -/
def parseWrites (w : World) (outTmp toutTmp : Path) : Nat → List (Bool × Content) → FS → FS
  | _, [], fs => fs
  | n, (t, d) :: l, fs =>
    parseWrites w outTmp toutTmp (n + 1) l (fprintf (w.short n) fs (if t then toutTmp else outTmp) d)

/-- The body of `main` after the second `defer`, or after the first one if there is no types file
(main.go:76-84).  `tt` is where `tout` goes. -/
def body (a : Args) (w : World) (src : Content) (outTmp tt : Path) (n : Nat) (fs : FS) : FS × Status :=
  let p := w.parse src
  let fs := parseWrites w outTmp tt n p.writes fs
  if p.returns = false then (fs, .panic)
  else
    match refmt w fs outTmp a.output w.rereadOut w.writeOut with
    | (fs, false) => (fs, .panic)
    | (fs, true) =>
      if a.types ≠ "" then
        match refmt w fs tt a.types w.rereadTypes w.writeTypes with
        | (fs, false) => (fs, .panic)
        | (fs, true) => (fs, .done)
      else (fs, .done)

/-- `main` (main.go:24-85).  Deferred calls run at the end, last one first, also after a panic. -/
def main (a : Args) (w : World) (fs : FS) : FS × Status :=
  if a.input = "" then (fs, .exit 1)
  else if a.output = "" then (fs, .exit 1)
  else
    match readFile fs a.input w.readInput with
    | none => (fs, .panic)
    | some src =>
      let outTmp := a.output ++ ".tmp"
      match createExcl fs outTmp w.openOut with
      | none => (fs, .panic)
      | some fs =>
        let fs := fprintf (w.short 0) fs outTmp (pkgLine a)
        let fs := fprintf (w.short 1) fs outTmp importLine
        let r :=
          if a.types ≠ "" then
            let toutTmp := a.types ++ ".tmp"
            match createExcl fs toutTmp w.openTypes with
            | none => (fs, .panic)
            | some fs =>
              let fs := fprintf (w.short 2) fs toutTmp (pkgLine a)
              let r := body a w src outTmp toutTmp 3 fs
              (remove r.1 toutTmp w.removeTypes, r.2)
          else body a w src outTmp outTmp 2 fs
        (remove r.1 outTmp w.removeOut, r.2)

end Verif.Tool
