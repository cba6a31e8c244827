/-
`main` of main.go, as read from the file.
-/
import Verif.Lang.RefmtSpec

namespace Verif.Lang
open Verif.Tool
set_option linter.unusedSimpArgs false

section
variable {sys : Sys} {fl : ToolFlags} {parse : List V → M TW (List V)} {grow : Nat → Nat → Nat} {loops : Nat}

theorem ext_parseFlags (args : List V) : (toolExt sys fl parse grow loops).ext "flag.Parse" args = pure [] := rfl
theorem ext_exit (args : List V) : (toolExt sys fl parse grow loops).ext "os.Exit" args = doExit args := rfl
theorem ext_open (args : List V) : (toolExt sys fl parse grow loops).ext "os.OpenFile" args = doOpen sys args := rfl
theorem ext_remove (args : List V) : (toolExt sys fl parse grow loops).ext "os.Remove" args = doRemove sys args := rfl
theorem ext_fprintf (args : List V) : (toolExt sys fl parse grow loops).ext "fmt.Fprintf" args = doPrint sys args := rfl
theorem ext_assign (args : List V) : (toolExt sys fl parse grow loops).ext "=" args = doAssign args := rfl
theorem ext_init (args : List V) : (toolExt sys fl parse grow loops).ext "scanner.Scanner.Init" args = doInit sys args := rfl
theorem ext_fset (args : List V) : (toolExt sys fl parse grow loops).ext "token.NewFileSet" args = pure [.obj 0] := rfl
theorem ext_addFile (args : List V) : (toolExt sys fl parse grow loops).ext "AddFile" args = pure [.obj 0] := rfl
theorem ext_close (args : List V) : (toolExt sys fl parse grow loops).ext "Close" args = pure [.nil] := rfl
theorem ext_xdrParse (args : List V) : (toolExt sys fl parse grow loops).ext "main.xdrParse" args = parse args := rfl
theorem ext_input : (toolExt sys fl parse grow loops).ext "*" [.glob "main.inputFile"] = pure [.str (strBytes fl.args.input)] := rfl
theorem ext_output : (toolExt sys fl parse grow loops).ext "*" [.glob "main.outputFile"] = pure [.str (strBytes fl.args.output)] := rfl
theorem ext_types : (toolExt sys fl parse grow loops).ext "*" [.glob "main.typesFile"] = pure [.str (strBytes fl.args.types)] := rfl
theorem ext_package : (toolExt sys fl parse grow loops).ext "*" [.glob "main.outputPackage"] = pure [.str (strBytes fl.args.pkg)] := rfl

/-- The parser, called with a scanner for this file: it writes what some `p` says and then returns or panics, as `p` says;
and `A` is true of `p`. -/
structure DoesAt (sys : Sys) (a : Args) (parse : List V → M TW (List V)) (src : Content) (A : Parse → Prop) : Prop where
  does : ∀ {st : St TW} {l i j : Nat} {po pt : Path}, st.world.toks = sys.scan src → st.world.out = .obj i →
    st.world.tout = .obj j → st.world.opened[i]? = some po → st.world.opened[j]? = some pt → l < st.next →
    st.heap l = .struct "main.lexer" [("s", .struct "scanner.Scanner" [])] →
    ends (parse [.ptr "" ⟨l, []⟩]) (fun r s => ∃ p : Parse, A p ∧ r = (if p.returns then .ok [] else .error .panic) ∧
      s.defers = st.defers ∧ (∃ n ts, s.world =
        { st.world with fs := parseWrites (sys.world a fun _ => p) po pt st.world.prints p.writes st.world.fs, prints := n, toks := ts }) ∧
      (p.returns = true → st.next ≤ s.next ∧ ∀ j, j < st.next → s.heap j = st.heap j)) st

/-- Some `p` there is. -/
theorem DoesAt.some {sys : Sys} {a : Args} {parse : List V → M TW (List V)} {src : Content} {A : Parse → Prop}
    (h : DoesAt sys a parse src A) : ∃ p, A p := by
  have := h.does (st := ⟨fun _ => .struct "main.lexer" [("s", .struct "scanner.Scanner" [])], 1,
    { TW.start (fun _ => none) with toks := sys.scan src, out := .obj 0, tout := .obj 0, opened := [""] }, []⟩) (l := 0) (i := 0) (j := 0)
    rfl rfl rfl rfl rfl (Nat.zero_lt_one) rfl
  unfold ends at this
  split at this
  all_goals (obtain ⟨p, h, _⟩ := this; exact ⟨p, h⟩)

/-- What is true of the parser: it does what `P` says for the tokens of a file. -/
def Does (sys : Sys) (a : Args) (parse : List V → M TW (List V)) (P : Content → Parse) : Prop :=
  ∀ src, DoesAt sys a parse src (· = P src)

theorem const_inputFile : genProg.const "main" "inputFile" = none := by kernel_rfl
theorem var_inputFile : isVar genProg "main" "inputFile" = true := by kernel_rfl
theorem const_outputFile : genProg.const "main" "outputFile" = none := by kernel_rfl
theorem var_outputFile : isVar genProg "main" "outputFile" = true := by kernel_rfl
theorem const_outputPackage : genProg.const "main" "outputPackage" = none := by kernel_rfl
theorem var_outputPackage : isVar genProg "main" "outputPackage" = true := by kernel_rfl
theorem const_typesFile : genProg.const "main" "typesFile" = none := by kernel_rfl
theorem var_typesFile : isVar genProg "main" "typesFile" = true := by kernel_rfl
theorem const_Stderr : genProg.const "os" "Stderr" = none := by kernel_rfl
theorem const_O_WRONLY : genProg.const "os" "O_WRONLY" = none := by kernel_rfl
theorem const_O_EXCL : genProg.const "os" "O_EXCL" = none := by kernel_rfl
theorem const_O_CREATE : genProg.const "os" "O_CREATE" = none := by kernel_rfl
theorem const_O_TRUNC : genProg.const "os" "O_TRUNC" = none := by kernel_rfl
theorem import_outf : isImport genProg "main" "outf" = false := by kernel_rfl
theorem import_toutf : isImport genProg "main" "toutf" = false := by kernel_rfl
theorem import_f : isImport genProg "main" "f" = false := by kernel_rfl
theorem import_fset : isImport genProg "main" "fset" = false := by kernel_rfl
theorem zero_lexer : genProg.zero "main" (.name "lexer") = some (.struct "main.lexer" [("s", .struct "scanner.Scanner" [])]) := by kernel_rfl
theorem zero_file : genProg.zero "main" (.ptr (.qual "os" "File")) = some .nil := by kernel_rfl

macro "main_run'" "[" ls:Lean.Parser.Tactic.simpLemma,* "]" : tactic => `(tactic|
  main_run [wp_loadAt_glob, import_os, import_flag, import_main_fmt, import_token, pkg_os, pkg_flag, pkg_token, pkg_fmt', ext_parseFlags, ext_exit, ext_open, ext_remove, ext_fprintf, ext_assign, ext_init, ext_fset, ext_addFile, ext_close, ext_xdrParse, ext_input, ext_output, ext_types, ext_package,
    isVar_main_out, import_main_out, isVar_main_tout, import_main_tout, const_main_out, const_main_tout, const_inputFile, var_inputFile, const_outputFile, var_outputFile, const_outputPackage, var_outputPackage, const_typesFile, var_typesFile, const_Stderr, const_O_WRONLY, const_O_EXCL, const_O_CREATE, const_O_TRUNC, import_outf, import_toutf, import_f, import_fset, zero_lexer, zero_file, $ls,*])

theorem wp_open (p : List UInt8) (st : St TW) (Q : List V → St TW → Prop) :
    wp (doOpen sys [.str p, .glob "os.O_WRONLY|os.O_EXCL|os.O_CREATE|os.O_TRUNC", .const (438 : Nat)]) Q st =
    match createExcl st.world.fs (pathOf p) (sys.openFails st.world.opens) with
    | none => Q [.nil, sysErr] (st.to st.world.didOpen)
    | some fs => Q [.obj st.world.opened.length, .nil] (st.to (st.world.created (pathOf p) fs)) := by
  unfold doOpen wp
  have h : (((438 : Nat) : Int) = 438) = True := eq_true rfl
  simp only [h, and_self, if_true]
  cases createExcl st.world.fs (pathOf p) (sys.openFails st.world.opens) <;> rfl

theorem wp_init (a b v c d : V) (st : St TW) (Q : List V → St TW → Prop) : wp (doInit sys [a, b, v, c, d]) Q st =
    wp (bytesOf v) (fun b st => Q [] (st.to (st.world.init (sys.scan b)))) st := by
  unfold doInit
  rw [wp_bind]
  rfl

theorem byval_Init : byValue genProg "scanner.Scanner" "Init" = false := by kernel_rfl
theorem find_Init : genProg.find (.meth "scanner.Scanner" "Init") = none := by kernel_rfl

theorem callN_Init (k : Nat) (args : List V) :
    callN genProg (toolExt sys fl parse grow loops) (k + 1) (.meth "scanner.Scanner" "Init") args = doInit sys args := by
  rw [callN, find_Init]
  rfl

theorem find_Remove : genProg.find (.fn "os" "Remove") = none := by kernel_rfl
theorem callN_Remove (k : Nat) (args : List V) :
    callN genProg (toolExt sys fl parse grow loops) (k + 1) (.fn "os" "Remove") args = doRemove sys args := by
  rw [callN, find_Remove]
  rfl

theorem callN_xdrParse (k : Nat) (args : List V) :
    callN genProg (toolExt sys fl parse grow loops) (k + 1) (.fn "main" "xdrParse") args = parse args := by
  rw [callN, find_xdrParse]
  rfl

theorem wp_setOut (v : V) (st : St TW) (Q : List V → St TW → Prop) : wp (doAssign [.glob "main.out", v]) Q st = Q [] (st.to (st.world.setOut v)) := rfl
theorem wp_setTout (v : V) (st : St TW) (Q : List V → St TW → Prop) : wp (doAssign [.glob "main.tout", v]) Q st = Q [] (st.to (st.world.setTout v)) := rfl

theorem sprintf_pkg (p : List UInt8) : sprintf (strBytes "package %s\n") [.str p] = some (strBytes "package " ++ p ++ strBytes "\n") := by
  kernel_rfl

theorem wp_printTo (var : TW → V) (b : Content) (st : St TW) (Q : List V → St TW → Prop) : wp (printTo sys var b) Q st =
    match st.world.file (var st.world) with
    | some f => Q [.int b.length, .nil] (st.to (st.world.printed (fprintf (sys.short st.world.prints) st.world.fs f b)))
    | none => False := by
  unfold printTo wp
  simp only
  cases st.world.file (var st.world) <;> rfl

theorem file_obj (g : TW) (n : Nat) : g.file (.obj n) = g.opened[n]? := rfl

theorem print_pkg (p : List UInt8) : doPrint sys [.glob "main.out", .str (strBytes "package %s\n"), .str p] =
    printTo sys TW.out (strBytes "package " ++ p ++ strBytes "\n") := by
  unfold doPrint
  simp only
  rw [sprintf_pkg]
  rfl

theorem print_tpkg (p : List UInt8) : doPrint sys [.glob "main.tout", .str (strBytes "package %s\n"), .str p] =
    printTo sys TW.tout (strBytes "package " ++ p ++ strBytes "\n") := by
  unfold doPrint
  simp only
  rw [sprintf_pkg]
  rfl

theorem print_import : doPrint sys [.glob "main.out", .str (strBytes "import \"github.com/zeldovich/go-rpcgen/xdr\"\n")] =
    printTo sys TW.out (strBytes "import \"github.com/zeldovich/go-rpcgen/xdr\"\n") := by
  unfold doPrint
  simp only
  rw [show sprintf (strBytes "import \"github.com/zeldovich/go-rpcgen/xdr\"\n") [] =
    some (strBytes "import \"github.com/zeldovich/go-rpcgen/xdr\"\n") by kernel_rfl]
  rfl

/-- How the body of `main` ends: as the hand-written model says, once the deferred calls have run. -/
def Ended (S : Sem TW) (x : FS × Status) (r : Except Stop (Env × Ctl)) (s : St TW) : Prop :=
  match r with
  | .ok (_, .next) => x.2 = .done ∧ wp (runDefers S s.defers) (fun _ s => s.world.fs = x.1) s
  | .error .panic => x.2 = .panic ∧ wp (runDefers S s.defers) (fun _ s => s.world.fs = x.1) s
  | .error .exit => x = (s.world.fs, .exit 1)
  | _ => False

def Exits (x : FS × Status) (r : Except Stop (List V)) (s : St TW) : Prop :=
  match r with
  | .ok vs => vs = [] ∧ x = (s.world.fs, .done)
  | .error .panic => x = (s.world.fs, .panic)
  | .error .exit => x = (s.world.fs, .exit 1)
  | _ => False

theorem main_body (k : Nat) {B : Parse → Prop} {X : Parse → FS × Status} (st : St TW)
    (h : ends (execs ⟨genProg, callN genProg (toolExt sys fl parse grow loops) k, (toolExt sys fl parse grow loops).ext,
        (toolExt sys fl parse grow loops).spawn, (toolExt sys fl parse grow loops).grow, (toolExt sys fl parse grow loops).loops⟩ "main" main_main.body
      [[]] .next) (fun r s => ∃ p, B p ∧ Ended ⟨genProg, callN genProg (toolExt sys fl parse grow loops) k, (toolExt sys fl parse grow loops).ext,
        (toolExt sys fl parse grow loops).spawn, (toolExt sys fl parse grow loops).grow, (toolExt sys fl parse grow loops).loops⟩ (X p) r s) (st.deferring [])) :
    ends (callN genProg (toolExt sys fl parse grow loops) (k + 1) (.fn "main" "main") []) (fun r s => ∃ p, B p ∧ Exits (X p) r s) st := by
  refine ends_callN find_main (ends_callFunc ?_)
  refine wp_iff.mpr ⟨_, _, rfl, wp_iff.mpr ⟨_, _, rfl, ?_⟩⟩
  refine ends_mono h fun r s h => ?_
  obtain ⟨p, hB, h⟩ := h
  rcases r with e | ⟨ρ, c⟩
  · cases e with
    | panic =>
      refine wp_mono h.2 fun _ s' h' => ?_
      exact ⟨p, hB, Prod.ext (Eq.symm h') h.1⟩
    | exit => exact ⟨p, hB, h⟩
    | _ => exact h.elim
  · cases c with
    | next => exact wp_iff.mpr ⟨[], s, rfl, wp_mono h.2 fun _ s' h' => ⟨p, hB, rfl, Prod.ext (Eq.symm h') h.1⟩⟩
    | _ => exact h.elim


def mainTail : List Stmt := main_main.body.drop 19

def TailEnd (x : FS × Status) (ds : List (FKey × List V)) (r : Except Stop (Env × Ctl)) (s : St TW) : Prop :=
  match r with
  | .ok (_, .next) => x = (s.world.fs, .done) ∧ s.defers = ds
  | .error .panic => x = (s.world.fs, .panic) ∧ s.defers = ds
  | _ => False

theorem type_xdrParse : isType genProg "main" "xdrParse" = false := by kernel_rfl
theorem type_refmt : isType genProg "main" "refmt" = false := by kernel_rfl

theorem tail_spec {src : Content} {A : Parse → Prop} (hP : DoesAt sys fl.args parse src A) (k : Nat) (st : St TW)
    {p₁ p₂ p₃ p₄ p₅ p₆ p₇ p₈ p₉ i j : Nat} {po pt : Path}
    (hpo : pathOf (strBytes fl.args.output ++ strBytes ".tmp") = po)
    (hpo' : pathOf (strBytes fl.args.output) = fl.args.output)
    (hpt' : pathOf (strBytes fl.args.types) = fl.args.types)
    (ht : (fl.args.types ≠ "" ∧ (strBytes fl.args.types == strBytes "") = false ∧ st.heap p₃ = .str (strBytes fl.args.types ++ strBytes ".tmp") ∧
        st.heap p₄ = .obj j ∧ pathOf (strBytes fl.args.types ++ strBytes ".tmp") = pt) ∨
      (fl.args.types = "" ∧ (strBytes fl.args.types == strBytes "") = true))
    (h₁ : st.heap p₁ = .str (strBytes fl.args.output ++ strBytes ".tmp")) (h₂ : st.heap p₂ = .obj i)
    (h₅ : st.heap p₅ = .struct "main.lexer" [("s", .struct "scanner.Scanner" [])])
    (l₁ : p₁ < st.next) (l₂ : p₂ < st.next) (l₃ : p₃ < st.next) (l₄ : p₄ < st.next) (l₅ : p₅ < st.next)
    (htk : st.world.toks = sys.scan src) (hout : st.world.out = .obj i) (htout : st.world.tout = .obj j)
    (hi : st.world.opened[i]? = some po) (hj : st.world.opened[j]? = some pt) (hrd : st.world.reads = 1) (hwr : st.world.writes = 0) :
    ends (execs ⟨genProg, callN genProg (toolExt sys fl parse grow loops) (k + 1), (toolExt sys fl parse grow loops).ext,
        (toolExt sys fl parse grow loops).spawn, (toolExt sys fl parse grow loops).grow, (toolExt sys fl parse grow loops).loops⟩ "main" mainTail
      [[("toutf", p₄), ("toutTmp", p₃), ("outf", p₂), ("outTmp", p₁), ("l", p₅), ("f", p₆), ("fset", p₇), ("err", p₈), ("src", p₉)]] .next)
      (fun r s => ∃ p, A p ∧ TailEnd (Tool.body fl.args (sys.world fl.args fun _ => p) src po pt st.world.prints st.world.fs) st.defers r s) st := by
  simp only [mainTail, main_main, List.drop]
  refine exec_call rfl (by decide) (by decide) (by decide) type_xdrParse (fun _ _ h => nomatch h) ?_
  main_run' [callN_xdrParse]
  refine ends_mono (hP.does htk hout htout hi hj l₅ h₅) fun r s h => ?_
  obtain ⟨p, hA, rfl, hdef, ⟨n, ts, hw⟩, hfr⟩ := h
  have hb : (sys.world fl.args fun _ => p).parse src = p := rfl
  cases hr : p.returns with
  | false => 
    refine ⟨p, hA, ?_, hdef⟩
    simp only [Tool.body, hb, hr, hw]
    rfl
  | true =>
  simp only [if_true]
  obtain ⟨hnx, hfr⟩ := hfr hr
  refine ends_mono (Q := TailEnd (Tool.body fl.args (sys.world fl.args fun _ => p) src po pt st.world.prints st.world.fs) st.defers) ?_
    fun r s h => ⟨p, hA, h⟩
  have g₁ := (hfr p₁ l₁).trans h₁
  have g₂ := (hfr p₂ l₂).trans h₂
  refine ends_next ?_
  main_run' [g₂]
  refine exec_call rfl (by decide) (by decide) (by decide) type_refmt (fun _ _ h => nomatch h) ?_
  main_run' [g₁]
  refine ends_mono (refmt_spec k _ _ s (sys.world fl.args fun _ => p) rfl) fun r s' h' => ?_
  obtain ⟨hr', hf, hrd', hwr', hl⟩ := h'
  have e1 : s.world.reads = 1 := by rw [hw]; exact hrd
  have e2 : s.world.writes = 0 := by rw [hw]; exact hwr
  have e3 : s.world.fs = parseWrites (sys.world fl.args fun _ => p) po pt st.world.prints p.writes st.world.fs := by rw [hw]
  rw [e1, e2, e3, hpo, hpo'] at hr' hf
  have hB : Tool.body fl.args (sys.world fl.args fun _ => p) src po pt st.world.prints st.world.fs =
      match Tool.refmt (sys.world fl.args fun _ => p) (parseWrites (sys.world fl.args fun _ => p) po pt st.world.prints p.writes st.world.fs)
        po fl.args.output (sys.readFails 1) (sys.write 0) with
      | (fs, false) => (fs, .panic)
      | (fs, true) =>
        if fl.args.types ≠ "" then
          match Tool.refmt (sys.world fl.args fun _ => p) fs pt fl.args.types (sys.readFails 2) (sys.write 1) with
          | (fs, false) => (fs, .panic)
          | (fs, true) => (fs, .done)
        else (fs, .done) := by
    simp only [Tool.body, hb, hr]
    rfl
  rw [hB]
  generalize Tool.refmt (sys.world fl.args fun _ => p) (parseWrites (sys.world fl.args fun _ => p) po pt st.world.prints p.writes st.world.fs)
        po fl.args.output (sys.readFails 1) (sys.write 0) = x at hr' hf
  obtain ⟨fs', ok⟩ := x
  cases ok with
  | false =>
    subst hr'
    exact ⟨by rw [← show s'.world.fs = fs' from hf], hl.defers.trans hdef⟩
  | true =>
  subst hr'
  have hf : s'.world.fs = fs' := hf
  simp only [if_true] at hwr' ⊢
  have e4 : s'.world.reads = 2 := by rw [hrd', e1]
  have e5 : s'.world.writes = 1 := by rw [hwr' trivial, e2]
  have fr : ∀ j, j < st.next → s'.heap j = st.heap j := fun j hj => (hl.frame j (Nat.lt_of_lt_of_le hj hnx)).trans (hfr j hj)
  rcases ht with ⟨t1, t2, t3, t4, t5⟩ | ⟨t1, t2⟩
  · rw [if_pos t1]
    refine exec_ite_true ?_ ?_
    · main_run' [t2]
    have g₃ := (fr p₃ l₃).trans t3
    have g₄ := (fr p₄ l₄).trans t4
    refine ends_next ?_
    main_run' [g₄]
    refine exec_call rfl (by decide) (by decide) (by decide) type_refmt (fun _ _ h => nomatch h) ?_
    main_run' [g₃]
    refine ends_mono (refmt_spec k _ _ s' (sys.world fl.args fun _ => p) rfl) fun r s'' h' => ?_
    obtain ⟨hr', hf', _, _, hl'⟩ := h'
    rw [e4, e5, hf, hpt', t5] at hr' hf'
    generalize Tool.refmt (sys.world fl.args fun _ => p) fs' pt fl.args.types (sys.readFails 2) (sys.write 1) = x at hr' hf'
    obtain ⟨fs'', ok⟩ := x
    cases ok with
    | false =>
      subst hr'
      exact ⟨by rw [← show s''.world.fs = fs'' from hf'], hl'.defers.trans (hl.defers.trans hdef)⟩
    | true =>
      subst hr'
      refine ends_nil (ends_nil ?_)
      exact ⟨by rw [← show s''.world.fs = fs'' from hf'], hl'.defers.trans (hl.defers.trans hdef)⟩
  · rw [if_neg (fun h => h t1)]
    refine exec_ite_false ?_ ?_
    · main_run' [t2]
    refine ends_nil (ends_nil ?_)
    exact ⟨by rw [← hf], hl.defers.trans hdef⟩


theorem check_ok {S : Sem TW} {ρ : Env} {rest : List Stmt} {st : St TW} {Q : Except Stop (Env × Ctl) → St TW → Prop} {i : Nat}
    (hS : S.prog = genProg) (hρ : ρ.find "err" = some i) (hn : ρ.find "nil" = none) (he : st.heap i = .nil)
    (h : ends (execs S "main" rest ρ .next) Q st) : ends (execs S "main" (errCheck :: rest) ρ .next) Q st := by
  unfold errCheck
  refine exec_ite_false ?_ (ends_nil h)
  go_run [hρ, hn, he, hS, const_nil]

/-- The part of `main` after the first file was opened. -/
def afterOpen (a : Args) (w : World) (src : Content) (fs : FS) : FS × Status :=
  let outTmp := a.output ++ ".tmp"
  let fs := fprintf (w.short 0) fs outTmp (pkgLine a)
  let fs := fprintf (w.short 1) fs outTmp importLine
  let r :=
    if a.types ≠ "" then
      let toutTmp := a.types ++ ".tmp"
      match createExcl fs toutTmp w.openTypes with
      | none => (fs, .panic)
      | some fs =>
        let fs := fprintf (w.short 2) fs toutTmp (pkgLine a)
        let r := body a w src outTmp toutTmp 3 fs
        (remove r.1 toutTmp w.removeTypes, r.2)
    else body a w src outTmp outTmp 2 fs
  (remove r.1 outTmp w.removeOut, r.2)

theorem wp_remove (p : List UInt8) (st : St TW) (Q : List V → St TW → Prop) : wp (doRemove sys [.str p]) Q st =
    Q [if sys.removeFails (pathOf p) then sysErr else .nil]
      (st.to (st.world.removed (remove st.world.fs (pathOf p) (sys.removeFails (pathOf p))))) := by
  unfold doRemove wp
  rfl

/-- The deferred calls. -/
theorem runs_one {k : Nat} {s : St TW} {a : List UInt8} {p : Path} {fs : FS} (hd : s.defers = [(.fn "os" "Remove", [.str a])]) (ha : pathOf a = p)
    (hf : s.world.fs = fs) :
    wp (runDefers ⟨genProg, callN genProg (toolExt sys fl parse grow loops) (k + 1), (toolExt sys fl parse grow loops).ext,
        (toolExt sys fl parse grow loops).spawn, (toolExt sys fl parse grow loops).grow, (toolExt sys fl parse grow loops).loops⟩ s.defers)
      (fun _ s => s.world.fs = remove fs p (sys.removeFails p)) s := by
  rw [hd, wp_defers_cons]
  show wp (callN _ _ _ _ _) _ _
  rw [callN_Remove, wp_remove, wp_defers_nil, ha, hf]
  rfl

theorem runs_two {k : Nat} {s : St TW} {a b : List UInt8} {p q : Path} {fs : FS}
    (hd : s.defers = [(.fn "os" "Remove", [.str b]), (.fn "os" "Remove", [.str a])]) (ha : pathOf a = p) (hb : pathOf b = q)
    (hf : s.world.fs = fs) :
    wp (runDefers ⟨genProg, callN genProg (toolExt sys fl parse grow loops) (k + 1), (toolExt sys fl parse grow loops).ext,
        (toolExt sys fl parse grow loops).spawn, (toolExt sys fl parse grow loops).grow, (toolExt sys fl parse grow loops).loops⟩ s.defers)
      (fun _ s => s.world.fs = remove (remove fs q (sys.removeFails q)) p (sys.removeFails p)) s := by
  rw [hd, wp_defers_cons]
  show wp (callN _ _ _ _ _) _ _
  rw [callN_Remove, wp_remove, wp_defers_cons, hb, hf]
  show wp (callN _ _ _ _ _) _ _
  rw [callN_Remove, wp_remove, wp_defers_nil, ha]
  rfl

theorem ended_one {k : Nat} {x y : FS × Status} {ds : List (FKey × List V)} {a : List UInt8} {p : Path} {r : Except Stop (Env × Ctl)} {s : St TW}
    (h : TailEnd x ds r s) (hd : ds = [(.fn "os" "Remove", [.str a])]) (ha : pathOf a = p)
    (hy : y = (remove x.1 p (sys.removeFails p), x.2)) :
    Ended ⟨genProg, callN genProg (toolExt sys fl parse grow loops) (k + 1), (toolExt sys fl parse grow loops).ext,
        (toolExt sys fl parse grow loops).spawn, (toolExt sys fl parse grow loops).grow, (toolExt sys fl parse grow loops).loops⟩ y r s := by
  subst hy hd
  rcases r with e | ⟨ρ, c⟩
  · cases e with
    | panic => exact ⟨by rw [h.1], runs_one h.2 ha (by rw [h.1])⟩
    | _ => exact h.elim
  · cases c with
    | next => exact ⟨by rw [h.1], runs_one h.2 ha (by rw [h.1])⟩
    | _ => exact h.elim

theorem ended_two {k : Nat} {x y : FS × Status} {ds : List (FKey × List V)} {a b : List UInt8} {p q : Path} {r : Except Stop (Env × Ctl)} {s : St TW}
    (h : TailEnd x ds r s) (hd : ds = [(.fn "os" "Remove", [.str b]), (.fn "os" "Remove", [.str a])]) (ha : pathOf a = p) (hb : pathOf b = q)
    (hy : y = (remove (remove x.1 q (sys.removeFails q)) p (sys.removeFails p), x.2)) :
    Ended ⟨genProg, callN genProg (toolExt sys fl parse grow loops) (k + 1), (toolExt sys fl parse grow loops).ext,
        (toolExt sys fl parse grow loops).spawn, (toolExt sys fl parse grow loops).grow, (toolExt sys fl parse grow loops).loops⟩ y r s := by
  subst hy hd
  rcases r with e | ⟨ρ, c⟩
  · cases e with
    | panic => exact ⟨by rw [h.1], runs_two h.2 ha hb (by rw [h.1])⟩
    | _ => exact h.elim
  · cases c with
    | next => exact ⟨by rw [h.1], runs_two h.2 ha hb (by rw [h.1])⟩
    | _ => exact h.elim

theorem strBytes_eq (s : String) : strBytes s = bytes s := rfl

theorem import_bytes : strBytes "import \"github.com/zeldovich/go-rpcgen/xdr\"\n" = importLine := by
  rw [strBytes_eq]
  rfl

theorem print_import' : doPrint sys [.glob "main.out", .str (strBytes "import \"github.com/zeldovich/go-rpcgen/xdr\"\n")] =
    printTo sys TW.out importLine := by
  rw [print_import, import_bytes]

theorem bytes_pkg (a : Args) : strBytes "package " ++ strBytes a.pkg ++ strBytes "\n" = pkgLine a := by
  simp only [strBytes_eq, pkgLine]
  simp only [bytes, String.toList_append, List.map_append]

def mainMid : List Stmt := main_main.body.drop 11

theorem mid_spec {src : Content} {A : Parse → Prop} (hP : DoesAt sys fl.args parse src A) (k : Nat) (st : St TW) {p₁ p₂ p₅ p₆ p₇ p₈ p₉ : Nat}
    {fs fs₁ : FS}
    (hpo : pathOf (strBytes fl.args.output ++ strBytes ".tmp") = fl.args.output ++ ".tmp")
    (hpo' : pathOf (strBytes fl.args.output) = fl.args.output)
    (hpt' : pathOf (strBytes fl.args.types) = fl.args.types)
    (ht : (fl.args.types ≠ "" ∧ (strBytes fl.args.types == strBytes "") = false ∧ pathOf (strBytes fl.args.types ++ strBytes ".tmp") = fl.args.types ++ ".tmp") ∨
      (fl.args.types = "" ∧ (strBytes fl.args.types == strBytes "") = true))
    (h₁ : st.heap p₁ = .str (strBytes fl.args.output ++ strBytes ".tmp")) (h₂ : st.heap p₂ = .obj 0)
    (h₅ : st.heap p₅ = .struct "main.lexer" [("s", .struct "scanner.Scanner" [])]) (h₈ : st.heap p₈ = .nil)
    (l₁ : p₁ < st.next) (l₂ : p₂ < st.next) (l₅ : p₅ < st.next) (l₈ : p₈ < st.next) (n₁ : p₁ ≠ p₈) (n₂ : p₂ ≠ p₈) (n₅ : p₅ ≠ p₈)
    (hd : st.defers = []) (hst : st.world = ((TW.start fs).didRead.init (sys.scan src)).created (fl.args.output ++ ".tmp") fs₁) :
    ends (execs ⟨genProg, callN genProg (toolExt sys fl parse grow loops) (k + 1), (toolExt sys fl parse grow loops).ext,
        (toolExt sys fl parse grow loops).spawn, (toolExt sys fl parse grow loops).grow, (toolExt sys fl parse grow loops).loops⟩ "main" mainMid
      [[("outf", p₂), ("outTmp", p₁), ("l", p₅), ("f", p₆), ("fset", p₇), ("err", p₈), ("src", p₉)]] .next)
      (fun r s => ∃ p, A p ∧ Ended ⟨genProg, callN genProg (toolExt sys fl parse grow loops) (k + 1), (toolExt sys fl parse grow loops).ext,
        (toolExt sys fl parse grow loops).spawn, (toolExt sys fl parse grow loops).grow, (toolExt sys fl parse grow loops).loops⟩
        (afterOpen fl.args (sys.world fl.args fun _ => p) src fs₁) r s) st := by
  simp only [mainMid, main_main, List.drop]
  refine check_ok rfl rfl rfl h₈ ?_
  refine ends_next ?_
  main_run' [h₁]
  refine ends_next ?_
  main_run' [h₂, wp_setOut]
  refine ends_next ?_
  main_run' [hst, print_pkg, wp_printTo, file_obj, List.nil_append, List.length_nil, List.getElem?_cons_zero, bytes_pkg]
  refine ends_next ?_
  main_run' [hst, print_import', wp_printTo, file_obj, List.nil_append, List.length_nil, List.getElem?_cons_zero]
  refine ends_next ?_
  main_run' []
  refine ends_next ?_
  main_run' []
  rcases ht with ⟨t1, t2, t3⟩ | ⟨t1, t2⟩
  · refine exec_ite_true ?_ ?_
    · main_run' [t2]
    refine ends_next ?_
    main_run' [wp_setTout]
    cases hc : createExcl (fprintf (sys.short (0 + 1)) (fprintf (sys.short 0) fs₁ (fl.args.output ++ ".tmp") (pkgLine fl.args)) (fl.args.output ++ ".tmp")
        importLine) (fl.args.types ++ ".tmp") (sys.openFails (0 + 1)) with
    | none =>
      refine ends_next ?_
      main_run' [wp_open, hst, t3, hc]
      refine ends_dies (dies_check rfl rfl rfl rfl (by go_run [h₈] <;> rfl) ?_)
      obtain ⟨p, hA⟩ := hP.some
      refine ⟨p, hA, ?_⟩
      refine ended_one (x := (fprintf (sys.short (0 + 1)) (fprintf (sys.short 0) fs₁ (fl.args.output ++ ".tmp") (pkgLine fl.args)) (fl.args.output ++ ".tmp")
        importLine, .panic)) (p := fl.args.output ++ ".tmp") ⟨?_, rfl⟩ ?_ hpo ?_
      · main_run' [hst]
      · main_run' [hd]
      · simp only [afterOpen]
        rw [if_pos t1]
        have hc' : createExcl (fprintf ((sys.world fl.args fun _ => p).short 1) (fprintf ((sys.world fl.args fun _ => p).short 0) fs₁ (fl.args.output ++ ".tmp")
            (pkgLine fl.args)) (fl.args.output ++ ".tmp") importLine) (fl.args.types ++ ".tmp") (sys.world fl.args fun _ => p).openTypes = none := hc
        rw [hc']
        rfl
    | some fs₂ =>
    refine ends_next ?_
    main_run' [wp_open, hst, t3, hc]
    refine check_ok rfl rfl rfl (by go_run [h₈] <;> rfl) ?_
    refine ends_next ?_
    main_run' []
    refine ends_next ?_
    main_run' [wp_setTout]
    refine ends_next ?_
    main_run' [hst, print_tpkg, wp_printTo, file_obj, List.nil_append, List.length_nil, List.length_cons, List.cons_append, List.getElem?_cons_zero, List.getElem?_cons_succ, bytes_pkg]
    refine ends_nil ?_
    refine ends_mono (tail_spec hP k _ (i := 0) (j := 1) hpo hpo' hpt' (.inl ⟨t1, t2, ?_, ?_, t3⟩) (by main_run' [h₁]) (by main_run' [h₂])
      (by main_run' [h₅]) (by main_run' []; omega) (by main_run' []; omega) (by main_run' []; omega) (by main_run' []; omega) (by main_run' []; omega)
      (by main_run' [hst]) (by main_run' [hst]) (by main_run' [hst]) (by main_run' [hst]; rfl) (by main_run' [hst]; rfl) (by main_run' [hst]) (by main_run' [hst])) fun r s h => ?_
    · main_run' []
    · main_run' []
    obtain ⟨p, hA, h⟩ := h
    refine ⟨p, hA, ended_two h ?_ hpo t3 ?_⟩
    · main_run' [hd]
    · main_run' [hst]
      simp only [afterOpen]
      rw [if_pos t1]
      have hc' : createExcl (fprintf ((sys.world fl.args fun _ => p).short 1) (fprintf ((sys.world fl.args fun _ => p).short 0) fs₁ (fl.args.output ++ ".tmp")
          (pkgLine fl.args)) (fl.args.output ++ ".tmp") importLine) (fl.args.types ++ ".tmp") (sys.world fl.args fun _ => p).openTypes = some fs₂ := hc
      rw [hc']
      rfl
  · refine exec_ite_false ?_ ?_
    · main_run' [t2]
    refine ends_next ?_
    main_run' [h₂, wp_setTout]
    refine ends_nil ?_
    refine ends_mono (tail_spec hP k _ (i := 0) (j := 0) hpo hpo' hpt' (.inr ⟨t1, t2⟩) (by main_run' [h₁]) (by main_run' [h₂])
      (by main_run' [h₅]) (by main_run' []; omega) (by main_run' []; omega) (by main_run' []; omega) (by main_run' []; omega) (by main_run' []; omega)
      (by main_run' [hst]) (by main_run' [hst]) (by main_run' [hst]) (by main_run' [hst]; rfl) (by main_run' [hst]; rfl) (by main_run' [hst]) (by main_run' [hst])) fun r s h => ?_
    obtain ⟨p, hA, h⟩ := h
    refine ⟨p, hA, ended_one h ?_ hpo ?_⟩
    · main_run' [hd]
    · main_run' [hst]
      simp only [afterOpen]
      rw [if_neg (fun h => h t1)]
      rfl

/-- The names in the flags are ASCII. -/
structure AsciiArgs (a : Args) : Prop where
  input : ∀ c ∈ a.input.toList, c.toNat < 128
  output : ∀ c ∈ a.output.toList, c.toNat < 128
  types : ∀ c ∈ a.types.toList, c.toNat < 128

theorem pathOf_strBytes {s : String} (h : ∀ c ∈ s.toList, c.toNat < 128) : pathOf (strBytes s) = s := by
  unfold pathOf strBytes
  rw [List.map_map]
  have : s.toList.map ((fun c : UInt8 => Char.ofNat c.toNat) ∘ fun c => c.toNat.toUInt8) = s.toList := by
    refine Eq.trans ?_ (List.map_id s.toList)
    refine List.map_congr_left fun c hc => ?_
    have := h c hc
    show Char.ofNat (c.toNat.toUInt8).toNat = c
    rw [show (c.toNat.toUInt8).toNat = c.toNat from ?_, Char.ofNat_toNat]
    show (UInt8.ofNat c.toNat).toNat = _
    rw [UInt8.toNat_ofNat']
    omega
  rw [this, String.ofList_toList]

theorem pathOf_tmp {s : String} (h : ∀ c ∈ s.toList, c.toNat < 128) : pathOf (strBytes s ++ strBytes ".tmp") = s ++ ".tmp" := by
  rw [show strBytes s ++ strBytes ".tmp" = strBytes (s ++ ".tmp") by
    unfold strBytes
    rw [String.toList_append, List.map_append]]
  refine pathOf_strBytes fun c hc => ?_
  rw [String.toList_append] at hc
  rcases List.mem_append.mp hc with hc | hc
  · exact h c hc
  · exact (by decide : ∀ c ∈ ".tmp".toList, c.toNat < 128) c hc

theorem strBytes_empty (s : String) : (strBytes s == strBytes "") = decide (s = "") := by
  by_cases h : s = ""
  · subst h; rfl
  · rw [decide_eq_false h]
    have : strBytes s ≠ [] := fun e => h (String.toList_eq_nil_iff.mp (List.map_eq_nil_iff.mp e))
    cases hs : strBytes s with
    | nil => exact absurd hs this
    | cons => rfl

theorem exec_exit {S : Sem TW} {ρ : Env} {rest : List Stmt} {st : St TW} {Q : Except Stop (Env × Ctl) → St TW → Prop}
    (hS : S.prog = genProg) (hρ : ρ.find "os" = none) (he : S.ext "os.Exit" [.const (1 : Nat)] = stop .exit) (hq : Q (.error .exit) st) :
    ends (execs S "main" (.expr (.call (.sel (.id "os") "Exit") [.int 1] false) :: rest) ρ .next) Q st := by
  have e1 : evalArgs S "main" ρ [.int 1] st = .ok ([.const (1 : Nat)], st) := by
    have : wp (evalArgs S "main" ρ [.int 1]) (fun r s => r = [.const (1 : Nat)] ∧ s = st) st := by go_run
    obtain ⟨_, _, e, rfl, rfl⟩ := wp_iff.mp this
    exact e
  have e2 : pkgName S.prog "main" ρ (.id "os") = some "os" := by
    unfold pkgName
    simp only [hρ, hS, import_os, if_true]
  have e3 : callPkg S "os" "Exit" [.const (1 : Nat)] = stop .exit := by
    unfold callPkg
    simp only [String.reduceEq, false_and, ↓reduceIte, hS, pkg_os, String.reduceAppend, he]
  have : evalM S "main" ρ (.call (.sel (.id "os") "Exit") [.int 1] false) st = .error (.exit, st) := by
    rw [evalM, isBE_id]
    simp only [Bool.false_eq_true, if_false, e2]
    refine ok_bind e1 ?_
    rw [e3]
    rfl
  refine ends_dies (dies_head (e := .exit) ?_)
  rw [exec]
  exact dies_left ⟨st, this, hq⟩

theorem print_noInput : doPrint sys [.glob "os.Stderr", .str (strBytes "Must specify input file (-i)\n")] =
    pure [.int 29, .nil] := by
  unfold doPrint
  simp only
  rw [show sprintf (strBytes "Must specify input file (-i)\n") [] = some (strBytes "Must specify input file (-i)\n") by kernel_rfl]
  rfl

theorem print_noOutput : doPrint sys [.glob "os.Stderr", .str (strBytes "Must specify output file (-o)\n")] =
    pure [.int 30, .nil] := by
  unfold doPrint
  simp only
  rw [show sprintf (strBytes "Must specify output file (-o)\n") [] = some (strBytes "Must specify output file (-o)\n") by kernel_rfl]
  rfl

theorem main_spec {A : Content → Parse → Prop} (ha : AsciiArgs fl.args) (k : Nat) (fs : FS)
    (hP : ∀ src, Tool.readFile fs fl.args.input (sys.readFails 0) = some src → DoesAt sys fl.args parse src (A src))
    (st : St TW) (hst : st.world = TW.start fs) :
    ends (callN genProg (toolExt sys fl parse grow loops) (k + 2) (.fn "main" "main") [])
      (fun r s => ∃ p, (∀ src, Tool.readFile fs fl.args.input (sys.readFails 0) = some src → A src p) ∧
        Exits (Tool.main fl.args (sys.world fl.args fun _ => p) fs) r s) st := by
  obtain ⟨p₀, hp₀⟩ : ∃ p, ∀ src, Tool.readFile fs fl.args.input (sys.readFails 0) = some src → A src p := by
    cases hr : Tool.readFile fs fl.args.input (sys.readFails 0) with
    | none => exact ⟨⟨[], false⟩, fun _ h => nomatch h⟩
    | some src =>
      obtain ⟨p, hp⟩ := (hP src hr).some
      exact ⟨p, fun _ h => by cases h; exact hp⟩
  refine main_body _ (X := fun p => Tool.main fl.args (sys.world fl.args fun _ => p) fs) _ ?_
  rw [main_main]
  refine ends_next ?_
  main_run' []
  by_cases hi : fl.args.input = ""
  · refine exec_ite_true ?_ ?_
    · main_run' [strBytes_empty, hi, decide_true]
    refine ends_next ?_
    main_run' [print_noInput]
    refine exec_exit rfl rfl rfl ?_
    refine ⟨p₀, hp₀, ?_⟩
    show Tool.main _ _ _ = _
    unfold Tool.main
    rw [if_pos hi]
    main_run' [hst]
  have hi' : (strBytes fl.args.input == strBytes "") = false := by rw [strBytes_empty, decide_eq_false hi]
  refine ends_next ?_
  main_run' [hi']
  by_cases ho : fl.args.output = ""
  · refine exec_ite_true ?_ ?_
    · main_run' [strBytes_empty, ho, decide_true]
    refine ends_next ?_
    main_run' [print_noOutput]
    refine exec_exit rfl rfl rfl ?_
    refine ⟨p₀, hp₀, ?_⟩
    show Tool.main _ _ _ = _
    unfold Tool.main
    rw [if_neg hi, if_pos ho]
    main_run' [hst]
  have ho' : (strBytes fl.args.output == strBytes "") = false := by rw [strBytes_empty, decide_eq_false ho]
  refine ends_next ?_
  main_run' [ho']
  have hM : ∀ p, Tool.main fl.args (sys.world fl.args fun _ => p) fs =
      match Tool.readFile fs fl.args.input (sys.readFails 0) with
      | none => (fs, .panic)
      | some src =>
        match createExcl fs (fl.args.output ++ ".tmp") (sys.openFails 0) with
        | none => (fs, .panic)
        | some fs => afterOpen fl.args (sys.world fl.args fun _ => p) src fs := by
    intro p
    unfold Tool.main
    rw [if_neg hi, if_neg ho]
    rfl
  simp only [hM]
  have hpi := pathOf_strBytes ha.input
  have hpo := pathOf_tmp ha.output
  cases hr : Tool.readFile fs fl.args.input (sys.readFails 0) with
  | none => 
    refine ends_next ?_
    main_run' [hpi, hr, hst]
    refine ends_dies (dies_check rfl rfl rfl rfl (by go_run <;> rfl) ?_)
    refine ⟨p₀, (fun _ h => h.elim), rfl, ?_⟩
    main_run' [hst]
  | some src =>
  refine ends_next ?_
  main_run' [hpi, hr, hst]
  refine check_ok rfl rfl rfl (by go_run <;> rfl) ?_
  refine ends_next ?_
  main_run' []
  refine ends_next ?_
  main_run' []
  refine ends_next ?_
  main_run' []
  refine ends_next ?_
  main_run' [wp_init, byval_Init, callN_Init]
  refine ends_next ?_
  main_run' []
  cases hc : createExcl fs (fl.args.output ++ ".tmp") (sys.openFails 0) with
  | none => 
    refine ends_next ?_
    main_run' [wp_open, hst, hpo, hc]
    refine ends_dies (dies_check rfl rfl rfl rfl (by go_run <;> rfl) ?_)
    refine ⟨p₀, (fun src' e => hp₀ src' (hr.trans e)), rfl, ?_⟩
    main_run' [hst]
  | some fs₁ =>
  refine ends_next ?_
  main_run' [wp_open, hst, hpo, hc]
  rw [hr] at hp₀
  refine ends_mono (mid_spec (hP src hr) k _ (fs := fs) hpo (pathOf_strBytes ha.output) (pathOf_strBytes ha.types) ?_ (by main_run' []) (by main_run' []) (by main_run' []) (by main_run' [])
    (by main_run' []; omega) (by main_run' []; omega) (by main_run' []; omega) (by main_run' []; omega) (by omega) (by omega) (by omega) (by main_run' []) (by main_run' [hst]))
    fun r s ⟨p, hA, h⟩ => ⟨p, fun _ e => by cases e; exact hA, h⟩
  by_cases ht : fl.args.types = ""
  · exact .inr ⟨ht, by rw [strBytes_empty, decide_eq_true ht]⟩
  · exact .inl ⟨ht, by rw [strBytes_empty, decide_eq_false ht], pathOf_tmp ha.types⟩

/-- The model asks for what the parser does only at the file that is read. -/
theorem main_at {P : Content → Parse} {p : Parse} {a : Args} (fs : FS)
    (h : ∀ src, Tool.readFile fs a.input (sys.readFails 0) = some src → p = P src) :
    Tool.main a (sys.world a fun _ => p) fs = Tool.main a (sys.world a P) fs := by
  have hw : ∀ (l : List (Bool × Content)) po pt n fs, parseWrites (sys.world a fun _ => p) po pt n l fs = parseWrites (sys.world a P) po pt n l fs := by
    intro l
    induction l with
    | nil => intro po pt n fs; rfl
    | cons b l ih => intro po pt n fs; rw [parseWrites, parseWrites, ih]; rfl
  have hb : ∀ src, p = P src → ∀ po pt n fs, Tool.body a (sys.world a fun _ => p) src po pt n fs = Tool.body a (sys.world a P) src po pt n fs := by
    intro src h po pt n fs
    unfold Tool.body
    dsimp only
    rw [show (sys.world a fun _ => p).parse src = (sys.world a P).parse src from h, hw]
    rfl
  unfold Tool.main
  by_cases h1 : a.input = ""
  · rw [if_pos h1, if_pos h1]
  by_cases h2 : a.output = ""
  · rw [if_neg h1, if_neg h1, if_pos h2, if_pos h2]
  rw [if_neg h1, if_neg h1, if_neg h2, if_neg h2]
  show (match Tool.readFile fs a.input (sys.readFails 0) with | none => _ | some src => _) =
    (match Tool.readFile fs a.input (sys.readFails 0) with | none => _ | some src => _)
  cases hr : Tool.readFile fs a.input (sys.readFails 0) with
  | none => rfl
  | some src =>
    simp only [hb src (h src hr)]
    rfl

theorem main_does {P : Content → Parse} (hP : Does sys fl.args parse P) (ha : AsciiArgs fl.args) (k : Nat) (fs : FS) (st : St TW)
    (hst : st.world = TW.start fs) :
    ends (callN genProg (toolExt sys fl parse grow loops) (k + 2) (.fn "main" "main") [])
      (Exits (Tool.main fl.args (sys.world fl.args P) fs)) st :=
  ends_mono (main_spec (A := fun src p => p = P src) ha k fs (fun src _ => hP src) st hst) fun r s ⟨p, hp, h⟩ => by
    rw [main_at fs hp] at h
    exact h
end

end Verif.Lang
