/-
PROPERTY C63: the text of the whole generator, from the specification file to the Go files.

The text is that of main.go, scan.go, out.go and the actions of xdr.y.  goyacc's automaton, with any tables that pass the
check of C62, calls `Lex` and the actions (`yyParser`); it asks for a token only if the state needs one, so a panic of `Lex`
or of an action comes when it would come.  Outside the text are the operating system, of which every call may fail,
go/format, go/scanner and `fmt.Fprintf`.  The tokens of go/scanner are compared with the model's scanner by `IsTok`.
-/
import Verif.Lang.YaccDoes
import Verif.Props.GoTool
import Verif.Props.Run

namespace Verif.Props
open Verif.Lang Verif.Tool Verif.Text
open Verif.Gen (Spec Flags Ident GoProg generate generateVers)

/-- The tables of goyacc's parser: they pass the check, and are for the rules of xdr.y. -/
structure Tables (A : Lr) : Prop where
  valid : A.valid = true
  rules : A.rules = xdrRules

variable {A : Lr} {sys : Sys} {fl : ToolFlags}

/-- The text of the generator, run on these files. -/
noncomputable def runTool (A : Lr) (sys : Sys) (fl : ToolFlags) (grow : Nat → Nat → Nat) (loops depth : Nat) (fs : FS) :
    Except (Stop × St TW) (List V × St TW) :=
  runMain sys fl (yyParser A xdrGrammar ycode (innerExt sys fl grow loops)) grow loops depth fs

/-- What is read from the input file, if anything. -/
def Input (sys : Sys) (a : Args) (fs : FS) (src : Content) : Prop := Tool.readFile fs a.input (sys.readFails 0) = some src

/-- The run ends as the model of `main` says for a parser of which `B` is true. -/
theorem tool_main {w : List Tk} (hA : Tables A) (hfl : ∀ c ∈ fl.gen.constType.toList, c.toNat < 128) (ha : AsciiArgs fl.args)
    (grow : Nat → Nat → Nat) (loops k : Nat) (fs : FS) (hF : ∀ src, Input sys fl.args fs src → Feed (sys.scan src) w) :
    ∃ p, (∀ src, Input sys fl.args fs src → ParseOutcome fl.gen w p) ∧
      Leaves' (main fl.args (sys.world fl.args fun _ => p) fs) (runTool A sys fl grow loops (k + 2) fs) := by
  have h := main_spec (grow := grow) (loops := loops) (A := fun _ p => ParseOutcome fl.gen w p) ha k fs
    (fun src hs => parser_does (grow := grow) (loops := loops) hA.valid hA.rules hfl (hF src hs)) ⟨fun _ => .nil, 0, TW.start fs, []⟩ rfl
  unfold Lang.ends at h
  unfold runTool runMain
  generalize callN genProg _ (k + 2) (.fn "main" "main") [] ⟨fun _ => .nil, 0, TW.start fs, []⟩ = r at h
  rcases r with ⟨e, s⟩ | ⟨vs, s⟩
  · obtain ⟨p, hp, h⟩ := h
    refine ⟨p, hp, ?_⟩
    generalize main fl.args (sys.world fl.args fun _ => p) fs = x at h
    cases e with
    | panic => obtain rfl : x = (s.world.fs, .panic) := h; exact ⟨s, rfl, rfl⟩
    | exit => obtain rfl : x = (s.world.fs, .exit 1) := h; exact ⟨rfl, s, rfl, rfl⟩
    | _ => exact h.elim
  · obtain ⟨p, hp, h⟩ := h
    refine ⟨p, hp, ?_⟩
    generalize main fl.args (sys.world fl.args fun _ => p) fs = x at h
    obtain ⟨rfl, rfl⟩ : vs = [] ∧ x = (s.world.fs, .done) := h
    exact ⟨s, rfl, rfl⟩

theorem forall2_all2 {α β : Type} {P Q : α → β → Prop} (h : ∀ a b, P a b → Q a b) : ∀ {l : List α} {l' : List β}, All2 P l l' → List.Forall₂ Q l l'
  | _, _, .nil => .nil
  | _, _, .cons h1 h2 => .cons (h _ _ h1) (forall2_all2 h h2)

/-- go/scanner finds in the file the tokens that the model's scanner finds. -/
def Scans (sys : Sys) (src : Content) : Prop := ∀ ts, scan (chars src) = some ts → All2 IsTok ts (sys.scan src)

/-- go/format accepts what is syntactically Go, and what it returns declares the same. -/
structure FormatsGo (sys : Sys) : Prop where
  formats : ∀ c f, IsGo (chars c) f → (sys.format c).isSome = true
  keeps : ∀ c d f, sys.format c = some d → IsGo (chars c) f → ∃ f', IsGo (chars d) f' ∧
    f'.pkg = f.pkg ∧ f'.imports = f.imports ∧ ∀ st, lowDs st f'.decls = lowDs st f.decls

theorem readFile_fs {fs : FS} {p : Path} {b : Bool} {src : Content} (h : Tool.readFile fs p b = some src) : fs p = some src := by
  unfold Tool.readFile at h
  split at h
  · cases h
  · exact h

theorem const_ascii {f : Flags} {pkg : Ident} (h : flagsOk f pkg = true) : ∀ c ∈ f.constType.toList, c.toNat < 128 := by
  rcases flagsOk_const h with h | h
  · rw [h]; decide
  · intro c hc
    obtain ⟨d, l, e, h1, h2⟩ := h.ex
    have : c.toNat ∈ codes f.constType := List.mem_map_of_mem hc
    rw [e] at this
    have : alnum c.toNat = true := by
      rcases List.mem_cons.mp this with e | h
      · rw [e]; simp [alnum, h1]
      · exact List.all_eq_true.mp h2 _ h
    simp only [alnum, isLetter, isDigit, Bool.or_eq_true, Bool.and_eq_true, Nat.ble_eq, Nat.beq_eq] at this
    omega

/-- On a file of which the model's scanner makes tokens. -/
theorem tool_calls {src : Content} {ts : List Verif.Text.Tok} (hA : Tables A) (hfl : flagsOk fl.gen fl.args.pkg = true) (ha : AsciiArgs fl.args)
    (grow : Nat → Nat → Nat) (loops k : Nat) (fs : FS) (hin : fs fl.args.input = some src) (hs : Scans sys src)
    (ht : scan (chars src) = some ts) :
    ∃ p : Parse, (sys.readFails 0 = false → match readSpec (chars src) with
        | some s => match wSpec fl.gen s with
          | some ws => p.returns = true ∧ List.Forall₂ (fun a b => a.1 = b.1 ∧ Spells a.2 (chars b.2)) ws p.writes
          | none => p.returns = false
        | none => p.returns = false) ∧
      Leaves' (main fl.args (sys.world fl.args fun _ => p) fs) (runTool A sys fl grow loops (k + 2) fs) := by
  obtain ⟨w, hw, hx⟩ := feed_toks sys fl (hs ts ht)
  obtain ⟨p, hp, hl⟩ := tool_main (w := w) (sys := sys) (fl := fl) hA (const_ascii hfl) ha grow loops k fs fun src' h => by
    have := (readFile_fs h).symm.trans hin
    cases this
    exact hw
  refine ⟨p, fun hr => ?_, hl⟩
  have ho := hp src (by unfold Input Tool.readFile; rw [hr]; exact hin)
  unfold readSpec
  rw [ht]
  dsimp only
  cases hl : lexAll ts with
  | none => rw [hl] at hx; exact parseOutcome_bad ho hx
  | some xs =>
    rw [hl] at hx
    dsimp only
    cases hd : parseXdr xs with
    | none =>
      dsimp only
      cases hret : p.returns with
      | false => rfl
      | true =>
        obtain ⟨s, h1, _⟩ := (ho.back hret).2 xs hx
        rw [(C45_parse xs s).mpr h1] at hd
        cases hd
    | some s =>
      have h1 := ho.spec xs s hx ((C45_parse xs s).mp hd)
      dsimp only
      cases hws : wSpec fl.gen s with
      | none => rw [hws] at h1; exact h1
      | some ws =>
        rw [hws] at h1
        exact ⟨h1.1, forall2_all2 (fun a b h => h) h1.2⟩

theorem readSpec_scan {t : Text} {s : Spec} (h : readSpec t = some s) : ∃ ts, scan t = some ts := by
  unfold readSpec at h
  cases hs : scan t with
  | some ts => exact ⟨ts, rfl⟩
  | none => rw [hs] at h; cases h

/-- Removing files works. -/
def Removes (sys : Sys) : Prop := ∀ p, sys.removeFails p = false

/-- No call of the system fails. -/
structure Works (sys : Sys) (a : Args) (fs : FS) : Prop where
  reads : ∀ n, sys.readFails n = false
  opens : ∀ n, sys.openFails n = false
  writes : ∀ n, sys.write n = .ok
  prints : ∀ n, sys.short n = none
  out : fs (a.output ++ ".tmp") = none
  types : fs (a.types ++ ".tmp") = none

/-- **C63** For a specification in the language, without a type that has no codec, the text of the generator succeeds,
unless a call of the system fails, -/
theorem C63_succeeds {src : Content} {s : Spec} {g : GoProg} (hA : Tables A) (ha : AsciiArgs fl.args)
    (hfl : flagsOk fl.gen fl.args.pkg = true) (hf : FormatsGo sys) (hs : Scans sys src) (grow : Nat → Nat → Nat) (loops k : Nat) {fs : FS}
    (hw : Works sys fl.args fs) (hr : Removes sys) (hd : Distinct fl.args) (hi : fl.args.input ≠ "") (ho : fl.args.output ≠ "")
    (hin : fs fl.args.input = some src) (hx : readSpec (chars src) = some s) (hraw : rawOk (rawsSpec s) = true)
    (hg : generate fl.gen s = some g) : succeeds (runTool A sys fl grow loops (k + 2) fs) := by
  obtain ⟨ts, ht⟩ := readSpec_scan hx
  obtain ⟨p, hp, hl⟩ := tool_calls (sys := sys) hA hfl ha grow loops k fs hin hs ht
  have hp := hp (hw.reads 0)
  rw [hx] at hp
  refine hl.files.2.mpr (C47_succeeds (w := sys.world fl.args fun _ => p) (src := src) (s := s) (g := g) ⟨fun s' h => ?_, hf.formats, hf.keeps⟩
    hw.prints ⟨hr _, hr _⟩ hd hfl hi ho
    ⟨hw.reads _, hw.opens _, hw.opens _, hw.reads _, hw.reads _, hw.writes _, hw.writes _, hw.out, hw.types⟩ hin hx hraw hg)
  rw [hx] at h
  cases h
  exact hp

/-- **C63** and if it succeeds, the output file (or the two output files) are Go, in one way, and declare exactly the
program of the model for the specification in the input file. -/
theorem C63_output {src : Content} {s : Spec} {g : GoProg} (hA : Tables A) (ha : AsciiArgs fl.args)
    (hfl : flagsOk fl.gen fl.args.pkg = true) (hf : FormatsGo sys) (hs : Scans sys src) (grow : Nat → Nat → Nat) (loops k : Nat) {fs : FS}
    (hw : ∀ n, sys.short n = none) (hr : Removes sys) (hd : Distinct fl.args)
    (hin : fs fl.args.input = some src) (hx : readSpec (chars src) = some s) (hraw : rawOk (rawsSpec s) = true)
    (hg : generate fl.gen s = some g) (hm : succeeds (runTool A sys fl grow loops (k + 2) fs)) :
    ∃ vs code, generateVers s = some vs ∧ endFiles (runTool A sys fl grow loops (k + 2) fs) fl.args.output = some code ∧
      (fl.args.types = "" → Means (chars code) fl.args.pkg g vs) ∧
      (fl.args.types ≠ "" → ∃ types, endFiles (runTool A sys fl grow loops (k + 2) fs) fl.args.types = some types ∧
        Means2 (chars types) (chars code) fl.args.pkg g vs) := by
  obtain ⟨ts, ht⟩ := readSpec_scan hx
  obtain ⟨p, hp, hl⟩ := tool_calls (sys := sys) hA hfl ha grow loops k fs hin hs ht
  obtain ⟨h1, h2⟩ := hl.files
  have hdone := h2.mp hm
  have hread : sys.readFails 0 = false := by
    cases hr0 : sys.readFails 0 with
    | false => rfl
    | true =>
      exact absurd hdone (C43_failure (w := sys.world fl.args fun _ => p) ⟨hr _, hr _⟩ hd (.unreadable (.inl hr0))).2
  have hp := hp hread
  rw [hx] at hp
  rw [h1]
  refine C47_output (w := sys.world fl.args fun _ => p) (src := src) (s := s) (g := g) ⟨fun s' h => ?_, hf.formats, hf.keeps⟩
    hw ⟨hr _, hr _⟩ hd hfl hin hx hraw hg (Prod.ext rfl hdone)
  rw [hx] at h
  cases h
  exact hp

theorem tool_fails {fs : FS} {p : Parse} {src : Content} {r} (hr : Removes sys) (hd : Distinct fl.args) (hin : fs fl.args.input = some src)
    (hp : sys.readFails 0 = false → p.returns = false) (hl : Leaves' (main fl.args (sys.world fl.args fun _ => p) fs) r) :
    endFiles r = fs ∧ ¬ succeeds r := by
  obtain ⟨h1, h2⟩ := hl.files
  have he : Early fl.args (sys.world fl.args fun _ => p) fs := by
    cases hr0 : sys.readFails 0 with
    | true => exact .unreadable (.inl hr0)
    | false => exact .parse src hin (hp hr0)
  obtain ⟨h3, h4⟩ := C43_failure (w := sys.world fl.args fun _ => p) ⟨hr _, hr _⟩ hd he
  exact ⟨h1.trans h3, fun h => h4 (h2.mp h)⟩

/-- **C63** If the input is not in the language, the text of the generator does not succeed, and all files are as they
were, -/
theorem C63_rejects {src : Content} {ts : List Verif.Text.Tok} (hA : Tables A) (ha : AsciiArgs fl.args)
    (hfl : flagsOk fl.gen fl.args.pkg = true) (hs : Scans sys src) (grow : Nat → Nat → Nat) (loops k : Nat) {fs : FS}
    (hr : Removes sys) (hd : Distinct fl.args) (hin : fs fl.args.input = some src) (ht : scan (chars src) = some ts)
    (hx : readSpec (chars src) = none) :
    endFiles (runTool A sys fl grow loops (k + 2) fs) = fs ∧ ¬ succeeds (runTool A sys fl grow loops (k + 2) fs) := by
  obtain ⟨p, hp, hl⟩ := tool_calls (sys := sys) hA hfl ha grow loops k fs hin hs ht
  rw [hx] at hp
  exact tool_fails hr hd hin hp hl

/-- **C63** or if it has a type without codec, -/
theorem C63_refuses {src : Content} {s : Spec} (hA : Tables A) (ha : AsciiArgs fl.args)
    (hfl : flagsOk fl.gen fl.args.pkg = true) (hs : Scans sys src) (grow : Nat → Nat → Nat) (loops k : Nat) {fs : FS}
    (hr : Removes sys) (hd : Distinct fl.args) (hin : fs fl.args.input = some src) (hx : readSpec (chars src) = some s)
    (hraw : rawOk (rawsSpec s) = true) (hg : generate fl.gen s = none) :
    endFiles (runTool A sys fl grow loops (k + 2) fs) = fs ∧ ¬ succeeds (runTool A sys fl grow loops (k + 2) fs) := by
  obtain ⟨ts, ht⟩ := readSpec_scan hx
  obtain ⟨p, hp, hl⟩ := tool_calls (sys := sys) hA hfl ha grow loops k fs hin hs ht
  rw [hx] at hp
  dsimp only at hp
  rw [(emit_none (flagsOk_const hfl) (names_spec (readSpec_names hx) hraw)).mpr hg] at hp
  exact tool_fails hr hd hin hp hl

/-- **C63** or if there is a token in it that `Lex` has no case for, such as `token.ILLEGAL`, whatever comes after it. -/
theorem C63_unknown {src : Content} {ts : List Verif.Text.Tok} {scs scs' : List Scanned} {sc : Scanned} (hA : Tables A) (ha : AsciiArgs fl.args)
    (hfl : flagsOk fl.gen fl.args.pkg = true) (grow : Nat → Nat → Nat) (loops k : Nat) {fs : FS}
    (hr : Removes sys) (hd : Distinct fl.args) (hin : fs fl.args.input = some src)
    (hs : sys.scan src = scs ++ sc :: scs') (ht : All2 IsTok ts scs) (hu : Unknown sc) :
    endFiles (runTool A sys fl grow loops (k + 2) fs) = fs ∧ ¬ succeeds (runTool A sys fl grow loops (k + 2) fs) := by
  obtain ⟨w, hw, hb⟩ := feed_unknown (scs' := scs') ht hu
  obtain ⟨p, hp, hl⟩ := tool_main (w := w) (sys := sys) (fl := fl) hA (const_ascii hfl) ha grow loops k fs fun src' h => by
    have := (readFile_fs h).symm.trans hin
    cases this
    rw [hs]
    exact hw
  refine tool_fails hr hd hin (fun h0 => parseOutcome_bad (hp src ?_) hb) hl
  unfold Input Tool.readFile
  rw [h0]
  exact hin

/-- **C63** Whatever fails, the text of the generator returns, panics or exits with status 1, and only the output files can
be different afterwards. -/
theorem C63_touches {src : Content} {ts : List Verif.Text.Tok} (hA : Tables A) (ha : AsciiArgs fl.args)
    (hfl : flagsOk fl.gen fl.args.pkg = true) (hs : Scans sys src) (grow : Nat → Nat → Nat) (loops k : Nat) {fs : FS}
    (hr : Removes sys) (hd : Distinct fl.args) (hin : fs fl.args.input = some src) (ht : scan (chars src) = some ts) :
    (∃ x, Leaves' x (runTool A sys fl grow loops (k + 2) fs)) ∧ ∀ p, p ≠ fl.args.output → p ≠ fl.args.types →
      endFiles (runTool A sys fl grow loops (k + 2) fs) p = fs p := by
  obtain ⟨p, _, hl⟩ := tool_calls (sys := sys) hA hfl ha grow loops k fs hin hs ht
  refine ⟨⟨_, hl⟩, fun q h1 h2 => ?_⟩
  rw [hl.files.1]
  exact C43_touches (w := sys.world fl.args fun _ => p) ⟨hr _, hr _⟩ hd q h1 h2

/-! ### A case -/

/-- Tokens as go/scanner would return them, literals in decimal. -/
def showTok : Verif.Text.Tok → Scanned
  | .ident s => ⟨0, "token.IDENT", s.map UInt8.ofNat⟩
  | .kw s => ⟨0, "token." ++ (kwNames.lookup s).getD "", []⟩
  | .int n => ⟨0, "token.INT", (decimal n).map UInt8.ofNat⟩
  | .str s => ⟨0, "token.STRING", s.map UInt8.ofNat⟩
  | .op o => ⟨0, "token." ++ opName o, []⟩
  | .semi => ⟨0, "token.SEMICOLON", []⟩

/-- The words are those of Go, and names are ASCII. -/
def tokOk : Verif.Text.Tok → Bool
  | .ident s => !s.isEmpty && s.all fun c => c < 128
  | .kw s => (kwNames.lookup s).isSome
  | _ => true

theorem mem_lookup {l : List (Text × String)} {s : Text} {n : String} (h : l.lookup s = some n) : (s, n) ∈ l := by
  induction l with
  | nil => cases h
  | cons a l ih =>
    obtain ⟨t, m⟩ := a
    rw [List.lookup_cons] at h
    split at h
    · rename_i he
      cases h
      rw [beq_iff_eq.mp he]
      exact List.mem_cons_self
    · exact List.mem_cons_of_mem _ (ih h)

theorem showTok_is {t : Verif.Text.Tok} (h : tokOk t = true) : IsTok t (showTok t) := by
  cases t with
  | ident s =>
    simp only [tokOk, Bool.and_eq_true, Bool.not_eq_true', List.all_eq_true, decide_eq_true_eq, List.isEmpty_eq_false_iff] at h
    exact .ident (chars_ofNat fun c hc => Nat.lt_trans (h.2 c hc) (by decide)) h.1 h.2
  | kw s =>
    obtain ⟨n, hn⟩ := Option.isSome_iff_exists.mp h
    have : showTok (.kw s) = ⟨0, "token." ++ n, []⟩ := by rw [showTok, hn]; rfl
    rw [this]
    exact .kw (mem_lookup hn)
  | int n =>
    refine .int ?_
    show isLit (chars _) n = true
    rw [chars_ofNat (decimal_lt n)]
    exact isLit_decimal n
  | str => exact .str
  | op o => exact .op
  | semi => exact .semi

theorem showToks : ∀ {ts : List Verif.Text.Tok}, ts.all tokOk = true → All2 IsTok ts (ts.map showTok)
  | [], _ => .nil
  | t :: ts, h => by
    rw [List.all_cons, Bool.and_eq_true] at h
    exact .cons (showTok_is h.1) (showToks h.2)

/-- A system in which everything works. -/
def goSys : Sys where
  readFails _ := false
  openFails _ := false
  write _ := .ok
  removeFails _ := false
  short _ := none
  format c := some c
  scan c := match scan (chars c) with
    | some ts => ts.map showTok
    | none => [⟨0, "token.ILLEGAL", []⟩]

def goFlags : ToolFlags := ⟨someArgs, ⟨true, "uint32"⟩, false⟩

theorem xdr_tables : Tables xdrLr := ⟨xdrLr_valid, rfl⟩

theorem goSys_scans {src : Content} {ts : List Verif.Text.Tok} (h : scan (chars src) = some ts) (hk : ts.all tokOk = true) : Scans goSys src :=
  fun ts' h' => by
    rw [h] at h'
    cases h'
    show All2 IsTok ts (match scan (chars src) with | some ts => ts.map showTok | none => _)
    rw [h]
    exact showToks hk

theorem goSys_formats : FormatsGo goSys :=
  ⟨fun _ _ _ => rfl, fun c d f h hf => by cases h; exact ⟨f, hf, rfl, rfl, fun _ => rfl⟩⟩

def fileToks : List Verif.Text.Tok := (scan (chars sampleFile)).getD []
theorem sample_toks : scan (chars sampleFile) = some fileToks := by decide +kernel
theorem sample_ok : fileToks.all tokOk = true := by decide +kernel

/-- All hypotheses are met: the run succeeds, and the two files declare the program. -/
example : ∃ g vs code types, generate ⟨true, "uint32"⟩ sampleSpec = some g ∧ generateVers sampleSpec = some vs ∧
    endFiles (runTool xdrLr goSys goFlags (fun _ _ => 0) 0 2 (someFiles.set "p.x" (some sampleFile))) someArgs.output = some code ∧
    endFiles (runTool xdrLr goSys goFlags (fun _ _ => 0) 0 2 (someFiles.set "p.x" (some sampleFile))) someArgs.types = some types ∧
    Means2 (chars types) (chars code) someArgs.pkg g vs := by
  obtain ⟨g, hg⟩ := Option.isSome_iff_exists.mp (by decide +kernel : (generate ⟨true, "uint32"⟩ sampleSpec).isSome = true)
  have hw : Works goSys goFlags.args (someFiles.set "p.x" (some sampleFile)) :=
    ⟨fun _ => rfl, fun _ => rfl, fun _ => rfl, fun _ => rfl, by decide +kernel, by decide +kernel⟩
  have ha : AsciiArgs goFlags.args := ⟨by decide, by decide, by decide⟩
  have hs := goSys_scans sample_toks sample_ok
  have hfl : flagsOk goFlags.gen goFlags.args.pkg = true := by decide +kernel
  have hin : (someFiles.set "p.x" (some sampleFile)) goFlags.args.input = some sampleFile := rfl
  generalize someFiles.set "p.x" (some sampleFile) = fs at hw hin ⊢
  have h := C63_succeeds xdr_tables ha hfl goSys_formats hs (fun _ _ => 0) 0 0 hw (fun _ => rfl) some_distinct (by decide) (by decide) hin sample_read
    (by decide +kernel) hg
  obtain ⟨vs, code, h1, h2, _, h3⟩ := C63_output xdr_tables ha hfl goSys_formats hs (fun _ _ => 0) 0 0 hw.prints (fun _ => rfl) some_distinct hin sample_read
    (by decide +kernel) hg h
  obtain ⟨types, h4, h5⟩ := h3 (by decide)
  exact ⟨g, vs, code, types, hg, h1, h2, h4, h5⟩

def shortFile : Content := strBytes "struct s { unsigned int f<0x10>; };"

/-- The two files, computed from the text with goyacc's tables (and a bound on the number of steps). -/
example : (match runMain goSys goFlags (yyParse xdrLr xdrGrammar ycode (innerExt goSys goFlags (fun _ _ => 0) 0) 60) (fun _ _ => 0) 0 3
      (someFiles.set "p.x" (some shortFile)) with
    | .ok (_, s) => s.world.fs "t.go"
    | .error _ => none) =
    some (strBytes "package p\ntype S struct {\n  F []uint32;\n}\n") := by
  decide +kernel

/-- Not in the language. -/
example : scan (chars (strBytes "struct s { int; };")) = some [.kw t!"struct", .ident t!"s", .op .lbrace, .ident t!"int", .semi, .op .rbrace, .semi] ∧
    readSpec (chars (strBytes "struct s { int; };")) = none := by decide +kernel

/-- A type without codec. -/
example : (match readSpec (chars (strBytes "struct s { float f; };")) with
    | some s => rawOk (rawsSpec s) && (generate ⟨true, "uint32"⟩ s).isNone
    | none => false) = true := by decide +kernel

/-- A token without a case. -/
example : Unknown ⟨0, "token.ILLEGAL", []⟩ := ⟨by decide, by decide +kernel⟩

end Verif.Props
