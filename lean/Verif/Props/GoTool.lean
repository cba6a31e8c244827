/-
PROPERTY C61: the text of `main` and `refmt` (main.go:24-102).

The system, go/format, go/scanner and the parser that goyacc generates are outside the text (`Verif.Lang.ToolExt`): any
call of the system may fail.  Of the parser it is assumed that it does what `P` says (`Does`).  `Tool.main` is the model of
`main` that C43 is about.
-/
import Verif.Lang.MainSpec
import Verif.Props.Tool

namespace Verif.Props
open Verif.Lang Verif.Tool

variable {sys : Sys} {fl : ToolFlags} {parse : List V → M TW (List V)} {P : Content → Parse}

/-- The text of `main`, started on these files. -/
def runMain (sys : Sys) (fl : ToolFlags) (parse : List V → M TW (List V)) (grow : Nat → Nat → Nat) (loops depth : Nat)
    (fs : FS) : Except (Stop × St TW) (List V × St TW) :=
  callN genProg (toolExt sys fl parse grow loops) depth (.fn "main" "main") [] ⟨fun _ => .nil, 0, TW.start fs, []⟩

/-- The run returns, panics or exits, and leaves these files. -/
def Leaves' (x : FS × Status) (r : Except (Stop × St TW) (List V × St TW)) : Prop :=
  match x.2 with
  | .done => ∃ s, r = .ok ([], s) ∧ s.world.fs = x.1
  | .panic => ∃ s, r = .error (.panic, s) ∧ s.world.fs = x.1
  | .exit c => c = 1 ∧ ∃ s, r = .error (.exit, s) ∧ s.world.fs = x.1

/-- **C61** Whatever fails, the text of `main` ends as the model says, and the files are afterwards what the model says. -/
theorem C61_main (hP : Does sys fl.args parse P) (ha : AsciiArgs fl.args) (grow : Nat → Nat → Nat) (loops k : Nat) (fs : FS) :
    Leaves' (main fl.args (sys.world fl.args P) fs) (runMain sys fl parse grow loops (k + 2) fs) := by
  have h := main_does (grow := grow) (loops := loops) hP ha k fs ⟨fun _ => .nil, 0, TW.start fs, []⟩ rfl
  generalize main fl.args (sys.world fl.args P) fs = x at h
  unfold ends at h
  unfold Leaves' runMain
  generalize callN genProg (toolExt sys fl parse grow loops) (k + 2) (.fn "main" "main") [] ⟨fun _ => .nil, 0, TW.start fs, []⟩ = r at h
  rcases r with ⟨e, s⟩ | ⟨vs, s⟩
  · cases e with
    | panic => obtain rfl : x = (s.world.fs, .panic) := h; exact ⟨s, rfl, rfl⟩
    | exit => obtain rfl : x = (s.world.fs, .exit 1) := h; exact ⟨rfl, s, rfl, rfl⟩
    | _ => exact h.elim
  · obtain ⟨rfl, rfl⟩ : vs = [] ∧ x = (s.world.fs, .done) := h
    exact ⟨s, rfl, rfl⟩

/-- The files at the end. -/
def endFiles : Except (Stop × St TW) (List V × St TW) → FS
  | .ok (_, s) => s.world.fs
  | .error (_, s) => s.world.fs

/-- The run reports success. -/
def succeeds : Except (Stop × St TW) (List V × St TW) → Prop
  | .ok _ => True
  | .error _ => False

theorem Leaves'.files {x : FS × Status} {r : Except (Stop × St TW) (List V × St TW)} (h : Leaves' x r) :
    endFiles r = x.1 ∧ (succeeds r ↔ x.2 = .done) := by
  obtain ⟨fs, s⟩ := x
  cases s with
  | done => obtain ⟨s, rfl, rfl⟩ := h; exact ⟨rfl, ⟨fun _ => rfl, fun _ => trivial⟩⟩
  | panic => obtain ⟨s, rfl, rfl⟩ := h; exact ⟨rfl, ⟨fun h => h.elim, fun h => nomatch h⟩⟩
  | exit => obtain ⟨_, s, rfl, rfl⟩ := h; exact ⟨rfl, ⟨fun h => h.elim, fun h => nomatch h⟩⟩

/-- **C61** If anything goes wrong before an output file is opened, the text of `main` does not report success, and all
files are as they were. -/
theorem C61_failure (hP : Does sys fl.args parse P) (ha : AsciiArgs fl.args) (grow : Nat → Nat → Nat) (loops k : Nat) (fs : FS)
    (hr : ∀ p, sys.removeFails p = false) (hd : Distinct fl.args) (he : Early fl.args (sys.world fl.args P) fs) :
    endFiles (runMain sys fl parse grow loops (k + 2) fs) = fs ∧ ¬ succeeds (runMain sys fl parse grow loops (k + 2) fs) := by
  obtain ⟨h1, h2⟩ := (C61_main hP ha grow loops k fs).files
  obtain ⟨h3, h4⟩ := C43_failure (w := sys.world fl.args P) ⟨hr _, hr _⟩ hd he
  exact ⟨h1.trans h3, fun h => h4 (h2.mp h)⟩

/-- **C61** If the text of `main` reports success, the parser has accepted the input, the output files hold the formatted
generated text, and no other file is different. -/
theorem C61_success (hP : Does sys fl.args parse P) (ha : AsciiArgs fl.args) (grow : Nat → Nat → Nat) (loops k : Nat) (fs : FS)
    (hr : ∀ p, sys.removeFails p = false) (hd : Distinct fl.args) (h : succeeds (runMain sys fl parse grow loops (k + 2) fs)) :
    ∃ src f, fs fl.args.input = some src ∧ (P src).returns = true ∧
      sys.format (outText fl.args (sys.world fl.args P) src) = some f ∧
      endFiles (runMain sys fl parse grow loops (k + 2) fs) fl.args.output = some f ∧
      (fl.args.types = "" → ∀ p, p ≠ fl.args.output → endFiles (runMain sys fl parse grow loops (k + 2) fs) p = fs p) ∧
      (fl.args.types ≠ "" → ∃ t, sys.format (typesText fl.args (sys.world fl.args P) src) = some t ∧
        endFiles (runMain sys fl parse grow loops (k + 2) fs) fl.args.types = some t ∧
        ∀ p, p ≠ fl.args.output → p ≠ fl.args.types → endFiles (runMain sys fl parse grow loops (k + 2) fs) p = fs p) := by
  obtain ⟨h1, h2⟩ := (C61_main hP ha grow loops k fs).files
  rw [h1]
  exact C43_success (w := sys.world fl.args P) ⟨hr _, hr _⟩ hd (Prod.ext rfl (h2.mp h))

/-- **C61** Whatever happens, only the two output files can be different afterwards. -/
theorem C61_touches (hP : Does sys fl.args parse P) (ha : AsciiArgs fl.args) (grow : Nat → Nat → Nat) (loops k : Nat) (fs : FS)
    (hr : ∀ p, sys.removeFails p = false) (hd : Distinct fl.args) (p : Path) (h1 : p ≠ fl.args.output) (h2 : p ≠ fl.args.types) :
    endFiles (runMain sys fl parse grow loops (k + 2) fs) p = fs p := by
  rw [(C61_main hP ha grow loops k fs).files.1]
  exact C43_touches (w := sys.world fl.args P) ⟨hr _, hr _⟩ hd p h1 h2

/-! ### A parser -/

/-- Writes a letter to each file, and panics if there are tokens. -/
def demoParse (sys : Sys) : List V → M TW (List V) := fun _ => do
  let _ ← printTo sys TW.out (strBytes "o")
  let _ ← printTo sys TW.tout (strBytes "t")
  fun st => if st.world.toks.isEmpty then .ok ([], st) else .error (.panic, st)

def demoP (sys : Sys) : Content → Parse := fun src => ⟨[(false, strBytes "o"), (true, strBytes "t")], (sys.scan src).isEmpty⟩

theorem demo_does (sys : Sys) (a : Args) : Does sys a (demoParse sys) (demoP sys) := fun src => {
  does := by
    intro st l i j po pt h1 h2 h3 h4 h5 _ _
    refine ends_bind (ends_wp ?_)
    rw [wp_printTo, h2, file_obj, h4]
    refine ends_bind (ends_wp ?_)
    rw [wp_printTo]
    simp only [St.to, TW.printed]
    rw [h3, file_obj, h5]
    unfold ends
    simp only [h1]
    cases h : (sys.scan src).isEmpty
    · refine ⟨demoP sys src, rfl, ?_, rfl, ⟨st.world.prints + 1 + 1, sys.scan src, ?_⟩, fun _ => ⟨Nat.le_refl _, fun _ _ => rfl⟩⟩
      · simp only [demoP, h]; rfl
      · simp [demoP, parseWrites, Sys.world, ← h1]
    · refine ⟨demoP sys src, rfl, ?_, rfl, ⟨st.world.prints + 1 + 1, sys.scan src, ?_⟩, fun _ => ⟨Nat.le_refl _, fun _ _ => rfl⟩⟩
      · simp only [demoP, h]; rfl
      · simp [demoP, parseWrites, Sys.world, ← h1] }

/-- A system in which everything works; every byte is a token. -/
def demoSys : Sys where
  readFails _ := false
  openFails _ := false
  write _ := .ok
  removeFails _ := false
  short _ := none
  format c := some c
  scan c := c.map fun b => ⟨1, "token.ILLEGAL", [b]⟩

def demoFlags : ToolFlags := ⟨someArgs, ⟨false, ""⟩, false⟩

example : AsciiArgs demoFlags.args := ⟨by decide, by decide, by decide⟩

/-- A run that succeeds, computed from the text. -/
example : (match runMain demoSys demoFlags (demoParse demoSys) (fun _ _ => 0) 0 3 (someFiles.set "p.x" (some [])) with
    | .ok (_, s) => (s.world.fs "x.go", s.world.fs "t.go", s.world.fs "x.go.tmp", s.world.fs "t.go.tmp")
    | .error _ => (none, none, none, none)) =
    (some (strBytes "package p\nimport \"github.com/zeldovich/go-rpcgen/xdr\"\no"), some (strBytes "package p\nt"), none, none) := by
  decide +kernel

/-- One that fails, after writing to the temporary files. -/
example : Early demoFlags.args (demoSys.world demoFlags.args (demoP demoSys)) someFiles := .parse [1, 2] rfl rfl

end Verif.Props
