/-
PROPERTY C46: the text the generator prints (out.go, main.go:57-73) is syntactically Go — a file of the
language in exactly one way — and, read that way, it is the program of the model (Verif.Gen.Out,
Verif.Gen.Prog) about which the other properties speak.
-/
import Verif.Text.EmitSpec
import Verif.Text.ReadNames
import Verif.Props.Parsing

namespace Verif.Props
open Verif.Gen Verif.Text

/-- Not a keyword of Go, a letter, then letters and digits. -/
def goIdent (s : Ident) : Bool := wordShape (codes s) && !keywords.contains (codes s)

theorem goIdent_word {s : Ident} (h : goIdent s = true) : Word (codes s) := by
  simp only [goIdent, Bool.and_eq_true, Bool.not_eq_true'] at h
  refine ⟨?_, h.2⟩
  cases hc : codes s with
  | nil => rw [hc] at h; exact Bool.noConfusion h.1
  | cons c l =>
    rw [hc] at h
    simp only [wordShape, Bool.and_eq_true] at h
    exact ⟨c, l, rfl, h.1.1, h.1.2⟩

/-- What is on the command line makes sense: the package is an identifier, the type of constants too if it
is given. -/
def flagsOk (fl : Flags) (pkg : Ident) : Bool := goIdent pkg && (fl.constType == "" || goIdent fl.constType)

theorem flagsOk_const {fl : Flags} {pkg : Ident} (h : flagsOk fl pkg = true) : constTypeOk fl := by
  simp only [flagsOk, Bool.and_eq_true, Bool.or_eq_true, beq_iff_eq] at h
  exact h.2.imp id goIdent_word

theorem flagsOk_pkg {fl : Flags} {pkg : Ident} (h : flagsOk fl pkg = true) : Word (codes pkg) := by
  simp only [flagsOk, Bool.and_eq_true] at h
  exact goIdent_word h.1

/-- The text is a Go file, in one way, and this is what it declares. -/
def Means (t : Text) (pkg : Ident) (g : GoProg) (vs : List GoVers) : Prop :=
  ∃ f, IsGo t f ∧ (∀ f', IsGo t f' → f' = f) ∧ f.pkg = codes pkg ∧ lowFile f = some (g, vs)

/-- The two texts are Go files, in one way, and this is what they declare together. -/
def Means2 (types code : Text) (pkg : Ident) (g : GoProg) (vs : List GoVers) : Prop :=
  ∃ f f', IsGo types f ∧ (∀ k, IsGo types k → k = f) ∧ IsGo code f' ∧ (∀ k, IsGo code k → k = f') ∧
    f.pkg = codes pkg ∧ f'.pkg = codes pkg ∧ lowFiles f f' = some (g, vs)

theorem IsGo.spells {t t' : Text} {f : GFile} (h : IsGo t f) (hs : Spells t t') : IsGo t' f :=
  ⟨hs.scan h.1, h.2⟩

/-- **C46** For every specification text the generator can read, in which `type` and `map` are not printed
as they are, and sensible flags: if the model generates a program, the generator prints a text, and
whatever the spelling of the literals in it, it is syntactically Go, in one way, which declares exactly
that program. -/
theorem C46_text {fl : Flags} {pkg : Ident} {x : Text} {s : Spec} {g : GoProg} (hfl : flagsOk fl pkg = true)
    (hx : readSpec x = some s) (hr : rawOk (rawsSpec s) = true) (hg : generate fl s = some g) :
    ∃ t vs, emitOne fl pkg s = some t ∧ generateVers s = some vs ∧ ∀ t', Spells t t' → Means t' pkg g vs := by
  obtain ⟨t, f, vs, h1, h2, h3, h4, h5⟩ :=
    emitOne_file (flagsOk_const hfl) (flagsOk_pkg hfl) (names_spec (readSpec_names hx) hr) hg
  exact ⟨t, vs, h1, h4, fun t' ht => ⟨f, IsGo.spells h2 ht, fun f' h' => h'.unique (IsGo.spells h2 ht), h3, h5⟩⟩

/-- **C46** The same with `-t`, for the two files together. -/
theorem C46_two {fl : Flags} {pkg : Ident} {x : Text} {s : Spec} {g : GoProg} (hfl : flagsOk fl pkg = true)
    (hx : readSpec x = some s) (hr : rawOk (rawsSpec s) = true) (hg : generate fl s = some g) :
    ∃ t c vs, emitTwo fl pkg s = some (t, c) ∧ generateVers s = some vs ∧
      ∀ t' c', Spells t t' → Spells c c' → Means2 t' c' pkg g vs := by
  obtain ⟨t, c, f, k, vs, h1, h2, h3, h4, h5, h6, h7⟩ :=
    emitTwo_files (flagsOk_const hfl) (flagsOk_pkg hfl) (names_spec (readSpec_names hx) hr) hg
  exact ⟨t, c, vs, h1, h6, fun t' c' ht hc => ⟨f, k, IsGo.spells h2 ht,
    fun f' h' => h'.unique (IsGo.spells h2 ht), IsGo.spells h3 hc,
    fun f' h' => h'.unique (IsGo.spells h3 hc), h4, h5, h7⟩⟩

/-- **C46** The generator panics while printing exactly if the model does. -/
theorem C46_panics {fl : Flags} {pkg : Ident} {x : Text} {s : Spec} (hfl : flagsOk fl pkg = true)
    (hx : readSpec x = some s) (hr : rawOk (rawsSpec s) = true) :
    emitOne fl pkg s = none ↔ generate fl s = none := by
  rw [← emit_none (flagsOk_const hfl) (names_spec (readSpec_names hx) hr)]
  unfold emitOne
  cases wSpec fl s <;> simp

/-- Every text can be spelled out. -/
theorem spells_exist : ∀ t : Text, ∃ t', Spells t t'
  | [] => ⟨[], .nil⟩
  | c :: t => by
    obtain ⟨t', h⟩ := spells_exist t
    by_cases hc : c < lit0
    · exact ⟨c :: t', .char hc h⟩
    · obtain ⟨n, rfl⟩ : ∃ n, c = lit0 + n := ⟨c - lit0, by omega⟩
      exact ⟨decimal n ++ t', .lit (isLit_decimal n) h⟩

/-- A text with all kinds of definitions, its specification; its hypotheses are met. -/
def sample : Text := t!"const MAX = 0x10;
enum color { RED = 0, BLUE = MAX };
struct s { opaque a[MAX]; color b<>; s *next; };
union u switch (color c) { case RED: case BLUE: s p; default: void; };
typedef string name<255>;
program P { version V { void NULL(void) = 0; u GET(name) = 1; } = 2; } = 3;
"

def sampleSpec : Spec :=
  [.const "MAX" 16,
   .enum "color" [⟨"RED", .lit 0⟩, ⟨"BLUE", .ident "MAX"⟩],
   .struct "s" (.cons (.name (.opaqueArray (.ident "MAX")) "a") (.cons (.name (.varArray (.ident "color") none) "b")
     (.cons (.name (.ptr (.ident "s")) "next") .nil))),
   .union "u" (.name (.typespec (.ident "color")) "c")
     (.cons (.ident "RED") [.ident "BLUE"] (.name (.typespec (.ident "s")) "p") (.dflt .void)),
   .typedef (.name (.string (some (.lit 255))) "name"),
   .program ⟨"P", [⟨"V", [⟨"NULL", none, none, 0⟩, ⟨"GET", some (.ident "name"), some (.ident "u"), 1⟩], 2⟩], 3⟩]

example : flagsOk ⟨true, "uint32"⟩ "prot" = true ∧ readSpec sample = some sampleSpec ∧
    rawOk (rawsSpec sampleSpec) = true ∧ (generate ⟨true, "uint32"⟩ sampleSpec).isSome = true := by decide +kernel

/-- **C46** (defect) The condition on `type` and `map` is needed: scan.go takes them for identifiers, and
out.go prints names of constants and sizes as they are.  What is printed for `const type = 1;` is not Go,
however the literal is spelled. -/
theorem C46_raw_type : ∃ s t, readSpec t!"const type = 1;" = some s ∧ emitOne ⟨false, ""⟩ "p" s = some t ∧
    ∀ t', Spells t t' → ∀ f, ¬ IsGo t' f := by
  refine ⟨[.const "type" 1], _, by decide +kernel, rfl, fun t' ht f hf => ?_⟩
  have h1 : scan t' = some [kwPackage, .ident t!"p", .semi, kwImport, .str t!"github.com/zeldovich/go-rpcgen/xdr",
      .semi, kwConst, kwType, .op .assign, .int 1, .semi] := ht.scan (by decide +kernel)
  have h2 := Option.some.inj (hf.1.symm.trans h1)
  obtain ⟨N, hN⟩ := cFile f hf.2
  rw [h2] at hN
  have h3 := hN (N + 10) (by omega)
  cases h3

end Verif.Props
