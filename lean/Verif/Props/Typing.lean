/-
PROPERTIES C23 and C48: when the Go compiler accepts the generated package.  The rules of the compiler are
those of Verif.Spec.GoStatic.
-/
import Verif.Gen.FixedArray
import Verif.Props.Run
import Verif.Props.ShippedText
import Verif.Props.Demo

namespace Verif.Props
open Verif.Gen Verif.Spec Verif.Text

/-! ### C48: specifications for which the package compiles -/

theorem generateVers_isSome {fl : Flags} : ∀ {s : Spec} {g : GoProg}, generate fl s = some g →
    ∃ vs, generateVers s = some vs
  | [], _, _ => ⟨[], rfl⟩
  | d :: s, g, h => by
    simp only [generate] at h
    obtain ⟨a, ha, h⟩ := bind_some h
    obtain ⟨b, hb, h⟩ := bind_some h
    obtain ⟨vs, hvs⟩ := generateVers_isSome hb
    cases d with
    | program p =>
      simp only [emitDefn] at ha
      split at ha
      · rename_i hp
        rw [← emitProg_isSome] at hp
        obtain ⟨v1, h1⟩ := Option.isSome_iff_exists.mp hp
        exact ⟨v1 ++ vs, by simp [generateVers, h1, hvs]⟩
      · cases ha
    | _ => exact ⟨vs, hvs⟩

/-- **C48** For every specification that passes the decidable check `compilable`, the generator produces a
package, and the package satisfies the static rules of Go. -/
theorem C48_compiles {fl : Flags} {s : Spec} (h : compilable fl s = true) :
    ∃ g vs, generate fl s = some g ∧ generateVers s = some vs ∧ pkgOk g vs = true := by
  have hs : supported fl s = true := by
    simp only [compilable, Bool.and_eq_true] at h
    exact h.1.1.1.1
  cases hg : generate fl s with
  | none => simp [supported, hg] at hs
  | some g =>
    obtain ⟨vs, hv⟩ := generateVers_isSome hg
    exact ⟨g, vs, rfl, hv, pkgOk_of hg hv h⟩

/-- The text is a Go file in one way, and what it declares compiles. -/
def CompilesAs (t : Text) (pkg : Ident) : Prop := ∃ g vs, Means t pkg g vs ∧ pkgOk g vs = true

/-- The two texts are Go files of one package, and what they declare compiles. -/
def CompilesAs2 (t c : Text) (pkg : Ident) : Prop := ∃ g vs, Means2 t c pkg g vs ∧ pkgOk g vs = true

/-- **C48** The same about the text: what is printed for a text `x` that reads as such a specification is
Go that compiles, however the generator spells the literals. -/
theorem C48_text {fl : Flags} {pkg : Ident} {x : Text} {s : Spec} (hfl : flagsOk fl pkg = true)
    (hx : readSpec x = some s) (hr : rawOk (rawsSpec s) = true) (hc : compilable fl s = true) :
    (∃ t, emitOne fl pkg s = some t ∧ ∀ t', Spells t t' → CompilesAs t' pkg) ∧
    ∃ t c, emitTwo fl pkg s = some (t, c) ∧ ∀ t' c', Spells t t' → Spells c c' → CompilesAs2 t' c' pkg := by
  obtain ⟨g, vs, hg, hv, hok⟩ := C48_compiles hc
  obtain ⟨t, vs1, h1, h2, h3⟩ := C46_text hfl hx hr hg
  obtain ⟨u, c, vs2, k1, k2, k3⟩ := C46_two hfl hx hr hg
  rw [hv] at h2 k2
  cases h2; cases k2
  exact ⟨⟨t, h1, fun t' ht => ⟨g, vs, h3 t' ht, hok⟩⟩,
    ⟨u, c, k1, fun t' c' ht hc' => ⟨g, vs, k3 t' c' ht hc', hok⟩⟩⟩

example : compilable Demo.fl Demo.spec = true := by decide +kernel

/-! ### The shipped packages -/

theorem compilable_of {fl : Flags} {s : Spec} (h : supported fl s = true)
    (h' : (decide (s.flatMap defnNames).Nodup &&
      ((s.flatMap defnNames).all fun n => decide (n ∉ badNames)) &&
      s.all (Defn.chk fl s) && s.any Defn.usesXdr) = true) : compilable fl s = true := by
  simp only [Bool.and_eq_true] at h'
  simp only [compilable, Bool.and_eq_true]
  exact ⟨⟨⟨⟨h, h'.1.1.1⟩, h'.1.1.2⟩, h'.1.2⟩, h'.2⟩

/-- **C48** The shipped packages compile: the checked-in prot.x files pass the check, and the checked-in
Go code satisfies the static rules. -/
theorem C48_shipped :
    (compilable Inst.fl Inst.Rfc1057.spec = true ∧ pkgOk Inst.Rfc1057.prog Inst.Rfc1057.goVers = true) ∧
    (compilable Inst.fl Inst.Rfc1813.spec = true ∧ pkgOk Inst.Rfc1813.prog Inst.Rfc1813.goVers = true) := by
  have h1 : compilable Inst.fl Inst.Rfc1057.spec = true :=
    compilable_of Inst.Rfc1057.supp (by decide +kernel)
  have h2 : compilable Inst.fl Inst.Rfc1813.spec = true :=
    compilable_of Inst.Rfc1813.supp (by decide +kernel)
  exact ⟨⟨h1, pkgOk_of Inst.Rfc1057.gen Inst.Rfc1057.genVers h1⟩,
    ⟨h2, pkgOk_of Inst.Rfc1813.gen Inst.Rfc1813.genVers h2⟩⟩

/-! ### Specifications that the generator takes and the Go compiler does not -/

/-- The generator reads the text and prints a package that Go refuses. -/
def Refused (fl : Flags) (x : Text) : Prop :=
  ∃ s g vs, readSpec x = some s ∧ generate fl s = some g ∧ generateVers s = some vs ∧ pkgOk g vs = false

def refused (fl : Flags) (x : Text) : Bool :=
  match readSpec x with
  | none => false
  | some s =>
    match generate fl s, generateVers s with
    | some g, some vs => !pkgOk g vs
    | _, _ => false

theorem refused_iff {fl : Flags} {x : Text} (h : refused fl x = true) : Refused fl x := by
  unfold refused at h
  cases hx : readSpec x with
  | none => simp [hx] at h
  | some s =>
    cases hg : generate fl s with
    | none => simp [hx, hg] at h
    | some g =>
      cases hv : generateVers s with
      | none => simp [hx, hg, hv] at h
      | some vs => exact ⟨s, g, vs, hx, hg, hv, by simpa [hx, hg, hv] using h⟩

/-- No flags. -/
def fl0 : Flags := ⟨false, ""⟩

/-- **C48** Names: a field called `xdr` collides with the method, a field `_` cannot be selected, names
that differ in the case of the first letter become equal, a type and a constant share a name, `TRUE`
hides `true`. -/
theorem C48_names :
    Refused fl0 t!"struct s { int xdr; };" ∧
    Refused fl0 t!"struct s { int _; };" ∧
    Refused fl0 t!"struct s { int a; int A; };" ∧
    Refused fl0 t!"typedef int a; typedef int A;" ∧
    Refused fl0 t!"typedef int A; const A = 1;" ∧
    Refused fl0 t!"typedef int TRUE;" ∧
    Refused fl0 t!"typedef int __arraysz; struct s { __arraysz a<>; };" :=
  ⟨refused_iff (by decide +kernel), refused_iff (by decide +kernel), refused_iff (by decide +kernel),
   refused_iff (by decide +kernel), refused_iff (by decide +kernel), refused_iff (by decide +kernel),
   refused_iff (by decide +kernel)⟩

/-- **C48** Constants: an enumerator or a constant of another type than `uint32` as the maximal size of an
array, labels of another type than the discriminant, equal labels, values out of range, an enumerator
defined by one of another enumeration or by a constant with a type. -/
theorem C48_consts :
    Refused fl0 t!"enum e { A = 3 }; struct s { int a<A>; };" ∧
    Refused ⟨false, "int"⟩ t!"const A = 3; struct s { int a<A>; };" ∧
    Refused fl0 t!"enum e { A = 3 }; union u switch (unsigned int k) { case A: void; };" ∧
    Refused ⟨false, "uint32"⟩ t!"const A = 3; union u switch (int k) { case A: void; };" ∧
    Refused fl0 t!"union u switch (int k) { case 1: void; case 1: int x; };" ∧
    Refused fl0 t!"union u switch (int k) { case 4294967295: void; };" ∧
    Refused fl0 t!"enum e { A = 4294967295 };" ∧
    Refused ⟨false, "uint32"⟩ t!"const A = 4294967296; typedef int t;" ∧
    Refused fl0 t!"enum d { A = 1 }; enum e { B = A };" ∧
    Refused ⟨false, "uint32"⟩ t!"const A = 1; enum e { B = A };" :=
  ⟨refused_iff (by decide +kernel), refused_iff (by decide +kernel), refused_iff (by decide +kernel),
   refused_iff (by decide +kernel), refused_iff (by decide +kernel), refused_iff (by decide +kernel),
   refused_iff (by decide +kernel), refused_iff (by decide +kernel), refused_iff (by decide +kernel),
   refused_iff (by decide +kernel)⟩

/-- **C48** Whole files: only constants (package `xdr` is imported and not used), a version without
procedures (`w` is declared and not used), two procedures of one name, arguments that are not declared
types. -/
theorem C48_files :
    Refused fl0 t!"const A = 1;" ∧
    Refused fl0 t!"program p { version v { } = 1; } = 2;" ∧
    Refused fl0 t!"program p { version v { void f(void) = 1; void f(void) = 2; } = 1; } = 2;" ∧
    Refused fl0 t!"program p { version v { void f(int) = 1; } = 1; } = 2;" :=
  ⟨refused_iff (by decide +kernel), refused_iff (by decide +kernel), refused_iff (by decide +kernel),
   refused_iff (by decide +kernel)⟩

/-! ### C23: fixed-length arrays -/

/-- **C23** A specification with a fixed-length array of anything but `opaque`, anywhere in a definition and
of any size, yields a package that does not compile — unless the elements are inline structures without any
content. -/
theorem C23_fixed {fl : Flags} {s : Spec} {g : GoProg} {d : Defn} (hg : generate fl s = some g) (hd : d ∈ s)
    (hf : d.hasFixed = true) (vs : List GoVers) : pkgOk g vs = false :=
  fixed_pkg hg hd hf

/-- **C23** The reason: in a generated package, and wherever the local variables are of types that generated
methods use, the expression for an element has no type, because elements are not pointers. -/
theorem C23_element {fl : Flags} {s : Spec} {g : GoProg} (hg : generate fl s = some g) (T : Ident) {Γ : Scope}
    (hΓ : ∀ x t, Γ.find x = some (.val t) → t = .uint32 ∨ t = .uint64 ∨ t = .bool) (p : Ex) :
    exTy g T Γ (fixedElemPtr p) = none :=
  fixedElem_none (generate_good hg) (fun x t h => by rcases hΓ x t h with rfl | rfl | rfl <;> rfl) p

/-- An array in a structure behind a pointer in a union in an array. -/
def deep : Spec :=
  [.struct "s" (.cons (.name (.varArray (.union (.name (.typespec .bool) "b")
    (.cons (.ident "TRUE") [] (.name (.ptr (.struct (.cons (.name (.array (.int false) (.lit 3)) "a") .nil))) "p")
    .nil)) none) "x") .nil)]

example : readSpec t!"struct s { union switch (bool b) { case TRUE: struct { int a[3]; } *p; } x<>; };" =
    some deep ∧ (generate fl0 deep).isSome = true ∧ ∃ d ∈ deep, d.hasFixed = true :=
  ⟨by decide +kernel, by decide +kernel, _, List.mem_singleton.mpr rfl, by decide⟩

/-- An array of structures of nothing. -/
def hollow : Spec :=
  [.struct "s" (.cons (.name (.array (.struct .nil) (.lit 3)) "a") .nil)]

/-- **C23** The exception is one: such an array compiles, with an empty loop. -/
theorem C23_exception : readSpec t!"struct s { struct { } a[3]; };" = some hollow ∧
    ∃ g, generate fl0 hollow = some g ∧ pkgOk g [] = true :=
  ⟨by decide +kernel, _, rfl, by decide +kernel⟩

end Verif.Props
