/-
PROPERTY C65: from the text of the generator to what the package it writes does.

The text of the generator (main.go, scan.go, out.go, the actions of xdr.y; goyacc's tables are any that pass the check of
C62) runs on a specification file, as in C63.  The files that it leaves are read as Go (`readFile`, Lang/Lex.lean and
Lang/Parse.lean, with which the files of the project are read as well), and the package they make up is put into a
program with package xdr, as read from its files, and any other packages.  Then the functions `EncodeBuf` and `DecodeBuf`
of xdr, on variables of the generated types, do what RFC 4506 says of the specification that was in the file.

`SpecFile` collects the conditions on the run: those of C63, and that the specification is one of which C48 says that the
generated package compiles.  That the generator succeeds is a condition of the theorems here; C63_succeeds says when.
-/
import Verif.Lang.GoPkg
import Verif.Props.GoWhole
import Verif.Props.GoGenerated
import Verif.Props.ShippedText

namespace Verif.Props
open Verif.Lang Verif.Lang.Text Verif.Tool Verif.Text Verif.Xdr Verif.Spec
open Verif.Gen (Flags Ident GoProg generate generateVers compilable i GoVal)

variable {ω : Type}

/-- A specification file, and a system with which the generator can run on it. -/
structure SpecFile (A : Lr) (sys : Sys) (fl : ToolFlags) (fs : FS) (s : Gen.Spec) : Prop where
  tables : Tables A
  ascii : AsciiArgs fl.args
  flags : flagsOk fl.gen fl.args.pkg = true
  const : fl.gen.constType ∈ constTypes
  format : FormatsGo sys
  prints : ∀ n, sys.short n = none
  removes : Removes sys
  distinct : Distinct fl.args
  input : ∃ src, fs fl.args.input = some src ∧ Scans sys src ∧ readSpec (chars src) = some s
  raw : rawOk (rawsSpec s) = true
  compiles : compilable fl.gen s = true
  pkg : fl.args.pkg ≠ "xdr"

/-- The package that texts of Go files make up. -/
def readPkg (ts : List Text) : Option Pkg := do
  match ← ts.mapM Lang.readFile with
  | [] => none
  | f :: fs => if fs.all fun f' => f'.pkg == f.pkg then pure (mkPkg f.pkg (f :: fs)) else none

/-- The package in the output files. -/
def outPkg (a : Args) (fs : FS) : Option Pkg := do
  let code ← fs a.output
  if a.types = "" then readPkg [chars code]
  else do
    let types ← fs a.types
    readPkg [chars types, chars code]

theorem chars_isChars (c : Content) : Rd.isChars (chars c) := by
  intro n hn
  obtain ⟨b, -, rfl⟩ := List.mem_map.mp hn
  exact Nat.lt_of_lt_of_le b.toNat_lt (by decide)

theorem name_codes' {l : List Nat} {p : Ident} (h : l = codes p) : Lang.name l = p := by
  rw [h, ← Rd.name_eq]; exact name_codes p

theorem noDot {f : Flags} {pkg : Ident} (h : flagsOk f pkg = true) : '.' ∉ pkg.toList := by
  intro hd
  obtain ⟨c, l, e, h1, h2⟩ := (flagsOk_pkg h).ex
  have : '.'.toNat ∈ codes pkg := List.mem_map_of_mem hd
  rw [e] at this
  rcases List.mem_cons.mp this with e | h
  · rw [← e] at h1; revert h1; decide
  · have := List.all_eq_true.mp h2 _ h
    revert this; decide

section
variable {A : Lr} {sys : Sys} {fl : ToolFlags} {fs : FS} {s : Gen.Spec} {grow : Nat → Nat → Nat} {loops k : Nat}
  (R : SpecFile A sys fl fs s) (hm : succeeds (runTool A sys fl grow loops (k + 2) fs))

include R hm

theorem outPkg_text : ∃ g q, generate fl.gen s = some g ∧ outPkg fl.args (endFiles (runTool A sys fl grow loops (k + 2) fs)) = some q ∧
    q.name = fl.args.pkg ∧ IsText g q ∧ ∃ vs, generateVers s = some vs ∧ HasVers vs q := by
  obtain ⟨src, hin, hsc, hx⟩ := R.input
  obtain ⟨g, vs, hg, hv, hk⟩ := C48_compiles R.compiles
  obtain ⟨vs', code, hv', hcode, h1, h2⟩ := C63_output R.tables R.ascii R.flags R.format hsc grow loops k R.prints R.removes R.distinct hin hx R.raw hg hm
  have hpl := Rd.plain_generate hg
  cases hv.symm.trans hv'
  by_cases ht : fl.args.types = ""
  · obtain ⟨f, hf, -, hp, hl⟩ := h1 ht
    obtain ⟨h3, h4⟩ := Rd.read_one (chars_isChars code) hf hl hpl hk
    have hn : (Rd.trF f).pkg = fl.args.pkg := name_codes' hp
    refine ⟨g, mkPkg fl.args.pkg [Rd.trF f], hg, ?_, rfl, (h4 _).1, vs, hv, (h4 _).2⟩
    simp [outPkg, readPkg, hcode, h3, ht, hn]
  · obtain ⟨types, htypes, f, f', hf, -, hf', -, hp, hp', hl⟩ := h2 ht
    obtain ⟨h3, h4, h5⟩ := Rd.read_two (chars_isChars types) hf (chars_isChars code) hf' hl hpl hk
    have hn : (Rd.trF f).pkg = fl.args.pkg := name_codes' hp
    have hn' : (Rd.trF f').pkg = fl.args.pkg := name_codes' hp'
    refine ⟨g, mkPkg fl.args.pkg [Rd.trF f, Rd.trF f'], hg, ?_, rfl, (h5 _).1, vs, hv, (h5 _).2⟩
    simp [outPkg, readPkg, hcode, htypes, h3, h4, ht, hn, hn']

/-- **C65** The files that the generator leaves are read as a Go package with the name that was asked for. -/
theorem C65_package : ∃ q, outPkg fl.args (endFiles (runTool A sys fl grow loops (k + 2) fs)) = some q ∧ q.name = fl.args.pkg := by
  obtain ⟨g, q, -, h1, h2, -⟩ := outPkg_text R hm
  exact ⟨q, h1, h2⟩

variable {q : Pkg} (hq : outPkg fl.args (endFiles (runTool A sys fl grow loops (k + 2) fs)) = some q) (Qs : Prog)
include hq

omit hm in
theorem outPkg_conds (hm : succeeds (runTool A sys fl grow loops (k + 2) fs)) : ∃ g, generate fl.gen s = some g ∧ IsText g q ∧ q.name ≠ "xdr" ∧ '.' ∉ q.name.toList ∧
    ∃ vs, generateVers s = some vs ∧ HasVers vs q := by
  obtain ⟨g, q', hg, h1, h2, h3, h4⟩ := outPkg_text R hm
  cases hq.symm.trans h1
  exact ⟨g, hg, h3, h2 ▸ R.pkg, h2 ▸ noDot R.flags, h4⟩

local notation "E" => envOf fl.gen.unsignedEnum s

/-- **C65** In that package the types of the specification are declared, and `var v T` is a value that decoding can be
given. -/
theorem C65_new {n : Ident} (hn : ((E).typeOf n).isSome) : ∃ v y, (progWith q Qs).zero q.name (.name (i n)) = some v ∧
    Typed E n y ∧ Clean E n y ∧ ∀ (st : St ω) (t : Nat), t < st.next → st.heap t = v → HasValue st t y := by
  obtain ⟨g, hg, T, h1, -⟩ := outPkg_conds R hq hm
  exact C64_new Qs hg R.compiles T h1 hn

variable (W : Ext ω) (hW : 2 ^ 32 ≤ W.loops)
include hW

/-- **C65** `data, err := xdr.EncodeBuf(&v)`: `v` stands for exactly one value `x` of the specification's types; `data` is
its RFC 4506 image, or there is an error if `x` exceeds a bound. -/
theorem C65_encode {n : Ident} {y : GoVal} (hy : Typed E n y) {st : St ω} {t : Nat} (ht : HasValue st t y) :
    ∃ x, Denotes E n y x ∧ (∀ x', Denotes E n y x' → x' = x) ∧
      GivesBack (progWith q Qs) W (.fn "xdr" "EncodeBuf") [.ptr (goName q n) ⟨t, []⟩] st fun r st' =>
        ∃ b e, r = [b, e] ∧ (IsValue E n x → e = .nil ∧ ∃ c, st.next ≤ c ∧ BytesAt st' c b (enc x)) ∧
          (¬ IsValue E n x → ∃ m vs, e = .err m vs) ∧
          (∀ j, j < st.next → st'.heap j = st.heap j) ∧ st.next ≤ st'.next ∧ st'.world = st.world := by
  obtain ⟨g, hg, T, h1, h2, -⟩ := outPkg_conds R hq hm
  exact C64_encode Qs hg R.compiles R.const T h1 h2 W hW hy ht

/-- **C65** `err := xdr.DecodeBuf(data, &v)`, when `data` begins with an image of a value `x` of the type. -/
theorem C65_accepts {n : Ident} {y : GoVal} (hy : Typed E n y) (hcl : Clean E n y) {st : St ω} {t c : Nat} {b : V} (ht : HasValue st t y)
    {x : XVal} (hx : IsValue E n x) {p : List UInt8} (hp : Reads x p) (rest : List UInt8)
    (hb : BytesAt st c b (p ++ rest)) (hlt : c < st.next) (hne : t ≠ c) :
    GivesBack (progWith q Qs) W (.fn "xdr" "DecodeBuf") [b, .ptr (goName q n) ⟨t, []⟩] st fun r st' => ∃ y', r = [.nil] ∧
      HasValue st' t y' ∧ Typed E n y' ∧ Denotes E n y' x ∧
      (∀ j, j < st.next → j ≠ t → st'.heap j = st.heap j) ∧ st.next ≤ st'.next ∧ st'.world = st.world := by
  obtain ⟨g, hg, T, h1, h2, -⟩ := outPkg_conds R hq hm
  exact C64_accepts Qs hg R.compiles R.const T h1 h2 W hW hy hcl ht hx hp rest hb hlt hne

/-- **C65** and when it does not. -/
theorem C65_refuses {n : Ident} {y : GoVal} (hy : Typed E n y) {st : St ω} {t c : Nat} {b : V} {l : List UInt8} (ht : HasValue st t y)
    (hb : BytesAt st c b l) (hlt : c < st.next) (hne : t ≠ c) (hl : ∀ x p rest, IsValue E n x → Reads x p → l ≠ p ++ rest) :
    GivesBack (progWith q Qs) W (.fn "xdr" "DecodeBuf") [b, .ptr (goName q n) ⟨t, []⟩] st fun r st' => ∃ m vs, r = [.err m vs] ∧
      (∀ j, j < st.next → j ≠ t → st'.heap j = st.heap j) ∧ st.next ≤ st'.next ∧ st'.world = st.world := by
  obtain ⟨g, hg, T, h1, h2, -⟩ := outPkg_conds R hq hm
  exact C64_refuses Qs hg R.compiles R.const T h1 h2 W hW hy ht hb hlt hne hl
end

/-! ### Package rfc1813 -/

/-- The files of rfc1813 meet the conditions of C64. -/
theorem rfc1813_conds : ∃ q, readPkg [Inst.Rfc1813.typesText.flatten.flatten, Inst.Rfc1813.codeText.flatten.flatten] = some q ∧
    readSpec Inst.Rfc1813.protText.flatten.flatten = some Inst.Rfc1813.spec ∧
    generate Inst.fl Inst.Rfc1813.spec = some Inst.Rfc1813.prog ∧ compilable Inst.fl Inst.Rfc1813.spec = true ∧ Inst.fl.constType ∈ constTypes ∧
    IsText Inst.Rfc1813.prog q ∧ q.name = "rfc1813" ∧ HasVers Inst.Rfc1813.goVers q := by
  obtain ⟨f, f', hf, -, hf', -, hp, hp', hl⟩ := means_pieces Inst.Rfc1813.codeRead
  have hc : ∀ t : List (List Text), (t.all fun l => l.all fun w => w.all fun c => Nat.blt c lit0) = true → Rd.isChars t.flatten.flatten := by
    intro t h c hc
    simp only [List.all_eq_true] at h
    obtain ⟨w, hw, hc⟩ := List.mem_flatten.mp hc
    obtain ⟨l, hl, hw⟩ := List.mem_flatten.mp hw
    exact Nat.blt_eq.mp (h l hl w hw c hc)
  obtain ⟨h3, h4, h5⟩ := Rd.read_two (hc _ (by decide +kernel)) hf (hc _ (by decide +kernel)) hf' hl (Rd.plain_generate Inst.Rfc1813.gen) C48_shipped.2.2
  have hn : (Rd.trF f).pkg = "rfc1813" := name_codes' hp
  have hn' : (Rd.trF f').pkg = "rfc1813" := name_codes' hp'
  refine ⟨mkPkg "rfc1813" [Rd.trF f, Rd.trF f'], ?_, read_pieces Inst.Rfc1813.protRead (by decide +kernel), Inst.Rfc1813.gen, C48_shipped.2.1, by decide,
    (h5 _).1, rfl, (h5 _).2⟩
  simp [readPkg, h3, h4, hn, hn']

/-- The package in rfc1813/types.go and rfc1813/xdr.go is one in which the specification in rfc1813/prot.x (read with the model
of the front end) has the meaning that C64 gives. -/
structure IsRfc1813 (q : Pkg) (s : Gen.Spec) : Prop where
  files : readPkg [Inst.Rfc1813.typesText.flatten.flatten, Inst.Rfc1813.codeText.flatten.flatten] = some q
  prot : readSpec Inst.Rfc1813.protText.flatten.flatten = some s

theorem IsRfc1813.conds {q : Pkg} {s : Gen.Spec} (h : IsRfc1813 q s) : s = Inst.Rfc1813.spec ∧ IsText Inst.Rfc1813.prog q ∧
    q.name ≠ "xdr" ∧ '.' ∉ q.name.toList ∧ generate Inst.fl s = some Inst.Rfc1813.prog ∧ compilable Inst.fl s = true ∧ HasVers Inst.Rfc1813.goVers q := by
  obtain ⟨q', h1, h2, h3, h4, -, h5, h6, h7⟩ := rfc1813_conds
  cases h.files.symm.trans h1
  cases h.prot.symm.trans h2
  exact ⟨rfl, h5, h6 ▸ by decide, h6 ▸ by decide, h3, h4, h7⟩

theorem IsRfc1813.name {q : Pkg} {s : Gen.Spec} (h : IsRfc1813 q s) : q.name = "rfc1813" := by
  obtain ⟨q', h1, -, -, -, -, -, h6, -⟩ := rfc1813_conds
  cases h.files.symm.trans h1
  exact h6

/-- **C65** The files of package rfc1813 (NFS version 3) are a Go package, and prot.x is a specification. -/
theorem C65_rfc1813_files : ∃ q s, IsRfc1813 q s := by
  obtain ⟨q, h1, h2, -⟩ := rfc1813_conds
  exact ⟨q, _, h1, h2⟩

section
variable {ω : Type} {q : Pkg} {s : Gen.Spec} (R : IsRfc1813 q s) (Qs : Prog) (W : Ext ω) (hW : 2 ^ 32 ≤ W.loops)
include R hW

local notation "E" => envOf Inst.fl.unsignedEnum s

/-- **C65** `xdr.EncodeBuf(&v)` for a `v` of a type of package rfc1813, as C65_encode. -/
theorem C65_rfc1813_encode {n : Ident} {y : GoVal} (hy : Typed E n y) {st : St ω} {t : Nat} (ht : HasValue st t y) :
    ∃ x, Denotes E n y x ∧ (∀ x', Denotes E n y x' → x' = x) ∧
      GivesBack (progWith q Qs) W (.fn "xdr" "EncodeBuf") [.ptr (goName q n) ⟨t, []⟩] st fun r st' =>
        ∃ b e, r = [b, e] ∧ (IsValue E n x → e = .nil ∧ ∃ c, st.next ≤ c ∧ BytesAt st' c b (enc x)) ∧
          (¬ IsValue E n x → ∃ m vs, e = .err m vs) ∧
          (∀ j, j < st.next → st'.heap j = st.heap j) ∧ st.next ≤ st'.next ∧ st'.world = st.world := by
  obtain ⟨-, T, h1, h2, hg, hc, -⟩ := R.conds
  exact C64_encode Qs hg hc (by decide) T h1 h2 W hW hy ht

/-- **C65** `xdr.DecodeBuf(data, &v)`, as C65_accepts. -/
theorem C65_rfc1813_accepts {n : Ident} {y : GoVal} (hy : Typed E n y) (hcl : Clean E n y) {st : St ω} {t c : Nat} {b : V} (ht : HasValue st t y)
    {x : XVal} (hx : IsValue E n x) {p : List UInt8} (hp : Reads x p) (rest : List UInt8)
    (hb : BytesAt st c b (p ++ rest)) (hlt : c < st.next) (hne : t ≠ c) :
    GivesBack (progWith q Qs) W (.fn "xdr" "DecodeBuf") [b, .ptr (goName q n) ⟨t, []⟩] st fun r st' => ∃ y', r = [.nil] ∧
      HasValue st' t y' ∧ Typed E n y' ∧ Denotes E n y' x ∧
      (∀ j, j < st.next → j ≠ t → st'.heap j = st.heap j) ∧ st.next ≤ st'.next ∧ st'.world = st.world := by
  obtain ⟨-, T, h1, h2, hg, hc, -⟩ := R.conds
  exact C64_accepts Qs hg hc (by decide) T h1 h2 W hW hy hcl ht hx hp rest hb hlt hne

/-- **C65** and as C65_refuses. -/
theorem C65_rfc1813_refuses {n : Ident} {y : GoVal} (hy : Typed E n y) {st : St ω} {t c : Nat} {b : V} {l : List UInt8} (ht : HasValue st t y)
    (hb : BytesAt st c b l) (hlt : c < st.next) (hne : t ≠ c) (hl : ∀ x p rest, IsValue E n x → Reads x p → l ≠ p ++ rest) :
    GivesBack (progWith q Qs) W (.fn "xdr" "DecodeBuf") [b, .ptr (goName q n) ⟨t, []⟩] st fun r st' => ∃ m vs, r = [.err m vs] ∧
      (∀ j, j < st.next → j ≠ t → st'.heap j = st.heap j) ∧ st.next ≤ st'.next ∧ st'.world = st.world := by
  obtain ⟨-, T, h1, h2, hg, hc, -⟩ := R.conds
  exact C64_refuses Qs hg hc (by decide) T h1 h2 W hW hy ht hb hlt hne hl
end

section Fh3
abbrev nfsEnv : Spec.Env := envOf Inst.fl.unsignedEnum Inst.Rfc1813.spec

/-- `Nfs_fh3{Data: b}` in cell 1; the bytes of the slice in cell 0. -/
def fhSt (w : ω) (b : List UInt8) : St ω where
  heap := fun k => if k = 0 then .bytes b else .struct "rfc1813.Nfs_fh3" [("Data", .slice ⟨⟨0, []⟩, 0, b.length, b.length⟩)]
  next := 2
  world := w
  defers := []

def fhVal (b : List UInt8) : GoVal := .struct [("Data", .bytes (some b))]

theorem fhVal_typed (b : List UInt8) : Typed nfsEnv "nfs_fh3" (fhVal b) := by
  refine ⟨2, _, rfl, ?_⟩
  exact ⟨_, rfl, _, ⟨_, rfl, _, rfl⟩, rfl⟩

theorem fhSt_holds (w : ω) (b : List UInt8) : HasValue (fhSt w b) 1 (fhVal b) := by
  refine ⟨Nat.lt_succ_self 1, ?_⟩
  have hb : sub ⟨⟨0, []⟩, 0, b.length, b.length⟩ b = b := by simp [sub]
  have h : GoB (fhSt w b) (.slice ⟨⟨0, []⟩, 0, b.length, b.length⟩) (some b) := by
    conv => arg 3; rw [← hb]
    exact .slice _ _ ⟨rfl, by simp, Nat.le_refl _⟩
  have hf : RepF (fhSt w b) (· ≠ 1) [("Data", .slice ⟨⟨0, []⟩, 0, b.length, b.length⟩)] [("Data", .bytes (some b))] := by
    refine .cons (.bytes h fun s e => ?_) .nil
    cases e
    exact ⟨Nat.succ_pos 1, Nat.zero_ne_one⟩
  exact .struct hf.1 (by simp) hf.2

theorem fh_isValue {l : List UInt8} (hl : l.length ≤ 64) : IsValue nfsEnv "nfs_fh3" (.struct [.vopaque l]) := by
  refine ⟨3, _, rfl, _, ⟨_, _, ⟨l, some 64, rfl, ⟨by omega, fun m e => by cases e; exact hl⟩, rfl⟩, rfl, rfl⟩, rfl⟩

/-- A file handle of three bytes. -/
example (w : ω) (W : Ext ω) (hW : 2 ^ 32 ≤ W.loops) : ∃ q s, IsRfc1813 q s ∧
    GivesBack (progWith q []) W (.fn "xdr" "EncodeBuf") [.ptr "rfc1813.Nfs_fh3" ⟨1, []⟩] (fhSt w [1, 2, 3]) fun r st' =>
      ∃ b c, r = [b, .nil] ∧ BytesAt st' c b [0, 0, 0, 3, 1, 2, 3, 0] := by
  obtain ⟨q, s, R⟩ := C65_rfc1813_files
  refine ⟨q, s, R, ?_⟩
  cases R.conds.1
  obtain ⟨x, hx, -, h⟩ := C65_rfc1813_encode R [] W hW (fhVal_typed _) (fhSt_holds w [1, 2, 3])
  have hxx : Denotes nfsEnv "nfs_fh3" (fhVal [1, 2, 3]) (.struct [.vopaque [1, 2, 3]]) := ⟨3, by decide +kernel⟩
  cases Gen.denotes_unique hx hxx
  have hg : goName q "nfs_fh3" = "rfc1813.Nfs_fh3" := by rw [goName, R.name]; decide +kernel
  rw [hg] at h
  refine h.mono ?_
  rintro _ st' ⟨b, e, rfl, h, -⟩
  obtain ⟨rfl, c, -, hb⟩ := h (fh_isValue (by decide))
  exact ⟨b, c, rfl, hb⟩
end Fh3

/-! ### A case -/

/-- The specification in the file `p.x`. -/
def keyFile : Content := strBytes "struct key { unsigned int n; opaque k<0x10>; };"

def keySpec : Gen.Spec := [.struct "key" (.cons (.name (.typespec (.int true)) "n") (.cons (.name (.opaqueVarArray (some (.lit 16))) "k") .nil))]

def keyToks : List Verif.Text.Tok := (scan (chars keyFile)).getD []

/-- The file is there, and none of the temporary files. -/
structure KeyFiles (fs : FS) : Prop where
  input : fs "p.x" = some keyFile
  works : Works goSys goFlags.args fs

example : KeyFiles (someFiles.set "p.x" (some keyFile)) :=
  ⟨rfl, fun _ => rfl, fun _ => rfl, fun _ => rfl, fun _ => rfl, by decide +kernel, by decide +kernel⟩

section
variable {fs : FS} (K : KeyFiles fs)
include K

theorem key_file : SpecFile xdrLr goSys goFlags fs keySpec where
  tables := xdr_tables
  ascii := ⟨by decide, by decide, by decide⟩
  flags := by decide +kernel
  const := by decide
  format := goSys_formats
  prints _ := rfl
  removes _ := rfl
  distinct := some_distinct
  input := ⟨keyFile, K.input, goSys_scans (ts := keyToks) (by decide +kernel) (by decide +kernel), by decide +kernel⟩
  raw := by decide +kernel
  compiles := by decide +kernel
  pkg := by decide

theorem key_succeeds : succeeds (runTool xdrLr goSys goFlags (fun _ _ => 0) 0 (0 + 2) fs) := by
  obtain ⟨src, h1, h2, h3⟩ := (key_file K).input
  obtain ⟨g, hg⟩ := Option.isSome_iff_exists.mp (by decide +kernel : (generate goFlags.gen keySpec).isSome = true)
  exact C63_succeeds (key_file K).tables (key_file K).ascii (key_file K).flags (key_file K).format h2 (fun _ _ => 0) 0 0 K.works
    (key_file K).removes (key_file K).distinct (by decide) (by decide) h1 h3 (key_file K).raw hg
end

abbrev keyEnv : Spec.Env := envOf goFlags.gen.unsignedEnum keySpec

/-- `Key{N: 7, K: b}` in cell 1; the bytes of the slice in cell 0. -/
def keySt (w : ω) (b : List UInt8) : St ω where
  heap := fun k => if k = 0 then .bytes b else .struct "p.Key" [("N", .u32 7), ("K", .slice ⟨⟨0, []⟩, 0, b.length, b.length⟩)]
  next := 2
  world := w
  defers := []

def keyVal (b : List UInt8) : GoVal := .struct [("N", .u32 7), ("K", .bytes (some b))]

theorem keyVal_typed (b : List UInt8) : Typed keyEnv "key" (keyVal b) := by
  refine ⟨2, _, rfl, ?_⟩
  exact ⟨_, rfl, _, ⟨_, rfl, _, rfl⟩, _, ⟨_, rfl, _, rfl⟩, rfl⟩

theorem keySt_holds (w : ω) (b : List UInt8) : HasValue (keySt w b) 1 (keyVal b) := by
  refine ⟨Nat.lt_succ_self 1, ?_⟩
  have hb : sub ⟨⟨0, []⟩, 0, b.length, b.length⟩ b = b := by simp [sub]
  have h : GoB (keySt w b) (.slice ⟨⟨0, []⟩, 0, b.length, b.length⟩) (some b) := by
    conv => arg 3; rw [← hb]
    exact .slice _ _ ⟨rfl, by simp, Nat.le_refl _⟩
  have hf : RepF (keySt w b) (· ≠ 1) [("N", .u32 7), ("K", .slice ⟨⟨0, []⟩, 0, b.length, b.length⟩)]
      [("N", .u32 7), ("K", .bytes (some b))] := by
    refine .cons (.u32 7) (.cons (.bytes h fun s e => ?_) .nil)
    cases e
    exact ⟨Nat.succ_pos 1, Nat.zero_ne_one⟩
  exact .struct hf.1 (by simp) hf.2

theorem key_isValue {l : List UInt8} (hl : l.length ≤ 16) : IsValue keyEnv "key" (.struct [.uint 7, .vopaque l]) := by
  refine ⟨3, _, rfl, _, ⟨_, _, ⟨7, by decide, rfl⟩, ⟨_, _, ⟨l, some 16, rfl, ⟨by omega, fun m e => by cases e; exact hl⟩, rfl⟩, rfl, rfl⟩, rfl⟩, rfl⟩

/-- From the bytes of the specification file to the bytes of a value. -/
example {fs : FS} (K : KeyFiles fs) (w : ω) (W : Ext ω) (hW : 2 ^ 32 ≤ W.loops) :
    ∃ q, outPkg goFlags.args (endFiles (runTool xdrLr goSys goFlags (fun _ _ => 0) 0 (0 + 2) fs)) = some q ∧
      GivesBack (progWith q []) W (.fn "xdr" "EncodeBuf") [.ptr "p.Key" ⟨1, []⟩] (keySt w [1, 2, 3]) fun r st' =>
        ∃ b c, r = [b, .nil] ∧ BytesAt st' c b [0, 0, 0, 7, 0, 0, 0, 3, 1, 2, 3, 0] := by
  obtain ⟨q, hq, hn⟩ := C65_package (key_file K) (key_succeeds K)
  refine ⟨q, hq, ?_⟩
  obtain ⟨x, hx, -, h⟩ := C65_encode (key_file K) (key_succeeds K) hq [] W hW (keyVal_typed _) (keySt_holds w [1, 2, 3])
  have hxx : Denotes keyEnv "key" (keyVal [1, 2, 3]) (.struct [.uint 7, .vopaque [1, 2, 3]]) := ⟨3, by decide +kernel⟩
  cases Gen.denotes_unique hx hxx
  have hg : goName q "key" = "p.Key" := by rw [goName, hn]; decide +kernel
  rw [hg] at h
  refine h.mono ?_
  rintro _ st' ⟨b, e, rfl, h, -⟩
  obtain ⟨rfl, c, -, hb⟩ := h (key_isValue (by decide))
  exact ⟨b, c, rfl, hb⟩

end Verif.Props
