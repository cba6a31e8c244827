/-
PROPERTY C47: a whole run of the generator, from the specification file to the Go files.
-/
import Verif.Props.Tool
import Verif.Props.Emission
import Mathlib.Data.List.Forall2

namespace Verif.Props
open Verif.Gen Verif.Text Verif.Tool

/-- The characters of a file (of which the model reads the ASCII ones only). -/
def chars (c : Content) : Text := c.map UInt8.toNat

/-- What is assumed of the code main.go calls. -/
structure Calls (w : World) (fl : Flags) (src : Content) : Prop where
  /-- `xdrParse` on the input file: the parser is the one of C45, and its actions print what out.go prints (C46), with the
  literals spelled as in the file. -/
  parse : ∀ s, readSpec (chars src) = some s →
    match wSpec fl s with
    | some ws => (w.parse src).returns = true ∧
        List.Forall₂ (fun a b => a.1 = b.1 ∧ Spells a.2 (chars b.2)) ws (w.parse src).writes
    | none => (w.parse src).returns = false
  /-- `format.Source` accepts what is syntactically Go, -/
  formats : ∀ c f, IsGo (chars c) f → (w.format c).isSome = true
  /-- and what it returns declares the same. -/
  keeps : ∀ c d f, w.format c = some d → IsGo (chars c) f → ∃ f', IsGo (chars d) f' ∧
    f'.pkg = f.pkg ∧ f'.imports = f.imports ∧ ∀ st, lowDs st f'.decls = lowDs st f.decls

/-- No call of the operating system fails. -/
def SystemWorks (a : Args) (w : World) (fs : FS) : Prop :=
  w.readInput = false ∧ w.openOut = false ∧ w.openTypes = false ∧ w.rereadOut = false ∧ w.rereadTypes = false ∧
    w.writeOut = .ok ∧ w.writeTypes = .ok ∧ fs (a.output ++ ".tmp") = none ∧ fs (a.types ++ ".tmp") = none

theorem chars_append (a b : Content) : chars (a ++ b) = chars a ++ chars b := List.map_append

theorem chars_bytes {s : String} (h : ∀ c ∈ codes s, c < 256) : chars (bytes s) = codes s := by
  unfold chars bytes codes at *
  rw [List.map_map]
  apply List.map_congr_left
  intro c hc
  have : c.toNat < 256 := h _ (List.mem_map_of_mem hc)
  simp only [Function.comp, UInt8.toNat_ofNat']
  exact Nat.mod_eq_of_lt this

theorem word_lt {t : Text} (h : Word t) : ∀ c ∈ t, c < 256 := by
  obtain ⟨c, l, rfl, h1, h2⟩ := h.ex
  intro d hd
  have : alnum d = true := by
    rcases List.mem_cons.mp hd with rfl | hd
    · simp [alnum, h1]
    · exact List.all_eq_true.mp h2 d hd
  simp only [alnum, isLetter, isDigit, Bool.or_eq_true, Bool.and_eq_true, Nat.ble_eq, Nat.beq_eq] at this
  omega

theorem codes_pkgLine (pkg : Ident) : codes ("package " ++ pkg ++ "\n") = headTypes pkg := by
  simp only [codes, String.toList_append, List.map_append, headTypes]
  rfl

theorem headTypes_lt {pkg : Ident} (h : Word (codes pkg)) : ∀ c ∈ headTypes pkg, c < 256 := by
  intro c hc
  simp only [headTypes, List.mem_append] at hc
  rcases hc with (hc | hc) | hc
  · exact (by decide : ∀ c ∈ t!"package ", c < 256) c hc
  · exact word_lt h c hc
  · exact (by decide : ∀ c ∈ t!"\n", c < 256) c hc

theorem chars_pkgLine {a : Args} (h : Word (codes a.pkg)) : chars (pkgLine a) = headTypes a.pkg := by
  unfold pkgLine
  rw [chars_bytes, codes_pkgLine]
  rw [codes_pkgLine]
  exact headTypes_lt h

theorem chars_importLine : chars importLine = t!"import \"github.com/zeldovich/go-rpcgen/xdr\"\n" := by
  decide +kernel

theorem lt256 {c : Nat} (h : c < 256) : c < lit0 := by unfold lit0; omega

theorem spells_head {a : Args} (h : Word (codes a.pkg)) : Spells (headTypes a.pkg) (chars (pkgLine a)) := by
  rw [chars_pkgLine h]
  exact Spells.refl fun c hc => lt256 (headTypes_lt h c hc)

theorem spells_headOut {a : Args} (h : Word (codes a.pkg)) :
    Spells (headOut a.pkg) (chars (pkgLine a ++ importLine)) := by
  rw [chars_append, chars_importLine]
  refine (spells_head h).append (Spells.refl ?_)
  decide +kernel

theorem part_cons (w : World) (hw : ∀ n, w.short n = none) (sel n b d l) :
    part w sel n ((b, d) :: l) = (if sel b then d else []) ++ part w sel (n + 1) l := by
  simp only [part, cut, hw]

theorem spells_parts {w : World} (hw : ∀ n, w.short n = none) {ws : Writes} {l : List (Bool × Content)}
    (h : List.Forall₂ (fun a b => a.1 = b.1 ∧ Spells a.2 (chars b.2)) ws l) : ∀ n,
    Spells (writtenAll ws) (chars (part w (fun _ => true) n l)) ∧
    Spells (written true ws) (chars (part w (fun t => t) n l)) ∧
    Spells (written false ws) (chars (part w (fun t => !t) n l)) := by
  induction h with
  | nil => intro n; exact ⟨.nil, .nil, .nil⟩
  | @cons a b ws l hab _ ih =>
    intro n
    obtain ⟨x, t⟩ := a
    obtain ⟨y, d⟩ := b
    obtain ⟨rfl, h⟩ := hab
    obtain ⟨h1, h2, h3⟩ := ih (n + 1)
    simp only [part_cons w hw, writtenAll, written, chars_append, if_true]
    refine ⟨h.append h1, ?_, ?_⟩
    · cases x
      · simpa [show chars [] = [] from rfl] using h2
      · simpa using h.append h2
    · cases x
      · simpa using h.append h3
      · simpa [show chars [] = [] from rfl] using h3

/-- The texts that are formatted. -/
theorem texts {a : Args} {w : World} {fl : Flags} {src : Content} (hc : Calls w fl src) (hw : ∀ n, w.short n = none)
    (hp : Word (codes a.pkg)) {s : Spec} (hs : readSpec (chars src) = some s) :
    (a.types = "" → ∀ t, emitOne fl a.pkg s = some t → Spells t (chars (outText a w src))) ∧
    (a.types ≠ "" → ∀ t c, emitTwo fl a.pkg s = some (t, c) →
      Spells t (chars (typesText a w src)) ∧ Spells c (chars (outText a w src))) := by
  have h := hc.parse s hs
  refine ⟨fun ht t he => ?_, fun ht t c he => ?_⟩
  · unfold emitOne at he
    cases hws : wSpec fl s with
    | none => rw [hws] at he; cases he
    | some ws =>
      rw [hws] at he h
      cases he
      simp only [outText, cut, hw, ht, if_true]
      rw [chars_append]
      exact (spells_headOut hp).append (spells_parts hw h.2 2).1
  · unfold emitTwo at he
    cases hws : wSpec fl s with
    | none => rw [hws] at he; cases he
    | some ws =>
      rw [hws] at he h
      cases he
      simp only [outText, typesText, cut, hw, if_neg ht]
      rw [chars_append, chars_append (pkgLine a ++ importLine)]
      exact ⟨(spells_head hp).append (spells_parts hw h.2 3).2.1,
        (spells_headOut hp).append (spells_parts hw h.2 3).2.2⟩

theorem Means.format {w : World} {fl : Flags} {src : Content} (hc : Calls w fl src) {c d : Content} {pkg g vs}
    (hf : w.format c = some d) (h : Means (chars c) pkg g vs) : Means (chars d) pkg g vs := by
  obtain ⟨f, h1, _, h3, h4⟩ := h
  obtain ⟨f', k1, k2, k3, k4⟩ := hc.keeps c d f hf h1
  refine ⟨f', k1, fun _ h' => h'.unique k1, k2.trans h3, ?_⟩
  unfold lowFile at h4 ⊢
  rw [k3, k4]; exact h4

theorem Means2.format {w : World} {fl : Flags} {src : Content} (hc : Calls w fl src) {c d c' d' : Content} {pkg g vs}
    (hf : w.format c = some d) (hf' : w.format c' = some d') (h : Means2 (chars c) (chars c') pkg g vs) :
    Means2 (chars d) (chars d') pkg g vs := by
  obtain ⟨f, k, h1, _, h3, _, h5, h6, h7⟩ := h
  obtain ⟨f', e1, e2, e3, e4⟩ := hc.keeps c d f hf h1
  obtain ⟨k', g1, g2, g3, g4⟩ := hc.keeps c' d' k hf' h3
  refine ⟨f', k', e1, fun _ h' => h'.unique e1, g1, fun _ h' => h'.unique g1, e2.trans h5, g2.trans h6, ?_⟩
  unfold lowFiles at h7 ⊢
  simp only [e2, e3, e4, g2, g3, g4]; exact h7

/-- **C47** Success: for a specification without unsupported types the run succeeds unless the operating
system makes a call fail, -/
theorem C47_succeeds {a : Args} {w : World} {fs : FS} {fl : Flags} {src : Content} {s : Spec} {g : GoProg}
    (hc : Calls w fl src) (hw : ∀ n, w.short n = none) (hr : RemovesWork w) (hd : Distinct a)
    (hfl : flagsOk fl a.pkg = true) (hi : a.input ≠ "") (ho : a.output ≠ "") (hsys : SystemWorks a w fs)
    (hin : fs a.input = some src) (hs : readSpec (chars src) = some s) (hraw : rawOk (rawsSpec s) = true)
    (hg : generate fl s = some g) : (main a w fs).2 = .done := by
  have hout := C43_outcomes (fs := fs) hr hd
  obtain ⟨s1, s2, s3, s4, s5, s6, s7, s8, s9⟩ := hsys
  have hp := flagsOk_pkg hfl
  have hemit := emit_none (flagsOk_const hfl) (names_spec (readSpec_names hs) hraw)
  have hformat : (∃ d, w.format (outText a w src) = some d) ∧
      (a.types ≠ "" → ∃ d, w.format (typesText a w src) = some d) := by
    obtain ⟨t1, t2⟩ := texts (a := a) hc hw hp hs
    refine ⟨?_, fun ht => ?_⟩
    · by_cases ht : a.types = ""
      · obtain ⟨t, vs, h1, _, h3⟩ := C46_text hfl hs hraw hg
        obtain ⟨f, hf, _⟩ := h3 _ (t1 ht t h1)
        exact Option.isSome_iff_exists.mp (hc.formats _ f hf)
      · obtain ⟨t, c, vs, h1, _, h3⟩ := C46_two hfl hs hraw hg
        obtain ⟨e1, e2⟩ := t2 ht t c h1
        obtain ⟨f, k, _, _, hk, _⟩ := h3 _ _ e1 e2
        exact Option.isSome_iff_exists.mp (hc.formats _ k hk)
    · obtain ⟨t, c, vs, h1, _, h3⟩ := C46_two hfl hs hraw hg
      obtain ⟨e1, e2⟩ := t2 ht t c h1
      obtain ⟨f, k, hf, _⟩ := h3 _ _ e1 e2
      exact Option.isSome_iff_exists.mp (hc.formats _ f hf)
  have hret : (w.parse src).returns = true := by
    have h := hc.parse s hs
    cases hws : wSpec fl s with
    | none => rw [hemit.mp hws] at hg; cases hg
    | some ws => rw [hws] at h; exact h.1
  have hE : ¬ Early a w fs := by
    intro h
    cases h with
    | noInput h => exact hi h
    | noOutput h => exact ho h
    | unreadable h => rw [s1, hin] at h; simp at h
    | tmpExists h => rw [s2, s8] at h; simp at h
    | typesTmpExists _ h => rw [s3, s9] at h; simp at h
    | parse c hc' h => rw [hin] at hc'; cases hc'; rw [hret] at h; cases h
    | reread h => rw [s4] at h; cases h
    | format c hc' h =>
      rw [hin] at hc'; cases hc'
      obtain ⟨d, hd'⟩ := hformat.1
      rw [hd'] at h; cases h
    | open' h => rw [s6] at h; cases h
  generalize (main a w fs).1 = fs' at hout ⊢
  generalize (main a w fs).2 = st at hout ⊢
  cases hout with
  | early st h hst => exact absurd h hE
  | outStops _ _ _ n _ _ h => rw [s6] at h; cases h
  | done => rfl
  | typesFail _ src' _ hs' _ _ ht h =>
    rw [hin] at hs'; cases hs'
    rw [s5, s7] at h
    obtain ⟨d, hd'⟩ := hformat.2 ht
    rw [hd'] at h
    simp at h
  | typesStops _ _ _ _ n _ _ _ _ _ h => rw [s7] at h; cases h
  | doneTypes => rfl

/-- **C47** and afterwards the output file (or the two output files) are Go, in one way, and declare
exactly the program of the model for the specification in the input file. -/
theorem C47_output {a : Args} {w : World} {fs fs' : FS} {fl : Flags} {src : Content} {s : Spec} {g : GoProg}
    (hc : Calls w fl src) (hw : ∀ n, w.short n = none) (hr : RemovesWork w) (hd : Distinct a)
    (hfl : flagsOk fl a.pkg = true) (hin : fs a.input = some src) (hs : readSpec (chars src) = some s)
    (hraw : rawOk (rawsSpec s) = true) (hg : generate fl s = some g) (hm : main a w fs = (fs', .done)) :
    ∃ vs code, generateVers s = some vs ∧ fs' a.output = some code ∧
      (a.types = "" → Means (chars code) a.pkg g vs) ∧
      (a.types ≠ "" → ∃ types, fs' a.types = some types ∧ Means2 (chars types) (chars code) a.pkg g vs) := by
  obtain ⟨src', code, h1, _, h3, h4, h5, h6⟩ := C43_success hr hd hm
  rw [hin] at h1; cases h1
  have hp := flagsOk_pkg hfl
  obtain ⟨t1, t2⟩ := texts (a := a) hc hw hp hs
  obtain ⟨t, vs, e1, e2, e3⟩ := C46_text hfl hs hraw hg
  obtain ⟨t', c', vs', e1', e2', e3'⟩ := C46_two hfl hs hraw hg
  rw [e2] at e2'
  cases e2'
  refine ⟨vs, code, e2, h4, fun ht => Means.format hc h3 (e3 _ (t1 ht t e1)), fun ht => ?_⟩
  obtain ⟨types, k1, k2, _⟩ := h6 ht
  obtain ⟨x1, x2⟩ := t2 ht t' c' e1'
  exact ⟨types, k2, Means2.format hc k1 h3 (e3' _ _ x1 x2)⟩

/-- **C47** Failure: if the specification has a type without codec, the run does not succeed, and all files
are as they were. -/
theorem C47_refuses {a : Args} {w : World} {fs : FS} {fl : Flags} {src : Content} {s : Spec}
    (hc : Calls w fl src) (hr : RemovesWork w) (hd : Distinct a)
    (hfl : flagsOk fl a.pkg = true) (hin : fs a.input = some src) (hs : readSpec (chars src) = some s)
    (hraw : rawOk (rawsSpec s) = true) (hg : generate fl s = none) :
    (main a w fs).1 = fs ∧ (main a w fs).2 ≠ .done := by
  refine C43_failure hr hd (.parse src hin ?_)
  have h := hc.parse s hs
  rw [(emit_none (flagsOk_const hfl) (names_spec (readSpec_names hs) hraw)).mpr hg] at h
  exact h

/-! ### A case -/

/-- The literals spelled in decimal. -/
def spellOut : Text → Content
  | [] => []
  | c :: t => if c < 256 then UInt8.ofNat c :: spellOut t else (decimal (c - lit0)).map UInt8.ofNat ++ spellOut t

theorem decimal_lt (n : Nat) : ∀ c ∈ decimal n, c < 256 := by
  intro c hc
  have := List.all_eq_true.mp (decimal_all n) c hc
  simp only [isDigit, Bool.and_eq_true, Nat.ble_eq] at this
  omega

theorem chars_ofNat {t : Text} (h : ∀ c ∈ t, c < 256) : chars (t.map UInt8.ofNat) = t := by
  unfold chars
  rw [List.map_map]
  conv => rhs; rw [← List.map_id t]
  apply List.map_congr_left
  intro c hc
  simp only [Function.comp, UInt8.toNat_ofNat', id]
  exact Nat.mod_eq_of_lt (h c hc)

theorem spells_spellOut : ∀ {t : Text}, (t.all fun c => decide (c < 256) || decide (lit0 ≤ c)) = true →
    Spells t (chars (spellOut t))
  | [], _ => .nil
  | c :: t, h => by
    simp only [List.all_cons, Bool.and_eq_true, Bool.or_eq_true, decide_eq_true_eq] at h
    have ih := spells_spellOut h.2
    unfold spellOut
    by_cases hc : c < 256
    · rw [if_pos hc]
      have : chars (UInt8.ofNat c :: spellOut t) = c :: chars (spellOut t) := by
        simp [chars, Nat.mod_eq_of_lt hc]
      rw [this]
      exact .char (lt256 hc) ih
    · rw [if_neg hc, chars_append, chars_ofNat (decimal_lt _)]
      obtain ⟨n, rfl⟩ : ∃ n, c = lit0 + n := ⟨c - lit0, by omega⟩
      rw [Nat.add_sub_cancel_left]
      exact .lit (isLit_decimal n) ih

def sampleFile : Content := sample.map UInt8.ofNat
def sampleWrites : Writes := (wSpec ⟨true, "uint32"⟩ sampleSpec).getD []

/-- The generator on the specification of `sample`; formatting changes nothing. -/
def sampleWorld : World := { fine with
  parse := fun _ => ⟨sampleWrites.map fun p => (p.1, spellOut p.2), true⟩
  format := some }

theorem sample_spells : ∀ ws : Writes,
    (ws.all fun p => p.2.all fun c => decide (c < 256) || decide (lit0 ≤ c)) = true →
    List.Forall₂ (fun a b => a.1 = b.1 ∧ Spells a.2 (chars b.2)) ws (ws.map fun p => (p.1, spellOut p.2))
  | [], _ => .nil
  | p :: ws, h => by
    simp only [List.all_cons, Bool.and_eq_true] at h
    exact .cons ⟨rfl, spells_spellOut h.1⟩ (sample_spells ws h.2)

theorem sample_read : readSpec (chars sampleFile) = some sampleSpec := by decide +kernel

theorem sample_calls : Calls sampleWorld ⟨true, "uint32"⟩ sampleFile where
  parse s hs := by
    rw [sample_read] at hs
    cases hs
    have h1 : (wSpec ⟨true, "uint32"⟩ sampleSpec).isSome = true := by decide +kernel
    obtain ⟨ws, h2⟩ := Option.isSome_iff_exists.mp h1
    have h3 : sampleWrites = ws := by rw [sampleWrites, h2]; rfl
    rw [h2]
    refine ⟨rfl, ?_⟩
    have e : (sampleWorld.parse sampleFile).writes = ws.map fun p => (p.1, spellOut p.2) := by rw [← h3]; rfl
    rw [e]
    refine sample_spells ws ?_
    rw [← h3]
    decide +kernel
  formats _ _ _ := rfl
  keeps c d f h hf := by
    cases h
    exact ⟨f, hf, rfl, rfl, fun _ => rfl⟩

theorem sample_done : (main someArgs sampleWorld (someFiles.set "p.x" (some sampleFile))).2 = .done := by
  obtain ⟨g, hg⟩ := Option.isSome_iff_exists.mp
    (by decide +kernel : (generate ⟨true, "uint32"⟩ sampleSpec).isSome = true)
  exact C47_succeeds (a := someArgs) (fs := someFiles.set "p.x" (some sampleFile)) sample_calls (fun _ => rfl)
    ⟨rfl, rfl⟩ some_distinct (by decide +kernel) (by decide) (by decide)
    ⟨rfl, rfl, rfl, rfl, rfl, rfl, rfl, by decide +kernel, by decide +kernel⟩ rfl sample_read (by decide +kernel) hg

/-- All hypotheses are met: the run succeeds, and the two files declare the program. -/
example : ∃ g vs code types, generate ⟨true, "uint32"⟩ sampleSpec = some g ∧
    generateVers sampleSpec = some vs ∧
    (main someArgs sampleWorld (someFiles.set "p.x" (some sampleFile))).1 someArgs.output = some code ∧
    (main someArgs sampleWorld (someFiles.set "p.x" (some sampleFile))).1 someArgs.types = some types ∧
    Means2 (chars types) (chars code) someArgs.pkg g vs := by
  obtain ⟨g, hg⟩ := Option.isSome_iff_exists.mp
    (by decide +kernel : (generate ⟨true, "uint32"⟩ sampleSpec).isSome = true)
  have hd := sample_done
  have hin : (someFiles.set "p.x" (some sampleFile)) someArgs.input = some sampleFile := rfl
  generalize someFiles.set "p.x" (some sampleFile) = fs at hd hin ⊢
  obtain ⟨vs, code, h1, h2, _, h4⟩ := C47_output (a := someArgs) (fs := fs) sample_calls (fun _ => rfl)
    ⟨rfl, rfl⟩ some_distinct (by decide +kernel) hin sample_read (by decide +kernel) hg (Prod.ext rfl hd)
  obtain ⟨types, h5, h6⟩ := h4 (by decide)
  exact ⟨g, vs, code, types, hg, h1, h2, h5, h6⟩

end Verif.Props
