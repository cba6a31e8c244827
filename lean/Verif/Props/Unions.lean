/-
PROPERTIES C19–C21: unions, undeclared discriminants, stale data.
-/
import Verif.Props.Codec

namespace Verif.Props
open Verif.Xdr Verif.Spec Verif.Gen

/-- The declaration that a discriminant selects: the first arm with a matching label, else the
default arm, else nothing (`void`). -/
def selectedArm (E : Env) (d : XVal) : Cases → Decl
  | .nil => .void
  | .dflt b => b
  | .cons l more b cs => if selects E d (l :: more) then b else selectedArm E d cs

/-- All case labels of a union. -/
def labelsOf : Cases → List Val
  | .nil => []
  | .dflt _ => []
  | .cons l more _ cs => l :: more ++ labelsOf cs

/-- Is there a default arm? -/
def hasDefault : Cases → Bool
  | .nil => false
  | .dflt _ => true
  | .cons _ _ _ cs => hasDefault cs

/-- The Go value `v` of declared type `t` stands for `x`. -/
def DenotesD (E : Env) (t : DeclType) (v : GoVal) (x : XVal) : Prop :=
  ∃ k, absD E (absN E k) t v = some x

/-- `x` is a value of declared type `t`. -/
def IsValueD (E : Env) (t : DeclType) (x : XVal) : Prop := memD E (IsValue E) t x

/-! Helper lemmas -/

theorem absCs_selected {E : Env} {k : Nat} {d a : XVal} {c : Ident → GoVal → Prop} :
    ∀ (cs : Cases) (fs : List (Ident × GoVal)), cs.names.Nodup → hasCs E c cs fs →
      absCs E (absN E k) d cs fs = some a →
      (selectedArm E d cs = .void → a = .void) ∧
      ∀ t n, selectedArm E d cs = .name t n →
        i n ∈ cs.names ∧ ∃ w, fs.lookup (i n) = some w ∧ absD E (absN E k) t w = some a
  | .nil, fs, _, h, ha => by
    simp only [absCs, Option.some.injEq] at ha
    exact ⟨fun _ => ha.symm, fun t n h => by simp [selectedArm] at h⟩
  | .dflt b, fs, hnd, h, ha => by
    simp only [absCs] at ha
    simp only [hasCs] at h
    cases b with
    | void =>
      simp only [absDecl, Option.some.injEq] at ha
      exact ⟨fun _ => ha.symm, fun t n h => by simp [selectedArm] at h⟩
    | name t' n' =>
      simp only [hasField] at h
      obtain ⟨w, rfl, _⟩ := h
      simp only [absDecl] at ha
      refine ⟨fun h => by simp [selectedArm] at h, fun t n h => ?_⟩
      simp only [selectedArm, Decl.name.injEq] at h
      obtain ⟨rfl, rfl⟩ := h
      exact ⟨by simp [Cases.names, Decl.names], w, by simp, ha⟩
  | .cons l more b cs, fs, hnd, h, ha => by
    simp only [absCs] at ha
    simp only [hasCs] at h
    obtain ⟨rest, h1, h2⟩ := h
    simp only [Cases.names] at hnd
    cases hsel : selects E d (l :: more) with
    | true =>
      simp only [hsel, if_true] at ha
      simp only [selectedArm, hsel, if_true]
      cases b with
      | void =>
        simp only [absDecl, Option.some.injEq] at ha
        exact ⟨fun _ => ha.symm, fun t n h => by cases h⟩
      | name t' n' =>
        simp only [hasField] at h1
        obtain ⟨w, rfl, _⟩ := h1
        simp only [absDecl] at ha
        refine ⟨fun h => by simp at h, fun t n h => ?_⟩
        simp only [Decl.name.injEq] at h
        obtain ⟨rfl, rfl⟩ := h
        exact ⟨by simp [Cases.names, Decl.names], w, by simp, ha⟩
    | false =>
      simp only [hsel, Bool.false_eq_true, if_false] at ha
      simp only [selectedArm, hsel, Bool.false_eq_true, if_false]
      cases b with
      | void =>
        simp only [hasField] at h1
        subst h1
        simp only [skipField] at ha
        have := absCs_selected cs fs (by simpa [Decl.names] using hnd) h2 ha
        refine ⟨this.1, fun t n h => ?_⟩
        obtain ⟨g1, g2⟩ := this.2 t n h
        exact ⟨by simpa [Cases.names, Decl.names] using g1, g2⟩
      | name t' n' =>
        simp only [hasField] at h1
        obtain ⟨w, rfl, _⟩ := h1
        simp only [skipField, List.tail_cons] at ha
        simp only [Decl.names, List.cons_append, List.nil_append, List.nodup_cons] at hnd
        have := absCs_selected cs rest hnd.2 h2 ha
        refine ⟨this.1, fun t n h => ?_⟩
        obtain ⟨g1, w', g2, g3⟩ := this.2 t n h
        refine ⟨by simp [Cases.names, g1], w', ?_, g3⟩
        have hne : (i n == i n') = false := by
          simp only [beq_eq_false_iff_ne, ne_eq]
          intro he
          exact hnd.1 (he ▸ g1)
        simp [List.lookup_cons, hne, g2]

theorem memCs_selected {E : Env} {c : Ident → XVal → Prop} {d a : XVal} :
    ∀ (cs : Cases), memCs E c d cs a ↔ memArm E c (selectedArm E d cs) a
  | .nil => by simp only [memCs, selectedArm, memArm]
  | .dflt b => by simp only [memCs, selectedArm]
  | .cons l more b cs => by
    simp only [memCs, selectedArm]
    cases selects E d (l :: more) with
    | true => simp only [if_true]
    | false =>
      simp only [Bool.false_eq_true, if_false]
      exact memCs_selected cs

theorem selects_append {E : Env} {d : XVal} {l m : List Val} :
    selects E d (l ++ m) = (selects E d l || selects E d m) := by simp [selects]

theorem selectedArm_void {E : Env} {d : XVal} : ∀ (cs : Cases), hasDefault cs = false →
    selects E d (labelsOf cs) = false → selectedArm E d cs = .void
  | .nil, _, _ => rfl
  | .dflt _, h, _ => by simp [hasDefault] at h
  | .cons l more b cs, h, hl => by
    simp only [hasDefault] at h
    simp only [labelsOf, selects_append, Bool.or_eq_false_iff] at hl
    simp only [selectedArm, hl.1, Bool.false_eq_true, if_false]
    exact selectedArm_void cs h hl.2

section
variable {fl : Flags} {s : Gen.Spec} {g : GoProg} (hg : generate fl s = some g)
  (hs : supported fl s = true)

local notation "E" => envOf fl.unsignedEnum s

/-! ### C19 -/

include hg hs in
/-- The encoding of a union is that of its discriminant field followed by that of the field of the
selected arm (or nothing).  The other fields have no influence. -/
theorem C19_union {n dn : Ident} {t : DeclType} {cs : Cases}
    (ht : (envOf fl.unsignedEnum s).typeOf n = some (.typespec (.union (.name t dn) cs))) {v : GoVal}
    (hv : Typed E n v) {x : XVal} (hx : Denotes E n v x) (hok : IsValue E n x) :
    ∃ fs dv d, v = .struct fs ∧ fs.lookup (i dn) = some dv ∧ DenotesD E t dv d ∧
      (selectedArm E d cs = .void → ∀ w, Runs g (i n) (makeWriter w) v (makeWriter (w ++ enc d)) v) ∧
      (∀ ta an, selectedArm E d cs = .name ta an → ∃ av a, fs.lookup (i an) = some av ∧
        DenotesD E ta av a ∧
        ∀ w, Runs g (i n) (makeWriter w) v (makeWriter (w ++ (enc d ++ enc a))) v) := by
  obtain ⟨y, hy, _, hr, _⟩ := C12_encode hg hs hv
  cases denotes_unique hx hy
  have hr := hr hok
  obtain ⟨k, hx⟩ := hx
  cases k with
  | zero => cases hx
  | succ k =>
    simp only [absN, ht, Option.bind_some, absTop, absD] at hx
    obtain ⟨t', ht', hvv⟩ := typed_unfold hv
    rw [ht] at ht'; cases ht'
    simp only [hasTop, hasD, hasT] at hvv
    obtain ⟨fs, rest, rfl, h1, h2⟩ := hvv
    simp only [hasField] at h1
    obtain ⟨dv, rfl, h1⟩ := h1
    have hwf := (link hg hs).wf n _ ht
    simp only [DeclType.wf, Typespec.wf, Bool.and_eq_true, Decl.names] at hwf
    have hnd := hwf.1.1
    simp only [List.cons_append, List.nil_append, List.nodup_cons, decide_eq_true_eq] at hnd
    simp only [absT, absDecl, skipField, List.tail_cons] at hx
    obtain ⟨d, hd, hx⟩ := bind_some hx
    obtain ⟨a, ha, hx⟩ := bind_some hx
    cases hx
    have hsel := absCs_selected cs rest hnd.2 h2 ha
    refine ⟨_, dv, d, rfl, by simp, ⟨k, hd⟩, fun hvoid w => ?_, fun ta an hn => ?_⟩
    · rw [hsel.1 hvoid] at hr
      simpa [enc] using hr w
    · obtain ⟨g1, av, g2, g3⟩ := hsel.2 ta an hn
      refine ⟨av, a, ?_, ⟨k, g3⟩, fun w => by simpa [enc] using hr w⟩
      have hne : (i an == i dn) = false := by
        simp only [beq_eq_false_iff_ne, ne_eq]
        intro he
        exact hnd.1 (he ▸ g1)
      simp [List.lookup_cons, hne, g2]

/-- Which values a union type has: any discriminant of its type, with a value of the arm selected. -/
theorem C19_values {n dn : Ident} {t : DeclType} {cs : Cases}
    (ht : (envOf fl.unsignedEnum s).typeOf n = some (.typespec (.union (.name t dn) cs))) (d a : XVal) :
    IsValue E n (.union d a) ↔ IsValueD E t d ∧
      (selectedArm E d cs = .void → a = .void) ∧
      ∀ ta an, selectedArm E d cs = .name ta an → IsValueD E ta a := by
  rw [isValue_iff ht]
  simp only [memD, memT, memDisc, IsValueD]
  constructor
  · rintro ⟨d', a', h1, h2, he⟩
    cases he
    rw [memCs_selected] at h2
    refine ⟨h1, fun h => ?_, fun ta an h => ?_⟩
    · rw [h] at h2; simpa only [memArm] using h2
    · rw [h] at h2; simpa only [memArm] using h2
  · rintro ⟨h1, h2, h3⟩
    refine ⟨d, a, h1, ?_, rfl⟩
    rw [memCs_selected]
    cases h : selectedArm E d cs with
    | void => simp only [memArm]; exact h2 h
    | name ta an => simp only [memArm]; exact h3 ta an h

/-! ### C20 undeclared discriminants -/

include hg hs in
/-- A union without default accepts a discriminant that no label lists: it is encoded and decoded as
the bare discriminant, without error. -/
theorem C20_undeclared {n dn : Ident} {t : DeclType} {cs : Cases}
    (ht : (envOf fl.unsignedEnum s).typeOf n = some (.typespec (.union (.name t dn) cs)))
    (hdef : hasDefault cs = false) {d : XVal} (hd : IsValueD E t d)
    (hl : selects E d (labelsOf cs) = false) :
    (∀ v, Typed E n v → Denotes E n v (.union d .void) →
      ∀ w, Runs g (i n) (makeWriter w) v (makeWriter (w ++ enc d)) v) ∧
    (∀ z rest, g.zeroNamed (i n) = some z → ∃ v',
      Runs g (i n) (makeReader (enc d ++ rest)) z (makeReader rest) v' ∧
      Denotes E n v' (.union d .void)) := by
  have hsel := selectedArm_void cs hdef hl
  have hv : IsValue E n (.union d .void) :=
    (C19_values ht d .void).mpr ⟨hd, fun _ => rfl, fun ta an h => by rw [hsel] at h; cases h⟩
  constructor
  · intro v hty hx w
    obtain ⟨y, hy, _, hr, _⟩ := C12_encode hg hs hty
    cases denotes_unique hx hy
    simpa [enc] using hr hv w
  · intro z rest hz
    obtain ⟨v', h1, _, h3, _⟩ := C13_accepts hg hs hz hv (reads_enc _) rest
    exact ⟨v', by simpa [enc] using h1, h3⟩

/-! ### C21 stale data -/

include hg hs in
/-- Decoding into a value without set optional pointers (in particular a zero value) delivers what
was in the message. -/
theorem C21_fresh {n : Ident} {v v' : GoVal} (hv : Typed E n v) (hc : Clean E n v) {b : List UInt8}
    {xs' : XdrState} (h : Runs g (i n) (makeReader b) v xs' v') (he : xs'.err = none) :
    ∃ x p, b = p ++ xs'.buf ∧ IsValue E n x ∧ Reads x p ∧ Denotes E n v' x := by
  obtain ⟨x, p, rest, h1, h2, h3, rfl, _, h5⟩ := C13_success hg hs hv h he
  exact ⟨x, p, h1, h2, h3, h5 hc⟩

end

section
open Verif.Demo

/-- A used value of type `node` (a list of two elements). -/
def usedNode : GoVal := .struct [("Val", .i32 9), ("Next", .ptr (some
  (.struct [("Val", .i32 7), ("Next", .ptr none)])))]

theorem usedNode_typed : Typed env "node" usedNode := by
  have hz : Typed env "node" (.struct [("Val", .i32 0), ("Next", .ptr none)]) := by
    obtain ⟨z, h1, h2, _⟩ := zero_fresh (n := "node") gen supp (by decide +kernel)
    have h3 : prog.zeroNamed (i "node") = some (.struct [("Val", .i32 0), ("Next", .ptr none)]) := by
      decide +kernel
    rw [h3] at h1; cases h1; exact h2
  exact typed_of_run gen supp (n := "node") hz (b := [0, 0, 0, 9, 0, 0, 0, 1, 0, 0, 0, 7, 0, 0, 0, 0])
    (xs' := makeReader []) (runs_of_codecN gen supp (k := 10) (by decide +kernel))

/-- Decoding the one-element list `[1]` into a used value succeeds and leaves a list of two
elements, the second of which was not in the message. -/
theorem C21_stale : ∃ (v' : GoVal) (x y : XVal),
    Typed env "node" usedNode ∧
    Runs prog "Node" (makeReader (enc x)) usedNode (makeReader []) v' ∧
    IsValue env "node" x ∧ Denotes env "node" v' y ∧ x ≠ y := by
  refine ⟨.struct [("Val", .i32 1), ("Next", .ptr (some (.struct [("Val", .i32 7), ("Next", .ptr none)])))],
    .struct [.int 1, .opt none], .struct [.int 1, .opt (some (.struct [.int 7, .opt none]))],
    usedNode_typed, runs_of_codecN gen supp (k := 10) (by decide +kernel), ?_, ⟨10, by decide +kernel⟩,
    by decide +kernel⟩
  have ht : Typed env "node" (.struct [("Val", .i32 1), ("Next", .ptr none)]) := by
    obtain ⟨z, h1, h2, _⟩ := zero_fresh (n := "node") gen supp (by decide +kernel)
    exact typed_of_run gen supp (n := "node") h2 (b := [0, 0, 0, 1, 0, 0, 0, 0]) (xs' := makeReader [])
      (by
        have h3 : prog.zeroNamed (i "node") = some (.struct [("Val", .i32 0), ("Next", .ptr none)]) := by
          decide +kernel
        rw [h3] at h1; cases h1
        exact runs_of_codecN gen supp (k := 10) (by decide +kernel))
  exact isValue_of_run gen supp (n := "node") ht ⟨10, by decide +kernel⟩ (w := [])
    (v' := .struct [("Val", .i32 1), ("Next", .ptr none)]) (xs' := makeWriter [0, 0, 0, 1, 0, 0, 0, 0])
    (runs_of_codecN gen supp (k := 10) (by decide +kernel)) rfl

/-! The hypotheses of C19 and C20 can be met. -/

-- C19: the union `arm` with a value using the second label of its first arm
example : env.typeOf "arm" = some (.typespec (.union (.name (.typespec (.ident "kind")) "k")
      (.cons (.ident "A") [.ident "B"] (.name (.string (some (.ident "MAX"))) "s")
      (.cons (.ident "C") [] (.name (.typespec (.ident "node")) "n") (.dflt .void))))) := by
  decide +kernel
example : selectedArm env (.uint 1)
      (.cons (.ident "A") [.ident "B"] (.name (.string (some (.ident "MAX"))) "s")
      (.cons (.ident "C") [] (.name (.typespec (.ident "node")) "n") (.dflt .void)))
    = .name (.string (some (.ident "MAX"))) "s" := by decide +kernel
-- C20: the union `bare` has no default; discriminant 7 is not listed
example : selects env (.uint 7) (labelsOf (.cons (.ident "A") [] (.name (.typespec (.int false)) "x") .nil))
    = false := by decide +kernel
example : Runs prog "Bare" (makeReader [0, 0, 0, 7, 1]) (.struct [("K", .u32 0), ("X", .i32 0)])
    (makeReader [1]) (.struct [("K", .u32 7), ("X", .i32 0)]) :=
  runs_of_codecN gen supp (k := 5) (by decide +kernel)

end

end Verif.Props
