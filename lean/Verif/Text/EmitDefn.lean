/-
The declarations printed by out.go, read as Go.
-/
import Verif.Text.EmitXdr

namespace Verif.Text
open Verif.Gen

/-! ### Writes -/

theorem writtenAll_append : ∀ a b : Writes, writtenAll (a ++ b) = writtenAll a ++ writtenAll b
  | [], _ => rfl
  | (_, t) :: a, b => by simp only [List.cons_append, writtenAll, writtenAll_append a b, List.append_assoc]

theorem written_append (x : Bool) : ∀ a b : Writes, written x (a ++ b) = written x a ++ written x b
  | [], _ => rfl
  | (y, t) :: a, b => by
    simp only [List.cons_append, written, written_append x a b]
    split <;> simp only [List.append_assoc]

theorem written_same {x : Bool} : ∀ {a : Writes}, (∀ w ∈ a, w.1 = x) → written x a = writtenAll a
  | [], _ => rfl
  | (y, t) :: a, h => by
    simp only [written, writtenAll]
    rw [if_pos (h (y, t) (by simp)), written_same fun w hw => h w (by simp [hw])]

theorem written_other {x y : Bool} (hxy : x ≠ y) : ∀ {a : Writes}, (∀ w ∈ a, w.1 = x) → written y a = []
  | [], _ => rfl
  | (z, t) :: a, h => by
    simp only [written]
    rw [if_neg (by have := h (z, t) (by simp); simp only at this; rw [this]; exact hxy),
      written_other hxy fun w hw => h w (by simp [hw])]

def gDs (ds : List GD) : List Tok := ds.flatMap fun d => gD d ++ [.semi]

theorem gDs_cons (d : GD) (ds : List GD) : gDs (d :: ds) = gD d ++ [.semi] ++ gDs ds := rfl

/-- The declarations on one of the streams. -/
def sel (x : Bool) : List (Bool × GD) → List GD
  | [] => []
  | (y, d) :: l => if y = x then d :: sel x l else sel x l
def selAll : List (Bool × GD) → List GD
  | [] => []
  | (_, d) :: l => d :: selAll l

theorem sel_append (x : Bool) : ∀ a b, sel x (a ++ b) = sel x a ++ sel x b
  | [], _ => rfl
  | (y, d) :: a, b => by
    simp only [List.cons_append, sel, sel_append x a b]
    split <;> rfl

theorem selAll_append : ∀ a b, selAll (a ++ b) = selAll a ++ selAll b
  | [], _ => rfl
  | (_, d) :: a, b => by simp only [List.cons_append, selAll, selAll_append a b]

/-- The writes are whole declarations, each on one stream. -/
inductive WD : Writes → List (Bool × GD) → Prop where
  | nil : WD [] []
  | cons {c ws x d l} (hc : ∀ w ∈ c, w.1 = x)
      (hs : Scans ⟨.idle, false⟩ (writtenAll c) (gD d ++ [.semi]) ⟨.idle, false⟩) (hw : wD d = true)
      (h : WD ws l) : WD (c ++ ws) ((x, d) :: l)

theorem WD.one {c x d} (hc : ∀ w ∈ c, w.1 = x)
    (hs : Scans ⟨.idle, false⟩ (writtenAll c) (gD d ++ [.semi]) ⟨.idle, false⟩) (hw : wD d = true) :
    WD c [(x, d)] := by
  have := WD.cons hc hs hw .nil
  rw [List.append_nil] at this
  exact this

theorem WD.append {a b k l} (h : WD a k) (h' : WD b l) : WD (a ++ b) (k ++ l) := by
  induction h with
  | nil => exact h'
  | cons hc hs hw _ ih => rw [List.append_assoc]; exact .cons hc hs hw ih

theorem WD.all {ws l} (h : WD ws l) :
    Scans ⟨.idle, false⟩ (writtenAll ws) (gDs (selAll l)) ⟨.idle, false⟩ ∧ (selAll l).all wD = true := by
  induction h with
  | nil => exact ⟨.nil _, rfl⟩
  | cons hc hs hw _ ih =>
    refine ⟨?_, ?_⟩
    · rw [writtenAll_append, selAll, gDs_cons]; exact hs.append ih.1
    · simp only [selAll, List.all_cons, hw, ih.2]; rfl

theorem WD.some {ws l} (x : Bool) (h : WD ws l) :
    Scans ⟨.idle, false⟩ (written x ws) (gDs (sel x l)) ⟨.idle, false⟩ ∧ (sel x l).all wD = true := by
  induction h with
  | nil => exact ⟨.nil _, rfl⟩
  | @cons c ws y d l hc hs hw _ ih =>
    by_cases hxy : y = x
    · subst hxy
      refine ⟨?_, ?_⟩
      · rw [written_append, written_same hc, sel, if_pos rfl, gDs_cons]; exact hs.append ih.1
      · simp only [sel, if_true, List.all_cons, hw, ih.2]; rfl
    · refine ⟨?_, ?_⟩
      · rw [written_append, written_other hxy hc, sel, if_neg hxy]; exact ih.1
      · simp only [sel, hxy, if_false, ih.2]

/-! ### Reading declarations -/

theorem lowDs_append (st : Low) (a b : List GD) : lowDs st (a ++ b) =
    match lowDs st a with
    | some st => lowDs st b
    | none => none := by
  induction a generalizing st with
  | nil => rfl
  | cons d a ih =>
    simp only [List.cons_append, lowDs]
    cases lowD st d with
    | none => rfl
    | some st' => exact ih st'

/-- The writes are the program `g` and the versions `v`. -/
structure DefOk (ws : Writes) (g : GoProg) (v : List GoVers) (l : List (Bool × GD)) : Prop where
  wd : WD ws l
  all : ∀ p vs, lowDs ⟨p, vs, none⟩ (selAll l) = some ⟨p.append g, vs ++ v, none⟩
  types : ∀ p vs, lowDs ⟨p, vs, none⟩ (sel true l) = some ⟨p.append ⟨g.consts, g.types, []⟩, vs, none⟩
  code : ∀ p vs, lowDs ⟨p, vs, none⟩ (sel false l) = some ⟨p.append ⟨[], [], g.methods⟩, vs ++ v, none⟩

def RD (ws : Writes) (g : GoProg) (v : List GoVers) : Prop := ∃ l, DefOk ws g v l

theorem GoProg.append_assoc (a b c : GoProg) : (a.append b).append c = a.append (b.append c) := by
  simp only [GoProg.append, List.append_assoc]

theorem GoProg.append_empty (a : GoProg) : a.append ⟨[], [], []⟩ = a := by
  simp only [GoProg.append, List.append_nil]

theorem RD.nil : RD [] .empty [] := by
  refine ⟨[], .nil, ?_, ?_, ?_⟩ <;> intro p vs <;>
    simp only [selAll, sel, lowDs, GoProg.empty, GoProg.append_empty, List.append_nil]

theorem RD.append {a b g g' v v'} (h : RD a g v) (h' : RD b g' v') : RD (a ++ b) (g.append g') (v ++ v') := by
  obtain ⟨k, h1, h2, h3, h4⟩ := h
  obtain ⟨l, g1, g2, g3, g4⟩ := h'
  refine ⟨k ++ l, h1.append g1, ?_, ?_, ?_⟩ <;> intro p vs
  · rw [selAll_append, lowDs_append, h2]
    simp only [g2, GoProg.append_assoc, List.append_assoc]
  · rw [sel_append, lowDs_append, h3]
    simp only [g3, GoProg.append_assoc]
    rfl
  · rw [sel_append, lowDs_append, h4]
    simp only [g4, GoProg.append_assoc, List.append_assoc]
    rfl

macro "flatD" : tactic => `(tactic| simp only [gD, gOpt, gRecv, gPs, gRes, gMeth, gE, gArgs, gElts, gFs, gS, gSs,
  gCs, kwStruct, kwVar, kwIf, kwElse, kwFor, kwSwitch, kwCase, kwDefault, kwReturn, kwFallthrough, kwConst,
  kwType, kwInterface, kwFunc, List.append_assoc, List.cons_append, List.nil_append, List.append_nil])

/-- A constant declaration. -/
theorem rd_const {n T : Text} {V : Text} {t v : GE} {x : Val} (hn : Word n) (hT : FragE T (gE t))
    (hV : FragE V (gE v)) (ht : t = .id T) (hwv : wE .expr false v = true) (hx : lowVal v = some x) :
    RD (toTypes (t!"const " ++ n ++ t!" " ++ T ++ t!" = " ++ V ++ t!"\n")) ⟨[⟨name n, name T, x⟩], [], []⟩ [] := by
  subst ht
  refine ⟨[(true, .const n (some (.id T)) v)], WD.one (by simp [toTypes]) ?_ ?_, ?_, ?_, ?_⟩
  · simp only [toTypes, writtenAll, List.append_nil]
    exact ((((hn.frag.pre (scA% "const ")).mid hT (scT% " ") rfl).mid hV (scT% " = ") rfl).to (scT% "\n") rfl false).cast
      (by flatD)
  · simp only [wD, wOpt, wE, hwv]; rfl
  · intro p vs; simp only [selAll, lowDs, lowD, hx, List.append_nil]
  · intro p vs; simp only [sel, if_true, lowDs, lowD, hx]
  · intro p vs
    simp only [sel, Bool.true_eq_false, if_false, lowDs, GoProg.append_empty, List.append_nil]

theorem rd_const0 {n : Text} {V : Text} {v : GE} {x : Val} (hn : Word n)
    (hV : FragE V (gE v)) (hwv : wE .expr false v = true) (hx : lowVal v = some x) :
    RD (toTypes (t!"const " ++ n ++ t!" " ++ [] ++ t!" = " ++ V ++ t!"\n")) ⟨[⟨name n, "", x⟩], [], []⟩ [] := by
  refine ⟨[(true, .const n none v)], WD.one (by simp [toTypes]) ?_ ?_, ?_, ?_, ?_⟩
  · simp only [toTypes, writtenAll, List.append_nil]
    have := (((hn.frag.pre (scA% "const ")).mid hV (scT% "  = ") rfl).to (scT% "\n") rfl false).cast
      (us := gD (.const n none v) ++ [.semi]) (by flatD)
    have e : t!"  = " = t!" " ++ t!" = " := rfl
    rw [e, ← List.append_assoc] at this
    exact this
  · simp only [wD, wOpt, hwv]; rfl
  · intro p vs; simp only [selAll, lowDs, lowD, hx, List.append_nil]
  · intro p vs; simp only [sel, if_true, lowDs, lowD, hx]
  · intro p vs
    simp only [sel, Bool.true_eq_false, if_false, lowDs, GoProg.append_empty, List.append_nil]

/-- A type declaration; the text may be written in pieces. -/
theorem rd_type {ws : Writes} {n : Text} {t : GE} {g : GoType} (hws : ∀ w ∈ ws, w.1 = true)
    (hs : Scans ⟨.idle, false⟩ (writtenAll ws) (gD (.type n t) ++ [.semi]) ⟨.idle, false⟩)
    (hw : wE .type false t = true) (hl : lowTy t = some g) : RD ws ⟨[], [(name n, g)], []⟩ [] := by
  refine ⟨[(true, .type n t)], WD.one hws hs ?_, ?_, ?_, ?_⟩
  · simp only [wD, hw]
  · intro p vs; simp only [selAll, lowDs, lowD, hl, List.append_nil]
  · intro p vs; simp only [sel, if_true, lowDs, lowD, hl]
  · intro p vs
    simp only [sel, Bool.true_eq_false, if_false, lowDs, GoProg.append_empty, List.append_nil]

theorem rd_type' {X : Text} {g : GoType} {n : Ident} (hn : isName n = true) (h : RT X g) :
    RD (toTypes (t!"type " ++ iTxt n ++ t!" " ++ X ++ t!"\n")) ⟨[], [(i n, g)], []⟩ [] := by
  obtain ⟨e, h⟩ := h
  have hc : name (iTxt n) = i n := by simp only [iTxt, name_codes]
  rw [← hc]
  refine rd_type (t := e) (by simp [toTypes]) ?_ h.w h.low
  simp only [toTypes, writtenAll, List.append_nil]
  exact ((((word_i hn).frag.pre (scA% "type ")).mid h.frag (scT% " ") rfl).to (scT% "\n") rfl false).cast (by flatD)

/-- An `Xdr` method. -/
theorem rd_method {X : Text} {b : Stmts} {n : Ident} (hn : isName n = true) (h : RS X b) :
    RD (wMethod n X) ⟨[], [], [(i n, b)]⟩ [] := by
  obtain ⟨c, h1, h2, h3, h4⟩ := h
  have hc : name (iTxt n) = i n := by simp only [iTxt, name_codes]
  refine ⟨[(false, .func (some (t!"v", .star (.id (iTxt n)))) t!"Xdr"
    [(t!"xs", .star (.sel (.id t!"xdr") t!"XdrState"))] .none c)], WD.one ?_ ?_ ?_, ?_, ?_, ?_⟩
  · simp [wMethod, toOut]
  · simp only [wMethod, toOut, List.cons_append, List.nil_append, writtenAll, List.append_nil]
    have := ((((word_i hn).frag.preOp ((word_i hn).hd (by simp)) (scA% "func (v *")).to
      (scT% ") Xdr(xs *xdr.XdrState) {\n") rfl false).append (h3.append (scF% "}\n")))
    exact this.cast (by flatD)
  · simp [wD, wE, wRes, h2]
  · intro p vs
    simp only [selAll, lowDs, lowD, List.append_nil]
    simp [isState, isXdr, h4, hc]
  · intro p vs
    simp only [sel, Bool.false_eq_true, if_false, lowDs, GoProg.append_empty]
  · intro p vs
    simp only [sel, if_true, lowDs, lowD, List.append_nil]
    simp [isState, isXdr, h4, hc]

/-! ### Definitions -/

/-- The flag `-const-type` is empty or an identifier. -/
def constTypeOk (fl : Flags) : Prop := fl.constType = "" ∨ Word (codes fl.constType)

theorem rd_constDef {fl : Flags} (hfl : constTypeOk fl) {n : Ident} (hn : rawName n = true) (v : Nat) :
    RD (wConst fl n v) (emitConst fl n v) [] := by
  unfold wConst emitConst
  rcases hfl with h | h
  · rw [h]
    have := rd_const0 (word_raw hn) (frag_lit v) (v := .int v) rfl rfl
    rw [name_codes] at this
    exact this
  · have := rd_const (word_raw hn) h.frag (frag_lit v) (t := .id (codes fl.constType)) (v := .int v) rfl rfl rfl
    rw [name_codes, name_codes] at this
    exact this

theorem rd_typedef (d : Decl) (hn : nDecl d = true) :
    OptRel (fun ws g => RD ws g []) (wTypedef d) (emitTypedef d) := by
  cases d with
  | void => exact RD.nil
  | name t n =>
    simp only [nDecl, Bool.and_eq_true] at hn
    have ht := ty_declType t hn.1
    by_cases hp : ∃ u, t = .ptr u
    · obtain ⟨u, rfl⟩ := hp
      have hx := x_declType (.ptr u) hn.1 ptr_typedef
      simp only [wTypedef, emitTypedef]
      cases ha : tDeclType (.ptr u) <;> cases hb : (DeclType.ptr u).goType <;> rw [ha, hb] at ht <;>
        first | exact ht.elim | trivial | skip
      rename_i X g
      simp only [Option.bind_eq_bind, Option.bind_some]
      cases ha' : xDeclType (.ptr u) t!"&v.P" <;> cases hb' : (DeclType.ptr u).goXdr (.addr (.field .recv "P")) <;>
        rw [ha', hb'] at hx <;> first | exact hx.elim | trivial | skip
      have hs : RT (t!"struct { P " ++ X ++ t!" }") (.struct (.cons "P" g .nil)) := by
        obtain ⟨e, he⟩ := ht
        refine ⟨.struct (.last t!"P" e), ?_, ?_, ?_⟩
        · exact ((he.frag.pre (scA% "struct { P ")).suf (scT% " }") rfl).cast (by flat)
        · simp only [wE, wFs, he.w]; rfl
        · simp only [lowTy, lowFs, he.low]; rfl
      exact RD.append (rd_type' hn.2 hs) (rd_method hn.2 hx)
    · have hx := x_declType t hn.1 ptr_recv
      have e1 : wTypedef (.name t n) = (do
          let g ← tDeclType t
          let b ← xDeclType t t!"v"
          pure (toTypes (t!"type " ++ iTxt n ++ t!" " ++ g ++ t!"\n") ++ wMethod n b)) := by
        cases t <;> first | rfl | exact absurd ⟨_, rfl⟩ hp
      have e2 : emitTypedef (.name t n) = (do
          let gt ← t.goType
          let b ← t.goXdr .recv
          pure ⟨[], [(i n, gt)], [(i n, b)]⟩) := by
        cases t <;> first | rfl | exact absurd ⟨_, rfl⟩ hp
      rw [e1, e2]
      cases ha : tDeclType t <;> cases hb : t.goType <;> rw [ha, hb] at ht <;> first | exact ht.elim | trivial | skip
      simp only [Option.bind_eq_bind, Option.bind_some]
      cases ha' : xDeclType t t!"v" <;> cases hb' : t.goXdr .recv <;> rw [ha', hb'] at hx <;>
        first | exact hx.elim | trivial | skip
      exact RD.append (rd_type' hn.2 ht) (rd_method hn.2 hx)

theorem rd_items {n : Ident} (hn : isName n = true) : ∀ items : List EnumItem,
    (items.all fun it => isName it.name && rawVal it.val) = true →
    RD (items.flatMap fun it => toTypes (t!"const " ++ iTxt it.name ++ t!" " ++ iTxt n ++ t!" = " ++ vTxt it.val ++ t!"\n"))
      ⟨items.map fun it => ⟨i it.name, i n, it.val⟩, [], []⟩ []
  | [], _ => RD.nil
  | it :: items, h => by
    simp only [List.all_cons, Bool.and_eq_true] at h
    have := RD.append (rd_const (word_i h.1.1) (word_i hn).frag (frag_val h.1.2) (t := .id (iTxt n)) rfl (wE_vGE _ _)
      (lowVal_vGE _)) (rd_items hn items (by simpa using h.2))
    simp only [iTxt, name_codes] at this
    exact this

theorem rd_enum (fl : Flags) {n : Ident} {items : List EnumItem} (hn : isName n = true)
    (hi : (items.all fun it => isName it.name && rawVal it.val) = true) :
    OptRel (fun ws g => RD ws g []) (some (wEnum fl n items)) (emitEnum fl n items) := by
  have hT : RT (if fl.unsignedEnum then t!"uint32" else t!"int32") (if fl.unsignedEnum then .uint32 else .int32) := by
    cases fl.unsignedEnum
    · exact ⟨_, (basic_ty (w := t!"int32") ⟨⟨_, _, rfl, rfl, rfl⟩, rfl⟩ rfl (by decide)).toTy⟩
    · exact ⟨_, (basic_ty (w := t!"uint32") ⟨⟨_, _, rfl, rfl, rfl⟩, rfl⟩ rfl (by decide)).toTy⟩
  have h1 := RD.append (RD.append (rd_type' hn hT) (rd_method hn (X := xInt fl.unsignedEnum t!"v")
    (b := .cons (if fl.unsignedEnum then .xdrU32 .recv else .xdrS32 .recv) .nil) (by
      cases fl.unsignedEnum
      · exact rs_s32 ptr_recv
      · exact rs_u32 ptr_recv))) (rd_items hn items hi)
  unfold wEnum emitEnum
  cases hu : fl.unsignedEnum <;> rw [hu] at h1 <;> exact h1

theorem rf_fields : ∀ ds : Decls, nDecls ds = true →
    OptRel (fun ws fs => (∀ w ∈ ws, w.1 = true) ∧ RFs (writtenAll ws) fs) (wFields ds) ds.goFields
  | .nil, _ => ⟨by simp, rfs_nil⟩
  | .cons .void ds, h => by
    simp only [nDecls, nDecl, Bool.true_and] at h
    have := rf_fields ds h
    simp only [wFields, Decls.goFields, Decl.goField]
    cases ha : wFields ds <;> cases hb : ds.goFields <;> rw [ha, hb] at this <;>
      first | exact this.elim | trivial | exact this
  | .cons (.name t n) ds, h => by
    simp only [nDecls, nDecl, Bool.and_eq_true] at h
    have ht := ty_declType t h.1.1
    have hs := rf_fields ds h.2
    simp only [wFields, Decls.goFields, Decl.goField]
    cases ha : tDeclType t <;> cases hb : t.goType <;> rw [ha, hb] at ht <;> first | exact ht.elim | trivial | skip
    cases ha' : wFields ds <;> cases hb' : ds.goFields <;> rw [ha', hb'] at hs <;> first | exact hs.elim | trivial | skip
    refine ⟨?_, ?_⟩
    · intro w hw
      simp only [toTypes, List.mem_append, List.mem_singleton] at hw
      rcases hw with rfl | hw
      · rfl
      · exact hs.1 w hw
    · obtain ⟨e, ht⟩ := ht
      obtain ⟨b, h1, h2, h3⟩ := hs.2
      refine ⟨.cons (iTxt n) e b, ?_, ?_, ?_⟩
      · simp only [wFs, ht.w, h1]; rfl
      · simp only [lowFs, ht.low, h2]; simp only [iTxt, name_codes]
      · have h4 := ((word_i h.1.2).frag.mid ht.frag (scT% " ") rfl).to (scT% ";\n") rfl false
        have h5 := ((scF% "  ").append h4).append h3
        simp only [toTypes, writtenAll_append, writtenAll, List.append_nil, List.append_assoc] at h5 ⊢
        exact h5.cast (by flat)

theorem rd_struct {n : Ident} {ds : Decls} (hn : isName n = true) (hd : nDecls ds = true) :
    OptRel (fun ws g => RD ws g []) (wStruct n ds) (emitStruct n ds) := by
  have hf := rf_fields ds hd
  have hx := x_typespec (.struct ds) hd ptr_recv
  unfold wStruct emitStruct
  cases ha : wFields ds <;> cases hb : ds.goFields <;> rw [ha, hb] at hf <;> first | exact hf.elim | trivial | skip
  rename_i fs gs
  simp only [Option.bind_eq_bind, Option.bind_some]
  cases ha' : xTypespec (.struct ds) t!"v" <;> cases hb' : (Typespec.struct ds).goXdr .recv <;>
    rw [ha', hb'] at hx <;> first | exact hx.elim | trivial | skip
  obtain ⟨hf, b, h1, h2, h3⟩ := hf
  have ht : RD (toTypes (t!"type " ++ iTxt n ++ t!" struct {\n") ++ fs ++ toTypes t!"}\n")
      ⟨[], [(i n, .struct gs)], []⟩ [] := by
    have hc : name (iTxt n) = i n := by simp only [iTxt, name_codes]
    rw [← hc]
    refine rd_type (t := .struct b) ?_ ?_ ?_ ?_
    · intro w hw
      simp only [toTypes, List.mem_append, List.mem_singleton] at hw
      rcases hw with (rfl | hw) | rfl
      · rfl
      · exact hf w hw
      · rfl
    · have h4 := (((word_i hn).frag.pre (scA% "type ")).to (scT% " struct {\n") rfl false).append
        (h3.append (scT% "\n"))
      have e : t!"}\n" = t!"}" ++ t!"\n" := rfl
      simp only [toTypes, writtenAll_append, writtenAll, List.append_nil]
      rw [e]
      simp only [List.append_assoc] at h4 ⊢
      exact h4.cast (by flatD)
    · simp only [wE, h1]; rfl
    · simp only [lowTy, h2]
  exact RD.append ht (rd_method hn hx)

theorem rd_union {n : Ident} {sw : Decl} {cs : Cases} (hn : isName n = true) (hsw : nDecl sw = true)
    (hcs : nCases cs = true) :
    OptRel (fun ws g => RD ws g []) (wUnion n sw cs) (emitUnion n sw cs) := by
  have hu : nTypespec (.union sw cs) = true := by simp only [nTypespec, hsw, hcs]; rfl
  have ht := ty_typespec (.union sw cs) hu
  have hx := x_typespec (.union sw cs) hu ptr_recv
  unfold wUnion emitUnion
  cases ha : tTypespec (.union sw cs) <;> cases hb : (Typespec.union sw cs).goType <;> rw [ha, hb] at ht <;>
    first | exact ht.elim | trivial | skip
  simp only [Option.bind_eq_bind, Option.bind_some]
  cases ha' : xTypespec (.union sw cs) t!"v" <;> cases hb' : (Typespec.union sw cs).goXdr .recv <;>
    rw [ha', hb'] at hx <;> first | exact hx.elim | trivial | skip
  obtain ⟨e, ht⟩ := ht
  exact RD.append (rd_type' hn ⟨e, ht.toTy⟩) (rd_method hn hx)

end Verif.Text
