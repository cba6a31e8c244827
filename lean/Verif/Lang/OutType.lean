/-
How the values of out.go stand for the syntax of the model, and its methods `goType`.
-/
import Verif.Lang.OutSpec

namespace Verif.Lang
open Verif.Text Verif.Gen

/-! ### Values -/

section
variable (H : Nat → V) (n : Nat)

/-- A slice with the elements `vs`, in the memory below `n`. -/
structure IsSlice (s : Slice) (vs : List V) : Prop where
  lt : s.base.id < n
  mem : ∃ l, (H s.base.id).at s.base.path = some (.vals l) ∧ (l.drop s.off).take s.len = vs
  len : s.len = vs.length

/-- The same, or nil. -/
def IsList (v : V) (vs : List V) : Prop := (v = .nil ∧ vs = []) ∨ ∃ s, v = .slice s ∧ IsSlice H n s vs

/-- A size, or none. -/
def IsSize : Option Val → List UInt8 → Prop
  | none, b => b = []
  | some v, b => IsVal v b

/-- `enumItem` (out.go:346-349). -/
def IsItem (it : EnumItem) (v : V) : Prop :=
  ∃ nb vb, Name it.name nb ∧ IsVal it.val vb ∧ v = .struct "main.enumItem" [("name", .str nb), ("val", .str vb)]

mutual
/-- `typespec` (out.go:165-344). -/
def IsTypespec : Typespec → V → Prop
  | .int u, v => v = .struct "main.typeInt" [("unsig", .bool u)]
  | .hyper u, v => v = .struct "main.typeHyper" [("unsig", .bool u)]
  | .float, v => v = .struct "main.typeFloat" []
  | .double, v => v = .struct "main.typeDouble" []
  | .quadruple, v => v = .struct "main.typeQuadruple" []
  | .bool, v => v = .struct "main.typeBool" []
  | .enum items, v => ∃ s vs, IsList H n s vs ∧ All2 IsItem items vs ∧ v = .struct "main.typeEnum" [("items", s)]
  | .struct ds, v => ∃ s vs, IsList H n s vs ∧ IsDecls ds vs ∧ v = .struct "main.typeStruct" [("items", s)]
  | .union sw cs, v => ∃ d s vs df, IsDecl sw d ∧ IsList H n s vs ∧ IsCases cs vs df ∧
      v = .struct "main.typeUnion" [("switchDecl", d), ("cases", .struct "main.unionCasesDef" [("cases", s), ("def", df)])]
  | .ident s, v => ∃ b, Name s b ∧ v = .struct "main.typeIdent" [("n", .str b)]
/-- `declType` (out.go:29-163). -/
def IsDeclType : DeclType → V → Prop
  | .typespec t, v => ∃ tv, IsTypespec t tv ∧ v = .struct "main.declTypeTypespec" [("t", tv)]
  | .array t sz, v => ∃ tv b, IsTypespec t tv ∧ IsVal sz b ∧ v = .struct "main.declTypeArray" [("t", tv), ("sz", .str b)]
  | .varArray t sz, v => ∃ tv b, IsTypespec t tv ∧ IsSize sz b ∧
      v = .struct "main.declTypeVarArray" [("t", tv), ("sz", .str b)]
  | .opaqueArray sz, v => ∃ b, IsVal sz b ∧ v = .struct "main.declTypeOpaqueArray" [("sz", .str b)]
  | .opaqueVarArray sz, v => ∃ b, IsSize sz b ∧ v = .struct "main.declTypeOpaqueVarArray" [("sz", .str b)]
  | .string sz, v => ∃ b, IsSize sz b ∧ v = .struct "main.declTypeString" [("sz", .str b)]
  | .ptr t, v => ∃ tv, IsTypespec t tv ∧ v = .struct "main.declTypePtr" [("t", tv)]
/-- `decl` (out.go:19-27). -/
def IsDecl : Decl → V → Prop
  | .void, v => v = .struct "main.declVoid" []
  | .name t s, v => ∃ tv b, IsDeclType t tv ∧ Name s b ∧ v = .struct "main.declName" [("t", tv), ("n", .str b)]
def IsDecls : Decls → List V → Prop
  | .nil, vs => vs = []
  | .cons d ds, vs => ∃ v l, IsDecl d v ∧ IsDecls ds l ∧ vs = v :: l
/-- `unionCasesDef` (out.go:351-359): the cases and the default. -/
def IsCases : Cases → List V → V → Prop
  | .nil, vs, df => vs = [] ∧ df = .nil
  | .dflt d, vs, df => vs = [] ∧ IsDecl d df
  | .cons l more d cs, vs, df => ∃ s ls v vs', IsSlice H n s (ls.map .str) ∧ All2 IsVal (l :: more) ls ∧ IsDecl d v ∧
      IsCases cs vs' df ∧ vs = .struct "main.unionCaseDecl" [("cases", .slice s), ("body", v)] :: vs'
end
end

/-! ### Results -/

/-- For all depths of calls from some on. -/
def Ev (P : Nat → Prop) : Prop := ∃ K, ∀ k, K ≤ k → P k

theorem Ev.step {P Q : Nat → Prop} (h : Ev P) (hs : ∀ k, P k → Q (k + 1)) : Ev Q := by
  obtain ⟨K, hK⟩ := h
  refine ⟨K + 1, fun k hk => ?_⟩
  obtain ⟨j, rfl⟩ : ∃ j, k = j + 1 := ⟨k - 1, by omega⟩
  exact hs j (hK j (by omega))

theorem Ev.imp {P Q : Nat → Prop} (h : Ev P) (hs : ∀ k, P k → Q k) : Ev Q := by
  obtain ⟨K, hK⟩ := h
  exact ⟨K, fun k hk => hs k (hK k hk)⟩

theorem Ev.and {P Q : Nat → Prop} (h : Ev P) (h' : Ev Q) : Ev fun k => P k ∧ Q k := by
  obtain ⟨K, hK⟩ := h
  obtain ⟨L, hL⟩ := h'
  exact ⟨max K L, fun k hk => ⟨hK k (by omega), hL k (by omega)⟩⟩

theorem Ev.all {P : Nat → Prop} (h : ∀ k, P k) : Ev P := ⟨0, fun k _ => h k⟩

theorem Ev.pos {Q : Nat → Prop} (h : ∀ k, Q (k + 1)) : Ev Q := Ev.step (P := fun _ => True) (Ev.all fun _ => trivial) fun k _ => h k

theorem Ev.all2 {α β : Type} {P : α → β → Nat → Prop} {l : List α} {l' : List β} (h : All2 (fun a b => Ev (P a b)) l l') :
    Ev fun k => All2 (fun a b => P a b k) l l' := by
  induction h with
  | nil => exact Ev.all fun _ => .nil
  | cons h r ih => exact (h.and ih).imp fun k h => .cons h.1 h.2

/-- The function returns the text, or panics. -/
def Says {W : Type} (o : Option Text) (m : PM W (List V)) : Prop :=
  match o with
  | some x => ∃ b, Prints x b ∧ m = pure [.str b]
  | none => m = pstop .panic

theorem Says.split {W : Type} {o : Option Text} {m : PM W (List V)} (h : Says o m) :
    (o = none ∧ m = pstop .panic) ∨ ∃ x b, o = some x ∧ Prints x b ∧ m = pure [.str b] := by
  cases o with
  | none => exact .inl ⟨rfl, h⟩
  | some x => obtain ⟨b, hb, h⟩ := h; exact .inr ⟨x, b, rfl, hb, h⟩

/-- The type of a structure. -/
def tag : V → String
  | .struct T _ => T
  | _ => ""

/-- A structure with the methods of the interface. -/
def HasMeths (v : V) : Prop :=
  ∃ T fs, v = .struct T fs ∧ byValue genProg T "goType" = true ∧ byValue genProg T "goXdr" = true

theorem typespec_meths {H : Nat → V} {n : Nat} {t : Typespec} {v : V} (h : IsTypespec H n t v) : HasMeths v := by
  cases t <;> unfold IsTypespec at h
  case int => exact ⟨_, _, h, byval_out_typeInt_goType, byval_out_typeInt_goXdr⟩
  case hyper => exact ⟨_, _, h, byval_out_typeHyper_goType, byval_out_typeHyper_goXdr⟩
  case float => exact ⟨_, _, h, byval_out_typeFloat_goType, byval_out_typeFloat_goXdr⟩
  case double => exact ⟨_, _, h, byval_out_typeDouble_goType, byval_out_typeDouble_goXdr⟩
  case quadruple => exact ⟨_, _, h, byval_out_typeQuadruple_goType, byval_out_typeQuadruple_goXdr⟩
  case bool => exact ⟨_, _, h, byval_out_typeBool_goType, byval_out_typeBool_goXdr⟩
  case enum => obtain ⟨_, _, _, _, h⟩ := h; exact ⟨_, _, h, byval_out_typeEnum_goType, byval_out_typeEnum_goXdr⟩
  case struct => obtain ⟨_, _, _, _, h⟩ := h; exact ⟨_, _, h, byval_out_typeStruct_goType, byval_out_typeStruct_goXdr⟩
  case union =>
    obtain ⟨_, _, _, _, _, _, _, h⟩ := h; exact ⟨_, _, h, byval_out_typeUnion_goType, byval_out_typeUnion_goXdr⟩
  case ident => obtain ⟨_, _, h⟩ := h; exact ⟨_, _, h, byval_out_typeIdent_goType, byval_out_typeIdent_goXdr⟩

theorem declType_meths {H : Nat → V} {n : Nat} {t : DeclType} {v : V} (h : IsDeclType H n t v) : HasMeths v := by
  cases t <;> unfold IsDeclType at h
  case typespec =>
    obtain ⟨_, _, h⟩ := h; exact ⟨_, _, h, byval_out_declTypeTypespec_goType, byval_out_declTypeTypespec_goXdr⟩
  case array =>
    obtain ⟨_, _, _, _, h⟩ := h; exact ⟨_, _, h, byval_out_declTypeArray_goType, byval_out_declTypeArray_goXdr⟩
  case varArray =>
    obtain ⟨_, _, _, _, h⟩ := h; exact ⟨_, _, h, byval_out_declTypeVarArray_goType, byval_out_declTypeVarArray_goXdr⟩
  case opaqueArray =>
    obtain ⟨_, _, h⟩ := h; exact ⟨_, _, h, byval_out_declTypeOpaqueArray_goType, byval_out_declTypeOpaqueArray_goXdr⟩
  case opaqueVarArray =>
    obtain ⟨_, _, h⟩ := h
    exact ⟨_, _, h, byval_out_declTypeOpaqueVarArray_goType, byval_out_declTypeOpaqueVarArray_goXdr⟩
  case string =>
    obtain ⟨_, _, h⟩ := h; exact ⟨_, _, h, byval_out_declTypeString_goType, byval_out_declTypeString_goXdr⟩
  case ptr =>
    obtain ⟨_, _, h⟩ := h; exact ⟨_, _, h, byval_out_declTypePtr_goType, byval_out_declTypePtr_goXdr⟩

/-- Texts piece by piece. -/
macro "prints" : tactic => `(tactic|
  (try simp only [List.append_assoc, List.nil_append, List.append_nil, show ub [] = [] from rfl]
   repeat' first
     | assumption
     | exact Prints.nil
     | exact prints_ub rfl
     | refine Prints.append ?_ ?_))

@[gen_simp] theorem choose_name (fs : List (String × V)) :
    chooseT "main" (.struct "main.declName" fs) 0 none [[.name "declName"]] = some (some 0) := rfl
@[gen_simp] theorem choose_void : chooseT "main" (.struct "main.declVoid" []) 0 none [[.name "declName"]] = some none := rfl
@[gen_simp] theorem choose2_name (fs : List (String × V)) :
    chooseT "main" (.struct "main.declName" fs) 0 none [[.name "declVoid"], [.name "declName"]] = some (some 1) := rfl
@[gen_simp] theorem choose2_void :
    chooseT "main" (.struct "main.declVoid" []) 0 none [[.name "declVoid"], [.name "declName"]] = some (some 0) := rfl

/-! ### Loops -/

/-- Texts one after the other. -/
def gather : List (Option Text) → Option Text
  | [] => some []
  | o :: os => do
    let x ← o
    let y ← gather os
    pure (x ++ y)

/-- The variable (in `env`) has the text appended to `r`. -/
def Gains {W : Type} (env : List UInt8 → VEnv) (r : List UInt8) (m : PM W (VEnv × Ctl)) : Option Text → Prop
  | some x => ∃ b, Prints x b ∧ m = pure (env (r ++ b), .next)
  | none => m = pstop .panic

def Step {W : Type} (env : List UInt8 → VEnv) (o : Option Text) (g : VEnv → PM W (VEnv × Ctl)) : Prop :=
  ∀ r, Gains env r (g (env r)) o

section
variable {W : Type}

theorem step_range {g : Nat → V → VEnv → PM W (VEnv × Ctl)} {env : List UInt8 → VEnv} {os : List (Option Text)}
    {vs : List V} (h : All2 (fun o v => ∀ i, Step env o (g i v)) os vs) : ∀ i, Step env (gather os) (prange g i vs) := by
  induction h with
  | nil => exact fun i r => ⟨[], .nil, by rw [List.append_nil]; rfl⟩
  | @cons o v os vs h r ih =>
    intro i r
    have h1 := h i r
    rw [gather]
    cases o with
    | none =>
      show (g i v (env r) >>= _) = _
      have h1 : _ = _ := h1
      rw [h1]
      rfl
    | some x =>
      obtain ⟨b, hb, h1⟩ := h1
      have h2 := ih (i + 1) (r ++ b)
      cases hg : gather os with
      | none =>
        rw [hg] at h2
        have h2 : _ = _ := h2
        show (g i v (env r) >>= _) = _
        rw [h1]
        exact h2
      | some y =>
        rw [hg] at h2
        obtain ⟨c, hc, h2⟩ := h2
        refine ⟨b ++ c, hb.append hc, ?_⟩
        show (g i v (env r) >>= _) = _
        rw [h1, ← List.append_assoc]
        exact h2

theorem gives_range {g : Nat → V → VEnv → PM W (VEnv × Ctl)} (env : List UInt8 → VEnv) (os : List (Option Text))
    {vs : List V} {r : List UInt8} {o : Option Text} {f : VEnv × Ctl → PM W (List V)}
    (h : All2 (fun o v => ∀ i, Step env o (g i v)) os vs)
    (hf : match gather os with | some x => ∀ b, Prints x b → Says o (f (env (r ++ b), .next)) | none => o = none) :
    Says o (prange g 0 vs (env r) >>= f) := by
  have h1 := step_range h 0 r
  cases hg : gather os with
  | none =>
    rw [hg] at h1 hf
    have h1 : _ = _ := h1
    have hf : o = none := hf
    subst hf
    rw [h1]
    rfl
  | some x =>
    rw [hg] at h1 hf
    obtain ⟨b, hb, h1⟩ := h1
    rw [h1]
    exact hf b hb

theorem elems_list {PS : PSem W} {v : V} {vs : List V} (h : IsList PS.heap PS.bound v vs) : pelems PS v = pure vs := by
  rcases h with ⟨rfl, rfl⟩ | ⟨s, rfl, h⟩
  · rfl
  · obtain ⟨l, h1, h2⟩ := h.mem
    show (if s.base.id < PS.bound then _ else _) = _
    rw [if_pos h.lt, h1]
    dsimp only
    rw [h2]
end

theorem All2.map_left {α β γ : Type} {P : γ → β → Prop} (f : α → γ) {l : List α} {l' : List β}
    (h : All2 (fun a b => P (f a) b) l l') : All2 P (l.map f) l' := by
  induction h with
  | nil => exact .nil
  | cons h _ ih => exact .cons h ih

/-- `[]decl` as a list. -/
def declList : Decls → List Decl
  | .nil => []
  | .cons d ds => d :: declList ds

theorem gather_decls : ∀ ds : Decls, gather ((declList ds).map tDecl) = tDecls ds
  | .nil => by rw [tDecls]; rfl
  | .cons d ds => by rw [tDecls, declList, List.map_cons, gather, gather_decls ds]

/-- The bodies of the cases. -/
def caseBodies : Cases → List Decl
  | .nil => []
  | .dflt _ => []
  | .cons _ _ d cs => d :: caseBodies cs

def caseDefault : Cases → Option Decl
  | .nil => none
  | .dflt d => some d
  | .cons _ _ _ cs => caseDefault cs

/-! ### `goType` -/

section
variable {W : Type} (E : PExt W)

abbrev GT (t : Typespec) (v : V) : Prop :=
  Ev fun k => Says (tTypespec t) (pcallN genProg E k (.meth (tag v) "goType") [v])
abbrev GTD (t : DeclType) (v : V) : Prop :=
  Ev fun k => Says (tDeclType t) (pcallN genProg E k (.meth (tag v) "goType") [v])
abbrev GTN (d : Decl) (v : V) : Prop :=
  Ev fun k => (∃ T fs, v = .struct T fs) ∧ Says (tDecl d) (pcallN genProg E k (.fn "main" "declToNameGotype") [v])

theorem gt_int (u : Bool) : GT E (.int u) (.struct "main.typeInt" [("unsig", .bool u)]) := by
  refine Ev.pos fun k => ?_
  rw [tag, pcallN, find_out_typeInt_goType, tTypespec.eq_def]
  cases u <;> (pgo_core [out_typeInt_goType]; exact ⟨_, prints_ub rfl, rfl⟩)

theorem gt_hyper (u : Bool) : GT E (.hyper u) (.struct "main.typeHyper" [("unsig", .bool u)]) := by
  refine Ev.pos fun k => ?_
  rw [tag, pcallN, find_out_typeHyper_goType, tTypespec.eq_def]
  cases u <;> (pgo_core [out_typeHyper_goType]; exact ⟨_, prints_ub rfl, rfl⟩)

theorem gt_float : GT E .float (.struct "main.typeFloat" []) := by
  refine Ev.pos fun k => ?_
  rw [tag, pcallN, find_out_typeFloat_goType, tTypespec]
  pgo_core [out_typeFloat_goType]
  exact ⟨_, prints_ub rfl, rfl⟩

theorem gt_double : GT E .double (.struct "main.typeDouble" []) := by
  refine Ev.pos fun k => ?_
  rw [tag, pcallN, find_out_typeDouble_goType, tTypespec]
  pgo_core [out_typeDouble_goType]
  exact ⟨_, prints_ub rfl, rfl⟩

theorem gt_quadruple : GT E .quadruple (.struct "main.typeQuadruple" []) := by
  refine Ev.pos fun k => ?_
  rw [tag, pcallN, find_out_typeQuadruple_goType, tTypespec]
  show _ = _
  pgo_core [out_typeQuadruple_goType, builtins, pbuiltin]

theorem gt_bool : GT E .bool (.struct "main.typeBool" []) := by
  refine Ev.pos fun k => ?_
  rw [tag, pcallN, find_out_typeBool_goType, tTypespec]
  pgo_core [out_typeBool_goType]
  exact ⟨_, prints_ub rfl, rfl⟩

theorem gt_enum (items : List EnumItem) (s : V) : GT E (.enum items) (.struct "main.typeEnum" [("items", s)]) := by
  refine Ev.pos fun k => ?_
  rw [tag, pcallN, find_out_typeEnum_goType, tTypespec]
  pgo_core [out_typeEnum_goType]
  exact ⟨_, prints_ub rfl, rfl⟩

theorem gt_ident {s : Ident} {b : List UInt8} (h : Name s b) : GT E (.ident s) (.struct "main.typeIdent" [("n", .str b)]) := by
  refine Ev.step (P := fun k => pcallN genProg E k (.fn "main" "i") [.str b] = pure [.str (iBytes b)])
    (Ev.pos fun k => run_i E k b h.nonempty h.lt) fun k hi => ?_
  rw [tag, pcallN, find_out_typeIdent_goType, tTypespec]
  pgo_core [out_typeIdent_goType, builtins, hi]
  exact ⟨_, h.i, rfl⟩

theorem gt_struct {ds : Decls} {s : V} {vs : List V} (hs : IsList E.heap E.bound s vs)
    (h : All2 (GTN E) (declList ds) vs) : GT E (.struct ds) (.struct "main.typeStruct" [("items", s)]) := by
  refine (Ev.all2 h).step fun k h => ?_
  rw [tag, pcallN, find_out_typeStruct_goType, tTypespec]
  pgo_core [out_typeStruct_goType, builtins]
  rw [elems_list hs]
  pgo_core []
  refine gives_range (fun r => [[("res", .str r), ("t", .struct "main.typeStruct" [("items", s)])]])
    ((declList ds).map tDecl) ?_ ?_
  · refine All2.map_left tDecl (All2.imp (fun d v hd => ?_) h)
    obtain ⟨⟨T, fs, rfl⟩, hd⟩ := hd
    intro i r
    rcases hd.split with ⟨ho, hd⟩ | ⟨x, b, ho, hb, hd⟩ <;> rw [ho] <;> pgo_core [hd]
    · rfl
    · exact ⟨b, hb, rfl⟩
  · rw [gather_decls]
    cases tDecls ds with
    | none => rfl
    | some x =>
      intro b hb
      pgo_core []
      refine ⟨_, ?_, rfl⟩
      prints

def dfl (f : Decl → Option Text) : Option Decl → Option Text
  | some d => f d
  | none => some []

theorem gather_cases : ∀ cs : Cases, tCases cs = (do
    let x ← gather ((caseBodies cs).map tDecl)
    let y ← dfl tDecl (caseDefault cs)
    pure (x ++ y))
  | .nil => by rw [tCases]; rfl
  | .dflt d => by rw [tCases, caseBodies, caseDefault]; show _ = (do let y ← tDecl d; pure ([] ++ y)); cases tDecl d <;> rfl
  | .cons _ _ d cs => by
    rw [tCases, caseBodies, caseDefault, List.map_cons, gather, gather_cases cs]
    cases tDecl d with
    | none => rfl
    | some x =>
      cases gather ((caseBodies cs).map tDecl) with
      | none => rfl
      | some y =>
        cases dfl tDecl (caseDefault cs) with
        | none => rfl
        | some z => exact congrArg some (List.append_assoc x y z).symm

/-- A case and its body. -/
def IsCase (P : Decl → V → Prop) (d : Decl) (v : V) : Prop :=
  ∃ s b, P d b ∧ v = .struct "main.unionCaseDecl" [("cases", s), ("body", b)]

set_option maxRecDepth 4000 in
theorem gt_union {sw : Decl} {cs : Cases} {d s df : V} {vs : List V} (hs : IsList E.heap E.bound s vs)
    (hd : GTN E sw d) (hc : All2 (IsCase (GTN E)) (caseBodies cs) vs)
    (hdf : match caseDefault cs with | some d => GTN E d df | none => df = .nil) :
    GT E (.union sw cs) (.struct "main.typeUnion" [("switchDecl", d),
      ("cases", .struct "main.unionCasesDef" [("cases", s), ("def", df)])]) := by
  have hc : Ev fun k => All2 (fun a v => ∃ s b, ((∃ T fs, b = .struct T fs) ∧
      Says (tDecl a) (pcallN genProg E k (.fn "main" "declToNameGotype") [b])) ∧
      v = .struct "main.unionCaseDecl" [("cases", s), ("body", b)]) (caseBodies cs) vs := by
    refine Ev.all2 (All2.imp (fun a v h => ?_) hc)
    obtain ⟨s, b, h, rfl⟩ := h
    exact h.imp fun k h => ⟨s, b, h, rfl⟩
  have hdf : Ev fun k => match caseDefault cs with
      | some d => (∃ T fs, df = .struct T fs) ∧ Says (tDecl d) (pcallN genProg E k (.fn "main" "declToNameGotype") [df])
      | none => df = .nil := by
    cases hcd : caseDefault cs with
    | none => rw [hcd] at hdf; exact Ev.all fun _ => hdf
    | some d => rw [hcd] at hdf; exact hdf
  refine ((hd.and hc).and hdf).step fun k h => ?_
  obtain ⟨⟨⟨⟨T, fs, rfl⟩, hd⟩, hc⟩, hdf⟩ := h
  rw [tag, pcallN, find_out_typeUnion_goType, tTypespec]
  pgo_core [out_typeUnion_goType, builtins]
  rcases hd.split with ⟨ho, hd⟩ | ⟨x, b, ho, hb, hd⟩ <;> rw [ho] <;> pgo_core [hd]
  · rfl
  · rw [elems_list hs]
    pgo_core []
    refine gives_range (fun r => [[("res", .str r), ("t", .struct "main.typeUnion" [("switchDecl", .struct T fs),
      ("cases", .struct "main.unionCasesDef" [("cases", s), ("def", df)])])]]) ((caseBodies cs).map tDecl) ?_ ?_
    · refine All2.map_left tDecl (All2.imp (fun d v hd => ?_) hc)
      obtain ⟨s, v, ⟨⟨T, fs, rfl⟩, hd⟩, rfl⟩ := hd
      intro i r
      rcases hd.split with ⟨ho, hd⟩ | ⟨x, b, ho, hb, hd⟩ <;> rw [ho] <;> pgo_core [hd]
      · rfl
      · exact ⟨b, hb, rfl⟩
    · rw [gather_cases]
      cases gather ((caseBodies cs).map tDecl) with
      | none => rfl
      | some x =>
        intro b hb
        cases hcd : caseDefault cs with
        | none =>
          rw [hcd] at hdf
          subst hdf
          pgo_core []
          refine ⟨_, ?_, rfl⟩
          prints
        | some dd =>
          rw [hcd] at hdf
          obtain ⟨⟨T, fs, rfl⟩, hdf⟩ := hdf
          rw [dfl]
          rcases hdf.split with ⟨ho, hd⟩ | ⟨x, b, ho, hb, hd⟩ <;> rw [ho] <;> pgo_core [hd]
          · rfl
          · refine ⟨_, ?_, rfl⟩
            prints

theorem gtn_void : GTN E .void (.struct "main.declVoid" []) := by
  refine Ev.pos fun k => ⟨⟨_, _, rfl⟩, ?_⟩
  rw [pcallN, find_out_declToNameGotype, tDecl]
  pgo_core [out_declToNameGotype, builtins]
  exact ⟨_, .nil, rfl⟩

theorem gtn_name {t : DeclType} {s : Ident} {tv : V} {b : List UInt8} (hm : HasMeths tv) (ht : GTD E t tv) (h : Name s b) :
    GTN E (.name t s) (.struct "main.declName" [("t", tv), ("n", .str b)]) := by
  have hi : Ev fun k => pcallN genProg E k (.fn "main" "i") [.str b] = pure [.str (iBytes b)] :=
    Ev.pos fun k => run_i E k b h.nonempty h.lt
  refine (hi.and ht).step fun k h' => ⟨⟨_, _, rfl⟩, ?_⟩
  obtain ⟨hi, ht⟩ := h'
  obtain ⟨T, fs, rfl, hb, _⟩ := hm
  rw [tag] at ht
  rw [pcallN, find_out_declToNameGotype, tDecl]
  have h1 := h.i
  rcases ht.split with ⟨ho, hd⟩ | ⟨x, b, ho, hb', hd⟩ <;> rw [ho] <;> pgo_core [out_declToNameGotype, builtins, hd, hi, hb]
  · rfl
  · refine ⟨_, ?_, rfl⟩
    prints


/-! #### The declared types -/

theorem gt_typespec {t : Typespec} {tv : V} (hm : HasMeths tv) (h : GT E t tv) :
    GTD E (.typespec t) (.struct "main.declTypeTypespec" [("t", tv)]) := by
  refine h.step fun k h => ?_
  obtain ⟨T, fs, rfl, hb, _⟩ := hm
  rw [tag] at h
  rw [tag, pcallN, find_out_declTypeTypespec_goType, tDeclType]
  rcases h.split with ⟨ho, h⟩ | ⟨x, r, ho, hr, h⟩ <;> rw [ho] <;> pgo_core [out_declTypeTypespec_goType, hb, h]
  · rfl
  · exact ⟨_, hr, rfl⟩

theorem gt_array {t : Typespec} {sz : Val} {tv : V} {b : List UInt8} (hm : HasMeths tv) (h : GT E t tv) (hsz : IsVal sz b) :
    GTD E (.array t sz) (.struct "main.declTypeArray" [("t", tv), ("sz", .str b)]) := by
  refine h.step fun k h => ?_
  obtain ⟨T, fs, rfl, hb, _⟩ := hm
  rw [tag] at h
  rw [tag, pcallN, find_out_declTypeArray_goType, tDeclType]
  have := hsz.prints
  rcases h.split with ⟨ho, h⟩ | ⟨x, r, ho, hr, h⟩ <;> rw [ho] <;> pgo_core [out_declTypeArray_goType, hb, h]
  · rfl
  · refine ⟨_, ?_, rfl⟩
    prints

theorem gt_varArray {t : Typespec} {sz : Option Val} {tv : V} {b : List UInt8} (hm : HasMeths tv) (h : GT E t tv) :
    GTD E (.varArray t sz) (.struct "main.declTypeVarArray" [("t", tv), ("sz", .str b)]) := by
  refine h.step fun k h => ?_
  obtain ⟨T, fs, rfl, hb, _⟩ := hm
  rw [tag] at h
  rw [tag, pcallN, find_out_declTypeVarArray_goType, tDeclType]
  rcases h.split with ⟨ho, h⟩ | ⟨x, r, ho, hr, h⟩ <;> rw [ho] <;> pgo_core [out_declTypeVarArray_goType, hb, h]
  · rfl
  · refine ⟨_, ?_, rfl⟩
    prints

theorem gt_opaqueArray {sz : Val} {b : List UInt8} (hsz : IsVal sz b) :
    GTD E (.opaqueArray sz) (.struct "main.declTypeOpaqueArray" [("sz", .str b)]) := by
  refine Ev.pos fun k => ?_
  rw [tag, pcallN, find_out_declTypeOpaqueArray_goType, tDeclType]
  have := hsz.prints
  pgo_core [out_declTypeOpaqueArray_goType]
  refine ⟨_, ?_, rfl⟩
  prints

theorem gt_opaqueVarArray (sz : Option Val) (b : V) :
    GTD E (.opaqueVarArray sz) (.struct "main.declTypeOpaqueVarArray" [("sz", b)]) := by
  refine Ev.pos fun k => ?_
  rw [tag, pcallN, find_out_declTypeOpaqueVarArray_goType, tDeclType]
  pgo_core [out_declTypeOpaqueVarArray_goType]
  exact ⟨_, prints_ub rfl, rfl⟩

theorem gt_string (sz : Option Val) (b : V) :
    GTD E (.string sz) (.struct "main.declTypeString" [("sz", b)]) := by
  refine Ev.pos fun k => ?_
  rw [tag, pcallN, find_out_declTypeString_goType, tDeclType]
  pgo_core [out_declTypeString_goType]
  exact ⟨_, prints_ub rfl, rfl⟩

theorem gt_ptr {t : Typespec} {tv : V} (hm : HasMeths tv) (h : GT E t tv) :
    GTD E (.ptr t) (.struct "main.declTypePtr" [("t", tv)]) := by
  refine h.step fun k h => ?_
  obtain ⟨T, fs, rfl, hb, _⟩ := hm
  rw [tag] at h
  rw [tag, pcallN, find_out_declTypePtr_goType, tDeclType]
  rcases h.split with ⟨ho, h⟩ | ⟨x, r, ho, hr, h⟩ <;> rw [ho] <;> pgo_core [out_declTypePtr_goType, hb, h]
  · rfl
  · refine ⟨_, ?_, rfl⟩
    prints

mutual
theorem goType_typespec : ∀ (t : Typespec) (v : V), IsTypespec E.heap E.bound t v → GT E t v
  | .int u, v, h => by unfold IsTypespec at h; subst h; exact gt_int E u
  | .hyper u, v, h => by unfold IsTypespec at h; subst h; exact gt_hyper E u
  | .float, v, h => by unfold IsTypespec at h; subst h; exact gt_float E
  | .double, v, h => by unfold IsTypespec at h; subst h; exact gt_double E
  | .quadruple, v, h => by unfold IsTypespec at h; subst h; exact gt_quadruple E
  | .bool, v, h => by unfold IsTypespec at h; subst h; exact gt_bool E
  | .enum items, v, h => by unfold IsTypespec at h; obtain ⟨s, vs, _, _, rfl⟩ := h; exact gt_enum E items s
  | .struct ds, v, h => by
    unfold IsTypespec at h
    obtain ⟨s, vs, hs, hd, rfl⟩ := h
    exact gt_struct E hs (goType_decls ds vs hd)
  | .union sw cs, v, h => by
    unfold IsTypespec at h
    obtain ⟨d, s, vs, df, hd, hs, hc, rfl⟩ := h
    have := goType_cases cs vs df hc
    exact gt_union E hs (goType_decl sw d hd) this.1 this.2
  | .ident s, v, h => by unfold IsTypespec at h; obtain ⟨b, hb, rfl⟩ := h; exact gt_ident E hb
theorem goType_declType : ∀ (t : DeclType) (v : V), IsDeclType E.heap E.bound t v → GTD E t v
  | .typespec t, v, h => by
    unfold IsDeclType at h
    obtain ⟨tv, ht, rfl⟩ := h
    exact gt_typespec E (typespec_meths ht) (goType_typespec t tv ht)
  | .array t sz, v, h => by
    unfold IsDeclType at h
    obtain ⟨tv, b, ht, hb, rfl⟩ := h
    exact gt_array E (typespec_meths ht) (goType_typespec t tv ht) hb
  | .varArray t sz, v, h => by
    unfold IsDeclType at h
    obtain ⟨tv, b, ht, hb, rfl⟩ := h
    exact gt_varArray E (typespec_meths ht) (goType_typespec t tv ht)
  | .opaqueArray sz, v, h => by unfold IsDeclType at h; obtain ⟨b, hb, rfl⟩ := h; exact gt_opaqueArray E hb
  | .opaqueVarArray sz, v, h => by unfold IsDeclType at h; obtain ⟨b, hb, rfl⟩ := h; exact gt_opaqueVarArray E sz _
  | .string sz, v, h => by unfold IsDeclType at h; obtain ⟨b, hb, rfl⟩ := h; exact gt_string E sz _
  | .ptr t, v, h => by
    unfold IsDeclType at h
    obtain ⟨tv, ht, rfl⟩ := h
    exact gt_ptr E (typespec_meths ht) (goType_typespec t tv ht)
theorem goType_decl : ∀ (d : Decl) (v : V), IsDecl E.heap E.bound d v → GTN E d v
  | .void, v, h => by unfold IsDecl at h; subst h; exact gtn_void E
  | .name t s, v, h => by
    unfold IsDecl at h
    obtain ⟨tv, b, ht, hb, rfl⟩ := h
    exact gtn_name E (declType_meths ht) (goType_declType t tv ht) hb
theorem goType_decls : ∀ (ds : Decls) (vs : List V), IsDecls E.heap E.bound ds vs → All2 (GTN E) (declList ds) vs
  | .nil, vs, h => by unfold IsDecls at h; subst h; exact .nil
  | .cons d ds, vs, h => by
    unfold IsDecls at h
    obtain ⟨v, l, h1, h2, rfl⟩ := h
    exact .cons (goType_decl d v h1) (goType_decls ds l h2)
theorem goType_cases : ∀ (cs : Cases) (vs : List V) (df : V), IsCases E.heap E.bound cs vs df →
    All2 (IsCase (GTN E)) (caseBodies cs) vs ∧ (match caseDefault cs with | some d => GTN E d df | none => df = .nil)
  | .nil, vs, df, h => by unfold IsCases at h; obtain ⟨rfl, rfl⟩ := h; exact ⟨.nil, rfl⟩
  | .dflt d, vs, df, h => by unfold IsCases at h; obtain ⟨rfl, h⟩ := h; exact ⟨.nil, goType_decl d df h⟩
  | .cons l more d cs, vs, df, h => by
    unfold IsCases at h
    obtain ⟨s, ls, v, vs', hs, hl, hd, hc, rfl⟩ := h
    have := goType_cases cs vs' df hc
    exact ⟨.cons ⟨_, _, goType_decl d v hd, rfl⟩ this.1, this.2⟩
end

end

end Verif.Lang
