/-
What the grammar derives is exactly the concrete syntax.
-/
import Verif.Text.XdrPrint

namespace Verif.Text
open Verif.Gen Verif.Inst

theorem DVal.eq {ts v} (h : DVal ts v) : ts = pVal v := by cases h <;> rfl
theorem dVal : ∀ v, DVal (pVal v) v
  | .lit n => .const n
  | .ident s => .ident s

theorem DVarlen.eq {ts v} (h : DVarlen ts v) : ts = pVarlen v := by
  cases h with
  | empty => rfl
  | val h => rw [h.eq]; rfl
theorem dVarlen : ∀ v, DVarlen (pVarlen v) v
  | none => .empty
  | some v => .val (dVal v)

theorem DMaybeunsig.eq {ts u} (h : DMaybeunsig ts u) : ts = pUnsig u := by cases h <;> rfl
theorem dUnsig : ∀ u, DMaybeunsig (pUnsig u) u
  | true => .yes
  | false => .no

theorem DEnumitem.eq {ts v} (h : DEnumitem ts v) : ts = pItem v := by
  cases h with
  | mk n h => rw [h.eq]; rfl
theorem dItem (it : EnumItem) : DEnumitem (pItem it) it := .mk _ (dVal _)

theorem pItems_snoc : ∀ (l : List EnumItem) (i : EnumItem), l ≠ [] →
    pItems (l ++ [i]) = pItems l ++ .comma :: pItem i
  | [], _, h => absurd rfl h
  | [j], i, _ => rfl
  | j :: k :: l, i, _ => by
    have := pItems_snoc (k :: l) i (by simp)
    simp only [List.cons_append] at this ⊢
    simp only [pItems, this, List.append_assoc, List.cons_append]

theorem DEnumitems.ne {ts l} (h : DEnumitems ts l) : l ≠ [] := by cases h <;> simp

theorem DEnumitems.eq {ts l} (h : DEnumitems ts l) : ts = pItems l := by
  induction h with
  | one h => rw [h.eq]; rfl
  | more h h' ih => rw [pItems_snoc _ _ h.ne, ih, h'.eq]

theorem dItems_append : ∀ (l : List EnumItem) {ts k}, DEnumitems ts k →
    DEnumitems (l.foldl (fun ts i => ts ++ .comma :: pItem i) ts) (k ++ l)
  | [], ts, k, h => by simpa using h
  | i :: l, ts, k, h => by
    have := dItems_append l (h.more (dItem i))
    simpa using this

theorem pItems_foldl : ∀ (l : List EnumItem) (k : List EnumItem), k ≠ [] →
    l.foldl (fun ts i => ts ++ .comma :: pItem i) (pItems k) = pItems (k ++ l)
  | [], k, _ => by simp
  | i :: l, k, h => by
    simp only [List.foldl_cons]
    rw [← pItems_snoc _ _ h, pItems_foldl l (k ++ [i]) (by simp)]
    simp

theorem dItems : ∀ (l : List EnumItem), l ≠ [] → DEnumitems (pItems l) l
  | [], h => absurd rfl h
  | i :: l, _ => by
    have := dItems_append l (.one (dItem i))
    have e : pItem i = pItems [i] := rfl
    rw [e, pItems_foldl l [i] (by simp)] at this
    exact this

theorem DEnumbody.eq {ts l} (h : DEnumbody ts l) : ts = .lbrace :: pItems l ++ [.rbrace] := by
  cases h with
  | mk h => rw [h.eq]
theorem DEnumbody.ne {ts l} (h : DEnumbody ts l) : l ≠ [] := by
  cases h with
  | mk h => exact h.ne
theorem dBody {l : List EnumItem} (h : l ≠ []) : DEnumbody (.lbrace :: pItems l ++ [.rbrace]) l :=
  .mk (dItems l h)

theorem pLabels_append : ∀ l m, pLabels (l ++ m) = pLabels l ++ pLabels m
  | [], m => rfl
  | v :: l, m => by simp [pLabels, pLabels_append l m]

theorem DCaselist.eq {ts v l} (h : DCaselist ts v l) : ts = pLabels (v :: l) := by
  induction h with
  | one h => rw [h.eq]; simp [pLabels]
  | more h h' ih =>
    rw [ih, h'.eq, ← List.cons_append, pLabels_append]
    simp [pLabels]

theorem dLabels_append : ∀ (l : List Val) {ts v k}, DCaselist ts v k →
    DCaselist (ts ++ pLabels l) v (k ++ l)
  | [], ts, v, k, h => by simpa [pLabels] using h
  | w :: l, ts, v, k, h => by
    have := dLabels_append l (h.more (dVal w))
    simpa [pLabels] using this

theorem dLabels (v : Val) (l : List Val) : DCaselist (pLabels (v :: l)) v l := by
  have := dLabels_append l (.one (dVal v))
  simpa [pLabels] using this

theorem pDecls_decls : ∀ l : List Decl, pDecls (decls l) = l.flatMap fun d => pDecl d ++ [.semi]
  | [] => by simp [decls, pDecls]
  | d :: l => by simp [decls, pDecls, pDecls_decls l]

def pArm (c : Val × List Val × Decl) : List XTok := pLabels (c.1 :: c.2.1) ++ pDecl c.2.2 ++ [.semi]

theorem pCases_cases : ∀ (l : List (Val × List Val × Decl)) (d : Option Decl), pCases (cases l d) =
    l.flatMap pArm ++ (match d with | none => [] | some d => .kdefault :: .colon :: pDecl d ++ [.semi])
  | [], none => by simp [cases, pCases]
  | [], some d => by simp [cases, pCases]
  | (v, vs, b) :: l, d => by simp [cases, pCases, pCases_cases l d, pArm]

/-! ### Derivable implies concrete syntax -/

mutual
theorem DTypespec.eq {ts t} : DTypespec ts t → ts = pTypespec t
  | .int h => by rw [h.eq, pTypespec]
  | .hyper h => by rw [h.eq, pTypespec]
  | .float => by rw [pTypespec]
  | .double => by rw [pTypespec]
  | .quadruple => by rw [pTypespec]
  | .bool => by rw [pTypespec]
  | .enum h => by rw [h.eq, pTypespec]; rfl
  | .struct h => by rw [h.eq, pTypespec, pDecls_decls]; rfl
  | .union h => by rw [h.eq, pTypespec]; rfl
  | .ident s => by rw [pTypespec]
theorem DDecl.eq {ts d} : DDecl ts d → ts = pDecl d
  | .plain n h => by rw [h.eq, pDecl]
  | .array n h h' => by rw [h.eq, h'.eq, pDecl]
  | .varArray n h h' => by rw [h.eq, h'.eq, pDecl]
  | .opaqueArray n h' => by rw [h'.eq, pDecl]
  | .opaqueVarArray n h' => by rw [h'.eq, pDecl]
  | .string n h' => by rw [h'.eq, pDecl]
  | .ptr n h => by rw [h.eq, pDecl]
  | .void => by rw [pDecl]
theorem DStructbody.eq {ts l} : DStructbody ts l →
    ts = .lbrace :: (l.flatMap fun d => pDecl d ++ [.semi]) ++ [.rbrace]
  | .mk h => by rw [h.eq]
theorem DStructdecls.eq {ts l} : DStructdecls ts l → ts = l.flatMap fun d => pDecl d ++ [.semi]
  | .nil => rfl
  | .more h h' => by rw [h.eq, h'.eq]; simp
theorem DUnionbody.eq {ts sw cs} : DUnionbody ts sw cs →
    ts = .kswitch :: .lparen :: pDecl sw ++ .rparen :: .lbrace :: pCases cs ++ [.rbrace]
  | .mk h h' => by rw [h.eq, h'.eq]
theorem DUnioncasesdef.eq {ts cs} : DUnioncasesdef ts cs → ts = pCases cs
  | .nodef h => by rw [h.eq, pCases_cases]; simp
  | .dflt h h' => by rw [h.eq, h'.eq, pCases_cases]; simp
theorem DUnioncases.eq {ts l} : DUnioncases ts l → ts = l.flatMap pArm
  | .nil => rfl
  | .more h h' h'' => by rw [h.eq, h'.eq, h''.eq]; simp [pArm]
end

theorem DTypespecopt.eq {ts t} (h : DTypespecopt ts t) : ts = pOpt t := by
  cases h with
  | void => rfl
  | some h => rw [h.eq, pOpt]

theorem DProgcall.eq {ts c} (h : DProgcall ts c) : ts = pCall c := by
  cases h with
  | mk n k h h' => rw [h.eq, h'.eq, pCall]

theorem DProgcalls.eq {ts l} (h : DProgcalls ts l) : ts = l.flatMap pCall := by
  induction h with
  | nil => rfl
  | more h h' ih => rw [ih, h'.eq]; simp

theorem DProgver.eq {ts v} (h : DProgver ts v) : ts = pVer v := by
  cases h with
  | mk n k h => rw [h.eq, pVer]

theorem DProgvers.eq {ts l} (h : DProgvers ts l) : ts = l.flatMap pVer := by
  induction h with
  | nil => rfl
  | more h h' ih => rw [ih, h'.eq]; simp

theorem DDefn.eq {ts d} (h : DDefn ts d) : ts = pDefn d := by
  cases h with
  | const => rfl
  | typedef h => rw [h.eq, pDefn]
  | enum n h => rw [h.eq, pDefn]; simp
  | struct n h => rw [h.eq, pDefn, pDecls_decls]; simp
  | union n h => rw [h.eq, pDefn]; simp
  | program n k h => rw [h.eq, pDefn]

theorem DSpec.eq {ts s} (h : DSpec ts s) : ts = pSpec s := by
  induction h with
  | nil => rfl
  | more h h' ih => rw [ih, h'.eq]; simp [pSpec]

/-! ### and has no empty enumeration -/

theorem okDecls_decls : ∀ l : List Decl, okDecls (decls l) = l.all okDecl
  | [] => by simp [decls, okDecls]
  | d :: l => by simp [decls, okDecls, okDecls_decls l]

theorem okCases_cases : ∀ (l : List (Val × List Val × Decl)) (d : Option Decl), okCases (cases l d) =
    ((l.all fun c => okDecl c.2.2) && (match d with | none => true | some d => okDecl d))
  | [], none => by simp [cases, okCases]
  | [], some d => by simp [cases, okCases]
  | (v, vs, b) :: l, d => by simp [cases, okCases, okCases_cases l d, Bool.and_assoc]

theorem ne_isEmpty {α} {l : List α} (h : l ≠ []) : (!l.isEmpty) = true := by
  cases l with
  | nil => exact absurd rfl h
  | cons => rfl

mutual
theorem DTypespec.ok {ts t} : DTypespec ts t → okTypespec t = true
  | .int h => by rw [okTypespec] <;> simp
  | .hyper h => by rw [okTypespec] <;> simp
  | .float => by rw [okTypespec] <;> simp
  | .double => by rw [okTypespec] <;> simp
  | .quadruple => by rw [okTypespec] <;> simp
  | .bool => by rw [okTypespec] <;> simp
  | .enum h => by rw [okTypespec]; exact ne_isEmpty h.ne
  | .struct h => by rw [okTypespec, okDecls_decls]; exact h.ok
  | .union h => by rw [okTypespec, h.ok.1, h.ok.2]; rfl
  | .ident s => by rw [okTypespec] <;> simp
theorem DDecl.ok {ts d} : DDecl ts d → okDecl d = true
  | .plain n h => by rw [okDecl, okDeclType, h.ok]
  | .array n h h' => by rw [okDecl, okDeclType, h.ok]
  | .varArray n h h' => by rw [okDecl, okDeclType, h.ok]
  | .opaqueArray n h' => by rw [okDecl, okDeclType] <;> simp
  | .opaqueVarArray n h' => by rw [okDecl, okDeclType] <;> simp
  | .string n h' => by rw [okDecl, okDeclType] <;> simp
  | .ptr n h => by rw [okDecl, okDeclType, h.ok]
  | .void => by rw [okDecl]
theorem DStructbody.ok {ts l} : DStructbody ts l → l.all okDecl = true
  | .mk h => h.ok
theorem DStructdecls.ok {ts l} : DStructdecls ts l → l.all okDecl = true
  | .nil => rfl
  | .more h h' => by rw [List.all_append, h.ok, List.all_cons, h'.ok]; rfl
theorem DUnionbody.ok {ts sw cs} : DUnionbody ts sw cs → okDecl sw = true ∧ okCases cs = true
  | .mk h h' => ⟨h.ok, h'.ok⟩
theorem DUnioncasesdef.ok {ts cs} : DUnioncasesdef ts cs → okCases cs = true
  | .nodef h => by rw [okCases_cases, h.ok]; rfl
  | .dflt h h' => by rw [okCases_cases, h.ok]; exact h'.ok
theorem DUnioncases.ok {ts l} : DUnioncases ts l → (l.all fun c => okDecl c.2.2) = true
  | .nil => rfl
  | .more h h' h'' => by rw [List.all_append, h.ok, List.all_cons, h''.ok]; rfl
end

theorem DTypespecopt.ok {ts t} (h : DTypespecopt ts t) : okOpt t = true := by
  cases h with
  | void => rfl
  | some h => exact h.ok

theorem DProgcall.ok {ts c} (h : DProgcall ts c) : okCall c = true := by
  cases h with
  | mk n k h h' => simp [okCall, h.ok, h'.ok]

theorem DProgcalls.ok {ts l} (h : DProgcalls ts l) : l.all okCall = true := by
  induction h with
  | nil => rfl
  | more h h' ih => simp only [List.all_append, ih, List.all_cons, h'.ok, List.all_nil, Bool.and_self]

theorem DProgver.ok {ts v} (h : DProgver ts v) : v.calls.all okCall = true := by
  cases h with
  | mk n k h => exact h.ok

theorem DProgvers.ok {ts l} (h : DProgvers ts l) : (l.all fun v => v.calls.all okCall) = true := by
  induction h with
  | nil => rfl
  | more h h' ih => simp only [List.all_append, ih, List.all_cons, h'.ok, List.all_nil, Bool.and_self]

theorem DDefn.ok {ts d} (h : DDefn ts d) : okDefn d = true := by
  cases h with
  | const => rfl
  | typedef h => exact h.ok
  | enum n h => exact ne_isEmpty h.ne
  | struct n h => rw [okDefn, okDecls_decls]; exact h.ok
  | union n h => simp [okDefn, h.ok.1, h.ok.2]
  | program n k h => exact h.ok

theorem DSpec.ok {ts s} (h : DSpec ts s) : okSpec s = true := by
  induction h with
  | nil => rfl
  | more h h' ih =>
    simp only [okSpec] at ih ⊢
    simp only [List.all_append, ih, List.all_cons, h'.ok, List.all_nil, Bool.and_self]

/-! ### Concrete syntax is derivable -/

def Decls.toList : Decls → List Decl
  | .nil => []
  | .cons d ds => d :: Decls.toList ds

theorem decls_toList : ∀ ds, decls (Decls.toList ds) = ds
  | .nil => rfl
  | .cons d ds => by rw [Decls.toList, decls, decls_toList ds]

theorem dStructdecls_append {l : List Decl} : ∀ {ts k}, DStructdecls ts k →
    (∀ d ∈ l, DDecl (pDecl d) d) → DStructdecls (ts ++ l.flatMap fun d => pDecl d ++ [.semi]) (k ++ l) := by
  induction l with
  | nil => intro ts k h _; simpa using h
  | cons d l ih =>
    intro ts k h hd
    have := ih (h.more (hd d (by simp))) (fun d' h' => hd d' (by simp [h']))
    simpa using this

/-- The arms and the default of a union. -/
def Cases.arms : Cases → List (Val × List Val × Decl)
  | .nil => []
  | .dflt _ => []
  | .cons v l d cs => (v, l, d) :: Cases.arms cs
def Cases.dfltOf : Cases → Option Decl
  | .nil => none
  | .dflt d => some d
  | .cons _ _ _ cs => Cases.dfltOf cs

theorem cases_arms : ∀ cs, cases (Cases.arms cs) (Cases.dfltOf cs) = cs
  | .nil => rfl
  | .dflt d => rfl
  | .cons v l d cs => by rw [Cases.arms, Cases.dfltOf, cases, cases_arms cs]

theorem dUnioncases_append {l : List (Val × List Val × Decl)} : ∀ {ts k}, DUnioncases ts k →
    (∀ c ∈ l, DDecl (pDecl c.2.2) c.2.2) → DUnioncases (ts ++ l.flatMap pArm) (k ++ l) := by
  induction l with
  | nil => intro ts k h _; simpa using h
  | cons c l ih =>
    intro ts k h hd
    have := ih (h.more (dLabels c.1 c.2.1) (hd c (by simp))) (fun d' h' => hd d' (by simp [h']))
    simpa [pArm] using this

theorem isEmpty_ne {α} {l : List α} (h : (!l.isEmpty) = true) : l ≠ [] := by
  cases l with
  | nil => cases h
  | cons => simp

theorem dCases_of {cs : Cases} (ha : ∀ c ∈ Cases.arms cs, DDecl (pDecl c.2.2) c.2.2)
    (hd : ∀ d, Cases.dfltOf cs = some d → DDecl (pDecl d) d) : DUnioncasesdef (pCases cs) cs := by
  have ha := dUnioncases_append .nil ha
  rw [List.nil_append, List.nil_append] at ha
  have e := cases_arms cs
  rw [← e, pCases_cases]
  cases hc : Cases.dfltOf cs with
  | none => simp only [List.append_nil]; exact .nodef ha
  | some d => simpa using DUnioncasesdef.dflt ha (hd d hc)

mutual
theorem dTypespec : ∀ t, okTypespec t = true → DTypespec (pTypespec t) t
  | .int u, _ => by rw [pTypespec]; exact .int (dUnsig u)
  | .hyper u, _ => by rw [pTypespec]; exact .hyper (dUnsig u)
  | .float, _ => by rw [pTypespec]; exact .float
  | .double, _ => by rw [pTypespec]; exact .double
  | .quadruple, _ => by rw [pTypespec]; exact .quadruple
  | .bool, _ => by rw [pTypespec]; exact .bool
  | .enum l, h => by
    rw [okTypespec] at h
    rw [pTypespec]; exact .enum (dBody (isEmpty_ne h))
  | .struct ds, h => by
    rw [okTypespec] at h
    have hd := dDecls ds h
    have := dStructdecls_append .nil hd
    have hs := DTypespec.struct (.mk this)
    rw [List.nil_append, List.nil_append, decls_toList, ← pDecls_decls, decls_toList] at hs
    rw [pTypespec]; exact hs
  | .union sw cs, h => by
    rw [okTypespec, Bool.and_eq_true] at h
    rw [pTypespec]; exact .union (.mk (dDecl sw h.1) (dCases_of (dArms cs h.2) (dDflt cs h.2)))
  | .ident n, _ => by rw [pTypespec]; exact .ident n
theorem dDecl : ∀ d, okDecl d = true → DDecl (pDecl d) d
  | .void, _ => by rw [pDecl]; exact .void
  | .name (.typespec t) n, h => by
    rw [okDecl, okDeclType] at h; rw [pDecl]; exact .plain n (dTypespec t h)
  | .name (.array t v) n, h => by
    rw [okDecl, okDeclType] at h; rw [pDecl]; exact .array n (dTypespec t h) (dVal v)
  | .name (.varArray t v) n, h => by
    rw [okDecl, okDeclType] at h; rw [pDecl]; exact .varArray n (dTypespec t h) (dVarlen v)
  | .name (.opaqueArray v) n, _ => by rw [pDecl]; exact .opaqueArray n (dVal v)
  | .name (.opaqueVarArray v) n, _ => by rw [pDecl]; exact .opaqueVarArray n (dVarlen v)
  | .name (.string v) n, _ => by rw [pDecl]; exact .string n (dVarlen v)
  | .name (.ptr t) n, h => by
    rw [okDecl, okDeclType] at h; rw [pDecl]; exact .ptr n (dTypespec t h)
theorem dDecls : ∀ ds, okDecls ds = true → ∀ d ∈ Decls.toList ds, DDecl (pDecl d) d
  | .nil, _, d, hd => by simp [Decls.toList] at hd
  | .cons e ds, h, d, hd => by
    rw [okDecls, Bool.and_eq_true] at h
    rw [Decls.toList, List.mem_cons] at hd
    rcases hd with hd | hd
    · rw [hd]; exact dDecl e h.1
    · exact dDecls ds h.2 d hd
theorem dArms : ∀ cs, okCases cs = true → ∀ c ∈ Cases.arms cs, DDecl (pDecl c.2.2) c.2.2
  | .nil, _, c, hc => by simp [Cases.arms] at hc
  | .dflt d, _, c, hc => by simp [Cases.arms] at hc
  | .cons v l d cs, h, c, hc => by
    rw [okCases, Bool.and_eq_true] at h
    rw [Cases.arms, List.mem_cons] at hc
    rcases hc with hc | hc
    · rw [hc]; exact dDecl d h.1
    · exact dArms cs h.2 c hc
theorem dDflt : ∀ cs, okCases cs = true → ∀ d, Cases.dfltOf cs = some d → DDecl (pDecl d) d
  | .nil, _, d, hd => by simp [Cases.dfltOf] at hd
  | .dflt e, h, d, hd => by
    rw [okCases] at h
    simp [Cases.dfltOf] at hd
    rw [← hd]; exact dDecl e h
  | .cons v l e cs, h, d, hd => by
    rw [okCases, Bool.and_eq_true] at h
    exact dDflt cs h.2 d hd
end

theorem dCases (cs : Cases) (h : okCases cs = true) : DUnioncasesdef (pCases cs) cs :=
  dCases_of (dArms cs h) (dDflt cs h)

theorem dOpt : ∀ t, okOpt t = true → DTypespecopt (pOpt t) t
  | none, _ => .void
  | some t, h => .some (dTypespec t h)

theorem dCall (c : ProgCall) (h : okCall c = true) : DProgcall (pCall c) c := by
  simp only [okCall, Bool.and_eq_true] at h
  exact .mk c.name c.id (dOpt _ h.1) (dOpt _ h.2)

theorem dCalls {l : List ProgCall} : ∀ {ts k}, DProgcalls ts k → l.all okCall = true →
    DProgcalls (ts ++ l.flatMap pCall) (k ++ l) := by
  induction l with
  | nil => intro ts k h _; simpa using h
  | cons c l ih =>
    intro ts k h hl
    simp only [List.all_cons, Bool.and_eq_true] at hl
    have := ih (h.more (dCall c hl.1)) hl.2
    simpa using this

theorem dVer (v : ProgVer) (h : v.calls.all okCall = true) : DProgver (pVer v) v := by
  have := DProgver.mk v.name v.id (dCalls .nil h)
  simpa [pVer] using this

theorem dVers {l : List ProgVer} : ∀ {ts k}, DProgvers ts k →
    (l.all fun v => v.calls.all okCall) = true → DProgvers (ts ++ l.flatMap pVer) (k ++ l) := by
  induction l with
  | nil => intro ts k h _; simpa using h
  | cons c l ih =>
    intro ts k h hl
    simp only [List.all_cons, Bool.and_eq_true] at hl
    have := ih (h.more (dVer c hl.1)) hl.2
    simpa using this

theorem dDefn : ∀ d, okDefn d = true → DDefn (pDefn d) d
  | .const n k, _ => .const n k
  | .typedef d, h => .typedef (dDecl d h)
  | .enum n l, h => by
    have := DDefn.enum n (dBody (isEmpty_ne h))
    simpa [pDefn] using this
  | .struct n ds, h => by
    have hs := DDefn.struct n (.mk (dStructdecls_append .nil (dDecls ds h)))
    rw [List.nil_append, List.nil_append, decls_toList, ← pDecls_decls, decls_toList] at hs
    simpa [pDefn] using hs
  | .union n sw cs, h => by
    simp only [okDefn, Bool.and_eq_true] at h
    have := DDefn.union n (.mk (dDecl sw h.1) (dCases cs h.2))
    simpa [pDefn] using this
  | .program p, h => by
    have := DDefn.program p.name p.id (dVers .nil h)
    simpa [pDefn] using this

theorem dSpec_append {l : Spec} : ∀ {ts k}, DSpec ts k → okSpec l = true →
    DSpec (ts ++ pSpec l) (k ++ l) := by
  induction l with
  | nil => intro ts k h _; simpa [pSpec] using h
  | cons d l ih =>
    intro ts k h hl
    simp only [okSpec, List.all_cons, Bool.and_eq_true] at hl
    have := ih (h.more (dDefn d hl.1)) hl.2
    simpa [pSpec] using this

theorem dSpec (s : Spec) (h : okSpec s = true) : DSpec (pSpec s) s := by
  simpa using dSpec_append .nil h

end Verif.Text
