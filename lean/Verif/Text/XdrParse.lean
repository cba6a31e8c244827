/-
A recursive descent parser for the grammar xdr.y, and that it finds exactly the derivations.  The
parser is not a model of the tables goyacc generates; it decides which specification a token sequence
derives, so that the model can be run.
-/
import Verif.Text.XdrPrintLemmas

namespace Verif.Text
open Verif.Gen Verif.Inst

def qVal : List XTok → Option (Val × List XTok)
  | .const n :: r => some (.lit n, r)
  | .ident s :: r => some (.ident s, r)
  | _ => none

def qVarlen : List XTok → Option (Option Val × List XTok)
  | .lt :: .gt :: r => some (none, r)
  | .lt :: r =>
    match qVal r with
    | some (v, .gt :: r) => some (some v, r)
    | _ => none
  | _ => none

def qItem : List XTok → Option (EnumItem × List XTok)
  | .ident s :: .eq :: r =>
    match qVal r with
    | some (v, r) => some (⟨s, v⟩, r)
    | none => none
  | _ => none

def qItems : Nat → List XTok → Option (List EnumItem × List XTok)
  | 0, _ => none
  | n + 1, ts =>
    match qItem ts with
    | some (i, .comma :: r) =>
      match qItems n r with
      | some (l, r) => some (i :: l, r)
      | none => none
    | some (i, r) => some ([i], r)
    | none => none

def qLabels : Nat → List XTok → Option (List Val × List XTok)
  | 0, _ => none
  | n + 1, ts =>
    match ts with
    | .kcase :: r =>
      match qVal r with
      | some (v, .colon :: r) =>
        match qLabels n r with
        | some (l, r) => some (v :: l, r)
        | none => none
      | _ => none
    | r => some ([], r)

/-- What follows the name in a declaration that starts with a type. -/
def qSuffix (t : Typespec) : List XTok → Option (DeclType × List XTok)
  | .lbrack :: r =>
    match qVal r with
    | some (v, .rbrack :: r) => some (.array t v, r)
    | _ => none
  | .lt :: r =>
    match qVarlen (.lt :: r) with
    | some (v, r) => some (.varArray t v, r)
    | none => none
  | r => some (.typespec t, r)

/-- What follows the name in an `opaque` declaration. -/
def qOpaque : List XTok → Option (DeclType × List XTok)
  | .lbrack :: r =>
    match qVal r with
    | some (v, .rbrack :: r) => some (.opaqueArray v, r)
    | _ => none
  | r =>
    match qVarlen r with
    | some (v, r) => some (.opaqueVarArray v, r)
    | none => none

mutual
def qTypespec : Nat → List XTok → Option (Typespec × List XTok)
  | 0, _ => none
  | n + 1, ts =>
    match ts with
    | .kunsigned :: .kint :: r => some (.int true, r)
    | .kunsigned :: .khyper :: r => some (.hyper true, r)
    | .kint :: r => some (.int false, r)
    | .khyper :: r => some (.hyper false, r)
    | .kfloat :: r => some (.float, r)
    | .kdouble :: r => some (.double, r)
    | .kquadruple :: r => some (.quadruple, r)
    | .kbool :: r => some (.bool, r)
    | .kenum :: .lbrace :: r =>
      match qItems n r with
      | some (l, .rbrace :: r) => some (.enum l, r)
      | _ => none
    | .kstruct :: .lbrace :: r =>
      match qDecls n r with
      | some (l, .rbrace :: r) => some (.struct l, r)
      | _ => none
    | .kunion :: .kswitch :: .lparen :: r =>
      match qDecl n r with
      | some (sw, .rparen :: .lbrace :: r) =>
        match qCases n r with
        | some (cs, .rbrace :: r) => some (.union sw cs, r)
        | _ => none
      | _ => none
    | .ident s :: r => some (.ident s, r)
    | _ => none
def qDecl : Nat → List XTok → Option (Decl × List XTok)
  | 0, _ => none
  | n + 1, ts =>
    match ts with
    | .kvoid :: r => some (.void, r)
    | .kopaque :: .ident x :: r =>
      match qOpaque r with
      | some (t, r) => some (.name t x, r)
      | none => none
    | .kstring :: .ident x :: r =>
      match qVarlen r with
      | some (v, r) => some (.name (.string v) x, r)
      | none => none
    | ts =>
      match qTypespec n ts with
      | some (t, .star :: .ident x :: r) => some (.name (.ptr t) x, r)
      | some (t, .ident x :: r) =>
        match qSuffix t r with
        | some (d, r) => some (.name d x, r)
        | none => none
      | _ => none
/-- The declarations up to a `}`. -/
def qDecls : Nat → List XTok → Option (Decls × List XTok)
  | 0, _ => none
  | n + 1, ts =>
    match ts with
    | .rbrace :: r => some (.nil, .rbrace :: r)
    | ts =>
      match qDecl n ts with
      | some (d, .semi :: r) =>
        match qDecls n r with
        | some (ds, r) => some (.cons d ds, r)
        | none => none
      | _ => none
/-- The arms up to a `}`, or up to the end of the default. -/
def qCases : Nat → List XTok → Option (Cases × List XTok)
  | 0, _ => none
  | n + 1, ts =>
    match ts with
    | .rbrace :: r => some (.nil, .rbrace :: r)
    | .kdefault :: .colon :: r =>
      match qDecl n r with
      | some (d, .semi :: r) => some (.dflt d, r)
      | _ => none
    | ts =>
      match qLabels n ts with
      | some (v :: l, r) =>
        match qDecl n r with
        | some (d, .semi :: r) =>
          match qCases n r with
          | some (cs, r) => some (.cons v l d cs, r)
          | none => none
        | _ => none
      | _ => none
end

def qOpt (n : Nat) : List XTok → Option (TypespecOpt × List XTok)
  | .kvoid :: r => some (none, r)
  | ts =>
    match qTypespec n ts with
    | some (t, r) => some (some t, r)
    | none => none

/-- The procedures up to a `}`. -/
def qCalls : Nat → List XTok → Option (List ProgCall × List XTok)
  | 0, _ => none
  | n + 1, ts =>
    match ts with
    | .rbrace :: r => some ([], .rbrace :: r)
    | ts =>
      match qOpt n ts with
      | some (res, .ident x :: .lparen :: r) =>
        match qOpt n r with
        | some (arg, .rparen :: .eq :: .const k :: .semi :: r) =>
          match qCalls n r with
          | some (l, r) => some (⟨x, arg, res, k⟩ :: l, r)
          | none => none
        | _ => none
      | _ => none

/-- The versions up to a `}`. -/
def qVers : Nat → List XTok → Option (List ProgVer × List XTok)
  | 0, _ => none
  | n + 1, ts =>
    match ts with
    | .rbrace :: r => some ([], .rbrace :: r)
    | .kversion :: .ident x :: .lbrace :: r =>
      match qCalls n r with
      | some (cs, .rbrace :: .eq :: .const k :: .semi :: r) =>
        match qVers n r with
        | some (l, r) => some (⟨x, cs, k⟩ :: l, r)
        | none => none
      | _ => none
    | _ => none

def qDefn (n : Nat) : List XTok → Option (Defn × List XTok)
  | .kconst :: .ident x :: .eq :: .const k :: .semi :: r => some (.const x k, r)
  | .ktypedef :: r =>
    match qDecl n r with
    | some (d, .semi :: r) => some (.typedef d, r)
    | _ => none
  | .kenum :: .ident x :: .lbrace :: r =>
    match qItems n r with
    | some (l, .rbrace :: .semi :: r) => some (.enum x l, r)
    | _ => none
  | .kstruct :: .ident x :: .lbrace :: r =>
    match qDecls n r with
    | some (ds, .rbrace :: .semi :: r) => some (.struct x ds, r)
    | _ => none
  | .kunion :: .ident x :: .kswitch :: .lparen :: r =>
    match qDecl n r with
    | some (sw, .rparen :: .lbrace :: r) =>
      match qCases n r with
      | some (cs, .rbrace :: .semi :: r) => some (.union x sw cs, r)
      | _ => none
    | _ => none
  | .kprogram :: .ident x :: .lbrace :: r =>
    match qVers n r with
    | some (vs, .rbrace :: .eq :: .const k :: .semi :: r) => some (.program ⟨x, vs, k⟩, r)
    | _ => none
  | _ => none

def qSpec : Nat → List XTok → Option Spec
  | 0, _ => none
  | n + 1, ts =>
    match ts with
    | [] => some []
    | ts =>
      match qDefn n ts with
      | some (d, r) =>
        match qSpec n r with
        | some s => some (d :: s)
        | none => none
      | none => none

/-- The specification a token sequence derives. -/
def parseXdr (ts : List XTok) : Option Spec := qSpec (3 * ts.length + 3) ts

/-! ### What the parser finds is there -/

theorem qVal_sound {ts v r} (h : qVal ts = some (v, r)) : ts = pVal v ++ r := by
  unfold qVal at h
  split at h <;> (first | cases h; rfl | cases h)

theorem qVarlen_sound {ts v r} (h : qVarlen ts = some (v, r)) : ts = pVarlen v ++ r := by
  unfold qVarlen at h
  split at h
  · cases h; rfl
  · split at h
    · rename_i h'
      cases h
      rw [qVal_sound h']; simp [pVarlen]
    · cases h
  · cases h

theorem qItem_sound {ts v r} (h : qItem ts = some (v, r)) : ts = pItem v ++ r := by
  unfold qItem at h
  split at h
  · split at h
    · rename_i h'
      cases h
      rw [qVal_sound h']; simp [pItem]
    · cases h
  · cases h

theorem pItems_cons (i : EnumItem) {l : List EnumItem} (h : l ≠ []) :
    pItems (i :: l) = pItem i ++ .comma :: pItems l := by
  cases l with
  | nil => exact absurd rfl h
  | cons j k => rfl

theorem qItems_sound : ∀ {n ts l r}, qItems n ts = some (l, r) → ts = pItems l ++ r ∧ l ≠ []
  | 0, _, _, _, h => by cases h
  | n + 1, ts, l, r, h => by
    unfold qItems at h
    split at h
    · rename_i h1
      split at h
      · rename_i h2
        cases h
        obtain ⟨h3, h4⟩ := qItems_sound h2
        rw [qItem_sound h1, h3]
        exact ⟨by rw [pItems_cons _ h4]; simp, by simp⟩
      · cases h
    · rename_i h1
      cases h
      exact ⟨qItem_sound h1, by simp⟩
    · cases h

theorem qLabels_sound : ∀ {n ts l r}, qLabels n ts = some (l, r) → ts = pLabels l ++ r
  | 0, _, _, _, h => by cases h
  | n + 1, ts, l, r, h => by
    unfold qLabels at h
    split at h
    · split at h
      · rename_i h1
        split at h
        · rename_i h2
          cases h
          rw [qVal_sound h1, qLabels_sound h2]; simp [pLabels]
        · cases h
      · cases h
    · cases h; rfl

theorem qSuffix_sound {t ts d r} (x) (h : qSuffix t ts = some (d, r)) (ht : okTypespec t = true) :
    pTypespec t ++ .ident x :: ts = pDecl (.name d x) ++ r ∧ okDecl (.name d x) = true := by
  unfold qSuffix at h
  split at h
  · split at h
    · rename_i h1
      cases h
      rw [qVal_sound h1]; exact ⟨by simp [pDecl], by rw [okDecl, okDeclType, ht]⟩
    · cases h
  · split at h
    · rename_i h1
      cases h
      rw [qVarlen_sound h1]; exact ⟨by simp [pDecl], by rw [okDecl, okDeclType, ht]⟩
    · cases h
  · cases h; exact ⟨by simp [pDecl], by rw [okDecl, okDeclType, ht]⟩

theorem qOpaque_sound {ts d r} (x) (h : qOpaque ts = some (d, r)) :
    .kopaque :: .ident x :: ts = pDecl (.name d x) ++ r ∧ okDecl (.name d x) = true := by
  unfold qOpaque at h
  split at h
  · split at h
    · rename_i h1
      cases h
      rw [qVal_sound h1]; exact ⟨by simp [pDecl], by rw [okDecl, okDeclType] <;> simp⟩
    · cases h
  · split at h
    · rename_i h1
      cases h
      rw [qVarlen_sound h1]; exact ⟨by simp [pDecl], by rw [okDecl, okDeclType] <;> simp⟩
    · cases h

def QT (n : Nat) : Prop := ∀ ts t r, qTypespec n ts = some (t, r) → ts = pTypespec t ++ r ∧ okTypespec t = true
def QD (n : Nat) : Prop := ∀ ts t r, qDecl n ts = some (t, r) → ts = pDecl t ++ r ∧ okDecl t = true
def QDs (n : Nat) : Prop := ∀ ts t r, qDecls n ts = some (t, r) → ts = pDecls t ++ r ∧ okDecls t = true
def QCs (n : Nat) : Prop := ∀ ts t r, qCases n ts = some (t, r) → ts = pCases t ++ r ∧ okCases t = true

theorem qTypespec_sound {n} (h1 : QD n) (h2 : QDs n) (h3 : QCs n) : QT (n + 1) := by
  intro ts t r h
  unfold qTypespec at h
  split at h
  · cases h; exact ⟨by simp [pTypespec, pUnsig], by rw [okTypespec] <;> simp⟩
  · cases h; exact ⟨by simp [pTypespec, pUnsig], by rw [okTypespec] <;> simp⟩
  · cases h; exact ⟨by simp [pTypespec, pUnsig], by rw [okTypespec] <;> simp⟩
  · cases h; exact ⟨by simp [pTypespec, pUnsig], by rw [okTypespec] <;> simp⟩
  · cases h; exact ⟨by simp [pTypespec], by rw [okTypespec] <;> simp⟩
  · cases h; exact ⟨by simp [pTypespec], by rw [okTypespec] <;> simp⟩
  · cases h; exact ⟨by simp [pTypespec], by rw [okTypespec] <;> simp⟩
  · cases h; exact ⟨by simp [pTypespec], by rw [okTypespec] <;> simp⟩
  · split at h
    · rename_i h'
      cases h
      obtain ⟨e, hne⟩ := qItems_sound h'
      rw [e]; exact ⟨by simp [pTypespec], by rw [okTypespec]; exact ne_isEmpty hne⟩
    · cases h
  · split at h
    · rename_i h'
      cases h
      obtain ⟨e, hok⟩ := h2 _ _ _ h'
      rw [e]; exact ⟨by simp [pTypespec], by rw [okTypespec]; exact hok⟩
    · cases h
  · split at h
    · rename_i h'
      split at h
      · rename_i h''
        cases h
        obtain ⟨e, hok⟩ := h1 _ _ _ h'
        obtain ⟨e', hok'⟩ := h3 _ _ _ h''
        rw [e, e']; exact ⟨by simp [pTypespec], by rw [okTypespec, hok, hok']; rfl⟩
      · cases h
    · cases h
  · cases h; exact ⟨by simp [pTypespec], by rw [okTypespec] <;> simp⟩
  · cases h

theorem qDecl_sound {n} (h1 : QT n) : QD (n + 1) := by
  intro ts t r h
  unfold qDecl at h
  split at h
  · cases h; exact ⟨by simp [pDecl], by rw [okDecl]⟩
  · split at h
    · rename_i h'
      cases h
      exact qOpaque_sound _ h'
    · cases h
  · split at h
    · rename_i h'
      cases h
      rw [qVarlen_sound h']
      exact ⟨by simp [pDecl], by rw [okDecl, okDeclType] <;> simp⟩
    · cases h
  · split at h
    · rename_i h'
      cases h
      obtain ⟨e, hok⟩ := h1 _ _ _ h'
      rw [e]; exact ⟨by simp [pDecl], by rw [okDecl, okDeclType, hok]⟩
    · rename_i h'
      split at h
      · rename_i h''
        cases h
        obtain ⟨e, hok⟩ := h1 _ _ _ h'
        rw [e]; exact qSuffix_sound _ h'' hok
      · cases h
    · cases h

theorem qDecls_sound {n} (h1 : QD n) (h2 : QDs n) : QDs (n + 1) := by
  intro ts t r h
  unfold qDecls at h
  split at h
  · cases h; exact ⟨by simp [pDecls], by rw [okDecls]⟩
  · split at h
    · rename_i h'
      split at h
      · rename_i h''
        cases h
        obtain ⟨e, hok⟩ := h1 _ _ _ h'
        obtain ⟨e', hok'⟩ := h2 _ _ _ h''
        rw [e, e']; exact ⟨by simp [pDecls], by rw [okDecls, hok, hok']; rfl⟩
      · cases h
    · cases h

theorem qCases_sound {n} (h1 : QD n) (h2 : QCs n) : QCs (n + 1) := by
  intro ts t r h
  unfold qCases at h
  split at h
  · cases h; exact ⟨by simp [pCases], by rw [okCases]⟩
  · split at h
    · rename_i h'
      cases h
      obtain ⟨e, hok⟩ := h1 _ _ _ h'
      rw [e]; exact ⟨by simp [pCases], by rw [okCases, hok]⟩
    · cases h
  · split at h
    · rename_i h0
      split at h
      · rename_i h'
        split at h
        · rename_i h''
          cases h
          obtain ⟨e, hok⟩ := h1 _ _ _ h'
          obtain ⟨e', hok'⟩ := h2 _ _ _ h''
          rw [qLabels_sound h0, e, e']; exact ⟨by simp [pCases], by rw [okCases, hok, hok']; rfl⟩
        · cases h
      · cases h
    · cases h

theorem q_sound : ∀ n, QT n ∧ QD n ∧ QDs n ∧ QCs n
  | 0 => ⟨fun _ _ _ h => (by cases h), fun _ _ _ h => (by cases h), fun _ _ _ h => (by cases h),
    fun _ _ _ h => (by cases h)⟩
  | n + 1 =>
    have ⟨h1, h2, h3, h4⟩ := q_sound n
    ⟨qTypespec_sound h2 h3 h4, qDecl_sound h1, qDecls_sound h2 h3, qCases_sound h2 h4⟩

theorem qOpt_sound {n ts t r} (h : qOpt n ts = some (t, r)) : ts = pOpt t ++ r ∧ okOpt t = true := by
  unfold qOpt at h
  split at h
  · cases h; exact ⟨rfl, rfl⟩
  · split at h
    · rename_i h'
      cases h
      exact (q_sound n).1 _ _ _ h'
    · cases h

theorem qCalls_sound : ∀ {n ts l r}, qCalls n ts = some (l, r) → ts = l.flatMap pCall ++ r ∧ l.all okCall = true
  | 0, _, _, _, h => by cases h
  | n + 1, ts, l, r, h => by
    unfold qCalls at h
    split at h
    · cases h; exact ⟨rfl, rfl⟩
    · split at h
      · rename_i h1
        split at h
        · rename_i h2
          split at h
          · rename_i h3
            cases h
            obtain ⟨e1, k1⟩ := qOpt_sound h1
            obtain ⟨e2, k2⟩ := qOpt_sound h2
            obtain ⟨e3, k3⟩ := qCalls_sound h3
            rw [e1, e2, e3]
            exact ⟨by simp [pCall], by simp only [List.all_cons, k3, okCall, k1, k2, Bool.and_self]⟩
          · cases h
        · cases h
      · cases h

theorem qVers_sound : ∀ {n ts l r}, qVers n ts = some (l, r) →
    ts = l.flatMap pVer ++ r ∧ (l.all fun v => v.calls.all okCall) = true
  | 0, _, _, _, h => by cases h
  | n + 1, ts, l, r, h => by
    unfold qVers at h
    split at h
    · cases h; exact ⟨rfl, rfl⟩
    · split at h
      · rename_i h2
        split at h
        · rename_i h3
          cases h
          obtain ⟨e2, k2⟩ := qCalls_sound h2
          obtain ⟨e3, k3⟩ := qVers_sound h3
          rw [e2, e3]
          exact ⟨by simp [pVer], by simp only [List.all_cons, k3, k2, Bool.and_self]⟩
        · cases h
      · cases h
    · cases h

theorem qDefn_sound {n ts d r} (h : qDefn n ts = some (d, r)) : ts = pDefn d ++ r ∧ okDefn d = true := by
  obtain ⟨h1, h2, h3, h4⟩ := q_sound n
  unfold qDefn at h
  split at h
  · cases h; exact ⟨rfl, rfl⟩
  · split at h
    · rename_i h'
      cases h
      obtain ⟨e, k⟩ := h2 _ _ _ h'
      rw [e]; exact ⟨by simp [pDefn], k⟩
    · cases h
  · split at h
    · rename_i h'
      cases h
      obtain ⟨e, k⟩ := qItems_sound h'
      rw [e]; exact ⟨by simp [pDefn], ne_isEmpty k⟩
    · cases h
  · split at h
    · rename_i h'
      cases h
      obtain ⟨e, k⟩ := h3 _ _ _ h'
      rw [e]; exact ⟨by simp [pDefn], k⟩
    · cases h
  · split at h
    · rename_i h'
      split at h
      · rename_i h''
        cases h
        obtain ⟨e, k⟩ := h2 _ _ _ h'
        obtain ⟨e', k'⟩ := h4 _ _ _ h''
        rw [e, e']; exact ⟨by simp [pDefn], by simp [okDefn, k, k']⟩
      · cases h
    · cases h
  · split at h
    · rename_i h'
      cases h
      obtain ⟨e, k⟩ := qVers_sound h'
      rw [e]; exact ⟨by simp [pDefn], k⟩
    · cases h
  · cases h

theorem qSpec_sound : ∀ {n ts s}, qSpec n ts = some s → ts = pSpec s ∧ okSpec s = true
  | 0, _, _, h => by cases h
  | n + 1, ts, s, h => by
    unfold qSpec at h
    split at h
    · cases h; exact ⟨rfl, rfl⟩
    · split at h
      · rename_i h1
        split at h
        · rename_i h2
          cases h
          obtain ⟨e1, k1⟩ := qDefn_sound h1
          obtain ⟨e2, k2⟩ := qSpec_sound h2
          rw [e1, e2]
          simp only [okSpec] at k2
          exact ⟨by simp [pSpec], by simp [okSpec, k1, k2]⟩
        · cases h
      · cases h

/-! ### What is there is found -/

theorem qVal_complete (v r) : qVal (pVal v ++ r) = some (v, r) := by cases v <;> rfl

theorem qVarlen_complete (v r) : qVarlen (pVarlen v ++ r) = some (v, r) := by
  cases v with
  | none => rfl
  | some v => cases v <;> rfl

theorem qItem_complete (i r) : qItem (pItem i ++ r) = some (i, r) := by
  obtain ⟨n, v⟩ := i
  simp only [pItem, List.cons_append, qItem, qVal_complete]

theorem qItems_complete : ∀ (l : List EnumItem) (n r), l ≠ [] → l.length ≤ n →
    qItems n (pItems l ++ .rbrace :: r) = some (l, .rbrace :: r)
  | [], _, _, h, _ => absurd rfl h
  | _ :: _, 0, _, _, h => by simp at h
  | [i], n + 1, r, _, _ => by rw [qItems, pItems, qItem_complete]
  | i :: j :: l, n + 1, r, _, h => by
    rw [qItems, pItems, List.append_assoc, qItem_complete]
    simp only [List.cons_append]
    rw [qItems_complete (j :: l) n r (by simp) (by simpa using h)]

theorem qLabels_complete : ∀ (l : List Val) (n r), l.length < n → (∀ tl, r ≠ .kcase :: tl) →
    qLabels n (pLabels l ++ r) = some (l, r)
  | _, 0, _, h, _ => by simp at h
  | [], n + 1, r, _, hr => by
    simp only [pLabels, List.nil_append]
    unfold qLabels
    split
    · exact absurd rfl (hr _)
    · rfl
  | v :: l, n + 1, r, h, hr => by
    simp only [pLabels, List.cons_append, List.append_assoc]
    rw [qLabels]
    simp only [qVal_complete]
    rw [qLabels_complete l n r (by simpa using h) hr]

/-- Tokens a type starts with. -/
def typeHead : XTok → Bool
  | .kunsigned | .kint | .khyper | .kfloat | .kdouble | .kquadruple | .kbool | .kenum | .kstruct
  | .kunion | .ident _ => true
  | _ => false

theorem pTypespec_head : ∀ t, ∃ h tl, pTypespec t = h :: tl ∧ typeHead h = true
  | .int true => ⟨.kunsigned, [.kint], by simp [pTypespec, pUnsig], rfl⟩
  | .int false => ⟨.kint, [], by simp [pTypespec, pUnsig], rfl⟩
  | .hyper true => ⟨.kunsigned, [.khyper], by simp [pTypespec, pUnsig], rfl⟩
  | .hyper false => ⟨.khyper, [], by simp [pTypespec, pUnsig], rfl⟩
  | .float => ⟨_, _, by rw [pTypespec], rfl⟩
  | .double => ⟨_, _, by rw [pTypespec], rfl⟩
  | .quadruple => ⟨_, _, by rw [pTypespec], rfl⟩
  | .bool => ⟨_, _, by rw [pTypespec], rfl⟩
  | .enum _ => ⟨_, _, by rw [pTypespec, List.cons_append], rfl⟩
  | .struct _ => ⟨_, _, by rw [pTypespec, List.cons_append], rfl⟩
  | .union _ _ => ⟨_, _, by rw [pTypespec]; simp only [List.cons_append]; rfl, rfl⟩
  | .ident _ => ⟨_, _, by rw [pTypespec], rfl⟩

/-- Tokens a declaration starts with. -/
def declHead : XTok → Bool
  | .kvoid | .kopaque | .kstring => true
  | t => typeHead t

theorem pDecl_head : ∀ d, ∃ h tl, pDecl d = h :: tl ∧ declHead h = true
  | .void => ⟨_, _, by rw [pDecl], rfl⟩
  | .name (.typespec t) n => by
    obtain ⟨h, tl, e, k⟩ := pTypespec_head t
    refine ⟨h, tl ++ [.ident n], by rw [pDecl, e]; rfl, ?_⟩
    cases h <;> first | rfl | cases k
  | .name (.array t v) n => by
    obtain ⟨h, tl, e, k⟩ := pTypespec_head t
    refine ⟨h, _, by rw [pDecl, e]; simp only [List.cons_append]; rfl, ?_⟩
    cases h <;> first | rfl | cases k
  | .name (.varArray t v) n => by
    obtain ⟨h, tl, e, k⟩ := pTypespec_head t
    refine ⟨h, _, by rw [pDecl, e]; simp only [List.cons_append]; rfl, ?_⟩
    cases h <;> first | rfl | cases k
  | .name (.ptr t) n => by
    obtain ⟨h, tl, e, k⟩ := pTypespec_head t
    refine ⟨h, _, by rw [pDecl, e]; simp only [List.cons_append]; rfl, ?_⟩
    cases h <;> first | rfl | cases k
  | .name (.opaqueArray v) n => ⟨_, _, by rw [pDecl]; simp only [List.cons_append]; rfl, rfl⟩
  | .name (.opaqueVarArray v) n => ⟨_, _, by rw [pDecl], rfl⟩
  | .name (.string v) n => ⟨_, _, by rw [pDecl], rfl⟩

theorem qDecl_type (n : Nat) (t : Typespec) (s : List XTok) :
    qDecl (n + 1) (pTypespec t ++ s) =
      match qTypespec n (pTypespec t ++ s) with
      | some (t, .star :: .ident x :: r) => some (.name (.ptr t) x, r)
      | some (t, .ident x :: r) =>
        match qSuffix t r with
        | some (d, r) => some (.name d x, r)
        | none => none
      | _ => none := by
  obtain ⟨h, tl, e, k⟩ := pTypespec_head t
  rw [e, List.cons_append, qDecl]
  · intro r e; cases e; cases k
  · intro x r e; rw [(List.cons.inj e).1] at k; cases k
  · intro x r e; rw [(List.cons.inj e).1] at k; cases k

theorem qDecls_decl (n : Nat) (d : Decl) (s : List XTok) :
    qDecls (n + 1) (pDecl d ++ s) =
      match qDecl n (pDecl d ++ s) with
      | some (d, .semi :: r) =>
        match qDecls n r with
        | some (ds, r) => some (.cons d ds, r)
        | none => none
      | _ => none := by
  obtain ⟨h, tl, e, k⟩ := pDecl_head d
  rw [e, List.cons_append, qDecls]
  intro r e; cases e; cases k

/-- What may follow a declaration. -/
def After (r : List XTok) : Prop := ∃ r', r = .semi :: r' ∨ r = .rparen :: r'

theorem after_semi (r) : After (.semi :: r) := ⟨r, .inl rfl⟩
theorem after_rparen (r) : After (.rparen :: r) := ⟨r, .inr rfl⟩

theorem qSuffix_none (t : Typespec) {r : List XTok} (h : After r) : qSuffix t r = some (.typespec t, r) := by
  obtain ⟨r', rfl | rfl⟩ := h <;> rfl

theorem pItems_length : ∀ l : List EnumItem, l.length ≤ (pItems l).length
  | [] => by simp
  | [i] => by simp [pItems, pItem]
  | i :: j :: l => by
    have := pItems_length (j :: l)
    simp only [pItems, List.length_append, List.length_cons] at this ⊢
    omega

theorem pLabels_length : ∀ l : List Val, l.length ≤ (pLabels l).length
  | [] => by simp
  | v :: l => by
    have := pLabels_length l
    simp only [pLabels, List.length_append, List.length_cons] at this ⊢
    omega

theorem qOpaque_varlen (v : Option Val) (r : List XTok) :
    qOpaque (pVarlen v ++ r) = some (.opaqueVarArray v, r) := by
  have h := qVarlen_complete v r
  unfold qOpaque
  split
  · rename_i r' e
    cases v <;> simp [pVarlen] at e
  · rw [h]

theorem qSuffix_varlen (t : Typespec) (v : Option Val) (r : List XTok) :
    qSuffix t (pVarlen v ++ r) = some (.varArray t v, r) := by
  have h := qVarlen_complete v r
  have e : ∃ tl, pVarlen v ++ r = .lt :: tl := by cases v <;> exact ⟨_, rfl⟩
  obtain ⟨tl, e⟩ := e
  rw [e] at h ⊢
  rw [qSuffix, h]

mutual
theorem qTypespec_complete : ∀ (t : Typespec) (n r), okTypespec t = true →
    3 * (pTypespec t).length ≤ n → qTypespec n (pTypespec t ++ r) = some (t, r)
  | t, 0, r, _, h => by
    obtain ⟨x, tl, e, k⟩ := pTypespec_head t
    rw [e] at h; simp at h
  | .int true, n + 1, r, _, _ => by rw [pTypespec]; rfl
  | .int false, n + 1, r, _, _ => by rw [pTypespec]; rfl
  | .hyper true, n + 1, r, _, _ => by rw [pTypespec]; rfl
  | .hyper false, n + 1, r, _, _ => by rw [pTypespec]; rfl
  | .float, n + 1, r, _, _ => by rw [pTypespec]; rfl
  | .double, n + 1, r, _, _ => by rw [pTypespec]; rfl
  | .quadruple, n + 1, r, _, _ => by rw [pTypespec]; rfl
  | .bool, n + 1, r, _, _ => by rw [pTypespec]; rfl
  | .enum l, n + 1, r, hok, hn => by
    rw [okTypespec] at hok
    rw [pTypespec] at hn ⊢
    have := pItems_length l
    simp only [List.cons_append, List.length_cons, List.length_append, List.append_assoc] at hn ⊢
    rw [qTypespec]
    simp only [List.nil_append]
    rw [qItems_complete l n r (isEmpty_ne hok) (by omega)]
  | .struct ds, n + 1, r, hok, hn => by
    rw [okTypespec] at hok
    rw [pTypespec] at hn ⊢
    simp only [List.cons_append, List.length_cons, List.length_append, List.append_assoc] at hn ⊢
    rw [qTypespec]
    simp only [List.nil_append]
    rw [qDecls_complete ds n r hok (by omega)]
  | .union sw cs, n + 1, r, hok, hn => by
    rw [okTypespec, Bool.and_eq_true] at hok
    rw [pTypespec] at hn ⊢
    simp only [List.cons_append, List.length_cons, List.length_append, List.append_assoc] at hn ⊢
    rw [qTypespec]
    simp only [List.nil_append]
    rw [qDecl_complete sw n _ hok.1 (by omega) (after_rparen _)]
    simp only
    rw [qCases_complete cs n r hok.2 (by omega)]
  | .ident s, n + 1, r, _, _ => by rw [pTypespec]; rfl
theorem qDecl_complete : ∀ (d : Decl) (n r), okDecl d = true → 3 * (pDecl d).length + 1 ≤ n → After r →
    qDecl n (pDecl d ++ r) = some (d, r)
  | _, 0, r, _, h, _ => by omega
  | .void, n + 1, r, _, _, _ => by rw [pDecl]; rfl
  | .name (.typespec t) x, n + 1, r, hok, hn, hr => by
    rw [okDecl, okDeclType] at hok
    rw [pDecl] at hn ⊢
    simp only [List.cons_append, List.length_cons, List.length_append, List.append_assoc] at hn ⊢
    rw [qDecl_type, qTypespec_complete t n _ hok (by omega)]
    simp only [List.nil_append, qSuffix_none t hr]
  | .name (.array t v) x, n + 1, r, hok, hn, hr => by
    rw [okDecl, okDeclType] at hok
    rw [pDecl] at hn ⊢
    simp only [List.cons_append, List.length_cons, List.length_append, List.append_assoc] at hn ⊢
    rw [qDecl_type, qTypespec_complete t n _ hok (by omega)]
    simp only [List.nil_append, qSuffix, qVal_complete]
  | .name (.varArray t v) x, n + 1, r, hok, hn, hr => by
    rw [okDecl, okDeclType] at hok
    rw [pDecl] at hn ⊢
    simp only [List.cons_append, List.length_cons, List.length_append, List.append_assoc] at hn ⊢
    rw [qDecl_type, qTypespec_complete t n _ hok (by omega)]
    simp only [qSuffix_varlen]
  | .name (.ptr t) x, n + 1, r, hok, hn, hr => by
    rw [okDecl, okDeclType] at hok
    rw [pDecl] at hn ⊢
    simp only [List.cons_append, List.length_cons, List.length_append, List.append_assoc] at hn ⊢
    rw [qDecl_type, qTypespec_complete t n _ hok (by omega)]
    simp only [List.nil_append]
  | .name (.opaqueArray v) x, n + 1, r, _, _, _ => by
    rw [pDecl]
    simp only [List.cons_append, List.append_assoc]
    rw [qDecl]
    simp only [qOpaque, qVal_complete, List.nil_append]
  | .name (.opaqueVarArray v) x, n + 1, r, _, _, _ => by
    rw [pDecl]
    simp only [List.cons_append]
    rw [qDecl]
    simp only [qOpaque_varlen]
  | .name (.string v) x, n + 1, r, _, _, _ => by
    rw [pDecl]
    simp only [List.cons_append]
    rw [qDecl]
    simp only [qVarlen_complete]
theorem qDecls_complete : ∀ (ds : Decls) (n r), okDecls ds = true → 3 * (pDecls ds).length + 2 ≤ n →
    qDecls n (pDecls ds ++ .rbrace :: r) = some (ds, .rbrace :: r)
  | _, 0, r, _, h => by omega
  | .nil, n + 1, r, _, _ => by rw [pDecls]; rfl
  | .cons d ds, n + 1, r, hok, hn => by
    rw [okDecls, Bool.and_eq_true] at hok
    rw [pDecls] at hn ⊢
    simp only [List.cons_append, List.length_cons, List.length_append, List.append_assoc] at hn ⊢
    rw [qDecls_decl, qDecl_complete d n _ hok.1 (by omega) (after_semi _)]
    simp only
    rw [qDecls_complete ds n r hok.2 (by omega)]
theorem qCases_complete : ∀ (cs : Cases) (n r), okCases cs = true → 3 * (pCases cs).length + 2 ≤ n →
    qCases n (pCases cs ++ .rbrace :: r) = some (cs, .rbrace :: r)
  | _, 0, r, _, h => by omega
  | .nil, n + 1, r, _, _ => by rw [pCases]; rfl
  | .dflt d, n + 1, r, hok, hn => by
    rw [okCases] at hok
    rw [pCases] at hn ⊢
    simp only [List.cons_append, List.length_cons, List.length_append, List.append_assoc] at hn ⊢
    rw [qCases, qDecl_complete d n _ hok (by omega) (after_semi _)]
    simp only [List.nil_append]
  | .cons v l d cs, n + 1, r, hok, hn => by
    rw [okCases, Bool.and_eq_true] at hok
    rw [pCases] at hn ⊢
    have hl := pLabels_length (v :: l)
    simp only [List.cons_append, List.length_cons, List.length_append, List.append_assoc] at hn ⊢
    have hlab : qLabels n (pLabels (v :: l) ++ (pDecl d ++ .semi :: (pCases cs ++ .rbrace :: r))) =
        some (v :: l, pDecl d ++ .semi :: (pCases cs ++ .rbrace :: r)) := by
      refine qLabels_complete _ _ _ (by simp only [List.length_cons] at hl ⊢; omega) ?_
      intro tl e
      obtain ⟨h, tl', e', k⟩ := pDecl_head d
      rw [e', List.cons_append] at e
      cases e; cases k
    unfold qCases
    split
    · rename_i e; simp [pLabels] at e
    · rename_i e; simp [pLabels] at e
    · rw [hlab]
      simp only
      rw [qDecl_complete d n _ hok.1 (by omega) (after_semi _)]
      simp only
      rw [qCases_complete cs n r hok.2 (by omega)]
end

theorem qOpt_complete (t : TypespecOpt) (n r) (hok : okOpt t = true) (hn : 3 * (pOpt t).length ≤ n) :
    qOpt n (pOpt t ++ r) = some (t, r) := by
  cases t with
  | none => rfl
  | some t =>
    simp only [pOpt] at hn ⊢
    have h := qTypespec_complete t n r hok hn
    obtain ⟨x, tl, e, k⟩ := pTypespec_head t
    rw [e, List.cons_append] at h ⊢
    unfold qOpt
    split
    · rename_i e; cases e; cases k
    · rw [h]

theorem pOpt_head : ∀ t, ∃ h tl, pOpt t = h :: tl ∧ declHead h = true
  | none => ⟨_, _, rfl, rfl⟩
  | some t => by
    obtain ⟨h, tl, e, k⟩ := pTypespec_head t
    refine ⟨h, tl, e, ?_⟩
    cases h <;> first | rfl | cases k

theorem qCalls_complete : ∀ (l : List ProgCall) (n r), l.all okCall = true →
    3 * (l.flatMap pCall).length + 1 ≤ n →
    qCalls n (l.flatMap pCall ++ .rbrace :: r) = some (l, .rbrace :: r)
  | _, 0, r, _, h => by omega
  | [], n + 1, r, _, _ => rfl
  | c :: l, n + 1, r, hok, hn => by
    simp only [List.all_cons, Bool.and_eq_true, okCall] at hok
    simp only [List.flatMap_cons, pCall] at hn ⊢
    simp only [List.cons_append, List.length_cons, List.length_append, List.append_assoc] at hn ⊢
    have h1 := fun r => qOpt_complete c.res n r hok.1.1 (by omega)
    obtain ⟨h, tl, e, k⟩ := pOpt_head c.res
    unfold qCalls
    split
    · rename_i e'; rw [e] at e'; cases e'; cases k
    · rw [h1]
      simp only
      rw [qOpt_complete c.arg n _ hok.1.2 (by omega)]
      simp only [List.nil_append]
      rw [qCalls_complete l n r hok.2 (by omega)]

theorem qVers_complete : ∀ (l : List ProgVer) (n r), (l.all fun v => v.calls.all okCall) = true →
    3 * (l.flatMap pVer).length + 1 ≤ n →
    qVers n (l.flatMap pVer ++ .rbrace :: r) = some (l, .rbrace :: r)
  | _, 0, r, _, h => by omega
  | [], n + 1, r, _, _ => rfl
  | v :: l, n + 1, r, hok, hn => by
    rw [List.all_cons, Bool.and_eq_true] at hok
    simp only [List.flatMap_cons, pVer] at hn ⊢
    simp only [List.cons_append, List.length_cons, List.length_append, List.append_assoc] at hn ⊢
    rw [qVers]
    simp only [List.nil_append]
    rw [qCalls_complete v.calls n _ hok.1 (by omega)]
    simp only
    rw [qVers_complete l n r hok.2 (by omega)]

theorem qDefn_complete (d : Defn) (n r) (hok : okDefn d = true) (hn : 3 * (pDefn d).length ≤ n) :
    qDefn n (pDefn d ++ r) = some (d, r) := by
  cases d with
  | const x k => rfl
  | typedef d =>
    simp only [pDefn] at hn ⊢
    simp only [List.cons_append, List.length_cons, List.length_append, List.append_assoc] at hn ⊢
    rw [qDefn, qDecl_complete d n _ hok (by omega) (after_semi _)]
    simp only [List.nil_append]
  | enum x l =>
    simp only [pDefn] at hn ⊢
    have := pItems_length l
    simp only [List.cons_append, List.length_cons, List.length_append, List.append_assoc] at hn ⊢
    rw [qDefn, qItems_complete l n _ (isEmpty_ne hok) (by omega)]
    simp only [List.nil_append]
  | struct x ds =>
    simp only [pDefn] at hn ⊢
    simp only [List.cons_append, List.length_cons, List.length_append, List.append_assoc] at hn ⊢
    rw [qDefn, qDecls_complete ds n _ hok (by omega)]
    simp only [List.nil_append]
  | union x sw cs =>
    simp only [okDefn, Bool.and_eq_true] at hok
    simp only [pDefn] at hn ⊢
    simp only [List.cons_append, List.length_cons, List.length_append, List.append_assoc] at hn ⊢
    rw [qDefn, qDecl_complete sw n _ hok.1 (by omega) (after_rparen _)]
    simp only [List.nil_append]
    rw [qCases_complete cs n _ hok.2 (by omega)]
  | program p =>
    simp only [pDefn] at hn ⊢
    simp only [List.cons_append, List.length_cons, List.length_append, List.append_assoc] at hn ⊢
    rw [qDefn, qVers_complete p.vers n _ hok (by omega)]
    simp only [List.nil_append]

theorem pDefn_ne : ∀ d, ∃ h tl, pDefn d = h :: tl
  | .const _ _ => ⟨_, _, rfl⟩
  | .typedef _ => ⟨_, _, rfl⟩
  | .enum _ _ => ⟨_, _, rfl⟩
  | .struct _ _ => ⟨_, _, rfl⟩
  | .union _ _ _ => ⟨_, _, rfl⟩
  | .program _ => ⟨_, _, rfl⟩

theorem qSpec_complete : ∀ (s : Spec) (n), okSpec s = true → 3 * (pSpec s).length + 1 ≤ n →
    qSpec n (pSpec s) = some s
  | _, 0, _, h => by omega
  | [], n + 1, _, _ => rfl
  | d :: s, n + 1, hok, hn => by
    simp only [okSpec, List.all_cons, Bool.and_eq_true] at hok
    obtain ⟨h, tl, e⟩ := pDefn_ne d
    have hlen : 1 ≤ (pDefn d).length := by rw [e]; simp
    have hp : pSpec (d :: s) = pDefn d ++ pSpec s := rfl
    rw [hp] at hn ⊢
    simp only [List.length_append] at hn
    unfold qSpec
    split
    · rename_i e'; rw [e] at e'; simp at e'
    · rw [qDefn_complete d n _ hok.1 (by omega)]
      simp only
      rw [qSpec_complete s n hok.2 (by omega)]

/-- The parser finds exactly the derivations of the grammar. -/
theorem parseXdr_iff (ts : List XTok) (s : Spec) : parseXdr ts = some s ↔ DSpec ts s := by
  constructor
  · intro h
    obtain ⟨e, hok⟩ := qSpec_sound h
    rw [e]; exact dSpec s hok
  · intro h
    rw [parseXdr, h.eq]
    exact qSpec_complete s _ h.ok (by omega)

end Verif.Text
