/-
The identifiers of a specification that was read from a file are names.
-/
import Verif.Text.EmitNames

namespace Verif.Text
open Verif.Gen

/-- A letter, then letters and digits. -/
def wordShape : List Nat → Bool
  | [] => false
  | c :: cs => isLetter c && cs.all alnum

/-- What the scanner gives out. -/
def tokShape : Tok → Prop
  | .ident s => wordShape s = true ∧ keywords.contains s = false
  | _ => True

/-- What the scanner is in the middle of. -/
def modeShape : Mode → Prop
  | .word acc => wordShape acc.reverse = true
  | _ => True

theorem wordTok_shape {s : List Nat} (h : wordShape s = true) : tokShape (wordTok s) := by
  unfold wordTok
  cases hk : keywords.contains s with
  | true => exact True.intro
  | false => exact ⟨h, hk⟩

theorem wordShape_snoc {s : List Nat} {c : Nat} (h : wordShape s = true) (hc : alnum c = true) :
    wordShape (s ++ [c]) = true := by
  cases s with
  | nil => exact Bool.noConfusion h
  | cons d s =>
    simp only [wordShape, Bool.and_eq_true] at h
    simp [wordShape, h, hc]

theorem idle_shape {b c ts st} (h : idle b c = some (ts, st)) : (∀ t ∈ ts, tokShape t) ∧ modeShape st.mode := by
  unfold idle at h
  split at h
  · rename_i hl
    cases h
    exact ⟨by simp, by simp [modeShape, wordShape, hl]⟩
  · split at h
    · cases h; exact ⟨by simp, True.intro⟩
    · split at h <;> first
        | (cases h; refine ⟨?_, True.intro⟩; simp [tokShape]; done)
        | (cases h; refine ⟨?_, True.intro⟩; split <;> simp [tokShape]; done)
        | (split at h
           · cases h; exact ⟨by simp, True.intro⟩
           · cases h)

theorem flush_shape {t c ts st} (ht : tokShape t) (h : flush t c = some (ts, st)) :
    (∀ t ∈ ts, tokShape t) ∧ modeShape st.mode := by
  unfold flush at h
  split at h
  · rename_i us st' he
    cases h
    have := idle_shape he
    exact ⟨fun u hu => (List.mem_cons.mp hu).elim (fun e => e ▸ ht) (this.1 u), this.2⟩
  · cases h

theorem joined_shape {b o c ts st} (h : joined b o c = some (ts, st)) :
    (∀ t ∈ ts, tokShape t) ∧ modeShape st.mode := by
  unfold joined at h
  split at h <;> first
    | (cases h; done)
    | (cases h; refine ⟨?_, True.intro⟩; simp [tokShape]; done)

theorem single_shape {o t} (h : single o = some t) : tokShape t := by
  unfold single at h
  split at h <;> cases h <;> exact True.intro

theorem step_shape {st c ts st'} (hs : modeShape st.mode) (h : step st c = some (ts, st')) :
    (∀ t ∈ ts, tokShape t) ∧ modeShape st'.mode := by
  obtain ⟨m, b⟩ := st
  cases m with
  | idle => exact idle_shape h
  | word acc =>
    simp only [step] at h
    split at h
    · rename_i hc
      cases h
      refine ⟨by simp, ?_⟩
      simp only [modeShape, List.reverse_cons] at hs ⊢
      exact wordShape_snoc hs hc
    · split at h
      · cases h
      · exact flush_shape (wordTok_shape hs) h
  | num acc =>
    simp only [step] at h
    split at h
    · cases h; exact ⟨by simp, True.intro⟩
    · split at h
      · cases h
      · split at h
        · exact flush_shape (t := .int _) True.intro h
        · cases h
  | lit n =>
    simp only [step] at h
    split at h
    · cases h
    · exact flush_shape (t := .int _) True.intro h
  | op o =>
    simp only [step] at h
    split at h
    · exact joined_shape h
    · split at h
      · rename_i ht; exact flush_shape (single_shape ht) h
      · cases h
  | line =>
    simp only [step] at h
    split at h
    · exact idle_shape h
    · split at h
      · cases h
      · cases h; exact ⟨by simp, True.intro⟩
  | block s =>
    simp only [step] at h
    split at h
    · cases h
    · split at h
      · cases h
        refine ⟨?_, True.intro⟩
        split <;> simp [tokShape]
      · split at h <;> cases h <;> exact ⟨by simp, True.intro⟩
  | str acc =>
    simp only [step] at h
    split at h
    · cases h; exact ⟨by simp [tokShape], True.intro⟩
    · split at h
      · cases h
      · cases h; exact ⟨by simp, True.intro⟩

theorem run_shape : ∀ {t st ts st'}, modeShape st.mode → run st t = some (ts, st') →
    (∀ t ∈ ts, tokShape t) ∧ modeShape st'.mode
  | [], _, _, _, hs, h => by
    cases h; exact ⟨by simp, hs⟩
  | c :: cs, st, ts, st', hs, h => by
    simp only [run] at h
    cases h1 : step st c with
    | none => rw [h1] at h; cases h
    | some r =>
      obtain ⟨us, st1⟩ := r
      rw [h1] at h
      cases h2 : run st1 cs with
      | none => simp only [h2] at h; cases h
      | some r =>
        obtain ⟨vs, st2⟩ := r
        simp only [h2] at h
        cases h
        have a := step_shape hs h1
        have b := run_shape a.2 h2
        exact ⟨fun t ht => (List.mem_append.mp ht).elim (a.1 t) (b.1 t), b.2⟩

theorem lastTok_shape {t} (h : tokShape t) : ∀ u ∈ lastTok t, tokShape u := by
  unfold lastTok
  split
  · intro u hu
    simp only [List.mem_cons, List.not_mem_nil, or_false] at hu
    rcases hu with rfl | rfl
    · exact h
    · exact True.intro
  · intro u hu
    rw [List.mem_singleton.mp hu]; exact h

theorem finish_shape {st ts} (hs : modeShape st.mode) (h : finish st = some ts) : ∀ t ∈ ts, tokShape t := by
  obtain ⟨m, b⟩ := st
  cases m with
  | idle => simp only [finish] at h; cases h; cases b <;> simp [tokShape]
  | line => simp only [finish] at h; cases h; cases b <;> simp [tokShape]
  | word acc => simp only [finish] at h; cases h; exact lastTok_shape (wordTok_shape hs)
  | num acc =>
    simp only [finish] at h
    split at h
    · cases h; exact lastTok_shape (t := .int _) True.intro
    · cases h
  | lit n => simp only [finish] at h; cases h; exact lastTok_shape (t := .int _) True.intro
  | op o =>
    simp only [finish] at h
    split at h
    · rename_i ht; cases h; exact lastTok_shape (single_shape ht)
    · cases h
  | block s => cases h
  | str acc => cases h

theorem scan_shape {t ts} (h : scan t = some ts) : ∀ t ∈ ts, tokShape t := by
  unfold scan at h
  split at h
  · rename_i us st hr
    split at h
    · rename_i vs hf
      cases h
      have a := run_shape (st := ⟨.idle, false⟩) True.intro hr
      have b := finish_shape a.2 hf
      exact fun t ht => (List.mem_append.mp ht).elim (a.1 t) (b t)
    · cases h
  · cases h

theorem codes_name {s : List Nat} (h : s.all alnum = true) : codes (name s) = s := by
  unfold name codes
  rw [String.toList_ofList, List.map_map]
  have : ∀ c ∈ s, (Char.toNat ∘ Char.ofNat) c = c := by
    intro c hc
    have := List.all_eq_true.mp h c hc
    have hlt : c < 0xd800 := by
      simp only [alnum, isLetter, isDigit, Bool.or_eq_true, Bool.and_eq_true, Nat.ble_eq, Nat.beq_eq] at this
      omega
    have hv : c.isValidChar := Or.inl hlt
    simp only [Function.comp, Char.ofNat, hv, dite_true]
    rfl
  conv => rhs; rw [← List.map_id s]
  exact List.map_congr_left this

theorem wordShape_all {s : List Nat} (h : wordShape s = true) : s.all alnum = true := by
  cases s with
  | nil => rfl
  | cons c s =>
    simp only [wordShape, Bool.and_eq_true] at h
    simp only [List.all_cons, Bool.and_eq_true, alnum, Bool.or_eq_true]
    exact ⟨.inl h.1, h.2⟩

/-- What is not a word of the language is not reserved. -/
theorem reserved_split : ∀ k ∈ reserved, k ∈ keywords ∨ (∀ s, lexIdent k ≠ .ident s) := by
  have : ∀ k ∈ reserved, k ∈ keywords ∨ (match lexIdent k with | .ident _ => false | _ => true) = true := by
    decide +kernel
  intro k hk
  refine (this k hk).imp id fun h s e => ?_
  rw [e] at h
  exact Bool.noConfusion h

theorem ite_ident {c : Bool} {k r : XTok} {x : Ident} (hk : k ≠ .ident x)
    (h : (if c = true then k else r) = .ident x) : r = .ident x := by
  cases c with
  | true => exact absurd h hk
  | false => exact h

theorem lexIdent_name {s : List Nat} {x : Ident} (h : wordShape s = true) (hk : keywords.contains s = false)
    (hx : lexIdent s = .ident x) : isName x = true := by
  have hxn : x = name s := by
    unfold lexIdent at hx
    iterate 15 replace hx := ite_ident (by simp) hx
    injection hx with hx; exact hx.symm
  have hc : codes x = s := by rw [hxn]; exact codes_name (wordShape_all h)
  have hr : reserved.contains s = false := by
    cases hr : reserved.contains s with
    | false => rfl
    | true =>
      rcases reserved_split s (List.contains_iff_mem.mp hr) with h1 | h1
      · rw [List.contains_iff_mem.mpr h1] at hk; cases hk
      · exact absurd hx (h1 x)
  cases s with
  | nil => exact Bool.noConfusion h
  | cons c s =>
    unfold isName
    rw [hc]
    simp only [hr]
    simpa [wordShape] using h

theorem lexTok_name {t : Tok} {x : Ident} (h : tokShape t) (hx : lexTok t = some (.ident x)) : isName x = true := by
  cases t with
  | ident s => exact lexIdent_name h.1 h.2 (Option.some.inj hx)
  | kw s =>
    simp only [lexTok] at hx
    repeat' split at hx
    all_goals first
      | (cases hx; done)
      | (cases hx; decide +kernel)
  | op o => cases o <;> cases hx
  | _ => cases hx

theorem lexAll_names : ∀ {ts xs}, (∀ t ∈ ts, tokShape t) → lexAll ts = some xs → namesOk xs = true
  | [], _, _, h => by cases h; rfl
  | t :: ts, xs, hs, h => by
    simp only [lexAll] at h
    cases h1 : lexTok t with
    | none => rw [h1] at h; cases h
    | some x =>
      simp only [h1] at h
      cases h2 : lexAll ts with
      | none => rw [h2] at h; cases h
      | some ys =>
        rw [h2] at h
        cases h
        have := lexAll_names (fun t ht => hs t (by simp [ht])) h2
        simp only [namesOk, List.all_cons, Bool.and_eq_true] at this ⊢
        refine ⟨?_, this⟩
        cases x <;> first | rfl | exact lexTok_name (hs t (by simp)) h1

/-- The identifiers of a specification that was read are names. -/
theorem readSpec_names {t : Text} {s : Spec} (h : readSpec t = some s) : namesOk (pSpec s) = true := by
  unfold readSpec at h
  split at h
  · rename_i ts hs
    split at h
    · rename_i xs hl
      have := lexAll_names (scan_shape hs) hl
      rw [((parseXdr_iff _ _).mp h).eq] at this
      exact this
    · cases h
  · cases h

/-! ### From the tokens to the identifiers that are printed -/

/-- The identifiers that are printed as they are. -/
def rawsVal : Val → List Ident
  | .lit _ => []
  | .ident s => [s]

def rawsSz : Option Val → List Ident
  | none => []
  | some v => rawsVal v

mutual
def rawsTypespec : Typespec → List Ident
  | .struct ds => rawsDecls ds
  | .union sw cs => rawsDecl sw ++ rawsCases cs
  | _ => []
def rawsDeclType : DeclType → List Ident
  | .typespec t => rawsTypespec t
  | .array t sz => rawsTypespec t ++ rawsVal sz
  | .varArray t sz => rawsTypespec t ++ rawsSz sz
  | .opaqueArray sz => rawsVal sz
  | .opaqueVarArray sz => rawsSz sz
  | .string sz => rawsSz sz
  | .ptr t => rawsTypespec t
def rawsDecl : Decl → List Ident
  | .void => []
  | .name t _ => rawsDeclType t
def rawsDecls : Decls → List Ident
  | .nil => []
  | .cons d ds => rawsDecl d ++ rawsDecls ds
def rawsCases : Cases → List Ident
  | .nil => []
  | .dflt d => rawsDecl d
  | .cons _ _ d cs => rawsDecl d ++ rawsCases cs
end

def rawsOpt : TypespecOpt → List Ident
  | none => []
  | some t => rawsTypespec t

/-- The identifiers of a definition that are printed without capitalising them: names of constants, sizes,
and identifiers as values of enumeration items. -/
def rawsDefn : Defn → List Ident
  | .const n _ => [n]
  | .typedef d => rawsDecl d
  | .enum _ items => items.flatMap fun it => rawsVal it.val
  | .struct _ ds => rawsDecls ds
  | .union _ sw cs => rawsDecl sw ++ rawsCases cs
  | .program p => p.vers.flatMap fun v => v.calls.flatMap fun c => rawsOpt c.arg ++ rawsOpt c.res

def rawsSpec (s : Spec) : List Ident := s.flatMap rawsDefn

/-- `type` and `map` are among the identifiers of the language (scan.go:37-43), but not of Go. -/
def rawOk (l : List Ident) : Bool := l.all fun s => s != "type" && s != "map"

theorem rawOk_append {a b : List Ident} : rawOk (a ++ b) = (rawOk a && rawOk b) := List.all_append
theorem namesOk_append {a b : List XTok} : namesOk (a ++ b) = (namesOk a && namesOk b) := List.all_append
theorem namesOk_nil : namesOk [] = true := rfl
theorem namesOk_cons {k : XTok} {b : List XTok} :
    namesOk (k :: b) = ((match k with | .ident s => isName s | _ => true) && namesOk b) := by
  cases k <;> rfl

local macro "names" h:ident : tactic => `(tactic| simp only [pTypespec, pDecl, pDecls, pCases, pCall, pVer, pDefn,
  pItems, pItem, pVal, pVarlen, pLabels, namesOk_append, namesOk_cons, namesOk_nil, Bool.true_and, Bool.and_true,
  Bool.and_eq_true, and_assoc] at $h:ident)

theorem names_rawVal {v : Val} (h : namesOk (pVal v) = true) (hr : rawOk (rawsVal v) = true) : rawVal v = true := by
  cases v with
  | lit n => rfl
  | ident s =>
    names h
    simp only [rawsVal, rawOk, List.all_cons, List.all_nil, Bool.and_true, Bool.and_eq_true] at hr
    simp [rawVal, rawName, h, hr]

theorem names_label {v : Val} (h : namesOk (pVal v) = true) : labelOk v = true := by
  cases v with
  | lit n => rfl
  | ident s => names h; exact h

theorem names_sz {v : Option Val} (h : namesOk (pVarlen v) = true) (hr : rawOk (rawsSz v) = true) :
    v.all rawVal = true := by
  cases v with
  | none => rfl
  | some v =>
    names h
    exact names_rawVal h hr

theorem names_labels : ∀ {l : List Val}, namesOk (pLabels l) = true → l.all labelOk = true
  | [], _ => rfl
  | v :: l, h => by
    names h
    simp only [List.all_cons, Bool.and_eq_true]
    exact ⟨names_label h.1, names_labels h.2⟩

mutual
theorem names_typespec : ∀ t, namesOk (pTypespec t) = true → rawOk (rawsTypespec t) = true → nTypespec t = true
  | .int _, _, _ => rfl
  | .hyper _, _, _ => rfl
  | .float, _, _ => rfl
  | .double, _, _ => rfl
  | .quadruple, _, _ => rfl
  | .bool, _, _ => rfl
  | .enum _, _, _ => rfl
  | .struct ds, h, hr => by
    names h
    exact names_decls ds h hr
  | .union sw cs, h, hr => by
    names h
    simp only [rawsTypespec, rawOk_append, Bool.and_eq_true] at hr
    simp only [nTypespec, Bool.and_eq_true]
    exact ⟨names_decl sw h.1 hr.1, names_cases cs h.2 hr.2⟩
  | .ident n, h, _ => by names h; exact h
theorem names_decl : ∀ d, namesOk (pDecl d) = true → rawOk (rawsDecl d) = true → nDecl d = true
  | .void, _, _ => rfl
  | .name (.typespec t) n, h, hr => by
    names h
    simp only [nDecl, nDeclType, Bool.and_eq_true]
    exact ⟨names_typespec t h.1 hr, h.2⟩
  | .name (.array t v) n, h, hr => by
    names h
    simp only [rawsDecl, rawsDeclType, rawOk_append, Bool.and_eq_true] at hr
    simp only [nDecl, nDeclType, Bool.and_eq_true]
    exact ⟨⟨names_typespec t h.1 hr.1, names_rawVal h.2.2 hr.2⟩, h.2.1⟩
  | .name (.varArray t v) n, h, hr => by
    names h
    simp only [rawsDecl, rawsDeclType, rawOk_append, Bool.and_eq_true] at hr
    simp only [nDecl, nDeclType, Bool.and_eq_true]
    exact ⟨⟨names_typespec t h.1 hr.1, names_sz h.2.2 hr.2⟩, h.2.1⟩
  | .name (.opaqueArray v) n, h, hr => by
    names h
    simp only [nDecl, nDeclType, Bool.and_eq_true]
    exact ⟨names_rawVal h.2 hr, h.1⟩
  | .name (.opaqueVarArray v) n, h, hr => by
    names h
    simp only [nDecl, nDeclType, Bool.and_eq_true]
    exact ⟨names_sz h.2 hr, h.1⟩
  | .name (.string v) n, h, hr => by
    names h
    simp only [nDecl, nDeclType, Bool.and_eq_true]
    exact ⟨names_sz h.2 hr, h.1⟩
  | .name (.ptr t) n, h, hr => by
    names h
    simp only [nDecl, nDeclType, Bool.and_eq_true]
    exact ⟨names_typespec t h.1 hr, h.2⟩
theorem names_decls : ∀ ds, namesOk (pDecls ds) = true → rawOk (rawsDecls ds) = true → nDecls ds = true
  | .nil, _, _ => rfl
  | .cons d ds, h, hr => by
    names h
    simp only [rawsDecls, rawOk_append, Bool.and_eq_true] at hr
    simp only [nDecls, Bool.and_eq_true]
    exact ⟨names_decl d h.1 hr.1, names_decls ds h.2 hr.2⟩
theorem names_cases : ∀ cs, namesOk (pCases cs) = true → rawOk (rawsCases cs) = true → nCases cs = true
  | .nil, _, _ => rfl
  | .dflt d, h, hr => by
    names h
    exact names_decl d h hr
  | .cons v l d cs, h, hr => by
    names h
    simp only [rawsCases, rawOk_append, Bool.and_eq_true] at hr
    simp only [nCases, Bool.and_eq_true]
    exact ⟨⟨⟨names_label h.1, names_labels h.2.1⟩, names_decl d h.2.2.1 hr.1⟩, names_cases cs h.2.2.2 hr.2⟩
end

theorem names_items : ∀ {l : List EnumItem}, namesOk (pItems l) = true →
    rawOk (l.flatMap fun it => rawsVal it.val) = true → (l.all fun it => isName it.name && rawVal it.val) = true
  | [], _, _ => rfl
  | [it], h, hr => by
    names h
    simp only [List.flatMap_cons, List.flatMap_nil, List.append_nil] at hr
    simp [h.1, names_rawVal h.2 hr]
  | it :: j :: l, h, hr => by
    names h
    rw [List.flatMap_cons, rawOk_append] at hr
    simp only [Bool.and_eq_true] at hr
    have := names_items h.2.2 hr.2
    rw [List.all_cons, this]
    simp [h.1, names_rawVal h.2.1 hr.1]

theorem names_opt {t : TypespecOpt} (h : namesOk (pOpt t) = true) (hr : rawOk (rawsOpt t) = true) :
    t.all nTypespec = true := by
  cases t with
  | none => rfl
  | some t => exact names_typespec t h hr

theorem namesOk_flatMap {α} {f : α → List XTok} {l : List α} (h : namesOk (l.flatMap f) = true) :
    ∀ a ∈ l, namesOk (f a) = true := by
  intro a ha
  simp only [namesOk, List.all_eq_true, List.mem_flatMap] at h ⊢
  exact fun x hx => h x ⟨a, ha, hx⟩

theorem rawOk_flatMap {α} {f : α → List Ident} {l : List α} (h : rawOk (l.flatMap f) = true) :
    ∀ a ∈ l, rawOk (f a) = true := by
  intro a ha
  simp only [rawOk, List.all_eq_true, List.mem_flatMap] at h ⊢
  exact fun x hx => h x ⟨a, ha, hx⟩

theorem names_call {c : ProgCall} (h : namesOk (pCall c) = true)
    (hr : rawOk (rawsOpt c.arg ++ rawsOpt c.res) = true) : nCall c = true := by
  names h
  simp only [rawOk_append, Bool.and_eq_true] at hr
  simp [nCall, h.2.1, names_opt h.2.2 hr.1, names_opt h.1 hr.2]

theorem names_vers {v : ProgVer} (h : namesOk (pVer v) = true)
    (hr : rawOk (v.calls.flatMap fun c => rawsOpt c.arg ++ rawsOpt c.res) = true) : nVers v = true := by
  names h
  simp only [nVers, h.1, Bool.true_and, List.all_eq_true]
  exact fun c hc => names_call (namesOk_flatMap h.2 c hc) (rawOk_flatMap hr c hc)

theorem names_defn {d : Defn} (h : namesOk (pDefn d) = true) (hr : rawOk (rawsDefn d) = true) :
    nDefn d = true := by
  cases d with
  | const n k =>
    names h
    simp only [rawsDefn, rawOk, List.all_cons, List.all_nil, Bool.and_true, Bool.and_eq_true] at hr
    simp [nDefn, rawName, h, hr]
  | typedef d =>
    names h
    exact names_decl d h hr
  | enum n l =>
    names h
    simp only [nDefn, h.1, Bool.true_and]
    exact names_items h.2 hr
  | struct n ds =>
    names h
    simp only [nDefn, h.1, Bool.true_and]
    exact names_decls ds h.2 hr
  | union n sw cs =>
    names h
    simp only [rawsDefn, rawOk_append, Bool.and_eq_true] at hr
    simp only [nDefn, h.1, Bool.true_and, Bool.and_eq_true]
    exact ⟨names_decl sw h.2.1 hr.1, names_cases cs h.2.2 hr.2⟩
  | program p =>
    names h
    simp only [nDefn, h.1, Bool.true_and, List.all_eq_true]
    exact fun v hv => names_vers (namesOk_flatMap h.2 v hv) (rawOk_flatMap hr v hv)

theorem names_spec {s : Spec} (h : namesOk (pSpec s) = true) (hr : rawOk (rawsSpec s) = true) : nSpec s = true := by
  unfold nSpec
  rw [List.all_eq_true]
  exact fun d hd => names_defn (namesOk_flatMap h d hd) (rawOk_flatMap hr d hd)

end Verif.Text
