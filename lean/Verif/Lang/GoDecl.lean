/-
Verif.Lang.Parse on the tokens of declarations and files of Verif.Text.GoSyn.
-/
import Verif.Lang.GoStmt

namespace Verif.Lang.Rd
open Verif.Text (Text GE GArgs GElts GFs GS GSs GCs GRes GMeth GD GFile gE gArgs gElts gFs gS gSs gCs gPs gRes gOpt gMeth gRecv gD gFile
  wE wArgs wElts wFs wS wSs wCs wOpt wRes wD wFile)
set_option linter.unusedSimpArgs false

def trP (p : List Nat × GE) : String × Ty := (name p.1, trT p.2)

def trRes : GRes → List (String × Ty)
  | .none => []
  | .type t => [("", trT t)]
  | .named l => l.map trP

def trD : GD → Top
  | .const n t v => .const (name n) (t.map trT) (trE v)
  | .type n t => .typ (name n) (trT t)
  | .iface n _ => .typ (name n) .iface
  | .func r n ps res b => .func ⟨r.map trP, name n, ps.map trP, trRes res, trSs b⟩

def trF (f : GFile) : File := ⟨name f.pkg, f.imports.map name, f.decls.map trD⟩

def okRes : GRes → Bool
  | .none => true
  | .type t => okE t
  | .named l => l.all fun p => okE p.2

def okD : GD → Bool
  | .const _ t v => t.all okE && okE v
  | .type _ t => okE t
  | .iface _ ms => ms.all fun m => m.arg.all okE && m.res.all okE
  | .func r _ ps res b => r.all (fun p => okE p.2) && ps.all (fun p => okE p.2) && okRes res && okSs b

local macro "arith" : tactic => `(tactic| (try simp only [gPs, gRes, gOpt, gMeth, gRecv, gD, List.length_append, List.length_cons, List.length_nil] at *) <;> omega)
local macro "flat" "[" ls:Lean.Parser.Tactic.simpLemma,* "]" : tactic =>
  `(tactic| (simp only [toks, List.map_cons, List.map_append, List.map_nil, tokL, opL, List.cons_append, List.append_assoc, List.nil_append, Bool.not_false,
    Bool.not_true, $ls,*] at *))

/-! ### Parameters -/

theorem pParam_named {x : Text} {t : GE} (w : wE .type false t = true) (k : okE t = true) {rest : Toks} (hr : isOp t!"." rest = false) {n : Nat}
    (hn : (gE t).length < n) : pParam n (.id x :: (toks (gE t) ++ rest)) = some ((some (name x), trT t), rest) := by
  obtain ⟨n, rfl⟩ : ∃ m, n = m + 1 := ⟨n - 1, by omega⟩
  have h1 := isOp_head t rest (o := t!",") rfl
  have h2 := isOp_head t rest (o := t!")") rfl
  have h3 := isOp_head t rest (o := t!".") rfl
  have h4 := rT t w k hr (n := n) (by omega)
  simp [pParam, h1, h2, h3, h4]

theorem pParam_type {t : GE} (w : wE .type false t = true) (k : okE t = true) (rest : Toks) {n : Nat}
    (hn : (gE t).length < n) : pParam n (toks (gE t) ++ .op t!")" :: rest) = some ((none, trT t), .op t!")" :: rest) := by
  obtain ⟨n, rfl⟩ : ∃ m, n = m + 1 := ⟨n - 1, by omega⟩
  have h4 := rT t w k (rest := .op t!")" :: rest) rfl (n := n) (by omega)
  rcases gE_head_type w with ⟨s, rfl⟩ | ⟨p, s, rfl⟩ | ⟨a, r, h1, h2⟩
  · simp only [gE, toks, List.map_cons, List.map_nil, tokL, List.cons_append, List.nil_append] at h4 ⊢
    simp [pParam, isOp_cons, h4]
  · simp only [gE, toks, List.map_cons, List.map_nil, tokL, opL, List.cons_append, List.nil_append] at h4 ⊢
    simp [pParam, isOp_cons, h4]
  · simp only [h1, toks, List.map_cons, List.cons_append] at h4 ⊢
    rcases h2 with rfl | rfl | rfl
    · simp only [tokL, opL] at h4 ⊢
      simp [pParam, h4]
    · simp only [tokL, opL] at h4 ⊢
      simp [pParam, h4]
    · simp only [tokL, opL, Verif.Text.kwStruct] at h4 ⊢
      simp [pParam, h4]

theorem rPs : ∀ (l : List (List Nat × GE)), l ≠ [] → (l.all fun p => wE .type false p.2) = true → (l.all fun p => okE p.2) = true →
    ∀ (rest : Toks) {m n : Nat}, (gPs l).length ≤ m → (gPs l).length ≤ n →
      sep (pParam m) n (toks (gPs l) ++ rest) = some (l.map fun p => (some (name p.1), trT p.2), .op t!")" :: rest)
  | [], h, _, _, _, _, _, _, _ => absurd rfl h
  | [p], _, w, k, rest, m, n, hm, hn => by
    simp only [List.all_cons, List.all_nil, Bool.and_true] at w k
    have h1 := pParam_named (x := p.1) w k (rest := .op t!")" :: rest) rfl (n := m) (by arith)
    have h2 : 0 < n := by arith
    flat [gPs]
    exact sep_one h2 h1 rfl
  | p :: q :: l, _, w, k, rest, m, n, hm, hn => by
    simp only [List.all_cons (l := q :: l), Bool.and_eq_true] at w k
    obtain ⟨n, rfl⟩ : ∃ m, n = m + 1 := ⟨n - 1, by arith⟩
    have h1 := pParam_named (x := p.1) w.1 k.1 (rest := .op t!"," :: (toks (gPs (q :: l)) ++ rest)) rfl (n := m) (by
      rw [gPs] at hm; simp only [List.length_append, List.length_cons] at hm; omega)
    have h2 := rPs (q :: l) (by simp) w.2 k.2 rest (m := m) (n := n) (by
      rw [gPs] at hm; simp only [List.length_append, List.length_cons] at hm; omega) (by
      rw [gPs] at hn; simp only [List.length_append, List.length_cons] at hn; omega)
    rw [gPs]
    simp only [toks, List.map_cons, List.map_append, tokL, opL, List.cons_append, List.append_assoc] at h1 h2 ⊢
    exact sep_more h1 h2

theorem gPs_head (l : List (List Nat × GE)) (h : l ≠ []) (rest : Toks) : isOp t!")" (toks (gPs l) ++ rest) = false := by
  cases l with
  | nil => exact absurd rfl h
  | cons p l => cases l <;> rfl

theorem rParams (l : List (List Nat × GE)) (w : (l.all fun p => wE .type false p.2) = true) (k : (l.all fun p => okE p.2) = true)
    (rest : Toks) {n : Nat} (hn : (gPs l).length < n) :
    pParams n (.op t!"(" :: (toks (gPs l) ++ rest)) = some (l.map fun p => (some (name p.1), trT p.2), rest) := by
  obtain ⟨n, rfl⟩ : ∃ m, n = m + 1 := ⟨n - 1, by omega⟩
  by_cases hl : l = []
  · subst hl
    flat [gPs]
    simp [pParams, op_cons, isOp_cons]
  · have h1 := rPs l hl w k rest (m := n) (n := n) (by omega) (by omega)
    have h2 := gPs_head l hl rest
    simp [pParams, op_cons, h2, h1]

theorem params_named (l : List (List Nat × GE)) : params (l.map fun p => (some (name p.1), trT p.2)) = some (l.map trP) := by
  have h : ∀ l : List (List Nat × GE), group (l.map fun p => (some (name p.1), trT p.2)) = some (l.map trP) := by
    intro l
    induction l with
    | nil => rfl
    | cons p l ih => simp [group, ih, trP]
  unfold params
  split
  · exact h l
  · cases l with
    | nil => rfl
    | cons p l => simp at *

theorem gE_type_paren {t : GE} (w : wE .type false t = true) (rest : Toks) : isOp t!"(" (toks (gE t) ++ rest) = false := by
  rcases gE_head_type w with ⟨s, rfl⟩ | ⟨p, s, rfl⟩ | ⟨a, r, h1, h2⟩
  · rfl
  · rfl
  · simp only [h1, toks, List.map_cons, List.cons_append]
    rcases h2 with rfl | rfl | rfl <;> rfl

theorem rSig (ps : List (List Nat × GE)) (res : GRes) (w : (ps.all fun p => wE .type false p.2) = true) (k : (ps.all fun p => okE p.2) = true)
    (w' : wRes res = true) (k' : okRes res = true) (rest : Toks) {n : Nat} (hn : (gPs ps).length + (gRes res).length + 1 < n) :
    pSig n (.op t!"(" :: (toks (gPs ps) ++ (toks (gRes res) ++ .op t!"{" :: rest))) = some ((ps.map trP, trRes res), .op t!"{" :: rest) := by
  obtain ⟨n, rfl⟩ : ∃ m, n = m + 1 := ⟨n - 1, by omega⟩
  have h1 := rParams ps w k (toks (gRes res) ++ .op t!"{" :: rest) (n := n) (by omega)
  cases res with
  | none =>
    simp only [gRes, toks, List.map_nil, List.nil_append] at h1 ⊢
    simp [pSig, h1, params_named, isOp_cons, trRes]
  | type t =>
    rw [wRes] at w'
    rw [okRes] at k'
    have h2 := rT t w' k' (rest := .op t!"{" :: rest) rfl (n := n) (by arith)
    have h3 := gE_type_paren w' (.op t!"{" :: rest)
    have h4 := isOp_head t (.op t!"{" :: rest) (o := t!"{") rfl
    have h5 := isOp_head t (.op t!"{" :: rest) (o := t!";") rfl
    have h6 := isOp_head t (.op t!"{" :: rest) (o := t!")") rfl
    have h7 := isOp_head t (.op t!"{" :: rest) (o := t!",") rfl
    simp only [gRes] at h1 ⊢
    simp [pSig, h1, params_named, h2, h3, h4, h5, h6, h7, trRes]
  | named l =>
    rw [wRes] at w'
    rw [okRes] at k'
    have h2 := rParams l w' k' (.op t!"{" :: rest) (n := n) (by arith)
    flat [gRes]
    simp [pSig, h1, params_named, h2, isOp_cons, trRes]

/-! ### Methods of interfaces -/

theorem rMeth (m : GMeth) (w : (wOpt m.arg && wOpt m.res) = true) (k : (m.arg.all okE && m.res.all okE) = true) (rest : Toks) {n : Nat}
    (hn : (gMeth m).length ≤ n) : ∃ y, pSig n (.op t!"(" :: (toks (gOpt m.arg) ++ .op t!")" :: (toks (gOpt m.res) ++ .op t!";" :: rest))) = some (y, .op t!";" :: rest) := by
  obtain ⟨n, rfl⟩ : ∃ m, n = m + 1 := ⟨n - 1, by arith⟩
  obtain ⟨x, a, r⟩ := m
  simp only [Bool.and_eq_true] at w k
  have h1 : ∃ ps, pParams n (.op t!"(" :: (toks (gOpt a) ++ .op t!")" :: (toks (gOpt r) ++ .op t!";" :: rest))) = some (ps, toks (gOpt r) ++ .op t!";" :: rest) ∧
      ∃ y, params ps = some y := by
    obtain ⟨n, rfl⟩ : ∃ m, n = m + 1 := ⟨n - 1, by arith⟩
    cases a with
    | none => exact ⟨[], by simp [pParams, gOpt, op_cons, isOp_cons], _, rfl⟩
    | some t =>
      have h2 := pParam_type w.1 k.1 (toks (gOpt r) ++ .op t!";" :: rest) (n := n) (by arith)
      have h3 := sep_one (n := n) (by arith) h2 rfl
      have h4 := isOp_head t (.op t!")" :: (toks (gOpt r) ++ .op t!";" :: rest)) (o := t!")") rfl
      exact ⟨[(none, trT t)], by rw [gOpt]; simp [pParams, op_cons, h4, h3], _, rfl⟩
  obtain ⟨ps, h1, y, h2⟩ := h1
  cases r with
  | none =>
    flat [gOpt]
    exact ⟨_, by simp [pSig, h1, h2, isOp_cons]; rfl⟩
  | some t =>
    have w2 : wE .type false t = true := w.2
    have h4 := rT t w2 k.2 (rest := .op t!";" :: rest) rfl (n := n) (by arith)
    have h5 := gE_type_paren w2 (.op t!";" :: rest)
    have h6 := isOp_head t (.op t!";" :: rest) (o := t!"{") rfl
    have h7 := isOp_head t (.op t!";" :: rest) (o := t!";") rfl
    have h8 := isOp_head t (.op t!";" :: rest) (o := t!")") rfl
    have h9 := isOp_head t (.op t!";" :: rest) (o := t!",") rfl
    simp only [gOpt] at h1 ⊢
    exact ⟨_, by simp [pSig, h1, h2, h4, h5, h6, h7, h8, h9]; rfl⟩

theorem rMeths : ∀ (ms : List GMeth), (ms.all fun m => wOpt m.arg && wOpt m.res) = true → (ms.all fun m => m.arg.all okE && m.res.all okE) = true →
    ∀ (rest : Toks) {n : Nat}, (ms.flatMap gMeth).length < n → pMethods n (toks (ms.flatMap gMeth) ++ .op t!"}" :: rest) = some ((), rest)
  | [], _, _, rest, n, hn => by
    obtain ⟨n, rfl⟩ : ∃ m, n = m + 1 := ⟨n - 1, by omega⟩
    simp [pMethods, isOp_cons, op_cons]
  | m :: ms, w, k, rest, n, hn => by
    simp only [List.all_cons] at w k
    rw [Bool.and_eq_true] at w k
    obtain ⟨n, rfl⟩ : ∃ m, n = m + 1 := ⟨n - 1, by omega⟩
    simp only [List.flatMap_cons, List.length_append] at hn
    have hg : 0 < (gMeth m).length := by simp [gMeth]
    obtain ⟨y, h1⟩ := rMeth m w.1 k.1 (toks (ms.flatMap gMeth) ++ .op t!"}" :: rest) (n := n) (by omega)
    have h2 := rMeths ms w.2 k.2 rest (n := n) (by omega)
    simp only [List.flatMap_cons, gMeth]
    flat []
    have h3 : ∀ l, isOp t!"}" (Tok.id m.name :: l) = false := fun _ => rfl
    have h4 : ∀ l, isOp t!";" (Tok.op t!";" :: l) = true := fun _ => rfl
    simp [pMethods, h3, h4, ident, op_cons, h1, h2]

/-! ### Declarations -/

theorem rD (d : GD) (w : wD d = true) (k : okD d = true) (rest : Toks) {n : Nat} (hn : 4 * (gD d).length + 8 ≤ n) :
    pTop n (toks (gD d) ++ .op t!";" :: rest) = some (trD d, .op t!";" :: rest) := by
  cases d with
  | const x t v =>
    rw [wD, Bool.and_eq_true] at w
    rw [okD, Bool.and_eq_true] at k
    have h1 := rE v w.2 k.2 (rest := .op t!";" :: rest) (by rfl) (n := n) (by arith)
    cases t with
    | none =>
      flat [gD, gOpt, Verif.Text.kwConst]
      have h3 : ∀ l, isOp t!"=" (Tok.op t!"=" :: l) = true := fun _ => rfl
      simp [pTop, ident, h3, h1, trD]
    | some t =>
      have w1 : wE .type false t = true := w.1
      have h2 := rT t w1 k.1 (rest := .op t!"=" :: (toks (gE v) ++ .op t!";" :: rest)) rfl (n := n) (by arith)
      have h3 : isOp t!"=" (toks (gE t) ++ .op t!"=" :: (toks (gE v) ++ .op t!";" :: rest)) = false := by
        rcases gE_head_type w1 with ⟨s, rfl⟩ | ⟨p, s, rfl⟩ | ⟨a, r, h1, h2⟩
        · rfl
        · rfl
        · simp only [h1, toks, List.map_cons, List.cons_append]
          rcases h2 with rfl | rfl | rfl <;> rfl
      flat [gD, gOpt, Verif.Text.kwConst]
      simp [pTop, ident, op_cons, h3, h1, h2, trD]
  | type x t =>
    rw [wD] at w
    rw [okD] at k
    have h2 := rT t w k (rest := .op t!";" :: rest) rfl (n := n) (by arith)
    flat [gD, Verif.Text.kwType]
    simp [pTop, ident, h2, trD]
  | iface x ms =>
    rw [wD] at w
    rw [okD] at k
    obtain ⟨n, rfl⟩ : ∃ m, n = m + 1 := ⟨n - 1, by omega⟩
    have h2 := rMeths ms w k (.op t!";" :: rest) (n := n) (by arith)
    flat [gD, Verif.Text.kwType, Verif.Text.kwInterface]
    simp [pTop, ident, pTy, op_cons, h2, trD]
  | func r x ps res b =>
    simp only [wD, Bool.and_eq_true] at w
    simp only [okD, Bool.and_eq_true] at k
    have hl : ∀ A B : List Text.Tok, (A ++ B).length = A.length + B.length := fun _ _ => List.length_append
    obtain ⟨m, hm⟩ : ∃ m, n = m + 1 := ⟨n - 1, by omega⟩
    have h1 := rSs b w.2 k.2 (rest := .op t!"}" :: .op t!";" :: rest) (.inl rfl) (n := m) (by arith)
    have h2 := pBlock_of h1
    rw [← hm] at h2
    have h3 := rSig ps res w.1.1.2 k.1.1.2 w.1.2 k.1.2 (toks (gSs b) ++ .op t!"}" :: .op t!";" :: rest) (n := n) (by arith)
    cases r with
    | none =>
      flat [gD, gRecv, Verif.Text.kwFunc]
      have h4 : ∀ l, isOp t!"(" (Tok.id x :: l) = false := fun _ => rfl
      simp [pTop, ident, h4, h3, h2, trD]
    | some p =>
      have h5 := rParams [p] (by simpa using w.1.1.1) (by simpa using k.1.1.1) (.id x :: .op t!"(" :: (toks (gPs ps) ++ (toks (gRes res) ++
        .op t!"{" :: (toks (gSs b) ++ .op t!"}" :: .op t!";" :: rest)))) (n := n) (by arith)
      simp only [gD, gRecv, Verif.Text.kwFunc]
      flat []
      have h4 : ∀ l, isOp t!"(" (Tok.op t!"(" :: l) = true := fun _ => rfl
      simp [pTop, ident, h4, h5, h3, h2, trD, trP]

theorem gD_cons (d : GD) : ∃ k r, gD d = .kw k :: r ∧ k ≠ t!"import" := by
  cases d <;> exact ⟨_, _, rfl, by decide⟩

theorem rDs : ∀ (ds : List GD), ds.all wD = true → ds.all okD = true → ∀ {n k : Nat},
    4 * (ds.flatMap fun d => gD d ++ [.semi]).length + 8 ≤ n → ds.length < k →
    pTops n k (toks (ds.flatMap fun d => gD d ++ [.semi])) = some (ds.map trD, [])
  | [], _, _, n, k, _, hk => by
    obtain ⟨k, rfl⟩ : ∃ m, k = m + 1 := ⟨k - 1, by simp at hk; omega⟩
    rfl
  | d :: ds, w, o, n, k, hn, hk => by
    simp only [List.all_cons] at w o
    rw [Bool.and_eq_true] at w o
    obtain ⟨k, rfl⟩ : ∃ m, k = m + 1 := ⟨k - 1, by omega⟩
    simp only [List.flatMap_cons, List.length_append, List.length_cons, List.length_nil] at hn hk
    have h1 := rD d w.1 o.1 (toks (ds.flatMap fun d => gD d ++ [.semi])) (n := n) (by omega)
    have h2 := rDs ds w.2 o.2 (n := n) (k := k) (by omega) (by omega)
    obtain ⟨kw, r, h3, -⟩ := gD_cons d
    have h4 : toks ((d :: ds).flatMap fun d => gD d ++ [.semi]) = toks (gD d) ++ .op t!";" :: toks (ds.flatMap fun d => gD d ++ [.semi]) := by
      simp [toks, tokL, opL]
    rw [h4]
    have h5 : ∃ a l, toks (gD d) ++ .op t!";" :: toks (ds.flatMap fun d => gD d ++ [.semi]) = a :: l := by
      rw [h3]; exact ⟨_, _, rfl⟩
    obtain ⟨a, l, h5⟩ := h5
    rw [h5] at h1 ⊢
    simp [pTops, h1, op_cons, h2]

theorem isKw_decls (ds : List GD) : isKw t!"import" (toks (ds.flatMap fun d => gD d ++ [.semi])) = false := by
  cases ds with
  | nil => rfl
  | cons d ds =>
    obtain ⟨kw, r, h3, h4⟩ := gD_cons d
    simp only [List.flatMap_cons, h3, toks, List.map_cons, List.cons_append, tokL]
    simpa [isKw] using h4

theorem rImports : ∀ (is : List (List Nat)) {rest : Toks}, isKw t!"import" rest = false → ∀ {n : Nat}, is.length < n →
    pImports n (toks (is.flatMap fun s => [Text.kwImport, .str s, .semi]) ++ rest) = some (is.map name, rest)
  | [], rest, hr, n, hn => by
    obtain ⟨n, rfl⟩ : ∃ m, n = m + 1 := ⟨n - 1, by omega⟩
    simp [toks, pImports, hr]
  | s :: is, rest, hr, n, hn => by
    obtain ⟨n, rfl⟩ : ∃ m, n = m + 1 := ⟨n - 1, by omega⟩
    have h := rImports is hr (n := n) (by simp at hn; omega)
    flat [List.flatMap_cons, Verif.Text.kwImport]
    have h4 : ∀ l, isKw t!"import" (Tok.kw t!"import" :: l) = true := fun _ => rfl
    simp [pImports, h4, op_cons, h]

/-- **The tokens of a file parse as the file.** -/
theorem rFile (f : GFile) (w : wFile f = true) (k : f.decls.all okD = true) : pFile (toks (gFile f)) = some (trF f) := by
  have hlen : (toks (gFile f)).length = 3 + 3 * f.imports.length + (f.decls.flatMap fun d => gD d ++ [.semi]).length := by
    have h : ∀ is : List (List Nat), (is.flatMap fun s => [Text.kwImport, Text.Tok.str s, .semi]).length = 3 * is.length := by
      intro is
      induction is with
      | nil => rfl
      | cons s is ih => simp only [List.flatMap_cons, List.length_append, List.length_cons, List.length_nil, ih]; omega
    simp only [toks, gFile, List.length_map, List.length_cons, List.length_append, h]
    omega
  have hd : f.decls.length ≤ (f.decls.flatMap fun d => gD d ++ [.semi]).length := by
    generalize f.decls = ds
    induction ds with
    | nil => simp
    | cons d ds ih => simp at ih ⊢; omega
  have h1 := rDs f.decls w k (n := 8 * (toks (gFile f)).length + 8) (k := 8 * (toks (gFile f)).length + 8) (by omega) (by omega)
  have h2 := rImports f.imports (isKw_decls f.decls) (n := 8 * (toks (gFile f)).length + 8) (by omega)
  unfold pFile
  generalize 8 * (toks (gFile f)).length + 8 = n at h1 h2 ⊢
  have h3 : toks (gFile f) = .kw t!"package" :: .id f.pkg :: .op t!";" :: (toks (f.imports.flatMap fun s => [Text.kwImport, .str s, .semi]) ++
      toks (f.decls.flatMap fun d => gD d ++ [.semi])) := by
    simp [gFile, toks, tokL, opL, Text.kwPackage]
  rw [h3]
  simp [kw_cons, ident, op_cons, h2, h1, trF]

end Verif.Lang.Rd
