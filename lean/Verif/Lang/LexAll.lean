/-
The tokens of a file as the parser gets them: one call of `Lex` after the other.
-/
import Verif.Lang.LexSpec

namespace Verif.Lang
open Verif.Text
variable {ω : Type}
set_option linter.unusedSimpArgs false

/-- A new `xdrSymType`. -/
def symZero : V := (genProg.zero "main" (.name "xdrSymType")).getD .nil
theorem symZero_str : symZero.at ["str"] = some (.str []) := by kernel_rfl

/-- One call of `Lex`, as the parser makes it: with a variable of the parser's for the value (a new one each time; goyacc's
parser uses one for all). -/
def lexOne (E : Ext ω) (k : Nat) (l : V) : M ω (Int × List UInt8) := do
  let i ← alloc symZero
  let r ← callN genProg E k (.meth "main.lexer" "Lex") [l, .ptr "" ⟨i, []⟩]
  let v ← load ⟨i, ["str"]⟩
  match r, v with
  | [.int c], .str b => pure (c, b)
  | _, _ => stop .stuck

/-- `Lex` until it answers 0. -/
def lexes (E : Ext ω) (k : Nat) (l : V) : Nat → M ω (List (Int × List UInt8))
  | 0 => stop .fuel
  | n + 1 => do
    let t ← lexOne E k l
    if t.1 = 0 then pure [] else do
      let ts ← lexes E k l n
      pure (t :: ts)

/-- The scanner returns these tokens, then that the text is at its end. -/
inductive Yields (scan : ω → Scanned × ω) : ω → List Verif.Text.Tok → ω → Prop where
  | eof {w} (h : (scan w).1.tok = "token.EOF") : Yields scan w [] (scan w).2
  | tok {w t ts w'} (h : IsTok t (scan w).1) (r : Yields scan (scan w).2 ts w') : Yields scan w (t :: ts) w'

theorem Leaves.trans {w w' : ω} {a b c : St ω} (h : Leaves w a b) (h' : Leaves w' b c) : Leaves w' a c :=
  ⟨h'.world, Nat.le_trans h.next h'.next, h'.defers.trans h.defers, fun j hj =>
    (h'.frame j (Nat.lt_of_lt_of_le hj h.next)).trans (h.frame j hj)⟩

/-- The text that the parser gets with a token. -/
def textOf (x : XTok) (sc : Scanned) : List UInt8 := if plainTok x then [] else litOf sc

section
variable {E : Ext ω} {scan : ω → Scanned × ω} {debug : Bool} {printf : List V → List V}

theorem lex_one (h : LexExt E scan debug printf) (k : Nat) {st : St ω} {l : Nat} {lp : List String}
    (hl : (st.heap l).at (lp ++ ["s"]) = some (.struct "scanner.Scanner" [])) (hl' : l < st.next)
    {t : Verif.Text.Tok} (ht : IsTok t (scan st.world).1) :
    match lexTok t with
    | some x => wp (lexOne E (k + 2) (.ptr "" ⟨l, lp⟩)) (fun r s => r = (symCode (tokSym x), textOf x (scan st.world).1) ∧
        TokText x r.2 ∧ Leaves (scan st.world).2 st s) st
    | none => dies (lexOne E (k + 2) (.ptr "" ⟨l, lp⟩)) .panic (Leaves (scan st.world).2 st) st := by
  have hp : ((st.push symZero).heap l) = st.heap l := heap_push_ne _ _ _ (by omega)
  have hs : ((st.push symZero).heap st.next) = symZero := heap_push_same _ _
  have := lex_spec h k (st := st.push symZero) (l := l) (v := st.next) (lp := lp) (vp := []) (by rw [hp]; exact hl)
    (Nat.lt_succ_of_lt hl') (old := []) (by rw [hs]; exact symZero_str) (Nat.lt_succ_self _) (t := t) ht
  cases hx : lexTok t with
  | some x =>
    rw [hx] at this
    simp only at this ⊢
    unfold lexOne
    rw [wp_bind, wp_alloc, wp_bind]
    refine wp_mono this fun r s ⟨hr, hd⟩ => ?_
    obtain ⟨b, hb, he, hput⟩ := hd.text
    rw [hs] at hput
    have hst := at_put hput
    rw [wp_bind, wp_load, hr]
    rw [show (s.heap st.next).at ["str"] = some (.str b) from hst]
    have hb' : b = textOf x (scan st.world).1 := by
      unfold textOf
      cases hp : plainTok x with
      | false => exact he hp
      | true =>
        rw [hd.plain hp, hs] at hst
        have := hst.symm.trans symZero_str
        cases this
        rfl
    refine ⟨by rw [← hb'], hb, hd.world, Nat.le_trans (Nat.le_succ _) hd.next, hd.defers, fun j hj =>
      (hd.frame j (Nat.lt_succ_of_lt hj) (by omega)).trans (heap_push_ne _ _ _ (by omega))⟩
  | none =>
    rw [hx] at this
    simp only at this ⊢
    unfold lexOne
    refine dies_bind (wp_iff.mpr ⟨_, _, rfl, dies_left (dies_mono this fun s hd => ?_)⟩)
    exact ⟨hd.world, Nat.le_trans (Nat.le_succ _) hd.next, hd.defers, fun j hj =>
      (hd.frame j (Nat.lt_succ_of_lt hj)).trans (heap_push_ne _ _ _ (by omega))⟩

/-- A token that `Lex` has no case for (scan.go:142-145), such as `token.ILLEGAL`. -/
def Unknown (sc : Scanned) : Prop := sc.tok ≠ "token.EOF" ∧ ∀ n ∈ tokNames, sc.tok ≠ "token." ++ n

theorem lex_one_other (h : LexExt E scan debug printf) (k : Nat) {st : St ω} {l : Nat} {lp : List String}
    (hl : (st.heap l).at (lp ++ ["s"]) = some (.struct "scanner.Scanner" [])) (hl' : l < st.next) (hu : Unknown (scan st.world).1) :
    dies (lexOne E (k + 2) (.ptr "" ⟨l, lp⟩)) .panic (Leaves (scan st.world).2 st) st := by
  have hp : ((st.push symZero).heap l) = st.heap l := heap_push_ne _ _ _ (by omega)
  have := lex_other h k (st := st.push symZero) (l := l) (v := st.next) (lp := lp) (vp := []) (by rw [hp]; exact hl)
    (Nat.lt_succ_of_lt hl') rfl (beq_eq_false_iff_ne.mpr hu.1) (findIdx_none fun n hn => beq_eq_false_iff_ne.mpr (hu.2 n hn))
  unfold lexOne
  refine dies_bind (wp_iff.mpr ⟨_, _, rfl, dies_left (dies_mono this fun s hd => ?_)⟩)
  exact ⟨hd.world, Nat.le_trans (Nat.le_succ _) hd.next, hd.defers, fun j hj =>
    (hd.frame j (Nat.lt_succ_of_lt hj)).trans (heap_push_ne _ _ _ (by omega))⟩

theorem lex_one_eof (h : LexExt E scan debug printf) (k : Nat) {st : St ω} {l : Nat} {lp : List String}
    (hl : (st.heap l).at (lp ++ ["s"]) = some (.struct "scanner.Scanner" [])) (hl' : l < st.next)
    (he : (scan st.world).1.tok = "token.EOF") :
    wp (lexOne E (k + 2) (.ptr "" ⟨l, lp⟩)) (fun r s => r.1 = 0 ∧ Leaves (scan st.world).2 st s) st := by
  have hp : ((st.push symZero).heap l) = st.heap l := heap_push_ne _ _ _ (by omega)
  have hs : ((st.push symZero).heap st.next) = symZero := heap_push_same _ _
  have := lex_eof h k (st := st.push symZero) (l := l) (v := st.next) (lp := lp) (vp := []) (by rw [hp]; exact hl)
    (Nat.lt_succ_of_lt hl') he
  unfold lexOne
  rw [wp_bind, wp_alloc, wp_bind]
  refine wp_mono this fun r s ⟨hr, h1, h2, h3, h4⟩ => ?_
  rw [wp_bind, wp_load, hr]
  rw [show s.heap st.next = symZero from (h4 _ (Nat.lt_succ_self _)).trans hs]
  rw [show symZero.at ["str"] = some (.str []) from symZero_str]
  exact ⟨rfl, h1, Nat.le_trans (Nat.le_succ _) h2, h3, fun j hj =>
    (h4 j (Nat.lt_succ_of_lt hj)).trans (heap_push_ne _ _ _ (by omega))⟩

/-- The names of the terminals. -/
def tokSyms : List String :=
  ["KWCONST", "KWTYPEDEF", "KWENUM", "KWSTRUCT", "KWUNION", "KWSWITCH", "KWCASE", "KWDEFAULT", "KWVOID", "KWOPAQUE",
   "KWSTRING", "KWUNSIGNED", "KWINT", "KWHYPER", "KWFLOAT", "KWDOUBLE", "KWQUADRUPLE", "KWBOOL", "KWPROGRAM", "KWVERSION",
   "CONST", "IDENT", "'='", "';'", "'<'", "'>'", "'['", "']'", "'{'", "'}'", "','", "':'", "'*'", "'('", "')'"]

theorem tokSym_mem (x : XTok) : tokSym x ∈ tokSyms := by
  cases x <;> (rw [tokSym]; decide)

theorem symCode_ne (x : XTok) : symCode (tokSym x) ≠ 0 :=
  (by decide +kernel : ∀ s ∈ tokSyms, symCode s ≠ 0) _ (tokSym_mem x)

/-- The terminals have different numbers. -/
theorem symCode_inj : ∀ s ∈ tokSyms, ∀ t ∈ tokSyms, symCode s = symCode t → s = t := by decide +kernel

theorem lexes_spec (h : LexExt E scan debug printf) (k : Nat) {l : Nat} {lp : List String} {ts : List Verif.Text.Tok} {w' : ω} :
    ∀ {st : St ω}, (st.heap l).at (lp ++ ["s"]) = some (.struct "scanner.Scanner" []) → l < st.next →
      Yields scan st.world ts w' → ∀ n, ts.length < n →
    match lexAll ts with
    | some xs => wp (lexes E (k + 2) (.ptr "" ⟨l, lp⟩) n) (fun r s => (∃ ws, YToks xs ws ∧ r = ws.map fun a => (symCode a.1, a.2)) ∧
        Leaves w' st s) st
    | none => dies (lexes E (k + 2) (.ptr "" ⟨l, lp⟩) n) .panic (fun s => Leaves s.world st s) st := by
  induction ts with
  | nil =>
    intro st hl hl' hy n hn
    obtain ⟨n, rfl⟩ : ∃ m, n = m + 1 := ⟨n - 1, by simp at hn; omega⟩
    cases hy with
    | eof he =>
      simp only [lexAll, lexes]
      rw [wp_bind]
      refine wp_mono (lex_one_eof h k hl hl' he) fun r s ⟨h1, h2⟩ => ?_
      rw [if_pos h1]
      exact ⟨⟨[], .nil, rfl⟩, h2⟩
  | cons t ts ih =>
    intro st hl hl' hy n hn
    obtain ⟨n, rfl⟩ : ∃ m, n = m + 1 := ⟨n - 1, by simp at hn; omega⟩
    cases hy with
    | tok ht hy =>
      have h1 := lex_one h k hl hl' ht
      simp only [lexAll]
      cases hx : lexTok t with
      | none =>
        rw [hx] at h1
        simp only [lexes] at h1 ⊢
        exact dies_left (dies_mono h1 fun s hs => by rw [hs.world]; exact hs)
      | some x =>
        rw [hx] at h1
        simp only at h1 ⊢
        have h2 := fun (s : St ω) (hs : Leaves (scan st.world).2 st s) =>
          ih (st := s) (by rw [hs.frame _ hl']; exact hl) (Nat.lt_of_lt_of_le hl' hs.next) (by rw [hs.world]; exact hy) n
            (by simp at hn; omega)
        cases hr : lexAll ts with
        | none =>
          rw [hr] at h2
          simp only [lexes]
          refine dies_bind (wp_mono h1 fun r s ⟨e, ht, hs⟩ => ?_)
          rw [if_neg (by rw [e]; exact symCode_ne x)]
          exact dies_left (dies_mono (h2 s hs) fun s' hs' => hs.trans hs')
        | some xs =>
          rw [hr] at h2
          simp only [lexes]
          rw [wp_bind]
          refine wp_mono h1 fun r s ⟨e, ht, hs⟩ => ?_
          rw [if_neg (by rw [e]; exact symCode_ne x), wp_bind]
          refine wp_mono (h2 s hs) fun r' s' ⟨⟨ws, e1, e2⟩, hs'⟩ => ?_
          rw [wp_pure]
          refine ⟨⟨(tokSym x, r.2) :: ws, .cons ⟨rfl, ht⟩ e1, ?_⟩, hs.trans hs'⟩
          rw [e2, List.map_cons]
          exact congrArg (· :: _) (Prod.ext (by rw [e]) rfl)

end

end Verif.Lang
