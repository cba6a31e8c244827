/-
What running the actions of a derivation does, rule by rule.
-/
import Verif.Lang.Runs

namespace Verif.Lang
open Verif.Text Verif.Gen Verif.Inst

/-! ### Tokens -/

/-- The names that xdr.y gives to the terminals. -/
def tokSym : XTok → String
  | .kconst => "KWCONST" | .ktypedef => "KWTYPEDEF" | .kenum => "KWENUM" | .kstruct => "KWSTRUCT" | .kunion => "KWUNION"
  | .kswitch => "KWSWITCH" | .kcase => "KWCASE" | .kdefault => "KWDEFAULT" | .kvoid => "KWVOID" | .kopaque => "KWOPAQUE"
  | .kstring => "KWSTRING" | .kunsigned => "KWUNSIGNED" | .kint => "KWINT" | .khyper => "KWHYPER" | .kfloat => "KWFLOAT"
  | .kdouble => "KWDOUBLE" | .kquadruple => "KWQUADRUPLE" | .kbool => "KWBOOL" | .kprogram => "KWPROGRAM"
  | .kversion => "KWVERSION" | .const _ => "CONST" | .ident _ => "IDENT" | .eq => "'='" | .semi => "';'" | .lt => "'<'"
  | .gt => "'>'" | .lbrack => "'['" | .rbrack => "']'" | .lbrace => "'{'" | .rbrace => "'}'" | .comma => "','"
  | .colon => "':'" | .star => "'*'" | .lparen => "'('" | .rparen => "')'"

/-- The text that comes with it: an identifier, or a literal in some spelling. -/
def TokText : XTok → List UInt8 → Prop
  | .const n, b => isLit (b.map UInt8.toNat) n = true
  | .ident s, b => Name s b
  | _, _ => True

/-- A token as it is scanned. -/
def TokIs (t : XTok) (w : String × List UInt8) : Prop := w.1 = tokSym t ∧ TokText t w.2

abbrev YToks : List XTok → List (String × List UInt8) → Prop := All2 TokIs

theorem all2_append {α β : Type} {P : α → β → Prop} {l : List α} {a b : List β} (h : All2 P l (a ++ b)) :
    ∃ x y, l = x ++ y ∧ All2 P x a ∧ All2 P y b := by
  induction a generalizing l with
  | nil => exact ⟨[], l, rfl, .nil, h⟩
  | cons c a ih =>
    cases h with
    | cons h r =>
      obtain ⟨x, y, rfl, h1, h2⟩ := ih r
      exact ⟨_ :: x, y, rfl, .cons h h1, h2⟩

theorem all2_append' {α β : Type} {P : α → β → Prop} {l : List β} {a b : List α} (h : All2 P (a ++ b) l) :
    ∃ x y, l = x ++ y ∧ All2 P a x ∧ All2 P b y := by
  induction a generalizing l with
  | nil => exact ⟨[], l, rfl, .nil, h⟩
  | cons c a ih =>
    cases h with
    | cons h r =>
      obtain ⟨x, y, rfl, h1, h2⟩ := ih r
      exact ⟨_ :: x, y, rfl, .cons h h1, h2⟩

theorem All2.append {α β : Type} {P : α → β → Prop} {x y : List α} {a b : List β} (h : All2 P x a) (h' : All2 P y b) :
    All2 P (x ++ y) (a ++ b) := by
  induction h with
  | nil => exact h'
  | cons h _ ih => exact .cons h ih

/-! ### Runs -/

/-- What is true of a value after a run. -/
structure VPost where
  pred : Nat → St Log → V → Prop
  over : ∀ {lo st st' v}, pred lo st v → Over st st' → pred lo st' v
  mono : ∀ {lo lo' st v}, pred lo st v → lo' ≤ lo → pred lo' st v

def VPost.built (P : V → (Nat → V) → Nat → Prop) : VPost :=
  ⟨fun lo st v => Built lo st (P v), fun h o => h.over o, fun h o => h.mono o⟩
def VPost.list (P : (Nat → V) → Nat → List V → Prop) : VPost :=
  ⟨fun lo st v => BuiltList lo st v P, fun h o => h.over o, fun h o => h.mono o⟩
def VPost.slice (P : (Nat → V) → Nat → List V → Prop) : VPost :=
  ⟨fun lo st v => BuiltSlice lo st v P, fun h o => h.over o, fun h o => h.mono o⟩
/-- A value that does not refer to memory. -/
def VPost.val (P : V → Prop) : VPost := ⟨fun _ _ v => P v, fun h _ => h, fun h _ => h⟩

section
variable (fl : Flags) (grow : Nat → Nat → Nat) (loops : Nat)

/-- Every run makes a value, writes nothing and changes nothing that was there before. -/
def Makes (t : Tree) (Q : VPost) : Prop :=
  ∀ st r, TRun xdrGrammar (genExt fl grow loops) t st r → ∃ v st', r = .ok ([v], st') ∧ st'.world = st.world ∧
    Over st st' ∧ Q.pred st.next st' v

def Seq (ts : Trees) (Qs : List VPost) : Prop :=
  ∀ st r, TsRun xdrGrammar (genExt fl grow loops) ts st r → ∃ vs st', r = .ok (vs, st') ∧ st'.world = st.world ∧
    Over st st' ∧ All2 (fun v (Q : VPost) => Q.pred st.next st' v) vs Qs

/-- Nothing happens. -/
def Quiet (t : Tree) : Prop := ∀ st r, TRun xdrGrammar (genExt fl grow loops) t st r → ∃ st', r = .ok ([], st') ∧ Calm st st'

/-- Every run prints this, or panics. -/
def Emits (ws : Option Writes) (t : Tree) : Prop :=
  ∀ st r, TRun xdrGrammar (genExt fl grow loops) t st r → PrintsOut ws st r

variable {fl grow loops}

theorem Seq.nil : Seq fl grow loops .nil [] := by
  intro st r h
  cases h
  exact ⟨[], st, rfl, rfl, Over.refl _, .nil⟩

theorem Seq.quiet {t : Tree} {ts : Trees} {Qs : List VPost} (h : Quiet fl grow loops t) (h' : Seq fl grow loops ts Qs) :
    Seq fl grow loops (.cons t ts) Qs := by
  intro st r hr
  cases hr with
  | cons a b =>
    obtain ⟨st1, e, c⟩ := h _ _ a
    cases e
    obtain ⟨vs, st2, e, h1, h2, h3⟩ := h' _ _ b
    cases e
    exact ⟨_, _, rfl, h1.trans c.world, c.over.trans h2, h3.imp fun v Q h => Q.mono h c.over.next⟩
  | head a => obtain ⟨_, e, _⟩ := h _ _ a; cases e
  | tail a b => obtain ⟨_, _, e, _⟩ := h' _ _ b; cases e

theorem Seq.cons {t : Tree} {ts : Trees} {Q : VPost} {Qs : List VPost} (h : Makes fl grow loops t Q) (h' : Seq fl grow loops ts Qs) :
    Seq fl grow loops (.cons t ts) (Q :: Qs) := by
  intro st r hr
  cases hr with
  | cons a b =>
    obtain ⟨v, st1, e, h2, h3, h4⟩ := h _ _ a
    cases e
    obtain ⟨vs, st2, e, h2', h3', h4'⟩ := h' _ _ b
    cases e
    exact ⟨_, _, rfl, h2'.trans h2, h3.trans h3', .cons (Q.over h4 h3') (h4'.imp fun v Q h => Q.mono h h3.next)⟩
  | head a => obtain ⟨_, _, e, _⟩ := h _ _ a; cases e
  | tail a b => obtain ⟨_, _, e, _⟩ := h' _ _ b; cases e

theorem VPost.calm {Qs : List VPost} {lo : Nat} {st st' : St Log} {vs : List V} (h : All2 (fun v (Q : VPost) => Q.pred lo st v) vs Qs)
    (c : Calm st st') : All2 (fun v (Q : VPost) => Q.pred lo st' v) vs Qs := h.imp fun _ Q h => Q.over h c.over

/-- A run of a rule with an action. -/
theorem TRun.node {G : Grammar} {E : Ext Log} {m : Nat} {ts : Trees} {st : St Log} {r : Res Log} (h : TRun G E (.node m ts) st r)
    (hm : G.acts m = true) : (∃ e, r = .error e ∧ TsRun G E ts st (.error e)) ∨
      ∃ vs st1 st2, TsRun G E ts st (.ok (vs, st1)) ∧ Calm st1 st2 ∧ Lim (fun n => callN genProg E n (.fn "main" ("xdrAct" ++ toString m)) vs st2) r := by
  cases h with
  | act h c _ hr => exact .inr ⟨_, _, _, h, c, hr⟩
  | pass h c ha => rw [hm] at ha; cases ha
  | err h => exact .inl ⟨_, rfl, h⟩

/-- A rule whose action makes a value of those of the symbols. -/
theorem Seq.act {m : Nat} {ts : Trees} {Qs : List VPost} {R : VPost} (h : Seq fl grow loops ts Qs) (hm : xdrGrammar.acts m = true)
    {a : String} (ha : "xdrAct" ++ toString m = a)
    (hr : ∀ lo st vs, All2 (fun v (Q : VPost) => Q.pred lo st v) vs Qs →
      ∃ v, (∀ k, runOut fl.unsignedEnum (strBytes fl.constType) (fun _ => .nil) 0 (k + 1) a vs = pure [v]) ∧ R.pred lo st v) :
    Makes fl grow loops (.node m ts) R := by
  intro st r h0
  rcases h0.node hm with ⟨e, rfl, g0⟩ | ⟨vs, st1, st2, g0, c, hl⟩
  · obtain ⟨_, _, e, _⟩ := h _ _ g0; cases e
  obtain ⟨_, _, e, h2, h3, h4⟩ := h _ _ g0
  cases e
  obtain ⟨v, hv, hR⟩ := hr _ _ _ (VPost.calm h4 c)
  obtain ⟨st3, h5, h6, h7⟩ := act_pure (grow := grow) (loops := loops) hv st2
  rw [ha] at hl
  obtain rfl := hl.eq h5
  exact ⟨v, st3, rfl, h6.trans (c.world.trans h2), (h3.trans c.over).trans h7, R.over hR h7⟩

/-- A rule whose action appends to a list. -/
theorem Seq.append {m : Nat} {t : Tree} {ts : Trees} {P : (Nat → V) → Nat → List V → Prop} {Q : V → (Nat → V) → Nat → Prop}
    (h : Makes fl grow loops t (.list P)) (h' : Seq fl grow loops ts [.built Q]) (hm : xdrGrammar.acts m = true)
    {a : String} (ha : "xdrAct" ++ toString m = a) {y : String} {ty u : Ty} {z : V}
    (hf : genProg.find (.fn "main" a) = some ("main", ⟨none, a, [("xdrD1", ty), (y, u)], [("", ty)],
      [.ret [.call (.id "append") [.id "xdrD1", .id y] false]]⟩))
    (hy : ("xdrD1" == y) = false) (hy' : ("append" == y) = false) (ht : genProg.zero "main" ty = some .nil)
    (hu : genProg.zero "main" u = some z) (hz : ∀ w, coerce z w = w) :
    Makes fl grow loops (.node m (.cons t ts)) (.slice fun H n vs => ∃ l w, vs = l ++ [w] ∧ P H n l ∧ Q w H n) := by
  intro st r h0
  rcases h0.node hm with ⟨e, rfl, g0⟩ | ⟨us, st3, st4, g0, c, hl⟩
  · cases g0 with
    | head a => obtain ⟨_, _, e, _⟩ := h _ _ a; cases e
    | tail a b => obtain ⟨_, _, e, _⟩ := h' _ _ b; cases e
  cases g0 with
  | @cons _ _ _ _ st1 _ _ p q =>
    obtain ⟨v, _, e, h2, h3, h4⟩ := h _ _ p
    cases e
    obtain ⟨vs, st2, e, h2', h3', h4'⟩ := h' _ _ q
    cases e
    cases h4' with
    | cons hw r => cases r with
      | nil =>
        rename_i w
        have h4 : BuiltList st.next st1 v P := h4
        have hw : Built st1.next st4 (Q w) := Built.over hw c.over
        obtain ⟨v', st5, h5, h6, h7, h8, h9, h10⟩ := act_append (fl := fl) (grow := grow) (loops := loops) (w := w) hf hy hy' ht hu hz
          h3.next h4 (h3'.trans c.over) hw
        rw [ha] at hl
        obtain rfl := hl.eq h5
        refine ⟨v', st5, rfl, h6.trans (c.world.trans (h2'.trans h2)), ⟨?_, fun j hj => ?_, ?_⟩, ?_⟩
        · exact Nat.le_trans (Nat.le_trans (Nat.le_trans h3.next h3'.next) c.over.next) h8
        · refine (h9 j hj).trans ((c.over.heap j ?_).trans ((h3'.heap j (Nat.lt_of_lt_of_le hj h3.next)).trans (h3.heap j hj)))
          exact Nat.lt_of_lt_of_le hj (Nat.le_trans h3.next h3'.next)
        · exact h7.trans (c.over.defers.trans (h3'.defers.trans h3.defers))
        · exact BuiltSlice.imp (Q := fun H n vs => ∃ l w, vs = l ++ [w] ∧ P H n l ∧ Q w H n) h10 fun H n vs ⟨l, e, a, b⟩ => ⟨l, w, e, a, b⟩

/-- A rule whose action makes a list of one element. -/
theorem Seq.lit {m : Nat} {ts : Trees} {Q : V → (Nat → V) → Nat → Prop}
    (h : Seq fl grow loops ts [.built Q]) (hm : xdrGrammar.acts m = true)
    {a : String} (ha : "xdrAct" ++ toString m = a) {y : String} {ty u : Ty} {z : V}
    (hf : genProg.find (.fn "main" a) = some ("main", ⟨none, a, [(y, u)], [("", .slice ty)], [.ret [.lit (.slice ty) [""] [.id y]]]⟩))
    (ht : genProg.zero "main" (.slice ty) = some .nil) (hu : genProg.zero "main" u = some z) (hz : ∀ w, coerce z w = w) :
    Makes fl grow loops (.node m ts) (.slice fun H n vs => ∃ w, vs = [w] ∧ Q w H n) := by
  intro st r h0
  rcases h0.node hm with ⟨e, rfl, g0⟩ | ⟨us, st1, st2, g0, c, hl⟩
  · obtain ⟨_, _, e, _⟩ := h _ _ g0; cases e
  obtain ⟨vs, _, e, h2, h3, h4⟩ := h _ _ g0
  cases e
  cases h4 with
  | cons hw r => cases r with
    | nil =>
      rename_i w
      have hw : Built st.next st2 (Q w) := Built.over hw c.over
      obtain ⟨v', st3, h5, h6, h7, h8⟩ := act_lit (fl := fl) (grow := grow) (loops := loops) (w := w) hf ht hu hz (h3.trans c.over).next hw
      rw [ha] at hl
      obtain rfl := hl.eq h5
      exact ⟨v', st3, rfl, h6.trans (c.world.trans h2), (h3.trans c.over).trans h7,
        BuiltSlice.imp (Q := fun H n vs => ∃ w, vs = [w] ∧ Q w H n) h8 fun H n vs ⟨e, a⟩ => ⟨w, e, a⟩⟩

theorem PrintsOut.before {ws : Option Writes} {st st1 : St Log} {r : Except (Stop × St Log) (List V × St Log)} (h : PrintsOut ws st1 r)
    (hw : st1.world = st.world) (o : Over st st1) : PrintsOut ws st r := by
  unfold PrintsOut at h ⊢
  cases ws with
  | none => exact h
  | some ws =>
    obtain ⟨l, st', e, h1, h2, h3⟩ := h
    exact ⟨l, st', e, hw ▸ h1, h2, o.trans h3⟩

/-- A rule whose action prints. -/
theorem Seq.emit {m : Nat} {ts : Trees} {Qs : List VPost} (hfl : ∀ c ∈ fl.constType.toList, c.toNat < 128)
    (h : Seq fl grow loops ts Qs) (hm : xdrGrammar.acts m = true) {a : String} (ha : "xdrAct" ++ toString m = a) {d : Defn}
    (hr : ∀ lo st vs, All2 (fun v (Q : VPost) => Q.pred lo st v) vs Qs →
      ∃ f args, (∀ k, runOut fl.unsignedEnum (strBytes fl.constType) st.heap st.next (k + 1) a vs =
        runOut fl.unsignedEnum (strBytes fl.constType) st.heap st.next k f args >>= fun _ => pure []) ∧
        IsDefn st.heap st.next d f args) :
    Emits fl grow loops (wDefn fl d) (.node m ts) := by
  intro st r h0
  rcases h0.node hm with ⟨e, rfl, g0⟩ | ⟨vs, st1, st2, g0, c, hl⟩
  · obtain ⟨_, _, e, _⟩ := h _ _ g0; cases e
  obtain ⟨_, _, e, h2, h3, h4⟩ := h _ _ g0
  cases e
  obtain ⟨f, args, hv, hR⟩ := hr _ _ _ (VPost.calm h4 c)
  obtain ⟨K', r', h5, h6⟩ := act_emit (grow := grow) (loops := loops) hfl hR hv
  rw [ha] at hl
  obtain rfl := hl.eq h5
  exact h6.before (c.world.trans h2) (h3.trans c.over)
end

/-! ### What the symbols derive and their values -/

section
variable (fl : Flags) (grow : Nat → Nat → Nat) (loops : Nat)

/-- The default of a union. -/
def IsDflt (H : Nat → V) (n : Nat) : Option Decl → V → Prop
  | none, v => v = .nil
  | some d, v => IsDecl H n d v

/-- `unionCaseDecl` (out.go:356-359). -/
def IsCaseV (H : Nat → V) (n : Nat) (c : Val × List Val × Decl) (v : V) : Prop :=
  ∃ s ls w, IsSlice H n s (ls.map .str) ∧ All2 IsVal (c.1 :: c.2.1) ls ∧ IsDecl H n c.2.2 w ∧
    v = .struct "main.unionCaseDecl" [("cases", .slice s), ("body", w)]

/-- A value as a string. -/
def IsStr (x : Val) (v : V) : Prop := ∃ b, v = .str b ∧ IsVal x b

theorem isDecls_of {H : Nat → V} {n : Nat} {l : List Decl} {vs : List V} (h : All2 (IsDecl H n) l vs) : IsDecls H n (decls l) vs := by
  induction h with
  | nil => unfold decls IsDecls; rfl
  | cons h _ ih => unfold decls IsDecls; exact ⟨_, _, h, ih, rfl⟩

theorem isCases_of {H : Nat → V} {n : Nat} {d : Option Decl} {df : V} (hd : IsDflt H n d df) {l : List (Val × List Val × Decl)}
    {vs : List V} (h : All2 (IsCaseV H n) l vs) : IsCases H n (cases l d) vs df := by
  induction h with
  | nil =>
    cases d with
    | none => unfold cases IsCases; exact ⟨rfl, hd⟩
    | some d => unfold cases IsCases; exact ⟨rfl, hd⟩
  | @cons c v _ _ h _ ih =>
    obtain ⟨x, y, b⟩ := c
    obtain ⟨s, ls, w, h1, h2, h3, rfl⟩ := h
    unfold cases IsCases
    exact ⟨s, ls, w, _, h1, h2, h3, ih, rfl⟩

theorem strs_of {l : List Val} {vs : List V} (h : All2 IsStr l vs) : ∃ ls : List (List UInt8), vs = ls.map .str ∧ All2 IsVal l ls := by
  induction h with
  | nil => exact ⟨[], rfl, .nil⟩
  | cons h _ ih =>
    obtain ⟨b, rfl, h⟩ := h
    obtain ⟨ls, rfl, h'⟩ := ih
    exact ⟨b :: ls, rfl, .cons h h'⟩

/-- A string. -/
def strPost (P : List UInt8 → Prop) : VPost := .val fun v => ∃ b, v = .str b ∧ P b

/-- A derivation of a symbol: what the tokens are, and what running the actions makes of them. -/
def Means (s : String) (t : Tree) : Prop := ∀ ts, YToks ts t.yield →
  match s with
  | "spec" => ∃ x, DSpec ts x ∧ Emits fl grow loops (wSpec fl x) t
  | "defn" | "typedef" | "constdef" | "progdef" => ∃ x, DDefn ts x ∧ Emits fl grow loops (wDefn fl x) t
  | "decl" => ∃ x, DDecl ts x ∧ Makes fl grow loops t (.built fun v H n => IsDecl H n x v)
  | "varlen" => ∃ x, DVarlen ts x ∧ Makes fl grow loops t (strPost (IsSize x))
  | "val" => ∃ x, DVal ts x ∧ Makes fl grow loops t (strPost (IsVal x))
  | "typespec" | "structtypespec" | "enumtypespec" | "uniontypespec" => ∃ x, DTypespec ts x ∧ Makes fl grow loops t (.built fun v H n => IsTypespec H n x v)
  | "maybeunsig" => ∃ x, DMaybeunsig ts x ∧ Makes fl grow loops t (.val fun v => v = .bool x)
  | "enumbody" => ∃ x, DEnumbody ts x ∧ Makes fl grow loops t (.list fun _ _ vs => All2 IsItem x vs)
  | "enumitems" => ∃ x, DEnumitems ts x ∧ Makes fl grow loops t (.list fun _ _ vs => All2 IsItem x vs)
  | "enumitem" => ∃ x, DEnumitem ts x ∧ Makes fl grow loops t (.val fun v => IsItem x v)
  | "structbody" => ∃ x, DStructbody ts x ∧ Makes fl grow loops t (.list fun H n vs => All2 (IsDecl H n) x vs)
  | "structdecls" => ∃ x, DStructdecls ts x ∧ Makes fl grow loops t (.list fun H n vs => All2 (IsDecl H n) x vs)
  | "unionbody" => ∃ d x, DUnionbody ts d x ∧ Makes fl grow loops t (.built fun v H n => IsTypespec H n (.union d x) v)
  | "unioncasesdef" => ∃ x, DUnioncasesdef ts x ∧ Makes fl grow loops t (.built fun v H n => ∃ s vs df, IsList H n s vs ∧
      IsCases H n x vs df ∧ v = .struct "main.unionCasesDef" [("cases", s), ("def", df)])
  | "unioncases" => ∃ x, DUnioncases ts x ∧ Makes fl grow loops t (.list fun H n vs => All2 (IsCaseV H n) x vs)
  | "unioncase" => ∃ us w x y d, ts = us ++ w ++ [.semi] ∧ DCaselist us x y ∧ DDecl w d ∧
      Makes fl grow loops t (.built fun v H n => IsCaseV H n (x, y, d) v)
  | "caselist" => ∃ x y, DCaselist ts x y ∧ Makes fl grow loops t (.slice fun _ _ vs => All2 IsStr (x :: y) vs)
  | "progvers" => ∃ x, DProgvers ts x ∧ Makes fl grow loops t (.list fun H n vs => All2 (IsVer H n) x vs)
  | "progver" => ∃ x, DProgver ts x ∧ Makes fl grow loops t (.built fun v H n => IsVer H n x v)
  | "progcalls" => ∃ x, DProgcalls ts x ∧ Makes fl grow loops t (.list fun H n vs => All2 (IsCall H n) x vs)
  | "progcall" => ∃ x, DProgcall ts x ∧ Makes fl grow loops t (.built fun v H n => IsCall H n x v)
  | "typespecopt" => ∃ x, DTypespecopt ts x ∧ Makes fl grow loops t (.built fun v H n => IsOpt H n x v)
  | "IDENT" => ∃ x, ts = [.ident x] ∧ Makes fl grow loops t (strPost (Name x))
  | "CONST" => ∃ x, ts = [.const x] ∧ Makes fl grow loops t (strPost fun b => isLit (b.map UInt8.toNat) x = true)
  | s => ∃ x, ts = [x] ∧ tokSym x = s ∧ Quiet fl grow loops t
end

/-- Tokens without a text of interest. -/
def plainTok : XTok → Bool
  | .const _ => false
  | .ident _ => false
  | _ => true

theorem tokSym_inj {p q : XTok} (hp : plainTok p = true) (h : tokSym q = tokSym p) : q = p := by
  cases p <;> first | (cases hp; done) | (cases q <;> first | rfl | (exact absurd h (by simp [tokSym])))

section
variable {fl : Flags} {grow : Nat → Nat → Nat} {loops : Nat}

theorem Makes.weaken {t : Tree} {Q R : VPost} (h : Makes fl grow loops t Q) (hq : ∀ lo st v, Q.pred lo st v → R.pred lo st v) :
    Makes fl grow loops t R := by
  intro st r h0
  obtain ⟨v, st', h1, h2, h3, h4⟩ := h st r h0
  exact ⟨v, st', h1, h2, h3, hq _ _ _ h4⟩
end

def MeansAll (fl : Flags) (grow : Nat → Nat → Nat) (loops : Nat) : List String → Trees → Prop
  | [], .nil => True
  | s :: ss, .cons t ts => Means fl grow loops s t ∧ MeansAll fl grow loops ss ts
  | _, _ => False

macro "dlist" h:term : tactic => `(tactic|
  simpa only [List.append_assoc, List.cons_append, List.nil_append, List.append_nil, List.singleton_append] using $h)

section
variable {fl : Flags} {grow : Nat → Nat → Nat} {loops : Nat}

theorem meansAll_cons {s : String} {ss : List String} {ts : Trees} (h : MeansAll fl grow loops (s :: ss) ts) :
    ∃ t ts', ts = .cons t ts' ∧ Means fl grow loops s t ∧ MeansAll fl grow loops ss ts' := by
  cases ts with
  | nil => exact h.elim
  | cons t ts => exact ⟨t, ts, rfl, h.1, h.2⟩

theorem meansAll_nil {ts : Trees} (h : MeansAll fl grow loops [] ts) : ts = .nil := by
  cases ts with
  | nil => rfl
  | cons t ts => exact h.elim

theorem all2_cons {α β : Type} {P : α → β → Prop} {l : List α} {b : β} {bs : List β} (h : All2 P l (b :: bs)) :
    ∃ a as, l = a :: as ∧ P a b ∧ All2 P as bs := by
  cases h with
  | cons h r => exact ⟨_, _, rfl, h, r⟩

theorem all2_nil {α β : Type} {P : α → β → Prop} {l : List α} (h : All2 P l []) : l = [] := by
  cases h
  rfl

theorem slice_imp {lo : Nat} {st : St Log} {v : V} {P Q : (Nat → V) → Nat → List V → Prop} (h : (VPost.slice P).pred lo st v)
    (hq : ∀ H n vs, P H n vs → Q H n vs) : (VPost.slice Q).pred lo st v := BuiltSlice.imp (Q := Q) h hq

theorem rule6 {ts : Trees} (h : MeansAll fl grow loops ["typespec", "IDENT"] ts) : Means fl grow loops "decl" (.node 6 ts) := by
  obtain ⟨t1, ts, rfl, h1, h⟩ := meansAll_cons h
  obtain ⟨t2, ts, rfl, h2, h⟩ := meansAll_cons h
  obtain rfl := meansAll_nil h
  intro xs hx
  simp only [Tree.yield, Trees.yield] at hx
  obtain ⟨y1, xs, rfl, z1, hx⟩ := all2_append hx
  obtain ⟨y2, xs, rfl, z2, hx⟩ := all2_append hx
  cases hx
  obtain ⟨x1, D1, M1⟩ := h1 _ z1
  obtain ⟨x2, rfl, M2⟩ := h2 _ z2
  refine ⟨_, by dlist (DDecl.plain x2 D1), ?_⟩
  refine Seq.act (Seq.cons M1 (Seq.cons M2 Seq.nil)) rfl (a := "xdrAct6") rfl fun lo st vs h => ?_
  obtain ⟨w1, vs, rfl, a1, h⟩ := all2_cons h
  obtain ⟨w2, vs, rfl, a2, h⟩ := all2_cons h
  obtain rfl := all2_nil h
  obtain ⟨b2, rfl, n2⟩ := a2
  exact ⟨_, fun k => pact6 _ _ _ _ k _ _, Built.imp a1 fun H n h => by unfold IsDecl; exact ⟨_, _, by unfold IsDeclType; exact ⟨_, h, rfl⟩, n2, rfl⟩⟩

theorem rule7 {ts : Trees} (h : MeansAll fl grow loops ["typespec", "IDENT", "'['", "val", "']'"] ts) : Means fl grow loops "decl" (.node 7 ts) := by
  obtain ⟨t1, ts, rfl, h1, h⟩ := meansAll_cons h
  obtain ⟨t2, ts, rfl, h2, h⟩ := meansAll_cons h
  obtain ⟨t3, ts, rfl, h3, h⟩ := meansAll_cons h
  obtain ⟨t4, ts, rfl, h4, h⟩ := meansAll_cons h
  obtain ⟨t5, ts, rfl, h5, h⟩ := meansAll_cons h
  obtain rfl := meansAll_nil h
  intro xs hx
  simp only [Tree.yield, Trees.yield] at hx
  obtain ⟨y1, xs, rfl, z1, hx⟩ := all2_append hx
  obtain ⟨y2, xs, rfl, z2, hx⟩ := all2_append hx
  obtain ⟨y3, xs, rfl, z3, hx⟩ := all2_append hx
  obtain ⟨y4, xs, rfl, z4, hx⟩ := all2_append hx
  obtain ⟨y5, xs, rfl, z5, hx⟩ := all2_append hx
  cases hx
  obtain ⟨x1, D1, M1⟩ := h1 _ z1
  obtain ⟨x2, rfl, M2⟩ := h2 _ z2
  obtain ⟨q, rfl, e, Q3⟩ := h3 _ z3
  obtain rfl := tokSym_inj (p := .lbrack) rfl e
  obtain ⟨x4, D4, M4⟩ := h4 _ z4
  obtain ⟨q, rfl, e, Q5⟩ := h5 _ z5
  obtain rfl := tokSym_inj (p := .rbrack) rfl e
  refine ⟨_, by dlist (DDecl.array x2 D1 D4), ?_⟩
  refine Seq.act (Seq.cons M1 (Seq.cons M2 (Seq.quiet Q3 (Seq.cons M4 (Seq.quiet Q5 Seq.nil))))) rfl (a := "xdrAct7") rfl fun lo st vs h => ?_
  obtain ⟨w1, vs, rfl, a1, h⟩ := all2_cons h
  obtain ⟨w2, vs, rfl, a2, h⟩ := all2_cons h
  obtain ⟨w4, vs, rfl, a4, h⟩ := all2_cons h
  obtain rfl := all2_nil h
  obtain ⟨b2, rfl, n2⟩ := a2
  obtain ⟨b4, rfl, n4⟩ := a4
  exact ⟨_, fun k => pact7 _ _ _ _ k _ _ _, Built.imp a1 fun H n h => by unfold IsDecl; exact ⟨_, _, by unfold IsDeclType; exact ⟨_, _, h, n4, rfl⟩, n2, rfl⟩⟩

theorem rule8 {ts : Trees} (h : MeansAll fl grow loops ["typespec", "IDENT", "varlen"] ts) : Means fl grow loops "decl" (.node 8 ts) := by
  obtain ⟨t1, ts, rfl, h1, h⟩ := meansAll_cons h
  obtain ⟨t2, ts, rfl, h2, h⟩ := meansAll_cons h
  obtain ⟨t3, ts, rfl, h3, h⟩ := meansAll_cons h
  obtain rfl := meansAll_nil h
  intro xs hx
  simp only [Tree.yield, Trees.yield] at hx
  obtain ⟨y1, xs, rfl, z1, hx⟩ := all2_append hx
  obtain ⟨y2, xs, rfl, z2, hx⟩ := all2_append hx
  obtain ⟨y3, xs, rfl, z3, hx⟩ := all2_append hx
  cases hx
  obtain ⟨x1, D1, M1⟩ := h1 _ z1
  obtain ⟨x2, rfl, M2⟩ := h2 _ z2
  obtain ⟨x3, D3, M3⟩ := h3 _ z3
  refine ⟨_, by dlist (DDecl.varArray x2 D1 D3), ?_⟩
  refine Seq.act (Seq.cons M1 (Seq.cons M2 (Seq.cons M3 Seq.nil))) rfl (a := "xdrAct8") rfl fun lo st vs h => ?_
  obtain ⟨w1, vs, rfl, a1, h⟩ := all2_cons h
  obtain ⟨w2, vs, rfl, a2, h⟩ := all2_cons h
  obtain ⟨w3, vs, rfl, a3, h⟩ := all2_cons h
  obtain rfl := all2_nil h
  obtain ⟨b2, rfl, n2⟩ := a2
  obtain ⟨b3, rfl, n3⟩ := a3
  exact ⟨_, fun k => pact8 _ _ _ _ k _ _ _, Built.imp a1 fun H n h => by unfold IsDecl; exact ⟨_, _, by unfold IsDeclType; exact ⟨_, _, h, n3, rfl⟩, n2, rfl⟩⟩

theorem rule9 {ts : Trees} (h : MeansAll fl grow loops ["KWOPAQUE", "IDENT", "'['", "val", "']'"] ts) : Means fl grow loops "decl" (.node 9 ts) := by
  obtain ⟨t1, ts, rfl, h1, h⟩ := meansAll_cons h
  obtain ⟨t2, ts, rfl, h2, h⟩ := meansAll_cons h
  obtain ⟨t3, ts, rfl, h3, h⟩ := meansAll_cons h
  obtain ⟨t4, ts, rfl, h4, h⟩ := meansAll_cons h
  obtain ⟨t5, ts, rfl, h5, h⟩ := meansAll_cons h
  obtain rfl := meansAll_nil h
  intro xs hx
  simp only [Tree.yield, Trees.yield] at hx
  obtain ⟨y1, xs, rfl, z1, hx⟩ := all2_append hx
  obtain ⟨y2, xs, rfl, z2, hx⟩ := all2_append hx
  obtain ⟨y3, xs, rfl, z3, hx⟩ := all2_append hx
  obtain ⟨y4, xs, rfl, z4, hx⟩ := all2_append hx
  obtain ⟨y5, xs, rfl, z5, hx⟩ := all2_append hx
  cases hx
  obtain ⟨q, rfl, e, Q1⟩ := h1 _ z1
  obtain rfl := tokSym_inj (p := .kopaque) rfl e
  obtain ⟨x2, rfl, M2⟩ := h2 _ z2
  obtain ⟨q, rfl, e, Q3⟩ := h3 _ z3
  obtain rfl := tokSym_inj (p := .lbrack) rfl e
  obtain ⟨x4, D4, M4⟩ := h4 _ z4
  obtain ⟨q, rfl, e, Q5⟩ := h5 _ z5
  obtain rfl := tokSym_inj (p := .rbrack) rfl e
  refine ⟨_, by dlist (DDecl.opaqueArray x2 D4), ?_⟩
  refine Seq.act (Seq.quiet Q1 (Seq.cons M2 (Seq.quiet Q3 (Seq.cons M4 (Seq.quiet Q5 Seq.nil))))) rfl (a := "xdrAct9") rfl fun lo st vs h => ?_
  obtain ⟨w2, vs, rfl, a2, h⟩ := all2_cons h
  obtain ⟨w4, vs, rfl, a4, h⟩ := all2_cons h
  obtain rfl := all2_nil h
  obtain ⟨b2, rfl, n2⟩ := a2
  obtain ⟨b4, rfl, n4⟩ := a4
  exact ⟨_, fun k => pact9 _ _ _ _ k _ _, Built.pure fun H n => by unfold IsDecl; exact ⟨_, _, by unfold IsDeclType; exact ⟨_, n4, rfl⟩, n2, rfl⟩⟩

theorem rule10 {ts : Trees} (h : MeansAll fl grow loops ["KWOPAQUE", "IDENT", "varlen"] ts) : Means fl grow loops "decl" (.node 10 ts) := by
  obtain ⟨t1, ts, rfl, h1, h⟩ := meansAll_cons h
  obtain ⟨t2, ts, rfl, h2, h⟩ := meansAll_cons h
  obtain ⟨t3, ts, rfl, h3, h⟩ := meansAll_cons h
  obtain rfl := meansAll_nil h
  intro xs hx
  simp only [Tree.yield, Trees.yield] at hx
  obtain ⟨y1, xs, rfl, z1, hx⟩ := all2_append hx
  obtain ⟨y2, xs, rfl, z2, hx⟩ := all2_append hx
  obtain ⟨y3, xs, rfl, z3, hx⟩ := all2_append hx
  cases hx
  obtain ⟨q, rfl, e, Q1⟩ := h1 _ z1
  obtain rfl := tokSym_inj (p := .kopaque) rfl e
  obtain ⟨x2, rfl, M2⟩ := h2 _ z2
  obtain ⟨x3, D3, M3⟩ := h3 _ z3
  refine ⟨_, by dlist (DDecl.opaqueVarArray x2 D3), ?_⟩
  refine Seq.act (Seq.quiet Q1 (Seq.cons M2 (Seq.cons M3 Seq.nil))) rfl (a := "xdrAct10") rfl fun lo st vs h => ?_
  obtain ⟨w2, vs, rfl, a2, h⟩ := all2_cons h
  obtain ⟨w3, vs, rfl, a3, h⟩ := all2_cons h
  obtain rfl := all2_nil h
  obtain ⟨b2, rfl, n2⟩ := a2
  obtain ⟨b3, rfl, n3⟩ := a3
  exact ⟨_, fun k => pact10 _ _ _ _ k _ _, Built.pure fun H n => by unfold IsDecl; exact ⟨_, _, by unfold IsDeclType; exact ⟨_, n3, rfl⟩, n2, rfl⟩⟩

theorem rule11 {ts : Trees} (h : MeansAll fl grow loops ["KWSTRING", "IDENT", "varlen"] ts) : Means fl grow loops "decl" (.node 11 ts) := by
  obtain ⟨t1, ts, rfl, h1, h⟩ := meansAll_cons h
  obtain ⟨t2, ts, rfl, h2, h⟩ := meansAll_cons h
  obtain ⟨t3, ts, rfl, h3, h⟩ := meansAll_cons h
  obtain rfl := meansAll_nil h
  intro xs hx
  simp only [Tree.yield, Trees.yield] at hx
  obtain ⟨y1, xs, rfl, z1, hx⟩ := all2_append hx
  obtain ⟨y2, xs, rfl, z2, hx⟩ := all2_append hx
  obtain ⟨y3, xs, rfl, z3, hx⟩ := all2_append hx
  cases hx
  obtain ⟨q, rfl, e, Q1⟩ := h1 _ z1
  obtain rfl := tokSym_inj (p := .kstring) rfl e
  obtain ⟨x2, rfl, M2⟩ := h2 _ z2
  obtain ⟨x3, D3, M3⟩ := h3 _ z3
  refine ⟨_, by dlist (DDecl.string x2 D3), ?_⟩
  refine Seq.act (Seq.quiet Q1 (Seq.cons M2 (Seq.cons M3 Seq.nil))) rfl (a := "xdrAct11") rfl fun lo st vs h => ?_
  obtain ⟨w2, vs, rfl, a2, h⟩ := all2_cons h
  obtain ⟨w3, vs, rfl, a3, h⟩ := all2_cons h
  obtain rfl := all2_nil h
  obtain ⟨b2, rfl, n2⟩ := a2
  obtain ⟨b3, rfl, n3⟩ := a3
  exact ⟨_, fun k => pact11 _ _ _ _ k _ _, Built.pure fun H n => by unfold IsDecl; exact ⟨_, _, by unfold IsDeclType; exact ⟨_, n3, rfl⟩, n2, rfl⟩⟩

theorem rule12 {ts : Trees} (h : MeansAll fl grow loops ["typespec", "'*'", "IDENT"] ts) : Means fl grow loops "decl" (.node 12 ts) := by
  obtain ⟨t1, ts, rfl, h1, h⟩ := meansAll_cons h
  obtain ⟨t2, ts, rfl, h2, h⟩ := meansAll_cons h
  obtain ⟨t3, ts, rfl, h3, h⟩ := meansAll_cons h
  obtain rfl := meansAll_nil h
  intro xs hx
  simp only [Tree.yield, Trees.yield] at hx
  obtain ⟨y1, xs, rfl, z1, hx⟩ := all2_append hx
  obtain ⟨y2, xs, rfl, z2, hx⟩ := all2_append hx
  obtain ⟨y3, xs, rfl, z3, hx⟩ := all2_append hx
  cases hx
  obtain ⟨x1, D1, M1⟩ := h1 _ z1
  obtain ⟨q, rfl, e, Q2⟩ := h2 _ z2
  obtain rfl := tokSym_inj (p := .star) rfl e
  obtain ⟨x3, rfl, M3⟩ := h3 _ z3
  refine ⟨_, by dlist (DDecl.ptr x3 D1), ?_⟩
  refine Seq.act (Seq.cons M1 (Seq.quiet Q2 (Seq.cons M3 Seq.nil))) rfl (a := "xdrAct12") rfl fun lo st vs h => ?_
  obtain ⟨w1, vs, rfl, a1, h⟩ := all2_cons h
  obtain ⟨w3, vs, rfl, a3, h⟩ := all2_cons h
  obtain rfl := all2_nil h
  obtain ⟨b3, rfl, n3⟩ := a3
  exact ⟨_, fun k => pact12 _ _ _ _ k _ _, Built.imp a1 fun H n h => by unfold IsDecl; exact ⟨_, _, by unfold IsDeclType; exact ⟨_, h, rfl⟩, n3, rfl⟩⟩

theorem rule13 {ts : Trees} (h : MeansAll fl grow loops ["KWVOID"] ts) : Means fl grow loops "decl" (.node 13 ts) := by
  obtain ⟨t1, ts, rfl, h1, h⟩ := meansAll_cons h
  obtain rfl := meansAll_nil h
  intro xs hx
  simp only [Tree.yield, Trees.yield] at hx
  obtain ⟨y1, xs, rfl, z1, hx⟩ := all2_append hx
  cases hx
  obtain ⟨q, rfl, e, Q1⟩ := h1 _ z1
  obtain rfl := tokSym_inj (p := .kvoid) rfl e
  refine ⟨_, by dlist (DDecl.void), ?_⟩
  refine Seq.act (Seq.quiet Q1 Seq.nil) rfl (a := "xdrAct13") rfl fun lo st vs h => ?_
  obtain rfl := all2_nil h
  exact ⟨_, fun k => pact13 _ _ _ _ k, Built.pure fun H n => by unfold IsDecl; rfl⟩

theorem rule14 {ts : Trees} (h : MeansAll fl grow loops ["'<'", "'>'"] ts) : Means fl grow loops "varlen" (.node 14 ts) := by
  obtain ⟨t1, ts, rfl, h1, h⟩ := meansAll_cons h
  obtain ⟨t2, ts, rfl, h2, h⟩ := meansAll_cons h
  obtain rfl := meansAll_nil h
  intro xs hx
  simp only [Tree.yield, Trees.yield] at hx
  obtain ⟨y1, xs, rfl, z1, hx⟩ := all2_append hx
  obtain ⟨y2, xs, rfl, z2, hx⟩ := all2_append hx
  cases hx
  obtain ⟨q, rfl, e, Q1⟩ := h1 _ z1
  obtain rfl := tokSym_inj (p := .lt) rfl e
  obtain ⟨q, rfl, e, Q2⟩ := h2 _ z2
  obtain rfl := tokSym_inj (p := .gt) rfl e
  refine ⟨_, by dlist (DVarlen.empty), ?_⟩
  refine Seq.act (Seq.quiet Q1 (Seq.quiet Q2 Seq.nil)) rfl (a := "xdrAct14") rfl fun lo st vs h => ?_
  obtain rfl := all2_nil h
  exact ⟨_, fun k => pact14 _ _ _ _ k, ⟨_, rfl, rfl⟩⟩

theorem rule15 {ts : Trees} (h : MeansAll fl grow loops ["'<'", "val", "'>'"] ts) : Means fl grow loops "varlen" (.node 15 ts) := by
  obtain ⟨t1, ts, rfl, h1, h⟩ := meansAll_cons h
  obtain ⟨t2, ts, rfl, h2, h⟩ := meansAll_cons h
  obtain ⟨t3, ts, rfl, h3, h⟩ := meansAll_cons h
  obtain rfl := meansAll_nil h
  intro xs hx
  simp only [Tree.yield, Trees.yield] at hx
  obtain ⟨y1, xs, rfl, z1, hx⟩ := all2_append hx
  obtain ⟨y2, xs, rfl, z2, hx⟩ := all2_append hx
  obtain ⟨y3, xs, rfl, z3, hx⟩ := all2_append hx
  cases hx
  obtain ⟨q, rfl, e, Q1⟩ := h1 _ z1
  obtain rfl := tokSym_inj (p := .lt) rfl e
  obtain ⟨x2, D2, M2⟩ := h2 _ z2
  obtain ⟨q, rfl, e, Q3⟩ := h3 _ z3
  obtain rfl := tokSym_inj (p := .gt) rfl e
  refine ⟨_, by dlist (DVarlen.val D2), ?_⟩
  refine Seq.act (Seq.quiet Q1 (Seq.cons M2 (Seq.quiet Q3 Seq.nil))) rfl (a := "xdrAct15") rfl fun lo st vs h => ?_
  obtain ⟨w2, vs, rfl, a2, h⟩ := all2_cons h
  obtain rfl := all2_nil h
  obtain ⟨b2, rfl, n2⟩ := a2
  exact ⟨_, fun k => pact15 _ _ _ _ k _, ⟨_, rfl, n2⟩⟩

theorem rule16 {ts : Trees} (h : MeansAll fl grow loops ["CONST"] ts) : Means fl grow loops "val" (.node 16 ts) := by
  obtain ⟨t1, ts, rfl, h1, h⟩ := meansAll_cons h
  obtain rfl := meansAll_nil h
  intro xs hx
  simp only [Tree.yield, Trees.yield] at hx
  obtain ⟨y1, xs, rfl, z1, hx⟩ := all2_append hx
  cases hx
  obtain ⟨x1, rfl, M1⟩ := h1 _ z1
  refine ⟨_, by dlist (DVal.const x1), ?_⟩
  refine Seq.act (Seq.cons M1 Seq.nil) rfl (a := "xdrAct16") rfl fun lo st vs h => ?_
  obtain ⟨w1, vs, rfl, a1, h⟩ := all2_cons h
  obtain rfl := all2_nil h
  obtain ⟨b1, rfl, n1⟩ := a1
  exact ⟨_, fun k => pact16 _ _ _ _ k _, ⟨_, rfl, n1⟩⟩

theorem rule17 {ts : Trees} (h : MeansAll fl grow loops ["IDENT"] ts) : Means fl grow loops "val" (.node 17 ts) := by
  obtain ⟨t1, ts, rfl, h1, h⟩ := meansAll_cons h
  obtain rfl := meansAll_nil h
  intro xs hx
  simp only [Tree.yield, Trees.yield] at hx
  obtain ⟨y1, xs, rfl, z1, hx⟩ := all2_append hx
  cases hx
  obtain ⟨x1, rfl, M1⟩ := h1 _ z1
  refine ⟨_, by dlist (DVal.ident x1), ?_⟩
  refine Seq.act (Seq.cons M1 Seq.nil) rfl (a := "xdrAct17") rfl fun lo st vs h => ?_
  obtain ⟨w1, vs, rfl, a1, h⟩ := all2_cons h
  obtain rfl := all2_nil h
  obtain ⟨b1, rfl, n1⟩ := a1
  exact ⟨_, fun k => pact17 _ _ _ _ k _, ⟨_, rfl, n1⟩⟩

theorem rule18 {ts : Trees} (h : MeansAll fl grow loops ["maybeunsig", "KWINT"] ts) : Means fl grow loops "typespec" (.node 18 ts) := by
  obtain ⟨t1, ts, rfl, h1, h⟩ := meansAll_cons h
  obtain ⟨t2, ts, rfl, h2, h⟩ := meansAll_cons h
  obtain rfl := meansAll_nil h
  intro xs hx
  simp only [Tree.yield, Trees.yield] at hx
  obtain ⟨y1, xs, rfl, z1, hx⟩ := all2_append hx
  obtain ⟨y2, xs, rfl, z2, hx⟩ := all2_append hx
  cases hx
  obtain ⟨x1, D1, M1⟩ := h1 _ z1
  obtain ⟨q, rfl, e, Q2⟩ := h2 _ z2
  obtain rfl := tokSym_inj (p := .kint) rfl e
  refine ⟨_, by dlist (DTypespec.int D1), ?_⟩
  refine Seq.act (Seq.cons M1 (Seq.quiet Q2 Seq.nil)) rfl (a := "xdrAct18") rfl fun lo st vs h => ?_
  obtain ⟨w1, vs, rfl, a1, h⟩ := all2_cons h
  obtain rfl := all2_nil h
  obtain rfl := a1
  exact ⟨_, fun k => pact18 _ _ _ _ k _, Built.pure fun H n => by unfold IsTypespec; rfl⟩

theorem rule19 {ts : Trees} (h : MeansAll fl grow loops ["maybeunsig", "KWHYPER"] ts) : Means fl grow loops "typespec" (.node 19 ts) := by
  obtain ⟨t1, ts, rfl, h1, h⟩ := meansAll_cons h
  obtain ⟨t2, ts, rfl, h2, h⟩ := meansAll_cons h
  obtain rfl := meansAll_nil h
  intro xs hx
  simp only [Tree.yield, Trees.yield] at hx
  obtain ⟨y1, xs, rfl, z1, hx⟩ := all2_append hx
  obtain ⟨y2, xs, rfl, z2, hx⟩ := all2_append hx
  cases hx
  obtain ⟨x1, D1, M1⟩ := h1 _ z1
  obtain ⟨q, rfl, e, Q2⟩ := h2 _ z2
  obtain rfl := tokSym_inj (p := .khyper) rfl e
  refine ⟨_, by dlist (DTypespec.hyper D1), ?_⟩
  refine Seq.act (Seq.cons M1 (Seq.quiet Q2 Seq.nil)) rfl (a := "xdrAct19") rfl fun lo st vs h => ?_
  obtain ⟨w1, vs, rfl, a1, h⟩ := all2_cons h
  obtain rfl := all2_nil h
  obtain rfl := a1
  exact ⟨_, fun k => pact19 _ _ _ _ k _, Built.pure fun H n => by unfold IsTypespec; rfl⟩

theorem rule20 {ts : Trees} (h : MeansAll fl grow loops ["KWFLOAT"] ts) : Means fl grow loops "typespec" (.node 20 ts) := by
  obtain ⟨t1, ts, rfl, h1, h⟩ := meansAll_cons h
  obtain rfl := meansAll_nil h
  intro xs hx
  simp only [Tree.yield, Trees.yield] at hx
  obtain ⟨y1, xs, rfl, z1, hx⟩ := all2_append hx
  cases hx
  obtain ⟨q, rfl, e, Q1⟩ := h1 _ z1
  obtain rfl := tokSym_inj (p := .kfloat) rfl e
  refine ⟨_, by dlist (DTypespec.float), ?_⟩
  refine Seq.act (Seq.quiet Q1 Seq.nil) rfl (a := "xdrAct20") rfl fun lo st vs h => ?_
  obtain rfl := all2_nil h
  exact ⟨_, fun k => pact20 _ _ _ _ k, Built.pure fun H n => by unfold IsTypespec; rfl⟩

theorem rule21 {ts : Trees} (h : MeansAll fl grow loops ["KWDOUBLE"] ts) : Means fl grow loops "typespec" (.node 21 ts) := by
  obtain ⟨t1, ts, rfl, h1, h⟩ := meansAll_cons h
  obtain rfl := meansAll_nil h
  intro xs hx
  simp only [Tree.yield, Trees.yield] at hx
  obtain ⟨y1, xs, rfl, z1, hx⟩ := all2_append hx
  cases hx
  obtain ⟨q, rfl, e, Q1⟩ := h1 _ z1
  obtain rfl := tokSym_inj (p := .kdouble) rfl e
  refine ⟨_, by dlist (DTypespec.double), ?_⟩
  refine Seq.act (Seq.quiet Q1 Seq.nil) rfl (a := "xdrAct21") rfl fun lo st vs h => ?_
  obtain rfl := all2_nil h
  exact ⟨_, fun k => pact21 _ _ _ _ k, Built.pure fun H n => by unfold IsTypespec; rfl⟩

theorem rule22 {ts : Trees} (h : MeansAll fl grow loops ["KWQUADRUPLE"] ts) : Means fl grow loops "typespec" (.node 22 ts) := by
  obtain ⟨t1, ts, rfl, h1, h⟩ := meansAll_cons h
  obtain rfl := meansAll_nil h
  intro xs hx
  simp only [Tree.yield, Trees.yield] at hx
  obtain ⟨y1, xs, rfl, z1, hx⟩ := all2_append hx
  cases hx
  obtain ⟨q, rfl, e, Q1⟩ := h1 _ z1
  obtain rfl := tokSym_inj (p := .kquadruple) rfl e
  refine ⟨_, by dlist (DTypespec.quadruple), ?_⟩
  refine Seq.act (Seq.quiet Q1 Seq.nil) rfl (a := "xdrAct22") rfl fun lo st vs h => ?_
  obtain rfl := all2_nil h
  exact ⟨_, fun k => pact22 _ _ _ _ k, Built.pure fun H n => by unfold IsTypespec; rfl⟩

theorem rule23 {ts : Trees} (h : MeansAll fl grow loops ["KWBOOL"] ts) : Means fl grow loops "typespec" (.node 23 ts) := by
  obtain ⟨t1, ts, rfl, h1, h⟩ := meansAll_cons h
  obtain rfl := meansAll_nil h
  intro xs hx
  simp only [Tree.yield, Trees.yield] at hx
  obtain ⟨y1, xs, rfl, z1, hx⟩ := all2_append hx
  cases hx
  obtain ⟨q, rfl, e, Q1⟩ := h1 _ z1
  obtain rfl := tokSym_inj (p := .kbool) rfl e
  refine ⟨_, by dlist (DTypespec.bool), ?_⟩
  refine Seq.act (Seq.quiet Q1 Seq.nil) rfl (a := "xdrAct23") rfl fun lo st vs h => ?_
  obtain rfl := all2_nil h
  exact ⟨_, fun k => pact23 _ _ _ _ k, Built.pure fun H n => by unfold IsTypespec; rfl⟩

theorem rule24 {ts : Trees} (h : MeansAll fl grow loops ["enumtypespec"] ts) : Means fl grow loops "typespec" (.node 24 ts) := by
  obtain ⟨t1, ts, rfl, h1, h⟩ := meansAll_cons h
  obtain rfl := meansAll_nil h
  intro xs hx
  simp only [Tree.yield, Trees.yield] at hx
  obtain ⟨y1, xs, rfl, z1, hx⟩ := all2_append hx
  cases hx
  obtain ⟨x1, D1, M1⟩ := h1 _ z1
  refine ⟨_, by dlist (D1), ?_⟩
  refine Seq.act (Seq.cons M1 Seq.nil) rfl (a := "xdrAct24") rfl fun lo st vs h => ?_
  obtain ⟨w1, vs, rfl, a1, h⟩ := all2_cons h
  obtain rfl := all2_nil h
  exact ⟨_, fun k => pact24 _ _ _ _ k _, a1⟩

theorem rule25 {ts : Trees} (h : MeansAll fl grow loops ["structtypespec"] ts) : Means fl grow loops "typespec" (.node 25 ts) := by
  obtain ⟨t1, ts, rfl, h1, h⟩ := meansAll_cons h
  obtain rfl := meansAll_nil h
  intro xs hx
  simp only [Tree.yield, Trees.yield] at hx
  obtain ⟨y1, xs, rfl, z1, hx⟩ := all2_append hx
  cases hx
  obtain ⟨x1, D1, M1⟩ := h1 _ z1
  refine ⟨_, by dlist (D1), ?_⟩
  refine Seq.act (Seq.cons M1 Seq.nil) rfl (a := "xdrAct25") rfl fun lo st vs h => ?_
  obtain ⟨w1, vs, rfl, a1, h⟩ := all2_cons h
  obtain rfl := all2_nil h
  exact ⟨_, fun k => pact25 _ _ _ _ k _, a1⟩

theorem rule26 {ts : Trees} (h : MeansAll fl grow loops ["uniontypespec"] ts) : Means fl grow loops "typespec" (.node 26 ts) := by
  obtain ⟨t1, ts, rfl, h1, h⟩ := meansAll_cons h
  obtain rfl := meansAll_nil h
  intro xs hx
  simp only [Tree.yield, Trees.yield] at hx
  obtain ⟨y1, xs, rfl, z1, hx⟩ := all2_append hx
  cases hx
  obtain ⟨x1, D1, M1⟩ := h1 _ z1
  refine ⟨_, by dlist (D1), ?_⟩
  refine Seq.act (Seq.cons M1 Seq.nil) rfl (a := "xdrAct26") rfl fun lo st vs h => ?_
  obtain ⟨w1, vs, rfl, a1, h⟩ := all2_cons h
  obtain rfl := all2_nil h
  exact ⟨_, fun k => pact26 _ _ _ _ k _, a1⟩

theorem rule27 {ts : Trees} (h : MeansAll fl grow loops ["IDENT"] ts) : Means fl grow loops "typespec" (.node 27 ts) := by
  obtain ⟨t1, ts, rfl, h1, h⟩ := meansAll_cons h
  obtain rfl := meansAll_nil h
  intro xs hx
  simp only [Tree.yield, Trees.yield] at hx
  obtain ⟨y1, xs, rfl, z1, hx⟩ := all2_append hx
  cases hx
  obtain ⟨x1, rfl, M1⟩ := h1 _ z1
  refine ⟨_, by dlist (DTypespec.ident x1), ?_⟩
  refine Seq.act (Seq.cons M1 Seq.nil) rfl (a := "xdrAct27") rfl fun lo st vs h => ?_
  obtain ⟨w1, vs, rfl, a1, h⟩ := all2_cons h
  obtain rfl := all2_nil h
  obtain ⟨b1, rfl, n1⟩ := a1
  exact ⟨_, fun k => pact27 _ _ _ _ k _, Built.pure fun H n => by unfold IsTypespec; exact ⟨_, n1, rfl⟩⟩

theorem rule28 {ts : Trees} (h : MeansAll fl grow loops [] ts) : Means fl grow loops "maybeunsig" (.node 28 ts) := by
  obtain rfl := meansAll_nil h
  intro xs hx
  simp only [Tree.yield, Trees.yield] at hx
  cases hx
  refine ⟨_, by dlist (DMaybeunsig.no), ?_⟩
  refine Seq.act Seq.nil rfl (a := "xdrAct28") rfl fun lo st vs h => ?_
  obtain rfl := all2_nil h
  exact ⟨_, fun k => pact28 _ _ _ _ k, rfl⟩

theorem rule29 {ts : Trees} (h : MeansAll fl grow loops ["KWUNSIGNED"] ts) : Means fl grow loops "maybeunsig" (.node 29 ts) := by
  obtain ⟨t1, ts, rfl, h1, h⟩ := meansAll_cons h
  obtain rfl := meansAll_nil h
  intro xs hx
  simp only [Tree.yield, Trees.yield] at hx
  obtain ⟨y1, xs, rfl, z1, hx⟩ := all2_append hx
  cases hx
  obtain ⟨q, rfl, e, Q1⟩ := h1 _ z1
  obtain rfl := tokSym_inj (p := .kunsigned) rfl e
  refine ⟨_, by dlist (DMaybeunsig.yes), ?_⟩
  refine Seq.act (Seq.quiet Q1 Seq.nil) rfl (a := "xdrAct29") rfl fun lo st vs h => ?_
  obtain rfl := all2_nil h
  exact ⟨_, fun k => pact29 _ _ _ _ k, rfl⟩

theorem rule30 {ts : Trees} (h : MeansAll fl grow loops ["KWENUM", "enumbody"] ts) : Means fl grow loops "enumtypespec" (.node 30 ts) := by
  obtain ⟨t1, ts, rfl, h1, h⟩ := meansAll_cons h
  obtain ⟨t2, ts, rfl, h2, h⟩ := meansAll_cons h
  obtain rfl := meansAll_nil h
  intro xs hx
  simp only [Tree.yield, Trees.yield] at hx
  obtain ⟨y1, xs, rfl, z1, hx⟩ := all2_append hx
  obtain ⟨y2, xs, rfl, z2, hx⟩ := all2_append hx
  cases hx
  obtain ⟨q, rfl, e, Q1⟩ := h1 _ z1
  obtain rfl := tokSym_inj (p := .kenum) rfl e
  obtain ⟨x2, D2, M2⟩ := h2 _ z2
  refine ⟨_, by dlist (DTypespec.enum D2), ?_⟩
  refine Seq.act (Seq.quiet Q1 (Seq.cons M2 Seq.nil)) rfl (a := "xdrAct30") rfl fun lo st vs h => ?_
  obtain ⟨w2, vs, rfl, a2, h⟩ := all2_cons h
  obtain rfl := all2_nil h
  exact ⟨_, fun k => pact30 _ _ _ _ k _, Built.imp (BuiltList.built a2) fun H n ⟨vs, hl, ha⟩ => by unfold IsTypespec; exact ⟨_, _, hl, ha, rfl⟩⟩

theorem rule31 {ts : Trees} (h : MeansAll fl grow loops ["'{'", "enumitems", "'}'"] ts) : Means fl grow loops "enumbody" (.node 31 ts) := by
  obtain ⟨t1, ts, rfl, h1, h⟩ := meansAll_cons h
  obtain ⟨t2, ts, rfl, h2, h⟩ := meansAll_cons h
  obtain ⟨t3, ts, rfl, h3, h⟩ := meansAll_cons h
  obtain rfl := meansAll_nil h
  intro xs hx
  simp only [Tree.yield, Trees.yield] at hx
  obtain ⟨y1, xs, rfl, z1, hx⟩ := all2_append hx
  obtain ⟨y2, xs, rfl, z2, hx⟩ := all2_append hx
  obtain ⟨y3, xs, rfl, z3, hx⟩ := all2_append hx
  cases hx
  obtain ⟨q, rfl, e, Q1⟩ := h1 _ z1
  obtain rfl := tokSym_inj (p := .lbrace) rfl e
  obtain ⟨x2, D2, M2⟩ := h2 _ z2
  obtain ⟨q, rfl, e, Q3⟩ := h3 _ z3
  obtain rfl := tokSym_inj (p := .rbrace) rfl e
  refine ⟨_, by dlist (DEnumbody.mk D2), ?_⟩
  refine Seq.act (Seq.quiet Q1 (Seq.cons M2 (Seq.quiet Q3 Seq.nil))) rfl (a := "xdrAct31") rfl fun lo st vs h => ?_
  obtain ⟨w2, vs, rfl, a2, h⟩ := all2_cons h
  obtain rfl := all2_nil h
  exact ⟨_, fun k => pact31 _ _ _ _ k _, a2⟩

theorem rule32 {ts : Trees} (h : MeansAll fl grow loops ["enumitem"] ts) : Means fl grow loops "enumitems" (.node 32 ts) := by
  obtain ⟨t1, ts, rfl, h1, h⟩ := meansAll_cons h
  obtain rfl := meansAll_nil h
  intro xs hx
  simp only [Tree.yield, Trees.yield] at hx
  obtain ⟨y1, xs, rfl, z1, hx⟩ := all2_append hx
  cases hx
  obtain ⟨x1, D1, M1⟩ := h1 _ z1
  refine ⟨_, by dlist (DEnumitems.one D1), ?_⟩
  refine Makes.weaken (Seq.lit (Seq.cons (Makes.weaken (R := .built fun w _ _ => IsItem x1 w) M1 fun _ _ _ h => Built.pure fun _ _ => h) Seq.nil) rfl rfl find_yacc_xdrAct32 zero_main_slice_enumItem zero_main_enumItem fun _ => rfl) fun lo st v h => ?_
  exact Or.inr (slice_imp h fun H n vs ⟨w, e, a⟩ => e ▸ All2.cons a .nil)

theorem rule33 {ts : Trees} (h : MeansAll fl grow loops ["enumitems", "','", "enumitem"] ts) : Means fl grow loops "enumitems" (.node 33 ts) := by
  obtain ⟨t1, ts, rfl, h1, h⟩ := meansAll_cons h
  obtain ⟨t2, ts, rfl, h2, h⟩ := meansAll_cons h
  obtain ⟨t3, ts, rfl, h3, h⟩ := meansAll_cons h
  obtain rfl := meansAll_nil h
  intro xs hx
  simp only [Tree.yield, Trees.yield] at hx
  obtain ⟨y1, xs, rfl, z1, hx⟩ := all2_append hx
  obtain ⟨y2, xs, rfl, z2, hx⟩ := all2_append hx
  obtain ⟨y3, xs, rfl, z3, hx⟩ := all2_append hx
  cases hx
  obtain ⟨x1, D1, M1⟩ := h1 _ z1
  obtain ⟨q, rfl, e, Q2⟩ := h2 _ z2
  obtain rfl := tokSym_inj (p := .comma) rfl e
  obtain ⟨x3, D3, M3⟩ := h3 _ z3
  refine ⟨_, by dlist (DEnumitems.more D1 D3), ?_⟩
  refine Makes.weaken (Seq.append M1 (Seq.quiet Q2 (Seq.cons (Makes.weaken (R := .built fun w _ _ => IsItem x3 w) M3 fun _ _ _ h => Built.pure fun _ _ => h) Seq.nil)) rfl rfl find_yacc_xdrAct33 (y := "xdrD3") (by decide) (by decide) zero_main_slice_enumItem zero_main_enumItem fun _ => rfl) fun lo st v h => ?_
  exact Or.inr (slice_imp h fun H n vs ⟨l, w, e, a, b⟩ => e ▸ All2.append a (.cons b .nil))

theorem rule34 {ts : Trees} (h : MeansAll fl grow loops ["IDENT", "'='", "val"] ts) : Means fl grow loops "enumitem" (.node 34 ts) := by
  obtain ⟨t1, ts, rfl, h1, h⟩ := meansAll_cons h
  obtain ⟨t2, ts, rfl, h2, h⟩ := meansAll_cons h
  obtain ⟨t3, ts, rfl, h3, h⟩ := meansAll_cons h
  obtain rfl := meansAll_nil h
  intro xs hx
  simp only [Tree.yield, Trees.yield] at hx
  obtain ⟨y1, xs, rfl, z1, hx⟩ := all2_append hx
  obtain ⟨y2, xs, rfl, z2, hx⟩ := all2_append hx
  obtain ⟨y3, xs, rfl, z3, hx⟩ := all2_append hx
  cases hx
  obtain ⟨x1, rfl, M1⟩ := h1 _ z1
  obtain ⟨q, rfl, e, Q2⟩ := h2 _ z2
  obtain rfl := tokSym_inj (p := .eq) rfl e
  obtain ⟨x3, D3, M3⟩ := h3 _ z3
  refine ⟨_, by dlist (DEnumitem.mk x1 D3), ?_⟩
  refine Seq.act (Seq.cons M1 (Seq.quiet Q2 (Seq.cons M3 Seq.nil))) rfl (a := "xdrAct34") rfl fun lo st vs h => ?_
  obtain ⟨w1, vs, rfl, a1, h⟩ := all2_cons h
  obtain ⟨w3, vs, rfl, a3, h⟩ := all2_cons h
  obtain rfl := all2_nil h
  obtain ⟨b1, rfl, n1⟩ := a1
  obtain ⟨b3, rfl, n3⟩ := a3
  exact ⟨_, fun k => pact34 _ _ _ _ k _ _, ⟨_, _, n1, n3, rfl⟩⟩

theorem rule35 {ts : Trees} (h : MeansAll fl grow loops ["KWSTRUCT", "structbody"] ts) : Means fl grow loops "structtypespec" (.node 35 ts) := by
  obtain ⟨t1, ts, rfl, h1, h⟩ := meansAll_cons h
  obtain ⟨t2, ts, rfl, h2, h⟩ := meansAll_cons h
  obtain rfl := meansAll_nil h
  intro xs hx
  simp only [Tree.yield, Trees.yield] at hx
  obtain ⟨y1, xs, rfl, z1, hx⟩ := all2_append hx
  obtain ⟨y2, xs, rfl, z2, hx⟩ := all2_append hx
  cases hx
  obtain ⟨q, rfl, e, Q1⟩ := h1 _ z1
  obtain rfl := tokSym_inj (p := .kstruct) rfl e
  obtain ⟨x2, D2, M2⟩ := h2 _ z2
  refine ⟨_, by dlist (DTypespec.struct D2), ?_⟩
  refine Seq.act (Seq.quiet Q1 (Seq.cons M2 Seq.nil)) rfl (a := "xdrAct35") rfl fun lo st vs h => ?_
  obtain ⟨w2, vs, rfl, a2, h⟩ := all2_cons h
  obtain rfl := all2_nil h
  exact ⟨_, fun k => pact35 _ _ _ _ k _, Built.imp (BuiltList.built a2) fun H n ⟨vs, hl, ha⟩ => by unfold IsTypespec; exact ⟨_, _, hl, isDecls_of ha, rfl⟩⟩

theorem rule36 {ts : Trees} (h : MeansAll fl grow loops ["'{'", "structdecls", "'}'"] ts) : Means fl grow loops "structbody" (.node 36 ts) := by
  obtain ⟨t1, ts, rfl, h1, h⟩ := meansAll_cons h
  obtain ⟨t2, ts, rfl, h2, h⟩ := meansAll_cons h
  obtain ⟨t3, ts, rfl, h3, h⟩ := meansAll_cons h
  obtain rfl := meansAll_nil h
  intro xs hx
  simp only [Tree.yield, Trees.yield] at hx
  obtain ⟨y1, xs, rfl, z1, hx⟩ := all2_append hx
  obtain ⟨y2, xs, rfl, z2, hx⟩ := all2_append hx
  obtain ⟨y3, xs, rfl, z3, hx⟩ := all2_append hx
  cases hx
  obtain ⟨q, rfl, e, Q1⟩ := h1 _ z1
  obtain rfl := tokSym_inj (p := .lbrace) rfl e
  obtain ⟨x2, D2, M2⟩ := h2 _ z2
  obtain ⟨q, rfl, e, Q3⟩ := h3 _ z3
  obtain rfl := tokSym_inj (p := .rbrace) rfl e
  refine ⟨_, by dlist (DStructbody.mk D2), ?_⟩
  refine Seq.act (Seq.quiet Q1 (Seq.cons M2 (Seq.quiet Q3 Seq.nil))) rfl (a := "xdrAct36") rfl fun lo st vs h => ?_
  obtain ⟨w2, vs, rfl, a2, h⟩ := all2_cons h
  obtain rfl := all2_nil h
  exact ⟨_, fun k => pact36 _ _ _ _ k _, a2⟩

theorem rule37 {ts : Trees} (h : MeansAll fl grow loops [] ts) : Means fl grow loops "structdecls" (.node 37 ts) := by
  obtain rfl := meansAll_nil h
  intro xs hx
  simp only [Tree.yield, Trees.yield] at hx
  cases hx
  refine ⟨_, by dlist (DStructdecls.nil), ?_⟩
  refine Seq.act Seq.nil rfl (a := "xdrAct37") rfl fun lo st vs h => ?_
  obtain rfl := all2_nil h
  exact ⟨_, fun k => pact37 _ _ _ _ k, Or.inl ⟨rfl, Built.pure fun H n => .nil⟩⟩

theorem rule38 {ts : Trees} (h : MeansAll fl grow loops ["structdecls", "decl", "';'"] ts) : Means fl grow loops "structdecls" (.node 38 ts) := by
  obtain ⟨t1, ts, rfl, h1, h⟩ := meansAll_cons h
  obtain ⟨t2, ts, rfl, h2, h⟩ := meansAll_cons h
  obtain ⟨t3, ts, rfl, h3, h⟩ := meansAll_cons h
  obtain rfl := meansAll_nil h
  intro xs hx
  simp only [Tree.yield, Trees.yield] at hx
  obtain ⟨y1, xs, rfl, z1, hx⟩ := all2_append hx
  obtain ⟨y2, xs, rfl, z2, hx⟩ := all2_append hx
  obtain ⟨y3, xs, rfl, z3, hx⟩ := all2_append hx
  cases hx
  obtain ⟨x1, D1, M1⟩ := h1 _ z1
  obtain ⟨x2, D2, M2⟩ := h2 _ z2
  obtain ⟨q, rfl, e, Q3⟩ := h3 _ z3
  obtain rfl := tokSym_inj (p := .semi) rfl e
  refine ⟨_, by dlist (DStructdecls.more D1 D2), ?_⟩
  refine Makes.weaken (Seq.append M1 (Seq.cons M2 (Seq.quiet Q3 Seq.nil)) rfl rfl find_yacc_xdrAct38 (y := "xdrD2") (by decide) (by decide) zero_main_slice_decl zero_main_decl fun _ => rfl) fun lo st v h => ?_
  exact Or.inr (slice_imp h fun H n vs ⟨l, w, e, a, b⟩ => e ▸ All2.append a (.cons b .nil))

theorem rule39 {ts : Trees} (h : MeansAll fl grow loops ["KWUNION", "unionbody"] ts) : Means fl grow loops "uniontypespec" (.node 39 ts) := by
  obtain ⟨t1, ts, rfl, h1, h⟩ := meansAll_cons h
  obtain ⟨t2, ts, rfl, h2, h⟩ := meansAll_cons h
  obtain rfl := meansAll_nil h
  intro xs hx
  simp only [Tree.yield, Trees.yield] at hx
  obtain ⟨y1, xs, rfl, z1, hx⟩ := all2_append hx
  obtain ⟨y2, xs, rfl, z2, hx⟩ := all2_append hx
  cases hx
  obtain ⟨q, rfl, e, Q1⟩ := h1 _ z1
  obtain rfl := tokSym_inj (p := .kunion) rfl e
  obtain ⟨x2, w2, D2, M2⟩ := h2 _ z2
  refine ⟨_, by dlist (DTypespec.union D2), ?_⟩
  refine Seq.act (Seq.quiet Q1 (Seq.cons M2 Seq.nil)) rfl (a := "xdrAct39") rfl fun lo st vs h => ?_
  obtain ⟨w2, vs, rfl, a2, h⟩ := all2_cons h
  obtain rfl := all2_nil h
  exact ⟨_, fun k => pact39 _ _ _ _ k _, a2⟩

theorem rule40 {ts : Trees} (h : MeansAll fl grow loops ["KWSWITCH", "'('", "decl", "')'", "'{'", "unioncasesdef", "'}'"] ts) : Means fl grow loops "unionbody" (.node 40 ts) := by
  obtain ⟨t1, ts, rfl, h1, h⟩ := meansAll_cons h
  obtain ⟨t2, ts, rfl, h2, h⟩ := meansAll_cons h
  obtain ⟨t3, ts, rfl, h3, h⟩ := meansAll_cons h
  obtain ⟨t4, ts, rfl, h4, h⟩ := meansAll_cons h
  obtain ⟨t5, ts, rfl, h5, h⟩ := meansAll_cons h
  obtain ⟨t6, ts, rfl, h6, h⟩ := meansAll_cons h
  obtain ⟨t7, ts, rfl, h7, h⟩ := meansAll_cons h
  obtain rfl := meansAll_nil h
  intro xs hx
  simp only [Tree.yield, Trees.yield] at hx
  obtain ⟨y1, xs, rfl, z1, hx⟩ := all2_append hx
  obtain ⟨y2, xs, rfl, z2, hx⟩ := all2_append hx
  obtain ⟨y3, xs, rfl, z3, hx⟩ := all2_append hx
  obtain ⟨y4, xs, rfl, z4, hx⟩ := all2_append hx
  obtain ⟨y5, xs, rfl, z5, hx⟩ := all2_append hx
  obtain ⟨y6, xs, rfl, z6, hx⟩ := all2_append hx
  obtain ⟨y7, xs, rfl, z7, hx⟩ := all2_append hx
  cases hx
  obtain ⟨q, rfl, e, Q1⟩ := h1 _ z1
  obtain rfl := tokSym_inj (p := .kswitch) rfl e
  obtain ⟨q, rfl, e, Q2⟩ := h2 _ z2
  obtain rfl := tokSym_inj (p := .lparen) rfl e
  obtain ⟨x3, D3, M3⟩ := h3 _ z3
  obtain ⟨q, rfl, e, Q4⟩ := h4 _ z4
  obtain rfl := tokSym_inj (p := .rparen) rfl e
  obtain ⟨q, rfl, e, Q5⟩ := h5 _ z5
  obtain rfl := tokSym_inj (p := .lbrace) rfl e
  obtain ⟨x6, D6, M6⟩ := h6 _ z6
  obtain ⟨q, rfl, e, Q7⟩ := h7 _ z7
  obtain rfl := tokSym_inj (p := .rbrace) rfl e
  refine ⟨_, _, by dlist (DUnionbody.mk D3 D6), ?_⟩
  refine Seq.act (Seq.quiet Q1 (Seq.quiet Q2 (Seq.cons M3 (Seq.quiet Q4 (Seq.quiet Q5 (Seq.cons M6 (Seq.quiet Q7 Seq.nil))))))) rfl (a := "xdrAct40") rfl fun lo st vs h => ?_
  obtain ⟨w3, vs, rfl, a3, h⟩ := all2_cons h
  obtain ⟨w6, vs, rfl, a6, h⟩ := all2_cons h
  obtain rfl := all2_nil h
  exact ⟨_, fun k => pact40 _ _ _ _ k _ _, Built.imp (Built.and a3 a6) fun H n ⟨hd, s, vs, df, hl, hc, e⟩ => by unfold IsTypespec; exact ⟨_, s, vs, df, hd, hl, hc, by rw [e]⟩⟩

theorem rule41 {ts : Trees} (h : MeansAll fl grow loops ["unioncases"] ts) : Means fl grow loops "unioncasesdef" (.node 41 ts) := by
  obtain ⟨t1, ts, rfl, h1, h⟩ := meansAll_cons h
  obtain rfl := meansAll_nil h
  intro xs hx
  simp only [Tree.yield, Trees.yield] at hx
  obtain ⟨y1, xs, rfl, z1, hx⟩ := all2_append hx
  cases hx
  obtain ⟨x1, D1, M1⟩ := h1 _ z1
  refine ⟨_, by dlist (DUnioncasesdef.nodef D1), ?_⟩
  refine Seq.act (Seq.cons M1 Seq.nil) rfl (a := "xdrAct41") rfl fun lo st vs h => ?_
  obtain ⟨w1, vs, rfl, a1, h⟩ := all2_cons h
  obtain rfl := all2_nil h
  exact ⟨_, fun k => pact41 _ _ _ _ k _, Built.imp (BuiltList.built a1) fun H n ⟨vs, hl, ha⟩ => ⟨_, _, _, hl, isCases_of (d := none) rfl ha, rfl⟩⟩

theorem rule42 {ts : Trees} (h : MeansAll fl grow loops ["unioncases", "KWDEFAULT", "':'", "decl", "';'"] ts) : Means fl grow loops "unioncasesdef" (.node 42 ts) := by
  obtain ⟨t1, ts, rfl, h1, h⟩ := meansAll_cons h
  obtain ⟨t2, ts, rfl, h2, h⟩ := meansAll_cons h
  obtain ⟨t3, ts, rfl, h3, h⟩ := meansAll_cons h
  obtain ⟨t4, ts, rfl, h4, h⟩ := meansAll_cons h
  obtain ⟨t5, ts, rfl, h5, h⟩ := meansAll_cons h
  obtain rfl := meansAll_nil h
  intro xs hx
  simp only [Tree.yield, Trees.yield] at hx
  obtain ⟨y1, xs, rfl, z1, hx⟩ := all2_append hx
  obtain ⟨y2, xs, rfl, z2, hx⟩ := all2_append hx
  obtain ⟨y3, xs, rfl, z3, hx⟩ := all2_append hx
  obtain ⟨y4, xs, rfl, z4, hx⟩ := all2_append hx
  obtain ⟨y5, xs, rfl, z5, hx⟩ := all2_append hx
  cases hx
  obtain ⟨x1, D1, M1⟩ := h1 _ z1
  obtain ⟨q, rfl, e, Q2⟩ := h2 _ z2
  obtain rfl := tokSym_inj (p := .kdefault) rfl e
  obtain ⟨q, rfl, e, Q3⟩ := h3 _ z3
  obtain rfl := tokSym_inj (p := .colon) rfl e
  obtain ⟨x4, D4, M4⟩ := h4 _ z4
  obtain ⟨q, rfl, e, Q5⟩ := h5 _ z5
  obtain rfl := tokSym_inj (p := .semi) rfl e
  refine ⟨_, by dlist (DUnioncasesdef.dflt D1 D4), ?_⟩
  refine Seq.act (Seq.cons M1 (Seq.quiet Q2 (Seq.quiet Q3 (Seq.cons M4 (Seq.quiet Q5 Seq.nil))))) rfl (a := "xdrAct42") rfl fun lo st vs h => ?_
  obtain ⟨w1, vs, rfl, a1, h⟩ := all2_cons h
  obtain ⟨w4, vs, rfl, a4, h⟩ := all2_cons h
  obtain rfl := all2_nil h
  exact ⟨_, fun k => pact42 _ _ _ _ k _ _, Built.imp (Built.and (BuiltList.built a1) a4) fun H n ⟨⟨vs, hl, ha⟩, hd⟩ => ⟨_, _, _, hl, isCases_of (d := some x4) hd ha, rfl⟩⟩

theorem rule43 {ts : Trees} (h : MeansAll fl grow loops [] ts) : Means fl grow loops "unioncases" (.node 43 ts) := by
  obtain rfl := meansAll_nil h
  intro xs hx
  simp only [Tree.yield, Trees.yield] at hx
  cases hx
  refine ⟨_, by dlist (DUnioncases.nil), ?_⟩
  refine Seq.act Seq.nil rfl (a := "xdrAct43") rfl fun lo st vs h => ?_
  obtain rfl := all2_nil h
  exact ⟨_, fun k => pact43 _ _ _ _ k, Or.inl ⟨rfl, Built.pure fun H n => .nil⟩⟩

theorem rule44 {ts : Trees} (h : MeansAll fl grow loops ["unioncases", "unioncase"] ts) : Means fl grow loops "unioncases" (.node 44 ts) := by
  obtain ⟨t1, ts, rfl, h1, h⟩ := meansAll_cons h
  obtain ⟨t2, ts, rfl, h2, h⟩ := meansAll_cons h
  obtain rfl := meansAll_nil h
  intro xs hx
  simp only [Tree.yield, Trees.yield] at hx
  obtain ⟨y1, xs, rfl, z1, hx⟩ := all2_append hx
  obtain ⟨y2, xs, rfl, z2, hx⟩ := all2_append hx
  cases hx
  obtain ⟨x1, D1, M1⟩ := h1 _ z1
  obtain ⟨u2, v2, x2, w2, d2, rfl, D2, E2, M2⟩ := h2 _ z2
  refine ⟨_, by dlist (DUnioncases.more D1 D2 E2), ?_⟩
  refine Makes.weaken (Seq.append M1 (Seq.cons M2 Seq.nil) rfl rfl find_yacc_xdrAct44 (y := "xdrD2") (by decide) (by decide) zero_main_slice_unionCaseDecl zero_main_unionCaseDecl fun _ => rfl) fun lo st v h => ?_
  exact Or.inr (slice_imp h fun H n vs ⟨l, w, e, a, b⟩ => e ▸ All2.append a (.cons b .nil))

theorem rule45 {ts : Trees} (h : MeansAll fl grow loops ["caselist", "decl", "';'"] ts) : Means fl grow loops "unioncase" (.node 45 ts) := by
  obtain ⟨t1, ts, rfl, h1, h⟩ := meansAll_cons h
  obtain ⟨t2, ts, rfl, h2, h⟩ := meansAll_cons h
  obtain ⟨t3, ts, rfl, h3, h⟩ := meansAll_cons h
  obtain rfl := meansAll_nil h
  intro xs hx
  simp only [Tree.yield, Trees.yield] at hx
  obtain ⟨y1, xs, rfl, z1, hx⟩ := all2_append hx
  obtain ⟨y2, xs, rfl, z2, hx⟩ := all2_append hx
  obtain ⟨y3, xs, rfl, z3, hx⟩ := all2_append hx
  cases hx
  obtain ⟨x1, w1, D1, M1⟩ := h1 _ z1
  obtain ⟨x2, D2, M2⟩ := h2 _ z2
  obtain ⟨q, rfl, e, Q3⟩ := h3 _ z3
  obtain rfl := tokSym_inj (p := .semi) rfl e
  refine ⟨_, _, _, _, _, ?_, D1, D2, ?_⟩
  · dlist rfl
  · refine Seq.act (Seq.cons M1 (Seq.cons M2 (Seq.quiet Q3 Seq.nil))) rfl (a := "xdrAct45") rfl fun lo st vs h => ?_
    obtain ⟨w1, vs, rfl, a1, h⟩ := all2_cons h
    obtain ⟨w2, vs, rfl, a2, h⟩ := all2_cons h
    obtain rfl := all2_nil h
    exact ⟨_, fun k => pact45 _ _ _ _ k _ _, Built.imp (Built.and (BuiltSlice.built a1) a2) fun H n ⟨⟨s, vs, e, hs, ha⟩, hd⟩ => by
        obtain ⟨ls, rfl, hv⟩ := strs_of ha
        exact ⟨s, ls, _, hs, hv, hd, by rw [e]⟩⟩

theorem rule46 {ts : Trees} (h : MeansAll fl grow loops ["KWCASE", "val", "':'"] ts) : Means fl grow loops "caselist" (.node 46 ts) := by
  obtain ⟨t1, ts, rfl, h1, h⟩ := meansAll_cons h
  obtain ⟨t2, ts, rfl, h2, h⟩ := meansAll_cons h
  obtain ⟨t3, ts, rfl, h3, h⟩ := meansAll_cons h
  obtain rfl := meansAll_nil h
  intro xs hx
  simp only [Tree.yield, Trees.yield] at hx
  obtain ⟨y1, xs, rfl, z1, hx⟩ := all2_append hx
  obtain ⟨y2, xs, rfl, z2, hx⟩ := all2_append hx
  obtain ⟨y3, xs, rfl, z3, hx⟩ := all2_append hx
  cases hx
  obtain ⟨q, rfl, e, Q1⟩ := h1 _ z1
  obtain rfl := tokSym_inj (p := .kcase) rfl e
  obtain ⟨x2, D2, M2⟩ := h2 _ z2
  obtain ⟨q, rfl, e, Q3⟩ := h3 _ z3
  obtain rfl := tokSym_inj (p := .colon) rfl e
  refine ⟨_, _, by dlist (DCaselist.one D2), ?_⟩
  refine Makes.weaken (Seq.lit (Seq.quiet Q1 (Seq.cons (Makes.weaken (R := .built fun w _ _ => IsStr x2 w) M2 fun _ _ _ h => Built.pure fun _ _ => h) (Seq.quiet Q3 Seq.nil))) rfl rfl find_yacc_xdrAct46 zero_main_slice_string zero_main_string fun _ => rfl) fun lo st v h => ?_
  exact slice_imp h fun H n vs ⟨w, e, a⟩ => e ▸ All2.cons a .nil

theorem rule47 {ts : Trees} (h : MeansAll fl grow loops ["caselist", "KWCASE", "val", "':'"] ts) : Means fl grow loops "caselist" (.node 47 ts) := by
  obtain ⟨t1, ts, rfl, h1, h⟩ := meansAll_cons h
  obtain ⟨t2, ts, rfl, h2, h⟩ := meansAll_cons h
  obtain ⟨t3, ts, rfl, h3, h⟩ := meansAll_cons h
  obtain ⟨t4, ts, rfl, h4, h⟩ := meansAll_cons h
  obtain rfl := meansAll_nil h
  intro xs hx
  simp only [Tree.yield, Trees.yield] at hx
  obtain ⟨y1, xs, rfl, z1, hx⟩ := all2_append hx
  obtain ⟨y2, xs, rfl, z2, hx⟩ := all2_append hx
  obtain ⟨y3, xs, rfl, z3, hx⟩ := all2_append hx
  obtain ⟨y4, xs, rfl, z4, hx⟩ := all2_append hx
  cases hx
  obtain ⟨x1, w1, D1, M1⟩ := h1 _ z1
  obtain ⟨q, rfl, e, Q2⟩ := h2 _ z2
  obtain rfl := tokSym_inj (p := .kcase) rfl e
  obtain ⟨x3, D3, M3⟩ := h3 _ z3
  obtain ⟨q, rfl, e, Q4⟩ := h4 _ z4
  obtain rfl := tokSym_inj (p := .colon) rfl e
  refine ⟨_, _, by dlist (DCaselist.more D1 D3), ?_⟩
  refine Makes.weaken (Seq.append (M1.weaken fun _ _ _ h => Or.inr h) (Seq.quiet Q2 (Seq.cons (Makes.weaken (R := .built fun w _ _ => IsStr x3 w) M3 fun _ _ _ h => Built.pure fun _ _ => h) (Seq.quiet Q4 Seq.nil))) rfl rfl find_yacc_xdrAct47 (y := "xdrD3") (by decide) (by decide) zero_main_slice_string zero_main_string fun _ => rfl) fun lo st v h => ?_
  exact slice_imp h fun H n vs ⟨l, w, e, a, b⟩ => e ▸ All2.append a (.cons b .nil)

theorem rule48 (hfl : ∀ c ∈ fl.constType.toList, c.toNat < 128) {ts : Trees} (h : MeansAll fl grow loops ["KWCONST", "IDENT", "'='", "CONST", "';'"] ts) : Means fl grow loops "constdef" (.node 48 ts) := by
  obtain ⟨t1, ts, rfl, h1, h⟩ := meansAll_cons h
  obtain ⟨t2, ts, rfl, h2, h⟩ := meansAll_cons h
  obtain ⟨t3, ts, rfl, h3, h⟩ := meansAll_cons h
  obtain ⟨t4, ts, rfl, h4, h⟩ := meansAll_cons h
  obtain ⟨t5, ts, rfl, h5, h⟩ := meansAll_cons h
  obtain rfl := meansAll_nil h
  intro xs hx
  simp only [Tree.yield, Trees.yield] at hx
  obtain ⟨y1, xs, rfl, z1, hx⟩ := all2_append hx
  obtain ⟨y2, xs, rfl, z2, hx⟩ := all2_append hx
  obtain ⟨y3, xs, rfl, z3, hx⟩ := all2_append hx
  obtain ⟨y4, xs, rfl, z4, hx⟩ := all2_append hx
  obtain ⟨y5, xs, rfl, z5, hx⟩ := all2_append hx
  cases hx
  obtain ⟨q, rfl, e, Q1⟩ := h1 _ z1
  obtain rfl := tokSym_inj (p := .kconst) rfl e
  obtain ⟨x2, rfl, M2⟩ := h2 _ z2
  obtain ⟨q, rfl, e, Q3⟩ := h3 _ z3
  obtain rfl := tokSym_inj (p := .eq) rfl e
  obtain ⟨x4, rfl, M4⟩ := h4 _ z4
  obtain ⟨q, rfl, e, Q5⟩ := h5 _ z5
  obtain rfl := tokSym_inj (p := .semi) rfl e
  refine ⟨_, by dlist (DDefn.const x2 x4), ?_⟩
  refine Seq.emit hfl (Seq.quiet Q1 (Seq.cons M2 (Seq.quiet Q3 (Seq.cons M4 (Seq.quiet Q5 Seq.nil))))) rfl (a := "xdrAct48") rfl fun lo st vs h => ?_
  obtain ⟨w2, vs, rfl, a2, h⟩ := all2_cons h
  obtain ⟨w4, vs, rfl, a4, h⟩ := all2_cons h
  obtain rfl := all2_nil h
  obtain ⟨b2, rfl, n2⟩ := a2
  obtain ⟨b4, rfl, n4⟩ := a4
  exact ⟨_, _, fun k => pact48 _ _ _ _ k _ _, ⟨_, _, n2, n4, rfl, rfl⟩⟩

theorem rule49 (hfl : ∀ c ∈ fl.constType.toList, c.toNat < 128) {ts : Trees} (h : MeansAll fl grow loops ["KWTYPEDEF", "decl", "';'"] ts) : Means fl grow loops "typedef" (.node 49 ts) := by
  obtain ⟨t1, ts, rfl, h1, h⟩ := meansAll_cons h
  obtain ⟨t2, ts, rfl, h2, h⟩ := meansAll_cons h
  obtain ⟨t3, ts, rfl, h3, h⟩ := meansAll_cons h
  obtain rfl := meansAll_nil h
  intro xs hx
  simp only [Tree.yield, Trees.yield] at hx
  obtain ⟨y1, xs, rfl, z1, hx⟩ := all2_append hx
  obtain ⟨y2, xs, rfl, z2, hx⟩ := all2_append hx
  obtain ⟨y3, xs, rfl, z3, hx⟩ := all2_append hx
  cases hx
  obtain ⟨q, rfl, e, Q1⟩ := h1 _ z1
  obtain rfl := tokSym_inj (p := .ktypedef) rfl e
  obtain ⟨x2, D2, M2⟩ := h2 _ z2
  obtain ⟨q, rfl, e, Q3⟩ := h3 _ z3
  obtain rfl := tokSym_inj (p := .semi) rfl e
  refine ⟨_, by dlist (DDefn.typedef D2), ?_⟩
  refine Seq.emit hfl (Seq.quiet Q1 (Seq.cons M2 (Seq.quiet Q3 Seq.nil))) rfl (a := "xdrAct49") rfl fun lo st vs h => ?_
  obtain ⟨w2, vs, rfl, a2, h⟩ := all2_cons h
  obtain rfl := all2_nil h
  exact ⟨_, _, fun k => pact49 _ _ _ _ k _, ⟨_, Built.now a2, rfl, rfl⟩⟩

theorem rule50 (hfl : ∀ c ∈ fl.constType.toList, c.toNat < 128) {ts : Trees} (h : MeansAll fl grow loops ["KWENUM", "IDENT", "enumbody", "';'"] ts) : Means fl grow loops "typedef" (.node 50 ts) := by
  obtain ⟨t1, ts, rfl, h1, h⟩ := meansAll_cons h
  obtain ⟨t2, ts, rfl, h2, h⟩ := meansAll_cons h
  obtain ⟨t3, ts, rfl, h3, h⟩ := meansAll_cons h
  obtain ⟨t4, ts, rfl, h4, h⟩ := meansAll_cons h
  obtain rfl := meansAll_nil h
  intro xs hx
  simp only [Tree.yield, Trees.yield] at hx
  obtain ⟨y1, xs, rfl, z1, hx⟩ := all2_append hx
  obtain ⟨y2, xs, rfl, z2, hx⟩ := all2_append hx
  obtain ⟨y3, xs, rfl, z3, hx⟩ := all2_append hx
  obtain ⟨y4, xs, rfl, z4, hx⟩ := all2_append hx
  cases hx
  obtain ⟨q, rfl, e, Q1⟩ := h1 _ z1
  obtain rfl := tokSym_inj (p := .kenum) rfl e
  obtain ⟨x2, rfl, M2⟩ := h2 _ z2
  obtain ⟨x3, D3, M3⟩ := h3 _ z3
  obtain ⟨q, rfl, e, Q4⟩ := h4 _ z4
  obtain rfl := tokSym_inj (p := .semi) rfl e
  refine ⟨_, by dlist (DDefn.enum x2 D3), ?_⟩
  refine Seq.emit hfl (Seq.quiet Q1 (Seq.cons M2 (Seq.cons M3 (Seq.quiet Q4 Seq.nil)))) rfl (a := "xdrAct50") rfl fun lo st vs h => ?_
  obtain ⟨w2, vs, rfl, a2, h⟩ := all2_cons h
  obtain ⟨w3, vs, rfl, a3, h⟩ := all2_cons h
  obtain rfl := all2_nil h
  obtain ⟨b2, rfl, n2⟩ := a2
  exact ⟨_, _, fun k => pact50 _ _ _ _ k _ _, (Built.now (BuiltList.built a3)).elim fun vs ⟨hl, ha⟩ => ⟨_, _, _, n2, hl, ha, rfl, rfl⟩⟩

theorem rule51 (hfl : ∀ c ∈ fl.constType.toList, c.toNat < 128) {ts : Trees} (h : MeansAll fl grow loops ["KWSTRUCT", "IDENT", "structbody", "';'"] ts) : Means fl grow loops "typedef" (.node 51 ts) := by
  obtain ⟨t1, ts, rfl, h1, h⟩ := meansAll_cons h
  obtain ⟨t2, ts, rfl, h2, h⟩ := meansAll_cons h
  obtain ⟨t3, ts, rfl, h3, h⟩ := meansAll_cons h
  obtain ⟨t4, ts, rfl, h4, h⟩ := meansAll_cons h
  obtain rfl := meansAll_nil h
  intro xs hx
  simp only [Tree.yield, Trees.yield] at hx
  obtain ⟨y1, xs, rfl, z1, hx⟩ := all2_append hx
  obtain ⟨y2, xs, rfl, z2, hx⟩ := all2_append hx
  obtain ⟨y3, xs, rfl, z3, hx⟩ := all2_append hx
  obtain ⟨y4, xs, rfl, z4, hx⟩ := all2_append hx
  cases hx
  obtain ⟨q, rfl, e, Q1⟩ := h1 _ z1
  obtain rfl := tokSym_inj (p := .kstruct) rfl e
  obtain ⟨x2, rfl, M2⟩ := h2 _ z2
  obtain ⟨x3, D3, M3⟩ := h3 _ z3
  obtain ⟨q, rfl, e, Q4⟩ := h4 _ z4
  obtain rfl := tokSym_inj (p := .semi) rfl e
  refine ⟨_, by dlist (DDefn.struct x2 D3), ?_⟩
  refine Seq.emit hfl (Seq.quiet Q1 (Seq.cons M2 (Seq.cons M3 (Seq.quiet Q4 Seq.nil)))) rfl (a := "xdrAct51") rfl fun lo st vs h => ?_
  obtain ⟨w2, vs, rfl, a2, h⟩ := all2_cons h
  obtain ⟨w3, vs, rfl, a3, h⟩ := all2_cons h
  obtain rfl := all2_nil h
  obtain ⟨b2, rfl, n2⟩ := a2
  exact ⟨_, _, fun k => pact51 _ _ _ _ k _ _, (Built.now (BuiltList.built a3)).elim fun vs ⟨hl, ha⟩ => ⟨_, _, _, n2, hl, isDecls_of ha, rfl, rfl⟩⟩

theorem rule52 (hfl : ∀ c ∈ fl.constType.toList, c.toNat < 128) {ts : Trees} (h : MeansAll fl grow loops ["KWUNION", "IDENT", "unionbody", "';'"] ts) : Means fl grow loops "typedef" (.node 52 ts) := by
  obtain ⟨t1, ts, rfl, h1, h⟩ := meansAll_cons h
  obtain ⟨t2, ts, rfl, h2, h⟩ := meansAll_cons h
  obtain ⟨t3, ts, rfl, h3, h⟩ := meansAll_cons h
  obtain ⟨t4, ts, rfl, h4, h⟩ := meansAll_cons h
  obtain rfl := meansAll_nil h
  intro xs hx
  simp only [Tree.yield, Trees.yield] at hx
  obtain ⟨y1, xs, rfl, z1, hx⟩ := all2_append hx
  obtain ⟨y2, xs, rfl, z2, hx⟩ := all2_append hx
  obtain ⟨y3, xs, rfl, z3, hx⟩ := all2_append hx
  obtain ⟨y4, xs, rfl, z4, hx⟩ := all2_append hx
  cases hx
  obtain ⟨q, rfl, e, Q1⟩ := h1 _ z1
  obtain rfl := tokSym_inj (p := .kunion) rfl e
  obtain ⟨x2, rfl, M2⟩ := h2 _ z2
  obtain ⟨x3, w3, D3, M3⟩ := h3 _ z3
  obtain ⟨q, rfl, e, Q4⟩ := h4 _ z4
  obtain rfl := tokSym_inj (p := .semi) rfl e
  refine ⟨_, by dlist (DDefn.union x2 D3), ?_⟩
  refine Seq.emit hfl (Seq.quiet Q1 (Seq.cons M2 (Seq.cons M3 (Seq.quiet Q4 Seq.nil)))) rfl (a := "xdrAct52") rfl fun lo st vs h => ?_
  obtain ⟨w2, vs, rfl, a2, h⟩ := all2_cons h
  obtain ⟨w3, vs, rfl, a3, h⟩ := all2_cons h
  obtain rfl := all2_nil h
  obtain ⟨b2, rfl, n2⟩ := a2
  exact ⟨_, _, fun k => pact52 _ _ _ _ k _ _, ⟨_, _, n2, Built.now a3, rfl, rfl⟩⟩

theorem rule53 (hfl : ∀ c ∈ fl.constType.toList, c.toNat < 128) {ts : Trees} (h : MeansAll fl grow loops ["KWPROGRAM", "IDENT", "'{'", "progvers", "'}'", "'='", "CONST", "';'"] ts) : Means fl grow loops "progdef" (.node 53 ts) := by
  obtain ⟨t1, ts, rfl, h1, h⟩ := meansAll_cons h
  obtain ⟨t2, ts, rfl, h2, h⟩ := meansAll_cons h
  obtain ⟨t3, ts, rfl, h3, h⟩ := meansAll_cons h
  obtain ⟨t4, ts, rfl, h4, h⟩ := meansAll_cons h
  obtain ⟨t5, ts, rfl, h5, h⟩ := meansAll_cons h
  obtain ⟨t6, ts, rfl, h6, h⟩ := meansAll_cons h
  obtain ⟨t7, ts, rfl, h7, h⟩ := meansAll_cons h
  obtain ⟨t8, ts, rfl, h8, h⟩ := meansAll_cons h
  obtain rfl := meansAll_nil h
  intro xs hx
  simp only [Tree.yield, Trees.yield] at hx
  obtain ⟨y1, xs, rfl, z1, hx⟩ := all2_append hx
  obtain ⟨y2, xs, rfl, z2, hx⟩ := all2_append hx
  obtain ⟨y3, xs, rfl, z3, hx⟩ := all2_append hx
  obtain ⟨y4, xs, rfl, z4, hx⟩ := all2_append hx
  obtain ⟨y5, xs, rfl, z5, hx⟩ := all2_append hx
  obtain ⟨y6, xs, rfl, z6, hx⟩ := all2_append hx
  obtain ⟨y7, xs, rfl, z7, hx⟩ := all2_append hx
  obtain ⟨y8, xs, rfl, z8, hx⟩ := all2_append hx
  cases hx
  obtain ⟨q, rfl, e, Q1⟩ := h1 _ z1
  obtain rfl := tokSym_inj (p := .kprogram) rfl e
  obtain ⟨x2, rfl, M2⟩ := h2 _ z2
  obtain ⟨q, rfl, e, Q3⟩ := h3 _ z3
  obtain rfl := tokSym_inj (p := .lbrace) rfl e
  obtain ⟨x4, D4, M4⟩ := h4 _ z4
  obtain ⟨q, rfl, e, Q5⟩ := h5 _ z5
  obtain rfl := tokSym_inj (p := .rbrace) rfl e
  obtain ⟨q, rfl, e, Q6⟩ := h6 _ z6
  obtain rfl := tokSym_inj (p := .eq) rfl e
  obtain ⟨x7, rfl, M7⟩ := h7 _ z7
  obtain ⟨q, rfl, e, Q8⟩ := h8 _ z8
  obtain rfl := tokSym_inj (p := .semi) rfl e
  refine ⟨_, by dlist (DDefn.program x2 x7 D4), ?_⟩
  refine Seq.emit hfl (Seq.quiet Q1 (Seq.cons M2 (Seq.quiet Q3 (Seq.cons M4 (Seq.quiet Q5 (Seq.quiet Q6 (Seq.cons M7 (Seq.quiet Q8 Seq.nil)))))))) rfl (a := "xdrAct53") rfl fun lo st vs h => ?_
  obtain ⟨w2, vs, rfl, a2, h⟩ := all2_cons h
  obtain ⟨w4, vs, rfl, a4, h⟩ := all2_cons h
  obtain ⟨w7, vs, rfl, a7, h⟩ := all2_cons h
  obtain rfl := all2_nil h
  obtain ⟨b2, rfl, n2⟩ := a2
  obtain ⟨b7, rfl, n7⟩ := a7
  exact ⟨_, _, fun k => pact53 _ _ _ _ k _ _ _, (Built.now (BuiltList.built a4)).elim fun vs ⟨hl, ha⟩ => ⟨_, ⟨_, _, _, _, n2, hl, ha, n7, rfl⟩, rfl, rfl⟩⟩

theorem rule54 {ts : Trees} (h : MeansAll fl grow loops [] ts) : Means fl grow loops "progvers" (.node 54 ts) := by
  obtain rfl := meansAll_nil h
  intro xs hx
  simp only [Tree.yield, Trees.yield] at hx
  cases hx
  refine ⟨_, by dlist (DProgvers.nil), ?_⟩
  refine Seq.act Seq.nil rfl (a := "xdrAct54") rfl fun lo st vs h => ?_
  obtain rfl := all2_nil h
  exact ⟨_, fun k => pact54 _ _ _ _ k, Or.inl ⟨rfl, Built.pure fun H n => .nil⟩⟩

theorem rule55 {ts : Trees} (h : MeansAll fl grow loops ["progvers", "progver"] ts) : Means fl grow loops "progvers" (.node 55 ts) := by
  obtain ⟨t1, ts, rfl, h1, h⟩ := meansAll_cons h
  obtain ⟨t2, ts, rfl, h2, h⟩ := meansAll_cons h
  obtain rfl := meansAll_nil h
  intro xs hx
  simp only [Tree.yield, Trees.yield] at hx
  obtain ⟨y1, xs, rfl, z1, hx⟩ := all2_append hx
  obtain ⟨y2, xs, rfl, z2, hx⟩ := all2_append hx
  cases hx
  obtain ⟨x1, D1, M1⟩ := h1 _ z1
  obtain ⟨x2, D2, M2⟩ := h2 _ z2
  refine ⟨_, by dlist (DProgvers.more D1 D2), ?_⟩
  refine Makes.weaken (Seq.append M1 (Seq.cons M2 Seq.nil) rfl rfl find_yacc_xdrAct55 (y := "xdrD2") (by decide) (by decide) zero_main_slice_progVer zero_main_progVer fun _ => rfl) fun lo st v h => ?_
  exact Or.inr (slice_imp h fun H n vs ⟨l, w, e, a, b⟩ => e ▸ All2.append a (.cons b .nil))

theorem rule56 {ts : Trees} (h : MeansAll fl grow loops ["KWVERSION", "IDENT", "'{'", "progcalls", "'}'", "'='", "CONST", "';'"] ts) : Means fl grow loops "progver" (.node 56 ts) := by
  obtain ⟨t1, ts, rfl, h1, h⟩ := meansAll_cons h
  obtain ⟨t2, ts, rfl, h2, h⟩ := meansAll_cons h
  obtain ⟨t3, ts, rfl, h3, h⟩ := meansAll_cons h
  obtain ⟨t4, ts, rfl, h4, h⟩ := meansAll_cons h
  obtain ⟨t5, ts, rfl, h5, h⟩ := meansAll_cons h
  obtain ⟨t6, ts, rfl, h6, h⟩ := meansAll_cons h
  obtain ⟨t7, ts, rfl, h7, h⟩ := meansAll_cons h
  obtain ⟨t8, ts, rfl, h8, h⟩ := meansAll_cons h
  obtain rfl := meansAll_nil h
  intro xs hx
  simp only [Tree.yield, Trees.yield] at hx
  obtain ⟨y1, xs, rfl, z1, hx⟩ := all2_append hx
  obtain ⟨y2, xs, rfl, z2, hx⟩ := all2_append hx
  obtain ⟨y3, xs, rfl, z3, hx⟩ := all2_append hx
  obtain ⟨y4, xs, rfl, z4, hx⟩ := all2_append hx
  obtain ⟨y5, xs, rfl, z5, hx⟩ := all2_append hx
  obtain ⟨y6, xs, rfl, z6, hx⟩ := all2_append hx
  obtain ⟨y7, xs, rfl, z7, hx⟩ := all2_append hx
  obtain ⟨y8, xs, rfl, z8, hx⟩ := all2_append hx
  cases hx
  obtain ⟨q, rfl, e, Q1⟩ := h1 _ z1
  obtain rfl := tokSym_inj (p := .kversion) rfl e
  obtain ⟨x2, rfl, M2⟩ := h2 _ z2
  obtain ⟨q, rfl, e, Q3⟩ := h3 _ z3
  obtain rfl := tokSym_inj (p := .lbrace) rfl e
  obtain ⟨x4, D4, M4⟩ := h4 _ z4
  obtain ⟨q, rfl, e, Q5⟩ := h5 _ z5
  obtain rfl := tokSym_inj (p := .rbrace) rfl e
  obtain ⟨q, rfl, e, Q6⟩ := h6 _ z6
  obtain rfl := tokSym_inj (p := .eq) rfl e
  obtain ⟨x7, rfl, M7⟩ := h7 _ z7
  obtain ⟨q, rfl, e, Q8⟩ := h8 _ z8
  obtain rfl := tokSym_inj (p := .semi) rfl e
  refine ⟨_, by dlist (DProgver.mk x2 x7 D4), ?_⟩
  refine Seq.act (Seq.quiet Q1 (Seq.cons M2 (Seq.quiet Q3 (Seq.cons M4 (Seq.quiet Q5 (Seq.quiet Q6 (Seq.cons M7 (Seq.quiet Q8 Seq.nil)))))))) rfl (a := "xdrAct56") rfl fun lo st vs h => ?_
  obtain ⟨w2, vs, rfl, a2, h⟩ := all2_cons h
  obtain ⟨w4, vs, rfl, a4, h⟩ := all2_cons h
  obtain ⟨w7, vs, rfl, a7, h⟩ := all2_cons h
  obtain rfl := all2_nil h
  obtain ⟨b2, rfl, n2⟩ := a2
  obtain ⟨b7, rfl, n7⟩ := a7
  exact ⟨_, fun k => pact56 _ _ _ _ k _ _ _, Built.imp (BuiltList.built a4) fun H n ⟨vs, hl, ha⟩ => ⟨_, _, _, _, n2, hl, ha, n7, rfl⟩⟩

theorem rule57 {ts : Trees} (h : MeansAll fl grow loops [] ts) : Means fl grow loops "progcalls" (.node 57 ts) := by
  obtain rfl := meansAll_nil h
  intro xs hx
  simp only [Tree.yield, Trees.yield] at hx
  cases hx
  refine ⟨_, by dlist (DProgcalls.nil), ?_⟩
  refine Seq.act Seq.nil rfl (a := "xdrAct57") rfl fun lo st vs h => ?_
  obtain rfl := all2_nil h
  exact ⟨_, fun k => pact57 _ _ _ _ k, Or.inl ⟨rfl, Built.pure fun H n => .nil⟩⟩

theorem rule58 {ts : Trees} (h : MeansAll fl grow loops ["progcalls", "progcall"] ts) : Means fl grow loops "progcalls" (.node 58 ts) := by
  obtain ⟨t1, ts, rfl, h1, h⟩ := meansAll_cons h
  obtain ⟨t2, ts, rfl, h2, h⟩ := meansAll_cons h
  obtain rfl := meansAll_nil h
  intro xs hx
  simp only [Tree.yield, Trees.yield] at hx
  obtain ⟨y1, xs, rfl, z1, hx⟩ := all2_append hx
  obtain ⟨y2, xs, rfl, z2, hx⟩ := all2_append hx
  cases hx
  obtain ⟨x1, D1, M1⟩ := h1 _ z1
  obtain ⟨x2, D2, M2⟩ := h2 _ z2
  refine ⟨_, by dlist (DProgcalls.more D1 D2), ?_⟩
  refine Makes.weaken (Seq.append M1 (Seq.cons M2 Seq.nil) rfl rfl find_yacc_xdrAct58 (y := "xdrD2") (by decide) (by decide) zero_main_slice_progCall zero_main_progCall fun _ => rfl) fun lo st v h => ?_
  exact Or.inr (slice_imp h fun H n vs ⟨l, w, e, a, b⟩ => e ▸ All2.append a (.cons b .nil))

theorem rule59 {ts : Trees} (h : MeansAll fl grow loops ["typespecopt", "IDENT", "'('", "typespecopt", "')'", "'='", "CONST", "';'"] ts) : Means fl grow loops "progcall" (.node 59 ts) := by
  obtain ⟨t1, ts, rfl, h1, h⟩ := meansAll_cons h
  obtain ⟨t2, ts, rfl, h2, h⟩ := meansAll_cons h
  obtain ⟨t3, ts, rfl, h3, h⟩ := meansAll_cons h
  obtain ⟨t4, ts, rfl, h4, h⟩ := meansAll_cons h
  obtain ⟨t5, ts, rfl, h5, h⟩ := meansAll_cons h
  obtain ⟨t6, ts, rfl, h6, h⟩ := meansAll_cons h
  obtain ⟨t7, ts, rfl, h7, h⟩ := meansAll_cons h
  obtain ⟨t8, ts, rfl, h8, h⟩ := meansAll_cons h
  obtain rfl := meansAll_nil h
  intro xs hx
  simp only [Tree.yield, Trees.yield] at hx
  obtain ⟨y1, xs, rfl, z1, hx⟩ := all2_append hx
  obtain ⟨y2, xs, rfl, z2, hx⟩ := all2_append hx
  obtain ⟨y3, xs, rfl, z3, hx⟩ := all2_append hx
  obtain ⟨y4, xs, rfl, z4, hx⟩ := all2_append hx
  obtain ⟨y5, xs, rfl, z5, hx⟩ := all2_append hx
  obtain ⟨y6, xs, rfl, z6, hx⟩ := all2_append hx
  obtain ⟨y7, xs, rfl, z7, hx⟩ := all2_append hx
  obtain ⟨y8, xs, rfl, z8, hx⟩ := all2_append hx
  cases hx
  obtain ⟨x1, D1, M1⟩ := h1 _ z1
  obtain ⟨x2, rfl, M2⟩ := h2 _ z2
  obtain ⟨q, rfl, e, Q3⟩ := h3 _ z3
  obtain rfl := tokSym_inj (p := .lparen) rfl e
  obtain ⟨x4, D4, M4⟩ := h4 _ z4
  obtain ⟨q, rfl, e, Q5⟩ := h5 _ z5
  obtain rfl := tokSym_inj (p := .rparen) rfl e
  obtain ⟨q, rfl, e, Q6⟩ := h6 _ z6
  obtain rfl := tokSym_inj (p := .eq) rfl e
  obtain ⟨x7, rfl, M7⟩ := h7 _ z7
  obtain ⟨q, rfl, e, Q8⟩ := h8 _ z8
  obtain rfl := tokSym_inj (p := .semi) rfl e
  refine ⟨_, by dlist (DProgcall.mk x2 x7 D1 D4), ?_⟩
  refine Seq.act (Seq.cons M1 (Seq.cons M2 (Seq.quiet Q3 (Seq.cons M4 (Seq.quiet Q5 (Seq.quiet Q6 (Seq.cons M7 (Seq.quiet Q8 Seq.nil)))))))) rfl (a := "xdrAct59") rfl fun lo st vs h => ?_
  obtain ⟨w1, vs, rfl, a1, h⟩ := all2_cons h
  obtain ⟨w2, vs, rfl, a2, h⟩ := all2_cons h
  obtain ⟨w4, vs, rfl, a4, h⟩ := all2_cons h
  obtain ⟨w7, vs, rfl, a7, h⟩ := all2_cons h
  obtain rfl := all2_nil h
  obtain ⟨b2, rfl, n2⟩ := a2
  obtain ⟨b7, rfl, n7⟩ := a7
  exact ⟨_, fun k => pact59 _ _ _ _ k _ _ _ _, Built.imp (Built.and a1 a4) fun H n ⟨r, a⟩ => ⟨_, _, _, _, n2, a, r, n7, rfl⟩⟩

theorem rule60 {ts : Trees} (h : MeansAll fl grow loops ["KWVOID"] ts) : Means fl grow loops "typespecopt" (.node 60 ts) := by
  obtain ⟨t1, ts, rfl, h1, h⟩ := meansAll_cons h
  obtain rfl := meansAll_nil h
  intro xs hx
  simp only [Tree.yield, Trees.yield] at hx
  obtain ⟨y1, xs, rfl, z1, hx⟩ := all2_append hx
  cases hx
  obtain ⟨q, rfl, e, Q1⟩ := h1 _ z1
  obtain rfl := tokSym_inj (p := .kvoid) rfl e
  refine ⟨_, by dlist (DTypespecopt.void), ?_⟩
  refine Seq.act (Seq.quiet Q1 Seq.nil) rfl (a := "xdrAct60") rfl fun lo st vs h => ?_
  obtain rfl := all2_nil h
  exact ⟨_, fun k => pact60 _ _ _ _ k, Built.pure fun H n => ⟨_, rfl⟩⟩

theorem rule61 {ts : Trees} (h : MeansAll fl grow loops ["typespec"] ts) : Means fl grow loops "typespecopt" (.node 61 ts) := by
  obtain ⟨t1, ts, rfl, h1, h⟩ := meansAll_cons h
  obtain rfl := meansAll_nil h
  intro xs hx
  simp only [Tree.yield, Trees.yield] at hx
  obtain ⟨y1, xs, rfl, z1, hx⟩ := all2_append hx
  cases hx
  obtain ⟨x1, D1, M1⟩ := h1 _ z1
  refine ⟨_, by dlist (DTypespecopt.some D1), ?_⟩
  refine Seq.act (Seq.cons M1 Seq.nil) rfl (a := "xdrAct61") rfl fun lo st vs h => ?_
  obtain ⟨w1, vs, rfl, a1, h⟩ := all2_cons h
  obtain rfl := all2_nil h
  exact ⟨_, fun k => pact61 _ _ _ _ k _, Built.imp a1 fun H n h => ⟨_, h, rfl⟩⟩

end

end Verif.Lang
