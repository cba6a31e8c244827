/-
Every derivation of the grammar xdr.y: what its tokens are and what running its actions does; and there is a derivation
for what the model's grammar derives.
-/
import Verif.Lang.Rules

namespace Verif.Lang
open Verif.Text Verif.Gen Verif.Inst

/-! ### The rules without an action -/

section
variable {fl : Flags} {grow : Nat → Nat → Nat} {loops : Nat}

theorem wSpec_snoc (fl : Flags) (s : Spec) (d : Defn) :
    wSpec fl (s ++ [d]) = (wSpec fl s).bind fun x => (wDefn fl d).bind fun y => some (x ++ y) := by
  unfold wSpec
  induction s with
  | nil =>
    show wAll (wDefn fl) [d] = (wDefn fl d).bind fun y => some ([] ++ y)
    rw [wAll]
    cases wDefn fl d with
    | none => rfl
    | some y => exact congrArg some (List.append_nil y)
  | cons a s ih =>
    rw [List.cons_append, wAll, ih, wAll]
    cases wDefn fl a with
    | none => rfl
    | some x =>
      cases wAll (wDefn fl) s with
      | none => rfl
      | some y =>
        cases wDefn fl d with
        | none => rfl
        | some z => exact congrArg some (List.append_assoc x y z).symm

theorem err_bind {α β : Type} {m : M Log α} {f : α → M Log β} {st : St Log} {e : Stop × St Log} (h : m st = .error e) :
    (m >>= f) st = .error e := by
  show M.bind m f st = _
  unfold M.bind
  rw [h]

theorem rule1 {ts : Trees} (h : MeansAll fl grow loops [] ts) : Means fl grow loops "spec" (.node 1 ts) := by
  obtain rfl := meansAll_nil h
  intro xs hx
  simp only [Tree.yield, Trees.yield] at hx
  cases hx
  refine ⟨_, .nil, fun st r hr => ?_⟩
  cases hr with
  | act h c ha => cases ha
  | err h => cases h
  | pass h c ha =>
    cases h
    exact ⟨[], _, rfl, by rw [c.world, List.append_nil], .nil, c.over⟩

theorem rule2 {ts : Trees} (h : MeansAll fl grow loops ["spec", "defn"] ts) : Means fl grow loops "spec" (.node 2 ts) := by
  obtain ⟨t1, ts, rfl, h1, h⟩ := meansAll_cons h
  obtain ⟨t2, ts, rfl, h2, h⟩ := meansAll_cons h
  obtain rfl := meansAll_nil h
  intro xs hx
  simp only [Tree.yield, Trees.yield] at hx
  obtain ⟨y1, xs, rfl, z1, hx⟩ := all2_append hx
  obtain ⟨y2, xs, rfl, z2, hx⟩ := all2_append hx
  cases hx
  obtain ⟨x1, D1, E1⟩ := h1 _ z1
  obtain ⟨x2, D2, E2⟩ := h2 _ z2
  refine ⟨_, by dlist (DSpec.more D1 D2), fun st r hr => ?_⟩
  rw [wSpec_snoc]
  cases hr with
  | act h c ha => cases ha
  | err h =>
    cases h with
    | head a =>
      have h2 := E1 _ _ a
      cases hw : wSpec fl x1 with
      | none => rw [hw] at h2; exact h2
      | some ws => rw [hw] at h2; obtain ⟨_, _, e, _⟩ := h2; cases e
    | tail a b =>
      have h2 := E1 _ _ a
      cases hw : wSpec fl x1 with
      | none => rw [hw] at h2; obtain ⟨_, e⟩ := h2; cases e
      | some ws =>
        cases b with
        | tail b q => cases q
        | head b =>
          have h2' := E2 _ _ b
          cases hw' : wDefn fl x2 with
          | none => rw [hw'] at h2'; exact h2'
          | some ws' => rw [hw'] at h2'; obtain ⟨_, _, e, _⟩ := h2'; cases e
  | pass h c ha =>
    cases h with
    | cons a b =>
      cases b with
      | cons b q =>
        cases q
        have h2 := E1 _ _ a
        have h2' := E2 _ _ b
        cases hw : wSpec fl x1 with
        | none => rw [hw] at h2; obtain ⟨_, e⟩ := h2; cases e
        | some ws =>
          rw [hw] at h2
          obtain ⟨l, st1, e, h3, h4, h5⟩ := h2
          cases e
          cases hw' : wDefn fl x2 with
          | none => rw [hw'] at h2'; obtain ⟨_, e⟩ := h2'; cases e
          | some ws' =>
            rw [hw'] at h2'
            obtain ⟨l', st2, e, h3', h4', h5'⟩ := h2'
            cases e
            exact ⟨l ++ l', _, rfl, by rw [c.world, h3', h3, List.append_assoc], h4.append h4', (h5.trans h5').trans c.over⟩

theorem Emits.node {ws : Option Writes} {t : Tree} {m : Nat} (h : Emits fl grow loops ws t) (hm : xdrGrammar.acts m = false) :
    Emits fl grow loops ws (.node m (.cons t .nil)) := by
  intro st r hr
  cases hr with
  | act h c ha => rw [hm] at ha; cases ha
  | err q =>
    cases q with
    | head a =>
      have h2 := h _ _ a
      cases ws with
      | none => exact h2
      | some ws => obtain ⟨_, _, e, _⟩ := h2; cases e
    | tail a b => cases b
  | pass q c ha =>
    cases q with
    | cons a b =>
      cases b
      have h2 := h _ _ a
      cases ws with
      | none => obtain ⟨_, e⟩ := h2; cases e
      | some ws =>
        obtain ⟨l, st1, e, h3, h4, h5⟩ := h2
        cases e
        exact ⟨l, _, rfl, by rw [c.world, h3], h4, h5.trans c.over⟩

theorem rule3 {ts : Trees} (h : MeansAll fl grow loops ["typedef"] ts) : Means fl grow loops "defn" (.node 3 ts) := by
  obtain ⟨t1, ts, rfl, h1, h⟩ := meansAll_cons h
  obtain rfl := meansAll_nil h
  intro xs hx
  simp only [Tree.yield, Trees.yield, List.append_nil] at hx
  obtain ⟨x1, D1, E1⟩ := h1 _ hx
  exact ⟨_, D1, E1.node rfl⟩

theorem rule4 {ts : Trees} (h : MeansAll fl grow loops ["constdef"] ts) : Means fl grow loops "defn" (.node 4 ts) := by
  obtain ⟨t1, ts, rfl, h1, h⟩ := meansAll_cons h
  obtain rfl := meansAll_nil h
  intro xs hx
  simp only [Tree.yield, Trees.yield, List.append_nil] at hx
  obtain ⟨x1, D1, E1⟩ := h1 _ hx
  exact ⟨_, D1, E1.node rfl⟩

theorem rule5 {ts : Trees} (h : MeansAll fl grow loops ["progdef"] ts) : Means fl grow loops "defn" (.node 5 ts) := by
  obtain ⟨t1, ts, rfl, h1, h⟩ := meansAll_cons h
  obtain rfl := meansAll_nil h
  intro xs hx
  simp only [Tree.yield, Trees.yield, List.append_nil] at hx
  obtain ⟨x1, D1, E1⟩ := h1 _ hx
  exact ⟨_, D1, E1.node rfl⟩

/-- A token. -/
theorem means_tok (s : String) (b : List UInt8) : Means fl grow loops s (.tok s b) := by
  intro ts hx
  simp only [Tree.yield] at hx
  obtain ⟨x, xs, rfl, ha, h⟩ := all2_cons hx
  obtain rfl := all2_nil h
  obtain ⟨hs, ht⟩ := ha
  have hs : s = tokSym x := hs
  subst hs
  have hq : (xdrGrammar.tagged.contains (tokSym x)) = false → Quiet fl grow loops (.tok (tokSym x) b) := fun h st r hr => by
    cases hr with
    | tok c => exact ⟨_, by rw [tokVals, h]; rfl, c⟩
  have hm : ∀ {P : List UInt8 → Prop}, xdrGrammar.tagged.contains (tokSym x) = true → P b → Makes fl grow loops (.tok (tokSym x) b) (strPost P) :=
    fun h hp st r hr => by
      cases hr with
      | tok c => exact ⟨.str b, _, by rw [tokVals, h]; rfl, c.world, c.over, b, rfl, hp⟩
  cases x with
  | const n => exact ⟨n, rfl, hm rfl ht⟩
  | ident n => exact ⟨n, rfl, hm rfl ht⟩
  | _ => exact ⟨_, rfl, rfl, hq (by decide)⟩

/-- All rules. -/
theorem all_rules (hfl : ∀ c ∈ fl.constType.toList, c.toNat < 128) : ∀ (k : Nat) (r : GRule) (ts : Trees), xdrGrammar.rules[k]? = some r →
    MeansAll fl grow loops r.rhs ts → Means fl grow loops r.lhs (.node (k + 1) ts)
  | 0, _, _, h, h' => by
    cases h
    exact rule1 h'
  | 1, _, _, h, h' => by
    cases h
    exact rule2 h'
  | 2, _, _, h, h' => by
    cases h
    exact rule3 h'
  | 3, _, _, h, h' => by
    cases h
    exact rule4 h'
  | 4, _, _, h, h' => by
    cases h
    exact rule5 h'
  | 5, _, _, h, h' => by
    cases h
    exact rule6 h'
  | 6, _, _, h, h' => by
    cases h
    exact rule7 h'
  | 7, _, _, h, h' => by
    cases h
    exact rule8 h'
  | 8, _, _, h, h' => by
    cases h
    exact rule9 h'
  | 9, _, _, h, h' => by
    cases h
    exact rule10 h'
  | 10, _, _, h, h' => by
    cases h
    exact rule11 h'
  | 11, _, _, h, h' => by
    cases h
    exact rule12 h'
  | 12, _, _, h, h' => by
    cases h
    exact rule13 h'
  | 13, _, _, h, h' => by
    cases h
    exact rule14 h'
  | 14, _, _, h, h' => by
    cases h
    exact rule15 h'
  | 15, _, _, h, h' => by
    cases h
    exact rule16 h'
  | 16, _, _, h, h' => by
    cases h
    exact rule17 h'
  | 17, _, _, h, h' => by
    cases h
    exact rule18 h'
  | 18, _, _, h, h' => by
    cases h
    exact rule19 h'
  | 19, _, _, h, h' => by
    cases h
    exact rule20 h'
  | 20, _, _, h, h' => by
    cases h
    exact rule21 h'
  | 21, _, _, h, h' => by
    cases h
    exact rule22 h'
  | 22, _, _, h, h' => by
    cases h
    exact rule23 h'
  | 23, _, _, h, h' => by
    cases h
    exact rule24 h'
  | 24, _, _, h, h' => by
    cases h
    exact rule25 h'
  | 25, _, _, h, h' => by
    cases h
    exact rule26 h'
  | 26, _, _, h, h' => by
    cases h
    exact rule27 h'
  | 27, _, _, h, h' => by
    cases h
    exact rule28 h'
  | 28, _, _, h, h' => by
    cases h
    exact rule29 h'
  | 29, _, _, h, h' => by
    cases h
    exact rule30 h'
  | 30, _, _, h, h' => by
    cases h
    exact rule31 h'
  | 31, _, _, h, h' => by
    cases h
    exact rule32 h'
  | 32, _, _, h, h' => by
    cases h
    exact rule33 h'
  | 33, _, _, h, h' => by
    cases h
    exact rule34 h'
  | 34, _, _, h, h' => by
    cases h
    exact rule35 h'
  | 35, _, _, h, h' => by
    cases h
    exact rule36 h'
  | 36, _, _, h, h' => by
    cases h
    exact rule37 h'
  | 37, _, _, h, h' => by
    cases h
    exact rule38 h'
  | 38, _, _, h, h' => by
    cases h
    exact rule39 h'
  | 39, _, _, h, h' => by
    cases h
    exact rule40 h'
  | 40, _, _, h, h' => by
    cases h
    exact rule41 h'
  | 41, _, _, h, h' => by
    cases h
    exact rule42 h'
  | 42, _, _, h, h' => by
    cases h
    exact rule43 h'
  | 43, _, _, h, h' => by
    cases h
    exact rule44 h'
  | 44, _, _, h, h' => by
    cases h
    exact rule45 h'
  | 45, _, _, h, h' => by
    cases h
    exact rule46 h'
  | 46, _, _, h, h' => by
    cases h
    exact rule47 h'
  | 47, _, _, h, h' => by
    cases h
    exact rule48 hfl h'
  | 48, _, _, h, h' => by
    cases h
    exact rule49 hfl h'
  | 49, _, _, h, h' => by
    cases h
    exact rule50 hfl h'
  | 50, _, _, h, h' => by
    cases h
    exact rule51 hfl h'
  | 51, _, _, h, h' => by
    cases h
    exact rule52 hfl h'
  | 52, _, _, h, h' => by
    cases h
    exact rule53 hfl h'
  | 53, _, _, h, h' => by
    cases h
    exact rule54 h'
  | 54, _, _, h, h' => by
    cases h
    exact rule55 h'
  | 55, _, _, h, h' => by
    cases h
    exact rule56 h'
  | 56, _, _, h, h' => by
    cases h
    exact rule57 h'
  | 57, _, _, h, h' => by
    cases h
    exact rule58 h'
  | 58, _, _, h, h' => by
    cases h
    exact rule59 h'
  | 59, _, _, h, h' => by
    cases h
    exact rule60 h'
  | 60, _, _, h, h' => by
    cases h
    exact rule61 h'
  | k + 61, _, _, h, _ => by cases h

mutual
theorem derives_means (hfl : ∀ c ∈ fl.constType.toList, c.toNat < 128) {s : String} {t : Tree} (h : Derives xdrGrammar s t) :
    Means fl grow loops s t := by
  cases h with
  | tok h => exact means_tok s _
  | rule h h' => exact all_rules hfl _ _ _ h (derivesAll_means hfl h')
theorem derivesAll_means (hfl : ∀ c ∈ fl.constType.toList, c.toNat < 128) {ss : List String} {ts : Trees} (h : DerivesAll xdrGrammar ss ts) :
    MeansAll fl grow loops ss ts := by
  cases h with
  | nil => exact trivial
  | cons h h' => exact ⟨derives_means hfl h, derivesAll_means hfl h'⟩
end
end

/-! ### There is a derivation -/

/-- The symbol derives whatever these tokens are scanned from. -/
def Has (s : String) (ts : List XTok) : Prop := ∀ w, YToks ts w → ∃ t, Derives xdrGrammar s t ∧ t.yield = w
def HasAll (ss : List String) (ts : List XTok) : Prop := ∀ w, YToks ts w → ∃ t, DerivesAll xdrGrammar ss t ∧ t.yield = w

theorem tok_terminal (x : XTok) : ∀ r ∈ xdrGrammar.rules, r.lhs ≠ tokSym x := by
  cases x <;> (simp only [tokSym]; decide)

theorem HasAll.nil : HasAll [] [] := fun w h => ⟨.nil, .nil, by cases h; rfl⟩

theorem HasAll.cons {s : String} {ss : List String} {a b : List XTok} (h : Has s a) (h' : HasAll ss b) : HasAll (s :: ss) (a ++ b) := by
  intro w hw
  obtain ⟨x, y, rfl, h1, h2⟩ := all2_append' hw
  obtain ⟨t, d, rfl⟩ := h x h1
  obtain ⟨ts, d', rfl⟩ := h' y h2
  exact ⟨.cons t ts, .cons d d', rfl⟩

theorem HasAll.tok {s : String} {ss : List String} (x : XTok) {b : List XTok} (h' : HasAll ss b) (hs : tokSym x = s := by rfl) :
    HasAll (s :: ss) (x :: b) := by
  intro w hw
  cases hw with
  | @cons _ c _ y h r =>
    obtain ⟨ts, d', rfl⟩ := h' _ r
    obtain ⟨n, b⟩ := c
    have e : n = tokSym x := h.1
    subst e
    subst hs
    exact ⟨.cons (.tok _ b) ts, .cons (.tok (tok_terminal x)) d', rfl⟩

theorem Has.rule {ts : List XTok} (k : Nat) {r : GRule} (hr : xdrGrammar.rules[k]? = some r) (h : HasAll r.rhs ts) : Has r.lhs ts := by
  intro w hw
  obtain ⟨t, d, e⟩ := h w hw
  exact ⟨.node (k + 1) t, .rule hr d, e⟩

theorem hasVal {ts : List XTok} {x : Val} (h : DVal ts x) : Has "val" ts := by
  cases h with
  | const n => exact Has.rule 15 rfl (HasAll.tok _ .nil)
  | ident n => exact Has.rule 16 rfl (HasAll.tok _ .nil)

theorem hasVarlen {ts : List XTok} {x : Option Val} (h : DVarlen ts x) : Has "varlen" ts := by
  cases h with
  | empty => exact Has.rule 13 rfl (HasAll.tok _ (HasAll.tok _ .nil))
  | val h => exact Has.rule 14 rfl (HasAll.tok _ (HasAll.cons (hasVal h) (HasAll.tok _ .nil)))

theorem hasMaybeunsig {ts : List XTok} {x : Bool} (h : DMaybeunsig ts x) : Has "maybeunsig" ts := by
  cases h with
  | no => exact Has.rule 27 rfl .nil
  | yes => exact Has.rule 28 rfl (HasAll.tok _ .nil)

theorem hasEnumitem {ts : List XTok} {x : EnumItem} (h : DEnumitem ts x) : Has "enumitem" ts := by
  cases h with
  | mk n h => exact Has.rule 33 rfl (HasAll.tok _ (HasAll.tok _ (by dlist HasAll.cons (hasVal h) .nil)))

theorem hasEnumitems {ts : List XTok} {x : List EnumItem} (h : DEnumitems ts x) : Has "enumitems" ts := by
  induction h with
  | one h => exact Has.rule 31 rfl (by dlist HasAll.cons (hasEnumitem h) .nil)
  | more h h' ih => exact Has.rule 32 rfl (HasAll.cons ih (HasAll.tok _ (by dlist HasAll.cons (hasEnumitem h') .nil)))

theorem hasEnumbody {ts : List XTok} {x : List EnumItem} (h : DEnumbody ts x) : Has "enumbody" ts := by
  cases h with
  | mk h => exact Has.rule 30 rfl (HasAll.tok _ (HasAll.cons (hasEnumitems h) (HasAll.tok _ .nil)))

theorem hasCaselist {ts : List XTok} {x : Val} {y : List Val} (h : DCaselist ts x y) : Has "caselist" ts := by
  induction h with
  | one h => exact Has.rule 45 rfl (HasAll.tok _ (HasAll.cons (hasVal h) (HasAll.tok _ .nil)))
  | more h h' ih =>
    exact Has.rule 46 rfl (by dlist HasAll.cons ih (HasAll.tok .kcase (HasAll.cons (hasVal h') (HasAll.tok .colon .nil))))

mutual
theorem hasTypespec {ts : List XTok} {x : Typespec} : DTypespec ts x → Has "typespec" ts
  | .int h => by exact Has.rule 17 rfl (HasAll.cons (hasMaybeunsig h) (HasAll.tok _ .nil))
  | .hyper h => by exact Has.rule 18 rfl (HasAll.cons (hasMaybeunsig h) (HasAll.tok _ .nil))
  | .float => by exact Has.rule 19 rfl (HasAll.tok _ .nil)
  | .double => by exact Has.rule 20 rfl (HasAll.tok _ .nil)
  | .quadruple => by exact Has.rule 21 rfl (HasAll.tok _ .nil)
  | .bool => by exact Has.rule 22 rfl (HasAll.tok _ .nil)
  | .enum h => by
    exact Has.rule 23 rfl (by
      dlist HasAll.cons (Has.rule 29 rfl (HasAll.tok .kenum (by dlist HasAll.cons (hasEnumbody h) .nil))) .nil)
  | .struct h => by
    have h1 := hasStructbody h
    exact Has.rule 24 rfl (by
      dlist HasAll.cons (Has.rule 34 rfl (HasAll.tok .kstruct (by dlist HasAll.cons h1 .nil))) .nil)
  | .union h => by
    have h1 := hasUnionbody h
    exact Has.rule 25 rfl (by
      dlist HasAll.cons (Has.rule 38 rfl (HasAll.tok .kunion (by dlist HasAll.cons h1 .nil))) .nil)
  | .ident n => by exact Has.rule 26 rfl (HasAll.tok _ .nil)
theorem hasDecl {ts : List XTok} {x : Decl} : DDecl ts x → Has "decl" ts
  | .plain n h => by exact Has.rule 5 rfl (HasAll.cons (hasTypespec h) (HasAll.tok _ .nil))
  | .array n h h' => by
    exact Has.rule 6 rfl (by
      dlist HasAll.cons (hasTypespec h) (HasAll.tok (.ident n) (HasAll.tok .lbrack (HasAll.cons (hasVal h') (HasAll.tok .rbrack .nil)))))
  | .varArray n h h' => by
    exact Has.rule 7 rfl (by dlist HasAll.cons (hasTypespec h) (HasAll.tok (.ident n) (HasAll.cons (hasVarlen h') .nil)))
  | .opaqueArray n h => by
    exact Has.rule 8 rfl (HasAll.tok _ (HasAll.tok _ (HasAll.tok _ (HasAll.cons (hasVal h) (HasAll.tok _ .nil)))))
  | .opaqueVarArray n h => by exact Has.rule 9 rfl (HasAll.tok _ (HasAll.tok _ (by dlist HasAll.cons (hasVarlen h) .nil)))
  | .string n h => by exact Has.rule 10 rfl (HasAll.tok _ (HasAll.tok _ (by dlist HasAll.cons (hasVarlen h) .nil)))
  | .ptr n h => by exact Has.rule 11 rfl (HasAll.cons (hasTypespec h) (HasAll.tok _ (HasAll.tok _ .nil)))
  | .void => by exact Has.rule 12 rfl (HasAll.tok _ .nil)
theorem hasStructbody {ts : List XTok} {x : List Decl} : DStructbody ts x → Has "structbody" ts
  | .mk h => by exact Has.rule 35 rfl (HasAll.tok _ (HasAll.cons (hasStructdecls h) (HasAll.tok _ .nil)))
theorem hasStructdecls {ts : List XTok} {x : List Decl} : DStructdecls ts x → Has "structdecls" ts
  | .nil => by exact Has.rule 36 rfl .nil
  | .more h h' => by exact Has.rule 37 rfl (by dlist HasAll.cons (hasStructdecls h) (HasAll.cons (hasDecl h') (HasAll.tok .semi .nil)))
theorem hasUnionbody {ts : List XTok} {d : Decl} {x : Cases} : DUnionbody ts d x → Has "unionbody" ts
  | .mk h h' => by
    exact Has.rule 39 rfl (by
      dlist HasAll.tok .kswitch (HasAll.tok .lparen (HasAll.cons (hasDecl h) (HasAll.tok .rparen (HasAll.tok .lbrace
        (HasAll.cons (hasUnioncasesdef h') (HasAll.tok .rbrace .nil)))))))
theorem hasUnioncasesdef {ts : List XTok} {x : Cases} : DUnioncasesdef ts x → Has "unioncasesdef" ts
  | .nodef h => by exact Has.rule 40 rfl (by dlist HasAll.cons (hasUnioncases h) .nil)
  | .dflt h h' => by
    exact Has.rule 41 rfl (by
      dlist HasAll.cons (hasUnioncases h) (HasAll.tok .kdefault (HasAll.tok .colon (HasAll.cons (hasDecl h') (HasAll.tok .semi .nil)))))
theorem hasUnioncases {ts : List XTok} {x : List (Val × List Val × Decl)} : DUnioncases ts x → Has "unioncases" ts
  | .nil => by exact Has.rule 42 rfl .nil
  | .more h h' h'' => by
    exact Has.rule 43 rfl (by
      dlist HasAll.cons (hasUnioncases h) (HasAll.cons (Has.rule 44 rfl (HasAll.cons (hasCaselist h') (HasAll.cons (hasDecl h'')
        (HasAll.tok .semi .nil)))) .nil))
end

theorem hasTypespecopt {ts : List XTok} {x : TypespecOpt} (h : DTypespecopt ts x) : Has "typespecopt" ts := by
  cases h with
  | void => exact Has.rule 59 rfl (HasAll.tok _ .nil)
  | some h => exact Has.rule 60 rfl (by dlist HasAll.cons (hasTypespec h) .nil)

theorem hasProgcall {ts : List XTok} {x : ProgCall} (h : DProgcall ts x) : Has "progcall" ts := by
  cases h with
  | mk n k h h' =>
    exact Has.rule 58 rfl (by
      dlist HasAll.cons (hasTypespecopt h) (HasAll.tok (.ident n) (HasAll.tok .lparen (HasAll.cons (hasTypespecopt h')
        (HasAll.tok .rparen (HasAll.tok .eq (HasAll.tok (.const k) (HasAll.tok .semi .nil))))))))

theorem hasProgcalls {ts : List XTok} {x : List ProgCall} (h : DProgcalls ts x) : Has "progcalls" ts := by
  induction h with
  | nil => exact Has.rule 56 rfl .nil
  | more h h' ih => exact Has.rule 57 rfl (by dlist HasAll.cons ih (HasAll.cons (hasProgcall h') .nil))

theorem hasProgver {ts : List XTok} {x : ProgVer} (h : DProgver ts x) : Has "progver" ts := by
  cases h with
  | mk n k h =>
    exact Has.rule 55 rfl (HasAll.tok _ (HasAll.tok _ (HasAll.tok _ (HasAll.cons (hasProgcalls h)
      (HasAll.tok .rbrace (HasAll.tok .eq (HasAll.tok (.const k) (HasAll.tok .semi .nil))))))))

theorem hasProgvers {ts : List XTok} {x : List ProgVer} (h : DProgvers ts x) : Has "progvers" ts := by
  induction h with
  | nil => exact Has.rule 53 rfl .nil
  | more h h' ih => exact Has.rule 54 rfl (by dlist HasAll.cons ih (HasAll.cons (hasProgver h') .nil))

theorem Has.defn {s : String} {ts : List XTok} (h : Has s ts) (k : Nat) (hk : xdrGrammar.rules[k]? = some ⟨"defn", [s], false⟩) :
    Has "defn" ts := Has.rule (r := ⟨"defn", [s], false⟩) k hk (by dlist HasAll.cons h .nil)

theorem hasDefn {ts : List XTok} {x : Defn} (h : DDefn ts x) : Has "defn" ts := by
  cases h with
  | const n k =>
    exact Has.defn (Has.rule 47 rfl (HasAll.tok _ (HasAll.tok _ (HasAll.tok _ (HasAll.tok _ (HasAll.tok _ .nil)))))) 3 rfl
  | typedef h => exact Has.defn (Has.rule 48 rfl (HasAll.tok _ (HasAll.cons (hasDecl h) (HasAll.tok _ .nil)))) 2 rfl
  | enum n h => exact Has.defn (Has.rule 49 rfl (HasAll.tok _ (HasAll.tok _ (HasAll.cons (hasEnumbody h) (HasAll.tok _ .nil))))) 2 rfl
  | struct n h =>
    exact Has.defn (Has.rule 50 rfl (HasAll.tok _ (HasAll.tok _ (HasAll.cons (hasStructbody h) (HasAll.tok _ .nil))))) 2 rfl
  | union n h => exact Has.defn (Has.rule 51 rfl (HasAll.tok _ (HasAll.tok _ (HasAll.cons (hasUnionbody h) (HasAll.tok _ .nil))))) 2 rfl
  | program n k h =>
    exact Has.defn (Has.rule 52 rfl (HasAll.tok _ (HasAll.tok _ (HasAll.tok _ (HasAll.cons (hasProgvers h)
      (HasAll.tok .rbrace (HasAll.tok .eq (HasAll.tok (.const k) (HasAll.tok .semi .nil))))))))) 4 rfl

theorem hasSpec {ts : List XTok} {x : Spec} (h : DSpec ts x) : Has "spec" ts := by
  induction h with
  | nil => exact Has.rule 0 rfl .nil
  | more h h' ih => exact Has.rule 1 rfl (by dlist HasAll.cons ih (HasAll.cons (hasDefn h') .nil))

/-! ### Checking a derivation -/

mutual
def Tree.check (G : Grammar) (s : String) : Tree → Bool
  | .tok s' _ => s == s' && G.rules.all fun r => r.lhs != s
  | .node 0 _ => false
  | .node (k + 1) ts =>
    match G.rules[k]? with
    | some r => r.lhs == s && ts.check G r.rhs
    | none => false
def Trees.check (G : Grammar) : List String → Trees → Bool
  | [], .nil => true
  | s :: ss, .cons t ts => t.check G s && ts.check G ss
  | _, _ => false
end

mutual
theorem Tree.check_derives {G : Grammar} {s : String} : ∀ {t : Tree}, t.check G s = true → Derives G s t
  | .tok s' b, h => by
    rw [Tree.check, Bool.and_eq_true, List.all_eq_true] at h
    obtain rfl := beq_iff_eq.mp h.1
    exact .tok fun r hr e => by simpa [e] using h.2 r hr
  | .node 0 _, h => by simp [Tree.check] at h
  | .node (k + 1) ts, h => by
    rw [Tree.check] at h
    split at h
    · rename_i r hr
      rw [Bool.and_eq_true] at h
      obtain rfl := beq_iff_eq.mp h.1
      exact .rule hr (Trees.check_derives h.2)
    · cases h
theorem Trees.check_derives {G : Grammar} : ∀ {ss : List String} {ts : Trees}, ts.check G ss = true → DerivesAll G ss ts
  | [], .nil, _ => .nil
  | s :: ss, .cons t ts, h => by
    rw [Trees.check, Bool.and_eq_true] at h
    exact .cons (Tree.check_derives h.1) (Trees.check_derives h.2)
  | [], .cons _ _, h => by cases h
  | _ :: _, .nil, h => by cases h
end

end Verif.Lang
