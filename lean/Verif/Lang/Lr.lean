/-
Parsers like those that goyacc generates: an automaton with a stack, driven by tables.

A table is checked against a grammar by `Lr.valid`, which asks that the states stand for sets of items (rule, position,
tokens that may follow) that are closed, that reductions agree with them, and that a potential decreases with every
reduction.  Of any valid table it is proved that the automaton always comes to an end and accepts exactly what the grammar
derives.
-/
import Verif.Lang.Tree

namespace Verif.Lang

/-- A state: what to do with the next token, where to go after a reduction, and the rule to reduce by in all other cases
(0: none, an error).  goyacc has the same in `yyPact`/`yyAct`/`yyChk`, `yyPgo`/`yyR1`, `yyExca` and `yyDef`. -/
structure LrState where
  shifts : List (Nat × Nat)
  gotos : List (Nat × Nat)
  reds : List (Nat × Nat)
  dflt : Nat
  accepts : Bool

inductive LrAct where
  | shift (q : Nat)
  | reduce (k : Nat)
  | accept
  | error

/-- The automaton needs the next token to decide. -/
def LrState.looks (s : LrState) : Bool := !s.shifts.isEmpty || !s.reds.isEmpty || s.accepts

/-- What the automaton does in the state if the next token has the number `a` (0 at the end). -/
def LrState.act (s : LrState) (a : Nat) : LrAct :=
  match s.shifts.lookup a with
  | some q => .shift q
  | none =>
    if s.accepts && a == 0 then .accept
    else
      match s.reds.lookup a with
      | some k => .reduce k
      | none => if s.dflt = 0 then .error else .reduce s.dflt

/-- An item: a rule, how many symbols of its right-hand side are there, and which tokens may follow it. -/
structure LrItem where
  rule : Nat
  dot : Nat
  las : List Nat

/-- The tables with what is needed to check them.  Rule 0 has the start symbol alone on its right-hand side. -/
structure Lr where
  rules : List (Nat × List Nat)
  states : List LrState
  items : List (List LrItem)
  /-- The potential of a state. -/
  pot : List Nat
  /-- A bound for the potential of the states reached by reducing by a rule. -/
  bound : List Nat
  /-- Symbols that derive the empty sequence. -/
  nulls : List Nat
  /-- The tokens that derivations of a symbol begin with. -/
  firsts : List (Nat × List Nat)

namespace Lr
variable (A : Lr)

def state (q : Nat) : LrState := A.states.getD q ⟨[], [], [], 0, false⟩
def itemsOf (q : Nat) : List LrItem := A.items.getD q []
def potOf (q : Nat) : Nat := A.pot.getD q 0
def rhs (k : Nat) : List Nat := (A.rules.getD k (0, [])).2
def lhs (k : Nat) : Nat := (A.rules.getD k (0, [])).1
def isNonterm (x : Nat) : Bool := A.rules.any fun r => r.1 == x
def firstOf (x : Nat) : List Nat := if A.isNonterm x then (A.firsts.lookup x).getD [] else [x]
def nullable (x : Nat) : Bool := A.nulls.contains x

/-- What may follow: the tokens that the symbols can begin with, or `las` if they can be empty. -/
def follow : List Nat → List Nat → List Nat
  | [], las => las
  | x :: xs, las => A.firstOf x ++ if A.nullable x then follow xs las else []

/-- Where a symbol leads. -/
def trans (q x : Nat) : Option Nat :=
  if A.isNonterm x then (A.state q).gotos.lookup x else (A.state q).shifts.lookup x

def has (q k d : Nat) : Bool := (A.itemsOf q).any fun i => i.rule == k && i.dot == d
def hasWith (q k d : Nat) (las : List Nat) : Bool :=
  (A.itemsOf q).any fun i => i.rule == k && i.dot == d && las.all fun a => i.las.contains a

def reduces (s : LrState) : List Nat := (s.reds.map (·.2)) ++ if s.dflt = 0 then [] else [s.dflt]

def isReduce : LrAct → Nat → Bool
  | .reduce k, j => k == j
  | _, _ => false

def isAccept : LrAct → Bool
  | .accept => true
  | _ => false

/-- What is asked of an item of a state. -/
def checkItem (q : Nat) (i : LrItem) : Bool :=
  decide (i.rule < A.rules.length) &&
  match (A.rhs i.rule)[i.dot]? with
  | some x =>
    (match A.trans q x with
      | some p => A.hasWith p i.rule (i.dot + 1) i.las
      | none => false) &&
    (!A.isNonterm x || (List.range A.rules.length).all fun k => A.lhs k != x || A.hasWith q k 0 (A.follow ((A.rhs i.rule).drop (i.dot + 1)) i.las))
  | none =>
    i.dot == (A.rhs i.rule).length &&
    if i.rule = 0 then i.las.all fun a => a == 0 && isAccept ((A.state q).act a)
    else i.las.all fun a => isReduce ((A.state q).act a) i.rule

/-- What is asked of an item at the beginning of a rule. -/
def checkStart (q : Nat) (i : LrItem) : Bool :=
  i.dot != 0 ||
  if i.rule = 0 then q == 0
  else
    match (A.state q).gotos.lookup (A.lhs i.rule) with
    | some g => decide (A.potOf g ≤ A.bound.getD i.rule 0)
    | none => false

/-- What is asked of a transition. -/
def checkTrans (q : Nat) (t : Nat × Nat) : Bool :=
  t.2 != 0 && decide (t.2 < A.states.length) &&
  (A.itemsOf t.2).all fun i => i.dot == 0 || (A.has q i.rule (i.dot - 1) && (A.rhs i.rule)[i.dot - 1]? == some t.1)

/-- What is asked of a reduction. -/
def checkReduce (q k : Nat) : Bool :=
  k != 0 && A.has q k (A.rhs k).length &&
  if (A.rhs k).length = 0 then
    match (A.state q).gotos.lookup (A.lhs k) with
    | some g => decide (A.potOf g + 2 ≤ A.potOf q)
    | none => false
  else decide (A.bound.getD k 0 + 2 ≤ A.potOf q + (A.rhs k).length)

def checkState (q : Nat) : Bool :=
  (A.itemsOf q).all (A.checkItem q) && (A.itemsOf q).all (A.checkStart q) &&
  (A.state q).shifts.all (fun t => t.1 != 0 && !A.isNonterm t.1 && A.checkTrans q t) &&
  (A.state q).gotos.all (fun t => A.isNonterm t.1 && A.checkTrans q t) &&
  (reduces (A.state q)).all (A.checkReduce q) &&
  (!(A.state q).accepts || A.has q 0 1)

/-- The sets of first tokens and of symbols that may be empty are closed under a rule. -/
def checkFirst (x : Nat) : List Nat → Bool
  | [] => A.nullable x
  | y :: ys => (A.firstOf y).all (fun a => (A.firstOf x).contains a) && (!A.nullable y || checkFirst x ys)

def valid : Bool :=
  A.states.length == A.items.length && A.hasWith 0 0 0 [0] && (A.rhs 0).length == 1 &&
  A.rules.all (fun r => A.checkFirst r.1 r.2) &&
  A.nulls.all A.isNonterm && (A.itemsOf 0).all (fun i => i.dot == 0) &&
  (List.range A.states.length).all A.checkState

end Lr

/-! ### Derivations -/

/-- A token as it is scanned. -/
abbrev Tk := String × List UInt8

mutual
inductive NDer (rules : List (Nat × List Nat)) (code : String → Nat) : Nat → Tree → Prop where
  | tok {s b} (h : ∀ r ∈ rules, r.1 ≠ code s) : NDer rules code (code s) (.tok s b)
  | rule {k r ts} (hk : k ≠ 0) (h : rules[k]? = some r) (h' : NDerAll rules code r.2 ts) : NDer rules code r.1 (.node k ts)
inductive NDerAll (rules : List (Nat × List Nat)) (code : String → Nat) : List Nat → Trees → Prop where
  | nil : NDerAll rules code [] .nil
  | cons {x xs t ts} (h : NDer rules code x t) (h' : NDerAll rules code xs ts) : NDerAll rules code (x :: xs) (.cons t ts)
end

/-! ### The automaton -/

/-- The stack, the top first, and the tokens that are not yet shifted. -/
structure PCfg where
  stack : List (Nat × Tree)
  input : List Tk

def topOf {α : Type} : List (Nat × α) → Nat
  | [] => 0
  | (q, _) :: _ => q

def lookOf (code : String → Nat) : List Tk → Nat
  | [] => 0
  | x :: _ => code x.1

def popTrees : Nat → List (Nat × Tree) → Trees → Option (List (Nat × Tree) × Trees)
  | 0, st, acc => some (st, acc)
  | _ + 1, [], _ => none
  | n + 1, (_, t) :: st, acc => popTrees n st (.cons t acc)

/-- One after the other. -/
def Trees.app : Trees → Trees → Trees
  | .nil, us => us
  | .cons t ts, us => .cons t (ts.app us)

theorem Trees.app_nil : ∀ ts : Trees, ts.app .nil = ts
  | .nil => rfl
  | .cons t ts => by rw [Trees.app, Trees.app_nil ts]

inductive PRes where
  | next (c : PCfg)
  | accept (t : Tree)
  | error
  | stuck

/-- One step. -/
def Lr.pstep (A : Lr) (code : String → Nat) (c : PCfg) : PRes :=
  match (A.state (topOf c.stack)).act (lookOf code c.input) with
  | .shift q =>
    match c.input with
    | x :: w => .next ⟨(q, .tok x.1 x.2) :: c.stack, w⟩
    | [] => .stuck
  | .reduce k =>
    match popTrees (A.rhs k).length c.stack .nil with
    | none => .stuck
    | some (st, ts) =>
      match (A.state (topOf st)).gotos.lookup (A.lhs k) with
      | none => .stuck
      | some g => .next ⟨(g, .node k ts) :: st, c.input⟩
  | .accept =>
    match c.stack with
    | [(_, t)] => .accept t
    | _ => .stuck
  | .error => .error

/-- What the automaton comes to within this many steps: a derivation, or an error. -/
def Lr.prun (A : Lr) (code : String → Nat) : Nat → PCfg → Option (Option Tree)
  | 0, _ => none
  | n + 1, c =>
    match A.pstep code c with
    | .next c => A.prun code n c
    | .accept t => some (some t)
    | .error => some none
    | .stuck => none

/-! ### Facts -/

theorem lookup_pair {a b : Nat} : ∀ {l : List (Nat × Nat)}, l.lookup a = some b → (a, b) ∈ l
  | (c, d) :: l, h => by
    rw [List.lookup_cons] at h
    cases hc : a == c with
    | true =>
      rw [hc] at h
      cases h
      rw [eq_of_beq hc]
      exact List.mem_cons_self
    | false =>
      rw [hc] at h
      exact List.mem_cons_of_mem _ (lookup_pair h)

theorem LrState.act_shift {s : LrState} {a q : Nat} (h : s.act a = .shift q) : s.shifts.lookup a = some q := by
  unfold LrState.act at h
  split at h
  · rename_i e; cases h; exact e
  · split at h
    · cases h
    · split at h
      · cases h
      · split at h <;> cases h

theorem LrState.act_reduce {s : LrState} {a k : Nat} (h : s.act a = .reduce k) : k ∈ Lr.reduces s := by
  unfold LrState.act at h
  split at h
  · cases h
  · split at h
    · cases h
    · split at h
      · rename_i e
        cases h
        exact List.mem_append_left _ (List.mem_map.mpr ⟨_, lookup_pair e, rfl⟩)
      · split at h
        · cases h
        · rename_i e
          cases h
          unfold Lr.reduces
          rw [if_neg e]
          exact List.mem_append_right _ (List.mem_singleton.mpr rfl)

theorem LrState.act_accept {s : LrState} {a : Nat} (h : s.act a = .accept) : s.accepts = true ∧ a = 0 := by
  unfold LrState.act at h
  split at h
  · cases h
  · split at h
    · rename_i e
      simpa using e
    · split at h
      · cases h
      · split at h <;> cases h

/-- A state that does not look at the next token does the same with all. -/
theorem LrState.act_lazy {s : LrState} (h : s.looks = false) (a b : Nat) : s.act a = s.act b := by
  unfold LrState.looks at h
  simp only [Bool.or_eq_false_iff, Bool.not_eq_false', List.isEmpty_iff] at h
  obtain ⟨⟨h1, h2⟩, h3⟩ := h
  unfold LrState.act
  rw [h1, h2, h3]
  rfl

namespace Lr
variable {A : Lr} {code : String → Nat}

theorem checked (hv : A.valid = true) (q : Nat) : A.checkState q = true := by
  by_cases hq : q < A.states.length
  · unfold valid at hv
    simp only [Bool.and_eq_true, List.all_eq_true, List.mem_range] at hv
    exact hv.2 q hq
  · have h1 : A.state q = ⟨[], [], [], 0, false⟩ := by
      unfold state
      rw [List.getD_eq_getElem?_getD, List.getElem?_eq_none (by omega)]
      rfl
    have h2 : A.itemsOf q = [] := by
      unfold valid at hv
      simp only [Bool.and_eq_true, beq_iff_eq] at hv
      have : A.states.length = A.items.length := hv.1.1.1.1.1.1
      unfold itemsOf
      rw [List.getD_eq_getElem?_getD, List.getElem?_eq_none (by omega)]
      rfl
    unfold checkState
    rw [h1, h2]
    rfl

structure Checks (A : Lr) (q : Nat) : Prop where
  item : ∀ i ∈ A.itemsOf q, A.checkItem q i = true
  start : ∀ i ∈ A.itemsOf q, A.checkStart q i = true
  shift : ∀ t ∈ (A.state q).shifts, t.1 ≠ 0 ∧ A.isNonterm t.1 = false ∧ A.checkTrans q t = true
  goto : ∀ t ∈ (A.state q).gotos, A.isNonterm t.1 = true ∧ A.checkTrans q t = true
  reduce : ∀ k ∈ reduces (A.state q), A.checkReduce q k = true
  accept : (A.state q).accepts = true → A.has q 0 1 = true

theorem checks (hv : A.valid = true) (q : Nat) : Checks A q := by
  have h := checked hv q
  unfold checkState at h
  simp only [Bool.and_eq_true, List.all_eq_true, Bool.or_eq_true, Bool.not_eq_true', bne_iff_ne] at h
  obtain ⟨⟨⟨⟨⟨h1, h2⟩, h3⟩, h4⟩, h5⟩, h6⟩ := h
  exact ⟨h1, h2, fun t ht => ⟨(h3 t ht).1.1, (h3 t ht).1.2, (h3 t ht).2⟩, h4, h5, fun h => h6.resolve_left (by rw [h]; decide)⟩

theorem has_iff {q k d : Nat} : A.has q k d = true ↔ ∃ i ∈ A.itemsOf q, i.rule = k ∧ i.dot = d := by
  unfold has
  simp [List.any_eq_true, Bool.and_eq_true]

theorem hasWith_iff {q k d : Nat} {las : List Nat} :
    A.hasWith q k d las = true ↔ ∃ i ∈ A.itemsOf q, i.rule = k ∧ i.dot = d ∧ ∀ a ∈ las, a ∈ i.las := by
  unfold hasWith
  simp [List.any_eq_true, Bool.and_eq_true, and_assoc]

theorem start0 (hv : A.valid = true) {k d : Nat} (h : A.has 0 k d = true) : d = 0 := by
  obtain ⟨i, hi, _, rfl⟩ := has_iff.mp h
  unfold valid at hv
  simp only [Bool.and_eq_true, List.all_eq_true, beq_iff_eq] at hv
  exact hv.1.2 i hi

theorem start_len (hv : A.valid = true) : (A.rhs 0).length = 1 := by
  unfold valid at hv
  simp only [Bool.and_eq_true, beq_iff_eq] at hv
  exact hv.1.1.1.1.2

theorem start_item (hv : A.valid = true) : ∃ i ∈ A.itemsOf 0, i.rule = 0 ∧ i.dot = 0 ∧ 0 ∈ i.las := by
  unfold valid at hv
  simp only [Bool.and_eq_true] at hv
  obtain ⟨i, h1, h2, h3, h4⟩ := hasWith_iff.mp hv.1.1.1.1.1.2
  exact ⟨i, h1, h2, h3, h4 0 (List.mem_singleton.mpr rfl)⟩

theorem rule_lt (hv : A.valid = true) {q k d : Nat} (h : A.has q k d = true) : k < A.rules.length := by
  obtain ⟨i, hi, rfl, _⟩ := has_iff.mp h
  have := (checks hv q).item i hi
  unfold checkItem at this
  simp only [Bool.and_eq_true, decide_eq_true_eq] at this
  exact this.1

theorem rule_get {k : Nat} (h : k < A.rules.length) : A.rules[k]? = some (A.lhs k, A.rhs k) := by
  unfold lhs rhs
  rw [List.getD_eq_getElem?_getD, List.getElem?_eq_getElem h]
  rfl

/-- What a transition says. -/
theorem trans_back {q p x k d : Nat} (h : A.checkTrans q (x, p) = true) (hk : A.has p k (d + 1) = true) :
    A.has q k d = true ∧ (A.rhs k)[d]? = some x := by
  obtain ⟨i, hi, rfl, e⟩ := has_iff.mp hk
  unfold checkTrans at h
  simp only [Bool.and_eq_true, List.all_eq_true, Bool.or_eq_true, beq_iff_eq] at h
  rcases h.2 i hi with h | h
  · omega
  · rw [e] at h
    exact h

theorem trans_ne {q p x : Nat} (h : A.checkTrans q (x, p) = true) : p ≠ 0 := by
  unfold checkTrans at h
  simp only [Bool.and_eq_true, bne_iff_ne] at h
  exact h.1.1

end Lr

/-! ### Soundness -/

/-- The trees on the stack are derivations of the symbols that lead from state to state. -/
def Lr.WF (A : Lr) (code : String → Nat) : List (Nat × Tree) → Prop
  | [] => True
  | (q, t) :: st => WF A code st ∧ ∃ x, A.checkTrans (topOf st) (x, q) = true ∧ NDer A.rules code x t

def stackYield : List (Nat × Tree) → List Tk
  | [] => []
  | (_, t) :: st => stackYield st ++ t.yield

namespace Lr
variable {A : Lr} {code : String → Nat}

theorem back (hv : A.valid = true) : ∀ (d : Nat) (st : List (Nat × Tree)) (k : Nat) (acc : Trees), A.WF code st →
    A.has (topOf st) k d = true → ∃ st' ts, popTrees d st acc = some (st', ts) ∧ A.WF code st' ∧ A.has (topOf st') k 0 = true ∧
      (∀ xs, NDerAll A.rules code xs acc → NDerAll A.rules code ((A.rhs k).take d ++ xs) ts) ∧
      stackYield st' ++ ts.yield = stackYield st ++ acc.yield ∧ st'.length + d = st.length
  | 0, st, k, acc, hw, hk => ⟨st, acc, rfl, hw, hk, fun xs h => by simpa using h, rfl, rfl⟩
  | d + 1, [], k, acc, _, hk => absurd (start0 hv hk) (by simp)
  | d + 1, (q, t) :: st, k, acc, ⟨hw, x, hx, ht⟩, hk => by
    obtain ⟨h1, h2⟩ := trans_back hx hk
    obtain ⟨st', ts, e1, e2, e3, e4, e5, e6⟩ := back hv d st k (.cons t acc) hw h1
    refine ⟨st', ts, e1, e2, e3, fun xs h => ?_, ?_, by simp; omega⟩
    · have := e4 (x :: xs) (.cons ht h)
      rw [List.take_add_one, h2]
      simpa using this
    · rw [e5]
      simp [Trees.yield, stackYield]

/-- The number of the next token tells whether there is one. -/
def Codes (code : String → Nat) (w : List Tk) : Prop := ∀ x ∈ w, code x.1 ≠ 0

theorem look_nil {w : List Tk} (h : Codes code w) (h' : lookOf code w = 0) : w = [] := by
  cases w with
  | nil => rfl
  | cons x w => exact absurd h' (h x List.mem_cons_self)

/-- Configurations that can come up. -/
structure Inv (A : Lr) (code : String → Nat) (w : List Tk) (c : PCfg) : Prop where
  wf : A.WF code c.stack
  yield : stackYield c.stack ++ c.input = w

def meas (A : Lr) (c : PCfg) : Nat × Nat := (c.input.length, c.stack.length + A.potOf (topOf c.stack))

theorem pstep_inv (hv : A.valid = true) {w : List Tk} (hw : Codes code w) {c : PCfg} (h : Inv A code w c) :
    match A.pstep code c with
    | .next c' => Inv A code w c' ∧ Prod.Lex (· < ·) (· < ·) (A.meas c') (A.meas c)
    | .accept t => NDer A.rules code ((A.rhs 0).getD 0 0) t ∧ t.yield = w
    | .error => True
    | .stuck => False := by
  have hin : Codes code c.input := fun x hx => hw x (h.yield ▸ List.mem_append_right _ hx)
  unfold pstep
  cases ha : (A.state (topOf c.stack)).act (lookOf code c.input) with
  | error => trivial
  | shift q =>
    have hm := lookup_pair (LrState.act_shift ha)
    obtain ⟨h1, h2, h3⟩ := (checks hv _).shift _ hm
    obtain ⟨stack, input⟩ := c
    cases input with
    | nil => exact absurd rfl h1
    | cons x input =>
      refine ⟨⟨⟨h.wf, code x.1, h3, .tok fun r hr e => ?_⟩, ?_⟩, .left _ _ (by simp)⟩
      · have : A.isNonterm (code x.1) = true := by
          unfold isNonterm
          exact List.any_eq_true.mpr ⟨r, hr, by simpa using e⟩
        exact absurd (this.symm.trans h2) (by simp)
      · have := h.yield
        simpa [stackYield, Tree.yield] using this
  | reduce k =>
    have hr := (checks hv _).reduce k (LrState.act_reduce ha)
    unfold checkReduce at hr
    simp only [Bool.and_eq_true, bne_iff_ne] at hr
    obtain ⟨⟨hk, hi⟩, hp⟩ := hr
    obtain ⟨st', ts, e1, e2, e3, e4, e5, e6⟩ := back hv _ _ k .nil h.wf hi
    simp only [e1]
    obtain ⟨i, hi1, rfl, hi2⟩ := has_iff.mp e3
    have hs := (checks hv _).start i hi1
    unfold checkStart at hs
    rw [hi2] at hs
    simp only [bne_self_eq_false, Bool.false_or, if_neg hk] at hs
    cases hg : (A.state (topOf st')).gotos.lookup (A.lhs i.rule) with
    | none => rw [hg] at hs; cases hs
    | some g =>
      rw [hg] at hs
      have hs : A.potOf g ≤ A.bound.getD i.rule 0 := by simpa using hs
      have ht := ((checks hv _).goto _ (lookup_pair hg)).2
      refine ⟨⟨⟨e2, _, ht, .rule hk (rule_get (rule_lt hv e3)) ?_⟩, ?_⟩, ?_⟩
      · have := e4 [] .nil
        rwa [List.take_of_length_le (Nat.le_refl _), List.append_nil] at this
      · have := h.yield
        simp only [Trees.yield, List.append_nil] at e5
        simpa [stackYield, Tree.yield, ← e5] using this
      · refine .right _ ?_
        show st'.length + 1 + A.potOf g < c.stack.length + A.potOf (topOf c.stack)
        split at hp
        · rename_i h0
          have : st' = c.stack := by
            rw [h0] at e1
            unfold popTrees at e1
            cases e1
            rfl
          rw [← this, hg] at hp
          have hp : A.potOf g + 2 ≤ A.potOf (topOf st') := by simpa using hp
          rw [← this]
          omega
        · have hp : A.bound.getD i.rule 0 + 2 ≤ A.potOf (topOf c.stack) + (A.rhs i.rule).length := by simpa using hp
          omega
  | accept =>
    obtain ⟨h1, h2⟩ := LrState.act_accept ha
    have hn := look_nil hin h2
    obtain ⟨st', ts, e1, e2, e3, e4, e5, e6⟩ := back hv _ _ 0 .nil h.wf ((checks hv _).accept h1)
    have h0 : topOf st' = 0 := by
      obtain ⟨i, hi1, hi0, hi2⟩ := has_iff.mp e3
      have hs := (checks hv _).start i hi1
      unfold checkStart at hs
      rw [hi2, hi0] at hs
      simpa using hs
    obtain ⟨stack, input⟩ := c
    obtain rfl : input = [] := hn
    have hst : st' = [] := by
      cases st' with
      | nil => rfl
      | cons a st' =>
        obtain ⟨_, x, hx, _⟩ := e2
        exact absurd h0 (trans_ne hx)
    subst hst
    cases stack with
    | nil => simp at e6
    | cons a st =>
      cases st with
      | cons b st => simp at e6
      | nil =>
        obtain ⟨q, t⟩ := a
        obtain ⟨_, x, hx, ht⟩ := h.wf
        obtain ⟨_, hr⟩ := trans_back hx ((checks hv _).accept h1)
        have hy := h.yield
        refine ⟨?_, by simpa [stackYield] using hy⟩
        rw [List.getD_eq_getElem?_getD, hr]
        exact ht

/-- The automaton comes to an end. -/
theorem halts (hv : A.valid = true) {w : List Tk} (hw : Codes code w) (c : PCfg) (h : Inv A code w c) :
    ∃ n r, A.prun code n c = some r ∧ ∀ t, r = some t → NDer A.rules code ((A.rhs 0).getD 0 0) t ∧ t.yield = w := by
  have hi := pstep_inv hv hw h
  cases hp : A.pstep code c with
  | stuck => rw [hp] at hi; exact hi.elim
  | error => exact ⟨1, none, by simp only [prun, hp], fun t h => nomatch h⟩
  | accept t =>
    rw [hp] at hi
    exact ⟨1, some t, by simp only [prun, hp], fun t h => by cases h; exact hi⟩
  | next c' =>
    have hi' : Inv A code w c' ∧ Prod.Lex (· < ·) (· < ·) (A.meas c') (A.meas c) := by rw [hp] at hi; exact hi
    obtain ⟨n, r, h1, h2⟩ := halts hv hw c' hi'.1
    exact ⟨n + 1, r, by simp only [prun, hp]; exact h1, h2⟩
termination_by A.meas c
decreasing_by exact hi'.2

theorem prun_mono {c : PCfg} {r : Option Tree} : ∀ {n m : Nat}, A.prun code n c = some r → n ≤ m → A.prun code m c = some r
  | 0, m, h, _ => by cases h
  | n + 1, 0, _, h => absurd h (by simp)
  | n + 1, m + 1, h, hm => by
    rw [prun] at h ⊢
    cases hp : A.pstep code c with
    | next c' => rw [hp] at h; exact prun_mono (c := c') h (by omega)
    | _ => rw [hp] at h; exact h

/-! ### Completeness -/

/-- The automaton gets from one configuration to another. -/
inductive Reaches (A : Lr) (code : String → Nat) : PCfg → PCfg → Prop where
  | refl {c} : Reaches A code c c
  | step {c c' c''} (h : A.pstep code c = .next c') (r : Reaches A code c' c'') : Reaches A code c c''

theorem Reaches.trans {a b c : PCfg} (h : Reaches A code a b) (h' : Reaches A code b c) : Reaches A code a c := by
  induction h with
  | refl => exact h'
  | step e _ ih => exact .step e (ih h')

theorem Reaches.prun {a b : PCfg} (h : Reaches A code a b) {n : Nat} {r : Option Tree} (hb : A.prun code n b = some r) :
    ∃ m, A.prun code m a = some r := by
  induction h with
  | refl => exact ⟨n, hb⟩
  | step e _ ih =>
    obtain ⟨m, hm⟩ := ih hb
    exact ⟨m + 1, by rw [Lr.prun, e]; exact hm⟩

theorem firsts_ok (hv : A.valid = true) {r : Nat × List Nat} (hr : r ∈ A.rules) : A.checkFirst r.1 r.2 = true := by
  unfold valid at hv
  simp only [Bool.and_eq_true, List.all_eq_true] at hv
  exact hv.1.1.1.2 r hr

theorem nonterm_of {r : Nat × List Nat} (hr : r ∈ A.rules) : A.isNonterm r.1 = true :=
  List.any_eq_true.mpr ⟨r, hr, by simp⟩

/-- The tokens that a tree begins with are those it may begin with. -/
def Begins (A : Lr) (code : String → Nat) (x : Nat) (w : List Tk) : Prop :=
  (w = [] → A.nullable x = true) ∧ ∀ y w', w = y :: w' → code y.1 ∈ A.firstOf x

mutual
theorem begins (hv : A.valid = true) {x : Nat} {t : Tree} (h : NDer A.rules code x t) : Begins A code x t.yield := by
  cases h with
  | tok h =>
    rename_i s b
    refine ⟨fun h => (by simp [Tree.yield] at h), fun y w' e => ?_⟩
    simp only [Tree.yield, List.cons.injEq] at e
    obtain ⟨rfl, _⟩ := e
    have : A.isNonterm (code s) = false := by
      cases hn : A.isNonterm (code s) with
      | false => rfl
      | true =>
        obtain ⟨r, hr, e⟩ := List.any_eq_true.mp hn
        exact absurd (by simpa using e) (h r hr)
    unfold firstOf
    rw [this]
    exact List.mem_singleton.mpr rfl
  | rule hk h h' =>
    rename_i k r ts
    have hm := List.mem_of_getElem? h
    exact beginsAll hv h' (firsts_ok hv hm)
theorem beginsAll (hv : A.valid = true) {x : Nat} {xs : List Nat} {ts : Trees} (h : NDerAll A.rules code xs ts)
    (hc : A.checkFirst x xs = true) : Begins A code x ts.yield := by
  cases h with
  | nil => exact ⟨fun _ => hc, fun y w' e => by simp [Trees.yield] at e⟩
  | cons h h' =>
    rename_i z zs t ts
    unfold checkFirst at hc
    simp only [Bool.and_eq_true, List.all_eq_true, Bool.or_eq_true, Bool.not_eq_true', List.contains_iff_mem] at hc
    obtain ⟨b1, b2⟩ := begins hv h
    have hb : t.yield = [] → Begins A code x ts.yield := fun e =>
      beginsAll hv h' (hc.2.resolve_left (by rw [b1 e]; decide))
    rw [Trees.yield]
    cases hy : t.yield with
    | nil => exact hb hy
    | cons y w =>
      refine ⟨(fun h => nomatch h), fun y' w' e => ?_⟩
      cases e
      exact hc.1 _ (b2 y w hy)
end

theorem look_follow (hv : A.valid = true) : ∀ {xs : List Nat} {ts : Trees}, NDerAll A.rules code xs ts → ∀ {w : List Tk} {las : List Nat},
    lookOf code w ∈ las → lookOf code (ts.yield ++ w) ∈ A.follow xs las
  | [], _, .nil, w, las, h => h
  | x :: xs, _, .cons (t := t) (ts := ts) h h', w, las, hl => by
    obtain ⟨b1, b2⟩ := begins hv h
    rw [Trees.yield, follow]
    cases hy : t.yield with
    | nil =>
      rw [if_pos (b1 hy)]
      exact List.mem_append_right _ (look_follow hv h' hl)
    | cons y w' => exact List.mem_append_left _ (b2 y w' hy)

theorem item_step (hv : A.valid = true) {q : Nat} {i : LrItem} (hi : i ∈ A.itemsOf q) {x : Nat} (hx : (A.rhs i.rule)[i.dot]? = some x) :
    (∃ p, A.trans q x = some p ∧ ∃ j ∈ A.itemsOf p, j.rule = i.rule ∧ j.dot = i.dot + 1 ∧ ∀ a ∈ i.las, a ∈ j.las) ∧
    (A.isNonterm x = true → ∀ k, k < A.rules.length → A.lhs k = x → ∃ j ∈ A.itemsOf q, j.rule = k ∧ j.dot = 0 ∧
      ∀ a ∈ A.follow ((A.rhs i.rule).drop (i.dot + 1)) i.las, a ∈ j.las) := by
  have := (checks hv q).item i hi
  unfold checkItem at this
  rw [hx] at this
  simp only [Bool.and_eq_true, Bool.or_eq_true, Bool.not_eq_true', List.all_eq_true, List.mem_range, bne_iff_ne] at this
  obtain ⟨_, h1, h2⟩ := this
  refine ⟨?_, fun hn k hk e => ?_⟩
  · cases ht : A.trans q x with
    | none => rw [ht] at h1; cases h1
    | some p =>
      rw [ht] at h1
      exact ⟨p, rfl, hasWith_iff.mp h1⟩
  · rcases h2 with h2 | h2
    · exact absurd (h2.symm.trans hn) (by simp)
    · exact hasWith_iff.mp ((h2 k hk).resolve_left fun h => h e)

theorem item_end (hv : A.valid = true) {q : Nat} {i : LrItem} (hi : i ∈ A.itemsOf q) (hx : (A.rhs i.rule).length ≤ i.dot) {a : Nat}
    (ha : a ∈ i.las) : if i.rule = 0 then a = 0 ∧ (A.state q).act a = .accept else (A.state q).act a = .reduce i.rule := by
  have := (checks hv q).item i hi
  unfold checkItem at this
  rw [List.getElem?_eq_none hx] at this
  simp only [Bool.and_eq_true] at this
  obtain ⟨_, _, h⟩ := this
  split
  · rename_i e
    rw [if_pos e] at h
    simp only [List.all_eq_true, Bool.and_eq_true, beq_iff_eq] at h
    refine ⟨(h a ha).1, ?_⟩
    have := (h a ha).2
    cases hs : (A.state q).act a <;> rw [hs] at this <;> first | rfl | cases this
  · rename_i e
    rw [if_neg e] at h
    simp only [List.all_eq_true] at h
    have := h a ha
    cases hs : (A.state q).act a with
    | reduce k => rw [hs] at this; rw [eq_of_beq this]
    | _ => rw [hs] at this; cases this

theorem pop_succ : ∀ {n : Nat} {st st' : List (Nat × Tree)} {q : Nat} {t : Tree} {acc us : Trees},
    popTrees n st acc = some ((q, t) :: st', us) → popTrees (n + 1) st acc = some (st', .cons t us)
  | 0, st, st', q, t, acc, us, h => by
    cases h
    rfl
  | n + 1, [], st', q, t, acc, us, h => by cases h
  | n + 1, (_, a) :: st, st', q, t, acc, us, h => by
    rw [popTrees] at h ⊢
    exact pop_succ (n := n) h

mutual
/-- The automaton goes over a derivation. -/
theorem go_tree (hv : A.valid = true) {x : Nat} {t : Tree} (h : NDer A.rules code x t) {stack : List (Nat × Tree)} {w : List Tk}
    {q : Nat} (ht : A.trans (topOf stack) x = some q) (hi : ∀ k ts, t = .node k ts → ∃ i ∈ A.itemsOf (topOf stack), i.rule = k ∧
      i.dot = 0 ∧ lookOf code w ∈ i.las) : Reaches A code ⟨stack, t.yield ++ w⟩ ⟨(q, t) :: stack, w⟩ := by
  cases h with
  | tok h =>
    rename_i s b
    have hn : A.isNonterm (code s) = false := by
      cases hn : A.isNonterm (code s) with
      | false => rfl
      | true =>
        obtain ⟨r, hr, e⟩ := List.any_eq_true.mp hn
        exact absurd (by simpa using e) (h r hr)
    unfold trans at ht
    rw [hn] at ht
    refine .step ?_ .refl
    have ha : (A.state (topOf stack)).act (code s) = .shift q := by
      unfold LrState.act
      rw [if_neg (by simp)] at ht
      rw [ht]
    show A.pstep code ⟨stack, (s, b) :: w⟩ = _
    unfold pstep
    simp only [lookOf, ha]
  | rule hk h h' =>
    rename_i k r ts
    obtain ⟨i, hi1, rfl, hi2, hi3⟩ := hi k ts rfl
    have hlt : i.rule < A.rules.length := (List.getElem?_eq_some_iff.mp h).1
    have hr : r = (A.lhs i.rule, A.rhs i.rule) := Option.some.inj (h.symm.trans (rule_get hlt))
    subst hr
    obtain ⟨st', j, r1, j1, j2, j3, j4, j5⟩ := go_trees hv (i := i) h' (by rw [hi2]; rfl) (stack := stack) hi1 hi3
    refine r1.trans (.step ?_ .refl)
    have ha := item_end hv j1 (by rw [j2, j3]; exact Nat.le_refl _) j4
    rw [if_neg (by rw [j2]; exact hk), j2] at ha
    have hg : (A.state (topOf stack)).gotos.lookup (A.lhs i.rule) = some q := by
      unfold trans at ht
      rw [if_pos (nonterm_of (List.mem_of_getElem? h))] at ht
      exact ht
    have hp := j5 .nil
    rw [hi2, Nat.sub_zero] at hp
    unfold pstep
    simp only [ha, hp, hg]
    have : ts.app .nil = ts := Trees.app_nil ts
    rw [this]
theorem go_trees (hv : A.valid = true) {i : LrItem} {xs : List Nat} {ts : Trees} (h : NDerAll A.rules code xs ts)
    (hxs : (A.rhs i.rule).drop i.dot = xs) {stack : List (Nat × Tree)} {w : List Tk} (hi : i ∈ A.itemsOf (topOf stack)) (ha : lookOf code w ∈ i.las) :
    ∃ st' j, Reaches A code ⟨stack, ts.yield ++ w⟩ ⟨st', w⟩ ∧ j ∈ A.itemsOf (topOf st') ∧ j.rule = i.rule ∧
      j.dot = (A.rhs i.rule).length ∧ lookOf code w ∈ j.las ∧
      ∀ acc, popTrees ((A.rhs i.rule).length - i.dot) st' acc = some (stack, ts.app acc) := by
  cases h with
  | nil =>
    have hl : (A.rhs i.rule).length ≤ i.dot := List.drop_eq_nil_iff.mp hxs
    refine ⟨stack, i, .refl, hi, rfl, ?_, ha, fun acc => ?_⟩
    · have := (checks hv _).item i hi
      unfold checkItem at this
      rw [List.getElem?_eq_none hl] at this
      simp only [Bool.and_eq_true, beq_iff_eq] at this
      exact this.2.1
    · rw [Nat.sub_eq_zero_of_le hl]
      rfl
  | cons h h' =>
    rename_i x xs t ts
    have hx : (A.rhs i.rule)[i.dot]? = some x := by
      have : ((A.rhs i.rule).drop i.dot)[0]? = some x := by rw [hxs]; rfl
      simpa using this
    have hd : (A.rhs i.rule).drop (i.dot + 1) = xs := by
      rw [← List.tail_drop, hxs]
      rfl
    have hlt : i.dot < (A.rhs i.rule).length := (List.getElem?_eq_some_iff.mp hx).1
    obtain ⟨⟨p, hp, j, j1, j2, j3, j4⟩, hn⟩ := item_step hv hi hx
    have r1 : Reaches A code ⟨stack, t.yield ++ (ts.yield ++ w)⟩ ⟨(p, t) :: stack, ts.yield ++ w⟩ := by
      refine go_tree hv h hp fun k us e => ?_
      subst e
      cases h with
      | rule hk hr hr2 =>
        rename_i r
        have hlt : k < A.rules.length := (List.getElem?_eq_some_iff.mp hr).1
        have hr' : r = (A.lhs k, A.rhs k) := Option.some.inj (hr.symm.trans (rule_get hlt))
        obtain ⟨j, j1, j2, j3, j4⟩ := hn (nonterm_of (List.mem_of_getElem? hr)) k hlt (by rw [hr'])
        exact ⟨j, j1, j2, j3, j4 _ (by rw [hd]; exact look_follow hv h' ha)⟩
    obtain ⟨st', l, r2, l1, l2, l3, l4, l5⟩ := go_trees hv (i := j) h' (by rw [j2, j3]; exact hd) (stack := (p, t) :: stack) (w := w)
      j1 (j4 _ ha)
    refine ⟨st', l, ?_, l1, l2.trans j2, l3.trans (by rw [j2]), l4, fun acc => ?_⟩
    · rw [Trees.yield, List.append_assoc]
      exact r1.trans r2
    · have := pop_succ (l5 acc)
      rw [j2, j3] at this
      rw [show (A.rhs i.rule).length - i.dot = (A.rhs i.rule).length - (i.dot + 1) + 1 by omega]
      exact this
end

/-- Of any valid table: the automaton comes to an end, and its result is the derivation, if there is one. -/
theorem correct (hv : A.valid = true) {w : List Tk} (hw : Codes code w) :
    ∃ n r, (∀ m, n ≤ m → A.prun code m ⟨[], w⟩ = some r) ∧
      ∀ t, r = some t ↔ NDer A.rules code ((A.rhs 0).getD 0 0) t ∧ t.yield = w := by
  obtain ⟨n, r, h1, h2⟩ := halts hv hw ⟨[], w⟩ ⟨trivial, rfl⟩
  refine ⟨n, r, fun m hm => prun_mono h1 hm, fun t => ⟨h2 t, fun ⟨hd, hy⟩ => ?_⟩⟩
  obtain ⟨i, i1, i2, i3, i4⟩ := start_item hv
  have hl := start_len hv
  have hx : (A.rhs i.rule)[i.dot]? = some ((A.rhs 0).getD 0 0) := by
    rw [i2, i3, List.getD_eq_getElem?_getD]
    cases h : A.rhs 0 with
    | nil => rw [h] at hl; cases hl
    | cons a l => rfl
  obtain ⟨⟨p, hp, j, j1, j2, j3, j4⟩, hn⟩ := item_step hv i1 hx
  have hr : Reaches A code ⟨[], t.yield ++ []⟩ ⟨[(p, t)], []⟩ := by
    refine go_tree hv hd hp fun k us e => ?_
    subst e
    generalize hs : (A.rhs 0).getD 0 0 = s at hd
    cases hd with
    | rule hk hr hr2 =>
      rename_i r
      have hlt : k < A.rules.length := (List.getElem?_eq_some_iff.mp hr).1
      have hr' : r = (A.lhs k, A.rhs k) := Option.some.inj (hr.symm.trans (rule_get hlt))
      rw [hs] at hn
      obtain ⟨j, j1, j2, j3, j4⟩ := hn (nonterm_of (List.mem_of_getElem? hr)) k hlt (by rw [hr'])
      refine ⟨j, j1, j2, j3, j4 _ ?_⟩
      rw [i2, i3, List.drop_eq_nil_of_le (by rw [hl]; exact Nat.le_refl _)]
      exact i4
  rw [List.append_nil, hy] at hr
  have ha := item_end hv (a := 0) j1 (by rw [j2, j3, i2, i3, hl]; exact Nat.le_refl _) (j4 _ i4)
  rw [if_pos (j2.trans i2)] at ha
  obtain ⟨m, hm⟩ := hr.prun (n := 1) (r := some t) (by
    rw [Lr.prun]
    have : A.pstep code ⟨[(p, t)], []⟩ = .accept t := by
      unfold pstep
      have : (A.state (topOf [(p, t)])).act (lookOf code []) = .accept := ha.2
      simp only [this]
    rw [this])
  have := prun_mono hm (Nat.le_max_left m n)
  exact Option.some.inj ((prun_mono h1 (Nat.le_max_right m n)).symm.trans this)
end Lr

end Verif.Lang
