/-
Derivations of the grammar xdr.y, and running the actions of one.
-/
import Verif.Lang.OutRun
import Verif.Lang.Mono
import Verif.Text.XdrGrammar

namespace Verif.Lang
open Verif.Text Verif.Gen

/-! ### Trees -/

mutual
/-- A derivation: a token with the text that the scanner gives with it, or a rule (the first one is number 1) and the
derivations of the symbols on its right-hand side. -/
inductive Tree where
  | tok (s : String) (b : List UInt8)
  | node (k : Nat) (ts : Trees)
inductive Trees where
  | nil
  | cons (t : Tree) (ts : Trees)
end

mutual
/-- The tokens of a derivation. -/
def Tree.yield : Tree → List (String × List UInt8)
  | .tok s b => [(s, b)]
  | .node _ ts => ts.yield
def Trees.yield : Trees → List (String × List UInt8)
  | .nil => []
  | .cons t ts => t.yield ++ ts.yield
end

mutual
/-- A tree is a derivation of a symbol. -/
inductive Derives (G : Grammar) : String → Tree → Prop where
  | tok {s b} (h : ∀ r ∈ G.rules, r.lhs ≠ s) : Derives G s (.tok s b)
  | rule {k r ts} (h : G.rules[k]? = some r) (h' : DerivesAll G r.rhs ts) : Derives G r.lhs (.node (k + 1) ts)
inductive DerivesAll (G : Grammar) : List String → Trees → Prop where
  | nil : DerivesAll G [] .nil
  | cons {s ss t ts} (h : Derives G s t) (h' : DerivesAll G ss ts) : DerivesAll G (s :: ss) (.cons t ts)
end

/-- The rule has an action. -/
def Grammar.acts (G : Grammar) (k : Nat) : Bool := ((G.rules[k - 1]?).map (·.act)).getD false

mutual
/-- What the parser does with a derivation: it reduces by the rules from left to right and from below, and runs the action
of each with the values of the symbols on its right-hand side that have one. -/
def Tree.run (G : Grammar) (E : Ext Log) (n : Nat) : Tree → M Log (List V)
  | .tok s b => pure (if G.tagged.contains s then [.str b] else [])
  | .node k ts => do
    let vs ← ts.run G E n
    if G.acts k then callN genProg E n (.fn "main" ("xdrAct" ++ toString k)) vs else pure []
def Trees.run (G : Grammar) (E : Ext Log) (n : Nat) : Trees → M Log (List V)
  | .nil => pure []
  | .cons t ts => do
    let v ← t.run G E n
    let vs ← ts.run G E n
    pure (v ++ vs)
end

/-! ### What a value is made of -/

/-- The property holds of memory in which some cells from `lo` on are as they are now. -/
def Built (lo : Nat) (st : St Log) (P : (Nat → V) → Nat → Prop) : Prop :=
  ∃ S : Nat → Prop, (∀ j, S j → lo ≤ j ∧ j < st.next) ∧
    ∀ H n, st.next ≤ n → (∀ j, S j → H j = st.heap j) → P H n

theorem Built.pure {lo : Nat} {st : St Log} {P : (Nat → V) → Nat → Prop} (h : ∀ H n, P H n) : Built lo st P :=
  ⟨fun _ => False, fun _ h => h.elim, fun _ _ _ _ => h _ _⟩

theorem Built.imp {lo : Nat} {st : St Log} {P Q : (Nat → V) → Nat → Prop} (h : Built lo st P) (hq : ∀ H n, P H n → Q H n) :
    Built lo st Q := by
  obtain ⟨S, h1, h2⟩ := h
  exact ⟨S, h1, fun H n a b => hq H n (h2 H n a b)⟩

theorem Built.mono {lo lo' : Nat} {st : St Log} {P : (Nat → V) → Nat → Prop} (h : Built lo st P) (hl : lo' ≤ lo) :
    Built lo' st P := by
  obtain ⟨S, h1, h2⟩ := h
  exact ⟨S, fun j hj => ⟨Nat.le_trans hl (h1 j hj).1, (h1 j hj).2⟩, h2⟩

theorem Built.over {lo : Nat} {st st' : St Log} {P : (Nat → V) → Nat → Prop} (h : Built lo st P) (o : Over st st') :
    Built lo st' P := by
  obtain ⟨S, h1, h2⟩ := h
  exact ⟨S, fun j hj => ⟨(h1 j hj).1, Nat.lt_of_lt_of_le (h1 j hj).2 o.next⟩, fun H n hn hs =>
    h2 H n (Nat.le_trans o.next hn) fun j hj => (hs j hj).trans (o.heap j (h1 j hj).2)⟩

theorem Built.and {lo : Nat} {st : St Log} {P Q : (Nat → V) → Nat → Prop} (h : Built lo st P) (h' : Built lo st Q) :
    Built lo st fun H n => P H n ∧ Q H n := by
  obtain ⟨S, h1, h2⟩ := h
  obtain ⟨S', h1', h2'⟩ := h'
  exact ⟨fun j => S j ∨ S' j, fun j hj => hj.elim (h1 j) (h1' j), fun H n hn hs =>
    ⟨h2 H n hn fun j hj => hs j (.inl hj), h2' H n hn fun j hj => hs j (.inr hj)⟩⟩

/-- It holds now. -/
theorem Built.now {lo : Nat} {st : St Log} {P : (Nat → V) → Nat → Prop} (h : Built lo st P) : P st.heap st.next := by
  obtain ⟨S, _, h2⟩ := h
  exact h2 _ _ (Nat.le_refl _) fun _ _ => rfl

/-- A slice with an array of its own, of whose elements the property holds. -/
def BuiltSlice (lo : Nat) (st : St Log) (v : V) (P : (Nat → V) → Nat → List V → Prop) : Prop :=
  ∃ c len cap arr, v = .slice ⟨⟨c, []⟩, 0, len, cap⟩ ∧ (lo ≤ c ∧ c < st.next) ∧ st.heap c = .vals arr ∧
    cap ≤ arr.length ∧ len ≤ cap ∧
    ∃ S : Nat → Prop, ¬ S c ∧ (∀ j, S j → lo ≤ j ∧ j < st.next) ∧
      ∀ H n, st.next ≤ n → (∀ j, S j → H j = st.heap j) → P H n (arr.take len)

/-- The same, or nil. -/
def BuiltList (lo : Nat) (st : St Log) (v : V) (P : (Nat → V) → Nat → List V → Prop) : Prop :=
  (v = .nil ∧ Built lo st fun H n => P H n []) ∨ BuiltSlice lo st v P

theorem BuiltSlice.built {lo : Nat} {st : St Log} {v : V} {P : (Nat → V) → Nat → List V → Prop} (h : BuiltSlice lo st v P) :
    Built lo st fun H n => ∃ s vs, v = .slice s ∧ IsSlice H n s vs ∧ P H n vs := by
  obtain ⟨c, len, cap, arr, rfl, hc, he, h1, h2, S, hS, hl, hP⟩ := h
  refine ⟨fun j => j = c ∨ S j, ?_, fun H n hn hs => ⟨_, _, rfl, ⟨Nat.lt_of_lt_of_le hc.2 hn, ⟨arr, ?_, rfl⟩, ?_⟩,
    hP H n hn fun j hj => hs j (.inr hj)⟩⟩
  · rintro j (rfl | hj)
    · exact hc
    · exact hl j hj
  · show (H c).at [] = _
    rw [hs c (.inl rfl), he]
    rfl
  · show len = ((arr.drop 0).take len).length
    simp; omega

theorem BuiltList.built {lo : Nat} {st : St Log} {v : V} {P : (Nat → V) → Nat → List V → Prop} (h : BuiltList lo st v P) :
    Built lo st fun H n => ∃ vs, IsList H n v vs ∧ P H n vs := by
  rcases h with ⟨rfl, h⟩ | h
  · exact h.imp fun H n h => ⟨_, .inl ⟨rfl, rfl⟩, h⟩
  · exact h.built.imp fun H n ⟨s, vs, e, h, hp⟩ => ⟨vs, .inr ⟨s, e, h⟩, hp⟩

theorem BuiltSlice.imp {lo : Nat} {st : St Log} {v : V} {P Q : (Nat → V) → Nat → List V → Prop} (h : BuiltSlice lo st v P)
    (hq : ∀ H n vs, P H n vs → Q H n vs) : BuiltSlice lo st v Q := by
  obtain ⟨c, len, cap, arr, rfl, hc, he, h1, h2, S, hS, hl, hP⟩ := h
  exact ⟨c, len, cap, arr, rfl, hc, he, h1, h2, S, hS, hl, fun H n a b => hq _ _ _ (hP H n a b)⟩

theorem BuiltList.imp {lo : Nat} {st : St Log} {v : V} {P Q : (Nat → V) → Nat → List V → Prop} (h : BuiltList lo st v P)
    (hq : ∀ H n vs, P H n vs → Q H n vs) : BuiltList lo st v Q := by
  rcases h with ⟨rfl, h⟩ | h
  · exact .inl ⟨rfl, h.imp fun H n h => hq _ _ _ h⟩
  · exact .inr (h.imp hq)

theorem BuiltSlice.over {lo : Nat} {st st' : St Log} {v : V} {P : (Nat → V) → Nat → List V → Prop} (h : BuiltSlice lo st v P)
    (o : Over st st') : BuiltSlice lo st' v P := by
  obtain ⟨c, len, cap, arr, rfl, hc, he, h1, h2, S, hS, hl, hP⟩ := h
  exact ⟨c, len, cap, arr, rfl, ⟨hc.1, Nat.lt_of_lt_of_le hc.2 o.next⟩, (o.heap c hc.2).trans he, h1, h2, S, hS,
    fun j hj => ⟨(hl j hj).1, Nat.lt_of_lt_of_le (hl j hj).2 o.next⟩, fun H n hn hs =>
      hP H n (Nat.le_trans o.next hn) fun j hj => (hs j hj).trans (o.heap j (hl j hj).2)⟩

theorem BuiltList.over {lo : Nat} {st st' : St Log} {v : V} {P : (Nat → V) → Nat → List V → Prop} (h : BuiltList lo st v P)
    (o : Over st st') : BuiltList lo st' v P := by
  rcases h with ⟨rfl, h⟩ | h
  · exact .inl ⟨rfl, h.over o⟩
  · exact .inr (h.over o)

theorem BuiltSlice.mono {lo lo' : Nat} {st : St Log} {v : V} {P : (Nat → V) → Nat → List V → Prop} (h : BuiltSlice lo st v P)
    (hl' : lo' ≤ lo) : BuiltSlice lo' st v P := by
  obtain ⟨c, len, cap, arr, rfl, hc, he, h1, h2, S, hS, hl, hP⟩ := h
  exact ⟨c, len, cap, arr, rfl, ⟨Nat.le_trans hl' hc.1, hc.2⟩, he, h1, h2, S, hS,
    fun j hj => ⟨Nat.le_trans hl' (hl j hj).1, (hl j hj).2⟩, hP⟩

theorem BuiltList.mono {lo lo' : Nat} {st : St Log} {v : V} {P : (Nat → V) → Nat → List V → Prop} (h : BuiltList lo st v P)
    (hl' : lo' ≤ lo) : BuiltList lo' st v P := by
  rcases h with ⟨rfl, h⟩ | h
  · exact .inl ⟨rfl, h.mono hl'⟩
  · exact .inr (h.mono hl')

/-! ### `append` -/

theorem append_spec {grow : Nat → Nat → Nat} {lo : Nat} {st1 st2 : St Log} {v w : V} {P : (Nat → V) → Nat → List V → Prop}
    {Q : (Nat → V) → Nat → Prop} (hlo : lo ≤ st1.next) (hv : BuiltList lo st1 v P) (o : Over st1 st2)
    (hw : Built st1.next st2 Q) :
    ∃ v' st3, appendElem grow v w st2 = .ok (v', st3) ∧ st3.world = st2.world ∧ st3.defers = st2.defers ∧
      st2.next ≤ st3.next ∧ (∀ j, j < lo → st3.heap j = st2.heap j) ∧
      BuiltSlice lo st3 v' fun H n vs => ∃ l, vs = l ++ [w] ∧ P H n l ∧ Q H n := by
  obtain ⟨Sw, hSw, hQ⟩ := hw
  have key : ∀ (l : List V) (m : Nat) (S : Nat → Prop), l.length = m → (∀ j, S j → lo ≤ j ∧ j < st2.next) →
      (∀ H n, st2.next ≤ n → (∀ j, S j → H j = st2.heap j) → P H n l) → ∀ g : List V,
      BuiltSlice lo { st2 with heap := fun j => if j = st2.next then .vals (l ++ [w] ++ g) else st2.heap j, next := st2.next + 1 }
        (.slice ⟨⟨st2.next, []⟩, 0, m + 1, g.length + (m + 1)⟩) fun H n vs => ∃ l, vs = l ++ [w] ∧ P H n l ∧ Q H n := by
    intro l m S hm hS hP g
    refine ⟨st2.next, m + 1, _, l ++ [w] ++ g, rfl, ⟨Nat.le_trans hlo o.next, Nat.lt_succ_self _⟩, if_pos rfl, by simp; omega,
      by omega, fun j => S j ∨ Sw j, ?_, ?_, ?_⟩
    · rintro (h | h)
      · exact absurd (hS _ h).2 (Nat.lt_irrefl _)
      · exact absurd (hSw _ h).2 (Nat.lt_irrefl _)
    · rintro j (h | h)
      · exact ⟨(hS j h).1, Nat.lt_succ_of_lt (hS j h).2⟩
      · exact ⟨Nat.le_trans hlo (hSw j h).1, Nat.lt_succ_of_lt (hSw j h).2⟩
    · intro H n hn hs
      have hn : st2.next + 1 ≤ n := hn
      have e : ∀ j, j < st2.next → (S j ∨ Sw j) → H j = st2.heap j := fun j hj h => (hs j h).trans (if_neg (Nat.ne_of_lt hj))
      refine ⟨l, ?_, hP H n (by omega) fun j hj => e j (hS j hj).2 (.inl hj), hQ H n (by omega) fun j hj => e j (hSw j hj).2 (.inr hj)⟩
      rw [List.take_append_of_le_length (by simp; omega), List.take_of_length_le (by simp; omega)]
  rcases hv with ⟨rfl, S, hS, hP⟩ | ⟨c, len, cap, arr, rfl, hc, he, h1, h2, S, hSc, hS, hP⟩
  · refine ⟨_, _, rfl, rfl, rfl, Nat.le_succ _, fun j hj => if_neg (Nat.ne_of_lt (Nat.lt_of_lt_of_le hj (Nat.le_trans hlo o.next))), ?_⟩
    have := key [] 0 S rfl (fun j hj => ⟨(hS j hj).1, Nat.lt_of_lt_of_le (hS j hj).2 o.next⟩) (fun H n hn hs =>
      hP H n (Nat.le_trans o.next hn) fun j hj => (hs j hj).trans (o.heap j (hS j hj).2)) (List.replicate (grow 0 1 - 1) .nil)
    rw [List.length_replicate] at this
    exact this
  · have e2 : st2.heap c = .vals arr := (o.heap c hc.2).trans he
    have hld : load (⟨c, []⟩ : Loc) st2 = .ok (.vals arr, st2) := by
      have : st2.at ⟨c, []⟩ = some (.vals arr) := by
        show (st2.heap c).at [] = _
        rw [e2]; rfl
      unfold load
      rw [this]
    unfold appendElem
    dsimp only
    show ∃ v' st3, M.bind (load ⟨c, []⟩) _ st2 = _ ∧ _
    unfold M.bind
    rw [hld]
    dsimp only
    rw [if_pos ⟨by omega, h2⟩]
    by_cases hg : len + 1 ≤ cap
    · rw [if_pos hg]
      refine ⟨.slice ⟨⟨c, []⟩, 0, len + 1, cap⟩, st2.set c (.vals (arr.set len w)), ?_, rfl, rfl, Nat.le_refl _, ?_, ?_⟩
      · show M.bind (storeRaw ⟨c, []⟩ (.vals (arr.set (0 + len) w))) _ st2 = _
        unfold M.bind storeRaw
        rw [Nat.zero_add]
        rfl
      · intro j hj
        exact if_neg (by omega)
      · refine ⟨c, len + 1, cap, arr.set len w, rfl, ⟨hc.1, Nat.lt_of_lt_of_le hc.2 o.next⟩, if_pos rfl, by simpa using h1, hg,
          fun j => S j ∨ Sw j, ?_, ?_, ?_⟩
        · rintro (h | h)
          · exact hSc h
          · have := (hSw _ h).1; omega
        · rintro j (h | h)
          · exact ⟨(hS j h).1, Nat.lt_of_lt_of_le (hS j h).2 o.next⟩
          · exact ⟨Nat.le_trans hlo (hSw j h).1, (hSw j h).2⟩
        · intro H n hn hs
          have e : ∀ j, j ≠ c → (S j ∨ Sw j) → H j = st2.heap j := fun j hj h => (hs j h).trans (if_neg hj)
          refine ⟨arr.take len, ?_, hP H n (Nat.le_trans o.next hn) fun j hj => ?_, hQ H n hn fun j hj => ?_⟩
          · rw [List.take_set]
            have hl : (arr.take len).length = len := by simp; omega
            rw [List.take_succ_eq_append_getElem (by omega), List.set_append, hl, if_neg (Nat.lt_irrefl _), Nat.sub_self]
            rfl
          · exact (e j (fun h => hSc (h ▸ hj)) (.inl hj)).trans (o.heap j (hS j hj).2)
          · refine e j (fun h => ?_) (.inr hj)
            have := (hSw j hj).1
            omega
    · rw [if_neg hg]
      refine ⟨_, _, rfl, rfl, rfl, Nat.le_succ _, fun j hj => if_neg (Nat.ne_of_lt (Nat.lt_of_lt_of_le hj (Nat.le_trans hlo o.next))), ?_⟩
      have := key (arr.take len) len S (by simp; omega) (fun j hj => ⟨(hS j hj).1, Nat.lt_of_lt_of_le (hS j hj).2 o.next⟩) (fun H n hn hs =>
        hP H n (Nat.le_trans o.next hn) fun j hj => (hs j hj).trans (o.heap j (hS j hj).2)) (List.replicate (grow cap (len + 1) - (len + 1)) .nil)
      rw [List.length_replicate] at this
      have hl : ((arr.drop 0).take len ++ [w]).length = len + 1 := by simp; omega
      rw [hl]
      exact this

end Verif.Lang
