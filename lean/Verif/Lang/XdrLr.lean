/-
The tables of xdr.y: they are valid, and their rules are those of the file.
-/
import Verif.Lang.XdrTable
import Verif.Lang.Derive
import Verif.Lang.LexAll

namespace Verif.Lang
open Verif.Text

theorem xdrLr_valid : xdrLr.valid = true := by decide +kernel

/-- The number of a symbol; 1 is no symbol. -/
def ycode (s : String) : Nat := (xdrSyms.lookup s).getD 1

theorem ycode_mem {s : String} (h : ycode s ≠ 1) : (s, ycode s) ∈ xdrSyms := by
  unfold ycode at h ⊢
  have key : ∀ {l : List (String × Nat)} {v : Nat}, l.lookup s = some v → (s, v) ∈ l := by
    intro l v
    induction l with
    | nil => intro h; cases h
    | cons a l ih =>
      intro h
      obtain ⟨c, d⟩ := a
      rw [List.lookup_cons] at h
      cases hc : s == c with
      | true => rw [hc] at h; cases h; rw [eq_of_beq hc]; exact List.mem_cons_self
      | false => rw [hc] at h; exact List.mem_cons_of_mem _ (ih h)
  cases hl : xdrSyms.lookup s with
  | none => rw [hl] at h; exact absurd rfl h
  | some v => exact key hl

theorem syms_inj : ∀ p ∈ xdrSyms, ∀ q ∈ xdrSyms, p.2 = q.2 → p = q := by decide +kernel
theorem syms_ne : ∀ p ∈ xdrSyms, p.2 ≠ 0 ∧ p.2 ≠ 1 := by decide +kernel

theorem ycode_ne (s : String) : ycode s ≠ 0 := by
  by_cases h : ycode s = 1
  · rw [h]; decide
  · exact (syms_ne _ (ycode_mem h)).1

theorem ycode_inj {s s' : String} (h : ycode s ≠ 1) (e : ycode s' = ycode s) : s' = s := by
  have := syms_inj _ (ycode_mem (e ▸ h)) _ (ycode_mem h) e
  exact congrArg Prod.fst this

theorem rules_xdr : xdrRules = (999, [ycode "spec"]) :: xdrGrammar.rules.map fun r => (ycode r.lhs, r.rhs.map ycode) := by
  decide +kernel

theorem rules_syms : ∀ r ∈ xdrGrammar.rules, ycode r.lhs ≠ 1 ∧ ∀ s ∈ r.rhs, ycode s ≠ 1 := by decide +kernel

theorem tok_code (x : XTok) : (ycode (tokSym x) : Int) = symCode (tokSym x) :=
  (by decide +kernel : ∀ s ∈ tokSyms, (ycode s : Int) = symCode s) _ (tokSym_mem x)

theorem lhs_code {s : String} {r : Nat × List Nat} (hr : r ∈ xdrRules) (h : r.1 = ycode s) : ∃ r ∈ xdrGrammar.rules, r.lhs = s := by
  rw [rules_xdr] at hr
  rcases List.mem_cons.mp hr with rfl | hr
  · have : ∀ p ∈ xdrSyms, p.2 ≠ 999 := by decide +kernel
    by_cases h1 : ycode s = 1
    · rw [h1] at h; cases h
    · exact absurd h.symm (this _ (ycode_mem h1))
  · obtain ⟨r', h', rfl⟩ := List.mem_map.mp hr
    exact ⟨r', h', (ycode_inj (rules_syms r' h').1 h.symm).symm⟩

theorem rule_code {k : Nat} {r : GRule} (h : xdrGrammar.rules[k]? = some r) : xdrRules[k + 1]? = some (ycode r.lhs, r.rhs.map ycode) := by
  rw [rules_xdr, List.getElem?_cons_succ, List.getElem?_map, h]
  rfl

mutual
theorem der_code {s : String} {t : Tree} (h : Derives xdrGrammar s t) : NDer xdrRules ycode (ycode s) t := by
  cases h with
  | tok h =>
    refine .tok fun r hr e => ?_
    obtain ⟨r', h', e'⟩ := lhs_code hr e
    exact h r' h' e'
  | rule h h' => exact .rule (by simp) (rule_code h) (derAll_code h')
theorem derAll_code {ss : List String} {ts : Trees} (h : DerivesAll xdrGrammar ss ts) : NDerAll xdrRules ycode (ss.map ycode) ts := by
  cases h with
  | nil => exact .nil
  | cons h h' => exact .cons (der_code h) (derAll_code h')
end

mutual
theorem code_der {x : Nat} {t : Tree} (h : NDer xdrRules ycode x t) {s : String} (hx : x = ycode s) (hs : ycode s ≠ 1) :
    Derives xdrGrammar s t := by
  cases h with
  | tok h =>
    obtain rfl := ycode_inj hs hx
    refine .tok fun r hr e => ?_
    obtain ⟨k, hk⟩ := List.mem_iff_getElem?.mp hr
    exact h _ (List.mem_of_getElem? (rule_code hk)) (by rw [e])
  | rule hk h h' =>
    rename_i k r ts
    cases k with
    | zero => exact absurd rfl hk
    | succ k =>
      rw [rules_xdr, List.getElem?_cons_succ, List.getElem?_map] at h
      cases hg : xdrGrammar.rules[k]? with
      | none => rw [hg] at h; cases h
      | some g =>
        rw [hg] at h
        cases h
        obtain rfl := ycode_inj hs hx
        exact .rule hg (code_derAll h' rfl (rules_syms g (List.mem_of_getElem? hg)).2)
theorem code_derAll {xs : List Nat} {ts : Trees} (h : NDerAll xdrRules ycode xs ts) {ss : List String} (hx : xs = ss.map ycode)
    (hs : ∀ s ∈ ss, ycode s ≠ 1) : DerivesAll xdrGrammar ss ts := by
  cases h with
  | nil =>
    cases ss with
    | nil => exact .nil
    | cons s ss => cases hx
  | cons h h' =>
    cases ss with
    | nil => cases hx
    | cons s ss =>
      simp only [List.map_cons, List.cons.injEq] at hx
      exact .cons (code_der h hx.1 (hs s List.mem_cons_self)) (code_derAll h' hx.2 fun s h => hs s (List.mem_cons_of_mem _ h))
end

/-- An automaton whose tables are valid for the rules of xdr.y comes to an end, and its result is the derivation, if there
is one. -/
theorem xdr_correct {A : Lr} (hv : A.valid = true) (hr : A.rules = xdrRules) (w : List Tk) :
    ∃ n r, (∀ m, n ≤ m → A.prun ycode m ⟨[], w⟩ = some r) ∧ ∀ t, r = some t ↔ Derives xdrGrammar "spec" t ∧ t.yield = w := by
  obtain ⟨n, r, h1, h2⟩ := Lr.correct (code := ycode) (w := w) hv fun x _ => ycode_ne x.1
  have h0 : (A.rhs 0).getD 0 0 = ycode "spec" := by
    rw [Lr.rhs, hr, rules_xdr]
    rfl
  rw [h0, hr] at h2
  refine ⟨n, r, h1, fun t => (h2 t).trans ⟨fun ⟨a, b⟩ => ⟨code_der a rfl ?_, b⟩, fun ⟨a, b⟩ => ⟨der_code a, b⟩⟩⟩
  decide +kernel

end Verif.Lang
