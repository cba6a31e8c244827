/-
Running the actions of a derivation while the parser does other things in between.

A parser calls the scanner between the actions.  `TRun` allows for that: between the actions, new variables may appear.
-/
import Verif.Lang.Actions

namespace Verif.Lang
open Verif.Text Verif.Gen

/-- The outcome of a run. -/
abbrev Res (ω : Type) := Except (Stop × St ω) (List V × St ω)

/-- What happens if calls may be nested as deeply as they like; `fuel` if that never ends. -/
def Lim {β : Type} (f : Nat → Except (Stop × β) (List V × β)) (r : Except (Stop × β) (List V × β)) : Prop :=
  (∃ K, ∀ k, K ≤ k → f k = r) ∨ (¬ ∃ r K, ∀ k, K ≤ k → f k = r) ∧ ∃ s, r = .error (.fuel, s)

theorem Lim.eq {β : Type} {f : Nat → Except (Stop × β) (List V × β)} {r r' : Except (Stop × β) (List V × β)} (h : Lim f r) {K : Nat}
    (h' : ∀ k, K ≤ k → f k = r') : r = r' := by
  rcases h with ⟨K', h⟩ | ⟨h, _⟩
  · rw [← h (max K K') (Nat.le_max_right _ _), h' (max K K') (Nat.le_max_left _ _)]
  · exact absurd ⟨r', K, h'⟩ h

/-- Something else happens: nothing that was in memory changes, and nothing is printed. -/
structure Calm (st st' : St Log) : Prop where
  world : st'.world = st.world
  over : Over st st'

theorem Calm.refl (st : St Log) : Calm st st := ⟨rfl, Over.refl _⟩
theorem Calm.trans {a b c : St Log} (h : Calm a b) (h' : Calm b c) : Calm a c := ⟨h'.world.trans h.world, h.over.trans h'.over⟩

/-- The value of a token. -/
def tokVals (G : Grammar) (s : String) (b : List UInt8) : List V := if G.tagged.contains s then [.str b] else []

mutual
/-- Like `Tree.run`, with other things happening before the actions. -/
inductive TRun (G : Grammar) (E : Ext Log) : Tree → St Log → Res Log → Prop where
  | tok {s b st st'} (c : Calm st st') : TRun G E (.tok s b) st (.ok (tokVals G s b, st'))
  | act {k ts st vs st1 st2 r} (h : TsRun G E ts st (.ok (vs, st1))) (c : Calm st1 st2) (ha : G.acts k = true)
      (hr : Lim (fun n => callN genProg E n (.fn "main" ("xdrAct" ++ toString k)) vs st2) r) : TRun G E (.node k ts) st r
  | pass {k ts st vs st1 st2} (h : TsRun G E ts st (.ok (vs, st1))) (c : Calm st1 st2) (ha : G.acts k = false) :
      TRun G E (.node k ts) st (.ok ([], st2))
  | err {k ts st e} (h : TsRun G E ts st (.error e)) : TRun G E (.node k ts) st (.error e)
inductive TsRun (G : Grammar) (E : Ext Log) : Trees → St Log → Res Log → Prop where
  | nil {st} : TsRun G E .nil st (.ok ([], st))
  | cons {t ts st v st1 vs st2} (h : TRun G E t st (.ok (v, st1))) (h' : TsRun G E ts st1 (.ok (vs, st2))) :
      TsRun G E (.cons t ts) st (.ok (v ++ vs, st2))
  | head {t ts st e} (h : TRun G E t st (.error e)) : TsRun G E (.cons t ts) st (.error e)
  | tail {t ts st v st1 e} (h : TRun G E t st (.ok (v, st1))) (h' : TsRun G E ts st1 (.error e)) :
      TsRun G E (.cons t ts) st (.error e)
end

mutual
/-- `Tree.run` is one of these runs, if it comes to an end. -/
theorem tree_run (G : Grammar) (E : Ext Log) : ∀ (t : Tree) (st : St Log), ∃ r, TRun G E t st r ∧
    ((∃ K, ∀ k, K ≤ k → t.run G E k st = r) ∨ ∃ s, r = .error (.fuel, s))
  | .tok s b, st => ⟨_, .tok (.refl st), .inl ⟨0, fun _ _ => by rw [Tree.run]; rfl⟩⟩
  | .node m ts, st => by
    obtain ⟨r, h1, h2⟩ := trees_run G E ts st
    rcases r with e | ⟨vs, st1⟩
    · refine ⟨_, .err h1, ?_⟩
      rcases h2 with ⟨K, h2⟩ | ⟨s, h2⟩
      · refine .inl ⟨K, fun k hk => ?_⟩
        rw [Tree.run]
        show M.bind (ts.run G E k) _ st = _
        unfold M.bind
        rw [h2 k hk]
      · cases h2; exact .inr ⟨s, rfl⟩
    · rcases h2 with ⟨K, h2⟩ | ⟨s, h2⟩
      · cases ha : G.acts m with
        | false =>
          refine ⟨_, .pass h1 (.refl _) ha, .inl ⟨K, fun k hk => ?_⟩⟩
          rw [Tree.run, ha]
          exact ok_bind (h2 k hk) rfl
        | true =>
          by_cases hc : ∃ r K, ∀ k, K ≤ k → callN genProg E k (.fn "main" ("xdrAct" ++ toString m)) vs st1 = r
          · obtain ⟨r, K', hr⟩ := hc
            refine ⟨r, .act h1 (.refl _) ha (.inl ⟨K', hr⟩), .inl ⟨max K K', fun k hk => ?_⟩⟩
            rw [Tree.run, ha]
            exact (ok_bind (h2 k (by omega)) rfl).trans (hr k (by omega))
          · exact ⟨.error (.fuel, st1), .act h1 (.refl _) ha (.inr ⟨hc, st1, rfl⟩), .inr ⟨st1, rfl⟩⟩
      · cases h2
theorem trees_run (G : Grammar) (E : Ext Log) : ∀ (ts : Trees) (st : St Log), ∃ r, TsRun G E ts st r ∧
    ((∃ K, ∀ k, K ≤ k → ts.run G E k st = r) ∨ ∃ s, r = .error (.fuel, s))
  | .nil, st => ⟨_, .nil, .inl ⟨0, fun _ _ => by rw [Trees.run]; rfl⟩⟩
  | .cons t ts, st => by
    obtain ⟨r, h1, h2⟩ := tree_run G E t st
    rcases r with e | ⟨v, st1⟩
    · refine ⟨_, .head h1, ?_⟩
      rcases h2 with ⟨K, h2⟩ | ⟨s, h2⟩
      · refine .inl ⟨K, fun k hk => ?_⟩
        rw [Trees.run]
        show M.bind (t.run G E k) _ st = _
        unfold M.bind
        rw [h2 k hk]
      · cases h2; exact .inr ⟨s, rfl⟩
    · rcases h2 with ⟨K, h2⟩ | ⟨s, h2⟩
      · obtain ⟨r', h1', h2'⟩ := trees_run G E ts st1
        rcases r' with e | ⟨vs, st2⟩
        · refine ⟨_, .tail h1 h1', ?_⟩
          rcases h2' with ⟨K', h2'⟩ | ⟨s, h2'⟩
          · refine .inl ⟨max K K', fun k hk => ?_⟩
            rw [Trees.run]
            refine (ok_bind (h2 k (by omega)) rfl).trans ?_
            show M.bind (ts.run G E k) _ st1 = _
            unfold M.bind
            rw [h2' k (by omega)]
          · cases h2'; exact .inr ⟨s, rfl⟩
        · refine ⟨_, .cons h1 h1', ?_⟩
          rcases h2' with ⟨K', h2'⟩ | ⟨s, h2'⟩
          · refine .inl ⟨max K K', fun k hk => ?_⟩
            rw [Trees.run]
            exact ok_bind (h2 k (by omega)) (ok_bind (h2' k (by omega)) rfl)
          · cases h2'
      · cases h2
end

end Verif.Lang
