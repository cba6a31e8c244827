/-
A run that succeeds with some bound on the call depth succeeds with every larger bound.
-/
import Verif.Gen.Run

namespace Verif.Gen
open Verif.Xdr

/-- `r2` is the result `r1`, unless `r1` ran out of fuel. -/
def Ref {α} (r1 r2 : Res α) : Prop := r1 = .error .fuel ∨ r2 = r1

theorem Ref.refl {α} (r : Res α) : Ref r r := .inr rfl

theorem Ref.bind {α β} {r1 r2 : Res α} {f1 f2 : α → Res β} (h : Ref r1 r2)
    (hf : ∀ a, Ref (f1 a) (f2 a)) : Ref (r1 >>= f1) (r2 >>= f2) := by
  rcases h with rfl | rfl
  · exact .inl rfl
  · cases r2 with
    | error s => exact .inr rfl
    | ok a => exact hf a

theorem Ref.ite {α} {c : Prop} [Decidable c] {a a' b b' : Res α} (h1 : Ref a a') (h2 : Ref b b') :
    Ref (if c then a else b) (if c then a' else b') := by
  split
  · exact h1
  · exact h2

theorem withPtr_mono {st : St} {p : Ex} {f1 f2 : XdrState → GoVal → Res (XdrState × GoVal)}
    (hf : ∀ xs v, Ref (f1 xs v) (f2 xs v)) : Ref (withPtr st p f1) (withPtr st p f2) := by
  simp only [withPtr]
  exact Ref.bind (Ref.refl _) fun l => Ref.bind (Ref.refl _) fun w => Ref.bind (hf _ _) fun _ => Ref.refl _

theorem loop_mono {mk : Nat → GoVal} {x : Ident} {bound : St → Res Nat} {b1 b2 : St → Res St}
    (hb : ∀ st, Ref (b1 st) (b2 st)) : ∀ (fuel k : Nat) (st : St),
      Ref (loop mk x bound b1 fuel k st) (loop mk x bound b2 fuel k st)
  | 0, k, st => by
    unfold loop
    exact Ref.refl _
  | fuel + 1, k, st => by
    unfold loop
    refine Ref.bind (Ref.refl _) fun n => Ref.ite ?_ (Ref.refl _)
    exact Ref.bind (hb _) fun _ => loop_mono hb fuel _ _

mutual
theorem exec_mono {g : GoProg} {c1 c2 : Call} (hc : ∀ n xs v, Ref (c1 n xs v) (c2 n xs v)) :
    ∀ (s : Stmt) (st : St), Ref (exec g c1 s st) (exec g c2 s st)
  | .xdrU32 p, st => by simp only [exec]; exact Ref.refl _
  | .xdrS32 p, st => by simp only [exec]; exact Ref.refl _
  | .xdrU64 p, st => by simp only [exec]; exact Ref.refl _
  | .xdrS64 p, st => by simp only [exec]; exact Ref.refl _
  | .xdrBool p, st => by simp only [exec]; exact Ref.refl _
  | .xdrArray p, st => by simp only [exec]; exact Ref.refl _
  | .xdrVarArray m p, st => by simp only [exec]; exact Ref.refl _
  | .xdrString m p, st => by simp only [exec]; exact Ref.refl _
  | .callXdr t p, st => by simp only [exec]; exact withPtr_mono (hc t)
  | .block b, st => by
    simp only [exec]
    exact Ref.bind (execs_mono hc b st) fun _ => Ref.refl _
  | .varU32 x, st => by simp only [exec]; exact Ref.refl _
  | .varBool x, st => by simp only [exec]; exact Ref.refl _
  | .defNotNil x p, st => by simp only [exec]; exact Ref.refl _
  | .encSetSize x p, st => by simp only [exec]; exact Ref.refl _
  | .ifGt x sz els, st => by
    simp only [exec]
    exact Ref.bind (Ref.refl _) fun _ => Ref.bind (Ref.refl _) fun _ => Ref.ite (Ref.refl _)
      (Ref.bind (execs_mono hc els st) fun _ => Ref.refl _)
  | .ifEncoding b, st => by
    simp only [exec]
    exact Ref.ite (Ref.bind (execs_mono hc b st) fun _ => Ref.refl _) (Ref.refl _)
  | .ifDecoding b, st => by
    simp only [exec]
    exact Ref.ite (Ref.bind (execs_mono hc b st) fun _ => Ref.refl _) (Ref.refl _)
  | .ifVar x b, st => by
    simp only [exec]
    split
    · exact Ref.bind (execs_mono hc b st) fun _ => Ref.refl _
    · exact Ref.refl _
    · exact Ref.refl _
  | .assignMake p t n, st => by simp only [exec]; exact Ref.refl _
  | .assignNew p t, st => by simp only [exec]; exact Ref.refl _
  | .forInt x sz b, st => by
    simp only [exec]
    exact Ref.bind (Ref.refl _) fun _ => loop_mono (execs_mono hc b) _ _ _
  | .forU64 x n b, st => by
    simp only [exec]
    exact Ref.bind (Ref.refl _) fun _ => loop_mono (execs_mono hc b) _ _ _
  | .switch e cs, st => by
    simp only [exec]
    refine Ref.bind (Ref.refl _) fun r => ?_
    cases r with
    | place l => exact Ref.bind (Ref.refl _) fun d => execSwitch_mono hc d cs st
    | ptr l => exact Ref.refl _
theorem execs_mono {g : GoProg} {c1 c2 : Call} (hc : ∀ n xs v, Ref (c1 n xs v) (c2 n xs v)) :
    ∀ (b : Stmts) (st : St), Ref (execs g c1 b st) (execs g c2 b st)
  | .nil, st => by simp only [execs]; exact Ref.refl _
  | .cons s b, st => by
    simp only [execs]
    exact Ref.bind (exec_mono hc s st) fun st' => execs_mono hc b st'
theorem execSwitch_mono {g : GoProg} {c1 c2 : Call} (hc : ∀ n xs v, Ref (c1 n xs v) (c2 n xs v))
    (d : GoVal) : ∀ (cs : GoCases) (st : St), Ref (execSwitch g c1 d cs st) (execSwitch g c2 d cs st)
  | .nil, st => by simp only [execSwitch]; exact Ref.refl _
  | .dflt b, st => by
    simp only [execSwitch]
    exact Ref.bind (execs_mono hc b st) fun _ => Ref.refl _
  | .cons l b ft cs, st => by
    simp only [execSwitch]
    refine Ref.bind (Ref.refl _) fun lab => Ref.bind (Ref.refl _) fun m => Ref.ite ?_
      (execSwitch_mono hc d cs st)
    exact Ref.bind (execs_mono hc b st) fun st' => Ref.ite (execFall_mono hc cs _) (Ref.refl _)
theorem execFall_mono {g : GoProg} {c1 c2 : Call} (hc : ∀ n xs v, Ref (c1 n xs v) (c2 n xs v)) :
    ∀ (cs : GoCases) (st : St), Ref (execFall g c1 cs st) (execFall g c2 cs st)
  | .nil, st => by simp only [execFall]; exact Ref.refl _
  | .dflt b, st => by
    simp only [execFall]
    exact Ref.bind (execs_mono hc b st) fun _ => Ref.refl _
  | .cons _ b ft cs, st => by
    simp only [execFall]
    exact Ref.bind (execs_mono hc b st) fun st' => Ref.ite (execFall_mono hc cs _) (Ref.refl _)
end

theorem runXdr_succ (g : GoProg) : ∀ (k : Nat) (n : Ident) (xs : XdrState) (v : GoVal),
    Ref (g.runXdr k n xs v) (g.runXdr (k + 1) n xs v)
  | 0, _, _, _ => .inl rfl
  | k + 1, n, xs, v => by
    unfold GoProg.runXdr
    split
    · exact Ref.bind (execs_mono (runXdr_succ g k) _ _) fun _ => Ref.refl _
    · exact Ref.refl _

theorem runXdr_le (g : GoProg) {k k' : Nat} (h : k ≤ k') (n : Ident) (xs : XdrState) (v : GoVal) :
    Ref (g.runXdr k n xs v) (g.runXdr k' n xs v) := by
  induction h with
  | refl => exact Ref.refl _
  | @step m _ ih =>
    rcases ih with ih | ih
    · exact .inl ih
    · rcases runXdr_succ g m n xs v with h | h
      · exact .inl (ih.symm.trans h)
      · exact .inr (h.trans ih)

/-- One successful run with a bound on the call depth is enough. -/
theorem Runs.of_fuel {g : GoProg} {k : Nat} {T : Ident} {xs xs' : XdrState} {v v' : GoVal}
    (h : g.runXdr k T xs v = .ok (xs', v')) : Runs g T xs v xs' v' := by
  refine ⟨k, fun _ hf => ?_⟩
  rcases runXdr_le g hf T xs v with h' | h'
  · rw [h] at h'; cases h'
  · rw [h', h]

/-- The generated method ends in a Go run-time panic. -/
def Panics (g : GoProg) (T : Ident) (xs : XdrState) (v : GoVal) : Prop :=
  ∃ N, ∀ fuel, N ≤ fuel → g.runXdr fuel T xs v = .error .panic

theorem Panics.of_fuel {g : GoProg} {k : Nat} {T : Ident} {xs : XdrState} {v : GoVal}
    (h : g.runXdr k T xs v = .error .panic) : Panics g T xs v := by
  refine ⟨k, fun _ hf => ?_⟩
  rcases runXdr_le g hf T xs v with h' | h'
  · rw [h] at h'; cases h'
  · rw [h', h]

end Verif.Gen
