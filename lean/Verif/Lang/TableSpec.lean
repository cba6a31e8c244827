/-
The handler table of rfc1057/server.go (lines 34-67) in memory, and what MakeServer and Register, as read
from the file, do with it: what Verif.Rpc.Server says.
-/
import Verif.Lang.CallSpec
import Verif.Rpc.Server
namespace Verif.Lang
open Verif.Xdr (XErr XdrState)
open Verif.Rpc
variable {ω : Type}
set_option linter.unusedSimpArgs false

theorem wp_rhs_idx' (S : Sem ω) (p : String) (ρ : Env) (e i : Expr) (Q : List V → St ω → Prop) (st : St ω) :
    wp (evalRhs S p ρ (1 + 1) [.idx e i]) Q st =
      wp (evalM S p ρ e) (fun vs s => wp (one vs) (fun v s =>
        wp (evalM S p ρ i) (fun ks s => wp (one ks) (fun k s => wp (lookupV v k) Q s) s) s) s) st :=
  wp_rhs_idx S p ρ e i Q st

attribute [go_sim ↓] wp_rhs_idx'

/-- Where the inner maps of a handler table are. -/
structure Shape where
  top : Nat
  mid : UInt32 → Nat
  low : UInt32 → UInt32 → Nat

/-- The content of a map cell. -/
def MapAt {α : Type} (st : St ω) (i : Nat) (m : UInt32 → Option α) (R : UInt32 → V → α → Prop) : Prop :=
  ∃ kvs, st.heap i = .mapv kvs ∧ ∀ k,
    match m k with
    | none => kvs.lookup k = none
    | some y => ∃ v, kvs.lookup k = some v ∧ R k v y

/-- A handler table in memory; `H` says which function values are which handlers. -/
structure Table {σ : Type} (H : V → ProcHandler σ → Prop) (st : St ω) (s : Shape) (hs : Handlers σ) : Prop where
  top : MapAt st s.top hs fun p v vm => v = .map (s.mid p) ∧
    MapAt st (s.mid p) vm fun n v pm => v = .map (s.low p n) ∧ MapAt st (s.low p n) pm fun _ v h => H v h
  ltTop : s.top < st.next
  ltMid : ∀ p vm, hs p = some vm → s.mid p < st.next
  ltLow : ∀ p vm n pm, hs p = some vm → vm n = some pm → s.low p n < st.next
  mid : ∀ p vm p' vm', hs p = some vm → hs p' = some vm' → s.mid p = s.mid p' → p = p'
  low : ∀ p vm n pm p' vm' n' pm', hs p = some vm → vm n = some pm → hs p' = some vm' → vm' n' = some pm' →
    s.low p n = s.low p' n' → p = p' ∧ n = n'
  midTop : ∀ p vm, hs p = some vm → s.mid p ≠ s.top
  lowTop : ∀ p vm n pm, hs p = some vm → vm n = some pm → s.low p n ≠ s.top
  lowMid : ∀ p vm n pm p' vm', hs p = some vm → vm n = some pm → hs p' = some vm' → s.low p n ≠ s.mid p'

/-- The cells of a table. -/
def Shape.cells {σ : Type} (s : Shape) (hs : Handlers σ) (j : Nat) : Prop :=
  j = s.top ∨ ∃ p vm, hs p = some vm ∧ (j = s.mid p ∨ ∃ n pm, vm n = some pm ∧ j = s.low p n)

def serverV (i : Nat) : V := .struct "rfc1057.Server" [("handlers", .map i)]

variable [Others]

/-- server.go:43-47 -/
theorem MakeServer_spec {σ : Type} (E : Ext ω) (k : Nat) (H : V → ProcHandler σ → Prop) (st : St ω) :
    wp (callN goProg E (k + 1) (.fn "rfc1057" "MakeServer") [])
      (fun r st' => ∃ c s, r = [.ptr "" ⟨c, []⟩] ∧ st.next ≤ c ∧ c < st'.next ∧ st'.heap c = serverV s.top ∧ Table H st' s makeServer ∧
        st.next ≤ s.top ∧ Grows st st') st := by
  rw [wp_callN _ _ _ _ _ _ _ _ _ find_server_MakeServer, wp_callFunc, server_MakeServer]
  go_run
  refine ⟨_, ⟨st.next, fun _ => 0, fun _ _ => 0⟩, rfl, by omega, by go_lt, by go_run; rfl, ⟨⟨[], by go_run, fun k => rfl⟩, by go_lt, ?_, ?_, ?_, ?_, ?_, ?_, ?_⟩, Nat.le_refl _, by go_grows⟩ <;>
    · intros
      simp_all [makeServer]

theorem lookup_same (k : UInt32) (v : V) (l : List (UInt32 × V)) : List.lookup k ((k, v) :: l) = some v := by simp [List.lookup]

theorem lookup_other {k k' : UInt32} (h : k' ≠ k) (v : V) (l : List (UInt32 × V)) : List.lookup k' ((k, v) :: l) = List.lookup k' l := by
  have : (k' == k) = false := by simp [h]
  simp [List.lookup, this]

theorem mapSet_same {α : Type} (m : UInt32 → Option α) (k : UInt32) (a : α) : mapSet m k a k = some a := by simp [mapSet]
theorem mapSet_twice {α : Type} (m : UInt32 → Option α) (k : UInt32) (a b : α) : mapSet (mapSet m k a) k b = mapSet m k b := by
  funext n; simp only [mapSet]; split <;> rfl

theorem register_eq {σ : Type} (hs : Handlers σ) (prog vers proc : UInt32) (h : ProcHandler σ) :
    register hs prog vers proc h = mapSet hs prog (mapSet ((hs prog).getD fun _ => none) vers
      (mapSet ((((hs prog).getD fun _ => none) vers).getD fun _ => none) proc h)) := by
  simp only [register]
  cases hp : hs prog with
  | none =>
    simp only [Option.isNone_none, if_true, mapSet_same, mapSet_twice, Option.getD_some, Option.getD_none]
  | some vm =>
    simp only [Option.isNone_some, Option.getD_some, Bool.false_eq_true, if_false, hp]
    cases hn : vm vers with
    | none => simp only [Option.isNone_none, if_true, mapSet_same, mapSet_twice, Option.getD_some, Option.getD_none]
    | some pm => simp only [Option.isNone_some, Option.getD_some, Bool.false_eq_true, if_false, hn]

/-- What a map is after an assignment. -/
def Updated (st : St ω) (i : Nat) (key : UInt32) (v : V) (old : UInt32 → Option V) : Prop :=
  ∃ kvs, st.heap i = .mapv kvs ∧ kvs.lookup key = some v ∧ ∀ k, k ≠ key → kvs.lookup k = old k

/-- The entries of the map in a cell. -/
def entries (st : St ω) (i : Nat) (k : UInt32) : Option V :=
  match st.heap i with
  | .mapv kvs => kvs.lookup k
  | _ => none

theorem MapAt.entries {α : Type} {st : St ω} {i : Nat} {m : UInt32 → Option α} {R : UInt32 → V → α → Prop} (h : MapAt st i m R) (k : UInt32) :
    match m k with
    | none => entries st i k = none
    | some y => ∃ v, Lang.entries st i k = some v ∧ R k v y := by
  obtain ⟨kvs, h1, h2⟩ := h
  have := h2 k
  simp only [Lang.entries, h1]
  exact this

theorem MapAt.updated {α : Type} {st' : St ω} {i' : Nat} {m : UInt32 → Option α} {R' : UInt32 → V → α → Prop} {key : UInt32} {v : V} {y : α}
    {old : UInt32 → Option V} (hu : Updated st' i' key v old) 
    (ho : ∀ k, k ≠ key → match m k with
      | none => old k = none
      | some y => ∃ v, old k = some v ∧ R' k v y)
    (hR : R' key v y) : MapAt st' i' (mapSet m key y) R' := by
  obtain ⟨kvs, h1, h2, h3⟩ := hu
  refine ⟨kvs, h1, fun k => ?_⟩
  by_cases e : k = key
  · subst e
    simp only [mapSet, if_true]
    exact ⟨v, h2, hR⟩
  · simp only [mapSet, if_neg e, h3 k e]
    exact ho k e

theorem MapAt.mono {α : Type} {st st' : St ω} {i : Nat} {m : UInt32 → Option α} {R R' : UInt32 → V → α → Prop} (h : MapAt st i m R)
    (hi : st'.heap i = st.heap i) (hR : ∀ k v y, m k = some y → R k v y → R' k v y) : MapAt st' i m R' := by
  obtain ⟨kvs, h1, h2⟩ := h
  refine ⟨kvs, by rw [hi, h1], fun k => ?_⟩
  have := h2 k
  cases hk : m k with
  | none => rw [hk] at this; exact this
  | some y =>
    rw [hk] at this
    obtain ⟨v, a, b⟩ := this
    exact ⟨v, a, hR k v y hk b⟩

theorem Table.put {σ : Type} {H : V → ProcHandler σ → Prop} {st st' : St ω} {s : Shape} {hs : Handlers σ} (ht : Table H st s hs)
    {prog vers proc : UInt32} {hv : V} {h : ProcHandler σ} (hh : H hv h) {m l : Nat}
    (hm : (∃ vm, hs prog = some vm ∧ m = s.mid prog) ∨ (hs prog = none ∧ st.next ≤ m ∧ m < st'.next))
    (hl : (∃ vm pm, hs prog = some vm ∧ vm vers = some pm ∧ l = s.low prog vers) ∨
      ((∀ vm, hs prog = some vm → vm vers = none) ∧ st.next ≤ l ∧ l < st'.next ∧ l ≠ m))
    (u1 : Updated st' s.top prog (.map m) (entries st s.top))
    (u2 : Updated st' m vers (.map l) fun n => match hs prog with | some _ => entries st m n | none => none)
    (u3 : Updated st' l proc hv fun n => match (hs prog).bind (· vers) with | some _ => entries st l n | none => none)
    (hf : ∀ j, j < st.next → j ≠ s.top → j ≠ m → j ≠ l → st'.heap j = st.heap j) (hn : st.next ≤ st'.next) :
    Table H st' ⟨s.top, fun p => if p = prog then m else s.mid p, fun p n => if p = prog ∧ n = vers then l else s.low p n⟩
      (register hs prog vers proc h) := by
  rw [register_eq]
  have hlow : ∀ p vm n pm, hs p = some vm → vm n = some pm → ¬ (p = prog ∧ n = vers) → st'.heap (s.low p n) = st.heap (s.low p n) := by
    intro p vm n pm h1 h2 h3
    have a1 := ht.ltLow p vm n pm h1 h2
    refine hf _ a1 (ht.lowTop p vm n pm h1 h2) ?_ ?_
    · rcases hm with ⟨vm', h4, rfl⟩ | ⟨_, h5, _⟩
      · exact ht.lowMid p vm n pm _ _ h1 h2 h4
      · omega
    · rcases hl with ⟨vm', pm', h4, h5, rfl⟩ | ⟨_, h5, _⟩
      · exact fun e => h3 (ht.low _ _ _ _ _ _ _ _ h1 h2 h4 h5 e)
      · omega
  have hmid : ∀ p vm, hs p = some vm → p ≠ prog → st'.heap (s.mid p) = st.heap (s.mid p) := by
    intro p vm h1 h3
    have a1 := ht.ltMid p vm h1
    refine hf _ a1 (ht.midTop p vm h1) ?_ ?_
    · rcases hm with ⟨vm', h4, rfl⟩ | ⟨_, h5, _⟩
      · exact fun e => h3 (ht.mid _ _ _ _ h1 h4 e)
      · omega
    · rcases hl with ⟨vm', pm', h4, h5, rfl⟩ | ⟨_, h5, _⟩
      · exact fun e => ht.lowMid _ _ _ _ _ _ h4 h5 h1 e.symm
      · omega
  have hm' : m < st'.next ∧ m ≠ s.top := by
    have := ht.ltTop
    rcases hm with ⟨vm', h4, rfl⟩ | ⟨_, h5, h6⟩
    · have := ht.ltMid _ _ h4
      exact ⟨by omega, ht.midTop _ _ h4⟩
    · omega
  have hl' : l < st'.next ∧ l ≠ s.top ∧ l ≠ m := by
    have := ht.ltTop
    rcases hl with ⟨vm', pm', h4, h5, rfl⟩ | ⟨_, h5, h6, h7⟩
    · have := ht.ltLow _ _ _ _ h4 h5
      refine ⟨by omega, ht.lowTop _ _ _ _ h4 h5, ?_⟩
      rcases hm with ⟨vm', h6, rfl⟩ | ⟨h6, _⟩
      · exact ht.lowMid _ _ _ _ _ _ h4 h5 h6
      · rw [h6] at h4; cases h4
    · omega
  have hlo : ∀ p vm n pm, hs p = some vm → vm n = some pm → ¬ (p = prog ∧ n = vers) → s.low p n ≠ l := by
    intro p vm n pm h1 h2 h3
    have a1 := ht.ltLow p vm n pm h1 h2
    rcases hl with ⟨vm', pm', h4, h5, rfl⟩ | ⟨_, h5, _⟩
    · exact fun e => h3 (ht.low _ _ _ _ _ _ _ _ h1 h2 h4 h5 e)
    · omega
  have hmi : ∀ p vm, hs p = some vm → p ≠ prog → s.mid p ≠ m := by
    intro p vm h1 h3
    have a1 := ht.ltMid p vm h1
    rcases hm with ⟨vm', h4, rfl⟩ | ⟨_, h5, _⟩
    · exact fun e => h3 (ht.mid _ _ _ _ h1 h4 e)
    · omega
  have hml : ∀ p vm, hs p = some vm → s.mid p ≠ l := by
    intro p vm h1
    have a1 := ht.ltMid p vm h1
    rcases hl with ⟨vm', pm', h4, h5, rfl⟩ | ⟨_, h5, _⟩
    · exact fun e => ht.lowMid _ _ _ _ _ _ h4 h5 h1 e.symm
    · omega
  have hlm : ∀ p vm n pm, hs p = some vm → vm n = some pm → s.low p n ≠ m := by
    intro p vm n pm h1 h2
    have a1 := ht.ltLow p vm n pm h1 h2
    rcases hm with ⟨vm', h4, rfl⟩ | ⟨_, h5, _⟩
    · exact ht.lowMid _ _ _ _ _ _ h1 h2 h4
    · omega
  -- what the new table has
  have new : ∀ p vm, mapSet hs prog (mapSet ((hs prog).getD fun _ => none) vers
      (mapSet ((((hs prog).getD fun _ => none) vers).getD fun _ => none) proc h)) p = some vm →
      (p = prog ∧ vm = mapSet ((hs prog).getD fun _ => none) vers
        (mapSet ((((hs prog).getD fun _ => none) vers).getD fun _ => none) proc h)) ∨ (p ≠ prog ∧ hs p = some vm) := by
    intro p vm e
    simp only [mapSet] at e
    split at e
    · next h => exact .inl ⟨h, (Option.some.inj e).symm⟩
    · next h => exact .inr ⟨h, e⟩
  have new2 : ∀ p vm n pm, mapSet hs prog (mapSet ((hs prog).getD fun _ => none) vers
      (mapSet ((((hs prog).getD fun _ => none) vers).getD fun _ => none) proc h)) p = some vm → vm n = some pm →
      (p = prog ∧ n = vers) ∨ (¬ (p = prog ∧ n = vers) ∧ ∃ vm' pm', hs p = some vm' ∧ vm' n = some pm') := by
    intro p vm n pm e e'
    rcases new p vm e with ⟨rfl, rfl⟩ | ⟨h1, h2⟩
    · by_cases hnv : n = vers
      · exact .inl ⟨rfl, hnv⟩
      · refine .inr ⟨fun h => hnv h.2, ?_⟩
        simp only [mapSet, if_neg hnv] at e'
        cases hp : hs p with
        | none => simp [hp] at e'
        | some vm' => rw [hp] at e'; exact ⟨_, _, rfl, e'⟩
    · exact .inr ⟨fun h => h1 h.1, _, _, h2, e'⟩
  refine ⟨?_, by have := ht.ltTop; dsimp only; omega, ?_, ?_, ?_, ?_, ?_, ?_, ?_⟩ <;> dsimp only
  · refine MapAt.updated u1 (fun p hp => ?_) ⟨by rw [if_pos rfl], ?_⟩
    · have := ht.top.entries p
      cases hq : hs p with
      | none => rw [hq] at this; exact this
      | some vm =>
        rw [hq] at this
        obtain ⟨v, h1, rfl, h2⟩ := this
        refine ⟨_, h1, by rw [if_neg hp], ?_⟩
        rw [if_neg hp]
        refine h2.mono (hmid _ _ hq hp) ?_
        rintro n v pm hpm ⟨rfl, h3⟩
        have hne : ¬ (p = prog ∧ n = vers) := fun h => hp h.1
        refine ⟨by rw [if_neg hne], ?_⟩
        rw [if_neg hne]
        exact h3.mono (hlow _ _ _ _ hq hpm hne) fun _ _ _ _ h => h
    · rw [if_pos rfl]
      refine MapAt.updated u2 (fun n hn' => ?_) ⟨by rw [if_pos ⟨rfl, rfl⟩], ?_⟩
      · have hne : ¬ (prog = prog ∧ n = vers) := fun h => hn' h.2
        have hne' : ¬ (True ∧ n = vers) := fun h => hn' h.2
        cases hq : hs prog with
        | none => rfl
        | some vm =>
          have := ht.top.entries prog
          rw [hq] at this
          obtain ⟨v, h1, rfl, h2⟩ := this
          rcases hm with ⟨_, _, rfl⟩ | ⟨h5, _⟩
          · have := h2.entries n
            simp only [Option.getD_some]
            cases hq2 : vm n with
            | none => rw [hq2] at this; exact this
            | some pm =>
              rw [hq2] at this
              obtain ⟨v, h1, rfl, h2⟩ := this
              refine ⟨_, h1, by rw [if_neg hne'], ?_⟩
              rw [if_neg hne']
              exact h2.mono (hlow _ _ _ _ hq hq2 hne) fun _ _ _ _ h => h
          · rw [h5] at hq; cases hq
      · rw [if_pos ⟨rfl, rfl⟩]
        refine MapAt.updated u3 (fun n hn' => ?_) hh
        cases hq : hs prog with
        | none => rfl
        | some vm =>
          simp only [Option.getD_some, Option.bind_some]
          cases hq2 : vm vers with
          | none => rfl
          | some pm =>
            have := ht.top.entries prog
            rw [hq] at this
            obtain ⟨v, h1, rfl, h2⟩ := this
            have := h2.entries vers
            rw [hq2] at this
            obtain ⟨v, h1, rfl, h2⟩ := this
            rcases hl with ⟨_, _, _, _, rfl⟩ | ⟨h5, _⟩
            · exact h2.entries n
            · rw [h5 _ hq] at hq2; cases hq2
  · intro p vm e
    rcases new p vm e with ⟨rfl, _⟩ | ⟨h1, h2⟩
    · rw [if_pos rfl]; exact hm'.1
    · rw [if_neg h1]; have := ht.ltMid _ _ h2; omega
  · intro p vm n pm e e'
    rcases new2 p vm n pm e e' with h1 | ⟨h1, vm', pm', h2, h3⟩
    · rw [if_pos h1]; exact hl'.1
    · rw [if_neg h1]; have := ht.ltLow _ _ _ _ h2 h3; omega
  · intro p vm p' vm' e e' he
    rcases new p vm e with ⟨rfl, _⟩ | ⟨h1, h2⟩ <;> rcases new p' vm' e' with ⟨rfl, _⟩ | ⟨h1', h2'⟩
    · rfl
    · rw [if_pos rfl, if_neg h1'] at he; exact absurd he.symm (hmi _ _ h2' h1')
    · rw [if_pos rfl, if_neg h1] at he; exact absurd he (hmi _ _ h2 h1)
    · rw [if_neg h1, if_neg h1'] at he; exact ht.mid _ _ _ _ h2 h2' he
  · intro p vm n pm p' vm' n' pm' e1 e2 e3 e4 he
    rcases new2 p vm n pm e1 e2 with h1 | ⟨h1, wm, qm, h2, h3⟩ <;> rcases new2 p' vm' n' pm' e3 e4 with h1' | ⟨h1', wm', qm', h2', h3'⟩
    · exact ⟨h1.1.trans h1'.1.symm, h1.2.trans h1'.2.symm⟩
    · rw [if_pos h1, if_neg h1'] at he; exact absurd he.symm (hlo _ _ _ _ h2' h3' h1')
    · rw [if_neg h1, if_pos h1'] at he; exact absurd he (hlo _ _ _ _ h2 h3 h1)
    · rw [if_neg h1, if_neg h1'] at he; exact ht.low _ _ _ _ _ _ _ _ h2 h3 h2' h3' he
  · intro p vm e
    rcases new p vm e with ⟨rfl, _⟩ | ⟨h1, h2⟩
    · rw [if_pos rfl]; exact hm'.2
    · rw [if_neg h1]; exact ht.midTop _ _ h2
  · intro p vm n pm e e'
    rcases new2 p vm n pm e e' with h1 | ⟨h1, vm', pm', h2, h3⟩
    · rw [if_pos h1]; exact hl'.2.1
    · rw [if_neg h1]; exact ht.lowTop _ _ _ _ h2 h3
  · intro p vm n pm p' vm' e1 e2 e3
    rcases new2 p vm n pm e1 e2 with h1 | ⟨h1, wm, qm, h2, h3⟩ <;> rcases new p' vm' e3 with ⟨rfl, _⟩ | ⟨h1', h2'⟩
    · rw [if_pos h1, if_pos rfl]; exact hl'.2.2
    · rw [if_pos h1, if_neg h1']; exact (hml _ _ h2').symm
    · rw [if_neg h1, if_pos rfl]; exact hlm _ _ _ _ h2 h3
    · rw [if_neg h1, if_neg h1']; exact ht.lowMid _ _ _ _ _ _ h2 h3 h2'

/-- How `Register` ends. -/
structure RegEnd {σ : Type} (H : V → ProcHandler σ → Prop) (s s' : Shape) (hs hs' : Handlers σ) (st st' : St ω) : Prop where
  top : s'.top = s.top
  table : Table H st' s' hs'
  cells : ∀ j, s'.cells hs' j → s.cells hs j ∨ st.next ≤ j
  frame : ∀ j, j < st.next → ¬ s.cells hs j → st'.heap j = st.heap j
  next : st.next ≤ st'.next
  world : st'.world = st.world
  defers : st'.defers = st.defers

set_option maxHeartbeats 1000000 in
/-- server.go:49-61 -/
theorem Register_spec {σ : Type} (E : Ext ω) (k : Nat) (H : V → ProcHandler σ → Prop) {st : St ω} {T : String} {c : Nat} {s : Shape} {hs : Handlers σ}
    (hc : st.heap c = serverV s.top) (hlt : c < st.next) (ht : Table H st s hs) (prog vers proc : UInt32) {hv : V} {h : ProcHandler σ} (hh : H hv h) :
    wp (callN goProg E (k + 1) (.meth "rfc1057.Server" "Register") [.ptr T ⟨c, []⟩, .u32 prog, .u32 vers, .u32 proc, hv])
      (fun r st' => r = [] ∧ ∃ s', RegEnd H s s' hs (register hs prog vers proc h) st st') st := by
  rw [wp_callN _ _ _ _ _ _ _ _ _ find_server_Server_Register, wp_callFunc, server_Server_Register]
  rw [serverV] at hc
  obtain ⟨kvs, hk, hkv⟩ := ht.top
  have t1 := ht.ltTop
  have hcne : c ≠ s.top := fun h => by rw [← h, hc] at hk; cases hk
  have hpc : ∀ s' : Shape, ∀ m l, s' = ⟨s.top, fun p => if p = prog then m else s.mid p, fun p n => if p = prog ∧ n = vers then l else s.low p n⟩ →
      ((∃ vm, hs prog = some vm ∧ m = s.mid prog) ∨ st.next ≤ m) →
      ((∃ vm pm, hs prog = some vm ∧ vm vers = some pm ∧ l = s.low prog vers) ∨ st.next ≤ l) →
      ∀ j, s'.cells (register hs prog vers proc h) j → s.cells hs j ∨ st.next ≤ j := by
    rintro _ m l rfl hm hl j hj
    rw [register_eq] at hj
    rcases hj with rfl | ⟨p, vm, h1, h2⟩
    · exact .inl (.inl rfl)
    · dsimp only at h2
      by_cases hp : p = prog
      · rw [hp, mapSet_same] at h1
        cases h1
        rw [if_pos hp] at h2
        rcases h2 with rfl | ⟨n, pm, h2, h3⟩
        · rcases hm with ⟨vm, h4, rfl⟩ | h4
          · exact .inl (.inr ⟨_, _, h4, .inl rfl⟩)
          · exact .inr h4
        · by_cases hn : n = vers
          · rw [if_pos ⟨hp, hn⟩] at h3
            subst h3
            rcases hl with ⟨vm, pm, h4, h5, rfl⟩ | h4
            · exact .inl (.inr ⟨_, _, h4, .inr ⟨_, _, h5, rfl⟩⟩)
            · exact .inr h4
          · rw [if_neg (fun h => hn h.2)] at h3
            simp only [mapSet, if_neg hn] at h2
            cases hq : hs prog with
            | none => simp [hq] at h2
            | some wm =>
              rw [hq] at h2
              exact .inl (.inr ⟨_, _, hq, .inr ⟨_, _, h2, hp ▸ h3⟩⟩)
      · simp only [mapSet, if_neg hp] at h1
        rw [if_neg hp] at h2
        simp only [hp, false_and, if_false] at h2
        exact .inl (.inr ⟨_, _, h1, h2⟩)
  cases hp : hs prog with
  | none =>
    have hl := hkv prog
    rw [hp] at hl
    dsimp only at hl
    go_run [hc, hk, hl, lookup_same, List.lookup_nil]
    refine ⟨⟨s.top, fun p => if p = prog then st.next + 1 + 1 + 1 + 1 + 1 + 1 else s.mid p, fun p n => if p = prog ∧ n = vers then st.next + 1 + 1 + 1 + 1 + 1 + 1 + 1 + 1 else s.low p n⟩, rfl,
        ht.put hh (.inr ⟨hp, by omega, by go_lt⟩)
        (.inr ⟨fun vm h => (by rw [hp] at h; cases h), by omega, by go_lt, by omega⟩) ⟨_, by (go_run; rfl), ?_, fun p hp => ?_⟩ ⟨_, by (go_run; rfl), ?_, fun p hp => ?_⟩ ⟨_, by (go_run; rfl), ?_, fun p hp => ?_⟩ (fun j a b c d => by go_run) (by go_lt),
      hpc _ _ _ rfl (.inr (by omega)) (.inr (by omega)), fun j a b => ?_, by go_lt, by go_run, by go_run⟩
    · rw [lookup_same]
    · rw [lookup_other hp]; simp only [entries, hk]
    · rw [lookup_same]
    · rw [lookup_other hp]; rw [‹hs prog = none›]; rfl
    · rw [lookup_same]
    · rw [lookup_other hp]; rw [‹hs prog = none›]; rfl
    · have : j ≠ s.top := fun h => b (.inl h)
      go_run
  | some vm =>
    have h2 := hkv prog
    rw [hp] at h2
    obtain ⟨v2, hv2, rfl, kvs2, hk2, hkv2⟩ := h2
    have t2 := ht.ltMid _ _ hp
    have hcne : c ≠ s.mid prog := fun h => by rw [← h, hc] at hk2; cases hk2
    have d1 := ht.midTop _ _ hp
    cases hn : vm vers with
    | none =>
      have := hkv2 vers
      rw [hn] at this
      dsimp only at this
      go_run [hc, hk, this, lookup_same, List.lookup_nil, hv2, hk2]
      refine ⟨⟨s.top, fun p => if p = prog then s.mid prog else s.mid p, fun p n => if p = prog ∧ n = vers then st.next + 1 + 1 + 1 + 1 + 1 + 1 + 1 else s.low p n⟩, rfl,
        ht.put hh (.inl ⟨_, hp, rfl⟩)
          (.inr ⟨fun vm' h => (by rw [hp] at h; cases h; exact hn), by omega, by go_lt, by omega⟩) ⟨_, by (go_run [hk]; rfl), ?_, fun p hp => ?_⟩ ⟨_, by (go_run; rfl), ?_, fun p hp => ?_⟩ ⟨_, by (go_run; rfl), ?_, fun p hp => ?_⟩ (fun j a b c d => by go_run) (by go_lt),
        hpc _ _ _ rfl (.inl ⟨_, hp, rfl⟩) (.inr (by omega)), fun j a b => ?_, by go_lt, by go_run, by go_run⟩
      · rw [hv2]
      · simp only [entries, hk]
      · rw [lookup_same]
      · rw [lookup_other hp, ‹hs prog = some vm›]; simp only [entries, hk2]
      · rw [lookup_same]
      · rw [lookup_other hp, ‹hs prog = some vm›, Option.bind_some, hn]; rfl
      · have : j ≠ s.mid prog := fun h => b (.inr ⟨_, _, hp, .inl h⟩)
        go_run
    | some pm =>
      have h3 := hkv2 vers
      rw [hn] at h3
      obtain ⟨v3, hv3, rfl, kvs3, hk3, hkv3⟩ := h3
      have t3 := ht.ltLow _ _ _ _ hp hn
      have hcne : c ≠ s.low prog vers := fun h => by rw [← h, hc] at hk3; cases hk3
      have d2 := ht.lowTop _ _ _ _ hp hn
      have d3 := ht.lowMid _ _ _ _ _ _ hp hn hp
      go_run [hc, hk, lookup_same, List.lookup_nil, hv2, hk2, hv3, hk3]
      refine ⟨⟨s.top, fun p => if p = prog then s.mid prog else s.mid p, fun p n => if p = prog ∧ n = vers then s.low prog vers else s.low p n⟩, rfl,
        ht.put hh (.inl ⟨_, hp, rfl⟩)
          (.inl ⟨_, _, hp, hn, rfl⟩) ⟨_, by (go_run [hk]; rfl), ?_, fun p hp => ?_⟩ ⟨_, by (go_run [hk2]; rfl), ?_, fun p hp => ?_⟩ ⟨_, by (go_run; rfl), ?_, fun p hp => ?_⟩ (fun j a b c d => by go_run) (by go_lt),
        hpc _ _ _ rfl (.inl ⟨_, hp, rfl⟩) (.inl ⟨_, _, hp, hn, rfl⟩), fun j a b => ?_, by go_lt, by go_run, by go_run⟩
      · rw [hv2]
      · simp only [entries, hk]
      · rw [hv3]
      · rw [‹hs prog = some vm›]; simp only [entries, hk2]
      · rw [lookup_same]
      · rw [lookup_other hp, ‹hs prog = some vm›, Option.bind_some, hn]; simp only [entries, hk3]
      · have : j ≠ s.low prog vers := fun h => b (.inr ⟨_, _, hp, .inr ⟨_, _, hn, h⟩⟩)
        go_run


/-- A registration (xdr/types.go:24-29) as a Go value. -/
def regV {σ : Type} (H : V → ProcHandler σ → Prop) (v : V) (r : ProcReg σ) : Prop :=
  ∃ hv, H hv r.handler ∧ v = .struct "xdr.ProcRegistration" [("Prog", .u32 r.prog), ("Vers", .u32 r.vers), ("Proc", .u32 r.proc), ("Handler", hv)]

/-- A slice of registrations. -/
inductive RegsAt {σ : Type} (H : V → ProcHandler σ → Prop) (st : St ω) : V → List (ProcReg σ) → Prop
  | nil : RegsAt H st .nil []
  | slice {i off len cap : Nat} {l : List V} {rs : List (ProcReg σ)} (hl : st.heap i = .vals l) (hlt : i < st.next)
      (hr : List.Forall₂ (regV H) ((l.drop off).take len) rs) : RegsAt H st (.slice ⟨⟨i, []⟩, off, len, cap⟩) rs

theorem Table.mapv {σ : Type} {H : V → ProcHandler σ → Prop} {st : St ω} {s : Shape} {hs : Handlers σ} (ht : Table H st s hs) {j : Nat} (hj : s.cells hs j) :
    ∃ kvs, st.heap j = .mapv kvs := by
  obtain ⟨kvs, h1, h2⟩ := ht.top
  rcases hj with rfl | ⟨p, vm, h3, h4⟩
  · exact ⟨_, h1⟩
  · have := h2 p
    rw [h3] at this
    obtain ⟨v, _, _, kvs, h5, h6⟩ := this
    rcases h4 with rfl | ⟨n, pm, h7, rfl⟩
    · exact ⟨_, h5⟩
    · have := h6 n
      rw [h7] at this
      obtain ⟨_, _, _, kvs, h8, _⟩ := this
      exact ⟨_, h8⟩

theorem Table.lt {σ : Type} {H : V → ProcHandler σ → Prop} {st : St ω} {s : Shape} {hs : Handlers σ} (ht : Table H st s hs) {j : Nat} (hj : s.cells hs j) :
    j < st.next := by
  rcases hj with rfl | ⟨p, vm, h3, rfl | ⟨n, pm, h7, rfl⟩⟩
  · exact ht.ltTop
  · exact ht.ltMid _ _ h3
  · exact ht.ltLow _ _ _ _ h3 h7

theorem Table.mono {σ : Type} {H : V → ProcHandler σ → Prop} {st st' : St ω} {s : Shape} {hs : Handlers σ} (ht : Table H st s hs)
    (hf : ∀ j, s.cells hs j → st'.heap j = st.heap j) (hn : st.next ≤ st'.next) : Table H st' s hs := by
  refine ⟨?_, Nat.lt_of_lt_of_le ht.ltTop hn, fun p vm h => Nat.lt_of_lt_of_le (ht.ltMid _ _ h) hn, fun p vm n pm h1 h2 => Nat.lt_of_lt_of_le (ht.ltLow _ _ _ _ h1 h2) hn,
    ht.mid, ht.low, ht.midTop, ht.lowTop, ht.lowMid⟩
  refine ht.top.mono (hf _ (.inl rfl)) ?_
  rintro p v vm h1 ⟨rfl, h2⟩
  refine ⟨rfl, h2.mono (hf _ (.inr ⟨_, _, h1, .inl rfl⟩)) ?_⟩
  rintro n v pm h3 ⟨rfl, h4⟩
  exact ⟨rfl, h4.mono (hf _ (.inr ⟨_, _, h1, .inr ⟨_, _, h3, rfl⟩⟩)) fun _ _ _ _ h => h⟩

theorem RegEnd.trans {σ : Type} {H : V → ProcHandler σ → Prop} {s s' s'' : Shape} {hs hs' hs'' : Handlers σ} {st st' st1 st'' : St ω}
    (h1 : RegEnd H s s' hs hs' st st') (h2 : RegEnd H s' s'' hs' hs'' st1 st'')
    (hf : ∀ j, j < st'.next → st1.heap j = st'.heap j) (hn : st'.next ≤ st1.next) (hw : st1.world = st'.world) (hd : st1.defers = st'.defers) :
    RegEnd H s s'' hs hs'' st st'' := by
  have n1 := h1.next
  have n2 := h2.next
  refine ⟨h2.top.trans h1.top, h2.table, fun j hj => ?_, fun j hj hc => ?_, by omega, by rw [h2.world, hw, h1.world], by rw [h2.defers, hd, h1.defers]⟩
  · rcases h2.cells j hj with h | h
    · exact h1.cells j h
    · exact .inr (by omega)
  · rw [h2.frame j (by omega) (fun h => ?_), hf j (by omega), h1.frame j hj hc]
    rcases h1.cells j h with h | h
    · exact hc h
    · omega

set_option maxHeartbeats 1000000 in
/-- server.go:63-67 -/
theorem RegisterMany_spec {σ : Type} (E : Ext ω) (k : Nat) (H : V → ProcHandler σ → Prop) {st : St ω} {c : Nat} {s : Shape} {hs : Handlers σ}
    (hc : st.heap c = serverV s.top) (hlt : c < st.next) (ht : Table H st s hs) {rv : V} {rs : List (ProcReg σ)} (hr : RegsAt H st rv rs) :
    wp (callN goProg E (k + 2) (.meth "rfc1057.Server" "RegisterMany") [.ptr "" ⟨c, []⟩, rv])
      (fun r st' => r = [] ∧ ∃ s', RegEnd H s s' hs (registerMany hs rs) st st') st := by
  rw [wp_callN _ _ _ _ _ _ _ _ _ find_server_Server_RegisterMany, wp_callFunc, server_Server_RegisterMany]
  have loop : ∀ (vs : List V) (rs : List (ProcReg σ)) (i : Nat) (hs1 : Handlers σ) (s1 : Shape) (st1 : St ω),
      List.Forall₂ (regV H) vs rs → RegEnd H s s1 hs hs1 (st.deferring []) st1 → st.next + 2 ≤ st1.next → st1.heap st.next = .ptr "" ⟨c, []⟩ →
      wp (rangeM (fun i w => do
            let ρ' ← define "_" (V.int ↑i) [[], [("regs", st.next + 1), ("s", st.next)]]
            let ρ' ← define "r" w ρ'
            let r ← execs (sem E (k + 1)) "rfc1057"
                  [Stmt.expr
                      (((Expr.id "s").sel "Register").call
                        [(Expr.id "r").sel "Prog", (Expr.id "r").sel "Vers", (Expr.id "r").sel "Proc",
                          (Expr.id "r").sel "Handler"]
                        false)]
                  ([] :: ρ') Ctl.next
            pure r.2)
          i vs) (fun ctl st' => ctl = .next ∧ ∃ s', RegEnd H s s' hs (registerMany hs1 rs) (st.deferring []) st') st1 := by
    intro vs rs i hs1 s1 st1 hr
    induction hr generalizing i hs1 s1 st1 with
    | nil => intro h _ _; exact ⟨rfl, _, h⟩
    | @cons v r vs rs hv _ ih =>
      intro h hn hsv
      obtain ⟨hv, hh, rfl⟩ := hv
      have hcc : st1.heap c = serverV s1.top := by
        rw [h.frame c (by go_lt), heap_deferring, hc, h.top]
        intro hj
        obtain ⟨_, e⟩ := ht.mapv hj
        rw [hc] at e; cases e
      have cl := h.next
      simp only [next_deferring] at cl
      simp only [rangeM, wp_bind, sem]
      rw [serverV] at hcc
      go_run [hsv, hcc]
      have g : ∀ j, j < st1.next → (st1.push (.struct "xdr.ProcRegistration" [("Prog", .u32 r.prog), ("Vers", .u32 r.vers), ("Proc", .u32 r.proc), ("Handler", hv)])).heap j = st1.heap j := by
        intro j hj; go_run
      refine wp_mono (Register_spec E k H (s := s1) (hs := hs1) (h := r.handler) (by rw [g c (by omega), hcc, serverV]) (by go_lt)
        (h.table.mono (fun j hj => g j (h.table.lt hj)) (by go_lt)) r.prog r.vers r.proc hh) ?_
      rintro _ st2 ⟨rfl, s2, h2⟩
      have n2 := h2.next
      simp only [next_push] at n2
      go_run
      refine ih _ _ _ _ (h.trans h2 g (by go_lt) (by go_run) (by go_run)) (by omega) ?_
      rw [h2.frame _ (by go_lt) (fun hj => ?_), g _ (by omega), hsv]
      obtain ⟨_, e⟩ := (h.table.mono (fun j hj => g j (h.table.lt hj)) (by go_lt) : Table H _ _ _).mapv hj
      rw [g _ (by omega), hsv] at e
      cases e
  cases hr with
  | nil =>
    go_run
    rw [elemsV]
    go_run
    rw [rangeM]
    go_run
    refine ⟨s, rfl, ht.mono (fun j hj => ?_) (by go_lt), fun j hj => .inl hj, fun j hj _ => by go_run, by go_lt, by go_run, by go_run⟩
    have := ht.lt hj
    go_run
  | slice hl hlt hr =>
    go_run
    rw [elemsV]
    go_run [hl]
    refine wp_mono (loop _ _ 0 hs s _ hr ⟨rfl, ht.mono (fun j hj => ?_) (by go_lt), fun j hj => .inl hj, fun j hj _ => by (simp only [next_deferring] at hj; go_run), by go_lt, by go_run, by go_run⟩ (by go_lt) (by go_run)) ?_
    · have := ht.lt hj
      go_run
    · rintro _ st2 ⟨rfl, s2, h2⟩
      have d2 := h2.defers
      have w2 := h2.world
      have n2 := h2.next
      simp only [defers_deferring, world_deferring, next_deferring] at d2 w2 n2
      go_run
      rw [d2]
      go_run
      exact ⟨s2, h2.top, h2.table.mono (fun j _ => by go_run) (by go_lt), h2.cells, fun j a b => by rw [heap_deferring, h2.frame j a b, heap_deferring], by go_lt, by go_run; exact w2, by go_run⟩

end Verif.Lang
