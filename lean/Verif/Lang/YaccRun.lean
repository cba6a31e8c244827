/-
The parser that goyacc generates, as it runs: the automaton asks `Lex` for tokens when it needs one, keeps the values of the
symbols on its stack and runs the actions of the rules by which it reduces.

The file that goyacc writes is not part of the repository; this is what its loop does (goyacc's `yyParse`), over tables that
are a parameter here.  Simplifications: `lval` is a new variable at each call of `Lex` (goyacc uses one for all; the value
of a token that has none is not used); there is no error recovery, since xdr.y has no `error` token, and after `Error`,
which panics, nothing happens; the stack is not bounded (goyacc's grows).
-/
import Verif.Lang.XdrLr
import Verif.Lang.ToolExt
import Verif.Lang.Ends

namespace Verif.Lang
open Verif.Text Verif.Gen Verif.Tool
variable {ω : Type}

/-- The states with the values of the symbols that lead to them, the top first, and the token that was read last, if it is
not yet shifted. -/
structure YCfg where
  stack : List (Nat × List V)
  look : Option (Int × List UInt8)

def popVals : Nat → List (Nat × List V) → List V → Option (List (Nat × List V) × List V)
  | 0, st, acc => some (st, acc)
  | _ + 1, [], _ => none
  | n + 1, (_, v) :: st, acc => popVals n st (v ++ acc)

/-- The number of the next token. -/
def codeOf : Option (Int × List UInt8) → Nat
  | none => 0
  | some t => t.1.toNat

/-- The value of a token: its text, if its type is declared (`%token <str>`). -/
def valOf (G : Grammar) (code : String → Nat) (t : Int × List UInt8) : List V :=
  if G.tagged.any fun s => code s == t.1.toNat then [.str t.2] else []

/-- Reads a token, if the state needs one. -/
def yyLook (E : Ext ω) (k : Nat) (l : V) (s : LrState) : Option (Int × List UInt8) → M ω (Option (Int × List UInt8))
  | some t => pure (some t)
  | none => if s.looks then do pure (some (← lexOne E k l)) else pure none

/-- What is done in a state: `none` if that is the end. -/
def yyAct (A : Lr) (G : Grammar) (code : String → Nat) (E : Ext ω) (k : Nat) (l : V) (stack : List (Nat × List V))
    (look : Option (Int × List UInt8)) : M ω (Option YCfg) :=
  match (A.state (topOf stack)).act (codeOf look) with
  | .shift q =>
    match look with
    | some t => pure (some ⟨(q, valOf G code t) :: stack, none⟩)
    | none => stop .stuck
  | .reduce m =>
    match popVals (A.rhs m).length stack [] with
    | none => stop .stuck
    | some (st, vs) =>
      match (A.state (topOf st)).gotos.lookup (A.lhs m) with
      | none => stop .stuck
      | some g => do
        let v ← if G.acts m then callN genProg E k (.fn "main" ("xdrAct" ++ toString m)) vs else pure []
        pure (some ⟨(g, v) :: st, look⟩)
  | .accept => pure none
  | .error => do
    let _ ← callN genProg E k (.meth "main.lexer" "Error") [l, .str (strBytes "syntax error")]
    pure none

def yyStep (A : Lr) (G : Grammar) (code : String → Nat) (E : Ext ω) (k : Nat) (l : V) (c : YCfg) : M ω (Option YCfg) := do
  let look ← yyLook E k l (A.state (topOf c.stack)) c.look
  yyAct A G code E k l c.stack look

/-- At most this many steps. -/
def yyLoop (A : Lr) (G : Grammar) (code : String → Nat) (E : Ext ω) (k : Nat) (l : V) : Nat → YCfg → M ω (List V)
  | 0, _ => stop .fuel
  | n + 1, c => do
    match ← yyStep A G code E k l c with
    | some c => yyLoop A G code E k l n c
    | none => pure []

/-- The parser with bounds on the number of its steps and the depth of calls.  It is a function: whatever is deferred
during a call of it is not there afterwards. -/
def yyParse (A : Lr) (G : Grammar) (code : String → Nat) (E : Ext ω) (k : Nat) : List V → M ω (List V)
  | [l] => do
    let outer ← getDefers
    finally' (yyLoop A G code E k l k ⟨[], none⟩) (setDefers outer)
  | _ => stop .stuck

open Classical in
/-- The parser without bounds: what happens with any bound that is large enough. -/
noncomputable def yyParser (A : Lr) (G : Grammar) (code : String → Nat) (E : Ext ω) (args : List V) : M ω (List V) := fun st =>
  if h : ∃ r K, ∀ k, K ≤ k → yyParse A G code E k args st = r then Classical.choose h else .error (.fuel, st)

theorem yyParser_eq {A : Lr} {G : Grammar} {code : String → Nat} {E : Ext ω} {args : List V} {st : St ω} {r K}
    (h : ∀ k, K ≤ k → yyParse A G code E k args st = r) : yyParser A G code E args st = r := by
  unfold yyParser
  have h' : ∃ r K, ∀ k, K ≤ k → yyParse A G code E k args st = r := ⟨r, K, h⟩
  rw [dif_pos h']
  obtain ⟨K', hK⟩ := Classical.choose_spec h'
  exact (hK (max K K') (Nat.le_max_right _ _)).symm.trans (h _ (Nat.le_max_left _ _))

/-! ### The values on the stack -/

section
variable (G : Grammar) (E : Ext Log)

/-- Running the trees on the stack, the lowest first, from `st₀` gives these values and ends in this state. -/
inductive SRun (st₀ : St Log) : List (Nat × Tree) → List (Nat × List V) → St Log → Prop where
  | nil : SRun st₀ [] [] st₀
  | push {q t v ts vs st st'} (h : SRun st₀ ts vs st) (r : TRun G E t st (.ok (v, st'))) :
      SRun st₀ ((q, t) :: ts) ((q, v) :: vs) st'

/-- Running the trees on the stack ends in an error. -/
inductive SErr (st₀ : St Log) (e : Stop × St Log) : List (Nat × Tree) → Prop where
  | here {q t ts vs st} (h : SRun G E st₀ ts vs st) (r : TRun G E t st (.error e)) : SErr st₀ e ((q, t) :: ts)
  | above {a ts} (h : SErr st₀ e ts) : SErr st₀ e (a :: ts)
end

section
variable {G : Grammar} {E : Ext Log} {st₀ : St Log}

theorem SRun.top {ts : List (Nat × Tree)} {vs : List (Nat × List V)} {st : St Log} (h : SRun G E st₀ ts vs st) : topOf vs = topOf ts := by
  cases h <;> rfl

theorem SRun.pop : ∀ {n : Nat} {ts ts' : List (Nat × Tree)} {vs : List (Nat × List V)} {st st' : St Log} {acc us : Trees} {a : List V},
    SRun G E st₀ ts vs st → popTrees n ts acc = some (ts', us) → TsRun G E acc st (.ok (a, st')) →
    ∃ vs' b s, popVals n vs a = some (vs', b) ∧ SRun G E st₀ ts' vs' s ∧ TsRun G E us s (.ok (b, st'))
  | 0, ts, ts', vs, st, st', acc, us, a, h, hp, ha => by
    cases hp
    exact ⟨vs, a, st, rfl, h, ha⟩
  | n + 1, ts, ts', vs, st, st', acc, us, a, h, hp, ha => by
    cases h with
    | nil => cases hp
    | push h r => exact SRun.pop (n := n) h hp (.cons r ha)

theorem SRun.popErr : ∀ {n : Nat} {ts ts' : List (Nat × Tree)} {vs : List (Nat × List V)} {st : St Log} {acc us : Trees} {e : Stop × St Log},
    SRun G E st₀ ts vs st → popTrees n ts acc = some (ts', us) → TsRun G E acc st (.error e) →
    ∃ vs' s, SRun G E st₀ ts' vs' s ∧ TsRun G E us s (.error e)
  | 0, ts, ts', vs, st, acc, us, e, h, hp, ha => by
    cases hp
    exact ⟨vs, st, h, ha⟩
  | n + 1, ts, ts', vs, st, acc, us, e, h, hp, ha => by
    cases h with
    | nil => cases hp
    | push h r => exact SRun.popErr (n := n) h hp (.tail r ha)

theorem SErr.pop {e : Stop × St Log} : ∀ {n : Nat} {ts ts' : List (Nat × Tree)} {acc us : Trees},
    SErr G E st₀ e ts → popTrees n ts acc = some (ts', us) →
    SErr G E st₀ e ts' ∨ ∃ vs' s, SRun G E st₀ ts' vs' s ∧ TsRun G E us s (.error e)
  | 0, ts, ts', acc, us, h, hp => by
    cases hp
    exact .inl h
  | n + 1, _, ts', acc, us, .here h r, hp => .inr (SRun.popErr h hp (.head r))
  | n + 1, _, ts', acc, us, .above (a := (q, t)) h, hp => SErr.pop h hp

/-- If the automaton goes on to the end, the derivation it finds ends in that error. -/
theorem SErr.run {A : Lr} {code : String → Nat} {e : Stop × St Log} : ∀ {n : Nat} {c : PCfg} {t : Tree}, SErr G E st₀ e c.stack →
    A.prun code n c = some (some t) → TRun G E t st₀ (.error e)
  | 0, c, t, h, hp => by cases hp
  | n + 1, c, t, h, hp => by
    rw [Lr.prun] at hp
    cases hs : A.pstep code c with
    | error => rw [hs] at hp; cases hp
    | stuck => rw [hs] at hp; cases hp
    | accept t' =>
      rw [hs] at hp
      cases hp
      unfold Lr.pstep at hs
      split at hs
      · split at hs <;> cases hs
      · split at hs
        · cases hs
        · split at hs <;> cases hs
      · split at hs
        · rename_i h1
          cases hs
          rw [h1] at h
          cases h with
          | here h r => cases h; exact r
          | above h => cases h
        · cases hs
      · cases hs
    | next c' =>
      rw [hs] at hp
      refine SErr.run (c := c') ?_ hp
      unfold Lr.pstep at hs
      split at hs
      · split at hs
        · cases hs; exact .above h
        · cases hs
      · split at hs
        · cases hs
        · rename_i h1
          split at hs
          · cases hs
          · cases hs
            rcases h.pop h1 with h | ⟨vs', s, h2, h3⟩
            · exact .above h
            · exact .here h2 (.err h3)
      · split at hs <;> cases hs
      · cases hs
end

end Verif.Lang
