/-
Larger bounds change nothing in what the parser does, once they suffice.
-/
import Verif.Lang.YaccRun
import Verif.Lang.Mono

namespace Verif.Lang
variable {ω : Type} {E : Ext ω} {A : Lr} {G : Grammar} {code : String → Nat} {l : V}

theorem lexOne_le {k k' : Nat} (h : k ≤ k') : LeM (lexOne E k l) (lexOne E k' l) := by
  unfold lexOne
  exact .bind (.refl _) fun i => .bind (callN_le _ _ h _ _) fun r => .refl _

theorem yyLook_le {k k' : Nat} (h : k ≤ k') (s : LrState) (look : Option (Int × List UInt8)) :
    LeM (yyLook E k l s look) (yyLook E k' l s look) := by
  cases look with
  | some t => exact .refl _
  | none =>
    unfold yyLook
    exact .ite (.bind (lexOne_le h) fun t => .refl _) (.refl _)

theorem yyAct_le {k k' : Nat} (h : k ≤ k') (stack : List (Nat × List V)) (look : Option (Int × List UInt8)) :
    LeM (yyAct A G code E k l stack look) (yyAct A G code E k' l stack look) := by
  unfold yyAct
  cases (A.state (topOf stack)).act (codeOf look) with
  | shift q => exact .refl _
  | reduce m =>
    dsimp only
    cases popVals (A.rhs m).length stack [] with
    | none => exact .refl _
    | some p =>
      dsimp only
      cases (A.state (topOf p.1)).gotos.lookup (A.lhs m) with
      | none => exact .refl _
      | some g =>
        cases G.acts m with
        | false => exact .refl _
        | true =>
          simp only [↓reduceIte]
          exact .bind (callN_le _ _ h _ _) fun v => .refl _
  | accept => exact .refl _
  | error => exact .bind (callN_le _ _ h _ _) fun v => .refl _

theorem yyStep_le {k k' : Nat} (h : k ≤ k') (c : YCfg) : LeM (yyStep A G code E k l c) (yyStep A G code E k' l c) :=
  .bind (yyLook_le h _ _) fun look => yyAct_le h _ look

theorem yyLoop_le {k k' : Nat} (h : k ≤ k') : ∀ {n n' : Nat} (_ : n ≤ n') (c : YCfg),
    LeM (yyLoop A G code E k l n c) (yyLoop A G code E k' l n' c)
  | 0, _, _, _ => fun st => .inl ⟨st, rfl⟩
  | n + 1, 0, hn, _ => absurd hn (by simp)
  | n + 1, n' + 1, hn, c => by
    rw [yyLoop, yyLoop]
    refine .bind (yyStep_le h c) fun c' => ?_
    cases c' with
    | none => exact .refl _
    | some c' => exact yyLoop_le h (Nat.le_of_succ_le_succ hn) c'

theorem yyParse_le {k k' : Nat} (h : k ≤ k') (args : List V) : LeM (yyParse A G code E k args) (yyParse A G code E k' args) := by
  unfold yyParse
  split
  · exact .bind (.refl _) fun ds => .finally (yyLoop_le h h _) (.refl _)
  · exact .refl _

theorem yyParser_of {args : List V} {st : St ω} {K : Nat} (h : ∀ s, yyParse A G code E K args st ≠ .error (.fuel, s)) :
    yyParser A G code E args st = yyParse A G code E K args st :=
  yyParser_eq (K := K) fun _ hk => (yyParse_le hk args st).resolve_left fun ⟨s, e⟩ => h s e

end Verif.Lang
