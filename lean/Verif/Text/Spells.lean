/-
Integer literals are copied from the specification to the generated text as they are spelled.  In the
texts of the model such a literal is one code, `lit0 + n`; here it is replaced by any of its spellings, and
the scanner sees the same.
-/
import Verif.Text.Layout

namespace Verif.Text

/-- `t'` is `t` with every literal spelled out. -/
inductive Spells : Text → Text → Prop where
  | nil : Spells [] []
  | char {c t t'} (hc : c < lit0) (h : Spells t t') : Spells (c :: t) (c :: t')
  | lit {n sp t t'} (hs : isLit sp n = true) (h : Spells t t') : Spells ((lit0 + n) :: t) (sp ++ t')

/-- States that differ in the spelling of the literal being read. -/
inductive Sim : St → St → Prop where
  | refl (st : St) : Sim st st
  | lit {n acc b} (h : litValue acc.reverse = some n) : Sim ⟨.lit n, b⟩ ⟨.num acc, b⟩

theorem Sim.finish {st st' : St} (h : Sim st st') : finish st' = finish st := by
  cases h with
  | refl => rfl
  | lit h => simp only [Text.finish, h]

theorem Sim.step {st st' st1 : St} {c : Nat} {ts : List Tok} (h : Sim st st') (hc : c < lit0)
    (hs : step st c = some (ts, st1)) : step st' c = some (ts, st1) := by
  cases h with
  | refl => exact hs
  | @lit n acc b h =>
    simp only [Text.step, ble_lit0 hc, Bool.or_false] at hs ⊢
    split at hs
    · cases hs
    · rename_i h1
      rw [if_neg h1]
      simp only [Bool.false_eq_true, if_false, h]
      exact hs

theorem lit_codes (n : Nat) : isLetter (lit0 + n) = false ∧ isDigit (lit0 + n) = false ∧
    Nat.ble lit0 (lit0 + n) = true ∧ ∀ k < lit0, Nat.beq (lit0 + n) k = false := by
  refine ⟨?_, ?_, Nat.ble_eq.mpr (by omega), ?_⟩
  · cases h : isLetter (lit0 + n) with
    | false => rfl
    | true =>
      simp only [isLetter, Bool.or_eq_true, Bool.and_eq_true, Nat.ble_eq, Nat.beq_eq, lit0] at h
      omega
  · cases h : isDigit (lit0 + n) with
    | false => rfl
    | true =>
      simp only [isDigit, Bool.and_eq_true, Nat.ble_eq, lit0] at h
      omega
  · intro k hk
    cases h : Nat.beq (lit0 + n) k with
    | false => rfl
    | true => have := Nat.eq_of_beq_eq_true h; omega

theorem idle_lit (b : Bool) (n : Nat) : idle b (lit0 + n) = some ([], ⟨.lit n, b⟩) := by
  obtain ⟨h1, h2, h3, _⟩ := lit_codes n
  unfold idle
  rw [h1, h2]
  simp only [Bool.false_eq_true, if_false]
  split <;> first
    | (rename_i h; unfold lit0 at h; omega)
    | (simp only [h3, if_true]; rw [Nat.add_sub_cancel_left])

theorem joins_digit {o d n : Nat} {tk : Tok} (hd : isDigit d = true) (ho : single o = some tk)
    (hj : joins o (lit0 + n) = false) : joins o d = false ∧ endsStmt tk = false := by
  have hd' : 48 ≤ d ∧ d ≤ 57 := by simpa [isDigit, Nat.ble_eq] using hd
  have hb : ∀ k, d ≠ k → Nat.beq d k = false := fun k hk => by
    cases h : Nat.beq d k with
    | false => rfl
    | true => exact absurd (Nat.eq_of_beq_eq_true h) hk
  unfold single at ho
  split at ho <;> first
    | (cases ho; done)
    | (cases ho
       refine ⟨?_, rfl⟩
       simp only [joins, Bool.or_eq_false_iff]
       first
        | exact hb _ (by omega)
        | exact ⟨hb _ (by omega), hb _ (by omega)⟩
        | exact ⟨⟨hb _ (by omega), hb _ (by omega)⟩, hb _ (by omega)⟩
        | (simp only [joins, (lit_codes n).2.2.1, Bool.or_true] at hj; cases hj))

theorem Sim.lit_step {st st' st1 : St} {n : Nat} {sp : Text} {ts : List Tok} (h : Sim st st')
    (hs : isLit sp n = true) (hst : Text.step st (lit0 + n) = some (ts, st1)) :
    ∃ st1', Text.run st' sp = some (ts, st1') ∧ Sim st1 st1' := by
  obtain ⟨c1, c2, c3, c4⟩ := lit_codes n
  cases sp with
  | nil => cases hs
  | cons d ds =>
    simp only [isLit, Bool.and_eq_true, beq_iff_eq] at hs
    obtain ⟨⟨h1, h2⟩, h3⟩ := hs
    have hidle : ∀ b, ∃ acc, Scans ⟨.idle, b⟩ (d :: ds) [] ⟨.num acc, b⟩ ∧ litValue acc.reverse = some n :=
      fun b => ⟨_, scans_lit b h1 h2, by rw [List.reverse_reverse]; exact h3⟩
    cases h with
    | lit h =>
      simp only [Text.step, c1, c2, c3, Bool.or_true, if_true] at hst
      cases hst
    | refl =>
      obtain ⟨m, b⟩ := st
      cases m with
      | idle =>
        simp only [Text.step, idle_lit] at hst
        cases hst
        obtain ⟨acc, ha, hv⟩ := hidle b
        exact ⟨_, ha, .lit hv⟩
      | word acc => simp only [Text.step, c1, c2, c3, Bool.or_false, Bool.false_eq_true, if_false, if_true] at hst; cases hst
      | num acc =>
        simp only [Text.step, c1, c2, c3, c4 46 (by decide), Bool.or_false, Bool.false_eq_true, if_false, if_true] at hst
        cases hst
      | lit k => simp only [Text.step, c1, c2, c3, Bool.or_true, if_true] at hst; cases hst
      | line => simp only [Text.step, c3, c4 10 (by decide), Bool.false_eq_true, if_false, if_true] at hst; cases hst
      | block s => simp only [Text.step, c3, if_true] at hst; cases hst
      | str acc =>
        simp only [Text.step, c3, c4 34 (by decide), Bool.or_true, Bool.false_eq_true, if_false, if_true] at hst
        cases hst
      | op o =>
        simp only [Text.step] at hst
        by_cases hj : joins o (lit0 + n) = true
        · rw [if_pos hj] at hst
          unfold joined at hst
          split at hst <;> first | (cases hst; done) | (simp only [lit0] at *; omega)
        · have hj : joins o (lit0 + n) = false := by simpa using hj
          rw [hj] at hst
          simp only [Bool.false_eq_true, if_false] at hst
          cases ho : single o with
          | none => rw [ho] at hst; cases hst
          | some tk =>
            rw [ho] at hst
            simp only [flush, idle_lit] at hst
            cases hst
            obtain ⟨j1, j2⟩ := joins_digit h1 ho hj
            obtain ⟨acc, ha, hv⟩ := hidle false
            refine ⟨⟨.num acc, endsStmt tk⟩, ?_, .lit hv⟩
            rw [j2]
            have hd : d < lit0 := by
              simp only [isDigit, Bool.and_eq_true, Nat.ble_eq] at h1; unfold lit0; omega
            exact (Pend.op b ho j2).scans j1 hd ha

theorem Spells.run {t t' : Text} (h : Spells t t') : ∀ {st st' st1 : St} {ts : List Tok}, Sim st st' →
    run st t = some (ts, st1) → ∃ st1', run st' t' = some (ts, st1') ∧ Sim st1 st1' := by
  induction h with
  | nil =>
    intro st st' st1 ts hs hr
    cases hr
    exact ⟨st', rfl, hs⟩
  | @char c t t' hc h ih =>
    intro st st' st1 ts hs hr
    simp only [Text.run] at hr ⊢
    cases he : Text.step st c with
    | none => rw [he] at hr; cases hr
    | some r =>
      obtain ⟨us, st2⟩ := r
      rw [he] at hr
      rw [hs.step hc he]
      simp only at hr ⊢
      cases hr2 : Text.run st2 t with
      | none => rw [hr2] at hr; cases hr
      | some r =>
        obtain ⟨vs, st3⟩ := r
        rw [hr2] at hr
        obtain ⟨st3', h1, h2⟩ := ih (.refl st2) hr2
        cases hr
        exact ⟨st3', by rw [h1], h2⟩
  | @lit n sp t t' hsp h ih =>
    intro st st' st1 ts hs hr
    simp only [Text.run] at hr
    cases he : Text.step st (lit0 + n) with
    | none => rw [he] at hr; cases hr
    | some r =>
      obtain ⟨us, st2⟩ := r
      rw [he] at hr
      simp only at hr
      obtain ⟨st2', h1, h2⟩ := hs.lit_step hsp he
      cases hr2 : Text.run st2 t with
      | none => rw [hr2] at hr; cases hr
      | some r =>
        obtain ⟨vs, st3⟩ := r
        rw [hr2] at hr
        obtain ⟨st3', h3, h4⟩ := ih h2 hr2
        cases hr
        refine ⟨st3', ?_, h4⟩
        rw [run_append, h1]
        simp only [h3]

/-- The spelling of literals does not matter. -/
theorem Spells.scan {t t' : Text} {ts : List Tok} (h : Spells t t') (hs : scan t = some ts) : scan t' = some ts := by
  unfold Text.scan at hs ⊢
  cases hr : Text.run ⟨.idle, false⟩ t with
  | none => rw [hr] at hs; cases hs
  | some r =>
    obtain ⟨us, st⟩ := r
    rw [hr] at hs
    obtain ⟨st', h1, h2⟩ := h.run (.refl _) hr
    rw [h1]
    simp only [h2.finish] at hs ⊢
    exact hs

theorem Spells.append {a a' b b' : Text} (h : Spells a a') (h' : Spells b b') : Spells (a ++ b) (a' ++ b') := by
  induction h with
  | nil => exact h'
  | char hc _ ih => exact .char hc ih
  | lit hs _ ih => rw [List.append_assoc]; exact .lit hs ih

theorem Spells.refl : ∀ {t : Text}, (∀ c ∈ t, c < lit0) → Spells t t
  | [], _ => .nil
  | c :: t, h => .char (h c (by simp)) (Spells.refl fun d hd => h d (by simp [hd]))

end Verif.Text
