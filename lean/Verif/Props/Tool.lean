/-
PROPERTY C43: what a run of the generator does to the files.
-/
import Verif.Tool.Main

namespace Verif.Props
open Verif.Tool

/-! ### Specification -/

/-- The part of `d` that the `n`-th `Fprintf` gets written. -/
def cut (w : World) (n : Nat) (d : Content) : Content :=
  match w.short n with
  | none => d
  | some k => d.take k

/-- What the writes (from the `n`-th on) to the selected streams amount to. -/
def part (w : World) (sel : Bool → Bool) : Nat → List (Bool × Content) → Content
  | _, [] => []
  | n, (t, d) :: l => (if sel t then cut w n d else []) ++ part w sel (n + 1) l

/-- The text of the first temporary file when it is formatted. -/
def outText (a : Args) (w : World) (src : Content) : Content :=
  cut w 0 (pkgLine a) ++ cut w 1 importLine ++
    (if a.types = "" then part w (fun _ => true) 2 (w.parse src).writes
     else part w (fun t => !t) 3 (w.parse src).writes)

/-- The text of the second temporary file when it is formatted. -/
def typesText (a : Args) (w : World) (src : Content) : Content :=
  cut w 2 (pkgLine a) ++ part w (fun t => t) 3 (w.parse src).writes

/-- What goes wrong before an output file is opened. -/
inductive Early (a : Args) (w : World) (fs : FS) : Prop where
  | noInput (h : a.input = "")
  | noOutput (h : a.output = "")
  | unreadable (h : w.readInput = true ∨ fs a.input = none)
  | tmpExists (h : w.openOut = true ∨ (fs (a.output ++ ".tmp")).isSome)
  | typesTmpExists (ht : a.types ≠ "") (h : w.openTypes = true ∨ (fs (a.types ++ ".tmp")).isSome)
  /-- a lexical or syntax error, or a type without codec -/
  | parse (src : Content) (hs : fs a.input = some src) (h : (w.parse src).returns = false)
  | reread (h : w.rereadOut = true)
  | format (src : Content) (hs : fs a.input = some src) (h : w.format (outText a w src) = none)
  | open' (h : w.writeOut = .cannotOpen)

/-- The temporary files can be removed. -/
def RemovesWork (w : World) : Prop := w.removeOut = false ∧ w.removeTypes = false

/-- The files have different names. -/
def Distinct (a : Args) : Prop :=
  a.types ≠ "" → a.types ≠ a.output ∧ a.types ≠ a.output ++ ".tmp" ∧ a.output ≠ a.types ++ ".tmp"

/-! ### Lemmas -/

theorem set_same (fs : FS) (p : Path) (c : Option Content) : fs.set p c p = c := by simp [FS.set]
theorem set_ne (fs : FS) {p q : Path} (c : Option Content) (h : q ≠ p) : fs.set p c q = fs q := by
  simp [FS.set, h]
theorem set_set (fs : FS) (p : Path) (c d : Option Content) : (fs.set p c).set p d = fs.set p d := by
  funext q; simp only [FS.set]; split <;> rfl
theorem set_id (fs : FS) {p : Path} {c : Option Content} (h : fs p = c) : fs.set p c = fs := by
  funext q; simp only [FS.set]; split
  · rename_i e; rw [e, h]
  · rfl
theorem set_comm (fs : FS) {p q : Path} (c d : Option Content) (h : p ≠ q) :
    (fs.set p c).set q d = (fs.set q d).set p c := by
  funext x; simp only [FS.set]
  by_cases h1 : x = q
  · have : x ≠ p := fun e => h (e ▸ h1)
    simp [h1, Ne.symm h]
  · simp [h1]

theorem ne_tmp (p : Path) : p ≠ p ++ ".tmp" := by
  intro h
  have := congrArg String.length h
  simp [String.length_append] at this

theorem tmp_inj {p q : Path} (h : p ++ ".tmp" = q ++ ".tmp") : p = q := by
  have := congrArg String.toList h
  simp only [String.toList_append] at this
  exact String.toList_inj.mp (List.append_cancel_right this)

theorem fprintf_eq (w : World) (n : Nat) (fs : FS) (p : Path) (d c : Content) (h : fs p = some c) :
    fprintf (w.short n) fs p d = fs.set p (some (c ++ cut w n d)) := by
  simp only [fprintf, cut, h, Option.getD_some]
  cases w.short n <;> rfl

theorem parseWrites_one (w : World) (o : Path) : ∀ (l : List (Bool × Content)) (n : Nat) (fs : FS)
    (c : Content), fs o = some c →
    parseWrites w o o n l fs = fs.set o (some (c ++ part w (fun _ => true) n l))
  | [], n, fs, c, h => by simp [parseWrites, part, set_id fs h]
  | (t, d) :: l, n, fs, c, h => by
    simp only [parseWrites, ite_self, part, if_true]
    rw [fprintf_eq w n fs o d c h, parseWrites_one w o l (n + 1) _ _ (set_same _ _ _), set_set]
    simp

theorem parseWrites_two (w : World) (o t : Path) (hne : t ≠ o) : ∀ (l : List (Bool × Content)) (n : Nat)
    (fs : FS) (c d : Content), fs o = some c → fs t = some d →
    parseWrites w o t n l fs = (fs.set o (some (c ++ part w (fun b => !b) n l))).set t
      (some (d ++ part w (fun b => b) n l))
  | [], n, fs, c, d, h, h' => by
    simp only [parseWrites, part, List.append_nil]
    rw [set_id fs h, set_id fs h']
  | (true, x) :: l, n, fs, c, d, h, h' => by
    simp only [parseWrites, if_true, part, Bool.not_true, Bool.false_eq_true, if_false, List.nil_append]
    rw [fprintf_eq w n fs t x d h', parseWrites_two w o t hne l (n + 1) _ c _
      (by rw [set_ne _ _ hne.symm, h]) (set_same _ _ _), set_comm _ _ _ hne, set_set]
    simp
  | (false, x) :: l, n, fs, c, d, h, h' => by
    simp only [parseWrites, Bool.false_eq_true, if_false, part, Bool.not_false, if_true, List.nil_append]
    rw [fprintf_eq w n fs o x c h, parseWrites_two w o t hne l (n + 1) _ _ d
      (set_same _ _ _) (by rw [set_ne _ _ hne, h']), set_set]
    simp

/-- Removing a temporary file that did not exist before. -/
theorem clean_one {fs : FS} {o : Path} (ho : fs o = none) (c : Option Content) :
    (fs.set o c).set o none = fs := by rw [set_set, set_id fs ho]

theorem refmt_fail {w : World} {fs : FS} {i o : Path} {b : Bool} {wr : WriteOutcome} {c : Content}
    (hi : fs i = some c) (h : b = true ∨ w.format c = none ∨ wr = .cannotOpen) :
    refmt w fs i o b wr = (fs, false) := by
  unfold refmt readFile
  cases b with
  | true => simp
  | false =>
    simp only [Bool.false_eq_true, if_false, hi]
    rcases h with h | h | h
    · cases h
    · rw [h]
    · cases hf : w.format c <;> simp [h, writeFile]

theorem refmt_ok {w : World} {fs : FS} {i o : Path} {wr : WriteOutcome} {c d : Content}
    (hi : fs i = some c) (hf : w.format c = some d) :
    refmt w fs i o false wr = writeFile fs o d wr := by
  simp [refmt, readFile, hi, hf]

/-- Everything that can happen. -/
inductive Outcome (a : Args) (w : World) (fs : FS) : FS → Status → Prop where
  /-- nothing -/
  | early (st : Status) (h : Early a w fs) (hst : st ≠ .done) : Outcome a w fs fs st
  /-- writing the output file fails in the middle -/
  | outStops (he : ¬ Early a w fs) (src f : Content) (n : Nat) (hs : fs a.input = some src)
      (hf : w.format (outText a w src) = some f) (hw : w.writeOut = .stops n) :
      Outcome a w fs (fs.set a.output (some (f.take n))) .panic
  | done (he : ¬ Early a w fs) (src f : Content) (hs : fs a.input = some src)
      (hf : w.format (outText a w src) = some f) (hw : w.writeOut = .ok) (ht : a.types = "") :
      Outcome a w fs (fs.set a.output (some f)) .done
  /-- the types file cannot be formatted or opened, after the output file was written -/
  | typesFail (he : ¬ Early a w fs) (src f : Content) (hs : fs a.input = some src)
      (hf : w.format (outText a w src) = some f) (hw : w.writeOut = .ok) (ht : a.types ≠ "")
      (h : w.rereadTypes = true ∨ w.format (typesText a w src) = none ∨ w.writeTypes = .cannotOpen) :
      Outcome a w fs (fs.set a.output (some f)) .panic
  /-- writing the types file fails in the middle -/
  | typesStops (he : ¬ Early a w fs) (src f t : Content) (n : Nat) (hs : fs a.input = some src)
      (hf : w.format (outText a w src) = some f) (hw : w.writeOut = .ok) (ht : a.types ≠ "")
      (hf' : w.format (typesText a w src) = some t) (hw' : w.writeTypes = .stops n) :
      Outcome a w fs ((fs.set a.output (some f)).set a.types (some (t.take n))) .panic
  | doneTypes (he : ¬ Early a w fs) (src f t : Content) (hs : fs a.input = some src)
      (hf : w.format (outText a w src) = some f) (hw : w.writeOut = .ok) (ht : a.types ≠ "")
      (hf' : w.format (typesText a w src) = some t) (hw' : w.writeTypes = .ok) :
      Outcome a w fs ((fs.set a.output (some f)).set a.types (some t)) .done

/-- The outcome, once both temporary files are set up. -/
theorem body_outcome {a : Args} {w : World} {fs : FS} (hr : RemovesWork w) (hd : Distinct a)
    {src : Content} (hs : fs a.input = some src) (hp : (w.parse src).returns = true)
    (ho : fs (a.output ++ ".tmp") = none) (hto : a.types ≠ "" → fs (a.types ++ ".tmp") = none)
    (he : ∀ h : Early a w fs, w.rereadOut = true ∨ w.format (outText a w src) = none ∨ w.writeOut = .cannotOpen)
    (fs1 : FS) (tt : Path)
    (h1 : a.types = "" → fs1 = fs.set (a.output ++ ".tmp") (some (outText a w src)) )
    (h2 : a.types ≠ "" → tt = a.types ++ ".tmp" ∧ fs1 = (fs.set (a.output ++ ".tmp")
      (some (outText a w src))).set (a.types ++ ".tmp") (some (typesText a w src))) :
    let r := match refmt w fs1 (a.output ++ ".tmp") a.output w.rereadOut w.writeOut with
      | (fs, false) => (fs, Status.panic)
      | (fs, true) =>
        if a.types ≠ "" then
          match refmt w fs tt a.types w.rereadTypes w.writeTypes with
          | (fs, false) => (fs, .panic)
          | (fs, true) => (fs, .done)
        else (fs, .done)
    Outcome a w fs (remove (if a.types ≠ "" then remove r.1 (a.types ++ ".tmp") w.removeTypes else r.1)
      (a.output ++ ".tmp") w.removeOut) r.2 := by
  obtain ⟨hr1, hr2⟩ := hr
  have hin : fs1 (a.output ++ ".tmp") = some (outText a w src) := by
    by_cases ht : a.types = ""
    · rw [h1 ht, set_same]
    · obtain ⟨d1, d2, d3⟩ := hd ht
      rw [(h2 ht).2, set_ne _ _ (fun e => d1 (tmp_inj e).symm), set_same]
  by_cases hf : w.rereadOut = true ∨ w.format (outText a w src) = none ∨ w.writeOut = .cannotOpen
  · rw [refmt_fail hin hf]
    dsimp only
    have hE : Early a w fs := by
      rcases hf with h | h | h
      · exact .reread h
      · exact .format src hs h
      · exact .open' h
    by_cases ht : a.types = ""
    · rw [if_neg (fun h => h ht), hr1, h1 ht]
      simp only [remove, Bool.false_eq_true, if_false, clean_one ho]
      exact .early _ hE (by simp)
    · rw [if_pos ht, hr1, hr2, (h2 ht).2]
      have hto' : a.types ++ ".tmp" ≠ a.output ++ ".tmp" := fun e => (hd ht).1 (tmp_inj e)
      simp only [remove, Bool.false_eq_true, if_false]
      rw [set_set, set_comm _ _ _ hto', set_set, set_id _ ho, set_id _ (hto ht)]
      exact .early _ hE (by simp)
  · have hE : ¬ Early a w fs := fun h => hf (he h)
    simp only [not_or] at hf
    obtain ⟨hf1, hf2, hf3⟩ := hf
    have hf1 : w.rereadOut = false := by simpa using hf1
    obtain ⟨f, hf2⟩ := Option.ne_none_iff_exists'.mp hf2
    rw [hf1, refmt_ok hin hf2]
    dsimp only
    by_cases ht : a.types = ""
    · rw [if_neg (fun h => h ht), hr1, h1 ht]
      have hcl : ∀ c, ((fs.set (a.output ++ ".tmp") (some (outText a w src))).set a.output c).set
          (a.output ++ ".tmp") none = fs.set a.output c := by
        intro c
        rw [set_comm _ _ _ (ne_tmp _).symm, set_set, set_id]
        rw [set_ne _ _ (ne_tmp _).symm, ho]
      cases hw : w.writeOut with
      | cannotOpen => exact absurd hw hf3
      | stops n =>
        simp only [writeFile, remove, Bool.false_eq_true, if_false, hcl]
        exact .outStops hE src f n hs hf2 hw
      | ok =>
        simp only [writeFile, remove, Bool.false_eq_true, if_false, hcl, ht, ne_eq, not_true_eq_false]
        exact .done hE src f hs hf2 hw ht
    · obtain ⟨d1, d2, d3⟩ := hd ht
      obtain ⟨rfl, e1⟩ := h2 ht
      have hto' : a.types ++ ".tmp" ≠ a.output ++ ".tmp" := fun e => d1 (tmp_inj e)
      have hcl : ∀ c, (((((fs.set (a.output ++ ".tmp") (some (outText a w src))).set (a.types ++ ".tmp")
          (some (typesText a w src))).set a.output c).set (a.types ++ ".tmp") none).set
          (a.output ++ ".tmp") none) = fs.set a.output c := by
        intro c
        rw [set_comm _ c none d3, set_set, set_comm _ c none (ne_tmp _), set_comm _ none none hto',
          set_set, set_id _ ho, set_id _ (hto ht)]
      have hcl2 : ∀ c d, ((((((fs.set (a.output ++ ".tmp") (some (outText a w src))).set (a.types ++ ".tmp")
          (some (typesText a w src))).set a.output c).set a.types d).set (a.types ++ ".tmp") none).set
          (a.output ++ ".tmp") none) = (fs.set a.output c).set a.types d := by
        intro c d
        rw [set_comm _ d none (ne_tmp _), set_comm _ d none d2, hcl]
      rw [if_pos ht, hr1, hr2, e1]
      cases hw : w.writeOut with
      | cannotOpen => exact absurd hw hf3
      | stops n =>
        simp only [writeFile, remove, Bool.false_eq_true, if_false, hcl]
        exact .outStops hE src f n hs hf2 hw
      | ok =>
        simp only [writeFile]
        rw [if_pos ht]
        have hin2 : (((fs.set (a.output ++ ".tmp") (some (outText a w src))).set (a.types ++ ".tmp")
            (some (typesText a w src))).set a.output (some f)) (a.types ++ ".tmp") =
            some (typesText a w src) := by
          rw [set_ne _ _ d3.symm, set_same]
        by_cases hg : w.rereadTypes = true ∨ w.format (typesText a w src) = none ∨ w.writeTypes = .cannotOpen
        · rw [refmt_fail hin2 hg]
          simp only [remove, Bool.false_eq_true, if_false, hcl]
          exact .typesFail hE src f hs hf2 hw ht hg
        · have hg' := hg
          simp only [not_or] at hg'
          obtain ⟨hg1, hg2, hg3⟩ := hg'
          have hg1 : w.rereadTypes = false := by simpa using hg1
          obtain ⟨t, hg2⟩ := Option.ne_none_iff_exists'.mp hg2
          rw [hg1, refmt_ok hin2 hg2]
          cases hw' : w.writeTypes with
          | cannotOpen => exact absurd hw' hg3
          | stops n =>
            simp only [writeFile, remove, Bool.false_eq_true, if_false, hcl2]
            exact .typesStops hE src f t n hs hf2 hw ht hg2 hw'
          | ok =>
            simp only [writeFile, remove, Bool.false_eq_true, if_false, hcl2]
            exact .doneTypes hE src f t hs hf2 hw ht hg2 hw'

/-- If the temporary files can be removed and no two of the files have the same name, a run has one of
the outcomes listed in `Outcome`. -/
theorem C43_outcomes {a : Args} {w : World} {fs : FS} (hr : RemovesWork w) (hd : Distinct a) :
    Outcome a w fs (main a w fs).1 (main a w fs).2 := by
  unfold main
  by_cases h1 : a.input = ""
  · rw [if_pos h1]; exact .early _ (.noInput h1) (by simp)
  rw [if_neg h1]
  by_cases h2 : a.output = ""
  · rw [if_pos h2]; exact .early _ (.noOutput h2) (by simp)
  rw [if_neg h2]
  cases h3 : readFile fs a.input w.readInput with
  | none =>
    refine .early _ (.unreadable ?_) (by simp)
    unfold readFile at h3; split at h3
    · rename_i h; exact .inl h
    · exact .inr h3
  | some src =>
    have h3' : w.readInput = false ∧ fs a.input = some src := by
      unfold readFile at h3; split at h3
      · cases h3
      · rename_i hc; exact ⟨by simpa using hc, h3⟩
    dsimp only
    cases h4 : createExcl fs (a.output ++ ".tmp") w.openOut with
    | none =>
      refine .early _ (.tmpExists ?_) (by simp)
      unfold createExcl at h4; split at h4
      · rename_i h; simpa using h
      · cases h4
    | some fs1 =>
      have h4' : w.openOut = false ∧ fs (a.output ++ ".tmp") = none ∧
          fs1 = fs.set (a.output ++ ".tmp") (some []) := by
        unfold createExcl at h4; split at h4
        · cases h4
        · rename_i hc; simp at hc; exact ⟨hc.1, hc.2, (Option.some.inj h4).symm⟩
      obtain ⟨h5, ho, rfl⟩ := h4'
      dsimp only
      rw [fprintf_eq w 0 _ _ _ [] (set_same _ _ _), set_set,
        fprintf_eq w 1 _ _ _ _ (set_same _ _ _), set_set, List.nil_append]
      generalize hH : cut w 0 (pkgLine a) ++ cut w 1 importLine = H
      by_cases ht : a.types = ""
      · rw [if_neg (fun h => h ht)]
        unfold body
        dsimp only
        rw [parseWrites_one w _ _ _ _ H (set_same _ _ _), set_set]
        have hT : H ++ part w (fun _ => true) 2 (w.parse src).writes = outText a w src := by
          rw [outText, hH, if_pos ht]
        rw [hT]
        by_cases hp : (w.parse src).returns = false
        · rw [if_pos hp, hr.1]
          simp only [remove, Bool.false_eq_true, if_false, clean_one ho]
          exact .early _ (.parse src h3'.2 hp) (by simp)
        · rw [if_neg hp]
          have := body_outcome hr hd h3'.2 (by simpa using hp) ho (fun h => absurd ht h) (fun h => ?_)
            (fs.set (a.output ++ ".tmp") (some (outText a w src))) (a.output ++ ".tmp") (fun _ => rfl)
            (fun h => absurd ht h)
          · dsimp only at this
            rw [if_neg (fun h => h ht)] at this
            exact this
          · cases h with
            | noInput h => exact absurd h h1
            | noOutput h => exact absurd h h2
            | unreadable h => rw [h3'.1, h3'.2] at h; simp at h
            | tmpExists h => rw [h5, ho] at h; simp at h
            | typesTmpExists h => exact absurd ht h
            | parse s hs h => rw [h3'.2] at hs; cases hs; exact absurd h hp
            | reread h => exact .inl h
            | format s hs h => rw [h3'.2] at hs; cases hs; exact .inr (.inl h)
            | open' h => exact .inr (.inr h)
      · rw [if_pos ht]
        obtain ⟨d1, d2, d3⟩ := hd ht
        have hto : a.types ++ ".tmp" ≠ a.output ++ ".tmp" := fun e => d1 (tmp_inj e)
        cases h6 : createExcl (fs.set (a.output ++ ".tmp") (some H)) (a.types ++ ".tmp") w.openTypes with
        | none =>
          dsimp only
          rw [hr.1]
          simp only [remove, Bool.false_eq_true, if_false, clean_one ho]
          refine .early _ (.typesTmpExists ht ?_) (by simp)
          unfold createExcl at h6; split at h6
          · rename_i h; rw [set_ne _ _ hto] at h; simpa using h
          · cases h6
        | some fs2 =>
          have h6' : w.openTypes = false ∧ fs (a.types ++ ".tmp") = none ∧
              fs2 = (fs.set (a.output ++ ".tmp") (some H)).set (a.types ++ ".tmp") (some []) := by
            unfold createExcl at h6; split at h6
            · cases h6
            · rename_i hc
              rw [set_ne _ _ hto] at hc
              simp at hc; exact ⟨hc.1, hc.2, (Option.some.inj h6).symm⟩
          obtain ⟨h7, hto', rfl⟩ := h6'
          dsimp only
          rw [fprintf_eq w 2 _ _ _ [] (set_same _ _ _), set_set, List.nil_append]
          unfold body
          dsimp only
          rw [parseWrites_two w _ _ hto _ _ _ H (cut w 2 (pkgLine a))
            (by rw [set_ne _ _ hto.symm, set_same]) (set_same _ _ _)]
          have hT : H ++ part w (fun b => !b) 3 (w.parse src).writes = outText a w src := by
            rw [outText, hH, if_neg ht]
          rw [hT]
          have hT2 : cut w 2 (pkgLine a) ++ part w (fun b => b) 3 (w.parse src).writes = typesText a w src := rfl
          rw [hT2, set_comm _ (some (cut w 2 (pkgLine a))) _ hto, set_set, set_set]
          by_cases hp : (w.parse src).returns = false
          · rw [if_pos hp, hr.1, hr.2]
            simp only [remove, Bool.false_eq_true, if_false]
            rw [set_set, set_comm _ _ _ hto, set_set, set_id _ ho, set_id _ hto']
            exact .early _ (.parse src h3'.2 hp) (by simp)
          · rw [if_neg hp]
            have := body_outcome hr hd h3'.2 (by simpa using hp) ho (fun _ => hto') (fun h => ?_)
              ((fs.set (a.output ++ ".tmp") (some (outText a w src))).set (a.types ++ ".tmp")
                (some (typesText a w src))) (a.types ++ ".tmp") (fun h => absurd h ht) (fun _ => ⟨rfl, rfl⟩)
            · dsimp only at this
              rw [if_pos ht] at this
              exact this
            · cases h with
              | noInput h => exact absurd h h1
              | noOutput h => exact absurd h h2
              | unreadable h => rw [h3'.1, h3'.2] at h; simp at h
              | tmpExists h => rw [h5, ho] at h; simp at h
              | typesTmpExists _ h => rw [h7, hto'] at h; simp at h
              | parse s hs h => rw [h3'.2] at hs; cases hs; exact absurd h hp
              | reread h => exact .inl h
              | format s hs h => rw [h3'.2] at hs; cases hs; exact .inr (.inl h)
              | open' h => exact .inr (.inr h)

/-- **C43** If anything goes wrong before an output file is opened (no arguments, an unreadable input, a
left-over temporary file, a syntax error, a type without codec, text that cannot be formatted, an output
that cannot be opened), the run does not succeed, and afterwards all files are as they were: the previous
outputs are still there and no temporary file is left. -/
theorem C43_failure {a : Args} {w : World} {fs : FS} (hr : RemovesWork w) (hd : Distinct a)
    (h : Early a w fs) : (main a w fs).1 = fs ∧ (main a w fs).2 ≠ .done := by
  have ho := C43_outcomes (fs := fs) hr hd
  generalize (main a w fs).1 = fs' at ho ⊢
  generalize (main a w fs).2 = st at ho ⊢
  cases ho with
  | early st h hst => exact ⟨rfl, hst⟩
  | outStops he => exact absurd h he
  | done he => exact absurd h he
  | typesFail he => exact absurd h he
  | typesStops he => exact absurd h he
  | doneTypes he => exact absurd h he

/-- **C43** A run that reports success has read the input, the parser has accepted it, and the output
files hold exactly the formatted generated text; no other file is different, in particular no temporary
file is left. -/
theorem C43_success {a : Args} {w : World} {fs fs' : FS} (hr : RemovesWork w) (hd : Distinct a)
    (h : main a w fs = (fs', .done)) :
    ∃ src f, fs a.input = some src ∧ (w.parse src).returns = true ∧
      w.format (outText a w src) = some f ∧ fs' a.output = some f ∧
      (a.types = "" → ∀ p, p ≠ a.output → fs' p = fs p) ∧
      (a.types ≠ "" → ∃ t, w.format (typesText a w src) = some t ∧ fs' a.types = some t ∧
        ∀ p, p ≠ a.output → p ≠ a.types → fs' p = fs p) := by
  have ho := C43_outcomes (fs := fs) hr hd
  rw [h] at ho
  have hret : ∀ {src}, ¬ Early a w fs → fs a.input = some src → (w.parse src).returns = true := by
    intro src he hs
    cases hc : (w.parse src).returns with
    | true => rfl
    | false => exact absurd (.parse src hs hc) he
  cases ho with
  | early st h hst => exact absurd rfl hst
  | done he src f hs hf hw ht =>
    exact ⟨src, f, hs, hret he hs, hf, set_same _ _ _, fun _ p hp => set_ne _ _ hp, fun h => absurd ht h⟩
  | doneTypes he src f t hs hf hw ht hf' hw' =>
    refine ⟨src, f, hs, hret he hs, hf, ?_, fun h => absurd h ht, fun _ => ⟨t, hf', set_same _ _ _, ?_⟩⟩
    · exact (set_ne _ _ (hd ht).1.symm).trans (set_same _ _ _)
    · exact fun p h1 h2 => (set_ne _ _ h2).trans (set_ne _ _ h1)

/-- **C43** Whatever happens, only the two output files can be different afterwards. -/
theorem C43_touches {a : Args} {w : World} {fs : FS} (hr : RemovesWork w) (hd : Distinct a)
    (p : Path) (h1 : p ≠ a.output) (h2 : p ≠ a.types) : (main a w fs).1 p = fs p := by
  have ho := C43_outcomes (fs := fs) hr hd
  generalize (main a w fs).1 = fs' at ho ⊢
  generalize (main a w fs).2 = st at ho ⊢
  cases ho with
  | early h hst => rfl
  | outStops => exact set_ne _ _ h1
  | done => exact set_ne _ _ h1
  | typesFail => exact set_ne _ _ h1
  | typesStops => rw [set_ne _ _ h2, set_ne _ _ h1]
  | doneTypes => rw [set_ne _ _ h2, set_ne _ _ h1]

/-! ### A case, and what can go wrong -/

/-- A world in which everything works: the parser copies the input to the output and its first byte to
the types file, and formatting does nothing, except that it rejects the empty text. -/
def fine : World where
  parse src := ⟨[(false, src), (true, src.take 1)], src ≠ []⟩
  format c := if c = [] then none else some c
  readInput := false
  openOut := false
  openTypes := false
  short _ := none
  rereadOut := false
  rereadTypes := false
  writeOut := .ok
  writeTypes := .ok
  removeOut := false
  removeTypes := false

def someArgs : Args := ⟨"p.x", "x.go", "t.go", "p"⟩

/-- An input file and the outputs of an earlier run. -/
def someFiles : FS := fun p =>
  if p = "p.x" then some [1, 2] else if p = "x.go" then some [7] else if p = "t.go" then some [8] else none

theorem some_distinct : Distinct someArgs := fun _ => by decide

example : RemovesWork fine := ⟨rfl, rfl⟩

/-- A successful run. -/
example : (main someArgs fine someFiles).2 = .done ∧
    (main someArgs fine someFiles).1 "x.go" = some (pkgLine someArgs ++ importLine ++ [1, 2]) ∧
    (main someArgs fine someFiles).1 "t.go" = some (pkgLine someArgs ++ [1]) ∧
    (main someArgs fine someFiles).1 "x.go.tmp" = none := by decide +kernel

/-- A run on an input with a syntax error. -/
example : let fs := someFiles.set "p.x" (some [])
    Early someArgs fine fs ∧ (main someArgs fine fs).2 = .panic ∧
      (main someArgs fine fs).1 "x.go" = some [7] ∧ (main someArgs fine fs).1 "x.go.tmp" = none :=
  ⟨.parse [] rfl rfl, by decide +kernel⟩

/-- **C43, the other direction** The output file is not replaced atomically: if the disk is full when it
is written, the previous output is gone, and what is there is not the new one either. -/
theorem C43_destroyed :
    let w := { fine with writeOut := .stops 3 }
    RemovesWork w ∧ Distinct someArgs ∧ (main someArgs w someFiles).2 = .panic ∧
      (main someArgs w someFiles).1 "x.go" = some ((pkgLine someArgs).take 3) ∧
      someFiles "x.go" = some [7] := by
  refine ⟨⟨rfl, rfl⟩, some_distinct, ?_⟩; decide +kernel

/-- **C43, the other direction** The two output files are not replaced together: a failure at the types
file leaves the new output file beside the old types file. -/
theorem C43_half :
    let w := { fine with writeTypes := .cannotOpen }
    RemovesWork w ∧ Distinct someArgs ∧ (main someArgs w someFiles).2 = .panic ∧
      (main someArgs w someFiles).1 "x.go" = some (pkgLine someArgs ++ importLine ++ [1, 2]) ∧
      (main someArgs w someFiles).1 "t.go" = some [8] := by
  refine ⟨⟨rfl, rfl⟩, some_distinct, ?_⟩; decide +kernel

/-- **C43, the other direction** Errors of `Fprintf` are not looked at: if the text written last does not
fit on the disk and the rest still formats, the run reports success with a part of the output. -/
theorem C43_silent :
    let w := { fine with short := fun n => if n = 3 then some 1 else none }
    RemovesWork w ∧ Distinct someArgs ∧ (main someArgs w someFiles).2 = .done ∧
      (main someArgs w someFiles).1 "x.go" = some (pkgLine someArgs ++ importLine ++ [1]) ∧
      (main someArgs fine someFiles).1 "x.go" = some (pkgLine someArgs ++ importLine ++ [1, 2]) := by
  refine ⟨⟨rfl, rfl⟩, some_distinct, ?_⟩; decide +kernel

/-- **C43, the other direction** Names have to be distinct: a types file named like the temporary file of
the output is written and then removed, and the run reports success. -/
theorem C43_alias :
    let a : Args := ⟨"p.x", "x.go", "x.go.tmp", "p"⟩
    RemovesWork fine ∧ ¬ Distinct a ∧ (main a fine someFiles).2 = .done ∧
      (main a fine someFiles).1 a.types = none := by
  refine ⟨⟨rfl, rfl⟩, fun h => (h (by decide)).2.1 rfl, ?_⟩; decide +kernel

/-- **C43, the other direction** A temporary file that cannot be removed makes every later run fail,
until somebody removes it. -/
theorem C43_stale (w : World) (fs : FS) (a : Args) (h : (fs (a.output ++ ".tmp")).isSome)
    (h1 : a.input ≠ "") (h2 : a.output ≠ "") : main a w fs = (fs, .panic) := by
  unfold main
  rw [if_neg h1, if_neg h2]
  cases readFile fs a.input w.readInput with
  | none => rfl
  | some src => simp [createExcl, h]

example : (someFiles.set "x.go.tmp" (some [])) (someArgs.output ++ ".tmp") = some [] := by decide +kernel

end Verif.Props
