/-
What the parser does, with the scanner and the files of main.go: it follows the automaton over the tokens of the file, and
writes what running the actions in the order of the derivation writes.
-/
import Verif.Lang.YaccMono
import Verif.Lang.World

namespace Verif.Lang
open Verif.Text Verif.Gen Verif.Tool
set_option linter.unusedSimpArgs false

/-! ### The files -/

theorem parseWrites_short {w w' : World} (h : w.short = w'.short) (po pt : Path) : ∀ (l : List (Bool × Content)) (n : Nat) (fs : FS),
    parseWrites w po pt n l fs = parseWrites w' po pt n l fs
  | [], _, _ => rfl
  | (t, d) :: l, n, fs => by
    rw [parseWrites, parseWrites, h, parseWrites_short h po pt l]

theorem parseWrites_snoc (w : World) (po pt : Path) (b : Bool) (d : Content) : ∀ (l : List (Bool × Content)) (n : Nat) (fs : FS),
    parseWrites w po pt n (l ++ [(b, d)]) fs =
      fprintf (w.short (n + l.length)) (parseWrites w po pt n l fs) (if b then pt else po) d
  | [], n, fs => rfl
  | (t, e) :: l, n, fs => by
    rw [List.cons_append, parseWrites, parseWrites, parseWrites_snoc w po pt b d l, List.length_cons]
    rw [show n + 1 + l.length = n + (l.length + 1) by omega]

section
variable (sys : Sys) (fl : ToolFlags) (grow : Nat → Nat → Nat) (loops : Nat) (P : Content → Parse) (w₀ : TW) (po pt : Path)

/-- The world after this was written, with these tokens left. -/
def TW.after (ts : List Scanned) (log : Log) : TW :=
  { w₀ with fs := parseWrites (sys.world fl.args P) po pt w₀.prints log w₀.fs, prints := w₀.prints + log.length, toks := ts }

/-- What surrounds the parser's actions. -/
def innerExt : Ext TW := toolExt sys fl (fun _ => stop .stuck) grow loops

variable {sys fl grow loops P w₀ po pt}

variable (sys fl P w₀ po pt) in
/-- The world of the files is that of the log. -/
def After (ts : List Scanned) (log : Log) (g : TW) : Prop := g = TW.after sys fl P w₀ po pt ts log

theorem after_print {ts : List Scanned} {t : Bool} {b : Content} {log : Log} {g : TW} (h : After sys fl P w₀ po pt ts log g) :
    After sys fl P w₀ po pt ts (log ++ [(t, b)]) (g.print sys (if t then pt else po) b) := by
  unfold After at *
  rw [h]
  unfold TW.after TW.print TW.printed
  simp only [parseWrites_snoc, List.length_append, List.length_singleton]
  rfl

theorem rel_tout {j : Nat} (ht : w₀.tout = .obj j) (hj : w₀.opened[j]? = some pt) (ts : List Scanned) (b : Content) :
    RelM (After sys fl P w₀ po pt ts) (fun st : St Log => .ok ([V.int b.length, .nil], { st with world := st.world ++ [(true, b)] }))
      (printTo sys TW.tout b) := by
  intro st st' hs
  have hw := hs.world
  refine ⟨st'.to (st'.world.print sys pt b), ?_, hs.heap, hs.next, hs.defers, after_print (t := true) hw⟩
  unfold printTo
  rw [show st'.world.file (TW.tout st'.world) = some pt by
    unfold After at hw
    rw [hw]
    show TW.file _ w₀.tout = _
    rw [ht]
    exact hj]

theorem rel_out {i : Nat} (ht : w₀.out = .obj i) (hj : w₀.opened[i]? = some po) (ts : List Scanned) (b : Content) :
    RelM (After sys fl P w₀ po pt ts) (fun st : St Log => .ok ([V.int b.length, .nil], { st with world := st.world ++ [(false, b)] }))
      (printTo sys TW.out b) := by
  intro st st' hs
  have hw := hs.world
  refine ⟨st'.to (st'.world.print sys po b), ?_, hs.heap, hs.next, hs.defers, after_print (t := false) hw⟩
  unfold printTo
  rw [show st'.world.file (TW.out st'.world) = some po by
    unfold After at hw
    rw [hw]
    show TW.file _ w₀.out = _
    rw [ht]
    exact hj]

theorem stuck_rel {ω ω' α : Type} {R : ω → ω' → Prop} (m : M ω' α) : RelM R (stop .stuck) m := fun _ _ _ => .inl rfl

theorem rel_flag (ts : List Scanned) (w : String) :
    RelM (After sys fl P w₀ po pt ts) (if w = "main.unsignedEnumFlag" then pure [.bool fl.gen.unsignedEnum]
      else if w = "main.constTypeFlag" then pure [.str (strBytes fl.gen.constType)] else stop .stuck) (doFlag fl [.glob w]) := by
  unfold doFlag
  by_cases h3 : w = "main.unsignedEnumFlag"
  · subst h3
    simp only [String.reduceEq, ↓reduceIte]
    exact RelM.pure _
  · rw [if_neg h3]
    by_cases h4 : w = "main.constTypeFlag"
    · subst h4
      simp only [String.reduceEq, ↓reduceIte]
      exact RelM.pure _
    · rw [if_neg h4]
      exact stuck_rel _

theorem rel_fprintf {i j : Nat} (ho : w₀.out = .obj i) (ht : w₀.tout = .obj j) (hi : w₀.opened[i]? = some po) (hj : w₀.opened[j]? = some pt)
    (ts : List Scanned) (args : List V) :
    RelM (After sys fl P w₀ po pt ts) (printing fl.gen "fmt.Fprintf" args) (doPrint sys args) := by
  unfold printing
  rw [if_pos rfl]
  split
  · rename_i w s vs
    unfold doPrint
    dsimp only
    refine RelM.bind (some_rel _) fun b => ?_
    by_cases h2 : w = "main.tout"
    · subst h2
      simp only [String.reduceEq, ↓reduceIte]
      exact rel_tout ht hj ts b
    · rw [if_neg h2]
      by_cases h3 : w = "main.out"
      · subst h3
        simp only [String.reduceEq, ↓reduceIte]
        exact rel_out ho hi ts b
      · rw [if_neg h3]
        exact stuck_rel _
  · exact stuck_rel _

theorem rel_other (ts : List Scanned) {f : String} {vs : List V} {m : M TW (List V)} (h1 : f ≠ "fmt.Fprintf") (h2 : f = "*" → m = doFlag fl vs) :
    RelM (After sys fl P w₀ po pt ts) (printing fl.gen f vs) m := by
  unfold printing
  rw [if_neg h1]
  by_cases h3 : f = "*"
  · rw [if_pos h3, h2 h3]
    split
    · exact rel_flag ts _
    · exact stuck_rel _
  · rw [if_neg h3]
    exact stuck_rel _

theorem relE_tool {i j : Nat} (ho : w₀.out = .obj i) (ht : w₀.tout = .obj j) (hi : w₀.opened[i]? = some po) (hj : w₀.opened[j]? = some pt)
    (ts : List Scanned) :
    RelE (After sys fl P w₀ po pt ts) (genExt fl.gen grow loops) (innerExt sys fl grow loops) where
  grow := rfl
  loops := rfl
  spawn _ _ := stuck_rel _
  ext f vs := by
    by_cases h1 : f = "fmt.Fprintf"
    · subst h1
      exact rel_fprintf ho ht hi hj ts vs
    · refine rel_other ts h1 fun h2 => ?_
      subst h2
      rfl

end

/-! ### Derivations whose runs end -/

/-- Every run ends, with nothing changed that was in memory, or panics. -/
def Tame (E : Ext Log) (t : Tree) : Prop :=
  ∀ st r, TRun xdrGrammar E t st r → (∃ v st', r = .ok (v, st') ∧ Over st st') ∨ ∃ s, r = .error (.panic, s)

section
variable {fl : Flags} {grow : Nat → Nat → Nat} {loops : Nat}

theorem Makes.tame {t : Tree} {Q : VPost} (h : Makes fl grow loops t Q) : Tame (genExt fl grow loops) t := fun st r hr => by
  obtain ⟨v, st', h1, _, h2, _⟩ := h st r hr
  exact .inl ⟨_, _, h1, h2⟩

theorem Quiet.tame {t : Tree} (h : Quiet fl grow loops t) : Tame (genExt fl grow loops) t := fun st r hr => by
  obtain ⟨st', h1, h2⟩ := h st r hr
  exact .inl ⟨_, _, h1, h2.over⟩

theorem Emits.tame {t : Tree} {ws : Option Writes} (h : Emits fl grow loops ws t) : Tame (genExt fl grow loops) t := fun st r hr => by
  have := h st r hr
  cases ws with
  | none => exact .inr this
  | some ws =>
    obtain ⟨l, st', h1, _, _, h2⟩ := this
    exact .inl ⟨_, _, h1, h2⟩

theorem Means.tame {s : String} {t : Tree} (h : Means fl grow loops s t) {ts : List XTok} (ht : YToks ts t.yield) :
    Tame (genExt fl grow loops) t := by
  have h := h ts ht
  split at h
  all_goals first
    | (obtain ⟨_, _, h⟩ := h; exact h.tame)
    | (obtain ⟨_, _, _, h⟩ := h; exact h.tame)
    | (obtain ⟨_, _, _, _, _, _, _, _, h⟩ := h; exact h.tame)

theorem tok_tame {E : Ext Log} (s : String) (b : List UInt8) : Tame E (.tok s b) := fun st r hr => by
  cases hr with
  | tok c => exact .inl ⟨_, _, rfl, c.over⟩

theorem node_tame (hfl : ∀ c ∈ fl.constType.toList, c.toNat < 128) {x k : Nat} {us : Trees} (h : NDer xdrRules ycode x (.node k us)) {ts : List XTok}
    (ht : YToks ts (Tree.node k us).yield) : Tame (genExt fl grow loops) (.node k us) := by
  have h0 := h
  cases h with
  | rule hk h h' =>
    cases k with
    | zero => exact absurd rfl hk
    | succ k =>
      rw [rules_xdr, List.getElem?_cons_succ, List.getElem?_map] at h
      cases hg : xdrGrammar.rules[k]? with
      | none => rw [hg] at h; cases h
      | some g =>
        rw [hg] at h
        cases h
        exact (derives_means hfl (code_der h0 rfl (rules_syms g (List.mem_of_getElem? hg)).1)).tame ht
end

end Verif.Lang
