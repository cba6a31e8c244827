/-
PROPERTY C59: the text of xdr.y.

`readYacc` reads the grammar file; `Yacc.go` is the Go text of its actions, one function per rule as goyacc would place
them, which is parsed as the other files of package main are.  A derivation is a tree of the rules of that grammar with
tokens at the leaves; `Tree.run` runs the actions in the order in which a parser reduces.  The model's grammar `DSpec`,
and what it makes of a specification, are the subject of C44 to C47.
-/
import Verif.Lang.Derive
import Verif.Lang.GenRead
import Verif.Props.GoOut
import Verif.Props.Parsing

namespace Verif.Props
open Verif.Text Verif.Gen Verif.Lang Verif.Inst

/-- The grammar and the program: what xdr.y reads as, and what its actions parse to. -/
theorem C59_program : ∃ y act out scan main, readYacc yaccText.flatten = some y ∧ readFile y.go = some act ∧
    y.grammar = xdrGrammar ∧ genProg = [mkPkg "main" [out, scan, main, act]] :=
  ⟨_, _, _, _, _, readYacc_xdr, readAct, readGrammar, rfl⟩

/-- **C59** The rules of xdr.y derive a sequence of scanned tokens exactly if the model's grammar derives some
specification from them. -/
theorem C59_derives {ts : List XTok} {w : List (String × List UInt8)} (h : YToks ts w) :
    (∃ t, Derives xdrGrammar "spec" t ∧ t.yield = w) ↔ ∃ s, DSpec ts s := by
  constructor
  · rintro ⟨t, d, rfl⟩
    obtain ⟨s, hs, _⟩ := derives_means (fl := ⟨false, ""⟩) (grow := fun _ _ => 0) (loops := 0) (by simp) d ts h
    exact ⟨s, hs⟩
  · rintro ⟨s, hs⟩
    exact hasSpec hs w h

/-- **C59** Running the actions of xdr.y in the order of any derivation ends; it has written to each of the two files,
write by write, what the model says for the specification that the tokens stand for, and has changed nothing that was in
memory; or it panics, exactly if the model does. -/
theorem C59_runs {fl : Flags} (hfl : ∀ c ∈ fl.constType.toList, c.toNat < 128) {ts : List XTok} {t : Tree}
    (hd : Derives xdrGrammar "spec" t) (ht : YToks ts t.yield) {s : Spec} (hs : DSpec ts s) :
    ∀ grow loops (st : St Log), ∃ K, ∀ k, K ≤ k →
      match wSpec fl s with
      | some ws => ∃ l st', t.run xdrGrammar (genExt fl grow loops) k st = .ok ([], st') ∧
          st'.world = st.world ++ l ∧ PrintsW ws l ∧ st.next ≤ st'.next ∧ ∀ j, j < st.next → st'.heap j = st.heap j
      | none => ∃ s, t.run xdrGrammar (genExt fl grow loops) k st = .error (.panic, s) := by
  intro grow loops st
  obtain ⟨s', hs', he⟩ := derives_means (fl := fl) (grow := grow) (loops := loops) hfl hd ts ht
  obtain rfl := C45_unambiguous hs' hs
  obtain ⟨r, h0, h1⟩ := tree_run xdrGrammar (genExt fl grow loops) t st
  have h2 := he st r h0
  rcases h1 with ⟨K, h1⟩ | ⟨s, rfl⟩
  rotate_left
  · unfold PrintsOut at h2
    cases hw : wSpec fl s' with
    | none => rw [hw] at h2; obtain ⟨_, e⟩ := h2; cases e
    | some ws => rw [hw] at h2; obtain ⟨_, _, e, _⟩ := h2; cases e
  refine ⟨K, fun k hk => ?_⟩
  rw [h1 k hk]
  unfold PrintsOut at h2
  cases hw : wSpec fl s' with
  | none => rw [hw] at h2; exact h2
  | some ws =>
    rw [hw] at h2
    obtain ⟨l, st', h1, h2, h3, h4⟩ := h2
    exact ⟨l, st', h1, h2, h3, h4.next, h4.heap⟩

/-! ### A file -/

def trees : List Tree → Trees
  | [] => .nil
  | t :: ts => .cons t (trees ts)
def tk (s : String) (b : String := "") : Tree := .tok s (strBytes b)

/-- `struct s { unsigned int f<0x10>; };` -/
def demoTree : Tree :=
  .node 2 (trees [.node 1 .nil, .node 3 (trees [.node 51 (trees [tk "KWSTRUCT" "struct", tk "IDENT" "s", .node 36 (trees [tk "'{'",
    .node 38 (trees [.node 37 .nil, .node 8 (trees [.node 18 (trees [.node 29 (trees [tk "KWUNSIGNED"]), tk "KWINT"]), tk "IDENT" "f",
      .node 15 (trees [tk "'<'", .node 16 (trees [tk "CONST" "0x10"]), tk "'>'"])]), tk "';'"]), tk "'}'"]), tk "';'"])])])

def demoToks : List XTok :=
  [.kstruct, .ident "s", .lbrace, .kunsigned, .kint, .ident "f", .lt, .const 16, .gt, .semi, .rbrace, .semi]

example : YToks demoToks demoTree.yield := by
  refine .cons ⟨rfl, trivial⟩ (.cons ⟨rfl, ?_⟩ (.cons ⟨rfl, trivial⟩ (.cons ⟨rfl, trivial⟩ (.cons ⟨rfl, trivial⟩ (.cons ⟨rfl, ?_⟩
    (.cons ⟨rfl, trivial⟩ (.cons ⟨rfl, ?_⟩ (.cons ⟨rfl, trivial⟩ (.cons ⟨rfl, trivial⟩ (.cons ⟨rfl, trivial⟩ (.cons ⟨rfl, trivial⟩
    .nil)))))))))))
  · exact ⟨by decide, by decide, rfl⟩
  · exact ⟨by decide, by decide, rfl⟩
  · show isLit _ _ = true
    decide +kernel

example : DSpec demoToks [.struct "s" (.cons (.name (.varArray (.int true) (some (.lit 16))) "f") .nil)] :=
  (C45_parse _ _).mp (by decide +kernel)

example : Derives xdrGrammar "spec" demoTree :=
  Tree.check_derives (by decide +kernel)

/-- The same to the end. -/
example : (match demoTree.run xdrGrammar (genExt ⟨false, ""⟩ (fun _ _ => 0) 0) 30 ⟨fun _ => .nil, 0, [], []⟩ with
    | .ok (_, st) => some (fileBytes true st.world)
    | .error _ => none) = some (strBytes "type S struct {\n  F []uint32;\n}\n") := by decide +kernel

end Verif.Props
