/-
PROPERTY C58: the text of out.go.

`genProg` is package main of the generator: what out.go, scan.go, main.go and the actions of xdr.y (C59) parse to.  The functions that print
definitions are run (`callN`) on the values that the actions of xdr.y pass them; `IsDefn` says which values stand for
which definition.  `Verif.Text.wDefn` is what the model says is printed, call by call of `fmt.Fprintf`; what that text
means as Go is the subject of C46.
-/
import Verif.Lang.OutRun
import Verif.Lang.GenRead
import Verif.Props.Emission

namespace Verif.Props
open Verif.Text Verif.Gen Verif.Lang

/-- The program: what the files parse to. -/
theorem C58_program : ∃ out scan main y act, readFile outText.flatten = some out ∧ readFile scanText.flatten = some scan ∧
    readFile mainText.flatten = some main ∧ readYacc yaccText.flatten = some y ∧ readFile y.go = some act ∧
    genProg = [mkPkg "main" [out, scan, main, act]] :=
  ⟨_, _, _, _, _, readOut, readScan, readMain, readYacc_xdr, readAct, rfl⟩

/-- **C58** For every definition, and values in memory that stand for it: the function of out.go ends, has written to
each of the two files, write by write, what the model says, the literals spelled as in the specification, and has changed
nothing that was in memory; or it panics, exactly if the model does. -/
theorem C58_prints {fl : Flags} (hfl : ∀ c ∈ fl.constType.toList, c.toNat < 128) {d : Defn} {f : String} {args : List V}
    {H : Nat → V} {n : Nat} (h : IsDefn H n d f args) : ∃ K, ∀ k, K ≤ k → ∀ grow loops (st : St Log),
    (n ≤ st.next ∧ ∀ j, j < n → st.heap j = H j) →
      match wDefn fl d with
      | some ws => ∃ l st', callN genProg (genExt fl grow loops) k (.fn "main" f) args st = .ok ([], st') ∧
          st'.world = st.world ++ l ∧ PrintsW ws l ∧ st.next ≤ st'.next ∧ ∀ j, j < st.next → st'.heap j = st.heap j
      | none => ∃ s, callN genProg (genExt fl grow loops) k (.fn "main" f) args st = .error (.panic, s) := by
  obtain ⟨K, hK⟩ := run_defn hfl h
  refine ⟨K, fun k hk grow loops st ha => ?_⟩
  have h1 := hK k hk grow loops st ⟨ha.1, ha.2⟩
  unfold PrintsOut at h1
  cases hw : wDefn fl d with
  | none => rw [hw] at h1; exact h1
  | some ws =>
    rw [hw] at h1
    obtain ⟨l, st', h1, h2, h3, h4⟩ := h1
    exact ⟨l, st', h1, h2, h3, h4.next, h4.heap⟩

/-- What was written to one of the files. -/
def fileBytes (types : Bool) (l : Log) : List UInt8 := (l.filter fun w => w.1 == types).flatMap (·.2)

/-- Write by write the same is file by file the same. -/
theorem printsW_file {ws : Writes} {l : Log} (h : PrintsW ws l) (types : Bool) :
    Spells (written types ws) ((fileBytes types l).map UInt8.toNat) := by
  unfold PrintsW at h
  induction h with
  | nil => exact .nil
  | @cons a b ws l h _ ih =>
    obtain ⟨w, t⟩ := a
    obtain ⟨w', x⟩ := b
    obtain ⟨rfl, h⟩ : w = w' ∧ Prints t x := h
    unfold fileBytes at ih ⊢
    by_cases e : w = types
    · rw [written, if_pos e, List.filter_cons_of_pos (by simpa using e), List.flatMap_cons, List.map_append]
      exact Spells.append h ih
    · rw [written, if_neg e, List.filter_cons_of_neg (by simpa using e)]
      exact ih

/-- A struct with one field, as `emitStruct` gets it: the list of its fields is the array in cell 0. -/
def demoHeap : Nat → V := fun _ => .vals [.struct "main.declName"
  [("t", .struct "main.declTypeVarArray" [("t", .struct "main.typeInt" [("unsig", .bool true)]), ("sz", .str (strBytes "0x10"))]),
   ("n", .str (strBytes "f"))]]

example : IsDefn demoHeap 1 (.struct "s" (.cons (.name (.varArray (.int true) (some (.lit 16))) "f") .nil)) "emitStruct"
    [.str (strBytes "s"), .slice ⟨⟨0, []⟩, 0, 1, 1⟩] := by
  refine ⟨_, _, _, ⟨by decide, by decide, rfl⟩, .inr ⟨_, rfl, by decide, ⟨_, rfl, rfl⟩, rfl⟩, ?_, rfl, rfl⟩
  unfold IsDecls
  refine ⟨_, _, ?_, rfl, rfl⟩
  unfold IsDecl
  refine ⟨_, _, ?_, ⟨by decide, by decide, rfl⟩, rfl⟩
  unfold IsDeclType
  refine ⟨_, _, rfl, ?_, rfl⟩
  show isLit _ _ = true
  decide +kernel

/-- The same through the language itself, to the end. -/
example : (match callN genProg (genExt ⟨false, ""⟩ (fun _ _ => 0) 0) 30 (.fn "main" "emitStruct")
      [.str (strBytes "s"), .slice ⟨⟨0, []⟩, 0, 1, 1⟩] ⟨demoHeap, 1, [], []⟩ with
    | .ok (_, st) => some (fileBytes true st.world)
    | .error _ => none) = some (strBytes "type S struct {\n  F []uint32;\n}\n") := by decide +kernel

end Verif.Props
