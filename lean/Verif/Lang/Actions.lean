/-
The actions of xdr.y, one by one.
-/
import Verif.Lang.Tree

namespace Verif.Lang
open Verif.Text Verif.Gen

@[gen_simp] theorem lit0_declName (a0 a1 : V) :
    setFields (fieldNames ["", ""] (.struct "main.declName" [("t", .nil), ("n", .str [])])) [a0, a1] (.struct "main.declName" [("t", .nil), ("n", .str [])]) =
    some (.struct "main.declName" [("t", a0), ("n", a1)]) := rfl
@[gen_simp] theorem lit1_declTypeTypespec (a0 : V) :
    setFields (fieldNames [""] (.struct "main.declTypeTypespec" [("t", .nil)])) [a0] (.struct "main.declTypeTypespec" [("t", .nil)]) =
    some (.struct "main.declTypeTypespec" [("t", a0)]) := rfl
@[gen_simp] theorem lit2_declTypeArray (a0 a1 : V) :
    setFields (fieldNames ["", ""] (.struct "main.declTypeArray" [("t", .nil), ("sz", .str [])])) [a0, a1] (.struct "main.declTypeArray" [("t", .nil), ("sz", .str [])]) =
    some (.struct "main.declTypeArray" [("t", a0), ("sz", a1)]) := rfl
@[gen_simp] theorem lit3_declTypeVarArray (a0 a1 : V) :
    setFields (fieldNames ["", ""] (.struct "main.declTypeVarArray" [("t", .nil), ("sz", .str [])])) [a0, a1] (.struct "main.declTypeVarArray" [("t", .nil), ("sz", .str [])]) =
    some (.struct "main.declTypeVarArray" [("t", a0), ("sz", a1)]) := rfl
@[gen_simp] theorem lit4_declTypeOpaqueArray (a0 : V) :
    setFields (fieldNames [""] (.struct "main.declTypeOpaqueArray" [("sz", .str [])])) [a0] (.struct "main.declTypeOpaqueArray" [("sz", .str [])]) =
    some (.struct "main.declTypeOpaqueArray" [("sz", a0)]) := rfl
@[gen_simp] theorem lit5_declTypeOpaqueVarArray (a0 : V) :
    setFields (fieldNames [""] (.struct "main.declTypeOpaqueVarArray" [("sz", .str [])])) [a0] (.struct "main.declTypeOpaqueVarArray" [("sz", .str [])]) =
    some (.struct "main.declTypeOpaqueVarArray" [("sz", a0)]) := rfl
@[gen_simp] theorem lit6_declTypeString (a0 : V) :
    setFields (fieldNames [""] (.struct "main.declTypeString" [("sz", .str [])])) [a0] (.struct "main.declTypeString" [("sz", .str [])]) =
    some (.struct "main.declTypeString" [("sz", a0)]) := rfl
@[gen_simp] theorem lit7_declTypePtr (a0 : V) :
    setFields (fieldNames [""] (.struct "main.declTypePtr" [("t", .nil)])) [a0] (.struct "main.declTypePtr" [("t", .nil)]) =
    some (.struct "main.declTypePtr" [("t", a0)]) := rfl
@[gen_simp] theorem lit8_declVoid :
    setFields (fieldNames [] (.struct "main.declVoid" [])) [] (.struct "main.declVoid" []) =
    some (.struct "main.declVoid" []) := rfl
@[gen_simp] theorem lit9_typeHyper (a0 : V) :
    setFields (fieldNames [""] (.struct "main.typeHyper" [("unsig", .bool false)])) [a0] (.struct "main.typeHyper" [("unsig", .bool false)]) =
    some (.struct "main.typeHyper" [("unsig", a0)]) := rfl
@[gen_simp] theorem lit10_typeFloat :
    setFields (fieldNames [] (.struct "main.typeFloat" [])) [] (.struct "main.typeFloat" []) =
    some (.struct "main.typeFloat" []) := rfl
@[gen_simp] theorem lit11_typeDouble :
    setFields (fieldNames [] (.struct "main.typeDouble" [])) [] (.struct "main.typeDouble" []) =
    some (.struct "main.typeDouble" []) := rfl
@[gen_simp] theorem lit12_typeQuadruple :
    setFields (fieldNames [] (.struct "main.typeQuadruple" [])) [] (.struct "main.typeQuadruple" []) =
    some (.struct "main.typeQuadruple" []) := rfl
@[gen_simp] theorem lit13_typeIdent (a0 : V) :
    setFields (fieldNames [""] (.struct "main.typeIdent" [("n", .str [])])) [a0] (.struct "main.typeIdent" [("n", .str [])]) =
    some (.struct "main.typeIdent" [("n", a0)]) := rfl
@[gen_simp] theorem lit14_typeEnum (a0 : V) :
    setFields (fieldNames [""] (.struct "main.typeEnum" [("items", .nil)])) [a0] (.struct "main.typeEnum" [("items", .nil)]) =
    some (.struct "main.typeEnum" [("items", a0)]) := rfl
@[gen_simp] theorem lit15_enumItem (a0 a1 : V) :
    setFields (fieldNames ["", ""] (.struct "main.enumItem" [("name", .str []), ("val", .str [])])) [a0, a1] (.struct "main.enumItem" [("name", .str []), ("val", .str [])]) =
    some (.struct "main.enumItem" [("name", a0), ("val", a1)]) := rfl
@[gen_simp] theorem lit16_typeUnion (a0 a1 : V) :
    setFields (fieldNames ["switchDecl", "cases"] (.struct "main.typeUnion" [("switchDecl", .nil), ("cases", .struct "main.unionCasesDef" [("cases", .nil), ("def", .nil)])])) [a0, a1] (.struct "main.typeUnion" [("switchDecl", .nil), ("cases", .struct "main.unionCasesDef" [("cases", .nil), ("def", .nil)])]) =
    some (.struct "main.typeUnion" [("switchDecl", a0), ("cases", a1)]) := rfl
@[gen_simp] theorem lit17_unionCasesDef (a0 a1 : V) :
    setFields (fieldNames ["", ""] (.struct "main.unionCasesDef" [("cases", .nil), ("def", .nil)])) [a0, a1] (.struct "main.unionCasesDef" [("cases", .nil), ("def", .nil)]) =
    some (.struct "main.unionCasesDef" [("cases", a0), ("def", a1)]) := rfl
@[gen_simp] theorem lit18_unionCaseDecl (a0 a1 : V) :
    setFields (fieldNames ["", ""] (.struct "main.unionCaseDecl" [("cases", .nil), ("body", .nil)])) [a0, a1] (.struct "main.unionCaseDecl" [("cases", .nil), ("body", .nil)]) =
    some (.struct "main.unionCaseDecl" [("cases", a0), ("body", a1)]) := rfl
@[gen_simp] theorem lit19_progDef (a0 a1 a2 : V) :
    setFields (fieldNames ["", "", ""] (.struct "main.progDef" [("name", .str []), ("vers", .nil), ("id", .str [])])) [a0, a1, a2] (.struct "main.progDef" [("name", .str []), ("vers", .nil), ("id", .str [])]) =
    some (.struct "main.progDef" [("name", a0), ("vers", a1), ("id", a2)]) := rfl
@[gen_simp] theorem lit20_progVer (a0 a1 a2 : V) :
    setFields (fieldNames ["", "", ""] (.struct "main.progVer" [("name", .str []), ("calls", .nil), ("id", .str [])])) [a0, a1, a2] (.struct "main.progVer" [("name", .str []), ("calls", .nil), ("id", .str [])]) =
    some (.struct "main.progVer" [("name", a0), ("calls", a1), ("id", a2)]) := rfl
@[gen_simp] theorem lit21_progCall (a0 a1 a2 a3 : V) :
    setFields (fieldNames ["", "", "", ""] (.struct "main.progCall" [("name", .str []), ("arg", .struct "main.typespecOpt" [("isVoid", .bool false), ("t", .nil)]), ("res", .struct "main.typespecOpt" [("isVoid", .bool false), ("t", .nil)]), ("id", .str [])])) [a0, a1, a2, a3] (.struct "main.progCall" [("name", .str []), ("arg", .struct "main.typespecOpt" [("isVoid", .bool false), ("t", .nil)]), ("res", .struct "main.typespecOpt" [("isVoid", .bool false), ("t", .nil)]), ("id", .str [])]) =
    some (.struct "main.progCall" [("name", a0), ("arg", a1), ("res", a2), ("id", a3)]) := rfl
@[gen_simp] theorem lit22_typespecOpt (a0 : V) :
    setFields (fieldNames ["isVoid"] (.struct "main.typespecOpt" [("isVoid", .bool false), ("t", .nil)])) [a0] (.struct "main.typespecOpt" [("isVoid", .bool false), ("t", .nil)]) =
    some (.struct "main.typespecOpt" [("isVoid", a0), ("t", .nil)]) := rfl
@[gen_simp] theorem lit23_typespecOpt (a0 a1 : V) :
    setFields (fieldNames ["isVoid", "t"] (.struct "main.typespecOpt" [("isVoid", .bool false), ("t", .nil)])) [a0, a1] (.struct "main.typespecOpt" [("isVoid", .bool false), ("t", .nil)]) =
    some (.struct "main.typespecOpt" [("isVoid", a0), ("t", a1)]) := rfl

section
variable (unsig : Bool) (ct : List UInt8) (H : Nat → V) (n : Nat)

macro "pact" f:ident d:ident : tactic => `(tactic| (
  rw [runOut, pcallN, $f:ident]
  pgo_core [$d:ident]))

theorem pact6 (k : Nat) (t : V) (s : List UInt8) : runOut unsig ct H n (k + 1) "xdrAct6" [t, .str s] =
    pure [.struct "main.declName" [("t", .struct "main.declTypeTypespec" [("t", t)]), ("n", .str s)]] := by
  pact find_yacc_xdrAct6 yacc_xdrAct6

theorem pact7 (k : Nat) (t : V) (s : List UInt8) (b : List UInt8) : runOut unsig ct H n (k + 1) "xdrAct7" [t, .str s, .str b] =
    pure [.struct "main.declName" [("t", .struct "main.declTypeArray" [("t", t), ("sz", .str b)]), ("n", .str s)]] := by
  pact find_yacc_xdrAct7 yacc_xdrAct7

theorem pact8 (k : Nat) (t : V) (s : List UInt8) (b : List UInt8) : runOut unsig ct H n (k + 1) "xdrAct8" [t, .str s, .str b] =
    pure [.struct "main.declName" [("t", .struct "main.declTypeVarArray" [("t", t), ("sz", .str b)]), ("n", .str s)]] := by
  pact find_yacc_xdrAct8 yacc_xdrAct8

theorem pact9 (k : Nat) (s : List UInt8) (b : List UInt8) : runOut unsig ct H n (k + 1) "xdrAct9" [.str s, .str b] =
    pure [.struct "main.declName" [("t", .struct "main.declTypeOpaqueArray" [("sz", .str b)]), ("n", .str s)]] := by
  pact find_yacc_xdrAct9 yacc_xdrAct9

theorem pact10 (k : Nat) (s : List UInt8) (b : List UInt8) : runOut unsig ct H n (k + 1) "xdrAct10" [.str s, .str b] =
    pure [.struct "main.declName" [("t", .struct "main.declTypeOpaqueVarArray" [("sz", .str b)]), ("n", .str s)]] := by
  pact find_yacc_xdrAct10 yacc_xdrAct10

theorem pact11 (k : Nat) (s : List UInt8) (b : List UInt8) : runOut unsig ct H n (k + 1) "xdrAct11" [.str s, .str b] =
    pure [.struct "main.declName" [("t", .struct "main.declTypeString" [("sz", .str b)]), ("n", .str s)]] := by
  pact find_yacc_xdrAct11 yacc_xdrAct11

theorem pact12 (k : Nat) (t : V) (s : List UInt8) : runOut unsig ct H n (k + 1) "xdrAct12" [t, .str s] =
    pure [.struct "main.declName" [("t", .struct "main.declTypePtr" [("t", t)]), ("n", .str s)]] := by
  pact find_yacc_xdrAct12 yacc_xdrAct12

theorem pact13 (k : Nat) : runOut unsig ct H n (k + 1) "xdrAct13" [] =
    pure [.struct "main.declVoid" []] := by
  pact find_yacc_xdrAct13 yacc_xdrAct13

theorem pact14 (k : Nat) : runOut unsig ct H n (k + 1) "xdrAct14" [] =
    pure [.str []] := by
  pact find_yacc_xdrAct14 yacc_xdrAct14
  rfl

theorem pact15 (k : Nat) (s : List UInt8) : runOut unsig ct H n (k + 1) "xdrAct15" [.str s] =
    pure [.str s] := by
  pact find_yacc_xdrAct15 yacc_xdrAct15

theorem pact16 (k : Nat) (s : List UInt8) : runOut unsig ct H n (k + 1) "xdrAct16" [.str s] =
    pure [.str s] := by
  pact find_yacc_xdrAct16 yacc_xdrAct16

theorem pact17 (k : Nat) (s : List UInt8) : runOut unsig ct H n (k + 1) "xdrAct17" [.str s] =
    pure [.str s] := by
  pact find_yacc_xdrAct17 yacc_xdrAct17

theorem pact18 (k : Nat) (u : Bool) : runOut unsig ct H n (k + 1) "xdrAct18" [.bool u] =
    pure [.struct "main.typeInt" [("unsig", .bool u)]] := by
  pact find_yacc_xdrAct18 yacc_xdrAct18

theorem pact19 (k : Nat) (u : Bool) : runOut unsig ct H n (k + 1) "xdrAct19" [.bool u] =
    pure [.struct "main.typeHyper" [("unsig", .bool u)]] := by
  pact find_yacc_xdrAct19 yacc_xdrAct19

theorem pact20 (k : Nat) : runOut unsig ct H n (k + 1) "xdrAct20" [] =
    pure [.struct "main.typeFloat" []] := by
  pact find_yacc_xdrAct20 yacc_xdrAct20

theorem pact21 (k : Nat) : runOut unsig ct H n (k + 1) "xdrAct21" [] =
    pure [.struct "main.typeDouble" []] := by
  pact find_yacc_xdrAct21 yacc_xdrAct21

theorem pact22 (k : Nat) : runOut unsig ct H n (k + 1) "xdrAct22" [] =
    pure [.struct "main.typeQuadruple" []] := by
  pact find_yacc_xdrAct22 yacc_xdrAct22

theorem pact23 (k : Nat) : runOut unsig ct H n (k + 1) "xdrAct23" [] =
    pure [.struct "main.typeBool" []] := by
  pact find_yacc_xdrAct23 yacc_xdrAct23

theorem pact24 (k : Nat) (t : V) : runOut unsig ct H n (k + 1) "xdrAct24" [t] =
    pure [t] := by
  pact find_yacc_xdrAct24 yacc_xdrAct24

theorem pact25 (k : Nat) (t : V) : runOut unsig ct H n (k + 1) "xdrAct25" [t] =
    pure [t] := by
  pact find_yacc_xdrAct25 yacc_xdrAct25

theorem pact26 (k : Nat) (t : V) : runOut unsig ct H n (k + 1) "xdrAct26" [t] =
    pure [t] := by
  pact find_yacc_xdrAct26 yacc_xdrAct26

theorem pact27 (k : Nat) (s : List UInt8) : runOut unsig ct H n (k + 1) "xdrAct27" [.str s] =
    pure [.struct "main.typeIdent" [("n", .str s)]] := by
  pact find_yacc_xdrAct27 yacc_xdrAct27

theorem pact28 (k : Nat) : runOut unsig ct H n (k + 1) "xdrAct28" [] =
    pure [.bool false] := by
  pact find_yacc_xdrAct28 yacc_xdrAct28

theorem pact29 (k : Nat) : runOut unsig ct H n (k + 1) "xdrAct29" [] =
    pure [.bool true] := by
  pact find_yacc_xdrAct29 yacc_xdrAct29

theorem pact30 (k : Nat) (l : V) : runOut unsig ct H n (k + 1) "xdrAct30" [l] =
    pure [.struct "main.typeEnum" [("items", l)]] := by
  pact find_yacc_xdrAct30 yacc_xdrAct30

theorem pact31 (k : Nat) (l : V) : runOut unsig ct H n (k + 1) "xdrAct31" [l] =
    pure [l] := by
  pact find_yacc_xdrAct31 yacc_xdrAct31

theorem pact34 (k : Nat) (s : List UInt8) (b : List UInt8) : runOut unsig ct H n (k + 1) "xdrAct34" [.str s, .str b] =
    pure [.struct "main.enumItem" [("name", .str s), ("val", .str b)]] := by
  pact find_yacc_xdrAct34 yacc_xdrAct34

theorem pact35 (k : Nat) (l : V) : runOut unsig ct H n (k + 1) "xdrAct35" [l] =
    pure [.struct "main.typeStruct" [("items", l)]] := by
  pact find_yacc_xdrAct35 yacc_xdrAct35

theorem pact36 (k : Nat) (l : V) : runOut unsig ct H n (k + 1) "xdrAct36" [l] =
    pure [l] := by
  pact find_yacc_xdrAct36 yacc_xdrAct36

theorem pact37 (k : Nat) : runOut unsig ct H n (k + 1) "xdrAct37" [] =
    pure [.nil] := by
  pact find_yacc_xdrAct37 yacc_xdrAct37

theorem pact39 (k : Nat) (t : V) : runOut unsig ct H n (k + 1) "xdrAct39" [t] =
    pure [t] := by
  pact find_yacc_xdrAct39 yacc_xdrAct39

theorem pact40 (k : Nat) (d : V) (l : V) : runOut unsig ct H n (k + 1) "xdrAct40" [d, l] =
    pure [.struct "main.typeUnion" [("switchDecl", d), ("cases", l)]] := by
  pact find_yacc_xdrAct40 yacc_xdrAct40

theorem pact41 (k : Nat) (l : V) : runOut unsig ct H n (k + 1) "xdrAct41" [l] =
    pure [.struct "main.unionCasesDef" [("cases", l), ("def", .nil)]] := by
  pact find_yacc_xdrAct41 yacc_xdrAct41

theorem pact42 (k : Nat) (l : V) (d : V) : runOut unsig ct H n (k + 1) "xdrAct42" [l, d] =
    pure [.struct "main.unionCasesDef" [("cases", l), ("def", d)]] := by
  pact find_yacc_xdrAct42 yacc_xdrAct42

theorem pact43 (k : Nat) : runOut unsig ct H n (k + 1) "xdrAct43" [] =
    pure [.nil] := by
  pact find_yacc_xdrAct43 yacc_xdrAct43

theorem pact45 (k : Nat) (l : V) (d : V) : runOut unsig ct H n (k + 1) "xdrAct45" [l, d] =
    pure [.struct "main.unionCaseDecl" [("cases", l), ("body", d)]] := by
  pact find_yacc_xdrAct45 yacc_xdrAct45

theorem pact54 (k : Nat) : runOut unsig ct H n (k + 1) "xdrAct54" [] =
    pure [.nil] := by
  pact find_yacc_xdrAct54 yacc_xdrAct54

theorem pact56 (k : Nat) (s : List UInt8) (l : V) (b : List UInt8) : runOut unsig ct H n (k + 1) "xdrAct56" [.str s, l, .str b] =
    pure [.struct "main.progVer" [("name", .str s), ("calls", l), ("id", .str b)]] := by
  pact find_yacc_xdrAct56 yacc_xdrAct56

theorem pact57 (k : Nat) : runOut unsig ct H n (k + 1) "xdrAct57" [] =
    pure [.nil] := by
  pact find_yacc_xdrAct57 yacc_xdrAct57

theorem pact59 (k : Nat) (r : V) (s : List UInt8) (a : V) (b : List UInt8) : runOut unsig ct H n (k + 1) "xdrAct59" [r, .str s, a, .str b] =
    pure [.struct "main.progCall" [("name", .str s), ("arg", a), ("res", r), ("id", .str b)]] := by
  pact find_yacc_xdrAct59 yacc_xdrAct59

theorem pact60 (k : Nat) : runOut unsig ct H n (k + 1) "xdrAct60" [] =
    pure [.struct "main.typespecOpt" [("isVoid", .bool true), ("t", .nil)]] := by
  pact find_yacc_xdrAct60 yacc_xdrAct60

theorem pact61 (k : Nat) (t : V) : runOut unsig ct H n (k + 1) "xdrAct61" [t] =
    pure [.struct "main.typespecOpt" [("isVoid", .bool false), ("t", t)]] := by
  pact find_yacc_xdrAct61 yacc_xdrAct61

theorem pact48 (k : Nat) (s : List UInt8) (b : List UInt8) : runOut unsig ct H n (k + 1) "xdrAct48" [.str s, .str b] =
    runOut unsig ct H n k "emitConst" [.str s, .str b] >>= fun _ => pure [] := by
  pact find_yacc_xdrAct48 yacc_xdrAct48

theorem pact49 (k : Nat) (d : V) : runOut unsig ct H n (k + 1) "xdrAct49" [d] =
    runOut unsig ct H n k "emitTypedef" [d] >>= fun _ => pure [] := by
  pact find_yacc_xdrAct49 yacc_xdrAct49

theorem pact50 (k : Nat) (s : List UInt8) (l : V) : runOut unsig ct H n (k + 1) "xdrAct50" [.str s, l] =
    runOut unsig ct H n k "emitEnum" [.str s, l] >>= fun _ => pure [] := by
  pact find_yacc_xdrAct50 yacc_xdrAct50

theorem pact51 (k : Nat) (s : List UInt8) (l : V) : runOut unsig ct H n (k + 1) "xdrAct51" [.str s, l] =
    runOut unsig ct H n k "emitStruct" [.str s, l] >>= fun _ => pure [] := by
  pact find_yacc_xdrAct51 yacc_xdrAct51

theorem pact52 (k : Nat) (s : List UInt8) (l : V) : runOut unsig ct H n (k + 1) "xdrAct52" [.str s, l] =
    runOut unsig ct H n k "emitUnion" [.str s, l] >>= fun _ => pure [] := by
  pact find_yacc_xdrAct52 yacc_xdrAct52

theorem pact53 (k : Nat) (s : List UInt8) (l : V) (b : List UInt8) : runOut unsig ct H n (k + 1) "xdrAct53" [.str s, l, .str b] =
    runOut unsig ct H n k "emitProg" [.struct "main.progDef" [("name", .str s), ("vers", l), ("id", .str b)]] >>= fun _ => pure [] := by
  pact find_yacc_xdrAct53 yacc_xdrAct53

end

/-! ### In the language itself -/

variable {fl : Flags} {grow : Nat → Nat → Nat} {loops : Nat}

/-- An action that makes a value and writes nothing. -/
theorem act_pure {f : String} {args : List V} {v : V}
    (h : ∀ k, runOut fl.unsignedEnum (strBytes fl.constType) (fun _ => .nil) 0 (k + 1) f args = pure [v]) (st : St Log) :
    ∃ st', (∀ k, 1 ≤ k → callN genProg (genExt fl grow loops) k (.fn "main" f) args st = .ok ([v], st')) ∧
      st'.world = st.world ∧ Over st st' := by
  have h2 := callN_sim (view := id) genProg (genExt fl grow loops) (outExt fl.unsignedEnum (strBytes fl.constType) (fun _ => .nil) 0)
    (fun f args st _ => printing_sim fl _ _ f args st) 1 (.fn "main" f) args st ⟨Nat.zero_le _, fun _ h => absurd h (Nat.not_lt_zero _)⟩ st rfl
  rw [show pcallN _ _ _ _ _ (id st.world) = _ from congrFun (h 0) _] at h2
  obtain ⟨a, st', e, hw, _, rfl, ho⟩ := h2
  refine ⟨st', fun k hk => ?_, hw, ho⟩
  rw [callN_mono hk (by rw [e]; exact fun _ h => nomatch h), e]

theorem skip_gives {ws : Option Writes} {m : PM Log (List V)} (h : WGives [] ws m) : WGives [] ws (m >>= fun _ => pure ([] : List V)) := by
  cases ws with
  | none => rw [show m = _ from h]; rfl
  | some ws =>
    obtain ⟨l, hl, rfl⟩ := h
    exact ⟨l, hl, rfl⟩

/-- An action that calls one of the functions that print. -/
theorem act_emit (hfl : ∀ c ∈ fl.constType.toList, c.toNat < 128) {d : Defn} {f a : String} {args A : List V} {st : St Log}
    (h : IsDefn st.heap st.next d f args)
    (ha : ∀ k, runOut fl.unsignedEnum (strBytes fl.constType) st.heap st.next (k + 1) a A =
      runOut fl.unsignedEnum (strBytes fl.constType) st.heap st.next k f args >>= fun _ => pure []) :
    ∃ K r, (∀ k, K ≤ k → callN genProg (genExt fl grow loops) k (.fn "main" a) A st = r) ∧ PrintsOut (wDefn fl d) st r := by
  obtain ⟨K, hK⟩ := Ev.step (Q := fun k => WGives [] (wDefn fl d) (runOut fl.unsignedEnum (strBytes fl.constType) st.heap st.next k a A))
    (emit_defn hfl h) fun k hk => by rw [ha]; exact skip_gives hk
  have h1 := hK K (Nat.le_refl _)
  have h2 := callN_sim (view := id) genProg (genExt fl grow loops) (outExt fl.unsignedEnum (strBytes fl.constType) st.heap st.next)
    (fun f args st _ => printing_sim fl _ _ f args st) K (.fn "main" a) A st ⟨Nat.le_refl _, fun _ _ => rfl⟩ st rfl
  have key : PrintsOut (wDefn fl d) st (callN genProg (genExt fl grow loops) K (.fn "main" a) A st) := by
    unfold PrintsOut
    cases hw : wDefn fl d with
    | none =>
      rw [hw] at h1
      rw [show pcallN _ _ _ _ _ (id st.world) = _ from congrFun h1 _] at h2
      obtain ⟨s, h2, _⟩ := h2
      exact ⟨s, h2⟩
    | some ws =>
      rw [hw] at h1
      obtain ⟨l, hl, h1⟩ := h1
      rw [show pcallN _ _ _ _ _ (id st.world) = _ from congrFun h1 _] at h2
      obtain ⟨a, st', e, hw, _, rfl, ho⟩ := h2
      exact ⟨l, st', e, hw, hl, ho⟩
  refine ⟨K, _, fun k hk => callN_mono hk ?_, key⟩
  intro s hf
  rw [hf] at key
  unfold PrintsOut at key
  cases hw : wDefn fl d with
  | none => rw [hw] at key; obtain ⟨_, h⟩ := key; cases h
  | some ws => rw [hw] at key; obtain ⟨_, _, h, _⟩ := key; cases h

/-! ### The actions that build lists -/

/-- The memory with the parameters in it. -/
def bound2 (st : St Log) (v w : V) : St Log :=
  ⟨fun j => if j = st.next + 1 then w else if j = st.next then v else st.heap j, st.next + 2, st.world, []⟩

def bound1 (st : St Log) (v : V) : St Log := ⟨fun j => if j = st.next then v else st.heap j, st.next + 1, st.world, []⟩

theorem ok_bind {ω α β : Type} {m : M ω α} {f : α → M ω β} {st st' : St ω} {a : α} {r : Except (Stop × St ω) (β × St ω)} (h : m st = .ok (a, st'))
    (h' : f a st' = r) : (m >>= f) st = r := by
  show M.bind m f st = r
  unfold M.bind
  rw [h]
  exact h'

theorem ok_finally {ω α : Type} {m : M ω α} {d : M ω Unit} {st st1 st' : St ω} {a : α} (h : m st = .ok (a, st1))
    (h' : d st1 = .ok ((), st')) : finally' m d st = .ok (a, st') := by
  unfold finally'
  rw [h]
  exact ok_bind h' rfl

theorem run_append (S : Sem Log) (hS : S.prog = genProg) (name y : String) (hy : ("xdrD1" == y) = false) (hy' : ("append" == y) = false) (t u : Ty) (z : V)
    (ht : genProg.zero "main" t = some .nil) (hu : genProg.zero "main" u = some z) {v w : V} (hz : coerce z w = w) (st : St Log)
    {r : V} {st' : St Log} (h : appendElem S.grow v w (bound2 st v w) = .ok (r, st')) (hd : st'.defers = []) :
    callFunc S "main" ⟨none, name, [("xdrD1", t), (y, u)], [("", t)],
      [.ret [.call (.id "append") [.id "xdrD1", .id y] false]]⟩ [v, w] st = .ok ([r], { st' with defers := st.defers }) := by
  have hp : bindParams S.prog "main" [("xdrD1", t), (y, u)] [v, w] [[]] { st with defers := [] } =
      .ok ([[(y, st.next + 1), ("xdrD1", st.next)]], bound2 st v w) := by
    rw [bindParams, hS, ht]
    refine ok_bind rfl (ok_bind rfl ?_)
    show bindParams genProg "main" [(y, u)] [w] [[("xdrD1", st.next)]] _ = _
    rw [bindParams, hu]
    refine ok_bind rfl ?_
    rw [hz]
    exact ok_bind rfl rfl
  have h1 : (evalId S "main" [[(y, st.next + 1), ("xdrD1", st.next)]] "xdrD1") (bound2 st v w) = .ok (v, bound2 st v w) := by
    have : Env.find [[(y, st.next + 1), ("xdrD1", st.next)]] "xdrD1" = some st.next := by
      show List.findSome? _ _ = _
      rw [List.findSome?_cons, List.lookup_cons, hy]
      rfl
    unfold evalId
    rw [this]
    have : (bound2 st v w).heap st.next = v := (if_neg (Nat.ne_of_lt (Nat.lt_succ_self _))).trans (if_pos rfl)
    show load ⟨st.next, []⟩ _ = _
    unfold load St.at
    rw [this]
    rfl
  have h2 : (evalId S "main" [[(y, st.next + 1), ("xdrD1", st.next)]] y) (bound2 st v w) = .ok (w, bound2 st v w) := by
    have : Env.find [[(y, st.next + 1), ("xdrD1", st.next)]] y = some (st.next + 1) := by
      show List.findSome? _ _ = _
      rw [List.findSome?_cons, List.lookup_cons, beq_self_eq_true]
    unfold evalId
    rw [this]
    have : (bound2 st v w).heap (st.next + 1) = w := if_pos rfl
    show load ⟨st.next + 1, []⟩ _ = _
    unfold load St.at
    rw [this]
    rfl
  have h3 : evalArgs S "main" [[(y, st.next + 1), ("xdrD1", st.next)]] [.id "xdrD1", .id y] (bound2 st v w) =
      .ok ([v, w], bound2 st v w) := by
    rw [evalArgs, evalArgs, evalArgs, evalM, evalM]
    refine ok_bind (ok_bind (ok_bind h1 rfl) rfl) (ok_bind (ok_bind (ok_bind (ok_bind h2 rfl) rfl) (ok_bind rfl rfl)) rfl)
  have h4 : execs S "main" [.ret [.call (.id "append") [.id "xdrD1", .id y] false]] [[(y, st.next + 1), ("xdrD1", st.next)]] .next
      (bound2 st v w) = .ok (([[(y, st.next + 1), ("xdrD1", st.next)]], .ret [r]), st') := by
    have hf : Env.find [[(y, st.next + 1), ("xdrD1", st.next)]] "append" = none := by
      show List.findSome? _ _ = _
      rw [List.findSome?_cons, List.lookup_cons, hy']
      rfl
    rw [execs, exec]
    refine ok_bind (ok_bind (a := [r]) (st' := st') ?_ rfl) (by rw [execs]; rfl)
    show evalM _ _ _ _ _ = _
    rw [eval_callid "main" "append" _ false hf (by decide) (by decide)]
    exact ok_bind h3 (ok_bind h rfl)
  unfold callFunc runBody
  refine ok_bind rfl (ok_bind rfl (ok_finally (st1 := st') (ok_bind hp (ok_bind rfl (ok_bind h4 ?_))) (ok_bind rfl (ok_bind (st' := st') (a := ()) ?_ rfl))))
  · show results S.prog "main" [("", t)] [r] st' = _
    rw [results, hS, ht]
    exact ok_bind rfl (ok_bind rfl rfl)
  · rw [hd]; rfl

theorem run_lit (S : Sem Log) (hS : S.prog = genProg) (name y : String) (t u : Ty) (z : V)
    (ht : genProg.zero "main" (.slice t) = some .nil) (hu : genProg.zero "main" u = some z) {w : V} (hz : coerce z w = w) (st : St Log) :
    callFunc S "main" ⟨none, name, [(y, u)], [("", .slice t)], [.ret [.lit (.slice t) [""] [.id y]]]⟩ [w] st =
      .ok ([.slice ⟨⟨st.next + 1, []⟩, 0, 1, 1⟩],
        ⟨fun j => if j = st.next + 1 then .vals [w] else if j = st.next then w else st.heap j, st.next + 2, st.world, st.defers⟩) := by
  have hp : bindParams S.prog "main" [(y, u)] [w] [[]] { st with defers := [] } = .ok ([[(y, st.next)]], bound1 st w) := by
    rw [bindParams, hS, hu]
    refine ok_bind rfl ?_
    rw [hz]
    exact ok_bind rfl rfl
  have h2 : (evalId S "main" [[(y, st.next)]] y) (bound1 st w) = .ok (w, bound1 st w) := by
    have : Env.find [[(y, st.next)]] y = some st.next := by
      show List.findSome? _ _ = _
      rw [List.findSome?_cons, List.lookup_cons, beq_self_eq_true]
    unfold evalId
    rw [this]
    have : (bound1 st w).heap st.next = w := if_pos rfl
    show load ⟨st.next, []⟩ _ = _
    unfold load St.at
    rw [this]
    rfl
  have h3 : evalArgs S "main" [[(y, st.next)]] [.id y] (bound1 st w) = .ok ([w], bound1 st w) := by
    rw [evalArgs, evalArgs, evalM]
    exact ok_bind (ok_bind (ok_bind h2 rfl) rfl) (ok_bind rfl rfl)
  have h4 : execs S "main" [.ret [.lit (.slice t) [""] [.id y]]] [[(y, st.next)]] .next (bound1 st w) =
      .ok (([[(y, st.next)]], .ret [.slice ⟨⟨st.next + 1, []⟩, 0, 1, 1⟩]),
        ⟨fun j => if j = st.next + 1 then .vals [w] else if j = st.next then w else st.heap j, st.next + 2, st.world, []⟩) := by
    rw [execs, exec]
    refine ok_bind (ok_bind (a := [.slice ⟨⟨st.next + 1, []⟩, 0, 1, 1⟩]) ?_ rfl) (by rw [execs]; rfl)
    show evalM _ _ _ _ _ = _
    rw [evalM]
    exact ok_bind h3 (ok_bind rfl rfl)
  unfold callFunc runBody
  refine ok_bind rfl (ok_bind rfl (ok_finally
    (st1 := ⟨fun j => if j = st.next + 1 then .vals [w] else if j = st.next then w else st.heap j, st.next + 2, st.world, []⟩)
    (ok_bind hp (ok_bind rfl (ok_bind h4 ?_))) (ok_bind rfl (ok_bind (a := ()) rfl rfl))))
  show results S.prog "main" [("", .slice t)] [_] _ = _
  rw [results, hS, ht]
  exact ok_bind rfl (ok_bind rfl rfl)

/-- An action that appends. -/
theorem act_append {f y : String} {t u : Ty} {z : V}
    (hf : genProg.find (.fn "main" f) = some ("main", ⟨none, f, [("xdrD1", t), (y, u)], [("", t)],
      [.ret [.call (.id "append") [.id "xdrD1", .id y] false]]⟩))
    (hy : ("xdrD1" == y) = false) (hy' : ("append" == y) = false) (ht : genProg.zero "main" t = some .nil)
    (hu : genProg.zero "main" u = some z) (hz : ∀ w, coerce z w = w) {lo : Nat} {st1 st2 : St Log} {v w : V}
    {P : (Nat → V) → Nat → List V → Prop} {Q : (Nat → V) → Nat → Prop} (hlo : lo ≤ st1.next) (hv : BuiltList lo st1 v P)
    (o : Over st1 st2) (hw : Built st1.next st2 Q) :
    ∃ v' st3, (∀ k, 1 ≤ k → callN genProg (genExt fl grow loops) k (.fn "main" f) [v, w] st2 = .ok ([v'], st3)) ∧
      st3.world = st2.world ∧ st3.defers = st2.defers ∧ st2.next ≤ st3.next ∧ (∀ j, j < lo → st3.heap j = st2.heap j) ∧
      BuiltSlice lo st3 v' fun H n vs => ∃ l, vs = l ++ [w] ∧ P H n l ∧ Q H n := by
  have o' : Over { st2 with defers := [] } (bound2 st2 v w) := by
    refine ⟨Nat.le_add_right _ 2, fun j (hj : j < st2.next) => ?_, rfl⟩
    exact (if_neg (by omega)).trans (if_neg (by omega))
  have o1 : Over { st1 with defers := [] } { st2 with defers := [] } := ⟨o.next, o.heap, rfl⟩
  obtain ⟨v', st3, h1, h2, h3, h4, h5, h6⟩ := append_spec (grow := grow) (w := w) (st1 := { st1 with defers := [] }) hlo hv (o1.trans o')
    (show Built _ (bound2 st2 v w) Q from (show Built st1.next { st2 with defers := [] } Q from hw).over o')
  have hc : callN genProg (genExt fl grow loops) 1 (.fn "main" f) [v, w] st2 = .ok ([v'], { st3 with defers := st2.defers }) := by
    rw [callN, hf]
    exact run_append _ rfl f y hy hy' t u z ht hu (hz w) st2 h1 h3
  refine ⟨v', { st3 with defers := st2.defers }, fun k hk => ?_, h2, rfl, Nat.le_trans (Nat.le_add_right _ 2) h4, fun j hj => ?_, h6⟩
  · rw [callN_mono hk (by rw [hc]; exact fun _ h => nomatch h), hc]
  · have := o.next
    exact (h5 j hj).trans (o'.heap j (by show j < st2.next; omega))

/-- An action that makes a list of one element. -/
theorem act_lit {f y : String} {t u : Ty} {z : V}
    (hf : genProg.find (.fn "main" f) = some ("main", ⟨none, f, [(y, u)], [("", .slice t)], [.ret [.lit (.slice t) [""] [.id y]]]⟩))
    (ht : genProg.zero "main" (.slice t) = some .nil) (hu : genProg.zero "main" u = some z) (hz : ∀ w, coerce z w = w)
    {lo : Nat} {st : St Log} {w : V} {Q : (Nat → V) → Nat → Prop} (hlo : lo ≤ st.next) (hw : Built lo st Q) :
    ∃ v' st3, (∀ k, 1 ≤ k → callN genProg (genExt fl grow loops) k (.fn "main" f) [w] st = .ok ([v'], st3)) ∧
      st3.world = st.world ∧ Over st st3 ∧ BuiltSlice lo st3 v' fun H n vs => vs = [w] ∧ Q H n := by
  have hc : callN genProg (genExt fl grow loops) 1 (.fn "main" f) [w] st = .ok ([.slice ⟨⟨st.next + 1, []⟩, 0, 1, 1⟩],
      ⟨fun j => if j = st.next + 1 then .vals [w] else if j = st.next then w else st.heap j, st.next + 2, st.world, st.defers⟩) := by
    rw [callN, hf]
    exact run_lit _ rfl f y t u z ht hu (hz w) st
  have ho : Over st ⟨fun j => if j = st.next + 1 then .vals [w] else if j = st.next then w else st.heap j, st.next + 2, st.world,
      st.defers⟩ := by
    refine ⟨Nat.le_add_right _ 2, fun j (hj : j < st.next) => ?_, rfl⟩
    exact (if_neg (by omega)).trans (if_neg (by omega))
  refine ⟨.slice ⟨⟨st.next + 1, []⟩, 0, 1, 1⟩, _, fun k hk => ?_, ?_, ho, ?_⟩
  rotate_left
  · rfl
  rotate_left
  · exact (callN_mono hk (by rw [hc]; exact fun _ h => nomatch h)).trans hc
  · obtain ⟨S, hS, hQ⟩ := hw
    refine ⟨st.next + 1, 1, 1, [w], rfl, ⟨by omega, Nat.lt_succ_self _⟩, if_pos rfl, by simp, by simp, S, ?_, ?_, ?_⟩
    · intro h; have := (hS _ h).2; omega
    · intro j h
      exact ⟨(hS j h).1, Nat.lt_of_lt_of_le (hS j h).2 ho.next⟩
    · intro H n hn hs
      refine ⟨rfl, hQ H n (Nat.le_trans ho.next hn) fun j hj => (hs j hj).trans (ho.heap j (hS j hj).2)⟩

end Verif.Lang
