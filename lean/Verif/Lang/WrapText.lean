/-
Which wrappers a package with the generator's text has (Verif.Lang.GoPkg, Verif.Lang.WrapSpec).
-/
import Verif.Lang.GoPkg
import Verif.Lang.WrapSpec

namespace Verif.Lang.Text
open Verif.Gen (Comp Flags ProgDef ProgVer ProgCall GoVers namedOpt)
open Verif.Spec (envOf)

/-- The Go name of a type, if there is one. -/
def nameG : Gen.TypespecOpt → Option String
  | some (.ident n) => some (Gen.i n)
  | _ => none

theorem generateVers_mem' : ∀ {s : Gen.Spec} {vs : List GoVers} {p : ProgDef} {v : ProgVer}, Gen.generateVers s = some vs →
    .program p ∈ s → v ∈ p.vers → ∃ V ∈ vs, Gen.emitVers p v = some V
  | [], vs, p, v, h, hp, _ => by simp at hp
  | d :: s, vs, p, v, h, hp, hv => by
    cases d with
    | program p' =>
      simp only [Gen.generateVers] at h
      obtain ⟨a, ha, h⟩ := Gen.bind_some h
      obtain ⟨b, hb, h⟩ := Gen.bind_some h
      cases h
      rcases List.mem_cons.mp hp with e | hp
      · cases e
        obtain ⟨V, h1, h2⟩ := Gen.mapM'_mem' ha hv
        exact ⟨V, List.mem_append_left _ h1, h2⟩
      · obtain ⟨V, h1, h2⟩ := generateVers_mem' hb hp hv
        exact ⟨V, List.mem_append_right _ h1, h2⟩
    | _ =>
      rcases List.mem_cons.mp hp with e | hp
      · cases e
      · simp only [Gen.generateVers] at h
        exact generateVers_mem' h hp hv

section
variable {fl : Flags} {s : Gen.Spec} {g : Gen.GoProg} {q : Pkg} (H : Comp fl s g) (hs : Gen.supported fl s = true) (T : IsText g q)
include H T

theorem declared_text {n : Gen.Ident} (hn : ((envOf fl.unsignedEnum s).typeOf n).isSome = true) : declared q (Gen.i n) = true := by
  have hl := H.typeOf_lookup hn
  have hb := H.type_bad hl
  obtain ⟨t, ht⟩ := Option.isSome_iff_exists.mp hl
  simp only [declared, T.types _ t (Gen.lookup_mem ht), Option.isSome_some, Bool.and_true, Bool.not_eq_true', List.contains_eq_mem, decide_eq_false_iff_not]
  refine fun h => hb ?_
  simp only [predeclared, List.mem_cons, List.not_mem_nil, or_false] at h
  rcases h with h | h | h | h | h | h | h | h <;> (rw [h]; decide)

theorem ptrMeth_text {n : Gen.Ident} (hn : ((envOf fl.unsignedEnum s).typeOf n).isSome = true) : ptrMeth q (Gen.i n) "Xdr" = true := by
  obtain ⟨t, ht⟩ := Option.isSome_iff_exists.mp hn
  obtain ⟨b, _, hb⟩ := (Gen.lookup_mapAll _ _ n t H.facts.types (Gen.generate_types H.facts.gen).2 ht).2
  exact ptrMeth_xdr T (Gen.lookup_mem hb)

omit H T in
theorem plain_wrap {a r : Option String} {m : String} : ∀ s ∈ inB a ++ callB m a r, plainS s = true := by
  intro s hs
  cases a <;> cases r <;> simp only [inB, callB, List.nil_append, List.cons_append, List.mem_cons, List.not_mem_nil, or_false] at hs <;>
    (repeat' rcases hs with rfl | hs) <;> first | rfl | (subst hs; rfl)

/-- The wrapper of a procedure, as the program has it. -/
theorem find_wrap {vs : List GoVers} (hv : Gen.generateVers s = some vs) (hw : HasVers vs q) {Ps : Prog} (hq : Has Ps (typedPkg q)) (hd : '.' ∉ q.name.toList)
    {p : ProgDef} {v : ProgVer} {c : ProgCall} (hp : .program p ∈ s) (hvp : v ∈ p.vers) (hcv : c ∈ v.calls) :
    namedOpt fl s c.arg = true ∧ namedOpt fl s c.res = true ∧
    Prog.find (xdrPkg :: Ps) (.meth (q.name ++ "." ++ Gen.versName p v "_handler_wrapper") (Gen.i c.name)) =
      some (q.name, wrapF (Gen.versName p v "_handler_wrapper") (Gen.i c.name) (inB (nameG c.arg) ++ callB (Gen.i c.name) (nameG c.arg) (nameG c.res))) := by
  have hchk := H.chk _ hp
  simp only [Gen.Defn.chk, Bool.and_eq_true, decide_eq_true_eq, List.all_eq_true] at hchk
  obtain ⟨⟨_, hne⟩, hcalls⟩ := hchk.2 v hvp
  have hcc := hcalls c hcv
  refine ⟨hcc.1.2, hcc.2, ?_⟩
  obtain ⟨V, hV, he⟩ := generateVers_mem' hv hp hvp
  simp only [Gen.emitVers] at he
  obtain ⟨sigs, _, he⟩ := Gen.bind_some he
  obtain ⟨ws, hws, he⟩ := Gen.bind_some he
  cases he
  obtain ⟨w, hmem, hemit⟩ := Gen.mapM'_mem' hws hcv
  have hlk := hw.wraps _ hV w hmem
  have ha := hcc.1.2
  have hr := hcc.2
  have key : w.recv = Gen.versName p v "_handler_wrapper" ∧ w.name = Gen.i c.name ∧
      typedB q [] (w.body.map wstmtG) = inB (nameG c.arg) ++ callB (Gen.i c.name) (nameG c.arg) (nameG c.res) := by
    have htw := typed_wrap (q := q) (T := nameG c.arg) (U := nameG c.res) (m := Gen.i c.name)
    rcases c with ⟨nm, a, r, id⟩
    dsimp only at ha hr htw hemit ⊢
    have hA : a = none ∨ ∃ n, a = some (.ident n) ∧ ((envOf fl.unsignedEnum s).typeOf n).isSome = true := by
      rcases a with _ | a
      · exact .inl rfl
      · cases a <;> first | exact .inr ⟨_, rfl, ha⟩ | exact absurd ha Bool.false_ne_true
    have hR : r = none ∨ ∃ n, r = some (.ident n) ∧ ((envOf fl.unsignedEnum s).typeOf n).isSome = true := by
      rcases r with _ | r
      · exact .inl rfl
      · cases r <;> first | exact .inr ⟨_, rfl, hr⟩ | exact absurd hr Bool.false_ne_true
    rcases hA with rfl | ⟨n, rfl, h1⟩ <;> rcases hR with rfl | ⟨n', rfl, h2⟩ <;> cases hemit <;> refine ⟨rfl, rfl, ?_⟩
    · exact htw (by simp [nameG]) (by simp [nameG])
    · exact htw (by simp [nameG]) (by simpa [nameG] using declared_text H T h2)
    · exact htw (by simpa [nameG] using ⟨declared_text H T h1, ptrMeth_text H T h1⟩) (by simp [nameG])
    · exact htw (by simpa [nameG] using ⟨declared_text H T h1, ptrMeth_text H T h1⟩) (by simpa [nameG] using declared_text H T h2)
  obtain ⟨k1, k2, k3⟩ := key
  rw [k1, k2] at hlk
  have := find_meth (q := typedPkg q) (Ps := Ps) hq hd (typed_meth hlk)
  rw [typedF, wrapG, wrapF, k1, k2] at this
  dsimp only at this
  rw [k3, bindB_nil q plain_wrap] at this
  exact this
end

end Verif.Lang.Text
