/-
The methods `goXdr` of out.go.
-/
import Verif.Lang.OutType

namespace Verif.Lang
open Verif.Text Verif.Gen

theorem ne_str (a b : List UInt8) : binop "!=" (.str a) (.str b) = some (.bool (!(a == b))) := rfl

@[gen_simp] theorem lit_int (a b : Bool) :
    setFields (fieldNames [""] (.struct "main.typeInt" [("unsig", .bool a)])) [.bool b]
      (.struct "main.typeInt" [("unsig", .bool a)]) = some (.struct "main.typeInt" [("unsig", .bool b)]) := rfl
@[gen_simp] theorem lit_bool :
    setFields (fieldNames [] (.struct "main.typeBool" [])) [] (.struct "main.typeBool" []) =
      some (.struct "main.typeBool" []) := rfl

/-! ### Running a function statement by statement -/

@[gen_simp] theorem ne_struct (T : String) (fs : List (String × V)) :
    binop "!=" (.struct T fs) .nil = some (.bool true) := rfl

section
variable {W : Type}

theorem run_fun {PS : PSem W} {f : Func} {args : List V} {ρ : VEnv} {o : Option Text}
    (hr : f.results.all (·.1 == "") = true) (hb : pbindParams (W := W) PS.prog "main" f.args args [[]] = pure ρ)
    (h : Says o (pexecs PS "main" f.body ρ .next >>= fun r => pfinish PS.prog "main" f r.2)) :
    Says o (pcallFunc PS "main" f args) := by
  unfold pcallFunc
  rw [if_pos hr, hb]
  exact h

theorem run_cons {PS : PSem W} {s : Stmt} {b : List Stmt} {ρ ρ' : VEnv} {o : Option Text}
    {f : VEnv × Ctl → PM W (List V)} (h : pexec PS "main" s ρ = pure (ρ', .next))
    (h' : Says o (pexecs PS "main" b ρ' .next >>= f)) : Says o (pexecs PS "main" (s :: b) ρ .next >>= f) := by
  rw [pexecs, h]
  exact h'

theorem run_panic {PS : PSem W} {s : Stmt} {b : List Stmt} {ρ : VEnv} {o : Option Text}
    {f : VEnv × Ctl → PM W (List V)} (h : pexec PS "main" s ρ = pstop .panic) (ho : o = none) :
    Says o (pexecs PS "main" (s :: b) ρ .next >>= f) := by
  subst ho
  rw [pexecs, h]
  rfl

theorem run_range {PS : PSem W} {x y : String} {e : Expr} {body b : List Stmt} {ρ : VEnv} {l : V} {vs : List V}
    {o : Option Text} {f : VEnv × Ctl → PM W (List V)} (env : List UInt8 → VEnv) (r0 : List UInt8) (os : List (Option Text))
    (he : peval PS "main" ρ e = pure [l]) (hl : IsList PS.heap PS.bound l vs) (hρ : ρ = env r0)
    (hs : All2 (fun o w => ∀ i r, Gains env r (do
      let ρ' ← pdefine x (.int (i : Nat)) ([] :: env r)
      let ρ' ← pdefine y w ρ'
      pexecs PS "main" body ([] :: ρ') .next >>= fun r => pure (outer (outer r))) o) os vs)
    (hf : match gather os with
      | some t => ∀ c, Prints t c → Says o (pexecs PS "main" b (env (r0 ++ c)) .next >>= f)
      | none => o = none) :
    Says o (pexecs PS "main" (.range x y e body :: b) ρ .next >>= f) := by
  subst hρ
  have h := step_range (env := env) (g := fun i w ρ => do
      let ρ' ← pdefine x (.int (i : Nat)) ([] :: ρ)
      let ρ' ← pdefine y w ρ'
      pexecs PS "main" body ([] :: ρ') .next >>= fun r => pure (outer (outer r))) hs 0 r0
  cases hg : gather os with
  | none =>
    rw [hg] at h hf
    refine run_panic ?_ hf
    rw [pexec, he]
    show (pelems PS l >>= _) = _
    rw [elems_list hl]
    exact h
  | some t =>
    rw [hg] at h hf
    obtain ⟨c, hc, h⟩ := h
    refine run_cons ?_ (hf c hc)
    rw [pexec, he]
    show (pelems PS l >>= _) = _
    rw [elems_list hl]
    exact h

theorem exec_range {PS : PSem W} {x y : String} {e : Expr} {body : List Stmt} {ρ ρ' : VEnv} {l : V} {vs : List V}
    (he : peval PS "main" ρ e = pure [l]) (hl : IsList PS.heap PS.bound l vs)
    (h : prange (fun i w ρ => do
      let ρ' ← pdefine x (.int (i : Nat)) ([] :: ρ)
      let ρ' ← pdefine y w ρ'
      pexecs PS "main" body ([] :: ρ') .next >>= fun r => pure (outer (outer r))) 0 vs ρ = pure (ρ', .next)) :
    pexec PS "main" (.range x y e body) ρ = pure (ρ', .next) := by
  rw [pexec, he]
  show (pelems PS l >>= _) = _
  rw [elems_list hl]
  exact h

theorem gains_cons {PS : PSem W} {s : Stmt} {b : List Stmt} {ρ ρ' : VEnv} {o : Option Text} {env : List UInt8 → VEnv}
    {r : List UInt8} {f : VEnv × Ctl → PM W (VEnv × Ctl)} (h : pexec PS "main" s ρ = pure (ρ', .next))
    (h' : Gains env r (pexecs PS "main" b ρ' .next >>= f) o) : Gains env r (pexecs PS "main" (s :: b) ρ .next >>= f) o := by
  rw [pexecs, h]
  exact h'

theorem gains_start {PS : PSem W} {x y : String} {a w : V} {ρ ρ' : VEnv} {body : List Stmt} {o : Option Text}
    {env : List UInt8 → VEnv} {r : List UInt8} {f : VEnv × Ctl → PM W (VEnv × Ctl)}
    (h : (pdefine x a ρ >>= fun ρ' => pdefine y w ρ') = (pure ρ' : PM W VEnv))
    (h' : Gains env r (pexecs PS "main" body ([] :: ρ') .next >>= f) o) : Gains env r (do
      let ρ' ← pdefine x a ρ
      let ρ' ← pdefine y w ρ'
      pexecs PS "main" body ([] :: ρ') .next >>= f) o := by
  rw [← pbind_assoc, h]
  exact h'

theorem run_ret {PS : PSem W} {s : Stmt} {b : List UInt8} {ρ ρ' : VEnv} {o : Option Text}
    {f : VEnv × Ctl → PM W (List V)} (h : pexec PS "main" s ρ = pure (ρ', .ret [.str b]))
    (hf : f (ρ', .ret [.str b]) = pure [.str b])
    (h' : ∀ x, o = some x → Prints x b) (ho : o ≠ none) : Says o (pexecs PS "main" [s] ρ .next >>= f) := by
  rw [pexecs, h]
  cases o with
  | none => exact absurd rfl ho
  | some x => exact ⟨b, h' x rfl, hf⟩

end

/-- The beginning of a function. -/
macro "pfun" "[" f:ident "]" : tactic =>
  `(tactic| (refine run_fun (by simp only [$f:ident]; rfl) (by pgo_core [$f:ident]; first | done | rfl) ?_
             simp only [$f:ident]))

/-- One statement. -/
macro "pstep" "[" ls:Lean.Parser.Tactic.simpLemma,* "]" : tactic =>
  `(tactic| refine run_cons (by pgo_core [$ls,*]; first | done | rfl) ?_)

section
variable {W : Type} (E : PExt W)

abbrev GX (t : Typespec) (v : V) : Prop :=
  ∀ p b, Prints p b → Ev fun k => Says (xTypespec t p) (pcallN genProg E k (.meth (tag v) "goXdr") [v, .str b])
abbrev GXD (t : DeclType) (v : V) : Prop :=
  ∀ p b, Prints p b → Ev fun k => Says (xDeclType t p) (pcallN genProg E k (.meth (tag v) "goXdr") [v, .str b])

theorem Name.ev_i {s : Ident} {b : List UInt8} (h : Name s b) :
    Ev fun k => pcallN genProg E k (.fn "main" "i") [.str b] = pure [.str (iBytes b)] :=
  Ev.pos fun k => run_i E k b h.nonempty h.lt

theorem IsVal.ev_i {s : Val} {b : List UInt8} (h : IsVal s b) :
    Ev fun k => pcallN genProg E k (.fn "main" "i") [.str b] = pure [.str (iBytes b)] :=
  Ev.pos fun k => run_i E k b h.ne h.lt

/-! ### The basic types -/

def intBytes (u : Bool) (b : List UInt8) : List UInt8 :=
  if u then ub t!"xdr.XdrU32(xs, (*uint32)(" ++ b ++ ub t!"));\n" else ub t!"xdr.XdrS32(xs, (*int32)(" ++ b ++ ub t!"));\n"

theorem run_int (u : Bool) (k : Nat) (b : List UInt8) :
    pcallN genProg E (k + 1) (.meth "main.typeInt" "goXdr") [.struct "main.typeInt" [("unsig", .bool u)], .str b] =
    pure [.str (intBytes u b)] := by
  rw [pcallN, find_out_typeInt_goXdr]
  cases u <;> pgo_core [out_typeInt_goXdr, intBytes, List.append_assoc]

theorem prints_int (u : Bool) {p : Text} {b : List UInt8} (h : Prints p b) : Prints (xInt u p) (intBytes u b) := by
  unfold xInt intBytes
  cases u <;> simp only [Bool.false_eq_true, ↓reduceIte] <;> prints

theorem gx_int (u : Bool) : GX E (.int u) (.struct "main.typeInt" [("unsig", .bool u)]) := by
  refine fun p b h => Ev.pos fun k => ?_
  rw [tag, run_int, xTypespec]
  exact ⟨_, prints_int u h, rfl⟩

theorem gx_hyper (u : Bool) : GX E (.hyper u) (.struct "main.typeHyper" [("unsig", .bool u)]) := by
  refine fun p b h => Ev.pos fun k => ?_
  rw [tag, pcallN, find_out_typeHyper_goXdr, xTypespec.eq_def]
  cases u <;> (pgo_core [out_typeHyper_goXdr]; refine ⟨_, ?_, rfl⟩; prints)

theorem gx_float : GX E .float (.struct "main.typeFloat" []) := by
  refine fun p b h => Ev.pos fun k => ?_
  rw [tag, pcallN, find_out_typeFloat_goXdr, xTypespec]
  show _ = _
  pgo_core [out_typeFloat_goXdr, builtins, pbuiltin]

theorem gx_double : GX E .double (.struct "main.typeDouble" []) := by
  refine fun p b h => Ev.pos fun k => ?_
  rw [tag, pcallN, find_out_typeDouble_goXdr, xTypespec]
  show _ = _
  pgo_core [out_typeDouble_goXdr, builtins, pbuiltin]

theorem gx_quadruple : GX E .quadruple (.struct "main.typeQuadruple" []) := by
  refine fun p b h => Ev.pos fun k => ?_
  rw [tag, pcallN, find_out_typeQuadruple_goXdr, xTypespec]
  show _ = _
  pgo_core [out_typeQuadruple_goXdr, builtins, pbuiltin]

theorem gx_enum (items : List EnumItem) (s : V) : GX E (.enum items) (.struct "main.typeEnum" [("items", s)]) := by
  refine fun p b h => Ev.pos fun k => ?_
  rw [tag, pcallN, find_out_typeEnum_goXdr, xTypespec]
  show _ = _
  pgo_core [out_typeEnum_goXdr, builtins, pbuiltin]

def boolBytes (b : List UInt8) : List UInt8 := ub t!"xdr.XdrBool(xs, (*bool)(" ++ b ++ ub t!"));\n"

theorem run_bool (k : Nat) (b : List UInt8) :
    pcallN genProg E (k + 1) (.meth "main.typeBool" "goXdr") [.struct "main.typeBool" [], .str b] =
    pure [.str (boolBytes b)] := by
  rw [pcallN, find_out_typeBool_goXdr]
  pgo_core [out_typeBool_goXdr, boolBytes, List.append_assoc]

theorem prints_bool {p : Text} {b : List UInt8} (h : Prints p b) : Prints (xBool p) (boolBytes b) := by
  unfold xBool boolBytes
  prints

theorem gx_bool : GX E .bool (.struct "main.typeBool" []) := by
  refine fun p b h => Ev.pos fun k => ?_
  rw [tag, run_bool, xTypespec]
  exact ⟨_, prints_bool h, rfl⟩

theorem gx_ident {s : Ident} {b : List UInt8} (h : Name s b) : GX E (.ident s) (.struct "main.typeIdent" [("n", .str b)]) := by
  intro p pb hp
  refine Ev.step (P := fun k => pcallN genProg E k (.fn "main" "i") [.str b] = pure [.str (iBytes b)])
    (Ev.pos fun k => run_i E k b h.nonempty h.lt) fun k hi => ?_
  rw [tag, pcallN, find_out_typeIdent_goXdr, xTypespec]
  have := h.i
  pgo_core [out_typeIdent_goXdr, builtins, hi]
  refine ⟨_, ?_, rfl⟩
  prints

/-! ### The declared types -/

theorem gx_typespec {t : Typespec} {tv : V} (hm : HasMeths tv) (h : GX E t tv) :
    GXD E (.typespec t) (.struct "main.declTypeTypespec" [("t", tv)]) := by
  refine fun p b hp => (h p b hp).step fun k h => ?_
  obtain ⟨T, fs, rfl, _, hb⟩ := hm
  rw [tag] at h
  rw [tag, pcallN, find_out_declTypeTypespec_goXdr, xDeclType]
  rcases h.split with ⟨ho, h⟩ | ⟨x, r, ho, hr, h⟩ <;> rw [ho] <;> pgo_core [out_declTypeTypespec_goXdr, hb, h]
  · rfl
  · exact ⟨_, hr, rfl⟩

theorem gx_array {t : Typespec} {sz : Val} {tv : V} {b : List UInt8} (hm : HasMeths tv) (h : GX E t tv) (hsz : IsVal sz b) :
    GXD E (.array t sz) (.struct "main.declTypeArray" [("t", tv), ("sz", .str b)]) := by
  intro p pb hp
  have h0 : Prints (t!"&(*(" ++ p ++ t!")[i])") (ub t!"&(*(" ++ pb ++ ub t!")[i])") := by prints
  refine (h _ _ h0).step fun k h => ?_
  obtain ⟨T, fs, rfl, _, hb⟩ := hm
  rw [tag] at h
  rw [tag, pcallN, find_out_declTypeArray_goXdr, xDeclType]
  have := hsz.prints
  rcases h.split with ⟨ho, h⟩ | ⟨x, r, ho, hr, h⟩ <;> rw [ho] <;> pgo_core [out_declTypeArray_goXdr, hb, h]
  · rfl
  · refine ⟨_, ?_, rfl⟩
    prints

theorem gx_opaqueArray (sz : Val) (b : V) : GXD E (.opaqueArray sz) (.struct "main.declTypeOpaqueArray" [("sz", b)]) := by
  refine fun p b h => Ev.pos fun k => ?_
  rw [tag, pcallN, find_out_declTypeOpaqueArray_goXdr, xDeclType]
  pgo_core [out_declTypeOpaqueArray_goXdr]
  refine ⟨_, ?_, rfl⟩
  prints

theorem gx_opaqueVarArray {sz : Option Val} {b : List UInt8} (h : IsSize sz b) :
    GXD E (.opaqueVarArray sz) (.struct "main.declTypeOpaqueVarArray" [("sz", .str b)]) := by
  refine fun p pb hp => Ev.pos fun k => ?_
  rw [tag, pcallN, find_out_declTypeOpaqueVarArray_goXdr, xDeclType]
  cases sz with
  | none =>
    have h : b = [] := h
    subst h
    have h1 : (([] : List UInt8) == ub []) = true := rfl
    pgo_core [out_declTypeOpaqueVarArray_goXdr, eq_str, h1]
    refine ⟨_, ?_, rfl⟩
    unfold szTxt
    prints
  | some v =>
    have h : IsVal v b := h
    have h1 : (b == ub []) = false := beq_eq_false_iff_ne.2 h.ne
    have := h.prints
    pgo_core [out_declTypeOpaqueVarArray_goXdr, eq_str, h1]
    refine ⟨_, ?_, rfl⟩
    unfold szTxt
    prints


theorem gx_string {sz : Option Val} {b : List UInt8} (h : IsSize sz b) :
    GXD E (.string sz) (.struct "main.declTypeString" [("sz", .str b)]) := by
  refine fun p pb hp => Ev.pos fun k => ?_
  rw [tag, pcallN, find_out_declTypeString_goXdr, xDeclType]
  cases sz with
  | none =>
    have h : b = [] := h
    subst h
    have h1 : (([] : List UInt8) == ub []) = true := rfl
    pgo_core [out_declTypeString_goXdr, eq_str, h1]
    refine ⟨_, ?_, rfl⟩
    unfold szTxt
    prints
  | some v =>
    have h : IsVal v b := h
    have h1 : (b == ub []) = false := beq_eq_false_iff_ne.2 h.ne
    have := h.prints
    pgo_core [out_declTypeString_goXdr, eq_str, h1]
    refine ⟨_, ?_, rfl⟩
    unfold szTxt
    prints


theorem gx_varArray {t : Typespec} {sz : Option Val} {tv : V} {b : List UInt8} (hm : HasMeths tv) (hg : GT E t tv)
    (hx : GX E t tv) (hsz : IsSize sz b) :
    GXD E (.varArray t sz) (.struct "main.declTypeVarArray" [("t", tv), ("sz", .str b)]) := by
  intro p pb hp
  have h0 : Prints (t!"&((*(" ++ p ++ t!"))[i])") (ub t!"&((*(" ++ pb ++ ub t!"))[i])") := by prints
  have hi : Ev fun k => pcallN genProg E k (.meth "main.typeInt" "goXdr")
      [.struct "main.typeInt" [("unsig", .bool true)], .str (ub t!"&__arraysz")] =
      pure [.str (intBytes true (ub t!"&__arraysz"))] := Ev.pos fun k => run_int E true k _
  refine ((hg.and (hx _ _ h0)).and hi).step fun k h => ?_
  obtain ⟨⟨hg, hx⟩, hi⟩ := h
  obtain ⟨T, fs, rfl, hb1, hb2⟩ := hm
  rw [tag] at hg hx
  rw [tag, pcallN, find_out_declTypeVarArray_goXdr, xDeclType]
  have hpi : Prints (xInt true t!"&__arraysz") (intBytes true (ub t!"&__arraysz")) := prints_int true (prints_ub rfl)
  pfun [out_declTypeVarArray_goXdr]
  pstep []
  pstep []
  pstep []
  pstep []
  pstep [hi]
  cases sz with
  | none =>
    have h : b = [] := hsz
    subst h
    have h1 : (([] : List UInt8) == ub []) = true := rfl
    pstep [ne_str, h1, Bool.not_true]
    rcases hg.split with ⟨ho, hg⟩ | ⟨x, r, ho, hr, hg⟩ <;> rw [ho]
    · exact run_panic (by pgo_core [hg, hb1]) rfl
    pstep [hg, hb1]
    pstep []
    rcases hx.split with ⟨ho, hx⟩ | ⟨y, r', ho, hr', hx⟩ <;> rw [ho]
    · exact run_panic (by pgo_core [hx, hb2]) rfl
    pstep [hx, hb2]
    pstep []
    pstep [ne_str, h1, Bool.not_true]
    pstep []
    pgo_core []
    refine ⟨_, ?_, rfl⟩
    unfold maxTxt
    prints
  | some v =>
    have h1 : (b == ub []) = false := beq_eq_false_iff_ne.2 (IsVal.ne hsz)
    have := IsVal.prints hsz
    pstep [ne_str, h1, Bool.not_false]
    rcases hg.split with ⟨ho, hg⟩ | ⟨x, r, ho, hr, hg⟩ <;> rw [ho]
    · exact run_panic (by pgo_core [hg, hb1]) rfl
    pstep [hg, hb1]
    pstep []
    rcases hx.split with ⟨ho, hx⟩ | ⟨y, r', ho, hr', hx⟩ <;> rw [ho]
    · exact run_panic (by pgo_core [hx, hb2]) rfl
    pstep [hx, hb2]
    pstep []
    pstep [ne_str, h1, Bool.not_false]
    pstep []
    pgo_core []
    refine ⟨_, ?_, rfl⟩
    unfold maxTxt
    prints

theorem gx_ptr {t : Typespec} {tv : V} (hm : HasMeths tv) (hg : GT E t tv) (hx : GX E t tv) :
    GXD E (.ptr t) (.struct "main.declTypePtr" [("t", tv)]) := by
  intro p pb hp
  have h0 : Prints (t!"*(" ++ p ++ t!")") (ub t!"*(" ++ pb ++ ub t!")") := by prints
  have hi : Ev fun k => pcallN genProg E k (.meth "main.typeBool" "goXdr")
      [.struct "main.typeBool" [], .str (ub t!"&opted")] =
      pure [.str (boolBytes (ub t!"&opted"))] := Ev.pos fun k => run_bool E k _
  refine ((hg.and (hx _ _ h0)).and hi).step fun k h => ?_
  obtain ⟨⟨hg, hx⟩, hi⟩ := h
  obtain ⟨T, fs, rfl, hb1, hb2⟩ := hm
  rw [tag] at hg hx
  rw [tag, pcallN, find_out_declTypePtr_goXdr, xDeclType]
  have hpi : Prints (xBool t!"&opted") (boolBytes (ub t!"&opted")) := prints_bool (prints_ub rfl)
  pfun [out_declTypePtr_goXdr]
  pstep []
  pstep []
  pstep []
  pstep [hi]
  pstep []
  rcases hx.split with ⟨ho, hx⟩ | ⟨x, r, ho, hr, hx⟩ <;> rw [ho]
  · exact run_panic (by pgo_core [hx, hb2]) (by cases tTypespec t <;> rfl)
  pstep [hx, hb2]
  pstep []
  pstep []
  pstep []
  pstep []
  pstep [hi]
  pstep []
  rcases hg.split with ⟨ho, hg⟩ | ⟨x, r, ho, hr, hg⟩ <;> rw [ho]
  · exact run_panic (by pgo_core [hg, hb1]) rfl
  pstep [hg, hb1]
  pstep [hx, hb2]
  pstep []
  pstep []
  pgo_core []
  refine ⟨_, ?_, rfl⟩
  prints

/-! ### Structures -/

/-- A field or the body of an arm. -/
def XDecl : Decl → V → Prop
  | .void, v => v = .struct "main.declVoid" []
  | .name t s, v => ∃ tv b, HasMeths tv ∧ GXD E t tv ∧ Name s b ∧ v = .struct "main.declName" [("t", tv), ("n", .str b)]

def fieldBytes (b nb : List UInt8) : List UInt8 := ub t!"&((" ++ b ++ (ub t!")." ++ iBytes nb ++ ub t!")")

theorem prints_field {p : Text} {b : List UInt8} {s : Ident} {nb : List UInt8} (h : Prints p b) (hn : Name s nb) :
    Prints (fieldTxt p s) (fieldBytes b nb) := by
  have := hn.i
  unfold fieldTxt fieldBytes
  prints

/-- The same, for calls not deeper than `k`. -/
def XDeclN (p : Text) (pb : List UInt8) (k : Nat) : Decl → V → Prop
  | .void, v => v = .struct "main.declVoid" []
  | .name t s, v => ∃ T fs b, byValue genProg T "goXdr" = true ∧
      Says (xDeclType t (fieldTxt p s)) (pcallN genProg E k (.meth T "goXdr") [.struct T fs, .str (fieldBytes pb b)]) ∧
      pcallN genProg E k (.fn "main" "i") [.str b] = pure [.str (iBytes b)] ∧
      v = .struct "main.declName" [("t", .struct T fs), ("n", .str b)]

theorem XDecl.ev {d : Decl} {v : V} (h : XDecl E d v) {p : Text} {pb : List UInt8} (hp : Prints p pb) :
    Ev fun k => XDeclN E p pb k d v := by
  cases d with
  | void => exact Ev.all fun _ => h
  | name t s =>
    obtain ⟨tv, b, hm, ht, hn, rfl⟩ := h
    obtain ⟨T, fs, rfl, _, hb⟩ := hm
    refine ((ht _ _ (prints_field hp hn)).and (hn.ev_i E)).imp fun k h => ?_
    exact ⟨T, fs, b, hb, h.1, h.2, rfl⟩

theorem gather_xdecls (p : Text) : ∀ ds : Decls, gather ((declList ds).map fun d => xDecl d p) = xDecls ds p
  | .nil => by rw [xDecls]; rfl
  | .cons d ds => by rw [xDecls, declList, List.map_cons, gather, gather_xdecls p ds]

theorem gx_struct {ds : Decls} {s : V} {vs : List V} (hs : IsList E.heap E.bound s vs)
    (h : All2 (XDecl E) (declList ds) vs) : GX E (.struct ds) (.struct "main.typeStruct" [("items", s)]) := by
  intro p pb hp
  have h : Ev fun k => All2 (fun d v => XDeclN E p pb k d v) (declList ds) vs :=
    Ev.all2 (All2.imp (fun d v h => h.ev E hp) h)
  refine h.step fun k h => ?_
  rw [tag, pcallN, find_out_typeStruct_goXdr, xTypespec]
  pgo_core [out_typeStruct_goXdr, builtins]
  rw [elems_list hs]
  pgo_core []
  refine gives_range (fun r => [[("res", .str r), ("valPtr", .str pb), ("t", .struct "main.typeStruct" [("items", s)])]])
    ((declList ds).map fun d => xDecl d p) ?_ ?_
  · refine All2.map_left (fun d => xDecl d p) (All2.imp (fun d v hd => ?_) h)
    intro i r
    cases d with
    | void =>
      have hd : v = _ := hd
      subst hd
      pgo_core [xDecl]
      exact ⟨_, .nil, by rw [List.append_nil]⟩
    | name t s =>
      obtain ⟨T, fs, b, hb, hd, hi, rfl⟩ := hd
      unfold fieldBytes at hd
      rcases hd.split with ⟨ho, hd⟩ | ⟨x, r, ho, hr, hd⟩ <;> rw [xDecl, ho] <;> pgo_core [hd, hb, hi]
      · rfl
      · exact ⟨_, hr, rfl⟩
  · rw [gather_xdecls]
    cases xDecls ds p with
    | none => rfl
    | some x =>
      intro b hb
      pgo_core []
      exact ⟨_, hb, rfl⟩


/-! ### Unions -/

/-- The cases, each with its labels and its body; the default. -/
def caseList : Cases → List ((Val × List Val) × Decl)
  | .nil => []
  | .dflt _ => []
  | .cons l more d cs => ((l, more), d) :: caseList cs

def xCase (p : Text) (c : (Val × List Val) × Decl) : Option Text := do
  let s ← xDecl c.2 p
  pure (labelTxt c.1.1 c.1.2 ++ s)

def xDefault (p : Text) : Option Decl → Option Text
  | none => some []
  | some d => do
    let s ← xDecl d p
    pure (t!"default:\n" ++ s)

theorem gather_xcases (p : Text) : ∀ cs : Cases, xCases cs p = (do
    let x ← gather ((caseList cs).map (xCase p))
    let y ← xDefault p (caseDefault cs)
    pure (x ++ y))
  | .nil => by rw [xCases]; rfl
  | .dflt d => by rw [xCases, caseList, caseDefault, xDefault]; cases xDecl d p <;> rfl
  | .cons l more d cs => by
    rw [xCases, caseList, caseDefault, List.map_cons, gather, gather_xcases p cs, xCase]
    dsimp only
    cases xDecl d p with
    | none => rfl
    | some x =>
      cases gather ((caseList cs).map (xCase p)) with
      | none => rfl
      | some y =>
        cases xDefault p (caseDefault cs) with
        | none => rfl
        | some z => exact congrArg some (List.append_assoc _ y z).symm

def labelBytes (i n : Nat) (b : List UInt8) : List UInt8 :=
  ub t!"case " ++ iBytes b ++ ub t!":\n" ++ (if i + 1 = n then [] else ub t!"fallthrough\n")

theorem label_range {g : Nat → V → VEnv → PM W (VEnv × Ctl)} {env : List UInt8 → VEnv} {n : Nat}
    (hg : ∀ i v b r, IsVal v b → g i (.str b) (env r) = pure (env (r ++ labelBytes i n b), .next)) :
    ∀ (more : List Val) (l : Val) (bs : List (List UInt8)), All2 IsVal (l :: more) bs → ∀ i r, i + bs.length = n →
    ∃ b, Prints (labelTxt l more) b ∧ prange g i (bs.map .str) (env r) = pure (env (r ++ b), .next) := by
  intro more
  induction more with
  | nil =>
    intro l bs h i r hn
    cases h with
    | @cons _ b _ bs hb h =>
      cases h
      refine ⟨labelBytes i n b, ?_, ?_⟩
      · have := hb.i
        unfold labelBytes labelTxt
        rw [if_pos (show i + 1 = n from hn)]
        prints
      · rw [List.map_cons, prange, hg i l b r hb]
        rfl
  | cons l' more ih =>
    intro l bs h i r hn
    cases h with
    | @cons _ b _ bs hb h =>
      obtain ⟨c, hc, hr⟩ := ih l' bs h (i + 1) (r ++ labelBytes i n b) (by rw [← hn, List.length_cons]; omega)
      refine ⟨labelBytes i n b ++ c, ?_, ?_⟩
      · have := hb.i
        unfold labelBytes
        rw [labelTxt, if_neg]
        · prints
        · cases h
          rw [← hn, List.length_cons, List.length_cons]
          omega
      · rw [List.map_cons, prange, hg i l b r hb, ← List.append_assoc]
        exact hr

/-- A case of a union. -/
def XCase (c : (Val × List Val) × Decl) (v : V) : Prop :=
  ∃ s bs d, IsSlice E.heap E.bound s (bs.map .str) ∧ All2 IsVal (c.1.1 :: c.1.2) bs ∧ XDecl E c.2 d ∧
    v = .struct "main.unionCaseDecl" [("cases", .slice s), ("body", d)]

def XCaseN (p : Text) (pb : List UInt8) (k : Nat) (c : (Val × List Val) × Decl) (v : V) : Prop :=
  ∃ s bs d, IsSlice E.heap E.bound s (bs.map .str) ∧ All2 IsVal (c.1.1 :: c.1.2) bs ∧ XDeclN E p pb k c.2 d ∧
    v = .struct "main.unionCaseDecl" [("cases", .slice s), ("body", d)]


theorem XCase.ev {c : (Val × List Val) × Decl} {v : V} (h : XCase E c v) {p : Text} {pb : List UInt8} (hp : Prints p pb) :
    Ev fun k => XCaseN E p pb k c v := by
  obtain ⟨s, bs, d, hs, hb, hd, rfl⟩ := h
  exact (hd.ev E hp).imp fun k h => ⟨s, bs, d, hs, hb, h, rfl⟩

/-- `i` on a value, deep enough. -/
def HasI (k : Nat) : Prop :=
  ∀ v b, IsVal v b → pcallN genProg E k (.fn "main" "i") [.str b] = pure [.str (iBytes b)]

theorem ev_hasI : Ev (HasI E) := Ev.pos fun k _ b h => run_i E k b h.ne h.lt

def xDefaultN (p : Text) (pb : List UInt8) (k : Nat) (v : V) : Option Decl → Prop
  | none => v = .nil
  | some d => XDeclN E p pb k d v

theorem sub_int (a b : Int) : binop "-" (.int a) (.const b) = some (.int (a - b)) := rfl
theorem ne_int (a b : Int) : binop "!=" (.int a) (.int b) = some (.bool (!(a == b))) := rfl

theorem gx_union {sw : Decl} {cs : Cases} {d s df : V} {vs : List V} (hs : IsList E.heap E.bound s vs)
    (hd : XDecl E sw d)
    (hc : All2 (XCase E) (caseList cs) vs)
    (hdf : match caseDefault cs with | some d => XDecl E d df | none => df = .nil) :
    GX E (.union sw cs) (.struct "main.typeUnion" [("switchDecl", d),
      ("cases", .struct "main.unionCasesDef" [("cases", s), ("def", df)])]) := by
  intro p pb hp
  have hc : Ev fun k => All2 (fun d v => XCaseN E p pb k d v) (caseList cs) vs :=
    Ev.all2 (All2.imp (fun d v h => h.ev E hp) hc)
  have hdf : Ev fun k => xDefaultN E p pb k df (caseDefault cs) := by
    cases hcd : caseDefault cs with
    | none => rw [hcd] at hdf; exact Ev.all fun _ => hdf
    | some d => rw [hcd] at hdf; exact hdf.ev E hp
  cases sw with
  | void =>
    have hd : d = _ := hd
    subst hd
    refine Ev.pos fun k => ?_
    rw [tag, pcallN, find_out_typeUnion_goXdr, xTypespec]
    pfun [out_typeUnion_goXdr]
    pstep []
    pstep []
    exact run_panic (by pgo_core [builtins, pbuiltin]) rfl
  | name t n =>
    obtain ⟨tv, b, hm, hx, hn, rfl⟩ := hd
    obtain ⟨T, fs, rfl, _, hb⟩ := hm
    have hpi := hn.i
    have h0 : Prints (t!"&(" ++ (t!"(" ++ p ++ t!")." ++ iTxt n) ++ t!")")
        (ub t!"&(" ++ (ub t!"(" ++ pb ++ (ub t!")." ++ iBytes b ++ ub [])) ++ ub t!")") := by prints
    refine ((((hx _ _ h0).and hc).and hdf).and (ev_hasI E)).step fun k h => ?_
    obtain ⟨⟨⟨hx, hc⟩, hdf⟩, hi⟩ := h
    have hib := hi (.ident n) b hn
    rw [tag] at hx
    rw [tag, pcallN, find_out_typeUnion_goXdr, xTypespec]
    dsimp only
    pfun [out_typeUnion_goXdr]
    pstep []
    pstep []
    rcases hx.split with ⟨ho, hx⟩ | ⟨x, r, ho, hr, hx⟩ <;> rw [ho]
    · exact run_panic (by pgo_core [builtins, hx, hb, hib]) rfl
    pstep [hx, hb, hib]
    pstep []
    refine run_range (l := s) (fun r => [[("switchName", .str (ub t!"(" ++ pb ++ (ub t!")." ++ iBytes b ++ ub []))),
      ("res", .str r), ("valPtr", .str pb), ("t", .struct "main.typeUnion"
        [("switchDecl", .struct "main.declName" [("t", .struct T fs), ("n", .str b)]),
        ("cases", .struct "main.unionCasesDef" [("cases", s), ("def", df)])])]]) _ ((caseList cs).map (xCase p))
      (by pgo_core []) hs rfl ?_ ?_
    · refine All2.map_left (xCase p) (All2.imp (fun c v hd => ?_) hc)
      intro i r
      obtain ⟨sl, bs, d, hsl, hbs, hd, rfl⟩ := hd
      refine gains_start (by pgo_core []; first | done | rfl) ?_
      have hn : sl.len = bs.length := by rw [hsl.len, List.length_map]
      have hlab := fun g hg => label_range (W := W) (g := g) (n := bs.length) (env := fun r => [[], [("c", .struct "main.unionCaseDecl" [("cases", .slice sl), ("body", d)])],
          [("switchName", .str (ub t!"(" ++ pb ++ (ub t!")." ++ iBytes b ++ ub []))),
          ("res", .str r), ("valPtr", .str pb), ("t", .struct "main.typeUnion"
            [("switchDecl", .struct "main.declName" [("t", .struct T fs), ("n", .str b)]),
            ("cases", .struct "main.unionCasesDef" [("cases", s), ("def", df)])])]])
        hg c.1.2 c.1.1 bs hbs 0 r (Nat.zero_add _)
      obtain ⟨lb, hlb, hlab⟩ := hlab (fun i w ρ => do
        let ρ' ← pdefine "idx" (.int (i : Nat)) ([] :: ρ)
        let ρ' ← pdefine "cval" w ρ'
        pexecs ⟨genProg, pcallN genProg E k, E.ext, E.heap, E.bound⟩ "main"
          [Stmt.assign [Expr.id "res"] [Expr.bin "+" (Expr.id "res") (Expr.call (Expr.sel (Expr.id "fmt") "Sprintf")
              [Expr.str "case %s:\n", Expr.call (Expr.id "i") [Expr.id "cval"] false] false)],
           Stmt.ite (Expr.bin "!=" (Expr.id "idx") (Expr.bin "-" (Expr.call (Expr.id "len")
              [Expr.sel (Expr.id "c") "cases"] false) (Expr.int 1)))
             [Stmt.assign [Expr.id "res"] [Expr.bin "+" (Expr.id "res") (Expr.str "fallthrough\n")]] []]
          ([] :: ρ') .next >>= fun r => pure (outer (outer r))) (by
        intro i v bb r hv
        have hiv := hi v bb hv
        have hq : ((i : Int) == (bs.length : Int) - ((1 : Nat) : Int)) = decide (i + 1 = bs.length) := by
          rw [Bool.eq_iff_iff, beq_iff_eq, decide_eq_true_iff]
          omega
        by_cases hq' : i + 1 = bs.length
        · rw [decide_eq_true hq'] at hq
          pgo_core [hiv, builtins, pbuiltin, plen, hn, sub_int, ne_int, hq, Bool.not_true]
          simp only [labelBytes, if_pos hq', List.append_nil, List.append_assoc]
        · rw [decide_eq_false hq'] at hq
          pgo_core [hiv, builtins, pbuiltin, plen, hn, sub_int, ne_int, hq, Bool.not_false]
          simp only [labelBytes, if_neg hq', List.append_assoc])
      refine gains_cons (exec_range (l := .slice sl) (by pgo_core []) (.inr ⟨sl, rfl, hsl⟩) hlab) ?_
      obtain ⟨⟨l, more⟩, dd⟩ := c
      rw [xCase]
      cases dd with
      | void =>
        have hd : d = _ := hd
        subst hd
        pgo_core [xDecl]
        refine ⟨lb, ?_, rfl⟩
        prints
      | name t' s' =>
        obtain ⟨T', fs', b', hb', hd', hi', rfl⟩ := hd
        unfold fieldBytes at hd'
        rw [xDecl]
        rcases hd'.split with ⟨ho, hx⟩ | ⟨x', r', ho, hr', hx⟩ <;> rw [ho] <;> pgo_core [builtins, hx, hb', hi']
        · rfl
        · refine ⟨lb ++ r', ?_, by dsimp only; rw [List.append_assoc r]⟩
          prints
    · rw [gather_xcases]
      cases gather ((caseList cs).map (xCase p)) with
      | none => rfl
      | some z =>
        intro c hc
        cases hcd : caseDefault cs with
        | none =>
          rw [hcd] at hdf
          have hdf : df = .nil := hdf
          subst hdf
          pstep []
          pstep []
          pgo_core []
          refine ⟨_, ?_, rfl⟩
          prints
        | some d =>
          rw [hcd] at hdf
          cases d with
          | void =>
            have hdf : df = _ := hdf
            subst hdf
            pstep []
            pstep []
            rw [xDefault, xDecl]
            pgo_core []
            refine ⟨_, ?_, rfl⟩
            prints
          | name t' s' =>
            obtain ⟨T', fs', b', hb', hd', hi', rfl⟩ := hdf
            unfold fieldBytes at hd'
            rw [xDefault, xDecl]
            rcases hd'.split with ⟨ho, hx⟩ | ⟨x', r', ho, hr', hx⟩ <;> rw [ho]
            · exact run_panic (by pgo_core [builtins, hx, hb', hi']) rfl
            pstep [hx, hb', hi']
            pstep []
            pgo_core []
            refine ⟨_, ?_, rfl⟩
            prints


/-! ### All types -/

mutual
theorem goXdr_typespec : ∀ (t : Typespec) (v : V), IsTypespec E.heap E.bound t v → GX E t v
  | .int u, v, h => by unfold IsTypespec at h; subst h; exact gx_int E u
  | .hyper u, v, h => by unfold IsTypespec at h; subst h; exact gx_hyper E u
  | .float, v, h => by unfold IsTypespec at h; subst h; exact gx_float E
  | .double, v, h => by unfold IsTypespec at h; subst h; exact gx_double E
  | .quadruple, v, h => by unfold IsTypespec at h; subst h; exact gx_quadruple E
  | .bool, v, h => by unfold IsTypespec at h; subst h; exact gx_bool E
  | .enum items, v, h => by unfold IsTypespec at h; obtain ⟨s, vs, _, _, rfl⟩ := h; exact gx_enum E items s
  | .struct ds, v, h => by
    unfold IsTypespec at h
    obtain ⟨s, vs, hs, hd, rfl⟩ := h
    exact gx_struct E hs (goXdr_decls ds vs hd)
  | .union sw cs, v, h => by
    unfold IsTypespec at h
    obtain ⟨d, s, vs, df, hd, hs, hc, rfl⟩ := h
    have := goXdr_cases cs vs df hc
    exact gx_union E hs (goXdr_decl sw d hd) this.1 this.2
  | .ident s, v, h => by unfold IsTypespec at h; obtain ⟨b, hb, rfl⟩ := h; exact gx_ident E hb
theorem goXdr_declType : ∀ (t : DeclType) (v : V), IsDeclType E.heap E.bound t v → GXD E t v
  | .typespec t, v, h => by
    unfold IsDeclType at h
    obtain ⟨tv, ht, rfl⟩ := h
    exact gx_typespec E (typespec_meths ht) (goXdr_typespec t tv ht)
  | .array t sz, v, h => by
    unfold IsDeclType at h
    obtain ⟨tv, b, ht, hb, rfl⟩ := h
    exact gx_array E (typespec_meths ht) (goXdr_typespec t tv ht) hb
  | .varArray t sz, v, h => by
    unfold IsDeclType at h
    obtain ⟨tv, b, ht, hb, rfl⟩ := h
    exact gx_varArray E (typespec_meths ht) (goType_typespec E t tv ht) (goXdr_typespec t tv ht) hb
  | .opaqueArray sz, v, h => by unfold IsDeclType at h; obtain ⟨b, hb, rfl⟩ := h; exact gx_opaqueArray E sz _
  | .opaqueVarArray sz, v, h => by unfold IsDeclType at h; obtain ⟨b, hb, rfl⟩ := h; exact gx_opaqueVarArray E hb
  | .string sz, v, h => by unfold IsDeclType at h; obtain ⟨b, hb, rfl⟩ := h; exact gx_string E hb
  | .ptr t, v, h => by
    unfold IsDeclType at h
    obtain ⟨tv, ht, rfl⟩ := h
    exact gx_ptr E (typespec_meths ht) (goType_typespec E t tv ht) (goXdr_typespec t tv ht)
theorem goXdr_decl : ∀ (d : Decl) (v : V), IsDecl E.heap E.bound d v → XDecl E d v
  | .void, v, h => by unfold IsDecl at h; exact h
  | .name t s, v, h => by
    unfold IsDecl at h
    obtain ⟨tv, b, ht, hb, rfl⟩ := h
    exact ⟨tv, b, declType_meths ht, goXdr_declType t tv ht, hb, rfl⟩
theorem goXdr_decls : ∀ (ds : Decls) (vs : List V), IsDecls E.heap E.bound ds vs → All2 (XDecl E) (declList ds) vs
  | .nil, vs, h => by unfold IsDecls at h; subst h; exact .nil
  | .cons d ds, vs, h => by
    unfold IsDecls at h
    obtain ⟨v, l, h1, h2, rfl⟩ := h
    exact .cons (goXdr_decl d v h1) (goXdr_decls ds l h2)
theorem goXdr_cases : ∀ (cs : Cases) (vs : List V) (df : V), IsCases E.heap E.bound cs vs df →
    All2 (XCase E) (caseList cs) vs ∧ (match caseDefault cs with | some d => XDecl E d df | none => df = .nil)
  | .nil, vs, df, h => by unfold IsCases at h; obtain ⟨rfl, rfl⟩ := h; exact ⟨.nil, rfl⟩
  | .dflt d, vs, df, h => by unfold IsCases at h; obtain ⟨rfl, h⟩ := h; exact ⟨.nil, goXdr_decl d df h⟩
  | .cons l more d cs, vs, df, h => by
    unfold IsCases at h
    obtain ⟨s, ls, v, vs', hs, hl, hd, hc, rfl⟩ := h
    have := goXdr_cases cs vs' df hc
    exact ⟨.cons ⟨s, ls, v, hs, hl, goXdr_decl d v hd, rfl⟩ this.1, this.2⟩
end

end

end Verif.Lang
