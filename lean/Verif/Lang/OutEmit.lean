/-
The functions of out.go that print definitions.
-/
import Verif.Lang.OutXdr

namespace Verif.Lang
open Verif.Text Verif.Gen

/-! ### Printing -/

/-- What was printed: to `tout` (true) or `out` (false). -/
abbrev Log := List (Bool × List UInt8)

/-- A computation that prints `l` and gives `a`. -/
def wrote {α : Type} (l : Log) (a : α) : PM Log α := fun w => .ok (a, w ++ l)

theorem wrote_bind {α β : Type} (l : Log) (a : α) (f : α → PM Log β) :
    (wrote l a >>= f) = fun w => f a (w ++ l) := rfl

theorem wrote_pure {α β : Type} (l : Log) (a : α) (f : α → β) : (wrote l a >>= fun x => pure (f x)) = wrote l (f a) := rfl

/-- `fmt.Fprintf` on one of the outputs, and the flags. -/
def outExt (unsig : Bool) (ct : List UInt8) (H : Nat → V) (n : Nat) : PExt Log where
  ext f args :=
    if f = "fmt.Fprintf" then
      match args with
      | .glob w :: .str s :: vs => do
        let b ← psome (sprintf s vs)
        if w = "main.tout" then wrote [(true, b)] [.int b.length, .nil]
        else if w = "main.out" then wrote [(false, b)] [.int b.length, .nil]
        else pstop .stuck
      | _ => pstop .stuck
    else if f = "*" then
      match args with
      | [.glob w] =>
        if w = "main.unsignedEnumFlag" then pure [.bool unsig]
        else if w = "main.constTypeFlag" then pure [.str ct]
        else pstop .stuck
      | _ => pstop .stuck
    else pstop .stuck
  heap := H
  bound := n

section
variable {unsig : Bool} {ct : List UInt8} {H : Nat → V} {n : Nat}
@[gen_simp] theorem out_tout (s : List UInt8) (vs : List V) :
    (outExt unsig ct H n).ext "fmt.Fprintf" (.glob "main.tout" :: .str s :: vs) =
    psome (sprintf s vs) >>= fun b => wrote [(true, b)] [.int b.length, .nil] := rfl
@[gen_simp] theorem out_out (s : List UInt8) (vs : List V) :
    (outExt unsig ct H n).ext "fmt.Fprintf" (.glob "main.out" :: .str s :: vs) =
    psome (sprintf s vs) >>= fun b => wrote [(false, b)] [.int b.length, .nil] := rfl
@[gen_simp] theorem out_unsig :
    (outExt unsig ct H n).ext "*" [.glob "main.unsignedEnumFlag"] = pure [.bool unsig] := rfl
@[gen_simp] theorem out_constType :
    (outExt unsig ct H n).ext "*" [.glob "main.constTypeFlag"] = pure [.str ct] := rfl
end

def PrintsW (ws : Writes) (l : Log) : Prop := All2 (fun a b => a.1 = b.1 ∧ Prints a.2 b.2) ws l

theorem PrintsW.nil : PrintsW [] [] := All2.nil

theorem PrintsW.one {f : Bool} {t : Text} {b : List UInt8} (h : Prints t b) : PrintsW [(f, t)] [(f, b)] :=
  .cons ⟨rfl, h⟩ .nil

theorem PrintsW.append {ws ws' : Writes} {l l' : Log} (h : PrintsW ws l) (h' : PrintsW ws' l') :
    PrintsW (ws ++ ws') (l ++ l') := by
  unfold PrintsW at h
  induction h with
  | nil => exact h'
  | cons h _ ih => exact .cons h ih

/-- The computation prints this and gives `a`, or panics. -/
def WGives {α : Type} (a : α) : Option Writes → PM Log α → Prop
  | some ws, m => ∃ l, PrintsW ws l ∧ m = wrote l a
  | none, m => m = pstop .panic

/-- One after the other. -/
def wcat (x y : Option Writes) : Option Writes := do
  let a ← x
  let b ← y
  pure (a ++ b)

theorem WGives.bind {α β : Type} {a : α} {b : β} {o o' : Option Writes} {m : PM Log α} {f : α → PM Log β}
    (h : WGives a o m) (h' : WGives b o' (f a)) : WGives b (wcat o o') (m >>= f) := by
  cases o with
  | none =>
    have h : m = _ := h
    rw [h]
    rfl
  | some x =>
    obtain ⟨l, hl, rfl⟩ := h
    cases o' with
    | none =>
      have h' : f a = _ := h'
      rw [wrote_bind, h']
      rfl
    | some y =>
      obtain ⟨l', hl', h'⟩ := h'
      refine ⟨l ++ l', hl.append hl', ?_⟩
      rw [wrote_bind, h']
      funext w
      show Except.ok _ = Except.ok _
      rw [List.append_assoc]

theorem WGives.last {α : Type} {a : α} {o : Option Writes} {m : PM Log α} (h : WGives a (wcat o (some [])) m) :
    WGives a o m := by
  cases o with
  | none => exact h
  | some x =>
    have : wcat (some x) (some []) = some x := congrArg some (List.append_nil x)
    rwa [this] at h

theorem WGives.pure {α : Type} (a : α) : WGives a (some []) (Pure.pure a) := by
  refine ⟨[], .nil, ?_⟩
  funext w
  show Except.ok _ = Except.ok _
  rw [List.append_nil]

theorem wrun_fun {PS : PSem Log} {f : Func} {args : List V} {ρ : VEnv} {o : Option Writes}
    (hr : f.results.all (·.1 == "") = true) (hb : pbindParams (W := Log) PS.prog "main" f.args args [[]] = pure ρ)
    (h : WGives [] o (pexecs PS "main" f.body ρ .next >>= fun r => pfinish PS.prog "main" f r.2)) :
    WGives [] o (pcallFunc PS "main" f args) := by
  unfold pcallFunc
  rw [if_pos hr, hb]
  exact h

section
variable {PS : PSem Log} {s : Stmt} {b : List Stmt} {ρ ρ' : VEnv} {α : Type} {a : α} {o o' : Option Writes}
  {f : VEnv × Ctl → PM Log α}

theorem wrun_nil (h : f (ρ, .next) = pure a) : WGives a (some []) (pexecs PS "main" [] ρ .next >>= f) := by
  rw [pexecs]
  show WGives a (some []) (f (ρ, .next))
  rw [h]
  exact .pure a

theorem wrun_stmt (h : WGives (ρ', Ctl.next) o (pexec PS "main" s ρ)) (h' : WGives a o' (pexecs PS "main" b ρ' .next >>= f)) :
    WGives a (wcat o o') (pexecs PS "main" (s :: b) ρ .next >>= f) := by
  rw [pexecs, pbind_assoc]
  exact h.bind h'

theorem wrun_quiet (h : pexec PS "main" s ρ = pure (ρ', .next)) (h' : WGives a o (pexecs PS "main" b ρ' .next >>= f)) :
    WGives a o (pexecs PS "main" (s :: b) ρ .next >>= f) := by
  rw [pexecs, h]
  exact h'

theorem wrun_print {w : Bool} {x : List UInt8} {t : Text} (h : pexec PS "main" s ρ = wrote [(w, x)] (ρ, .next))
    (hp : Prints t x) (h' : WGives a o (pexecs PS "main" b ρ .next >>= f)) :
    WGives a (wcat (some [(w, t)]) o) (pexecs PS "main" (s :: b) ρ .next >>= f) :=
  wrun_stmt ⟨_, .one hp, h⟩ h'

theorem wrun_same (h : WGives (ρ, Ctl.next) o (pexec PS "main" s ρ)) (h' : WGives a o' (pexecs PS "main" b ρ .next >>= f)) :
    WGives a (wcat o o') (pexecs PS "main" (s :: b) ρ .next >>= f) := wrun_stmt h h'

theorem wrun_one {w : Bool} {x : List UInt8} {t : Text} (h : pexec PS "main" s ρ = wrote [(w, x)] (ρ, .next))
    (hp : Prints t x) (h' : f (ρ, .next) = pure a) :
    WGives a (some [(w, t)]) (pexecs PS "main" [s] ρ .next >>= f) :=
  wrun_print h hp (wrun_nil h')

theorem wrun_panic (h : pexec PS "main" s ρ = pstop .panic) (ho : o = none) :
    WGives a o (pexecs PS "main" (s :: b) ρ .next >>= f) := by
  subst ho
  rw [pexecs, h]
  rfl

theorem wrange {g : Nat → V → VEnv → PM Log (VEnv × Ctl)} {β : Type} {F : β → Option Writes} {xs : List β} {vs : List V}
    (h : All2 (fun x v => ∀ i, WGives (ρ, Ctl.next) (F x) (g i v ρ)) xs vs) :
    ∀ i, WGives (ρ, Ctl.next) (wAll F xs) (prange g i vs ρ) := by
  induction h with
  | nil => exact fun i => .pure _
  | cons h _ ih => exact fun i => (h i).bind (ih (i + 1))

theorem wexec_range {x y : String} {e : Expr} {body : List Stmt} {l : V} {vs : List V} {β : Type} {F : β → Option Writes}
    {xs : List β} (he : peval PS "main" ρ e = pure [l]) (hl : IsList PS.heap PS.bound l vs)
    (hs : All2 (fun x' w => ∀ i, WGives (ρ, Ctl.next) (F x') (do
      let ρ' ← pdefine x (.int (i : Nat)) ([] :: ρ)
      let ρ' ← pdefine y w ρ'
      pexecs PS "main" body ([] :: ρ') .next >>= fun r => pure (outer (outer r)))) xs vs) :
    WGives (ρ, Ctl.next) (wAll F xs) (pexec PS "main" (.range x y e body) ρ) := by
  rw [pexec, he]
  show WGives _ _ (pelems PS l >>= _)
  rw [elems_list hl]
  exact wrange (g := fun i w ρ => do
      let ρ' ← pdefine x (.int (i : Nat)) ([] :: ρ)
      let ρ' ← pdefine y w ρ'
      pexecs PS "main" body ([] :: ρ') .next >>= fun r => pure (outer (outer r))) hs 0

/-- A text that is printed, if there is one. -/
def wtext (w : Bool) (o : Option Text) : Option Writes := do
  let t ← o
  pure [(w, t)]

theorem wexec_tswitch {x : String} {e : Expr} {cs : List (List Ty)} {bs : List (List Stmt)} {v : V} {i : Nat} {a : VEnv × Ctl}
    (he : peval PS "main" ρ e = pure [v]) (hc : chooseT "main" v 0 none cs = some (some i)) (hb : bs[i]? = some b)
    (hx : x ≠ "") (h : WGives a o (pexecs PS "main" b ([] :: [(x, v)] :: ρ) .next >>= fun r => pure (outer (outer r)))) :
    WGives a o (pexec PS "main" (.tswitch x e cs bs) ρ) := by
  have key : ∀ (bs : List (List Stmt)) (i : Nat) ρ, bs[i]? = some b → pexecNth PS "main" bs i ρ =
      (pexecs PS "main" b ([] :: ρ) .next >>= fun r => pure (outer r)) := by
    intro bs
    induction bs with
    | nil => intro i ρ h; cases h
    | cons b' bs ih =>
      intro i ρ h
      cases i with
      | zero => cases h; rw [pexecNth]
      | succ i => rw [pexecNth]; exact ih i ρ h
  rw [pexec, he]
  show WGives _ _ (psome (chooseT "main" v 0 none cs) >>= _)
  rw [hc]
  show WGives _ _ (if x = "" then _ else _)
  rw [if_neg hx, key bs i _ hb, pbind_assoc]
  exact h

theorem wexec_ite {c : Expr} {x y : List Stmt} {t : Bool} {a : VEnv × Ctl} (he : peval PS "main" ρ c = pure [.bool t])
    (h : WGives a o (pexecs PS "main" (if t then x else y) ([] :: ρ) .next >>= fun r => pure (outer r))) :
    WGives a o (pexec PS "main" (.ite c x y) ρ) := by
  rw [pexec, he]
  show WGives a o (if t = true then _ else _)
  cases t <;> exact h

theorem wrun_start {x y : String} {c w : V} {g : VEnv × Ctl → PM Log (VEnv × Ctl)} {a : VEnv × Ctl}
    (h : (pdefine x c ρ >>= fun ρ' => pdefine y w ρ') = (pure ρ' : PM Log VEnv))
    (h' : WGives a o (pexecs PS "main" b ([] :: ρ') .next >>= g)) : WGives a o (do
      let ρ' ← pdefine x c ρ
      let ρ' ← pdefine y w ρ'
      pexecs PS "main" b ([] :: ρ') .next >>= g) := by
  rw [← pbind_assoc, h]
  exact h'
end

macro "wfun" "[" f:ident "]" : tactic =>
  `(tactic| (refine wrun_fun (by simp only [$f:ident]; rfl) (by pgo_core [$f:ident]; first | done | rfl) ?_
             simp only [$f:ident]))

/-- A statement that prints. -/
macro "wprint" "[" ls:Lean.Parser.Tactic.simpLemma,* "]" : tactic =>
  `(tactic| refine wrun_print (by pgo_core [wrote_pure, $ls,*]; first | done | rfl) (by prints) ?_)

/-- A statement that prints what a call gives. -/
macro "wtry" h:ident "[" ls:Lean.Parser.Tactic.simpLemma,* "]" : tactic =>
  `(tactic| refine wrun_same (by
      rcases Says.split $h:ident with ⟨ho, hw⟩ | ⟨x, r, ho, hr, hw⟩ <;> rw [ho] <;> pgo_core [wrote_pure, hw, $ls,*]
      · exact (rfl : _ = _)
      · exact ⟨_, .one (by prints), rfl⟩) ?_)

macro "wquiet" "[" ls:Lean.Parser.Tactic.simpLemma,* "]" : tactic =>
  `(tactic| refine wrun_quiet (by pgo_core [$ls,*]; first | done | rfl) ?_)

@[gen_simp] theorem chooseP_ptr (fs : List (String × V)) :
    chooseT "main" (.struct "main.declTypePtr" fs) 0 none [[.name "declTypePtr"]] = some (some 0) := rfl
theorem chooseP_other {T : String} (h : (T == "main.declTypePtr") = false) (fs : List (String × V)) :
    chooseT "main" (.struct T fs) 0 none [[.name "declTypePtr"]] = some none := by
  have h : (T == "main" ++ "." ++ "declTypePtr") = false := h
  rw [chooseT, anyType, hasType, h]
  rfl
@[gen_simp] theorem lit_struct (v : V) :
    setFields (fieldNames [""] (.struct "main.typeStruct" [("items", .nil)])) [v]
      (.struct "main.typeStruct" [("items", .nil)]) = some (.struct "main.typeStruct" [("items", v)]) := rfl

/-- A text of ASCII characters. -/
structure Ascii (s : Ident) (b : List UInt8) : Prop where
  ascii : ∀ c ∈ s.toList, c.toNat < 128
  bytes : b = strBytes s

theorem Ascii.prints {s : Ident} {b : List UInt8} (h : Ascii s b) : Prints (codes s) b := by
  refine .of_map ?_
  rw [h.bytes, strBytes, List.map_map, codes]
  refine List.map_congr_left fun c hc => ?_
  have := h.ascii c hc
  show (Nat.toUInt8 c.toNat).toNat = c.toNat
  simp
  omega

/-! ### The definitions -/

section
variable (unsig : Bool) (ct : List UInt8) (H : Nat → V) (n : Nat)

/-- The functions of out.go as they print. -/
abbrev runOut (k : Nat) (f : String) (args : List V) : PM Log (List V) :=
  pcallN genProg (outExt unsig ct H n) k (.fn "main" f) args

/-- `typespecOpt` (out.go:170-173). -/
def IsOpt : TypespecOpt → V → Prop
  | none, v => ∃ tv, v = .struct "main.typespecOpt" [("isVoid", .bool true), ("t", tv)]
  | some t, v => ∃ tv, IsTypespec H n t tv ∧ v = .struct "main.typespecOpt" [("isVoid", .bool false), ("t", tv)]

/-- `progCall` (out.go:361-366). -/
def IsCall (c : ProgCall) (v : V) : Prop :=
  ∃ nb a r ib, Name c.name nb ∧ IsOpt H n c.arg a ∧ IsOpt H n c.res r ∧ isLit (ib.map UInt8.toNat) c.id = true ∧
    v = .struct "main.progCall" [("name", .str nb), ("arg", a), ("res", r), ("id", .str ib)]

/-- `progVer` (out.go:368-372). -/
def IsVer (p : ProgVer) (v : V) : Prop :=
  ∃ nb l vs ib, Name p.name nb ∧ IsList H n l vs ∧ All2 (IsCall H n) p.calls vs ∧ isLit (ib.map UInt8.toNat) p.id = true ∧
    v = .struct "main.progVer" [("name", .str nb), ("calls", l), ("id", .str ib)]

/-- `progDef` (out.go:374-378). -/
def IsProg (p : ProgDef) (v : V) : Prop :=
  ∃ nb l vs ib, Name p.name nb ∧ IsList H n l vs ∧ All2 (IsVer H n) p.vers vs ∧ isLit (ib.map UInt8.toNat) p.id = true ∧
    v = .struct "main.progDef" [("name", .str nb), ("vers", l), ("id", .str ib)]

theorem emit_const {fl : Flags} (hct : Ascii fl.constType ct) {s : Ident} {nb : List UInt8} {v : Nat} {vb : List UInt8}
    (hn : Name s nb) (hv : isLit (vb.map UInt8.toNat) v = true) :
    Ev fun k => WGives [] (some (wConst fl s v)) (runOut unsig ct H n k "emitConst" [.str nb, .str vb]) := by
  refine Ev.pos fun k => ?_
  rw [runOut, pcallN, find_out_emitConst]
  have h1 := hct.prints
  have h2 := hn.prints
  have h3 := prints_lit hv
  have : some (wConst fl s v) = wcat (some [(true,
      t!"const " ++ codes s ++ t!" " ++ codes fl.constType ++ t!" = " ++ [lit0 + v] ++ t!"\n")]) (some []) := rfl
  rw [this]
  wfun [out_emitConst]
  wprint []
  exact wrun_nil rfl

/-- Not a pointer type. -/
def notPtr : DeclType → Bool
  | .ptr _ => false
  | _ => true

theorem notPtr_tag {t : DeclType} {v : V} (h : IsDeclType H n t v) (hp : notPtr t = true) :
    (tag v == "main.declTypePtr") = false := by
  cases t <;> unfold IsDeclType at h
  case typespec => obtain ⟨_, _, rfl⟩ := h; rfl
  case array => obtain ⟨_, _, _, _, rfl⟩ := h; rfl
  case varArray => obtain ⟨_, _, _, _, rfl⟩ := h; rfl
  case opaqueArray => obtain ⟨_, _, rfl⟩ := h; rfl
  case opaqueVarArray => obtain ⟨_, _, rfl⟩ := h; rfl
  case string => obtain ⟨_, _, rfl⟩ := h; rfl
  case ptr => cases hp

theorem emit_typedef {d : Decl} {v : V} (hd : IsDecl H n d v) :
    Ev fun k => WGives [] (wTypedef d) (runOut unsig ct H n k "emitTypedef" [v]) := by
  cases d with
  | void =>
    refine Ev.pos fun k => ?_
    unfold IsDecl at hd
    subst hd
    rw [runOut, pcallN, find_out_emitTypedef, wTypedef]
    wfun [out_emitTypedef]
    wquiet []
    exact wrun_nil rfl
  | name t s =>
    unfold IsDecl at hd
    obtain ⟨tv, b, ht, hn, rfl⟩ := hd
    have hg := goType_declType (outExt unsig ct H n) t tv ht
    have hx := goXdr_declType (outExt unsig ct H n) t tv ht
    have hm := declType_meths ht
    have hpi := hn.i
    by_cases hq : notPtr t = true
    · have htag := notPtr_tag H n ht hq
      refine ((hg.and (hx t!"v" (ub t!"v") (prints_ub rfl))).and (hn.ev_i (outExt unsig ct H n))).step fun k h => ?_
      obtain ⟨⟨hg, hx⟩, hi⟩ := h
      obtain ⟨T, fs, rfl, hb1, hb2⟩ := hm
      rw [tag] at hg hx htag
      have hch := chooseP_other htag fs
      rw [runOut, pcallN, find_out_emitTypedef]
      have e : wTypedef (.name t s) = (do
          let g ← tDeclType t
          (wcat (some [(true, t!"type " ++ iTxt s ++ t!" " ++ g ++ t!"\n")])
          (wcat (some [(false, t!"func (v *" ++ iTxt s ++ t!") Xdr(xs *xdr.XdrState) {\n")])
          (wcat (wtext false (xDeclType t t!"v"))
          (wcat (some [(false, t!"}\n")]) (some [])))))) := by
        have e : wTypedef (.name t s) = (do
            let g ← tDeclType t
            let b ← xDeclType t t!"v"
            pure (toTypes (t!"type " ++ iTxt s ++ t!" " ++ g ++ t!"\n") ++ wMethod s b)) := by
          rw [wTypedef]
          cases t <;> first | cases hq; done | rfl
        rw [e]
        cases tDeclType t with
        | none => rfl
        | some g => cases xDeclType t t!"v" <;> rfl
      rw [e]
      wfun [out_emitTypedef]
      refine WGives.last (wrun_stmt (ρ' := [[("val", .struct "main.declName" [("t", .struct T fs), ("n", .str b)])]])
        (wexec_tswitch (i := 0) (by pgo_core []; first | done | rfl) (choose_name _) rfl (by decide) ?_) (wrun_nil rfl))
      rcases hg.split with ⟨ho, hg⟩ | ⟨g, r, ho, hr, hg⟩ <;> rw [ho]
      · exact wrun_panic (by pgo_core [hg, hb1]) rfl
      wquiet [hg, hb1]
      wquiet []
      wquiet [hch]
      wprint [hi]
      wprint [hi]
      wtry hx [hb2]
      wprint []
      exact wrun_nil rfl
    · cases t with
      | ptr t =>
        unfold IsDeclType at ht
        obtain ⟨tv, ht, rfl⟩ := ht
        refine ((hg.and (hx t!"&v.P" (ub t!"&v.P") (prints_ub rfl))).and (hn.ev_i (outExt unsig ct H n))).step fun k h => ?_
        obtain ⟨⟨hg, hx⟩, hi⟩ := h
        rw [tag] at hg hx
        have hb1 := byval_out_declTypePtr_goType
        have hb2 := byval_out_declTypePtr_goXdr
        rw [runOut, pcallN, find_out_emitTypedef]
        have e : wTypedef (.name (.ptr t) s) = (do
            let g ← tDeclType (.ptr t)
            (wcat (some [(true, t!"type " ++ iTxt s ++ t!" " ++ (t!"struct { P " ++ g ++ t!" }") ++ t!"\n")])
            (wcat (some [(false, t!"func (v *" ++ iTxt s ++ t!") Xdr(xs *xdr.XdrState) {\n")])
            (wcat (wtext false (xDeclType (.ptr t) t!"&v.P"))
            (wcat (some [(false, t!"}\n")]) (some [])))))) := by
          rw [wTypedef]
          cases tDeclType (.ptr t) with
          | none => rfl
          | some g => cases hh : xDeclType (.ptr t) t!"&v.P" <;> simp [hh, wcat, wtext, wMethod, toTypes, toOut]
        rw [e]
        wfun [out_emitTypedef]
        refine WGives.last (wrun_stmt
          (ρ' := [[("val", .struct "main.declName" [("t", .struct "main.declTypePtr" [("t", tv)]), ("n", .str b)])]])
          (wexec_tswitch (i := 0) (by pgo_core []; first | done | rfl) (choose_name _) rfl (by decide) ?_) (wrun_nil rfl))
        rcases hg.split with ⟨ho, hg⟩ | ⟨g, r, ho, hr, hg⟩ <;> rw [ho]
        · exact wrun_panic (by pgo_core [hg, hb1]) rfl
        wquiet [hg, hb1]
        wquiet []
        wquiet []
        wprint [hi]
        wprint [hi]
        wtry hx [hb2]
        wprint []
        exact wrun_nil rfl
      | _ => exact absurd rfl hq

/-- Items of an enumeration. -/
theorem emit_enum {fl : Flags} (hfl : fl.unsignedEnum = unsig) {s : Ident} {nb : List UInt8} {items : List EnumItem} {l : V}
    {vs : List V} (hn : Name s nb) (hl : IsList H n l vs) (hv : All2 IsItem items vs) :
    Ev fun k => WGives [] (some (wEnum fl s items)) (runOut unsig ct H n k "emitEnum" [.str nb, l]) := by
  have hi : Ev fun k => pcallN genProg (outExt unsig ct H n) k (.meth "main.typeInt" "goXdr")
      [.struct "main.typeInt" [("unsig", .bool unsig)], .str (ub t!"v")] =
      pure [.str (intBytes unsig (ub t!"v"))] := Ev.pos fun k => run_int _ unsig k _
  refine (hi.and (ev_hasI (outExt unsig ct H n))).step fun k h => ?_
  obtain ⟨hi, hI⟩ := h
  have hin := hI (.ident s) nb hn
  have hpn := hn.i
  have hpi : Prints (xInt unsig t!"v") (intBytes unsig (ub t!"v")) := prints_int unsig (prints_ub rfl)
  rw [runOut, pcallN, find_out_emitEnum]
  have e : some (wEnum fl s items) =
      wcat (some [(true, t!"type " ++ iTxt s ++ t!" " ++ (if unsig then t!"uint32" else t!"int32") ++ t!"\n")])
      (wcat (some [(false, t!"func (v *" ++ iTxt s ++ t!") Xdr(xs *xdr.XdrState) {\n")])
      (wcat (some [(false, xInt unsig t!"v")])
      (wcat (some [(false, t!"}\n")])
      (wcat (wAll (fun it : EnumItem => some [(true, t!"const " ++ iTxt it.name ++ t!" " ++ iTxt s ++ t!" = " ++ vTxt it.val ++ t!"\n")])
        items) (some []))))) := by
    have h1 : ∀ items, wAll (fun it : EnumItem => some [(true, t!"const " ++ iTxt it.name ++ t!" " ++ iTxt s ++ t!" = " ++ vTxt it.val ++ t!"\n")])
        items = some (items.flatMap fun it => toTypes (t!"const " ++ iTxt it.name ++ t!" " ++ iTxt s ++ t!" = " ++ vTxt it.val ++ t!"\n")) := by
      intro items
      induction items with
      | nil => rfl
      | cons it items ih => rw [wAll, ih]; rfl
    rw [h1, wEnum, hfl]
    simp only [wcat, wMethod, toTypes, toOut, Option.pure_def, Option.bind_eq_bind, Option.bind_some, List.append_assoc, List.append_nil]
  rw [e]
  wfun [out_emitEnum]
  wquiet []
  cases unsig <;> simp only [Bool.false_eq_true, ↓reduceIte]
  all_goals
    wquiet []
    wprint [hin]
    wprint [hin]
    wprint [hi]
    wprint []
    refine wrun_stmt (wexec_range (l := l) (by pgo_core []) hl ?_) (wrun_nil rfl)
    refine All2.imp (fun it v h => ?_) hv
    intro i
    obtain ⟨nb', vb, h1, h2, rfl⟩ := h
    have h3 := hI (.ident it.name) nb' h1
    have h4 := h1.i
    have h5 := h2.prints
    refine wrun_start (by pgo_core []; first | done | rfl) ?_
    refine wrun_one (by pgo_core [wrote_pure, hin, h3]; first | done | rfl) (by prints) rfl

/-- One field of `emitStruct` (out.go:490-493). -/
def wField : Decl → Option Writes
  | .void => some []
  | .name t s => do
    let g ← tDeclType t
    pure [(true, t!"  " ++ iTxt s ++ t!" " ++ g ++ t!";\n")]

theorem fields_all : ∀ ds : Decls, wFields ds = wAll wField (declList ds)
  | .nil => by rw [wFields]; rfl
  | .cons .void ds => by
    rw [wFields, declList, wAll, fields_all ds]
    cases wAll wField (declList ds) <;> rfl
  | .cons (.name t n) ds => by
    rw [wFields, declList, wAll, fields_all ds, wField]
    cases tDeclType t with
    | none => rfl
    | some g => cases wAll wField (declList ds) <;> rfl

theorem decls_all {ds : Decls} {vs : List V} (h : IsDecls H n ds vs) : All2 (IsDecl H n) (declList ds) vs := by
  induction vs generalizing ds with
  | nil =>
    cases ds with
    | nil => exact .nil
    | cons d ds => unfold IsDecls at h; obtain ⟨v, l, _, _, h⟩ := h; cases h
  | cons v vs ih =>
    cases ds with
    | nil => unfold IsDecls at h; cases h
    | cons d ds =>
      unfold IsDecls at h
      obtain ⟨v', l, h1, h2, h⟩ := h
      cases h
      exact .cons h1 (ih h2)

/-- A field with its type, for calls not deeper than `k`. -/
def FieldN (E : PExt Log) (k : Nat) : Decl → V → Prop
  | .void, v => v = .struct "main.declVoid" []
  | .name t s, v => ∃ T fs b, byValue genProg T "goType" = true ∧ Name s b ∧
      Says (tDeclType t) (pcallN genProg E k (.meth T "goType") [.struct T fs]) ∧
      v = .struct "main.declName" [("t", .struct T fs), ("n", .str b)]

theorem field_ev (E : PExt Log) {d : Decl} {v : V} (h : IsDecl E.heap E.bound d v) : Ev fun k => FieldN E k d v := by
  cases d with
  | void => unfold IsDecl at h; exact Ev.all fun _ => h
  | name t s =>
    unfold IsDecl at h
    obtain ⟨tv, b, ht, hb, rfl⟩ := h
    have hg := goType_declType E t tv ht
    obtain ⟨T, fs, rfl, h1, _⟩ := declType_meths ht
    exact hg.imp fun k hg => ⟨T, fs, b, h1, hb, hg, rfl⟩

theorem emit_struct {s : Ident} {nb : List UInt8} {ds : Decls} {l : V} {vs : List V} (hn : Name s nb) (hl : IsList H n l vs)
    (hd : IsDecls H n ds vs) : Ev fun k => WGives [] (wStruct s ds) (runOut unsig ct H n k "emitStruct" [.str nb, l]) := by
  have hx := goXdr_typespec (outExt unsig ct H n) (.struct ds) (.struct "main.typeStruct" [("items", l)])
    (by unfold IsTypespec; exact ⟨l, vs, hl, hd, rfl⟩) t!"v" (ub t!"v") (prints_ub rfl)
  have hf : Ev fun k => All2 (FieldN (outExt unsig ct H n) k) (declList ds) vs :=
    Ev.all2 (All2.imp (fun d v h => field_ev (outExt unsig ct H n) h) (decls_all H n hd))
  refine ((hx.and hf).and (ev_hasI (outExt unsig ct H n))).step fun k h => ?_
  obtain ⟨⟨hx, hf⟩, hI⟩ := h
  rw [tag] at hx
  have hi := hI (.ident s) nb hn
  have hpi := hn.i
  have e : wStruct s ds =
      wcat (some [(true, t!"type " ++ iTxt s ++ t!" struct {\n")])
      (wcat (wAll wField (declList ds))
      (wcat (some [(true, t!"}\n")])
      (wcat (some [(false, t!"func (v *" ++ iTxt s ++ t!") Xdr(xs *xdr.XdrState) {\n")])
      (wcat (wtext false (xTypespec (.struct ds) t!"v"))
      (wcat (some [(false, t!"}\n")]) (some [])))))) := by
    rw [wStruct, fields_all]
    cases wAll wField (declList ds) with
    | none => rfl
    | some x =>
      cases xTypespec (.struct ds) t!"v" with
      | none => rfl
      | some y => simp [wcat, wtext, wMethod, toTypes, toOut]
  rw [runOut, pcallN, find_out_emitStruct, e]
  wfun [out_emitStruct]
  wprint [hi]
  refine wrun_same (wexec_range (l := l) (by pgo_core []) hl (All2.imp (fun d v h => ?_) hf)) ?_
  · intro i
    refine wrun_start (by pgo_core []; first | done | rfl) ?_
    cases d with
    | void =>
      have h : v = _ := h
      subst h
      wquiet []
      exact wrun_nil rfl
    | name t s' =>
      obtain ⟨T, fs, b, hb, hn', hg, rfl⟩ := h
      have hi' := hI (.ident s') b hn'
      have hpi' := hn'.i
      rw [wField]
      rcases hg.split with ⟨ho, hg⟩ | ⟨g, r, ho, hr, hg⟩ <;> rw [ho] <;> pgo_core [wrote_pure, hg, hb, hi']
      · exact (rfl : _ = _)
      · exact ⟨_, .one (by prints), rfl⟩
  wprint []
  wprint [hi]
  wtry hx []
  wprint []
  exact wrun_nil rfl

theorem emit_union {s : Ident} {nb : List UInt8} {sw : Decl} {cs : Cases} {v : V} (hn : Name s nb)
    (hv : IsTypespec H n (.union sw cs) v) :
    Ev fun k => WGives [] (wUnion s sw cs) (runOut unsig ct H n k "emitUnion" [.str nb, v]) := by
  have hg := goType_typespec (outExt unsig ct H n) _ _ hv
  have hx := goXdr_typespec (outExt unsig ct H n) _ _ hv t!"v" (ub t!"v") (prints_ub rfl)
  unfold IsTypespec at hv
  obtain ⟨d, l, vs, df, _, _, _, rfl⟩ := hv
  refine ((hg.and hx).and (ev_hasI (outExt unsig ct H n))).step fun k h => ?_
  obtain ⟨⟨hg, hx⟩, hI⟩ := h
  rw [tag] at hg hx
  have hi := hI (.ident s) nb hn
  have hpi := hn.i
  have e : wUnion s sw cs =
      wcat (wtext true (do let g ← tTypespec (.union sw cs); pure (t!"type " ++ iTxt s ++ t!" " ++ g ++ t!"\n")))
      (wcat (some [(false, t!"func (v *" ++ iTxt s ++ t!") Xdr(xs *xdr.XdrState) {\n")])
      (wcat (wtext false (xTypespec (.union sw cs) t!"v"))
      (wcat (some [(false, t!"}\n")]) (some [])))) := by
    rw [wUnion]
    cases tTypespec (.union sw cs) with
    | none => rfl
    | some x => cases xTypespec (.union sw cs) t!"v" <;> rfl
  rw [runOut, pcallN, find_out_emitUnion, e]
  wfun [out_emitUnion]
  refine wrun_same ?_ ?_
  · rcases hg.split with ⟨ho, hg⟩ | ⟨g, r, ho, hr, hg⟩ <;> rw [ho] <;> pgo_core [wrote_pure, hg, hi]
    · exact (rfl : _ = _)
    · exact ⟨_, .one (by prints), rfl⟩
  wprint [hi]
  wtry hx []
  wprint []
  exact wrun_nil rfl

/-- An optional type, for calls not deeper than `k`. -/
def OptN (E : PExt Log) (k : Nat) (o : TypespecOpt) (v : V) : Prop :=
  Says (tOpt o) (pcallN genProg E k (.meth "main.typespecOpt" "maybeGoType") [v]) ∧
  match o with
  | none => ∃ tv, v = .struct "main.typespecOpt" [("isVoid", .bool true), ("t", tv)]
  | some t => ∃ T fs, byValue genProg T "goType" = true ∧
      Says (tTypespec t) (pcallN genProg E k (.meth T "goType") [.struct T fs]) ∧
      v = .struct "main.typespecOpt" [("isVoid", .bool false), ("t", .struct T fs)]

theorem OptN.struct {E : PExt Log} {k : Nat} {o : TypespecOpt} {v : V} (h : OptN E k o v) :
    ∃ fs, v = .struct "main.typespecOpt" fs := by
  cases o with
  | none => obtain ⟨_, _, h⟩ := h; exact ⟨_, h⟩
  | some t => obtain ⟨_, _, _, _, _, h⟩ := h; exact ⟨_, h⟩

/-- What printing the type of an optional type needs. -/
def TypeN (E : PExt Log) (k : Nat) : TypespecOpt → V → Prop
  | none, _ => True
  | some t, v => ∃ T fs, byValue genProg T "goType" = true ∧
      Says (tTypespec t) (pcallN genProg E k (.meth T "goType") [.struct T fs]) ∧ v = .struct T fs

theorem OptN.shape {E : PExt Log} {k : Nat} {o : TypespecOpt} {v : V} (h : OptN E k o v) :
    ∃ av, v = .struct "main.typespecOpt" [("isVoid", .bool (!o.isSome)), ("t", av)] ∧ TypeN E k o av := by
  cases o with
  | none => obtain ⟨_, _, h⟩ := h; exact ⟨_, h, trivial⟩
  | some t => obtain ⟨_, T, fs, hb, hg, h⟩ := h; exact ⟨_, h, T, fs, hb, hg, rfl⟩

theorem opt_ev (E : PExt Log) {o : TypespecOpt} {v : V} (h : IsOpt E.heap E.bound o v) : Ev fun k => OptN E k o v := by
  cases o with
  | none =>
    obtain ⟨tv, rfl⟩ := h
    refine Ev.pos fun k => ⟨?_, tv, rfl⟩
    rw [pcallN, find_out_typespecOpt_maybeGoType, tOpt]
    pgo_core [out_typespecOpt_maybeGoType]
    exact ⟨_, .nil, rfl⟩
  | some t =>
    obtain ⟨tv, ht, rfl⟩ := h
    have hg := goType_typespec E t tv ht
    obtain ⟨T, fs, rfl, hb, _⟩ := typespec_meths ht
    have h1 : Ev fun k => Says (tOpt (some t)) (pcallN genProg E k (.meth "main.typespecOpt" "maybeGoType")
        [.struct "main.typespecOpt" [("isVoid", .bool false), ("t", .struct T fs)]]) := by
      refine hg.step fun k hg => ?_
      rw [tag] at hg
      rw [pcallN, find_out_typespecOpt_maybeGoType, tOpt]
      rcases hg.split with ⟨ho, hg⟩ | ⟨g, r, ho, hr, hg⟩ <;> rw [ho] <;> pgo_core [out_typespecOpt_maybeGoType, hg, hb]
      · rfl
      · exact ⟨_, hr, rfl⟩
    exact (h1.and hg).imp fun k h => ⟨h.1, T, fs, hb, h.2, rfl⟩

/-- A procedure, for calls not deeper than `k`. -/
def CallN (E : PExt Log) (k : Nat) (c : ProgCall) (v : V) : Prop :=
  ∃ nb a r ib, Name c.name nb ∧ OptN E k c.arg a ∧ OptN E k c.res r ∧ isLit (ib.map UInt8.toNat) c.id = true ∧
    v = .struct "main.progCall" [("name", .str nb), ("arg", a), ("res", r), ("id", .str ib)]

theorem call_ev (E : PExt Log) {c : ProgCall} {v : V} (h : IsCall E.heap E.bound c v) : Ev fun k => CallN E k c v := by
  obtain ⟨nb, a, r, ib, hn, ha, hr, hi, rfl⟩ := h
  exact ((opt_ev E ha).and (opt_ev E hr)).imp fun k h => ⟨nb, a, r, ib, hn, h.1, h.2, hi, rfl⟩

/-- A version, for calls not deeper than `k`. -/
def VerN (E : PExt Log) (k : Nat) (p : ProgVer) (v : V) : Prop :=
  ∃ nb l vs ib, Name p.name nb ∧ IsList E.heap E.bound l vs ∧ All2 (CallN E k) p.calls vs ∧
    isLit (ib.map UInt8.toNat) p.id = true ∧ v = .struct "main.progVer" [("name", .str nb), ("calls", l), ("id", .str ib)]

theorem ver_ev (E : PExt Log) {p : ProgVer} {v : V} (h : IsVer E.heap E.bound p v) : Ev fun k => VerN E k p v := by
  obtain ⟨nb, l, vs, ib, hn, hl, hc, hi, rfl⟩ := h
  have hc : Ev fun k => All2 (CallN E k) p.calls vs := Ev.all2 (All2.imp (fun c v h => call_ev E h) hc)
  exact hc.imp fun k hc => ⟨nb, l, vs, ib, hn, hl, hc, hi, rfl⟩

theorem wAll_some {α : Type} (g : α → Writes) (l : List α) : wAll (fun a => some (g a)) l = some (l.flatMap g) := by
  induction l with
  | nil => rfl
  | cons a l ih => rw [wAll, ih]; rfl

def wIn : TypespecOpt → Option Writes
  | some t => wcat (wtext false (do let g ← tTypespec t; pure (t!"var in " ++ g ++ t!"\n")))
      (wcat (some [(false, t!"in.Xdr(args)\n")]) (wcat (some [(false, t!"err = args.Error()\n")])
      (wcat (some [(false, t!"if err != nil { return }\n")]) (some []))))
  | none => some []

def wOut : TypespecOpt → Option Writes
  | some t => wtext false (do let g ← tTypespec t; pure (t!"var out " ++ g ++ t!"\n"))
  | none => some [(false, t!"var out xdr.Void\n")]

theorem wrapper_eq (p : ProgDef) (v : ProgVer) (c : ProgCall) : wWrapper p v c =
    wcat (some [(false, t!"func (w *" ++ iTxt p.name ++ t!"_" ++ iTxt v.name ++ t!"_handler_wrapper) " ++ iTxt c.name ++
      t!"(args *xdr.XdrState) (res xdr.Xdrable, err error) {\n")])
    (wcat (wIn c.arg)
    (wcat (wOut c.res)
    (wcat (some (if c.res.isSome then [(false, t!"out = ")] else []))
    (wcat (some [(false, t!"w.h." ++ iTxt c.name ++ t!"(")])
    (wcat (some (if c.arg.isSome then [(false, t!"in")] else []))
    (wcat (some [(false, t!")\n")])
    (wcat (some [(false, t!"return &out, nil")])
    (wcat (some [(false, t!"}\n")]) (some []))))))))) := by
  rw [wWrapper]
  cases c.arg with
  | none =>
    cases c.res with
    | none => simp [wIn, wOut, wcat, toOut, vnTxt]
    | some r => cases hr : tTypespec r <;> simp [hr, wIn, wOut, wcat, wtext, toOut, vnTxt]
  | some a =>
    cases ha : tTypespec a with
    | none => simp [ha, wIn, wcat, wtext]
    | some g =>
      cases c.res with
      | none => simp [ha, wIn, wOut, wcat, wtext, toOut, vnTxt]
      | some r => cases hr : tTypespec r <;> simp [ha, hr, wIn, wOut, wcat, wtext, toOut, vnTxt]

theorem vers_eq (p : ProgDef) (v : ProgVer) : wVers p v =
    wcat (some [(true, t!"const " ++ iTxt v.name ++ t!" uint32 = " ++ [lit0 + v.id] ++ t!"\n")])
    (wcat (wAll (fun c : ProgCall => some [(true, t!"const " ++ iTxt c.name ++ t!" uint32 = " ++ [lit0 + c.id] ++ t!"\n")]) v.calls)
    (wcat (some [(false, t!"type " ++ iTxt p.name ++ t!"_" ++ iTxt v.name ++ t!"_handler interface {\n")])
    (wcat (wAll wSig v.calls)
    (wcat (some [(false, t!"}\n")])
    (wcat (some [(false, t!"type " ++ iTxt p.name ++ t!"_" ++ iTxt v.name ++ t!"_handler_wrapper struct {\n")])
    (wcat (some [(false, t!"h " ++ iTxt p.name ++ t!"_" ++ iTxt v.name ++ t!"_handler\n")])
    (wcat (some [(false, t!"}\n")])
    (wcat (wAll (wWrapper p v) v.calls)
    (wcat (some [(false, t!"func " ++ iTxt p.name ++ t!"_" ++ iTxt v.name ++ t!"_regs(h " ++ iTxt p.name ++ t!"_" ++
      iTxt v.name ++ t!"_handler) []xdr.ProcRegistration {\n")])
    (wcat (some [(false, t!"w := &" ++ iTxt p.name ++ t!"_" ++ iTxt v.name ++ t!"_handler_wrapper{h}\n")])
    (wcat (some [(false, t!"return []xdr.ProcRegistration{\n")])
    (wcat (wAll (fun c => some (wReg p v c)) v.calls)
    (wcat (some [(false, t!"}\n")])
    (wcat (some [(false, t!"}\n")]) (some []))))))))))))))) := by
  rw [wVers, wAll_some, wAll_some]
  cases wAll wSig v.calls with
  | none => rfl
  | some x =>
    cases wAll (wWrapper p v) v.calls with
    | none => rfl
    | some y => simp [wcat, toOut, toTypes, vnTxt]

set_option maxHeartbeats 2000000 in
theorem emit_prog {p : ProgDef} {v : V} (h : IsProg H n p v) :
    Ev fun k => WGives [] (wProg p) (runOut unsig ct H n k "emitProg" [v]) := by
  obtain ⟨nb, l, vs, ib, hn, hl, hv, hib, rfl⟩ := h
  have hv : Ev fun k => All2 (VerN (outExt unsig ct H n) k) p.vers vs :=
    Ev.all2 (All2.imp (fun c v h => ver_ev (outExt unsig ct H n) h) hv)
  refine (hv.and (ev_hasI (outExt unsig ct H n))).step fun k h => ?_
  obtain ⟨hv, hI⟩ := h
  have hi := hI (.ident p.name) nb hn
  have hp := hn.i
  have hpl := prints_lit hib
  have e : wProg p = wcat (some [(true, t!"const " ++ iTxt p.name ++ t!" uint32 = " ++ [lit0 + p.id] ++ t!"\n")])
      (wcat (wAll (wVers p) p.vers) (some [])) := by
    rw [wProg]
    cases wAll (wVers p) p.vers with
    | none => rfl
    | some x => simp [wcat, toTypes]
  rw [runOut, pcallN, find_out_emitProg, e]
  wfun [out_emitProg]
  wprint [hi]
  refine wrun_same (wexec_range (l := l) (by pgo_core []) hl (All2.imp (fun q v h => ?_) hv)) (wrun_nil rfl)
  intro ix
  obtain ⟨vnb, vl, cvs, vib, hvn, hvl, hc, hvib, rfl⟩ := h
  have hvi := hI (.ident q.name) vnb hvn
  have hvp := hvn.i
  have hvpl := prints_lit hvib
  refine wrun_start (by pgo_core []; first | done | rfl) ?_
  rw [vers_eq]
  wprint [hvi]
  refine wrun_same (wexec_range (l := vl) (by pgo_core []) hvl (All2.imp (fun c v h => ?_) hc)) ?_
  · intro ix
    obtain ⟨cnb, a, r, cib, hcn, ha, hr, hcib, rfl⟩ := h
    have hci := hI (.ident c.name) cnb hcn
    have hcp := hcn.i
    have hcpl := prints_lit hcib
    refine wrun_start (by pgo_core []; first | done | rfl) ?_
    exact wrun_one (by pgo_core [wrote_pure, hci]; first | done | rfl) (by prints) rfl
  wprint [hi, hvi]
  refine wrun_same (wexec_range (l := vl) (by pgo_core []) hvl (All2.imp (fun c v h => ?_) hc)) ?_
  · intro ix
    obtain ⟨cnb, a, r, cib, hcn, ha, hr, hcib, rfl⟩ := h
    have hci := hI (.ident c.name) cnb hcn
    have hcp := hcn.i
    refine wrun_start (by pgo_core []; first | done | rfl) ?_
    obtain ⟨fa, rfl⟩ := ha.struct
    obtain ⟨fr, rfl⟩ := hr.struct
    rw [wSig]
    rcases ha.1.split with ⟨ho, hw⟩ | ⟨x, xb, ho, hx, hw⟩ <;> rw [ho]
    · exact wrun_panic (by pgo_core [hci, hw]) rfl
    rcases hr.1.split with ⟨ho', hw'⟩ | ⟨y, yb, ho', hy, hw'⟩ <;> rw [ho']
    · exact wrun_panic (by pgo_core [hci, hw, hw']) rfl
    exact wrun_one (t := iTxt c.name ++ t!"(" ++ x ++ t!") " ++ y ++ t!"\n")
      (by pgo_core [wrote_pure, hci, hw, hw']; first | done | rfl) (by prints) rfl
  wprint []
  wprint [hi, hvi]
  wprint [hi, hvi]
  wprint []
  refine wrun_same (wexec_range (l := vl) (by pgo_core []) hvl (All2.imp (fun c v h => ?_) hc)) ?_
  · intro ix
    obtain ⟨cnb, a, r, cib, hcn, ha, hr, hcib, rfl⟩ := h
    have hci := hI (.ident c.name) cnb hcn
    have hcp := hcn.i
    refine wrun_start (by pgo_core []; first | done | rfl) ?_
    rw [wrapper_eq]
    wprint [hi, hvi, hci]
    obtain ⟨av, rfl, hta⟩ := ha.shape
    obtain ⟨rv, rfl, htr⟩ := hr.shape
    clear ha hr
    refine wrun_same (wexec_ite (t := c.arg.isSome) (by pgo_core [Bool.not_not]) ?_) ?_
    · generalize c.arg = o at hta
      cases o with
      | none => exact wrun_nil rfl
      | some t =>
        obtain ⟨T, fs, hb, hg, rfl⟩ := hta
        simp only [wIn, Option.isSome, if_true]
        refine wrun_same (by
          rcases hg.split with ⟨ho, hw⟩ | ⟨x, r, ho, hr, hw⟩ <;> rw [ho] <;> pgo_core [wrote_pure, hw, hb]
          · exact (rfl : _ = _)
          · exact ⟨_, .one (by prints), rfl⟩) ?_
        wprint []
        wprint []
        wprint []
        exact wrun_nil rfl
    refine wrun_same (wexec_ite (t := c.res.isSome) (by pgo_core [Bool.not_not]) ?_) ?_
    · generalize c.res = o at htr
      cases o with
      | none => exact wrun_one (by pgo_core [wrote_pure]; first | done | rfl) (by prints) rfl
      | some t =>
        obtain ⟨T, fs, hb, hg, rfl⟩ := htr
        simp only [wOut, Option.isSome, if_true]
        refine WGives.last (wrun_same (by
          rcases hg.split with ⟨ho, hw⟩ | ⟨x, r, ho, hr, hw⟩ <;> rw [ho] <;> pgo_core [wrote_pure, hw, hb]
          · exact (rfl : _ = _)
          · exact ⟨_, .one (by prints), rfl⟩) (wrun_nil rfl))
    refine wrun_same (wexec_ite (t := c.res.isSome) (by pgo_core [Bool.not_not]) ?_) ?_
    · cases c.res.isSome with
      | false => exact wrun_nil rfl
      | true => exact wrun_one (by pgo_core [wrote_pure]; first | done | rfl) (by prints) rfl
    wprint [hci]
    refine wrun_same (wexec_ite (t := c.arg.isSome) (by pgo_core [Bool.not_not]) ?_) ?_
    · cases c.arg.isSome with
      | false => exact wrun_nil rfl
      | true => exact wrun_one (by pgo_core [wrote_pure]; first | done | rfl) (by prints) rfl
    wprint []
    wprint []
    wprint []
    exact wrun_nil rfl
  wprint [hi, hvi]
  wprint [hi, hvi]
  wprint []
  refine wrun_same (wexec_range (l := vl) (by pgo_core []) hvl (All2.imp (fun c v h => ?_) hc)) ?_
  · intro ix
    obtain ⟨cnb, a, r, cib, hcn, ha, hr, hcib, rfl⟩ := h
    have hci := hI (.ident c.name) cnb hcn
    have hcp := hcn.i
    refine wrun_start (by pgo_core []; first | done | rfl) ?_
    have e : some (wReg p q c) =
        wcat (some [(false, t!"xdr.ProcRegistration{\n")])
        (wcat (some [(false, t!"Prog: " ++ iTxt p.name ++ t!",\n")])
        (wcat (some [(false, t!"Vers: " ++ iTxt q.name ++ t!",\n")])
        (wcat (some [(false, t!"Proc: " ++ iTxt c.name ++ t!",\n")])
        (wcat (some [(false, t!"Handler: w." ++ iTxt c.name ++ t!",\n")])
        (wcat (some [(false, t!"},\n")]) (some [])))))) := rfl
    rw [e]
    wprint []
    wprint [hi]
    wprint [hvi]
    wprint [hci]
    wprint [hci]
    wprint []
    exact wrun_nil rfl
  wprint []
  wprint []
  exact wrun_nil rfl

end

end Verif.Lang
