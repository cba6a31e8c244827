/-
What the text of the generated registration functions (out.go:428-440) does, with the method values of Verif.Lang.Static
written.
-/
import Verif.Lang.WrapText

namespace Verif.Lang.Text
open Verif.Gen (Comp Flags ProgDef ProgVer ProgCall GoVers GoReg)
open Verif.Spec (envOf)
variable {ω : Type}
set_option linter.unusedSimpArgs false

/-! ### The text -/

theorem typed_regs {q : Pkg} {v : GoVers} (hp : ∀ r ∈ v.regs, ptrMeth q v.regsWrapper r.handler = true) :
    typedF q (regsG v) = regsF v.regsName v.regsParam [regsW v.regsWrapper,
      .ret [.lit (.slice regT) (v.regs.map fun _ => "") (v.regs.map fun r => regE r (.mval v.regsWrapper (.id "w") r.handler))]] := by
  have : (v.regs.map fun r => bindL q [("w", v.regsWrapper)] (regE r (.sel (.id "w") r.handler))) =
      v.regs.map fun r => regE r (.mval v.regsWrapper (.id "w") r.handler) := by
    refine List.map_congr_left fun r hr => ?_
    simp [regE, bindL, bindV, hp r hr]
  simp only [typedF, regsG, regsF, regsW, typedB, typedS, List.map_cons, List.map_nil, typedE, bindB, bindS, ↓reduceIte, bindR, List.map_map]
  simp only [← this]
  rfl

/-! ### Running it -/

theorem zero_q_Reg {Ps : Prog} (p : String) : Prog.zero (xdrPkg :: Ps) p regT =
    some (.struct "xdr.ProcRegistration" [("Prog", .u32 0), ("Vers", .u32 0), ("Proc", .u32 0), ("Handler", .nil)]) := by
  rw [Prog.zero, Prog.fuel]
  rfl

/-- A registration as a Go value. -/
def regS (prog vers proc : UInt32) (h : V) : V :=
  .struct "xdr.ProcRegistration" [("Prog", .u32 prog), ("Vers", .u32 vers), ("Proc", .u32 proc), ("Handler", h)]

theorem wp_regs {S : Sem ω} {Ps : Prog} (hS : S.prog = xdrPkg :: Ps) {pkg : String} {ρ : Env} {wt : String} {a : Nat} {w : V} {st : St ω}
    (hw : ρ.find "w" = some a) (ha : st.heap a = w) {l : List GoReg} {up uv uc : GoReg → UInt32}
    (h : ∀ r ∈ l, (ρ.find r.prog = none ∧ ρ.find r.vers = none ∧ ρ.find r.proc = none) ∧
      Prog.const (xdrPkg :: Ps) pkg r.prog = some (.u32 (up r)) ∧ Prog.const (xdrPkg :: Ps) pkg r.vers = some (.u32 (uv r)) ∧
      Prog.const (xdrPkg :: Ps) pkg r.proc = some (.u32 (uc r))) {Q : List V → St ω → Prop}
    (hQ : Q (l.map fun r => regS (up r) (uv r) (uc r) (.bound (.meth (pkg ++ "." ++ wt) r.handler) w)) st) :
    wp (evalArgs S pkg ρ (l.map fun r => regE r (.mval wt (.id "w") r.handler))) Q st := by
  induction l generalizing Q with
  | nil => simpa only [List.map_nil, wp_args_nil] using hQ
  | cons r l ih =>
    obtain ⟨⟨h1, h2, h3⟩, h4, h5, h6⟩ := h r List.mem_cons_self
    have zr := zero_q_Reg (Ps := Ps) pkg
    rw [regT] at zr
    rw [List.map_cons, wp_args_cons, regE, wp_lit (h := rfl), hS, regT, zr]
    go_run [List.map_cons, List.map_nil, regT, hS, zr, h1, h2, h3, h4, h5, h6, hw, ha]
    refine ih (fun r hr => h r (List.mem_cons_of_mem _ hr)) ?_
    simpa only [List.map_cons, regS] using hQ

theorem find_fn {q : Pkg} {Ps : Prog} {x : String} {f : Func} (hq : Has Ps q) (h : q.funcs.lookup x = some f) :
    Prog.find (xdrPkg :: Ps) (.fn q.name x) = some (q.name, f) := by
  simp only [Prog.find, pkg_second hq, h, bind, Option.bind, pure]

theorem typed_fn {q : Pkg} {x : String} {f : Func} (h : q.funcs.lookup x = some f) :
    (typedPkg q).funcs.lookup x = some (typedF q f) := by
  simp only [typedPkg]
  generalize q.funcs = l at h
  induction l with
  | nil => cases h
  | cons p l ih =>
    obtain ⟨y, g⟩ := p
    simp only [List.map_cons, List.lookup_cons] at h ⊢
    cases hxy : x == y with
    | true => rw [hxy] at h; cases h; rfl
    | false => rw [hxy] at h; exact ih h

theorem zero_wrapper {q : Pkg} {Ps : Prog} (hq : Has Ps q) {wt ht : String} (h1 : wt ∉ predeclared) (h2 : ht ∉ predeclared)
    (hw : q.types.lookup wt = some (.struct [("h", .name ht)])) (hh : q.types.lookup ht = some .iface) :
    Prog.zero (xdrPkg :: Ps) q.name (.name wt) = some (.struct (q.name ++ "." ++ wt) [("h", .nil)]) := by
  obtain ⟨F, hF⟩ : ∃ F, Prog.fuel (xdrPkg :: Ps) (.name wt) = F + 4 := ⟨Prog.fuel (xdrPkg :: Ps) (.name wt) - 4, by rw [Prog.fuel]; omega⟩
  simp only [predeclared, List.mem_cons, List.not_mem_nil, or_false, not_or] at h1 h2
  obtain ⟨a1, a2, a3, a4, a5, a6, a7, a8⟩ := h1
  obtain ⟨b1, b2, b3, b4, b5, b6, b7, b8⟩ := h2
  rw [Prog.zero, hF]
  simp only [zeroN, a1, a2, a3, a4, a5, a6, a7, a8, b1, b2, b3, b4, b5, b6, b7, b8, ↓reduceIte, pkg_second hq, hw, hh, bind, Option.bind,
    List.mapM_cons, List.mapM_nil, pure, Option.map_some]

set_option maxHeartbeats 1000000 in
/-- A registration function. -/
theorem regs_spec {Ps : Prog} (E : Ext ω) (k : Nat) {q : Pkg} (hq : Has Ps q) {name ht wt : String} {l : List GoReg} {up uv uc : GoReg → UInt32}
    (hf : Prog.find (xdrPkg :: Ps) (.fn q.name name) = some (q.name, regsF name ht [regsW wt,
      .ret [.lit (.slice regT) (l.map fun _ => "") (l.map fun r => regE r (.mval wt (.id "w") r.handler))]]))
    (h1 : wt ∉ predeclared) (h2 : ht ∉ predeclared)
    (hw : q.types.lookup wt = some (.struct [("h", .name ht)])) (hh : q.types.lookup ht = some .iface)
    (hr : ∀ r ∈ l, (r.prog ∉ ["h", "w"] ∧ r.vers ∉ ["h", "w"] ∧ r.proc ∉ ["h", "w"]) ∧
      Prog.const (xdrPkg :: Ps) q.name r.prog = some (.u32 (up r)) ∧ Prog.const (xdrPkg :: Ps) q.name r.vers = some (.u32 (uv r)) ∧
      Prog.const (xdrPkg :: Ps) q.name r.proc = some (.u32 (uc r))) (h : Nat) (st : St ω) :
    wp (callN (xdrPkg :: Ps) E (k + 1) (.fn q.name name) [.obj h]) (fun rs st' => ∃ o c,
      rs = [.slice ⟨⟨c, []⟩, 0, l.length, l.length⟩] ∧
      st'.heap c = .vals (l.map fun r => regS (up r) (uv r) (uc r) (.bound (.meth (q.name ++ "." ++ wt) r.handler) (.ptr "" ⟨o, []⟩))) ∧
      st'.heap o = .struct (q.name ++ "." ++ wt) [("h", .obj h)] ∧ st.next ≤ o ∧ o < c ∧ c < st'.next ∧
      (∀ j, j < st.next → st'.heap j = st.heap j) ∧ st'.world = st.world ∧ st'.defers = st.defers) st := by
  have zw := zero_wrapper hq h1 h2 hw hh
  have zh : Prog.zero (xdrPkg :: Ps) q.name (.name ht) = some .nil := by
    obtain ⟨F, hF⟩ : ∃ F, Prog.fuel (xdrPkg :: Ps) (.name ht) = F + 4 := ⟨Prog.fuel (xdrPkg :: Ps) (.name ht) - 4, by rw [Prog.fuel]; omega⟩
    simp only [predeclared, List.mem_cons, List.not_mem_nil, or_false, not_or] at h2
    obtain ⟨b1, b2, b3, b4, b5, b6, b7, b8⟩ := h2
    rw [Prog.zero, hF]
    simp only [zeroN, b1, b2, b3, b4, b5, b6, b7, b8, ↓reduceIte, pkg_second hq, hh, bind, Option.bind]
  rw [wp_callN _ _ _ _ _ _ _ _ _ hf, wp_callFunc]
  go_run [regsF, regsW, zw, zh, List.map_cons, List.map_nil]
  have fnd : ∀ x : String, x ∉ ["h", "w"] → Env.find [[("w", st.next + 1 + 1), ("h", st.next)]] x = none := fun x hx => by
    simp only [List.mem_cons, List.not_mem_nil, or_false, not_or] at hx
    have e1 : (x == "h") = false := by simpa using hx.1
    have e2 : (x == "w") = false := by simpa using hx.2
    simp only [Env.find, List.lookup_cons, e1, e2, List.lookup_nil, List.findSome?_cons, List.findSome?_nil]
  refine wp_regs (up := up) (uv := uv) (uc := uc) rfl (a := st.next + 1 + 1) (w := .ptr "" ⟨st.next + 1, []⟩) rfl (by go_run) (fun r hr' => ?_) ?_
  · obtain ⟨⟨h1, h2, h3⟩, h4⟩ := hr r hr'
    exact ⟨⟨fnd _ h1, fnd _ h2, fnd _ h3⟩, h4⟩
  · go_run [regsF]
    refine ⟨st.next + 1, _, by rw [List.length_map], ?_⟩
    go_run
    exact ⟨by omega, by omega, by omega, fun j hj => by go_run⟩

end Verif.Lang.Text
