/-
The functions of out.go as they print, in the language itself.
-/
import Verif.Lang.OutEmit

namespace Verif.Lang
open Verif.Text Verif.Gen

/-! ### What the package can reach -/

/-- `fmt.Fprintf` (one call, one write; `tout` and `out` are the files of main.go:23-24) and the flags that
are read (main.go:14-20). -/
def printing (fl : Flags) (f : String) (args : List V) : M Log (List V) :=
  if f = "fmt.Fprintf" then
    match args with
    | .glob w :: .str s :: vs => do
      let b ← some! (sprintf s vs)
      if w = "main.tout" then fun st => .ok ([.int b.length, .nil], { st with world := st.world ++ [(true, b)] })
      else if w = "main.out" then fun st => .ok ([.int b.length, .nil], { st with world := st.world ++ [(false, b)] })
      else stop .stuck
    | _ => stop .stuck
  else if f = "*" then
    match args with
    | [.glob w] =>
      if w = "main.unsignedEnumFlag" then pure [.bool fl.unsignedEnum]
      else if w = "main.constTypeFlag" then pure [.str (strBytes fl.constType)]
      else stop .stuck
    | _ => stop .stuck
  else stop .stuck

/-- The generator's surroundings.  How much `append` reserves and how often a loop may go round are free. -/
def genExt (fl : Flags) (grow : Nat → Nat → Nat) (loops : Nat) : Ext Log :=
  ⟨printing fl, fun _ _ => stop .stuck, grow, loops⟩

theorem printing_sim (fl : Flags) (H : Nat → V) (n : Nat) (f : String) (args : List V) (st : St Log) :
    Sim id (· = st) (fun a b st' => a = b ∧ Over st st') (printing fl f args)
      ((outExt fl.unsignedEnum (strBytes fl.constType) H n).ext f args) := by
  unfold printing outExt
  dsimp only
  refine Sim.ite (fun _ => ?_) fun _ => Sim.ite (fun _ => ?_) fun _ => Sim.stuck
  · split
    · rename_i w s vs
      show Sim id _ _ _ (psome (sprintf s vs) >>= _)
      cases sprintf s vs with
      | none => exact Sim.stuck
      | some b =>
        show Sim id _ _ (if w = "main.tout" then _ else if w = "main.out" then _ else _)
          (if w = "main.tout" then _ else if w = "main.out" then _ else _)
        refine Sim.ite (fun _ => ?_) fun _ => Sim.ite (fun _ => ?_) fun _ => Sim.stuck
        · rintro st' rfl
          exact ⟨_, _, rfl, rfl, rfl, rfl, Nat.le_refl _, fun _ _ => rfl, rfl⟩
        · rintro st' rfl
          exact ⟨_, _, rfl, rfl, rfl, rfl, Nat.le_refl _, fun _ _ => rfl, rfl⟩
    · rename_i h
      split
      · exact absurd rfl (h _ _ _)
      · exact Sim.stuck
  · split
    · refine Sim.ite (fun _ => ?_) fun _ => Sim.ite (fun _ => ?_) fun _ => Sim.stuck
      · exact Sim.pure fun st' h => ⟨rfl, h ▸ Over.refl _⟩
      · exact Sim.pure fun st' h => ⟨rfl, h ▸ Over.refl _⟩
    · rename_i h
      split
      · exact absurd rfl (h _)
      · exact Sim.stuck

/-! ### The definitions -/

/-- The call that xdr.y makes for a definition (xdr.y:178-191): the function and its arguments. -/
def IsDefn (H : Nat → V) (n : Nat) : Defn → String → List V → Prop
  | .const s v, f, args => ∃ nb vb, Name s nb ∧ isLit (vb.map UInt8.toNat) v = true ∧ f = "emitConst" ∧ args = [.str nb, .str vb]
  | .typedef d, f, args => ∃ v, IsDecl H n d v ∧ f = "emitTypedef" ∧ args = [v]
  | .enum s items, f, args => ∃ nb l vs, Name s nb ∧ IsList H n l vs ∧ All2 IsItem items vs ∧ f = "emitEnum" ∧ args = [.str nb, l]
  | .struct s ds, f, args => ∃ nb l vs, Name s nb ∧ IsList H n l vs ∧ IsDecls H n ds vs ∧ f = "emitStruct" ∧ args = [.str nb, l]
  | .union s sw cs, f, args => ∃ nb v, Name s nb ∧ IsTypespec H n (.union sw cs) v ∧ f = "emitUnion" ∧ args = [.str nb, v]
  | .program p, f, args => ∃ v, IsProg H n p v ∧ f = "emitProg" ∧ args = [v]

theorem emit_defn {fl : Flags} (hfl : ∀ c ∈ fl.constType.toList, c.toNat < 128) {H : Nat → V} {n : Nat} {d : Defn} {f : String}
    {args : List V} (h : IsDefn H n d f args) :
    Ev fun k => WGives [] (wDefn fl d) (runOut fl.unsignedEnum (strBytes fl.constType) H n k f args) := by
  cases d with
  | const s v => obtain ⟨nb, vb, hn, hv, rfl, rfl⟩ := h; exact emit_const _ _ _ _ ⟨hfl, rfl⟩ hn hv
  | typedef d => obtain ⟨v, hv, rfl, rfl⟩ := h; exact emit_typedef _ _ _ _ hv
  | enum s items => obtain ⟨nb, l, vs, hn, hl, hv, rfl, rfl⟩ := h; exact emit_enum _ _ _ _ rfl hn hl hv
  | struct s ds => obtain ⟨nb, l, vs, hn, hl, hv, rfl, rfl⟩ := h; exact emit_struct _ _ _ _ hn hl hv
  | union s sw cs => obtain ⟨nb, v, hn, hv, rfl, rfl⟩ := h; exact emit_union _ _ _ _ hn hv
  | program p => obtain ⟨v, hv, rfl, rfl⟩ := h; exact emit_prog _ _ _ _ hv

/-- The outcome: this is printed and nothing that was there before is changed, or it panics. -/
def PrintsOut (ws : Option Writes) (st : St Log) (r : Except (Stop × St Log) (List V × St Log)) : Prop :=
  match ws with
  | some ws => ∃ l st', r = .ok ([], st') ∧ st'.world = st.world ++ l ∧ PrintsW ws l ∧ Over st st'
  | none => ∃ s, r = .error (.panic, s)

theorem run_defn {fl : Flags} (hfl : ∀ c ∈ fl.constType.toList, c.toNat < 128) {H : Nat → V} {n : Nat} {d : Defn} {f : String}
    {args : List V} (h : IsDefn H n d f args) : ∃ K, ∀ k, K ≤ k → ∀ grow loops st, Agrees H n st →
      PrintsOut (wDefn fl d) st (callN genProg (genExt fl grow loops) k (.fn "main" f) args st) := by
  obtain ⟨K, hK⟩ := emit_defn hfl h
  refine ⟨K, fun k hk grow loops st ha => ?_⟩
  have h1 := hK k hk
  have h2 := callN_sim (view := id) genProg (genExt fl grow loops) (outExt fl.unsignedEnum (strBytes fl.constType) H n)
    (fun f args st _ => printing_sim fl H n f args st) k (.fn "main" f) args st ha st rfl
  unfold PrintsOut
  cases hw : wDefn fl d with
  | none =>
    rw [hw] at h1
    rw [show pcallN _ _ _ _ _ (id st.world) = _ from congrFun h1 _] at h2
    obtain ⟨s, h2, _⟩ := h2
    exact ⟨s, h2⟩
  | some ws =>
    rw [hw] at h1
    obtain ⟨l, hl, h1⟩ := h1
    rw [show pcallN _ _ _ _ _ (id st.world) = _ from congrFun h1 _] at h2
    obtain ⟨a, st', e, hw, _, rfl, ho⟩ := h2
    exact ⟨l, st', e, hw, hl, ho⟩

end Verif.Lang
