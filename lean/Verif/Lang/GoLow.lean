/-
What Verif.Text.GoLower takes for a statement of Verif.Gen.Go, Verif.Lang.Parse reads as the statement of
Verif.Lang.GenCode.
-/
import Verif.Lang.GoDecl
import Verif.Lang.GenCode
import Verif.Text.GoLower

namespace Verif.Lang.Rd
open Verif.Text (Text GE GArgs GElts GFs GS GSs GCs GRes GMeth GD GFile gE gArgs gElts gFs gS gSs gCs gPs gRes gOpt gMeth gRecv gD gFile
  wE wArgs wElts wFs wS wSs wCs wOpt wRes wD wFile)
open Verif.Text (lowVal lowTy lowFs lowEx isXdr isXs isId isByte convPtr lowMax isBytes lowCall2 lowCall3 lowCall lowAssign isTooLarge convU64
  lowS lowSs lowBody lowCs lowW lowWs lowOptTy lowSig lowSigs lowReg lowRegs isState lowD lowDs Low)
open Verif.Lang.Text (valE tyG fieldsG tyE exG xdrE maxE xsE stmtG stmtsG casesG methG)
set_option linter.unusedSimpArgs false

theorem name_eq : Verif.Text.name = name := rfl

/-! ### Names -/

theorem nm0 : name t!"byte" = "byte" := by decide +kernel
theorem nm1 : name t!"v" = "v" := by decide +kernel
theorem nm2 : name t!"int" = "int" := by decide +kernel
theorem nm3 : name t!"uint32" = "uint32" := by decide +kernel
theorem nm4 : name t!"int32" = "int32" := by decide +kernel
theorem nm5 : name t!"uint64" = "uint64" := by decide +kernel
theorem nm6 : name t!"int64" = "int64" := by decide +kernel
theorem nm7 : name t!"bool" = "bool" := by decide +kernel
theorem nm8 : name t!"float32" = "float32" := by decide +kernel
theorem nm9 : name t!"float64" = "float64" := by decide +kernel
theorem nm10 : name t!"string" = "string" := by decide +kernel
theorem nm11 : name t!"xdr" = "xdr" := by decide +kernel
theorem nm12 : name t!"xs" = "xs" := by decide +kernel
theorem nm13 : name t!"nil" = "nil" := by decide +kernel
theorem nm14 : name t!"make" = "make" := by decide +kernel
theorem nm15 : name t!"new" = "new" := by decide +kernel
theorem nm16 : name t!"len" = "len" := by decide +kernel
theorem nm17 : name t!"XdrU32" = "XdrU32" := by decide +kernel
theorem nm18 : name t!"XdrS32" = "XdrS32" := by decide +kernel
theorem nm19 : name t!"XdrU64" = "XdrU64" := by decide +kernel
theorem nm20 : name t!"XdrS64" = "XdrS64" := by decide +kernel
theorem nm21 : name t!"XdrBool" = "XdrBool" := by decide +kernel
theorem nm22 : name t!"XdrArray" = "XdrArray" := by decide +kernel
theorem nm23 : name t!"XdrVarArray" = "XdrVarArray" := by decide +kernel
theorem nm24 : name t!"XdrString" = "XdrString" := by decide +kernel
theorem nm25 : name t!"Xdr" = "Xdr" := by decide +kernel
theorem nm26 : name t!"EncodingSetSize" = "EncodingSetSize" := by decide +kernel
theorem nm27 : name t!"SetError" = "SetError" := by decide +kernel
theorem nm28 : name t!"array too large" = "array too large" := by decide +kernel
theorem nm29 : name t!"Encoding" = "Encoding" := by decide +kernel
theorem nm30 : name t!"Decoding" = "Decoding" := by decide +kernel
theorem nm31 : name t!"XdrState" = "XdrState" := by decide +kernel
theorem nm32 : name t!"!=" = "!=" := by decide +kernel
theorem nm33 : name t!"<" = "<" := by decide +kernel
theorem nm34 : name t!">" = ">" := by decide +kernel

local macro "nms" "[" ls:Lean.Parser.Tactic.simpLemma,* "]" : tactic => `(tactic| simp only [name_eq, opL, nm0, nm1, nm2, nm3, nm4, nm5, nm6, nm7, nm8, nm9, nm10, nm11, nm12, nm13, nm14, nm15, nm16, nm17, nm18, nm19, nm20, nm21, nm22, nm23, nm24, nm25, nm26, nm27, nm28, nm29, nm30, nm31, nm32, nm33, nm34, $ls,*])

theorem isId_eq {e : GE} {s : List Nat} (h : isId e s = true) : e = .id s := by
  cases e <;> simp_all [isId]

theorem isByte_eq {e : GE} (h : isByte e = true) : e = .id t!"byte" := by
  cases e <;> simp_all [isByte]

theorem isXdr_eq {e : GE} {s : List Nat} (h : isXdr e s = true) : e = .sel (.id t!"xdr") s := by
  unfold isXdr at h
  split at h
  · simp_all
  · cases h

theorem isXs_eq {e : GE} {s : List Nat} (h : isXs e s = true) : e = .sel (.id t!"xs") s := by
  unfold isXs at h
  split at h
  · simp_all
  · cases h

theorem convPtr_eq {e t p : GE} (h : convPtr e = some (t, p)) : e = .call (.paren (.star t)) (.last p) := by
  unfold convPtr at h
  split at h
  · cases h; rfl
  · cases h

theorem isBytes_eq {e : GE} (h : isBytes e = true) : e = .slice (.id t!"byte") := by
  cases e <;> simp [isBytes] at h
  rw [isByte_eq h]

theorem convU64_eq {e a : GE} (h : convU64 e = some a) : e = .call (.id t!"uint64") (.last a) := by
  unfold convU64 at h
  split at h
  · split at h
    · rename_i h'
      cases h
      rw [isId_eq h']
    · cases h
  · cases h

/-! ### Types -/

theorem basicTy_eq {s : List Nat} {g : Gen.GoType} (h : Text.basicTy s = some g) : tyG g = .name (name s) := by
  unfold Text.basicTy at h
  repeat' split at h
  all_goals first | (rename_i e; cases h; rw [e]; nms [tyG]) | cases h

theorem lowVal_eq {e : GE} {v : Gen.Val} (h : lowVal e = some v) : okE e = true ∧ isSize e = true ∧ trE e = valE v ∧
    (∀ t, trArr e t = match v with | .lit n => .arr n t | .ident c => .arrc c t) := by
  cases e <;> simp only [lowVal] at h <;> first | (cases h; done) | skip
  · cases h; exact ⟨rfl, rfl, rfl, fun _ => rfl⟩
  · cases h; exact ⟨rfl, rfl, rfl, fun _ => rfl⟩

mutual
theorem lowTy_eq : ∀ (t : GE) {g : Gen.GoType}, lowTy t = some g → okE t = true ∧ trT t = tyG g
  | .id s, g, h => by
    rw [lowTy] at h
    refine ⟨rfl, ?_⟩
    split at h
    · rename_i t hb
      cases h
      rw [basicTy_eq hb]; rfl
    · cases h; rfl
  | .star t, g, h => by
    rw [lowTy] at h
    split at h
    · rename_i g' h'
      cases h
      obtain ⟨h1, h2⟩ := lowTy_eq t h'
      exact ⟨by rw [okE]; exact h1, by rw [trT, tyG, h2]⟩
    · cases h
  | .slice t, g, h => by
    rw [lowTy] at h
    split at h
    · rename_i hb
      cases h
      rw [isByte_eq hb]
      exact ⟨rfl, by nms [trT, tyG]⟩
    · split at h
      · rename_i g' h'
        cases h
        obtain ⟨h1, h2⟩ := lowTy_eq t h'
        exact ⟨by rw [okE]; exact h1, by rw [trT, tyG, h2]⟩
      · cases h
  | .array n t, g, h => by
    rw [lowTy] at h
    split at h
    · rename_i v hv
      obtain ⟨-, v1, -, v2⟩ := lowVal_eq hv
      split at h
      · rename_i hb
        cases h
        rw [isByte_eq hb]
        refine ⟨by rw [okE, v1]; rfl, ?_⟩
        rw [trT, v2]
        have : trT (.id t!"byte") = .name "byte" := by nms [trT]
        cases v <;> simp only [tyG, this]
      · split at h
        · rename_i g' h'
          cases h
          obtain ⟨h1, h2⟩ := lowTy_eq t h'
          refine ⟨by rw [okE, v1, h1]; rfl, ?_⟩
          rw [trT, v2, h2]
          cases v <;> simp only [tyG]
        · cases h
    · cases h
  | .struct fs, g, h => by
    rw [lowTy] at h
    split at h
    · rename_i f' h'
      cases h
      obtain ⟨h1, h2⟩ := lowFs_eq fs h'
      exact ⟨by rw [okE]; exact h1, by rw [trT, tyG, h2]⟩
    · cases h
  | .int _, _, h => by simp [lowTy] at h
  | .str _, _, h => by simp [lowTy] at h
  | .paren _, _, h => by simp [lowTy] at h
  | .sel _ _, _, h => by simp [lowTy] at h
  | .idx _ _, _, h => by simp [lowTy] at h
  | .slc _, _, h => by simp [lowTy] at h
  | .call _ _, _, h => by simp [lowTy] at h
  | .lit _ _, _, h => by simp [lowTy] at h
  | .addr _, _, h => by simp [lowTy] at h
  | .neg _, _, h => by simp [lowTy] at h
  | .bin _ _ _, _, h => by simp [lowTy] at h
theorem lowFs_eq : ∀ (fs : GFs) {g : Gen.GoFields}, lowFs fs = some g → okFs fs = true ∧ trFs fs = fieldsG g
  | .nil, g, h => by
    rw [lowFs] at h; cases h
    exact ⟨rfl, rfl⟩
  | .last f t, g, h => by
    rw [lowFs] at h
    split at h
    · rename_i g' h'
      cases h
      obtain ⟨h1, h2⟩ := lowTy_eq t h'
      exact ⟨by rw [okFs]; exact h1, by rw [trFs, fieldsG, fieldsG, h2]; rfl⟩
    · cases h
  | .cons f t fs, g, h => by
    rw [lowFs] at h
    split at h
    · rename_i g' l h' hl
      cases h
      obtain ⟨h1, h2⟩ := lowTy_eq t h'
      obtain ⟨h3, h4⟩ := lowFs_eq fs hl
      exact ⟨by rw [okFs, h1, h3]; rfl, by rw [trFs, fieldsG, h2, h4]; rfl⟩
    · cases h
end

def notPtr : Gen.GoType → Bool
  | .ptr _ => false
  | _ => true

/-- A type as an argument. -/
theorem lowTy_arg {t : GE} {g : Gen.GoType} (h : lowTy t = some g) (hp : notPtr g = true) : trE t = tyE (tyG g) := by
  have h2 := (lowTy_eq t h).2
  rw [← h2]
  cases t with
  | star t =>
    rw [lowTy] at h
    split at h
    · cases h; cases hp
    · cases h
  | id s => rfl
  | slice t => simp only [trE, trT, tyE]
  | array n t =>
    simp only [trE, trT]
    cases n <;> simp only [trArr, tyE] <;> simp [lowTy, lowVal] at h
  | struct fs => simp only [trE, trT, tyE]
  | _ => simp [lowTy] at h

/-! ### Expressions -/

theorem lowEx_eq : ∀ (e : GE) {x : Gen.Ex}, lowEx e = some x → okE e = true ∧ trE e = exG x
  | .id s, x, h => by
    rw [lowEx] at h
    refine ⟨rfl, ?_⟩
    split at h
    · rename_i e; cases h; rw [e]; nms [trE, exG]
    · cases h; rfl
  | .paren e, x, h => by
    rw [lowEx] at h
    obtain ⟨h1, h2⟩ := lowEx_eq e h
    exact ⟨by rw [okE]; exact h1, by rw [trE]; exact h2⟩
  | .addr e, x, h => by
    rw [lowEx] at h
    split at h
    · rename_i y h'
      cases h
      obtain ⟨h1, h2⟩ := lowEx_eq e h'
      exact ⟨by rw [okE]; exact h1, by rw [trE, exG, h2]⟩
    · cases h
  | .star e, x, h => by
    rw [lowEx] at h
    split at h
    · rename_i y h'
      cases h
      obtain ⟨h1, h2⟩ := lowEx_eq e h'
      exact ⟨by rw [okE]; exact h1, by rw [trE, exG, h2]⟩
    · cases h
  | .sel e f, x, h => by
    rw [lowEx] at h
    split at h
    · rename_i y h'
      cases h
      obtain ⟨h1, h2⟩ := lowEx_eq e h'
      exact ⟨by rw [okE]; exact h1, by rw [trE, exG, h2]; rfl⟩
    · cases h
  | .idx e i, x, h => by
    cases i with
    | id s =>
      rw [lowEx] at h
      split at h
      · rename_i y h'
        cases h
        obtain ⟨h1, h2⟩ := lowEx_eq e h'
        exact ⟨by rw [okE, h1]; rfl, by rw [trE, exG, h2]; rfl⟩
      · cases h
    | _ => simp [lowEx] at h
  | .int _, _, h => by simp [lowEx] at h
  | .str _, _, h => by simp [lowEx] at h
  | .slc _, _, h => by simp [lowEx] at h
  | .call _ _, _, h => by simp [lowEx] at h
  | .lit _ _, _, h => by simp [lowEx] at h
  | .neg _, _, h => by simp [lowEx] at h
  | .bin _ _ _, _, h => by simp [lowEx] at h
  | .slice _, _, h => by simp [lowEx] at h
  | .array _ _, _, h => by simp [lowEx] at h
  | .struct _, _, h => by simp [lowEx] at h

theorem lowMax_eq {e : GE} {m : Option Gen.Val} (h : lowMax e = some m) : okE e = true ∧ trE e = maxE m := by
  unfold lowMax at h
  split at h
  · split at h
    · rename_i hi
      rw [isId_eq hi]
      split at h <;> first | (cases h; done) | skip
      · cases h; exact ⟨rfl, by nms [trE, trArgs, maxE]⟩
      · cases h; exact ⟨rfl, by nms [trE, trArgs, maxE, valE]⟩
      · cases h; exact ⟨rfl, by nms [trE, trArgs, maxE, valE]⟩
    · cases h
  · cases h

theorem map_some {α β : Type} {f : α → β} {o : Option α} {b : β} (h : o.map f = some b) : ∃ a, o = some a ∧ b = f a := by
  cases o with
  | none => cases h
  | some a => exact ⟨a, rfl, (Option.some.inj h).symm⟩

/-! ### Statements -/

theorem lowCall2_eq {f a : GE} {p : Gen.Stmt} (h : lowCall2 f a = some p) :
    okS (.expr (.call f (.cons (.id t!"xs") (.last a)))) = true ∧ trS (.expr (.call f (.cons (.id t!"xs") (.last a)))) = stmtG p := by
  unfold lowCall2 at h
  split at h
  · rename_i hf
    rw [isXdr_eq hf]
    split at h
    · obtain ⟨x, hx, rfl⟩ := map_some h
      obtain ⟨h1, h2⟩ := lowEx_eq _ hx
      exact ⟨by simp [okS, okE, okArgs, argsNil, spine, h1], by nms [trS, trE, trArgs, stmtG, h2]⟩
    · cases h
  · split at h
    · rename_i t p' hc
      rw [convPtr_eq hc]
      repeat' split at h
      all_goals first
        | (cases h; done)
        | (rename_i hf
           rw [Bool.and_eq_true] at hf
           rw [isXdr_eq hf.1, isId_eq hf.2]
           obtain ⟨x, hx, rfl⟩ := map_some h
           obtain ⟨h1, h2⟩ := lowEx_eq _ hx
           exact ⟨by simp [okS, okE, okArgs, argsNil, spine, h1], by nms [trS, trE, trArgs, stmtG, xdrE, h2]⟩)
    · cases h

theorem lowCall3_eq {f m a : GE} {p : Gen.Stmt} (h : lowCall3 f m a = some p) :
    okS (.expr (.call f (.cons (.id t!"xs") (.cons m (.last a))))) = true ∧
      trS (.expr (.call f (.cons (.id t!"xs") (.cons m (.last a))))) = stmtG p := by
  unfold lowCall3 at h
  split at h
  · rename_i max t p' hm hc
    rw [convPtr_eq hc]
    obtain ⟨m1, m2⟩ := lowMax_eq hm
    split at h
    · rename_i hf
      rw [Bool.and_eq_true] at hf
      rw [isXdr_eq hf.1, isBytes_eq hf.2]
      obtain ⟨x, hx, rfl⟩ := map_some h
      obtain ⟨h1, h2⟩ := lowEx_eq _ hx
      exact ⟨by simp [okS, okE, okArgs, argsNil, spine, h1, m1], by nms [trS, trE, trT, trArgs, stmtG, xdrE, h2, m2]⟩
    · split at h
      · rename_i hf
        rw [Bool.and_eq_true] at hf
        rw [isXdr_eq hf.1, isId_eq hf.2]
        obtain ⟨x, hx, rfl⟩ := map_some h
        obtain ⟨h1, h2⟩ := lowEx_eq _ hx
        exact ⟨by simp [okS, okE, okArgs, argsNil, spine, h1, m1], by nms [trS, trE, trT, trArgs, stmtG, xdrE, h2, m2]⟩
      · cases h
  · cases h

theorem lowCall_eq {f : GE} {as : GArgs} {p : Gen.Stmt} (h : lowCall f as = some p) :
    okS (.expr (.call f as)) = true ∧ trS (.expr (.call f as)) = stmtG p := by
  unfold lowCall at h
  split at h
  · split at h
    · rename_i hx
      rw [isId_eq hx]
      exact lowCall2_eq h
    · split at h
      · split at h
        · rename_i hf
          rw [Bool.and_eq_true] at hf
          rw [isXs_eq hf.1, isId_eq hf.2]
          obtain ⟨x, hx, rfl⟩ := map_some h
          obtain ⟨h1, h2⟩ := lowEx_eq _ hx
          exact ⟨by simp [okS, okE, okArgs, argsNil, spine, h1], by nms [trS, trE, trT, trArgs, stmtG, xsE, h2]⟩
        · cases h
      · cases h
  · split at h
    · rename_i hx
      rw [isId_eq hx]
      exact lowCall3_eq h
    · cases h
  · split at h
    · split at h
      · rename_i hc
        rw [convPtr_eq hc]
        split at h
        · rename_i hf
          rw [Bool.and_eq_true, beq_iff_eq] at hf
          rw [isId_eq hf.1, hf.2]
          obtain ⟨x, hx, rfl⟩ := map_some h
          obtain ⟨h1, h2⟩ := lowEx_eq _ hx
          exact ⟨by simp [okS, okE, okArgs, argsNil, spine, h1], by nms [trS, trE, trT, trArgs, stmtG, xsE, h2]⟩
        · cases h
      · cases h
    · cases h
  · cases h

def isNilS : Gen.Stmts → Bool
  | .nil => true
  | _ => false

def isConsC : Gen.GoCases → Bool
  | .cons _ _ _ _ => true
  | _ => false

mutual
/-- As generated: a clause that falls through has nothing else and is not the last, and no pointer to a pointer is made. -/
def plS : Gen.Stmt → Bool
  | .block b => plSs b
  | .ifGt _ _ b => plSs b
  | .ifEncoding b => plSs b
  | .ifDecoding b => plSs b
  | .ifVar _ b => plSs b
  | .assignNew _ t => notPtr t
  | .forInt _ _ b => plSs b
  | .forU64 _ _ b => plSs b
  | .switch _ cs => plCs cs
  | _ => true
def plSs : Gen.Stmts → Bool
  | .nil => true
  | .cons s b => plS s && plSs b
def plCs : Gen.GoCases → Bool
  | .nil => true
  | .dflt b => plSs b
  | .cons _ b ft cs => (!ft || (isNilS b && isConsC cs)) && plSs b && plCs cs
end

theorem lowAssign_eq {a b : GE} {p : Gen.Stmt} (h : lowAssign a b = some p) (hp : plS p = true) :
    okS (.assign a b) = true ∧ trS (.assign a b) = stmtG p := by
  unfold lowAssign at h
  split at h
  · split at h
    · rename_i hf
      rw [isId_eq hf]
      split at h
      · rename_i hx hy
        cases h
        obtain ⟨h1, h2⟩ := lowEx_eq _ hx
        obtain ⟨h3, h4⟩ := lowTy_eq _ hy
        exact ⟨by simp [okS, okE, okArgs, argsNil, spine, h1, h3], by nms [trS, trE, trT, trArgs, stmtG, xsE, h2, h4]⟩
      · cases h
    · cases h
  · split at h
    · rename_i hf
      rw [isId_eq hf]
      split at h
      · rename_i hx hy
        cases h
        obtain ⟨h1, h2⟩ := lowEx_eq _ hx
        obtain ⟨h3, -⟩ := lowTy_eq _ hy
        have h4 := lowTy_arg hy (by rw [plS] at hp; exact hp)
        exact ⟨by simp [okS, okE, okArgs, argsNil, spine, h1, h3], by nms [trS, trE, trArgs, stmtG, xsE, h2, h4]⟩
      · cases h
    · cases h
  · cases h

theorem isTooLarge_eq {b : GSs} (h : isTooLarge b = true) :
    okSs b = true ∧ trSs b = [.expr (xsE "SetError" [.str "array too large"])] := by
  unfold isTooLarge at h
  split at h
  · rw [Bool.and_eq_true, beq_iff_eq] at h
    rw [isXs_eq h.1, h.2]
    exact ⟨by simp [okSs, okS, okE, okArgs, spine], by nms [trSs, trS, trE, trArgs, xsE]⟩
  · rw [Bool.and_eq_true, beq_iff_eq] at h
    rw [isXs_eq h.1, h.2]
    exact ⟨by simp [okSs, okS, okE, okArgs, spine], by nms [trSs, trS, trE, trArgs, xsE]⟩
  · cases h

theorem casesG_cons : ∀ {c : Gen.GoCases}, isConsC c = true → plCs c = true → ∃ ls r, (casesG c).1 = ls :: r
  | .cons l b ft cs, _, h => by
    rw [casesG]
    cases ft with
    | false => exact ⟨_, _, rfl⟩
    | true =>
      simp only [plCs, Bool.and_eq_true, Bool.not_true, Bool.false_or] at h
      obtain ⟨ls, r, h'⟩ := casesG_cons h.1.1.2 h.2
      rcases hc : casesG cs with ⟨x, y⟩
      rw [hc] at h'
      obtain rfl : x = ls :: r := h'
      exact ⟨_, _, rfl⟩
  | .nil, h, _ => by cases h
  | .dflt _, h, _ => by cases h

theorem lowBody_nil : lowBody .nil = some (.nil, false) := by rw [lowBody]

theorem lowBody_last {s : GS} (hs : s ≠ .fall) :
    lowBody (.last s) = match lowS s with | some x => some (.cons x .nil, false) | none => none := by
  rw [lowBody]
  · rfl
  · exact hs

theorem lowBody_cons {s : GS} (hs : s ≠ .fall) {b : GSs} :
    lowBody (.cons s b) = match lowS s, lowBody b with | some x, some (l, ft) => some (.cons x l, ft) | _, _ => none := by
  rw [lowBody]
  · rfl
  · exact fun h _ => hs h

theorem lowBody_fall {b : GSs} {r} (h : lowBody (.cons .fall b) = some r) : b = .nil ∧ r = (.nil, true) := by
  cases b with
  | nil => rw [lowBody] at h; exact ⟨rfl, (Option.some.inj h).symm⟩
  | last s =>
    rw [lowBody] at h
    · simp [lowS] at h
    · intro _ h; cases h
  | cons s b =>
    rw [lowBody] at h
    · simp [lowS] at h
    · intro _ h; cases h

mutual
theorem lowS_eq (s : GS) (w : wS s = true) {p : Gen.Stmt} (h : lowS s = some p) (hp : plS p = true) : okS s = true ∧ trS s = stmtG p := by
  cases s with
  | expr e =>
    cases e <;> simp only [lowS] at h <;> first | (cases h; done) | exact lowCall_eq h
  | assign a b => rw [lowS] at h; exact lowAssign_eq h hp
  | define x e =>
    cases e <;> try (simp [lowS] at h; done)
    rename_i o a n
    cases a <;> try (simp [lowS] at h; done)
    rename_i q
    rw [lowS] at h
    split at h
    · rename_i hn
      obtain ⟨y, hy, rfl⟩ := map_some h
      obtain ⟨h1, h2⟩ := lowEx_eq _ hy
      rw [hn.1, isId_eq hn.2]
      exact ⟨by simp [okS, okE, Text.isCmp, h1], by nms [trS, trE, stmtG, h2]⟩
    · cases h
  | var x t =>
    rw [lowS] at h
    split at h
    · rename_i hi
      cases h
      rw [isId_eq hi]
      exact ⟨rfl, by nms [trS, trT, stmtG]⟩
    · split at h
      · rename_i hi
        cases h
        rw [isId_eq hi]
        exact ⟨rfl, by nms [trS, trT, stmtG]⟩
      · cases h
  | block b =>
    rw [lowS] at h
    obtain ⟨l, hl, rfl⟩ := map_some h
    rw [wS] at w
    rw [plS] at hp
    obtain ⟨h1, h2⟩ := lowSs_eq b w hl hp
    exact ⟨by rw [okS]; exact h1, by rw [trS, stmtG, h2]⟩
  | ifThen c b =>
    rw [lowS.eq_def] at h
    rw [wS, Bool.and_eq_true] at w
    simp only at h
    split at h
    · obtain ⟨l, hl, rfl⟩ := map_some h
      rw [plS] at hp
      obtain ⟨h1, h2⟩ := lowSs_eq b w.2 hl hp
      exact ⟨by rw [okS, h1]; rfl, by nms [trS, stmtG, trE, h2]⟩
    · split at h
      · rename_i hi
        obtain ⟨l, hl, rfl⟩ := map_some h
        rw [plS] at hp
        obtain ⟨h1, h2⟩ := lowSs_eq b w.2 hl hp
        rw [isXs_eq hi]
        exact ⟨by simp [okS, okE, okArgs, h1], by nms [trS, stmtG, trE, trArgs, xsE, h2]⟩
      · split at h
        · rename_i hi
          obtain ⟨l, hl, rfl⟩ := map_some h
          rw [plS] at hp
          obtain ⟨h1, h2⟩ := lowSs_eq b w.2 hl hp
          rw [isXs_eq hi]
          exact ⟨by simp [okS, okE, okArgs, h1], by nms [trS, stmtG, trE, trArgs, xsE, h2]⟩
        · cases h
    · cases h
  | ifElse c b b' =>
    rw [lowS.eq_def] at h
    simp only [wS, Bool.and_eq_true] at w
    simp only at h
    split at h
    · split at h
      · rename_i hi
        split at h
        · rename_i v l hv hl
          cases h
          rw [plS] at hp
          obtain ⟨h1, h2⟩ := lowSs_eq b' w.2 hl hp
          obtain ⟨h3, h4⟩ := isTooLarge_eq hi.2
          obtain ⟨h5, -, h6, -⟩ := lowVal_eq hv
          rw [hi.1]
          exact ⟨by simp [okS, okE, Text.isCmp, h1, h3, h5], by nms [trS, stmtG, trE, h2, h4, h6]⟩
        · cases h
      · cases h
    · cases h
  | forInc x a c y b =>
    rw [lowS.eq_def] at h
    simp only [wS, Bool.and_eq_true] at w
    simp only at h
    split at h
    · split at h
      · rename_i hi
        obtain ⟨rfl, rfl, rfl⟩ := hi
        split at h
        · split at h
          · rename_i v l hv hl
            cases h
            rw [plS] at hp
            obtain ⟨h1, h2⟩ := lowSs_eq b w.2 hl hp
            obtain ⟨h5, -, h6, -⟩ := lowVal_eq hv
            exact ⟨by simp [okS, okE, isInit, Text.isCmp, h1, h5], by nms [trS, stmtG, trE, h2, h6]⟩
          · cases h
        · split at h
          · rename_i n l ha hm hl
            cases h
            rw [plS] at hp
            obtain ⟨h1, h2⟩ := lowSs_eq b w.2 hl hp
            rw [convU64_eq ha, convU64_eq hm]
            exact ⟨by simp [okS, okE, okArgs, isInit, Text.isCmp, h1], by nms [trS, stmtG, trE, trArgs, h2]⟩
          · cases h
      · cases h
    · cases h
  | switch e cs =>
    rw [lowS] at h
    rw [wS, Bool.and_eq_true] at w
    split at h
    · rename_i hx hc
      cases h
      rw [plS] at hp
      obtain ⟨h1, h2⟩ := lowEx_eq _ hx
      obtain ⟨h3, h4⟩ := lowCs_eq cs w.2 hc hp
      exact ⟨by rw [okS, h1, h3]; rfl, by rw [trS, stmtG, h2, h4.1, h4.2]⟩
    · cases h
  | _ => simp [lowS] at h
termination_by (sizeOf s, 1)
theorem lowSs_eq (b : GSs) (w : wSs b = true) {p : Gen.Stmts} (h : lowSs b = some p) (hp : plSs p = true) : okSs b = true ∧ trSs b = stmtsG p := by
  cases b with
  | nil => rw [lowSs] at h; cases h; exact ⟨rfl, rfl⟩
  | last s =>
    rw [lowSs] at h
    rw [wSs] at w
    split at h
    · rename_i x hx
      cases h
      simp only [plSs, Bool.and_true] at hp
      obtain ⟨h1, h2⟩ := lowS_eq s w hx hp
      exact ⟨by rw [okSs]; exact h1, by rw [trSs, stmtsG, stmtsG, h2]⟩
    · cases h
  | cons s b =>
    rw [lowSs] at h
    rw [wSs, Bool.and_eq_true] at w
    split at h
    · rename_i x l hx hl
      cases h
      rw [plSs, Bool.and_eq_true] at hp
      obtain ⟨h1, h2⟩ := lowS_eq s w.1 hx hp.1
      obtain ⟨h3, h4⟩ := lowSs_eq b w.2 hl hp.2
      exact ⟨by rw [okSs, h1, h3]; rfl, by rw [trSs, stmtsG, h2, h4]⟩
    · cases h
termination_by (sizeOf b, 1)
theorem lowBody_eq (b : GSs) (w : wSs b = true) {p : Gen.Stmts} {ft : Bool} (h : lowBody b = some (p, ft)) (hp : plSs p = true)
    (hf : ft = true → isNilS p = true) :
    if ft then b = .last .fall ∨ b = .cons .fall .nil else okSs b = true ∧ trSs b = stmtsG p ∧ isFall b = false := by
  cases b with
  | nil => rw [lowBody] at h; cases h; exact ⟨rfl, rfl, rfl⟩
  | last s =>
    rw [wSs] at w
    by_cases hs : s = .fall
    · subst hs
      rw [lowBody] at h
      cases h
      exact .inl rfl
    · rw [lowBody_last hs] at h
      split at h
      · rename_i x hx
        cases h
        simp only [plSs, Bool.and_true] at hp
        obtain ⟨h1, h2⟩ := lowS_eq s w hx hp
        exact ⟨by rw [okSs]; exact h1, by rw [trSs, stmtsG, stmtsG, h2], rfl⟩
      · cases h
  | cons s b =>
    rw [wSs, Bool.and_eq_true] at w
    by_cases hs : s = .fall
    · subst hs
      obtain ⟨rfl, e⟩ := lowBody_fall h
      cases e
      exact .inr rfl
    · rw [lowBody_cons hs] at h
      split at h
      · rename_i x l ft' hx hl
        cases h
        cases ft with
        | true => cases hf rfl
        | false =>
          rw [plSs, Bool.and_eq_true] at hp
          obtain ⟨h1, h2⟩ := lowS_eq s w.1 hx hp.1
          obtain ⟨h3, h4, -⟩ := lowBody_eq b w.2 hl hp.2 (by simp)
          exact ⟨by rw [okSs, h1, h3]; rfl, by rw [trSs, stmtsG, h2, h4], by cases s <;> first | exact absurd rfl hs | rfl⟩
      · cases h
termination_by (sizeOf b, 1)
theorem lowCs_eq (cs : GCs) (w : wCs cs = true) {p : Gen.GoCases} (h : lowCs cs = some p) (hp : plCs p = true) :
    okCs cs = true ∧ (trCs cs).map (·.1) = (casesG p).1 ∧ (trCs cs).map (·.2) = (casesG p).2 := by
  cases cs with
  | nil => rw [lowCs] at h; cases h; exact ⟨rfl, rfl, rfl⟩
  | case e b cs =>
    rw [lowCs] at h
    simp only [wCs, Bool.and_eq_true] at w
    split at h
    · rename_i v l ft c hv hb hc
      cases h
      simp only [plCs, Bool.and_eq_true] at hp
      obtain ⟨h5, -, h6, -⟩ := lowVal_eq hv
      obtain ⟨h7, h8, h9⟩ := lowCs_eq cs w.2 hc hp.2
      have hq := lowBody_eq b w.1.1.2 hb hp.1.2 (by
        intro e
        simp only [e, Bool.not_true, Bool.false_or, Bool.and_eq_true] at hp
        exact hp.1.1.1)
      cases ft with
      | false =>
        obtain ⟨h1, h2, h3⟩ := hq
        refine ⟨by simp [okCs, h5, h3, h1, h7], ?_, ?_⟩
        · simp [trCs, h3, casesG, h6, h8]
        · simp [trCs, h3, casesG, h2, h9]
      | true =>
        simp only [Bool.not_true, Bool.false_or, Bool.and_eq_true] at hp
        have hcs : isCase cs = true := by
          cases cs with
          | case _ _ _ => rfl
          | nil => rw [lowCs] at hc; cases hc; cases hp.1.1.2
          | default b cs =>
            cases cs with
            | nil =>
              rw [lowCs] at hc
              obtain ⟨l, -, rfl⟩ := map_some hc
              cases hp.1.1.2
            | _ => simp [lowCs] at hc
        have hb' : b = .cons .fall .nil := by
          rcases hq with rfl | rfl
          · have := w.1.2
            cases cs <;> first | (cases hcs; done) | (simp [Text.GSs.closed, Text.GCs.isNil] at this)
          · rfl
        subst hb'
        obtain ⟨ls, r, hl⟩ := casesG_cons hp.1.1.2 hp.2
        rcases hc' : casesG c with ⟨x, y⟩
        rw [hc'] at hl h8 h9
        obtain rfl : x = ls :: r := hl
        refine ⟨by simp [okCs, h5, isFall, hcs, h7], ?_⟩
        cases ht : trCs cs with
        | nil => rw [ht] at h8; cases h8
        | cons z t =>
          rw [ht] at h8 h9
          simp only [List.map_cons, List.cons.injEq] at h8
          simp only [trCs, isFall, ht, casesG, hc', if_true, List.map_cons, h6, h8.1, h8.2]
          exact ⟨trivial, h9⟩
    · cases h
  | default b cs =>
    cases cs with
    | nil =>
      rw [lowCs] at h
      obtain ⟨l, hl, rfl⟩ := map_some h
      simp only [wCs, Bool.and_eq_true] at w
      rw [plCs] at hp
      obtain ⟨h1, h2⟩ := lowSs_eq b w.1.1 hl hp
      exact ⟨by simp [okCs, h1], by simp [trCs, casesG], by simp [trCs, casesG, h2]⟩
    | _ => simp [lowCs] at h
termination_by (sizeOf cs, 1)
end

end Verif.Lang.Rd
