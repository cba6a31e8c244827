/-
The package that Verif.Lang reads in files that declare a generated package (in the sense of Verif.Text.GoLower) has
the text of that package.
-/
import Mathlib.Data.List.Nodup
import Verif.Lang.GoPlain
import Verif.Lang.GoLex
import Verif.Lang.GenLink
import Verif.Lang.WrapCode
import Verif.Spec.GoStatic

namespace Verif.Lang.Rd
open Verif.Text (Text GE GArgs GElts GFs GS GSs GCs GRes GMeth GD GFile gE gArgs gElts gFs gS gSs gCs gPs gRes gOpt gMeth gRecv gD gFile
  wE wArgs wElts wFs wS wSs wCs wOpt wRes wD wFile)
open Verif.Text (lowVal lowTy lowFs lowEx isXdr isXs isId isByte convPtr lowMax isBytes lowCall2 lowCall3 lowCall lowAssign isTooLarge convU64
  lowS lowSs lowBody lowCs lowW lowWs lowOptTy lowSig lowSigs lowReg lowRegs isState lowD lowDs Low)
open Verif.Lang.Text (valE tyG fieldsG tyE exG xdrE maxE xsE stmtG stmtsG casesG methG IsText wstmtG wrapF wrapG regT regE regsW regsF regsG HasVers)
set_option linter.unusedSimpArgs false

/-! ### Wrappers and tables are read -/

theorem lowH_ok {e : GE} {m : List Nat} {as : GArgs} {a : Bool} {x : Gen.WStmt} (h : lowW.lowH e m as a = some x) :
    okE (.call (.sel e m) as) = true ∧ spine (.call (.sel e m) as) = true ∧ ∃ g, x = .callH (name m) a g ∧
      trE (.call (.sel e m) as) = .call (.sel (.sel (.id "w") "h") (name m)) (if g then [.id "in"] else []) false := by
  unfold lowW.lowH at h
  split at h
  · split at h
    · rename_i hi
      rw [Bool.and_eq_true, beq_iff_eq] at hi
      rw [isId_eq hi.1, hi.2]
      cases h
      exact ⟨rfl, rfl, false, by rw [name_eq], rfl⟩
    · cases h
  · split at h
    · rename_i hi
      simp only [Bool.and_eq_true, beq_iff_eq] at hi
      rw [isId_eq hi.1.1, isId_eq hi.2, hi.1.2]
      cases h
      exact ⟨rfl, rfl, true, by rw [name_eq], rfl⟩
    · cases h
  · cases h

theorem lowW_ok {s : GS} {x : Gen.WStmt} (h : lowW s = some x) : okS s = true ∧ trS s = wstmtG x := by
  unfold lowW at h
  split at h
  · split at h
    · rename_i hx
      obtain ⟨g, hg, rfl⟩ := map_some h
      obtain ⟨h1, h2⟩ := lowTy_eq _ hg
      rw [okS, trS, h2, hx]; exact ⟨h1, rfl⟩
    · split at h
      · rename_i hx
        split at h
        · rename_i hv
          cases h
          rw [isXdr_eq hv, hx]; exact ⟨rfl, rfl⟩
        · obtain ⟨g, hg, rfl⟩ := map_some h
          obtain ⟨h1, h2⟩ := lowTy_eq _ hg
          rw [okS, trS, h2, hx]; exact ⟨h1, rfl⟩
      · cases h
  · split at h
    · rename_i hi
      rw [Bool.and_eq_true, beq_iff_eq] at hi
      rw [isId_eq hi.1, hi.2]
      split at h
      · split at h
        · rename_i hx
          cases h
          rw [isId_eq hx]; exact ⟨rfl, rfl⟩
        · cases h
      · cases h
    · obtain ⟨h1, h2, g, rfl, h3⟩ := lowH_ok h
      rw [okS, h1, h2, trS, h3]; exact ⟨rfl, rfl⟩
  · split at h
    · rename_i hi
      rw [isId_eq hi]
      split at h
      · split at h
        · rename_i hx
          rw [Bool.and_eq_true, beq_iff_eq] at hx
          cases h
          rw [isId_eq hx.1, hx.2]; exact ⟨rfl, rfl⟩
        · cases h
      · cases h
    · split at h
      · rename_i hi
        obtain ⟨h1, h2, g, rfl, h3⟩ := lowH_ok h
        rw [isId_eq hi, okS, h1, trS, h3]; exact ⟨rfl, rfl⟩
      · cases h
  · split at h
    · rename_i hi
      cases h
      rw [hi.1, isId_eq hi.2.1, isId_eq hi.2.2]; exact ⟨rfl, rfl⟩
    · cases h
  · split at h
    · rename_i hi
      cases h
      rw [hi.1, isId_eq hi.2.1, isId_eq hi.2.2]; exact ⟨rfl, rfl⟩
    · cases h
  · split at h
    · rename_i hi
      rw [Bool.and_eq_true] at hi
      cases h
      rw [isId_eq hi.1, isId_eq hi.2]; exact ⟨rfl, rfl⟩
    · cases h
  · cases h

theorem lowWs_ok : ∀ (b : GSs) {l : List Gen.WStmt}, lowWs b = some l → okSs b = true ∧ trSs b = l.map wstmtG
  | .nil, l, h => by rw [lowWs] at h; cases h; exact ⟨rfl, rfl⟩
  | .last s, l, h => by
    rw [lowWs] at h
    split at h
    · rename_i hx
      cases h
      rw [okSs, trSs]; exact ⟨(lowW_ok hx).1, by rw [(lowW_ok hx).2]; rfl⟩
    · cases h
  | .cons s b, l, h => by
    rw [lowWs] at h
    split at h
    · rename_i hx hl
      cases h
      rw [okSs, (lowW_ok hx).1, (lowWs_ok b hl).1, trSs, (lowW_ok hx).2, (lowWs_ok b hl).2]; exact ⟨rfl, rfl⟩
    · cases h

theorem lowOptTy_ok {o : Option GE} {g : Option Gen.GoType} (h : lowOptTy o = some g) : o.all okE = true := by
  cases o with
  | none => rfl
  | some t =>
    rw [lowOptTy] at h
    split at h
    · rename_i hg
      exact (lowTy_eq _ hg).1
    · cases h

theorem lowSigs_ok : ∀ (ms : List GMeth) {l : List Gen.GoSig}, lowSigs ms = some l → (ms.all fun m => m.arg.all okE && m.res.all okE) = true
  | [], _, _ => rfl
  | m :: ms, l, h => by
    rw [lowSigs] at h
    split at h
    · rename_i x l hx hl
      unfold lowSig at hx
      split at hx
      · rename_i ha hr
        simp only [List.all_cons, lowOptTy_ok ha, lowOptTy_ok hr, lowSigs_ok ms hl, Bool.and_self]
      · cases hx
    · cases h

theorem lowRegs_ok : ∀ (es : GElts) {l : List Gen.GoReg}, lowRegs es = some l → okElts es = true
  | .nil, _, _ => rfl
  | .cons e es, l, h => by
    rw [lowRegs] at h
    split at h
    · rename_i x l hx hl
      rw [okElts, lowRegs_ok es hl, Bool.and_true]
      unfold lowReg at hx
      split at hx
      · split at hx
        · rename_i hi
          simp only [Bool.and_eq_true] at hi
          rw [isXdr_eq hi.1.1.1.1.1, isId_eq hi.2]; rfl
        · cases hx
      · cases hx
    · cases h
  | .last _, _, h => by simp [lowRegs] at h
  | .lastKey _ _, _, h => by simp [lowRegs] at h
  | .consKey _ _ _, _, h => by simp [lowRegs] at h

/-! ### What has been declared -/

/-- The types declared for a version. -/
def versTys (v : Gen.GoVers) : List String := v.iface :: if v.wrapperType = "" then [] else [v.wrapperType]

/-- The methods declared for a version. -/
def versMeths (v : Gen.GoVers) : List (String × String) := v.wrappers.map fun w => (w.recv, w.name)

def Low.all (st : Low) : List Gen.GoVers := st.vers ++ st.cur.toList

def constL (c : Gen.GoConst) : String × Option Ty × Expr := (c.name, if c.ty = "" then none else some (.name c.ty), valE c.val)

/-- These declarations have been read. -/
structure Rel (ts : List Top) (st : Low) : Prop where
  consts : ts.filterMap Top.const? = st.prog.consts.map constL
  types : ∀ n t, (n, t) ∈ st.prog.types → (n, tyG t) ∈ ts.filterMap Top.typ?
  meths : ∀ n b, (n, b) ∈ st.prog.methods → ((n, "Xdr"), methG n (stmtsG b)) ∈ ts.filterMap Top.meth?
  wraps : ∀ v ∈ Low.all st, ∀ w ∈ v.wrappers, ((w.recv, w.name), wrapG w) ∈ ts.filterMap Top.meth?
  tnames : ∀ x, ((ts.filterMap Top.typ?).map Prod.fst).count x = (st.prog.types.map (·.1)).count x + ((Low.all st).flatMap versTys).count x
  mnames : ∀ x, ((ts.filterMap Top.meth?).map Prod.fst).count x =
    (st.prog.methods.map fun p => (p.1, "Xdr")).count x + ((Low.all st).flatMap versMeths).count x

/-- The same for registration functions, and the types of the wrappers. -/
structure RelR (ts : List Top) (st : Low) : Prop where
  ifaces : ∀ v ∈ Low.all st, (v.iface, Ty.iface) ∈ ts.filterMap Top.typ?
  wtys : ∀ v ∈ Low.all st, v.wrapperType ≠ "" → (v.wrapperType, Ty.struct [("h", .name v.wrapperField)]) ∈ ts.filterMap Top.typ?
  regs : ∀ v ∈ st.vers, (v.regsName, regsG v) ∈ ts.filterMap Top.func?
  fnames : (ts.filterMap Top.func?).map Prod.fst = st.vers.map (·.regsName)

/-- The type of a constant has a name. -/
def constOk : GD → Bool
  | .const _ (some (.id s)) _ => !s.isEmpty
  | _ => true

theorem name_nil {s : List Nat} (h : s ≠ []) : name s ≠ "" := by
  cases s with
  | nil => exact absurd rfl h
  | cons c s =>
    intro e
    have := congrArg String.toList e
    simp [name] at this

theorem isState_eq {e : GE} (h : isState e = true) : e = .star (.sel (.id t!"xdr") t!"XdrState") := by
  cases e <;> simp only [isState] at h <;> first | (cases h; done) | rw [isXdr_eq h]

theorem lowD_mono {st st' : Low} {d : GD} (h : lowD st d = some st') : ∀ m ∈ st.prog.methods, m ∈ st'.prog.methods := by
  intro m hm
  unfold lowD at h
  repeat' split at h
  all_goals first | (cases h; done) | (cases h; simp [Gen.GoProg.append, hm])

theorem lowD_rel {ts : List Top} {st st' : Low} {d : GD} (R : Rel ts st) (w : wD d = true) (k : constOk d = true)
    (h : lowD st d = some st') (hp : ∀ m ∈ st'.prog.methods, plSs m.2 = true) : okD d = true ∧ Rel (ts ++ [trD d]) st' := by
  cases d with
  | const n t v =>
    simp only [lowD] at h
    split at h
    · rename_i x hx
      obtain ⟨h1, -, h2, -⟩ := lowVal_eq hx
      have key : ∀ s : String, trD (.const n t v) = .const (name n) (if s = "" then none else some (.name s)) (valE x) →
          Rel (ts ++ [trD (.const n t v)]) { st with prog := st.prog.append ⟨[⟨name n, s, x⟩], [], []⟩ } := by
        intro s e
        rw [e]
        constructor
        · simp [Gen.GoProg.append, Top.const?, R.consts, constL]
        · intro n t h
          simp only [Gen.GoProg.append, List.append_nil] at h
          simp [Top.typ?, R.types n t h]
        · intro n b h
          simp only [Gen.GoProg.append, List.append_nil] at h
          simp [Top.meth?, R.meths n b h]
        · intro v hv w hw
          simp [Top.meth?, R.wraps v (by simpa [Low.all] using hv) w hw]
        · intro x
          have := R.tnames x
          simpa [Gen.GoProg.append, Top.typ?, List.filterMap_cons, Low.all] using this
        · intro x
          have := R.mnames x
          simpa [Gen.GoProg.append, Top.meth?, List.filterMap_cons, Low.all] using this
      split at h
      · cases h
        exact ⟨by simp [okD, h1], key "" (by simp [trD, h2])⟩
      · rename_i s
        cases h
        refine ⟨by simp [okD, h1, okE], key _ ?_⟩
        have : name s ≠ "" := name_nil (by simpa [constOk] using k)
        rw [name_eq]
        simp [trD, h2, trT, this]
      · cases h
    · cases h
  | type n t =>
    simp only [lowD] at h
    split at h
    · rename_i hcur
      split at h
      · rename_i g hg
        obtain ⟨h1, h2⟩ := lowTy_eq t hg
        cases h
        refine ⟨by rw [okD]; exact h1, ?_⟩
        have e : trD (.type n t) = .typ (name n) (tyG g) := by rw [trD, h2]
        rw [e]
        constructor
        · simp [Gen.GoProg.append, Top.const?, R.consts]
        · intro m t h
          simp only [Gen.GoProg.append, List.mem_append, List.mem_singleton] at h
          rcases h with h | h
          · simp [Top.typ?, R.types m t h]
          · cases h; simp [Top.typ?, name_eq]
        · intro n b h
          simp only [Gen.GoProg.append, List.append_nil] at h
          simp [Top.meth?, R.meths n b h]
        · intro v hv w hw
          simp [Top.meth?, R.wraps v (by simpa [Low.all] using hv) w hw]
        · intro x
          have := R.tnames x
          simp [Gen.GoProg.append, Top.typ?, List.filterMap_cons, Low.all, List.count_append, hcur, name_eq] at this ⊢
          omega
        · intro x
          have := R.mnames x
          simpa [Gen.GoProg.append, Top.meth?, List.filterMap_cons, Low.all] using this
      · cases h
    · rename_i c hcur
      split at h
      · rename_i f s
        split at h
        · rename_i hi
          cases h
          refine ⟨rfl, ?_⟩
          have e : trD (.type n (.struct (.cons f (.id s) .nil))) = .typ (name n) (.struct [(name f, .name (name s))]) := by
            simp only [trD, trT, trFs]
          rw [e]
          constructor
          · simp [Top.const?, R.consts]
          · intro m t h
            simp [Top.typ?, R.types m t h]
          · intro n b h
            simp [Top.meth?, R.meths n b h]
          · intro v hv w hw
            simp only [Low.all, Option.toList_some, List.mem_append, List.mem_singleton] at hv
            rcases hv with hv | rfl
            · simp [Top.meth?, R.wraps v (by simp [Low.all, hv]) w hw]
            · simp [Top.meth?, R.wraps c (by simp [Low.all, hcur]) w hw]
          · intro x
            have := R.tnames x
            simp [Top.typ?, List.filterMap_cons, Low.all, List.count_append, hcur, name_eq, versTys, hi.2.1, name_nil hi.2.2, List.count_cons] at this ⊢
            omega
          · intro x
            have := R.mnames x
            simpa [Top.meth?, List.filterMap_cons, Low.all, hcur, versMeths] using this
        · cases h
      · cases h
  | iface n ms =>
    simp only [lowD] at h
    split at h
    · rename_i sigs hcur hs
      cases h
      refine ⟨by rw [okD]; exact lowSigs_ok ms hs, ?_⟩
      have e : trD (.iface n ms) = .typ (name n) .iface := rfl
      rw [e]
      constructor
      · simp [Top.const?, R.consts]
      · intro m t h
        simp [Top.typ?, R.types m t h]
      · intro n b h
        simp [Top.meth?, R.meths n b h]
      · intro v hv w hw
        simp only [Low.all, Option.toList_some, List.mem_append, List.mem_singleton] at hv
        rcases hv with hv | rfl
        · simp [Top.meth?, R.wraps v (by simp [Low.all, hv]) w hw]
        · cases hw
      · intro x
        have := R.tnames x
        simp [Top.typ?, List.filterMap_cons, Low.all, List.count_append, hcur, name_eq, versTys, List.count_cons] at this ⊢
        omega
      · intro x
        have := R.mnames x
        simpa [Top.meth?, List.filterMap_cons, Low.all, hcur, versMeths] using this
    · cases h
  | func r n ps res b =>
    unfold lowD at h
    split at h <;> rename_i he <;> try (cases he; done)
    · rename_i r0 t n0 p0 pt0 res0 b0
      cases he
      split at h
      · rename_i hst
        rw [isState_eq hst]
        split at h
        · split at h
          · rename_i hi
            obtain ⟨rfl, rfl, rfl⟩ := hi
            split at h
            · rename_i body hb
              cases h
              simp only [wD, Bool.and_eq_true] at w
              obtain ⟨h1, h2⟩ := lowSs_eq b (by simp [w]) hb (hp (Text.name t, body) (by simp [Gen.GoProg.append]))
              refine ⟨by simp [okD, okE, okRes, h1], ?_⟩
              have e : trD (.func (some (t!"v", .star (.id t))) t!"Xdr" [(t!"xs", .star (.sel (.id t!"xdr") t!"XdrState"))] .none b) =
                  .func (methG (name t) (stmtsG body)) := by
                simp only [trD, Option.map_some, trP, trT, List.map_cons, List.map_nil, trRes, h2]
                rfl
              rw [e]
              constructor
              · simp [Gen.GoProg.append, Top.const?, R.consts]
              · intro n t h
                simp only [Gen.GoProg.append, List.append_nil] at h
                simp [Top.typ?, R.types n t h]
              · intro n b h
                simp only [Gen.GoProg.append, List.mem_append, List.mem_singleton] at h
                rcases h with h | h
                · simp [Top.meth?, R.meths n b h]
                · cases h; simp [Top.meth?, name_eq, methG, recvName]
              · intro v hv w hw
                simp [Top.meth?, R.wraps v (by simpa [Low.all] using hv) w hw]
              · intro x
                have := R.tnames x
                simpa [Gen.GoProg.append, Top.typ?, List.filterMap_cons, Low.all] using this
              · intro x
                have := R.mnames x
                simp [Gen.GoProg.append, Top.meth?, List.filterMap_cons, Low.all, methG, recvName, name_eq, List.count_cons] at this ⊢
                omega
            · cases h
          · cases h
        · rename_i r1 t1 r2 t2
          split at h
          · rename_i hi
            obtain ⟨rfl, rfl, rfl, h1, rfl, h2⟩ := hi
            rw [isXdr_eq h1, isId_eq h2]
            split at h
            · rename_i c body hcur hb
              cases h
              refine ⟨by simp [okD, okE, okRes, (lowWs_ok b hb).1], ?_⟩
              constructor
              · simp [Top.const?, trD, R.consts]
              · intro n t h
                simp [Top.typ?, trD, R.types n t h]
              · intro n b h
                simp [Top.meth?, trD, R.meths n b h]
              · intro v hv w hw
                simp only [Low.all, Option.toList_some, List.mem_append, List.mem_singleton] at hv
                rcases hv with hv | rfl
                · simp [Top.meth?, trD, R.wraps v (by simp [Low.all, hv]) w hw]
                · simp only [List.mem_append, List.mem_singleton] at hw
                  rcases hw with hw | rfl
                  · simp [Top.meth?, trD, R.wraps c (by simp [Low.all, hcur]) w hw]
                  · have e : trD (.func (some (t!"w", .star (.id t))) n [(t!"args", .star (.sel (.id t!"xdr") t!"XdrState"))]
                        (.named [(t!"res", .sel (.id t!"xdr") t!"Xdrable"), (t!"err", .id t!"error")]) b) = .func (wrapG ⟨name t, name n, body⟩) := by
                      simp only [trD, Option.map_some, trP, trT, List.map_cons, List.map_nil, trRes, (lowWs_ok b hb).2]
                      rfl
                    rw [e]
                    simp [Top.meth?, wrapG, wrapF, recvName, name_eq]
              · intro x
                have := R.tnames x
                simpa [trD, Top.typ?, List.filterMap_cons, Low.all, hcur, versTys] using this
              · intro x
                have := R.mnames x
                simp [trD, trP, trT, Top.meth?, List.filterMap_cons, Low.all, hcur, versMeths, recvName, name_eq, List.count_cons] at this ⊢
                omega
            · cases h
          · cases h
        · cases h
      · cases h
    · cases he
      split at h
      · rename_i hi
        obtain ⟨rfl, h1, h2, rfl, h3⟩ := hi
        rw [isXdr_eq h1, isXdr_eq h2, isId_eq h3]
        split at h
        · rename_i c regs hcur hb
          cases h
          refine ⟨by simp [okD, okE, okRes, okSs, okS, okElts, lowRegs_ok _ hb], ?_⟩
          constructor
          · simp [Top.const?, trD, R.consts]
          · intro n t h
            simp [Top.typ?, trD, R.types n t h]
          · intro n b h
            simp [Top.meth?, trD, R.meths n b h]
          · intro v hv w hw
            simp only [Low.all, Option.toList_none, List.append_nil, List.mem_append, List.mem_singleton] at hv
            rcases hv with hv | rfl
            · simp [Top.meth?, trD, R.wraps v (by simp [Low.all, hv]) w hw]
            · simp [Top.meth?, trD, R.wraps c (by simp [Low.all, hcur]) w hw]
          · intro x
            have := R.tnames x
            simpa [trD, Top.typ?, List.filterMap_cons, Low.all, hcur, versTys] using this
          · intro x
            have := R.mnames x
            simpa [trD, Top.meth?, List.filterMap_cons, Low.all, hcur, versMeths] using this
        · cases h
      · cases h
    · cases h

theorem lowRegs_eq : ∀ (es : GElts) {l : List Gen.GoReg}, lowRegs es = some l →
    trElts es = l.map fun r => ("", regE r (.sel (.id "w") r.handler))
  | .nil, _, h => by rw [lowRegs] at h; cases h; rfl
  | .cons e es, l, h => by
    rw [lowRegs] at h
    split at h
    · rename_i x l hx hl
      cases h
      rw [trElts, lowRegs_eq es hl, List.map_cons]
      unfold lowReg at hx
      split at hx
      · split at hx
        · rename_i hi
          simp only [Bool.and_eq_true, beq_iff_eq] at hi
          obtain ⟨⟨⟨⟨⟨h1, rfl⟩, rfl⟩, rfl⟩, rfl⟩, h2⟩ := hi
          rw [isXdr_eq h1, isId_eq h2]
          cases hx
          rfl
        · cases hx
      · cases hx
    · cases h
  | .last _, _, h => by simp [lowRegs] at h
  | .lastKey _ _, _, h => by simp [lowRegs] at h
  | .consKey _ _ _, _, h => by simp [lowRegs] at h

/-- A declaration that changes neither the versions nor the functions. -/
theorem RelR.same {ts : List Top} {st st' : Low} {t : Top} (R : RelR ts st) (h : st'.vers = st.vers) (h' : st'.cur = st.cur) (hf : t.func? = none) :
    RelR (ts ++ [t]) st' := by
  have e : Low.all st' = Low.all st := by rw [Low.all, Low.all, h, h']
  constructor
  · rw [e]; exact fun v hv => by rw [List.filterMap_append]; exact List.mem_append_left _ (R.ifaces v hv)
  · rw [e]; exact fun v hv hn => by rw [List.filterMap_append]; exact List.mem_append_left _ (R.wtys v hv hn)
  · rw [h]; exact fun v hv => by rw [List.filterMap_append]; exact List.mem_append_left _ (R.regs v hv)
  · rw [h, ← R.fnames]; simp [List.filterMap_cons, hf]

theorem lowD_relR {ts : List Top} {st st' : Low} {d : GD} (R : RelR ts st) (h : lowD st d = some st') : RelR (ts ++ [trD d]) st' := by
  cases d with
  | const n t v =>
    simp only [lowD] at h
    split at h
    · split at h <;> first | (cases h; done) | (cases h; exact R.same rfl rfl rfl)
    · cases h
  | type n t =>
    simp only [lowD] at h
    split at h
    · split at h
      · cases h; exact R.same rfl rfl rfl
      · cases h
    · rename_i c hcur
      split at h
      · rename_i f s
        split at h
        · rename_i hi
          obtain ⟨rfl, h1, h2⟩ := hi
          cases h
          constructor
          · intro v hv
            simp only [Low.all, Option.toList_some, List.mem_append, List.mem_singleton] at hv
            rw [List.filterMap_append]
            refine List.mem_append_left _ ?_
            rcases hv with hv | rfl
            · exact R.ifaces v (by simp [Low.all, hv])
            · exact R.ifaces c (by simp [Low.all, hcur])
          · intro v hv hn
            simp only [Low.all, Option.toList_some, List.mem_append, List.mem_singleton] at hv
            rw [List.filterMap_append]
            rcases hv with hv | rfl
            · exact List.mem_append_left _ (R.wtys v (by simp [Low.all, hv]) hn)
            · refine List.mem_append_right _ ?_
              simp [Top.typ?, trD, trT, trFs, name_eq]
              rfl
          · intro v hv
            rw [List.filterMap_append]
            exact List.mem_append_left _ (R.regs v hv)
          · simpa [List.filterMap_cons, trD, Top.func?] using R.fnames
        · cases h
      · cases h
  | iface n ms =>
    simp only [lowD] at h
    split at h
    · rename_i sigs hcur hs
      cases h
      constructor
      · intro v hv
        simp only [Low.all, Option.toList_some, List.mem_append, List.mem_singleton] at hv
        rw [List.filterMap_append]
        rcases hv with hv | rfl
        · exact List.mem_append_left _ (R.ifaces v (by simp [Low.all, hv]))
        · exact List.mem_append_right _ (by simp [Top.typ?, trD, name_eq])
      · intro v hv hn
        simp only [Low.all, Option.toList_some, List.mem_append, List.mem_singleton] at hv
        rw [List.filterMap_append]
        rcases hv with hv | rfl
        · exact List.mem_append_left _ (R.wtys v (by simp [Low.all, hv]) hn)
        · exact absurd rfl hn
      · intro v hv
        rw [List.filterMap_append]
        exact List.mem_append_left _ (R.regs v hv)
      · simpa [List.filterMap_cons, trD, Top.func?] using R.fnames
    · cases h
  | func r n ps res b =>
    unfold lowD at h
    split at h <;> rename_i he <;> try (cases he; done)
    · cases he
      split at h
      · split at h
        · split at h
          · split at h
            · cases h; exact R.same rfl rfl rfl
            · cases h
          · cases h
        · split at h
          · split at h
            · rename_i c body hcur hb
              cases h
              constructor
              · intro v hv
                simp only [Low.all, Option.toList_some, List.mem_append, List.mem_singleton] at hv
                rw [List.filterMap_append]
                refine List.mem_append_left _ ?_
                rcases hv with hv | rfl
                · exact R.ifaces v (by simp [Low.all, hv])
                · exact R.ifaces c (by simp [Low.all, hcur])
              · intro v hv hn
                simp only [Low.all, Option.toList_some, List.mem_append, List.mem_singleton] at hv
                rw [List.filterMap_append]
                refine List.mem_append_left _ ?_
                rcases hv with hv | rfl
                · exact R.wtys v (by simp [Low.all, hv]) hn
                · exact R.wtys c (by simp [Low.all, hcur]) hn
              · intro v hv
                rw [List.filterMap_append]
                exact List.mem_append_left _ (R.regs v hv)
              · simpa [List.filterMap_cons, trD, Top.func?] using R.fnames
            · cases h
          · cases h
        · cases h
      · cases h
    · cases he
      split at h
      · rename_i hi
        obtain ⟨rfl, h1, h2, rfl, h3⟩ := hi
        rw [isXdr_eq h1, isXdr_eq h2, isId_eq h3]
        split at h
        · rename_i c regs hcur hb
          cases h
          constructor
          · intro v hv
            simp only [Low.all, Option.toList_none, List.append_nil, List.mem_append, List.mem_singleton] at hv
            rw [List.filterMap_append]
            refine List.mem_append_left _ ?_
            rcases hv with hv | rfl
            · exact R.ifaces v (by simp [Low.all, hv])
            · exact R.ifaces c (by simp [Low.all, hcur])
          · intro v hv hn
            simp only [Low.all, Option.toList_none, List.append_nil, List.mem_append, List.mem_singleton] at hv
            rw [List.filterMap_append]
            refine List.mem_append_left _ ?_
            rcases hv with hv | rfl
            · exact R.wtys v (by simp [Low.all, hv]) hn
            · exact R.wtys c (by simp [Low.all, hcur]) hn
          · intro v hv
            simp only [List.mem_append, List.mem_singleton] at hv
            rw [List.filterMap_append]
            rcases hv with hv | rfl
            · exact List.mem_append_left _ (R.regs v hv)
            · refine List.mem_append_right _ ?_
              simp only [trD, Top.func?, List.filterMap_cons, Option.map_none, Option.isNone_none, if_true, List.filterMap_nil, List.mem_singleton,
                Prod.mk.injEq, name_eq, true_and, regsG, regsF, regsW, Func.mk.injEq, trSs, trS, trE, trT, lowRegs_eq _ hb, List.map_map, Function.comp_def,
                List.map_cons, List.map_nil, trP, trRes, trElts]
              exact ⟨rfl, rfl, rfl⟩
          · simp only [List.filterMap_append, List.map_append, R.fnames]
            rfl
        · cases h
      · cases h
    · cases h

theorem lowDs_relR : ∀ (ds : List GD) {ts : List Top} {st st' : Low}, RelR ts st → lowDs st ds = some st' → RelR (ts ++ ds.map trD) st'
  | [], ts, st, st', R, h => by
    rw [lowDs] at h
    cases h
    simpa using R
  | d :: ds, ts, st, st', R, h => by
    rw [lowDs] at h
    split at h
    · rename_i st1 h1
      have h5 := lowDs_relR ds (lowD_relR R h1) h
      rw [List.append_assoc] at h5
      exact h5
    · cases h

theorem RelR.init : RelR [] ⟨.empty, [], none⟩ := ⟨by simp [Low.all], by simp [Low.all], by simp, rfl⟩

theorem lowDs_mono : ∀ (ds : List GD) {st st' : Low}, lowDs st ds = some st' → ∀ m ∈ st.prog.methods, m ∈ st'.prog.methods
  | [], st, st', h, m, hm => by rw [lowDs] at h; cases h; exact hm
  | d :: ds, st, st', h, m, hm => by
    rw [lowDs] at h
    split at h
    · rename_i st1 h1
      exact lowDs_mono ds h m (lowD_mono h1 m hm)
    · cases h

theorem lowDs_rel : ∀ (ds : List GD) {ts : List Top} {st st' : Low}, Rel ts st → ds.all wD = true → ds.all constOk = true →
    lowDs st ds = some st' → (∀ m ∈ st'.prog.methods, plSs m.2 = true) → ds.all okD = true ∧ Rel (ts ++ ds.map trD) st'
  | [], ts, st, st', R, _, _, h, _ => by
    rw [lowDs] at h
    cases h
    exact ⟨rfl, by simpa using R⟩
  | d :: ds, ts, st, st', R, w, k, h, hp => by
    simp only [List.all_cons, Bool.and_eq_true] at w k
    rw [lowDs] at h
    split at h
    · rename_i st1 h1
      obtain ⟨h2, h3⟩ := lowD_rel R w.1 k.1 h1 fun m hm => hp m (lowDs_mono ds h m hm)
      obtain ⟨h4, h5⟩ := lowDs_rel ds h3 w.2 k.2 h hp
      refine ⟨by simp [h2, h4], ?_⟩
      rw [List.append_assoc] at h5
      exact h5
    · cases h

theorem Rel.init : Rel [] ⟨.empty, [], none⟩ := ⟨rfl, by simp [Gen.GoProg.empty], by simp [Gen.GoProg.empty], by simp [Low.all], by simp [Gen.GoProg.empty, Low.all],
  by simp [Gen.GoProg.empty, Low.all]⟩

/-! ### First matches -/

theorem lookup_count {α β : Type} [BEq α] [LawfulBEq α] {x : α} {y : β} : ∀ {l : List (α × β)}, (x, y) ∈ l → (l.map Prod.fst).count x ≤ 1 → l.lookup x = some y
  | (a, b) :: l, h, hc => by
    rw [List.lookup_cons]
    rcases List.mem_cons.mp h with e | h
    · cases e; simp
    · have : x ∈ l.map Prod.fst := List.mem_map_of_mem (f := Prod.fst) h
      have hpos := List.count_pos_iff.mpr this
      by_cases hx : x = a
      · subst hx
        simp only [List.map_cons, List.count_cons_self] at hc
        omega
      · have hb : (x == a) = false := by simp [hx]
        rw [hb]
        refine lookup_count h ?_
        simp only [List.map_cons] at hc
        exact Nat.le_trans List.count_le_count_cons hc

theorem lookup_absent {α β : Type} [BEq α] [LawfulBEq α] {x : α} {l : List (α × β)} (h : x ∉ l.map Prod.fst) : l.lookup x = none := by
  rw [List.lookup_eq_none_iff]
  intro p hp
  have : p.1 ∈ l.map Prod.fst := List.mem_map_of_mem hp
  simp only [bne_iff_ne, beq_eq_false_iff_ne, ne_eq]
  exact fun e => h (e ▸ this)

theorem flat_count (vs : List Gen.GoVers) (x : String) :
    (vs.flatMap versTys).count x ≤ (vs.flatMap fun v => [v.iface, v.wrapperType, v.regsName]).count x := by
  induction vs with
  | nil => simp
  | cons v vs ih =>
    simp only [List.flatMap_cons, List.count_append]
    have : (versTys v).count x ≤ [v.iface, v.wrapperType, v.regsName].count x := by
      unfold versTys
      split <;> simp only [List.count_cons, List.count_nil] <;> omega
    omega

/-- The package declares what the generated package declares. -/
theorem isText_of {ts : List Top} {g : Gen.GoProg} {vs : List Gen.GoVers} {q : Pkg} (R : Rel ts ⟨g, vs, none⟩) (hp : Spec.pkgOk g vs = true)
    (hi : "xdr" ∈ q.imports) (hc : q.consts = ts.filterMap Top.const?) (ht : q.types = ts.filterMap Top.typ?)
    (hm : q.meths = ts.filterMap Top.meth?) : IsText g q := by
  simp only [Spec.pkgOk, Bool.and_eq_true, decide_eq_true_eq, List.all_eq_true] at hp
  obtain ⟨⟨⟨⟨⟨⟨⟨hn, hb⟩, -⟩, -⟩, hmn⟩, hmt⟩, hv⟩, -⟩ := hp
  have hcn : q.consts.map Prod.fst = g.consts.map (·.name) := by
    rw [hc, R.consts]; simp [constL, Function.comp_def]
  have hall : Low.all ⟨g, vs, none⟩ = vs := by simp [Low.all]
  have hcount : ∀ x, (Spec.pkgNames g vs).count x ≤ 1 := List.nodup_iff_count.mp hn
  have hpk : ∀ x, (Spec.pkgNames g vs).count x = (g.consts.map (·.name)).count x + (g.types.map (·.1)).count x +
      (vs.flatMap fun v => [v.iface, v.wrapperType, v.regsName]).count x := by
    intro x; simp only [Spec.pkgNames, List.count_append]
  refine ⟨hi, ?_, ?_, ?_, ?_⟩
  · intro c h
    refine lookup_count ?_ ?_
    · rw [hc, R.consts]
      exact List.mem_map_of_mem (f := constL) h
    · rw [hcn]
      have := hcount c.name
      rw [hpk] at this
      omega
  · intro n t h
    refine lookup_count (ht ▸ R.types n t h) ?_
    rw [ht, R.tnames n, hall]
    have h1 := hcount n
    rw [hpk] at h1
    have h2 := flat_count vs n
    simp only at h1 h2 ⊢
    omega
  · intro n b h
    refine lookup_count (hm ▸ R.meths n b h) ?_
    rw [hm, R.mnames, hall]
    have h1 : ((g.methods.map fun p => (p.1, "Xdr")).count (n, "Xdr")) ≤ 1 := by
      have : (g.methods.map fun p => (p.1, "Xdr")) = (g.methods.map (·.1)).map fun x => (x, "Xdr") := by simp [Function.comp_def]
      rw [this]
      refine List.nodup_iff_count.mp (hmn.map ?_) _
      intro a b e
      exact (Prod.mk.inj e).1
    have h2 : (vs.flatMap versMeths).count (n, "Xdr") = 0 := by
      rw [List.count_eq_zero]
      intro hmem
      obtain ⟨v, hv1, hv2⟩ := List.mem_flatMap.mp hmem
      obtain ⟨w, hw1, hw2⟩ := List.mem_map.mp hv2
      have hok := hv v hv1
      simp only [Spec.versOk, Bool.and_eq_true, decide_eq_true_eq, List.all_eq_true] at hok
      have hr := (hok.1.1.1.2 w hw1).1.1
      have e : v.wrapperType = n := by rw [← hr]; exact (Prod.mk.inj hw2).1
      have h3 : 0 < (g.types.map (·.1)).count n := by
        rw [List.count_pos_iff]
        obtain ⟨t, hl⟩ := Option.isSome_iff_exists.mp (hmt (n, b) h).1
        exact List.mem_map_of_mem (f := Prod.fst) (Gen.lookup_mem hl)
      have h4 : 0 < (vs.flatMap fun v => [v.iface, v.wrapperType, v.regsName]).count n := by
        rw [List.count_pos_iff]
        exact List.mem_flatMap.mpr ⟨v, hv1, by simp [e]⟩
      have h5 := hcount n
      rw [hpk] at h5
      omega
    simp only at h2 ⊢
    omega
  · intro x hx
    refine lookup_absent ?_
    rw [hcn]
    intro hmem
    refine hb x (by simp only [Spec.pkgNames, List.mem_append]; exact .inl (.inl hmem)) ?_
    simp only [List.mem_cons, List.not_mem_nil, or_false] at hx
    rcases hx with rfl | rfl | rfl <;> decide

theorem versMeths_count {vs : List Gen.GoVers} {x : String × String}
    (h : ∀ v ∈ vs, (∀ w ∈ v.wrappers, w.recv = v.wrapperType) ∧ (v.wrappers.map (·.name)).Nodup) :
    (vs.flatMap versMeths).count x ≤ (vs.map (·.wrapperType)).count x.1 := by
  induction vs with
  | nil => simp
  | cons v vs ih =>
    obtain ⟨h1, h2⟩ := h v (by simp)
    have ih := ih fun v hv => h v (by simp [hv])
    have e : versMeths v = (v.wrappers.map (·.name)).map fun n => (v.wrapperType, n) := by
      rw [versMeths, List.map_map]
      refine List.map_congr_left fun w hw => ?_
      rw [h1 w hw]; rfl
    simp only [List.flatMap_cons, List.count_append, List.map_cons, List.count_cons]
    by_cases hx : v.wrapperType = x.1
    · have : (versMeths v).count x ≤ 1 := by
        rw [e]
        refine List.nodup_iff_count.mp (h2.map ?_) _
        intro a b e
        exact (Prod.mk.inj e).2
      simp only [hx, beq_self_eq_true, if_true]
      omega
    · have : (versMeths v).count x = 0 := by
        rw [e, List.count_eq_zero]
        intro hm
        obtain ⟨n, -, rfl⟩ := List.mem_map.mp hm
        exact hx rfl
      omega

theorem wrapTy_count (vs : List Gen.GoVers) (x : String) :
    (vs.map (·.wrapperType)).count x ≤ (vs.flatMap fun v => [v.iface, v.wrapperType, v.regsName]).count x := by
  induction vs with
  | nil => simp
  | cons v vs ih =>
    simp only [List.flatMap_cons, List.count_append, List.map_cons, List.count_cons, List.count_nil]
    omega

theorem name_count (vs : List Gen.GoVers) (x : String) :
    (vs.map (·.iface)).count x ≤ (vs.flatMap fun v => [v.iface, v.wrapperType, v.regsName]).count x ∧
    (vs.map (·.regsName)).count x ≤ (vs.flatMap fun v => [v.iface, v.wrapperType, v.regsName]).count x := by
  induction vs with
  | nil => simp
  | cons v vs ih =>
    simp only [List.flatMap_cons, List.count_append, List.map_cons, List.count_cons, List.count_nil]
    omega

theorem hasVers_of {ts : List Top} {g : Gen.GoProg} {vs : List Gen.GoVers} {q : Pkg} (R : Rel ts ⟨g, vs, none⟩) (R' : RelR ts ⟨g, vs, none⟩)
    (hp : Spec.pkgOk g vs = true) (ht : q.types = ts.filterMap Top.typ?) (hf : q.funcs = ts.filterMap Top.func?)
    (hw : ∀ v ∈ vs, ∀ w ∈ v.wrappers, q.meths.lookup (w.recv, w.name) = some (wrapG w)) : HasVers vs q := by
  simp only [Spec.pkgOk, Bool.and_eq_true, decide_eq_true_eq, List.all_eq_true] at hp
  obtain ⟨⟨⟨⟨⟨⟨⟨hn, hb⟩, -⟩, -⟩, hmn⟩, hmt⟩, hv⟩, -⟩ := hp
  have hall : Low.all ⟨g, vs, none⟩ = vs := by simp [Low.all]
  have hcount : ∀ x, (Spec.pkgNames g vs).count x ≤ 1 := List.nodup_iff_count.mp hn
  have hpk : ∀ x, (Spec.pkgNames g vs).count x = (g.consts.map (·.name)).count x + (g.types.map (·.1)).count x +
      (vs.flatMap fun v => [v.iface, v.wrapperType, v.regsName]).count x := by
    intro x; simp only [Spec.pkgNames, List.count_append]
  have hty : ∀ x, (q.types.map Prod.fst).count x ≤ 1 := by
    intro x
    rw [ht, R.tnames x, hall]
    have h1 := hcount x
    rw [hpk] at h1
    have h2 := flat_count vs x
    simp only at h1 h2 ⊢
    omega
  refine ⟨fun v hv => ?_, fun v hv hn => ?_, hw, fun v hv => ?_⟩
  · exact lookup_count (ht ▸ R'.ifaces v (by rw [hall]; exact hv)) (hty _)
  · exact lookup_count (ht ▸ R'.wtys v (by rw [hall]; exact hv) hn) (hty _)
  · refine lookup_count (hf ▸ R'.regs v hv) ?_
    rw [hf, R'.fnames]
    have h1 := hcount v.regsName
    rw [hpk] at h1
    have h2 := (name_count vs v.regsName).2
    simp only at h1 h2 ⊢
    omega

theorem hasWraps_of {ts : List Top} {g : Gen.GoProg} {vs : List Gen.GoVers} {q : Pkg} (R : Rel ts ⟨g, vs, none⟩) (hp : Spec.pkgOk g vs = true)
    (hm : q.meths = ts.filterMap Top.meth?) :
    ∀ v ∈ vs, ∀ w ∈ v.wrappers, q.meths.lookup (w.recv, w.name) = some (wrapG w) := by
  simp only [Spec.pkgOk, Bool.and_eq_true, decide_eq_true_eq, List.all_eq_true] at hp
  obtain ⟨⟨⟨⟨⟨⟨⟨hn, hb⟩, -⟩, -⟩, hmn⟩, hmt⟩, hv⟩, -⟩ := hp
  have hall : Low.all ⟨g, vs, none⟩ = vs := by simp [Low.all]
  intro v hv1 w hw
  refine lookup_count (hm ▸ R.wraps v (by rw [hall]; exact hv1) w hw) ?_
  rw [hm, R.mnames, hall]
  have h1 := versMeths_count (vs := vs) (x := (w.recv, w.name)) fun v hv1 => by
    have hok := hv v hv1
    simp only [Spec.versOk, Bool.and_eq_true, decide_eq_true_eq, List.all_eq_true] at hok
    exact ⟨fun w hw => (hok.1.1.1.2 w hw).1.1, hok.1.1.1.1.2⟩
  have h2 := wrapTy_count vs w.recv
  have hok := hv v hv1
  simp only [Spec.versOk, Bool.and_eq_true, decide_eq_true_eq, List.all_eq_true] at hok
  have hr := (hok.1.1.1.2 w hw).1.1
  have h3 : 0 < (vs.flatMap fun v => [v.iface, v.wrapperType, v.regsName]).count w.recv := by
    rw [List.count_pos_iff]
    exact List.mem_flatMap.mpr ⟨v, hv1, by simp [hr]⟩
  have h4 : (Spec.pkgNames g vs).count w.recv ≤ 1 := List.nodup_iff_count.mp hn _
  simp only [Spec.pkgNames, List.count_append] at h4
  have h5 : (g.methods.map fun p => (p.1, "Xdr")).count (w.recv, w.name) = 0 := by
    rw [List.count_eq_zero]
    intro hmem
    obtain ⟨m, hm1, hm2⟩ := List.mem_map.mp hmem
    obtain ⟨t, hl⟩ := Option.isSome_iff_exists.mp (hmt m hm1).1
    have : 0 < (g.types.map (·.1)).count w.recv := by
      rw [List.count_pos_iff, ← (Prod.mk.inj hm2).1]
      exact List.mem_map_of_mem (f := Prod.fst) (Gen.lookup_mem hl)
    omega
  simp only at h1 h5 ⊢
  omega

/-! ### Files -/

theorem constOk_of {f : GFile} (h : .ident [] ∉ gFile f) : f.decls.all constOk = true := by
  rw [List.all_eq_true]
  intro d hd
  unfold constOk
  split
  · rename_i n s v
    cases s with
    | cons => rfl
    | nil =>
      refine absurd ?_ h
      unfold gFile
      refine List.mem_cons_of_mem _ (List.mem_cons_of_mem _ (List.mem_cons_of_mem _ (List.mem_append_right _ ?_)))
      exact List.mem_flatMap.mpr ⟨_, hd, by simp [gD, gOpt, gE]⟩
  · rfl

theorem base_xdr : baseName (name Text.xdrPath) = "xdr" := by decide +kernel

/-- Reading one file. -/
theorem read_one {t : Text} {f : GFile} {g : Gen.GoProg} {vs : List Gen.GoVers} (hc : isChars t) (h : Text.IsGo t f)
    (hl : Text.lowFile f = some (g, vs)) (hp : ∀ m ∈ g.methods, plSs m.2 = true) (hk : Spec.pkgOk g vs = true) :
    readFile t = some (trF f) ∧ ∀ nm, IsText g (mkPkg nm [trF f]) ∧ HasVers vs (mkPkg nm [trF f]) := by
  unfold Text.lowFile at hl
  split at hl
  · rename_i hi
    split at hl
    · rename_i hd
      cases hl
      obtain ⟨h1, h2⟩ := lowDs_rel f.decls Rel.init h.2 (constOk_of (scan_id hc h.1)) hd hp
      refine ⟨?_, fun nm => ⟨isText_of h2 hk ?_ ?_ ?_ ?_, hasVers_of h2 (lowDs_relR f.decls RelR.init hd) hk ?_ ?_ (hasWraps_of h2 hk ?_)⟩⟩
      · unfold readFile
        rw [lex_scan hc h.1]
        exact rFile f h.2 h1
      · simp [mkPkg, trF, hi, base_xdr]
      · simp [mkPkg, trF]
      · simp [mkPkg, trF]
      · simp [mkPkg, trF]
      · simp [mkPkg, trF]
      · simp [mkPkg, trF]
      · simp [mkPkg, trF]
    · cases hl
  · cases hl

/-- Reading two files. -/
theorem read_two {t u : Text} {f k : GFile} {g : Gen.GoProg} {vs : List Gen.GoVers} (hc : isChars t) (h : Text.IsGo t f)
    (hc' : isChars u) (h' : Text.IsGo u k)
    (hl : Text.lowFiles f k = some (g, vs)) (hp : ∀ m ∈ g.methods, plSs m.2 = true) (hk : Spec.pkgOk g vs = true) :
    readFile t = some (trF f) ∧ readFile u = some (trF k) ∧ ∀ nm, IsText g (mkPkg nm [trF f, trF k]) ∧ HasVers vs (mkPkg nm [trF f, trF k]) := by
  unfold Text.lowFiles at hl
  split at hl
  · rename_i hi
    split at hl
    · rename_i hd
      split at hl
      · rename_i hd'
        cases hl
        obtain ⟨h1, h2⟩ := lowDs_rel f.decls Rel.init h.2 (constOk_of (scan_id hc h.1)) hd fun m hm => hp m (lowDs_mono _ hd' m hm)
        obtain ⟨h3, h4⟩ := lowDs_rel k.decls h2 h'.2 (constOk_of (scan_id hc' h'.1)) hd' hp
        refine ⟨?_, ?_, fun nm => ⟨isText_of h4 hk ?_ ?_ ?_ ?_, hasVers_of h4 (lowDs_relR k.decls (lowDs_relR f.decls RelR.init hd) hd') hk ?_ ?_
          (hasWraps_of h4 hk ?_)⟩⟩
        · unfold readFile
          rw [lex_scan hc h.1]
          exact rFile f h.2 h1
        · unfold readFile
          rw [lex_scan hc' h'.1]
          exact rFile k h'.2 h3
        · simp [mkPkg, trF, hi.2, base_xdr]
        · simp [mkPkg, trF]
        · simp [mkPkg, trF]
        · simp [mkPkg, trF]
        · simp [mkPkg, trF]
        · simp [mkPkg, trF]
        · simp [mkPkg, trF]
      · cases hl
    · cases hl
  · cases hl

end Verif.Lang.Rd
