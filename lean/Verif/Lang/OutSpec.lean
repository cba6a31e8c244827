/-
Running out.go by rewriting, and how the values of out.go and the texts it makes are those of the model.
-/
import Verif.Lang.GenFacts
import Verif.Lang.PureSim
import Verif.Text.Spells
import Verif.Text.Emit

namespace Verif.Lang
open Verif.Text Verif.Gen

/-! ### Running -/

section
variable {W : Type}
theorem ppure_bind {α β : Type} (a : α) (f : α → PM W β) : (pure a >>= f) = f a := rfl
theorem pstop_bind {α β : Type} (e : Stop) (f : α → PM W β) : (pstop e >>= f) = pstop e := rfl

theorem pone_single (v : V) : (pone [v] : PM W V) = pure v := rfl
theorem psome_some {α : Type} (a : α) : (psome (some a) : PM W α) = pure a := rfl

theorem vfind_nil (x : String) : VEnv.find [] x = none := rfl
theorem vfind_cons (s : List (String × V)) (ρ : VEnv) (x : String) :
    VEnv.find (s :: ρ) x = match s.lookup x with | some v => some v | none => VEnv.find ρ x := by
  show List.findSome? _ _ = _
  rw [List.findSome?_cons]
  cases s.lookup x <;> rfl

theorem sprintf_eq (f : List UInt8) (vs : List V) :
    sprintf f vs = match pieces f with | some ps => weave ps vs | none => none := by
  unfold sprintf
  cases pieces f <;> rfl

theorem add_str (a b : List UInt8) : binop "+" (.str a) (.str b) = some (.str (a ++ b)) := rfl
theorem weave_one (p : List UInt8) : weave [p] [] = some p := rfl
theorem weave_cons (p : List UInt8) (ps : List (List UInt8)) (s : List UInt8) (vs : List V) :
    weave (p :: ps) (.str s :: vs) = (match weave ps vs with | some r => some (p ++ s ++ r) | none => none) := by
  cases ps <;> (show Option.map _ _ = _; cases weave _ vs <;> rfl)

open Lean.Parser.Tactic in
macro "pgo_core" "[" ls:simpLemma,* "]" loc:(location)? : tactic =>
  `(tactic| simp (config := {decide := true}) only [pexec, pexecs, pexecNth, peval, pargs, pbound, prhs, pevalId, ppkgName, pcallPkg, pone_single,
    ppure_bind, pstop_bind, pbind_assoc, psome_some, pfield, V.field, pdefine, pdeclare, passign, VEnv.set, setScope,
    pbool, vfind_nil, vfind_cons, List.lookup_cons, List.lookup_nil, sprintf_eq, weave_one, weave_cons,
    pbindParams, Func.args, pcallFunc, pfinish, presults, outer, coerce, List.tail_cons, String.reduceBEq, String.reduceEq,
    ↓reduceIte, Bool.false_eq_true, isBE, and_self, and_false, false_and, or_self, or_false, or_true, List.all_cons, List.all_nil,
    Bool.and_self, Bool.and_true, pslice, pderef, String.reduceAppend, Option.map_some, Option.map_none,
    List.headD_cons, add_str, gen_simp, $ls,*] $[$loc]?)
end

/-! ### Texts -/

/-- The bytes are the text, every literal in some spelling. -/
def Prints (t : Text) (b : List UInt8) : Prop := Spells t (b.map UInt8.toNat)

theorem Prints.append {t t' : Text} {b b' : List UInt8} (h : Prints t b) (h' : Prints t' b') :
    Prints (t ++ t') (b ++ b') := by
  unfold Prints
  rw [List.map_append]
  exact Spells.append h h'

theorem Prints.nil : Prints [] [] := Spells.nil

theorem Prints.of_map {t : Text} {b : List UInt8} (h : b.map UInt8.toNat = t) : Prints t b := by
  subst h
  refine Spells.refl fun c hc => ?_
  obtain ⟨x, _, rfl⟩ := List.mem_map.1 hc
  have := x.toNat_lt
  unfold lit0
  omega

/-- A text of characters. -/
theorem prints_ub {t : Text} (h : t.all (· < 256) = true) : Prints t (ub t) := by
  refine Prints.of_map ?_
  unfold ub
  rw [List.map_map]
  conv => rhs; rw [← List.map_id t]
  refine List.map_congr_left fun c hc => ?_
  have := List.all_eq_true.1 h c hc
  have hc : c < 256 := by simpa using this
  show (Nat.toUInt8 c).toNat = c
  simp [Nat.mod_eq_of_lt hc]

/-- An identifier: not empty, ASCII. -/
structure Name (s : Ident) (b : List UInt8) : Prop where
  ne : s ≠ ""
  ascii : ∀ c ∈ s.toList, c.toNat < 128
  bytes : b = strBytes s

theorem Name.map {s : Ident} {b : List UInt8} (h : Name s b) : b.map UInt8.toNat = codes s := by
  rw [h.bytes, strBytes, List.map_map, codes]
  refine List.map_congr_left fun c hc => ?_
  have := h.ascii c hc
  show (Nat.toUInt8 c.toNat).toNat = c.toNat
  simp
  omega

theorem Name.prints {s : Ident} {b : List UInt8} (h : Name s b) : Prints (codes s) b := .of_map h.map

/-- A value as it is spelled. -/
def IsVal : Val → List UInt8 → Prop
  | .lit n, b => isLit (b.map UInt8.toNat) n = true
  | .ident s, b => Name s b

/-- A literal as it is spelled. -/
theorem prints_lit {n : Nat} {b : List UInt8} (h : isLit (b.map UInt8.toNat) n = true) : Prints [lit0 + n] b := by
  have := Spells.lit (t := []) (t' := []) h .nil
  rw [List.append_nil] at this
  exact this

theorem IsVal.prints {v : Val} {b : List UInt8} (h : IsVal v b) : Prints (vTxt v) b := by
  cases v with
  | lit n => exact prints_lit h
  | ident s => exact Name.prints h

theorem IsVal.ne {v : Val} {b : List UInt8} (h : IsVal v b) : b ≠ [] := by
  rintro rfl
  cases v with
  | lit n => cases h
  | ident s =>
    have h : Name s [] := h
    have := h.bytes
    have h2 : s.toList = [] := by
      unfold strBytes at this
      simpa using this.symm
    exact h.ne (String.toList_eq_nil_iff.1 h2)

/-! ### `i` -/


theorem eq_str (a b : List UInt8) : binop "==" (.str a) (.str b) = some (.bool (a == b)) := rfl

/-- `i` on bytes. -/
def iBytes (b : List UInt8) : List UInt8 :=
  if b == ub t!"TRUE" then ub t!"true" else if b == ub t!"FALSE" then ub t!"false"
  else (b.take 1).map upper ++ b.drop 1

theorem run_i {W : Type} (E : PExt W) (k : Nat) (b : List UInt8) (hb : b ≠ []) (ha : ∀ c ∈ b, c < 128) :
    pcallN genProg E (k + 1) (.fn "main" "i") [.str b] = pure [.str (iBytes b)] := by
  obtain ⟨c, b, rfl⟩ : ∃ c l, b = c :: l := by cases b with | nil => exact absurd rfl hb | cons c l => exact ⟨c, l, rfl⟩
  have hc := ha c (by simp)
  rw [pcallN, find_out_i]
  pgo_core [out_i, pchoose, panyCase, eq_str, pnat, iBytes]
  cases h1 : c :: b == ub [84, 82, 85, 69]
  · cases h2 : c :: b == ub [70, 65, 76, 83, 69]
    · have h3 : (0 : Int) ≤ 1 := by decide
      have h4 : 0 ≤ 1 ∧ 1 ≤ (c :: b).length := ⟨by decide, by simp⟩
      have h5 : 1 ≤ (c :: b).length ∧ (c :: b).length ≤ (c :: b).length := ⟨by simp, Nat.le_refl _⟩
      have h6 : (1 : Int).toNat = 1 := rfl
      have h7 : ((((c :: b).drop 0).take (1 - 0)).all fun x => decide (x < 128)) = true := by simpa using hc
      have h8 : ((c :: b).drop 1).take ((c :: b).length - 1) = (c :: b).drop 1 := by simp
      have h9 : ((c :: b).drop 0).take (1 - 0) = (c :: b).take 1 := rfl
      have h10 : ((1 : Nat) : Int) = 1 := rfl
      pgo_core [pnat, h3, Option.getD_some, Option.getD_none, h4, h5, h6, h7, h10]
      rw [h8, h9]
    · pgo_core []
  · pgo_core []

theorem upper_code : ∀ n, n < 128 → (upper n.toUInt8).toNat = (Char.ofNat n).toUpper.toNat := by decide

theorem Name.lt {s : Ident} {b : List UInt8} (h : Name s b) : ∀ c ∈ b, c < 128 := by
  intro c hc
  rw [h.bytes] at hc
  obtain ⟨x, hx, rfl⟩ := List.mem_map.1 hc
  have := h.ascii x hx
  rw [UInt8.lt_iff_toNat_lt]
  simp
  omega

theorem Name.nonempty {s : Ident} {b : List UInt8} (h : Name s b) : b ≠ [] := IsVal.ne (v := .ident s) h

theorem ub_inj {s : Ident} {b : List UInt8} (h : Name s b) (x : Ident) (hx : (ub (codes x)).map UInt8.toNat = codes x) :
    (b == ub (codes x)) = decide (s = x) := by
  by_cases e : s = x
  · subst e
    rw [decide_eq_true rfl, beq_iff_eq]
    have := h.map
    rw [← hx] at this
    exact (List.map_inj_right (fun _ _ h => UInt8.toNat_inj.1 h)).1 this
  · rw [decide_eq_false e]
    rw [beq_eq_false_iff_ne]
    intro hb
    apply e
    have h1 := h.map
    rw [hb, hx] at h1
    have h2 : s.toList.map Char.toNat = x.toList.map Char.toNat := h1.symm
    have h3 := (List.map_inj_right (fun _ _ h => Char.toNat_inj.1 h)).1 h2
    exact String.toList_inj.1 h3

theorem Name.i {s : Ident} {b : List UInt8} (h : Name s b) : Prints (iTxt s) (iBytes b) := by
  refine .of_map ?_
  unfold iBytes iTxt Gen.i
  rw [show (t!"TRUE") = codes "TRUE" from rfl, show (t!"FALSE") = codes "FALSE" from rfl,
    ub_inj h "TRUE" (by decide), ub_inj h "FALSE" (by decide)]
  by_cases h1 : s = "TRUE"
  · simp only [h1, decide_true, ↓reduceIte]; decide
  · by_cases h2 : s = "FALSE"
    · simp only [h2, decide_true, ↓reduceIte]; decide
    · simp only [h1, h2, decide_false, Bool.false_eq_true, ↓reduceIte]
      have hm := h.map
      unfold codes at hm ⊢
      cases hs : s.toList with
      | nil => exact absurd (String.toList_eq_nil_iff.1 hs) h.ne
      | cons c cs =>
        rw [hs] at hm
        cases hb : b with
        | nil => rw [hb] at hm; cases hm
        | cons d ds =>
          rw [hb] at hm
          simp only [List.map_cons, List.cons.injEq] at hm
          have hd : d = c.toNat.toUInt8 := by
            rw [← hm.1]; simp
          have := h.ascii c (by rw [hs]; simp)
          simp only [List.take_succ_cons, List.take_zero, List.map_cons, List.map_nil, List.drop_succ_cons, List.drop_zero,
            List.singleton_append, String.toList_ofList, List.cons.injEq]
          refine ⟨?_, hm.2⟩
          rw [hd, upper_code _ this, Char.ofNat_toNat]

theorem IsVal.lt {v : Val} {b : List UInt8} (h : IsVal v b) : ∀ c ∈ b, c < 128 := by
  cases v with
  | ident s => exact Name.lt h
  | lit n =>
    have h : isLit (b.map UInt8.toNat) n = true := h
    have key : ∀ c ∈ b.map UInt8.toNat, c < 128 := by
      cases hb : b.map UInt8.toNat with
      | nil => simp
      | cons d ds =>
        rw [hb] at h
        simp only [isLit, Bool.and_eq_true, List.all_eq_true] at h
        intro c hc
        have hl : ∀ c, alnum c = true → c < 128 := by
          intro c hc
          simp only [alnum, isLetter, isDigit, Bool.or_eq_true, Bool.and_eq_true, Nat.ble_eq, Nat.beq_eq] at hc
          omega
        rcases List.mem_cons.1 hc with rfl | hc
        · exact hl _ (by simp only [alnum, Bool.or_eq_true]; exact .inr h.1.1)
        · exact hl _ (h.1.2 c hc)
    intro c hc
    rw [UInt8.lt_iff_toNat_lt]
    exact key _ (List.mem_map.2 ⟨c, hc, rfl⟩)

theorem IsVal.i {v : Val} {b : List UInt8} (h : IsVal v b) : Prints (ivTxt v) (iBytes b) := by
  cases v with
  | ident s => exact Name.i h
  | lit n =>
    have h' : isLit (b.map UInt8.toNat) n = true := h
    have : iBytes b = b := by
      cases hb : b with
      | nil => rw [hb] at h'; cases h'
      | cons d ds =>
        rw [hb] at h'
        simp only [isLit, List.map_cons, Bool.and_eq_true] at h'
        have hd := h'.1.1
        simp only [isDigit, Bool.and_eq_true, Nat.ble_eq] at hd
        have hne : ∀ (x : UInt8) (l : List UInt8), x.toNat > 57 → (d :: ds == x :: l) = false := by
          intro x l hx
          rw [beq_eq_false_iff_ne]
          intro e
          cases e
          omega
        have hup : upper d = d := by
          unfold upper
          rw [if_neg]
          intro ⟨h1, _⟩
          rw [UInt8.le_iff_toNat_le] at h1
          have : (97 : UInt8).toNat = 97 := rfl
          omega
        unfold iBytes ub
        simp only [List.map_cons]
        rw [hne _ _ (by decide), hne _ _ (by decide)]
        simp [hup]
    rw [this]
    exact prints_lit h

end Verif.Lang
