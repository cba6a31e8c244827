/-
Algebra of paths into Go values, and when a pointer expression denotes a path.
-/
import Verif.Gen.Out

namespace Verif.Gen
open Verif.Xdr

theorem lt_of_getElem? {α} {l : List α} {n : Nat} {x : α} (h : l[n]? = some x) : n < l.length :=
  (List.getElem?_eq_some_iff.1 h).1

theorem loadPath_nil (v : GoVal) : loadPath v [] = .ok v := rfl

theorem storePath_nil (v x : GoVal) : storePath v [] x = .ok x := rfl

theorem loadPath_cons {v u : GoVal} {s : Step} (p : List Step) (h : child v s = .ok u) :
    loadPath v (s :: p) = loadPath u p := by
  simp [loadPath, h, bind, Except.bind]

theorem storePath_cons {v u : GoVal} {s : Step} (p : List Step) (x : GoVal)
    (h : child v s = .ok u) :
    storePath v (s :: p) x = (storePath u p x >>= fun w => .ok (setChild v s w)) := by
  simp [storePath, h, bind, Except.bind, pure, Except.pure]

/-- Inversion of a successful load. -/
theorem loadPath_cons_inv {v w : GoVal} {s : Step} {p : List Step}
    (h : loadPath v (s :: p) = .ok w) : ∃ u, child v s = .ok u ∧ loadPath u p = .ok w := by
  cases hc : child v s with
  | error e => simp [loadPath, hc, bind, Except.bind] at h
  | ok u => exact ⟨u, rfl, by rwa [loadPath_cons p hc] at h⟩

theorem loadPath_append {v w : GoVal} {p : List Step} (q : List Step) (h : loadPath v p = .ok w) :
    loadPath v (p ++ q) = loadPath w q := by
  induction p generalizing v with
  | nil => cases h; rfl
  | cons s p ih =>
    obtain ⟨u, hc, hu⟩ := loadPath_cons_inv h
    rw [List.cons_append, loadPath_cons _ hc]
    exact ih hu

theorem setField_getField {fs : List (Ident × GoVal)} {f : Ident} {w : GoVal} (x : GoVal)
    (h : getField fs f = some w) : getField (setField fs f x) f = some x := by
  induction fs with
  | nil => simp [getField] at h
  | cons a fs ih =>
    obtain ⟨g, u⟩ := a
    by_cases hg : g = f
    · subst hg; simp [setField, getField]
    · have h1 : (f == g) = false := by simp; exact fun e => hg e.symm
      simp only [setField, hg, if_false, getField, List.lookup, h1] at h ⊢
      exact ih h

theorem setField_setField (fs : List (Ident × GoVal)) (f : Ident) (x y : GoVal) :
    setField (setField fs f x) f y = setField fs f y := by
  induction fs with
  | nil => rfl
  | cons a fs ih =>
    obtain ⟨g, u⟩ := a
    by_cases hg : g = f
    · simp [setField, hg]
    · simp [setField, hg, ih]

theorem getField_setField_ne {fs : List (Ident × GoVal)} {f f' : Ident} (x : GoVal) (hne : f' ≠ f) :
    getField (setField fs f x) f' = getField fs f' := by
  induction fs with
  | nil => rfl
  | cons a fs ih =>
    obtain ⟨g, u⟩ := a
    by_cases hg : g = f
    · subst hg
      have h1 : (f' == g) = false := by simpa using hne
      simp [setField, getField, List.lookup, h1]
    · simp only [setField, hg, if_false, getField, List.lookup]
      split
      · rfl
      · exact ih

theorem setField_length (fs : List (Ident × GoVal)) (f : Ident) (x : GoVal) :
    (setField fs f x).length = fs.length := by
  induction fs with
  | nil => rfl
  | cons a fs ih =>
    obtain ⟨g, u⟩ := a
    by_cases hg : g = f
    · simp [setField, hg]
    · simp [setField, hg, ih]

theorem getField_append {pre fs : List (Ident × GoVal)} {f : Ident} (h : f ∉ pre.map Prod.fst) :
    getField (pre ++ fs) f = getField fs f := by
  induction pre with
  | nil => rfl
  | cons a pre ih =>
    obtain ⟨g, u⟩ := a
    simp at h
    have h1 : (f == g) = false := by simpa using h.1
    simp only [List.cons_append, getField, List.lookup, h1]
    exact ih (by simpa using h.2)

theorem setField_append {pre fs : List (Ident × GoVal)} {f : Ident} (x : GoVal)
    (h : f ∉ pre.map Prod.fst) : setField (pre ++ fs) f x = pre ++ setField fs f x := by
  induction pre with
  | nil => rfl
  | cons a pre ih =>
    obtain ⟨g, u⟩ := a
    simp at h
    have h1 : ¬ g = f := fun e => h.1 e.symm
    simp only [List.cons_append, setField, h1, if_false]
    rw [ih (by simpa using h.2)]

theorem child_setChild {v w : GoVal} {s : Step} (x : GoVal) (h : child v s = .ok w) :
    child (setChild v s x) s = .ok x := by
  unfold child at h
  split at h
  case h_1 fs f =>
    split at h
    · rename_i u hu
      simp [setChild, child, setField_getField x hu]
    · cases h
  case h_2 l n =>
    split at h
    · rename_i u hu
      simp [setChild, child, lt_of_getElem? hu]
    · cases h
  case h_4 l n =>
    split at h
    · rename_i u hu
      simp [setChild, child, lt_of_getElem? hu]
    · cases h
  case h_5 => simp [setChild, child]
  all_goals cases h

theorem setChild_setChild {v w : GoVal} {s : Step} (x y : GoVal) (h : child v s = .ok w) :
    setChild (setChild v s x) s y = setChild v s y := by
  unfold child at h
  split at h
  case h_1 fs f => simp [setChild, setField_setField]
  case h_2 l n => simp [setChild]
  case h_4 l n => simp [setChild]
  case h_5 => simp [setChild]
  all_goals cases h

theorem storePath_ok {v w : GoVal} {p : List Step} (x : GoVal) (h : loadPath v p = .ok w) :
    ∃ v', storePath v p x = .ok v' ∧ loadPath v' p = .ok x := by
  induction p generalizing v with
  | nil => exact ⟨x, rfl, rfl⟩
  | cons s p ih =>
    obtain ⟨u, hc, hu⟩ := loadPath_cons_inv h
    obtain ⟨u', h1, h2⟩ := ih hu
    refine ⟨setChild v s u', by rw [storePath_cons _ _ hc, h1]; rfl, ?_⟩
    rw [loadPath_cons _ (child_setChild _ hc), h2]

theorem storePath_storePath {v v' w x : GoVal} {p : List Step} (y : GoVal)
    (h : loadPath v p = .ok w) (hs : storePath v p x = .ok v') :
    storePath v' p y = storePath v p y := by
  induction p generalizing v v' with
  | nil => rfl
  | cons s p ih =>
    obtain ⟨u, hc, hu⟩ := loadPath_cons_inv h
    obtain ⟨u', h1, h2⟩ := storePath_ok x hu
    rw [storePath_cons _ _ hc, h1] at hs
    cases hs
    rw [storePath_cons _ _ (child_setChild _ hc), ih hu h1, storePath_cons _ _ hc]
    simp only [setChild_setChild _ _ hc]

theorem storePath_append {v w : GoVal} {p : List Step} (q : List Step) (x : GoVal)
    (h : loadPath v p = .ok w) :
    storePath v (p ++ q) x = (storePath w q x >>= fun w' => storePath v p w') := by
  induction p generalizing v with
  | nil =>
    cases h
    simp only [List.nil_append, storePath_nil]
    cases storePath w q x <;> rfl
  | cons s p ih =>
    obtain ⟨u, hc, hu⟩ := loadPath_cons_inv h
    rw [List.cons_append, storePath_cons _ _ hc, ih hu]
    cases hq : storePath w q x with
    | error e => rfl
    | ok w' => simp only [storePath_cons _ _ hc]; rfl

/-- The loop variable has the value the path was computed with. -/
def ViOK (vi : Option Nat) (locals : List (Ident × GoVal)) : Prop :=
  ∀ n, vi = some n → n < 2 ^ 64 ∧ getField locals iVar = some (.u64 (UInt64.ofNat n))

/-- Pointer expression `p` denotes `path` (below the receiver) in every state in which the path
exists and the loop variable has value `vi`. -/
def PtrAt (vi : Option Nat) (p : Ex) (path : List Step) : Prop :=
  ∀ st w, ViOK vi st.locals → loadPath st.v path = .ok w → evalPtr st p = .ok ⟨none, path⟩

theorem PtrAt.recv (vi : Option Nat) : PtrAt vi .recv [] := by
  intro st w _ _
  simp [evalPtr, evalEx]; rfl

/-- How an expression of pointer type can evaluate. -/
theorem evalPtr_cases {st : St} {p : Ex} {l : Loc} (h : evalPtr st p = .ok l) :
    evalEx st p = .ok (.ptr l) ∨
    ∃ l', evalEx st p = .ok (.place l') ∧ l = l'.step .deref ∧
      ∃ w, st.load l' = .ok (.ptr (some w)) := by
  unfold evalPtr at h
  cases he : evalEx st p with
  | error e => simp [he, bind, Except.bind] at h
  | ok e =>
    cases e with
    | ptr l0 =>
      simp [he, bind, Except.bind, pure, Except.pure] at h
      left; rw [h]
    | place l' =>
      right
      simp only [he, bind, Except.bind] at h
      cases hl : st.load l' with
      | error e => simp [hl] at h
      | ok w =>
        cases w with
        | ptr o =>
          cases o with
          | none => simp [hl] at h
          | some w =>
            simp [hl, pure, Except.pure] at h
            exact ⟨l', rfl, h.symm, w, hl⟩
        | _ => simp [hl] at h

theorem evalPtr_of_ptr {st : St} {p : Ex} {l : Loc} (h : evalEx st p = .ok (.ptr l)) :
    evalPtr st p = .ok l := by
  simp [evalPtr, h, bind, Except.bind, pure, Except.pure]

theorem evalEx_addr {st : St} {e : Ex} {l : Loc} (h : evalEx st e = .ok (.place l)) :
    evalEx st (.addr e) = .ok (.ptr l) := by
  simp [evalEx, h, bind, Except.bind, pure, Except.pure]

theorem load_root (st : St) (path : List Step) : st.load ⟨none, path⟩ = loadPath st.v path := rfl

theorem loadPath_prefix {v w : GoVal} {p q : List Step} (h : loadPath v (p ++ q) = .ok w) :
    ∃ u, loadPath v p = .ok u ∧ loadPath u q = .ok w := by
  induction p generalizing v with
  | nil => exact ⟨v, rfl, h⟩
  | cons s p ih =>
    rw [List.cons_append] at h
    obtain ⟨u, hc, hu⟩ := loadPath_cons_inv h
    obtain ⟨w', h1, h2⟩ := ih hu
    exact ⟨w', by rw [loadPath_cons _ hc, h1], h2⟩

theorem evalEx_field {st : St} {p : Ex} {path : List Step} (f : Ident)
    (h : evalPtr st p = .ok ⟨none, path⟩) :
    evalEx st (.field p f) = .ok (.place ⟨none, path ++ [.field f]⟩) := by
  rcases evalPtr_cases h with he | ⟨l', he, hl, w, hw⟩
  · simp [evalEx, he, bind, Except.bind, Loc.step, pure, Except.pure]
  · simp only [evalEx, he, hw, bind, Except.bind, ← hl]; rfl

theorem PtrAt.field {vi : Option Nat} {p : Ex} {path : List Step} (f : Ident)
    (h : PtrAt vi p path) : PtrAt vi (fieldPtr p f) (path ++ [.field f]) := by
  intro st w hv hl
  obtain ⟨u, hu, hl⟩ := loadPath_prefix hl
  exact evalPtr_of_ptr (evalEx_addr (evalEx_field f (h st u hv hu)))

theorem PtrAt.deref {vi : Option Nat} {p : Ex} {path : List Step}
    (h : PtrAt vi p path) : PtrAt vi (.deref p) (path ++ [.deref]) := by
  intro st w hv hl
  obtain ⟨u, hu, hl⟩ := loadPath_prefix hl
  have hp := h st u hv hu
  have hu' : ∃ x, u = .ptr (some x) := by
    obtain ⟨y, hc, -⟩ := loadPath_cons_inv hl
    unfold child at hc
    split at hc
    case h_5 => exact ⟨_, rfl⟩
    all_goals (first | contradiction | (rename_i h; cases h))
  obtain ⟨x, rfl⟩ := hu'
  rcases evalPtr_cases hp with he | ⟨l', he, hl', w', hw⟩
  · simp [evalPtr, evalEx, he, bind, Except.bind, pure, Except.pure, load_root, hu, Loc.step]
  · have h2 : st.load (l'.step .deref) = .ok (.ptr (some x)) := by
      rw [← hl', load_root, hu]
    simp [evalPtr, evalEx, he, bind, Except.bind, pure, Except.pure, hw, h2]
    rw [← hl']; rfl

/-- The pointee of `p`, as a place. -/
theorem evalEx_deref {st : St} {p : Ex} {path : List Step}
    (h : evalPtr st p = .ok ⟨none, path⟩) :
    evalEx st (.deref p) = .ok (.place ⟨none, path⟩) := by
  rcases evalPtr_cases h with he | ⟨l', he, hl, w, hw⟩
  · simp [evalEx, he, bind, Except.bind, pure, Except.pure]
  · simp [evalEx, he, hw, bind, Except.bind, ← hl, pure, Except.pure]

theorem PtrAt.elem {p : Ex} {path : List Step} (n : Nat)
    (h : PtrAt none p path) : PtrAt (some n) (elemPtr p) (path ++ [.idx n]) := by
  intro st w hv hl
  obtain ⟨u, hu, hl⟩ := loadPath_prefix hl
  have hp := h st u (by intro n hn; cases hn) hu
  obtain ⟨hn, hi⟩ := hv n rfl
  have hd := evalEx_deref hp
  have hnat : (UInt64.ofNat n).toNat = n := by
    simp [Nat.mod_eq_of_lt hn]
  refine evalPtr_of_ptr (evalEx_addr ?_)
  have hix : ∀ es : List GoVal, n < es.length →
      (loadPath st.v path = .ok (.arr es) ∨ loadPath st.v path = .ok (.slice (some es))) →
      evalEx st (.index (.deref p) iVar) = .ok (.place ⟨none, path ++ [.idx n]⟩) := by
    intro es hlt hes
    unfold evalEx
    rw [hd]
    rcases hes with hes | hes <;>
    simp [hi, indexOf, bind, Except.bind, load_root, hes, Loc.step, hnat, hlt, pure, Except.pure,
      -UInt64.toNat_ofNat']
  obtain ⟨y, hc, -⟩ := loadPath_cons_inv hl
  unfold child at hc
  split at hc
  case h_2 l m heq =>
    cases heq
    split at hc
    · rename_i x hx
      exact hix l (lt_of_getElem? hx) (.inr hu)
    · cases hc
  case h_4 l m heq =>
    cases heq
    split at hc
    · rename_i x hx
      exact hix l (lt_of_getElem? hx) (.inl hu)
    · cases hc
  all_goals (first | contradiction | (rename_i h; cases h))

end Verif.Gen
