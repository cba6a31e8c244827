/-
A package that has the constants, types and methods that the generator prints: constants and zero values are the
same as in the package that was printed, so that the generated methods do what the functions of Verif.Gen.CodecN do.
-/
import Verif.Lang.GenMeth
import Verif.Gen.StaticPkg
import Mathlib.Data.List.Perm.Subperm

namespace Verif.Lang.Text
open Verif.Spec (CTy constTy basicTy tyByName ctyMax constDeclOk constFits constInt under underN intMax otherMax)
set_option linter.unusedSimpArgs false

/-- The package has the constants, types and methods `Xdr` of the generated package, and imports `xdr`; it may have
other declarations (those for programs, or from other files of the package), but not of predeclared names. -/
structure IsText (g : Gen.GoProg) (q : Pkg) : Prop where
  imp : "xdr" ∈ q.imports
  consts : ∀ c ∈ g.consts, q.consts.lookup c.name = some (if c.ty = "" then none else some (.name c.ty), valE c.val)
  types : ∀ n t, (n, t) ∈ g.types → q.types.lookup n = some (tyG t)
  meths : ∀ n b, (n, b) ∈ g.methods → q.meths.lookup (n, "Xdr") = some (methG n (stmtsG b))
  pre : ∀ x ∈ ["nil", "true", "false"], q.consts.lookup x = none

/-! ### Finding declarations -/

/-- The program with package xdr and `Ps` has the package `q`: none of those before has its name (or one with a dot). -/
def Has (Ps : Prog) (q : Pkg) : Prop :=
  q.name ≠ "xdr" ∧ ∃ Qs Qs', Ps = Qs ++ q :: Qs' ∧ ∀ p ∈ Qs, p.name ≠ q.name ∧ '.' ∉ p.name.toList

theorem Has.head {q : Pkg} {Qs : Prog} (hq : q.name ≠ "xdr") : Has (q :: Qs) q := ⟨hq, [], Qs, rfl, fun _ h => by cases h⟩

theorem pkg_second {q : Pkg} {Ps : Prog} (hq : Has Ps q) : Prog.pkg (xdrPkg :: Ps) q.name = some q := by
  obtain ⟨hq, Qs, Qs', rfl, h⟩ := hq
  have : (xdrPkg.name == q.name) = false := by
    rw [beq_eq_false_iff_ne]; exact fun e => hq e.symm
  rw [Prog.pkg, List.find?_cons, this]
  dsimp only
  rw [List.find?_append, List.find?_eq_none.mpr (fun p hp => by simpa using (h p hp).1)]
  simp

theorem Has.mem {q : Pkg} {Ps : Prog} (hq : Has Ps q) : q ∈ Ps := by
  obtain ⟨hq, Qs, Qs', rfl, h⟩ := hq
  simp

theorem le_sum {α : Type} (f : α → Nat) : ∀ {l : List α} {a : α}, a ∈ l → f a ≤ (l.map f).sum
  | b :: l, a, h => by
    rw [List.map_cons, List.sum_cons]
    rcases List.mem_cons.mp h with rfl | h
    · omega
    · have := le_sum f h; omega

theorem dot_inj {a b c d : List Char} (ha : '.' ∉ a) (hc : '.' ∉ c) (h : a ++ '.' :: b = c ++ '.' :: d) : a = c ∧ b = d := by
  induction a generalizing c with
  | nil =>
    cases c with
    | nil => exact ⟨rfl, by simpa using h⟩
    | cons x c => simp only [List.nil_append, List.cons_append, List.cons.injEq] at h; simp [← h.1] at hc
  | cons x a ih =>
    cases c with
    | nil => simp only [List.nil_append, List.cons_append, List.cons.injEq] at h; simp [h.1] at ha
    | cons y c =>
      simp only [List.cons_append, List.cons.injEq] at h
      simp only [List.mem_cons, not_or] at ha hc
      obtain ⟨h1, h2⟩ := ih ha.2 hc.2 h.2
      exact ⟨by rw [h.1, h1], h2⟩

theorem qual_inj {a b c d : String} (ha : '.' ∉ a.toList) (hc : '.' ∉ c.toList) (h : a ++ "." ++ b = c ++ "." ++ d) : a = c ∧ b = d := by
  have h' : a.toList ++ '.' :: b.toList = c.toList ++ '.' :: d.toList := by
    have := congrArg String.toList h
    simpa [String.toList_append] using this
  obtain ⟨h1, h2⟩ := dot_inj ha hc h'
  exact ⟨String.toList_inj.1 h1, String.toList_inj.1 h2⟩

theorem find_lookup {l : List ((String × String) × Func)} {p T m : String} {f : Func} (hp : '.' ∉ p.toList) (h : l.lookup (T, m) = some f) :
    (l.find? fun x => p ++ "." ++ x.1.1 == p ++ "." ++ T && x.1.2 == m) = some ((T, m), f) := by
  induction l with
  | nil => cases h
  | cons x l ih =>
    obtain ⟨⟨A, b⟩, g⟩ := x
    rw [List.lookup_cons] at h
    rw [List.find?_cons]
    split at h
    · rename_i he
      rw [beq_iff_eq] at he
      cases he
      cases h
      simp
    · rename_i he
      have : (p ++ "." ++ A == p ++ "." ++ T && b == m) = false := by
        rw [Bool.and_eq_false_iff, beq_eq_false_iff_ne, beq_eq_false_iff_ne]
        by_cases hb : b = m
        · refine .inl fun e => ?_
          obtain ⟨-, rfl⟩ := qual_inj hp hp e
          subst hb
          simp at he
        · exact .inr hb
      dsimp only
      rw [this]
      exact ih h

theorem find_other {p : Pkg} {n T m : String} (hp : p.name ≠ n) (hd : '.' ∉ n.toList) (hd' : '.' ∉ p.name.toList) :
    (p.meths.find? fun x => p.name ++ "." ++ x.1.1 == n ++ "." ++ T && x.1.2 == m) = none := by
  rw [List.find?_eq_none]
  intro x _ hx
  rw [Bool.and_eq_true, beq_iff_eq] at hx
  exact hp (qual_inj hd' hd hx.1).1

theorem find_meth {q : Pkg} {Ps : Prog} {T m : String} {f : Func} (hq : Has Ps q) (hd : '.' ∉ q.name.toList)
    (h : q.meths.lookup (T, m) = some f) : Prog.find (xdrPkg :: Ps) (.meth (q.name ++ "." ++ T) m) = some (q.name, f) := by
  obtain ⟨hq, Qs, Qs', rfl, hQ⟩ := hq
  have h1 := find_other (p := xdrPkg) (T := T) (m := m) hq.symm hd (by decide)
  simp only [Prog.find, List.findSome?_cons, h1, Option.map_none]
  rw [List.findSome?_append, List.findSome?_eq_none_iff.mpr (fun p hp => by
    rw [find_other (hQ p hp).1 hd (hQ p hp).2]; rfl)]
  simp only [List.findSome?_cons, find_lookup hd h, Option.map_some, Option.none_or]

/-! ### Numbers -/

theorem constNat_mono {cs : List (String × Option Ty × Expr)} : ∀ {k k' : Nat} {e : Expr} {n : Nat}, k ≤ k' → constNat cs k e = some n →
    constNat cs k' e = some n
  | 0, k', e, n, hk, h => by
    rw [constNat.eq_def] at h
    cases e <;> simp only [reduceCtorEq] at h
    cases k' <;> (rw [constNat]; exact h)
  | k + 1, 0, e, n, hk, h => by omega
  | k + 1, k' + 1, e, n, hk, h => by
    rw [constNat.eq_def] at h
    cases e <;> simp only [reduceCtorEq] at h
    · rw [constNat]
      obtain ⟨c, hc, h⟩ := Option.bind_eq_some_iff.1 h
      rw [hc]
      exact constNat_mono (by omega) h
    · rw [constNat]; exact h

variable {fl : Gen.Flags} {s : Gen.Spec} {g : Gen.GoProg} {q : Pkg} {Ps : Prog}

theorem IsText.constNat_eq (T : IsText g q) : ∀ {k : Nat} {v : Gen.Val} {n : Nat}, Gen.constVal g.consts k v = some n →
    constNat q.consts k (valE v) = some n
  | k, .lit m, n, h => by cases k <;> (rw [Gen.constVal] at h; rw [valE, constNat]; exact h)
  | 0, .ident x, n, h => by simp [Gen.constVal] at h
  | k + 1, .ident x, n, h => by
    rw [Gen.constVal] at h
    rw [valE, constNat]
    split at h
    · rename_i c hc
      have hm := List.mem_of_find?_eq_some hc
      have hn := List.find?_some hc
      rw [decide_eq_true_eq] at hn
      rw [← hn, T.consts c hm]
      exact T.constNat_eq h
    · cases h

theorem IsText.len (T : IsText g q) (hnd : (Gen.constNames g).Nodup) : g.consts.length ≤ q.consts.length := by
  have h : Gen.constNames g ⊆ q.consts.map Prod.fst := by
    intro x hx
    simp only [Gen.constNames, List.mem_map] at hx
    obtain ⟨c, hc, rfl⟩ := hx
    exact List.mem_map.2 ⟨_, Gen.lookup_mem (T.consts c hc), rfl⟩
  have := (List.subperm_of_subset hnd h).length_le
  simpa [Gen.constNames] using this

theorem IsText.nat (T : IsText g q) (hnd : (Gen.constNames g).Nodup) {v : Gen.Val} {n : Nat} (h : g.const v = some n) : q.nat (valE v) = some n := by
  have := T.len hnd
  exact constNat_mono (by omega) (T.constNat_eq h)

/-! ### Zero values -/

mutual
/-- Types without arrays (of anything but bytes) and floating point, with distinct names of fields. -/
def plainT : Gen.GoType → Prop
  | .float32 => False
  | .float64 => False
  | .array _ _ => False
  | .struct fs => fs.names.Nodup ∧ plainF fs
  | _ => True
def plainF : Gen.GoFields → Prop
  | .nil => True
  | .cons _ t fs => plainT t ∧ plainF fs
end

/-- The value is this one, whatever the memory is. -/
def RepZ (v : V) (y : Gen.GoVal) : Prop := ∀ {ω : Type} (st : St ω), Rep st (fun _ => False) v y

theorem fieldsG_names : ∀ fs : Gen.GoFields, (fieldsG fs).map Prod.fst = fs.names
  | .nil => rfl
  | .cons n t fs => by rw [fieldsG, List.map_cons, fieldsG_names fs]; rfl

theorem depth_pos (t : Ty) : 1 ≤ t.depth := by cases t <;> simp [Ty.depth]

section
variable (T : IsText g q) (hnd : (Gen.constNames g).Nodup) (hq : Has Ps q) {zn : String → Option Gen.GoVal} {B : Nat}
  (hz : ∀ n y, zn n = some y → ∀ F, B ≤ F → ∃ v, zeroN (xdrPkg :: Ps) F q.name (.name n) = some v ∧ RepZ v y)
include T hnd hq hz

mutual
theorem zeroT : ∀ (t : Gen.GoType) {y : Gen.GoVal}, plainT t → Gen.zeroGo g.const zn t = some y → ∀ F, B + (tyG t).depth ≤ F →
    ∃ v, zeroN (xdrPkg :: Ps) F q.name (tyG t) = some v ∧ RepZ v y
  | t, y, hp, h, 0, hF => by have := depth_pos (tyG t); omega
  | .uint32, y, _, h, F + 1, _ => by rw [Gen.zeroGo] at h; cases h; exact ⟨_, by simp [tyG, zeroN], fun _ => .u32 _⟩
  | .int32, y, _, h, F + 1, _ => by rw [Gen.zeroGo] at h; cases h; exact ⟨_, by simp [tyG, zeroN], fun _ => .i32 _⟩
  | .uint64, y, _, h, F + 1, _ => by rw [Gen.zeroGo] at h; cases h; exact ⟨_, by simp [tyG, zeroN], fun _ => .u64 _⟩
  | .int64, y, _, h, F + 1, _ => by rw [Gen.zeroGo] at h; cases h; exact ⟨_, by simp [tyG, zeroN], fun _ => .i64 _⟩
  | .bool, y, _, h, F + 1, _ => by rw [Gen.zeroGo] at h; cases h; exact ⟨_, by simp [tyG, zeroN], fun _ => .bool _⟩
  | .float32, y, hp, h, F + 1, _ => by simp [plainT] at hp
  | .float64, y, hp, h, F + 1, _ => by simp [plainT] at hp
  | .string, y, _, h, F + 1, _ => by rw [Gen.zeroGo] at h; cases h; exact ⟨_, by simp [tyG, zeroN], fun _ => .str _⟩
  | .bytes, y, _, h, F + 1, _ => by
    rw [Gen.zeroGo] at h; cases h
    exact ⟨.nil, by simp [tyG, zeroN], fun _ => .bytes .nil fun s e => by cases e⟩
  | .byteArray (.lit n), y, _, h, F + 1, _ => by
    rw [Gen.zeroGo] at h
    obtain ⟨m, hm, rfl⟩ := Option.map_eq_some_iff.1 h
    have : m = n := by simpa [Gen.GoProg.const, Gen.constVal] using hm.symm
    subst this
    exact ⟨.bytes (List.replicate m 0), by simp [tyG, zeroN], fun _ => .barr _⟩
  | .byteArray (.ident c), y, _, h, F + 1, _ => by
    rw [Gen.zeroGo] at h
    obtain ⟨m, hm, rfl⟩ := Option.map_eq_some_iff.1 h
    have := T.nat hnd hm
    rw [valE] at this
    refine ⟨.bytes (List.replicate m 0), ?_, fun _ => .barr _⟩
    simp only [tyG, zeroN, pkg_second hq]
    show (q.nat (.id c)).bind _ = _
    rw [this]
    rfl
  | .array sz t, y, hp, h, F + 1, _ => by simp [plainT] at hp
  | .slice t, y, _, h, F + 1, _ => by rw [Gen.zeroGo] at h; cases h; exact ⟨.nil, by simp [tyG, zeroN], fun _ => .snil⟩
  | .ptr t, y, _, h, F + 1, _ => by rw [Gen.zeroGo] at h; cases h; exact ⟨.nil, by simp [tyG, zeroN], fun _ => .pnil⟩
  | .struct fs, y, hp, h, F + 1, hF => by
    rw [Gen.zeroGo] at h
    obtain ⟨ys, hys, rfl⟩ := Option.map_eq_some_iff.1 h
    rw [plainT] at hp
    rw [tyG, Ty.depth] at hF
    obtain ⟨vs, h1, h2, h3⟩ := zeroF fs hp.2 hys F (by omega)
    refine ⟨.struct "" vs, ?_, fun st => (h3 st).struct (by rw [h2]; exact hp.1)⟩
    rw [tyG, zeroN, h1]
    rfl
  | .named n, y, _, h, F + 1, hF => by
    rw [Gen.zeroGo] at h
    rw [tyG] at hF ⊢
    exact hz n y h _ (by simp only [Ty.depth] at hF; omega)
theorem zeroF : ∀ (fs : Gen.GoFields) {ys : List (String × Gen.GoVal)}, plainF fs → Gen.zeroFields g.const zn fs = some ys →
    ∀ F, B + depths (fieldsG fs) ≤ F → ∃ vs, (fieldsG fs).mapM (fun f => (zeroN (xdrPkg :: Ps) F q.name f.2).map (f.1, ·)) = some vs ∧
      vs.map Prod.fst = fs.names ∧ ∀ {ω : Type} (st : St ω), RepF st (fun _ => False) vs ys
  | .nil, ys, _, h, F, _ => by
    rw [Gen.zeroFields] at h
    cases h
    exact ⟨[], rfl, rfl, fun st => .nil⟩
  | .cons n t fs, ys, hp, h, F, hF => by
    rw [Gen.zeroFields] at h
    obtain ⟨z, hz1, h⟩ := Option.bind_eq_some_iff.1 h
    obtain ⟨zs, hz2, h⟩ := Option.bind_eq_some_iff.1 h
    cases h
    rw [plainF] at hp
    simp only [fieldsG, depths, depthF] at hF
    obtain ⟨v, h1, h2⟩ := zeroT t hp.1 hz1 F (by omega)
    obtain ⟨vs, h3, h4, h5⟩ := zeroF fs hp.2 hz2 F (by omega)
    refine ⟨(n, v) :: vs, ?_, by rw [List.map_cons, h4]; rfl, fun st => .cons (h2 st) (h5 st)⟩
    rw [fieldsG, List.mapM_cons, h1, h3]
    rfl
end
end

theorem depth_le : ∀ {l : List (String × Ty)} {n : String} {t : Ty}, (n, t) ∈ l → t.depth ≤ depths l
  | (m, u) :: l, n, t, h => by
    rw [depths, depthF]
    rcases List.mem_cons.1 h with h | h
    · cases h; omega
    · have := depth_le h; omega

/-- The zero values of named types. -/
theorem zeroName (T : IsText g q) (hnd : (Gen.constNames g).Nodup) (hq : Has Ps q)
    (hT : ∀ n t, (n, t) ∈ g.types → n ∉ Gen.badNames ∧ plainT t) {D : Nat} (hD : depths q.types ≤ D) :
    ∀ (k : Nat) (n : String) (y : Gen.GoVal), g.zeroN k n = some y → ∀ F, k * (D + 1) ≤ F →
      ∃ v, zeroN (xdrPkg :: Ps) F q.name (.name n) = some v ∧ RepZ v y
  | 0, n, y, h, F, hF => by cases h
  | k + 1, n, y, h, 0, hF => by rw [Nat.add_one_mul] at hF; omega
  | k + 1, n, y, h, F + 1, hF => by
    rw [Gen.GoProg.zeroN] at h
    rw [Nat.add_one_mul] at hF
    cases hl : g.types.lookup n with
    | none => rw [hl] at h; cases h
    | some t =>
      rw [hl] at h
      dsimp only at h
      have hm := Gen.lookup_mem hl
      obtain ⟨hb, hp⟩ := hT n t hm
      have ht := T.types n t hm
      have hd := depth_le (Gen.lookup_mem ht)
      have hz := zeroT (B := k * (D + 1)) (Ps := Ps) T hnd hq (fun m z hz F hF => zeroName T hnd hq hT hD k m z hz F hF)
      have hn : ∀ x ∈ Gen.badNames, n ≠ x := fun x hx e => hb (e ▸ hx)
      simp only [zeroN, if_neg (hn "int" (by decide)), if_neg (hn "uint32" (by decide)), if_neg (hn "int32" (by decide)),
        if_neg (hn "uint64" (by decide)), if_neg (hn "int64" (by decide)), if_neg (hn "bool" (by decide)),
        if_neg (hn "string" (by decide)), if_neg (hn "error" (by decide)), pkg_second hq, ht, bind, Option.bind]
      by_cases hs : ∃ fs, t = .struct fs
      · obtain ⟨fs, rfl⟩ := hs
        rw [Gen.zeroGo] at h
        obtain ⟨ys, hys, rfl⟩ := Option.map_eq_some_iff.1 h
        rw [plainT] at hp
        rw [tyG, Ty.depth] at hd
        obtain ⟨vs, h1, h2, h3⟩ := zeroF (B := k * (D + 1)) (Ps := Ps) T hnd hq (fun m z hz F hF => zeroName T hnd hq hT hD k m z hz F hF)
          fs hp.2 hys F (by omega)
        refine ⟨.struct (q.name ++ "." ++ n) vs, ?_, fun st => (h3 st).struct (by rw [h2]; exact hp.1)⟩
        simp only [tyG, h1]
        rfl
      · obtain ⟨v, h1, h2⟩ := hz t hp h F (by omega)
        refine ⟨v, ?_, h2⟩
        rw [← h1]
        cases t with
        | struct fs => exact absurd ⟨fs, rfl⟩ hs
        | byteArray v => cases v <;> rfl
        | array v t => cases v <;> rfl
        | _ => rfl

theorem IsText.typesLen (T : IsText g q) (hnd : (g.types.map Prod.fst).Nodup) : g.types.length ≤ q.types.length := by
  have h : g.types.map Prod.fst ⊆ q.types.map Prod.fst := by
    intro x hx
    obtain ⟨⟨n, t⟩, hc, rfl⟩ := List.mem_map.1 hx
    exact List.mem_map.2 ⟨_, Gen.lookup_mem (T.types n t hc), rfl⟩
  have := (List.subperm_of_subset hnd h).length_le
  simpa using this

/-- The zero values are the same. -/
theorem IsText.zero (T : IsText g q) (hnd : (Gen.constNames g).Nodup) (hnt : (g.types.map Prod.fst).Nodup) (hq : Has Ps q)
    (hT : ∀ n t, (n, t) ∈ g.types → n ∉ Gen.badNames ∧ plainT t) {t : Gen.GoType} (ht : plainT t) :
    ZeroOK (xdrPkg :: Ps) q.name (tyG t) (g.zero t) := by
  intro y hy
  have hl := T.typesLen hnt
  generalize hD : ((xdrPkg :: Ps).map fun q => depths q.types).sum = D
  have hD' : depths q.types ≤ D := by
    have := le_sum (fun q => depths q.types) hq.mem
    rw [← hD]; simp only [List.map_cons, List.sum_cons]; omega
  have hn := zeroName (Ps := Ps) T hnd hq hT hD'
  obtain ⟨v, h1, h2⟩ := zeroT (Ps := Ps) (B := (g.types.length + 1) * (D + 1)) T hnd hq (fun n y h F hF => hn _ n y h F hF) t ht hy
    (Prog.fuel (xdrPkg :: Ps) (tyG t)) (by
      rw [Prog.fuel, hD]
      have : (g.types.length + 1) * (D + 1) ≤ (((xdrPkg :: Ps).map (·.types.length)).sum + 1) * (D + 1) := by
        apply Nat.mul_le_mul_right
        have := le_sum (·.types.length) hq.mem
        simp only [List.map_cons, List.sum_cons]
        omega
      omega)
  exact ⟨v, h1, fun st => h2 st⟩

end Verif.Lang.Text
