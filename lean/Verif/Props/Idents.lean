/-
PROPERTY C44: how identifiers of the specification become Go identifiers.
-/
import Verif.Gen.Supported
import Verif.Props.Demo

namespace Verif.Props
open Verif.Spec Verif.Gen

/-- `c` is the upper-case, `d` the lower-case form of one ASCII letter. -/
def UpperLower (c d : Char) : Prop := 65 ≤ c.toNat ∧ c.toNat ≤ 90 ∧ d.toNat = c.toNat + 32

/-- The identifiers differ in the case of the first letter, and in nothing else. -/
def FirstCaseOnly (x y : Ident) : Prop :=
  ∃ c d cs, x.toList = c :: cs ∧ y.toList = d :: cs ∧ (UpperLower c d ∨ UpperLower d c)

/-- The words that `i` treats specially. -/
def IsTruth (x : Ident) : Prop := x = "TRUE" ∨ x = "FALSE"

theorem toUpper_toNat (c : Char) :
    c.toUpper.toNat = if 97 ≤ c.toNat ∧ c.toNat ≤ 122 then c.toNat - 32 else c.toNat := by
  unfold Char.toUpper
  have ha : ('a'.val ≤ c.val) ↔ 97 ≤ c.toNat := UInt32.le_iff_toNat_le
  have hz : (c.val ≤ 'z'.val) ↔ c.toNat ≤ 122 := UInt32.le_iff_toNat_le
  by_cases h : 'a'.val ≤ c.val ∧ c.val ≤ 'z'.val
  · have h' : 97 ≤ c.toNat ∧ c.toNat ≤ 122 := ⟨ha.mp h.1, hz.mp h.2⟩
    rw [dif_pos h, if_pos h']
    show (c.val + ('A'.val - 'a'.val)).toNat = c.val.toNat - 32
    have e : ('A'.val - 'a'.val).toNat = 2 ^ 32 - 32 := by decide
    have h2 : 97 ≤ c.val.toNat ∧ c.val.toNat ≤ 122 := h'
    rw [UInt32.toNat_add, e]
    omega
  · have h' : ¬ (97 ≤ c.toNat ∧ c.toNat ≤ 122) := fun h' => h ⟨ha.mpr h'.1, hz.mpr h'.2⟩
    rw [dif_neg h, if_neg h']

theorem toUpper_eq_iff (c d : Char) : c.toUpper = d.toUpper ↔ c = d ∨ UpperLower c d ∨ UpperLower d c := by
  have hc := toUpper_toNat c
  have hd := toUpper_toNat d
  have hinj : ∀ a b : Char, a = b ↔ a.toNat = b.toNat := fun a b =>
    ⟨fun h => h ▸ rfl, fun h => Char.ext (UInt32.toNat_inj.mp h)⟩
  rw [hinj, hinj c d, hc, hd]
  unfold UpperLower
  split <;> split <;> omega

theorem i_truth {x : Ident} (h : IsTruth x) : i x = "true" ∧ x = "TRUE" ∨ i x = "false" ∧ x = "FALSE" := by
  rcases h with rfl | rfl
  · exact .inl ⟨by decide, rfl⟩
  · exact .inr ⟨by decide, rfl⟩

/-- Everywhere else `i` changes the first letter to upper case. -/
theorem i_other {x : Ident} (h : ¬ IsTruth x) :
    (i x).toList = match x.toList with | [] => [] | c :: cs => c.toUpper :: cs := by
  have h1 : x ≠ "TRUE" := fun e => h (.inl e)
  have h2 : x ≠ "FALSE" := fun e => h (.inr e)
  unfold i
  rw [if_neg h1, if_neg h2]
  split <;> simp_all

/-- No identifier becomes `true` or `false` except `TRUE` and `FALSE`. -/
theorem i_other_ne {x : Ident} (h : ¬ IsTruth x) : i x ≠ "true" ∧ i x ≠ "false" := by
  have hl := i_other h
  have key : ∀ (c : Char) (s : Ident) (cs : List Char), s.toList = c :: cs →
      (97 ≤ c.toNat ∧ c.toNat ≤ 122) → i x ≠ s := by
    rintro c s cs hs hc rfl
    rw [hs] at hl
    split at hl
    · cases hl
    · rename_i d ds _
      have := toUpper_toNat d
      rw [← (List.cons.inj hl).1] at this
      split at this <;> omega
  exact ⟨key 't' _ ['r', 'u', 'e'] rfl (by decide), key 'f' _ ['a', 'l', 's', 'e'] rfl (by decide)⟩

/-- Two identifiers become the same Go identifier exactly if they are the same or differ only in the
case of the first letter (`TRUE` and `FALSE` excepted). -/
theorem C44_injective (x y : Ident) :
    i x = i y ↔ x = y ∨ ¬ IsTruth x ∧ ¬ IsTruth y ∧ FirstCaseOnly x y := by
  have str : ∀ a b : String, a = b ↔ a.toList = b.toList := fun a b => String.toList_inj.symm
  by_cases hx : IsTruth x
  · by_cases hy : IsTruth y
    · rcases i_truth hx with ⟨e1, rfl⟩ | ⟨e1, rfl⟩ <;> rcases i_truth hy with ⟨e2, rfl⟩ | ⟨e2, rfl⟩ <;>
        simp [e1, e2, hx]
    · have := i_other_ne hy
      constructor
      · intro h
        rcases i_truth hx with ⟨e1, rfl⟩ | ⟨e1, rfl⟩
        · exact absurd (h ▸ e1) this.1
        · exact absurd (h ▸ e1) this.2
      · rintro (rfl | ⟨h, _⟩)
        · rfl
        · exact absurd hx h
  · by_cases hy : IsTruth y
    · have := i_other_ne hx
      constructor
      · intro h
        rcases i_truth hy with ⟨e1, rfl⟩ | ⟨e1, rfl⟩
        · exact absurd (h ▸ e1) this.1
        · exact absurd (h ▸ e1) this.2
      · rintro (rfl | ⟨_, h, _⟩)
        · rfl
        · exact absurd hy h
    · rw [str (i x), i_other hx, i_other hy, str x y]
      unfold FirstCaseOnly
      cases hxl : x.toList with
      | nil =>
        cases hyl : y.toList with
        | nil => simp
        | cons d ds => simp
      | cons c cs =>
        cases hyl : y.toList with
        | nil => simp
        | cons d ds =>
          simp only [List.cons.injEq, toUpper_eq_iff, hx, hy, not_false_eq_true, true_and]
          constructor
          · rintro ⟨h1 | h1, rfl⟩
            · exact .inl ⟨h1, rfl⟩
            · exact .inr ⟨c, d, cs, ⟨rfl, rfl⟩, ⟨rfl, rfl⟩, h1⟩
          · rintro (⟨rfl, rfl⟩ | ⟨_, _, _, ⟨rfl, rfl⟩, ⟨rfl, rfl⟩, h⟩)
            · exact ⟨.inl rfl, rfl⟩
            · exact ⟨.inr h, rfl⟩

example : i "nfs_fh3" = i "Nfs_fh3" ∧ FirstCaseOnly "Nfs_fh3" "nfs_fh3" :=
  ⟨by decide +kernel, 'N', 'n', _, rfl, rfl, .inl (by unfold UpperLower; decide)⟩
-- the exception is needed
example : i "tRUE" ≠ i "TRUE" ∧ FirstCaseOnly "TRUE" "tRUE" :=
  ⟨by decide +kernel, 'T', 't', _, rfl, rfl, .inl (by unfold UpperLower; decide)⟩

/-- So definitions whose names differ only there collide: the package declares a type twice. -/
theorem C44_collision : ∃ (s : Gen.Spec) (g : GoProg), generate ⟨true, "uint32"⟩ s = some g ∧
    ((specTypes true s).map (·.1)).Nodup ∧ ¬ (g.types.map (·.1)).Nodup :=
  ⟨[.typedef (.name (.typespec (.int true)) "foo"), .typedef (.name (.typespec .bool) "Foo")], _, rfl,
    by decide +kernel, by decide +kernel⟩

/-- An identifier that starts with a letter becomes an exported Go identifier, so it clashes neither
with Go's keywords and predeclared names nor with the variables of the generated code. -/
theorem C44_exported (x : Ident) (c : Char) (cs : List Char) (hx : x.toList = c :: cs) (ht : ¬ IsTruth x)
    (hc : 65 ≤ c.toNat ∧ c.toNat ≤ 90 ∨ 97 ≤ c.toNat ∧ c.toNat ≤ 122) :
    ∃ d, (i x).toList = d :: cs ∧ 65 ≤ d.toNat ∧ d.toNat ≤ 90 := by
  have h := i_other ht
  rw [hx] at h
  refine ⟨_, h, ?_⟩
  rw [toUpper_toNat]
  split <;> omega

example : ∃ d, (i "type").toList = d :: ['y', 'p', 'e'] ∧ 65 ≤ d.toNat ∧ d.toNat ≤ 90 :=
  C44_exported "type" 't' _ rfl (by unfold IsTruth; decide) (by decide)

/-! ### References to constants -/

theorem const_declared {fl : Flags} {s : Gen.Spec} {g : GoProg} (hg : generate fl s = some g)
    (hn : (constNames g).Nodup) {d : Defn} (hd : d ∈ s) {c : GoConst} (hc : c ∈ defnConsts fl d) :
    g.consts.find? (·.name = c.name) = some c := by
  apply find_nodup hn
  rw [generate_consts hg]
  exact List.mem_flatMap.mpr ⟨d, hd, hc⟩

/-- A constant used as a size or limit is found, however it is spelled. -/
theorem C44_size {fl : Flags} {s : Gen.Spec} {g : GoProg} (hg : generate fl s = some g)
    (hn : (constNames g).Nodup) {n : Ident} {v : Nat} (hd : Defn.const n v ∈ s) :
    g.const (.ident n) = some v := by
  have h := const_declared hg hn hd (c := ⟨n, fl.constType, .lit v⟩) (by simp [defnConsts])
  simp only at h
  simp [GoProg.const, constVal, h]

/-- The names of the package's constants determine which labels mean something. -/
theorem label_none {g : GoProg} {n : Ident} (ht : n ≠ "true") (hf : n ≠ "false")
    (h : n ∉ constNames g) : g.label (.ident n) = none := by
  have hfind : g.consts.find? (·.name = n) = none := by
    rw [List.find?_eq_none]
    intro c hc he
    exact h (List.mem_map.mpr ⟨c, hc, by simpa using he⟩)
  unfold GoProg.label
  split
  · rename_i e; exact absurd (Val.ident.inj e) ht
  · rename_i e; exact absurd (Val.ident.inj e) hf
  · simp [GoProg.const, constVal, hfind]

theorem label_const {g : GoProg} {n : Ident} (ht : n ≠ "true") (hf : n ≠ "false") :
    g.label (.ident n) = (g.const (.ident n)).map .int := by
  unfold GoProg.label
  split
  · rename_i e; exact absurd (Val.ident.inj e) ht
  · rename_i e; exact absurd (Val.ident.inj e) hf
  · rfl

/-- A constant used as a case label is found if it is spelled with a leading capital.  Otherwise the
label is printed in another spelling than the constant: it means another constant, or none (then Go
refuses the package). -/
theorem C44_label {fl : Flags} {s : Gen.Spec} {g : GoProg} (hg : generate fl s = some g)
    (hn : (constNames g).Nodup) {n : Ident} {v : Nat} (hd : Defn.const n v ∈ s) (hT : ¬ IsTruth n) :
    (i n = n → g.label (iVal (.ident n)) = some (.int v)) ∧
    (i n ≠ n → i n ∉ constNames g → g.label (iVal (.ident n)) = none) := by
  obtain ⟨ht, hf⟩ := i_other_ne hT
  refine ⟨fun h => ?_, fun _ h => label_none ht hf h⟩
  rw [iVal, label_const ht hf, h, C44_size hg hn hd]
  rfl

/-- The enumerators are the other way round: as labels they are always found, as sizes or limits only
if they are spelled with a leading capital. -/
theorem C44_enum {fl : Flags} {s : Gen.Spec} {g : GoProg} (hg : generate fl s = some g)
    (hn : (constNames g).Nodup) {e : Ident} {items : List EnumItem} (hd : Defn.enum e items ∈ s)
    {n : Ident} {v : Nat} (hi : ⟨n, .lit v⟩ ∈ items) (hT : ¬ IsTruth n) :
    g.label (iVal (.ident n)) = some (.int v) ∧
    (i n = n → g.const (.ident n) = some v) ∧
    (i n ≠ n → n ∉ constNames g → g.const (.ident n) = none) := by
  obtain ⟨ht, hf⟩ := i_other_ne hT
  have h := const_declared hg hn hd (c := ⟨i n, i e, .lit v⟩)
    (by simp only [defnConsts, List.mem_map]; exact ⟨⟨n, .lit v⟩, hi, rfl⟩)
  simp only at h
  have hc : g.const (.ident (i n)) = some v := by simp [GoProg.const, constVal, h]
  refine ⟨?_, fun he => ?_, fun _ hx => ?_⟩
  · rw [iVal, label_const ht hf, hc]; rfl
  · rw [he] at hc; exact hc
  · have hfind : g.consts.find? (·.name = n) = none := by
      rw [List.find?_eq_none]
      intro c hc he
      exact hx (List.mem_map.mpr ⟨c, hc, by simpa using he⟩)
    simp [GoProg.const, constVal, hfind]

/-- `const max = 4; enum color { red = 3 }; typedef opaque a<max>; typedef opaque b<red>;` and
`union u switch (int d) { case max: void; case red: void; }` -/
def lowerSpec : Gen.Spec :=
  [.const "max" 4, .enum "color" [⟨"red", .lit 3⟩],
   .typedef (.name (.opaqueVarArray (some (.ident "max"))) "a"),
   .typedef (.name (.opaqueVarArray (some (.ident "red"))) "b"),
   .union "u" (.name (.typespec (.int false)) "d")
     (.cons (.ident "max") [] .void (.cons (.ident "red") [] .void .nil))]

-- both halves of C44_label and C44_enum occur: `a<max>` and `case red` work, `case max` and `b<red>` do not
example : ∃ g, generate ⟨true, "uint32"⟩ lowerSpec = some g ∧ (constNames g).Nodup ∧
    g.const (.ident "max") = some 4 ∧ g.label (iVal (.ident "red")) = some (.int 3) ∧
    g.label (iVal (.ident "max")) = none ∧ g.const (.ident "red") = none ∧
    i "max" ∉ constNames g ∧ "red" ∉ constNames g :=
  ⟨_, rfl, by decide +kernel, by decide +kernel, by decide +kernel, by decide +kernel, by decide +kernel,
    by decide +kernel, by decide +kernel⟩

end Verif.Props
