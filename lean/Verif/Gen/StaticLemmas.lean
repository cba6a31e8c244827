/-
Helper lemmas for `Props.Typing`: constants, names and types of the package generated for a
compilable specification.
-/
import Verif.Gen.Checks

namespace Verif.Gen
open Verif.Spec

/-! ### Underlying types -/

theorem underN_mono {g : GoProg} : ∀ {k k' : Nat} {t u : GoType}, k ≤ k' →
    underN g k t = some u → underN g k' t = some u
  | 0, 0, t, u, _, h => h
  | 0, k' + 1, t, u, _, h => by cases t <;> simp_all [underN]
  | k + 1, 0, t, u, hk, h => by omega
  | k + 1, k' + 1, t, u, hk, h => by
    cases t with
    | named n =>
      simp only [underN] at h ⊢
      cases hl : g.types.lookup n with
      | none => rw [hl] at h; cases h
      | some t' =>
        rw [hl] at h
        simp only [Option.bind_some] at h ⊢
        exact underN_mono (by omega) h
    | _ => simpa [underN] using h

theorem underN_named_ne {g : GoProg} {k : Nat} {t u : GoType} (h : underN g k t = some u) (n : Ident) :
    u ≠ .named n := by
  induction k generalizing t with
  | zero => cases t <;> simp [underN] at h <;> subst h <;> simp
  | succ k ih =>
    cases t with
    | named m =>
      simp only [underN] at h
      cases hl : g.types.lookup m with
      | none => rw [hl] at h; cases h
      | some t' => rw [hl] at h; exact ih h
    | _ => simp [underN] at h; subst h; simp

theorem underN_of_zero {g : GoProg} : ∀ {k : Nat} {t : GoType},
    (zeroGo g.const (g.zeroN k) t).isSome = true → (underN g k t).isSome = true
  | 0, t, h => by
    cases t with
    | named n => simp [zeroGo, GoProg.zeroN] at h
    | _ => simp [underN]
  | k + 1, t, h => by
    cases t with
    | named n =>
      simp only [zeroGo, GoProg.zeroN] at h
      simp only [underN]
      cases hl : g.types.lookup n with
      | none => rw [hl] at h; simp at h
      | some t' => rw [hl] at h; simpa using underN_of_zero h
    | _ => simp [underN]

theorem under_of_zero {g : GoProg} {n : Ident} (h : (g.zeroNamed n).isSome = true) :
    (under g (.named n)).isSome = true :=
  underN_of_zero (k := g.types.length + 1) (t := .named n) (by simpa [zeroGo, GoProg.zeroNamed] using h)

mutual
theorem finT_of_zero {const : Val → Option Nat} {zn : Ident → Option GoVal} {fn : Ident → Bool}
    (hz : ∀ n, (zn n).isSome = true → fn n = true) : ∀ t : GoType,
    (zeroGo const zn t).isSome = true → finT fn t = true
  | .uint32, _ => by simp [finT]
  | .int32, _ => by simp [finT]
  | .uint64, _ => by simp [finT]
  | .int64, _ => by simp [finT]
  | .bool, _ => by simp [finT]
  | .float32, _ => by simp [finT]
  | .float64, _ => by simp [finT]
  | .string, _ => by simp [finT]
  | .bytes, _ => by simp [finT]
  | .byteArray _, _ => by simp [finT]
  | .array sz t, h => by
    simp only [finT]
    simp only [zeroGo, bind, Option.bind] at h
    cases hc : const sz with
    | none => rw [hc] at h; simp at h
    | some c =>
      rw [hc] at h
      cases hz' : zeroGo const zn t with
      | none => simp [hz'] at h
      | some z => exact finT_of_zero hz t (by rw [hz']; rfl)
  | .slice _, _ => by simp [finT]
  | .ptr _, _ => by simp [finT]
  | .struct fs, h => by
    simp only [finT]
    exact finFs_of_zero hz fs (by simpa [zeroGo] using h)
  | .named n, h => by
    simp only [finT]
    exact hz n (by simpa [zeroGo] using h)
theorem finFs_of_zero {const : Val → Option Nat} {zn : Ident → Option GoVal} {fn : Ident → Bool}
    (hz : ∀ n, (zn n).isSome = true → fn n = true) : ∀ fs : GoFields,
    (zeroFields const zn fs).isSome = true → finFs fn fs = true
  | .nil, _ => by simp [finFs]
  | .cons n t fs, h => by
    simp only [zeroFields, bind, Option.bind] at h
    simp only [finFs, Bool.and_eq_true]
    cases h1 : zeroGo const zn t with
    | none => simp [h1] at h
    | some z =>
      cases h2 : zeroFields const zn fs with
      | none => simp [h1, h2] at h
      | some zs => exact ⟨finT_of_zero hz t (by rw [h1]; rfl), finFs_of_zero hz fs (by rw [h2]; rfl)⟩
end

theorem finN_of_zero {g : GoProg} : ∀ {k : Nat} {n : Ident}, (g.zeroN k n).isSome = true →
    finN g k n = true
  | 0, n, h => by simp [GoProg.zeroN] at h
  | k + 1, n, h => by
    simp only [GoProg.zeroN] at h
    simp only [finN]
    cases hl : g.types.lookup n with
    | none => rw [hl] at h; simp at h
    | some t =>
      rw [hl] at h
      simp only [Option.any_some]
      exact finT_of_zero (fun m hm => finN_of_zero hm) t h

/-! ### What is known about a compilable specification -/

structure Comp (fl : Flags) (s : Spec) (g : GoProg) : Prop where
  facts : SupportedFacts fl s g
  lnk : Link g (envOf fl.unsignedEnum s) (defsOf fl s) (nameBound fl s)
  nodup : (s.flatMap defnNames).Nodup
  bad : ∀ n ∈ s.flatMap defnNames, n ∉ badNames
  chk : ∀ d ∈ s, d.chk fl s = true

theorem compilable_comp {fl : Flags} {s : Spec} {g : GoProg} (hg : generate fl s = some g)
    (h : compilable fl s = true) : Comp fl s g ∧ s.any Defn.usesXdr = true := by
  simp only [compilable, Bool.and_eq_true, decide_eq_true_eq] at h
  refine ⟨⟨supported_facts hg h.1.1.1.1, link hg h.1.1.1.1, h.1.1.1.2, ?_, ?_⟩, h.2⟩
  · intro n hn
    have := List.all_eq_true.mp h.1.1.2 n hn
    simpa using this
  · exact fun d hd => List.all_eq_true.mp h.1.2 d hd

/-- Every declared type has a Go name among the names of the package. -/
theorem typeName_mem : ∀ {s : Spec} {u : Bool} {n : Ident} {t : DeclType}, (n, t) ∈ specTypes u s →
    i n ∈ s.flatMap defnNames
  | [], u, n, t, h => by simp [specTypes] at h
  | d :: s, u, n, t, h => by
    rw [specTypes_cons] at h
    rcases List.mem_append.mp h with h | h
    · simp only [List.flatMap_cons, List.mem_append]
      refine .inl ?_
      cases d with
      | typedef d =>
        cases d with
        | void => simp [specTypes] at h
        | name t' m => simp [specTypes] at h; simp [defnNames, h.1]
      | enum m items => simp [specTypes] at h; simp [defnNames, h.1]
      | struct m ds => simp [specTypes] at h; simp [defnNames, h.1]
      | union m sw cs => simp [specTypes] at h; simp [defnNames, h.1]
      | _ => simp [specTypes] at h
    · simp only [List.flatMap_cons, List.mem_append]
      exact .inr (typeName_mem h)

theorem constName_mem {fl : Flags} : ∀ {s : Spec} {c : GoConst}, c ∈ s.flatMap (defnConsts fl) →
    c.name ∈ s.flatMap defnNames
  | [], c, h => by simp at h
  | d :: s, c, h => by
    simp only [List.flatMap_cons, List.mem_append] at h ⊢
    rcases h with h | h
    · refine .inl ?_
      cases d with
      | const m w => simp [defnConsts] at h; simp [defnNames, h]
      | enum m items =>
        simp only [defnConsts, List.mem_map] at h
        obtain ⟨it, hit, rfl⟩ := h
        simp only [defnNames, List.mem_cons, List.mem_map]
        exact .inr ⟨it, hit, rfl⟩
      | program p =>
        simp only [defnConsts, emitProgConsts, List.mem_cons, List.mem_flatMap, List.mem_map] at h
        simp only [defnNames, List.mem_cons, List.mem_flatMap, List.mem_append, List.mem_map]
        rcases h with rfl | ⟨v, hv, rfl | ⟨c', hc', rfl⟩⟩
        · exact .inl rfl
        · exact .inr ⟨v, hv, .inl (.inl rfl)⟩
        · exact .inr ⟨v, hv, .inl (.inr ⟨c', hc', rfl⟩)⟩
      | _ => simp [defnConsts] at h
    · exact .inr (constName_mem h)

section
variable {fl : Flags} {s : Spec} {g : GoProg} (H : Comp fl s g)

theorem typesLookup_isSome_mem {β} {l : List (Ident × β)} {n : Ident} (h : (l.lookup n).isSome = true) :
    ∃ t, (n, t) ∈ l := by
  cases hl : l.lookup n with
  | none => simp [hl] at h
  | some t => exact ⟨t, lookup_mem hl⟩

theorem mapAll_mem {α β} {f : α → Option β} : ∀ {l : List α} {r : List β} {b : β},
    mapAll f l = some r → b ∈ r → ∃ a ∈ l, f a = some b
  | [], r, b, h, hb => by cases h; simp at hb
  | a :: l, r, b, h, hb => by
    simp only [mapAll, bind, Option.bind, Pure.pure] at h
    cases h1 : f a with
    | none => rw [h1] at h; cases h
    | some b' =>
      rw [h1] at h
      cases h2 : mapAll f l with
      | none => simp [h2] at h
      | some r2 =>
        simp only [h2, Option.some.injEq] at h
        subst h
        rcases List.mem_cons.mp hb with rfl | hb
        · exact ⟨a, by simp, h1⟩
        · obtain ⟨a', ha', h3⟩ := mapAll_mem h2 hb
          exact ⟨a', by simp [ha'], h3⟩

include H in
/-- A declared Go type comes from a definition. -/
theorem Comp.type_mem {N : Ident} {gt : GoType} (h : (N, gt) ∈ g.types) :
    ∃ n t, (n, t) ∈ specTypes fl.unsignedEnum s ∧ N = i n ∧ topType t = some gt := by
  obtain ⟨ht, _⟩ := generate_types H.facts.gen
  obtain ⟨⟨n, t⟩, hm, h⟩ := mapAll_mem ht h
  simp only [Option.map_eq_some_iff] at h
  obtain ⟨gt', h1, h2⟩ := h
  cases h2
  exact ⟨n, t, hm, rfl, h1⟩

include H in
theorem Comp.type_bad {N : Ident} (h : (g.types.lookup N).isSome = true) : N ∉ badNames := by
  obtain ⟨t, ht⟩ := typesLookup_isSome_mem h
  obtain ⟨n, t', hm, rfl, _⟩ := H.type_mem ht
  exact H.bad _ (typeName_mem hm)

include H in
theorem Comp.typeOf_lookup {n : Ident} (h : ((envOf fl.unsignedEnum s).typeOf n).isSome = true) :
    (g.types.lookup (i n)).isSome = true := by
  cases ht : (envOf fl.unsignedEnum s).typeOf n with
  | none => simp [ht] at h
  | some t =>
    obtain ⟨gt, _, h2⟩ := H.lnk.goType n t ht
    simp [h2]

include H in
theorem Comp.under_isSome {n : Ident} (h : ((envOf fl.unsignedEnum s).typeOf n).isSome = true) :
    (under g (.named (i n))).isSome = true := by
  cases ht : (envOf fl.unsignedEnum s).typeOf n with
  | none => simp [ht] at h
  | some t => exact under_of_zero (H.lnk.zero n t ht)

/-! ### Constants -/

/-- Where the type of a constant comes from. -/
def CtyFrom (fl : Flags) (s : Spec) (n : Ident) (ct : CTy) : Prop :=
  ∃ c ∈ s.flatMap (defnConsts fl), ∃ v, (n, v) ∈ specConsts s ∧ c.val = v ∧
    ((c.name = n ∧ c.ty = fl.constType ∧ (∃ k, v = Val.lit k) ∧
        (fl.constType = "" ∧ ct = .untyped ∨ fl.constType ≠ "" ∧ basicTy fl.constType = some ct)) ∨
     (c.name = i n ∧ ∃ e items, Defn.enum e items ∈ s ∧ c.ty = i e ∧ ct = .typed (.named (i e))))

theorem CtyFrom.cons {s : Spec} {n : Ident} {ct : CTy} (d : Defn) (h : CtyFrom fl s n ct)
    (hs : ∀ p ∈ specConsts s, p ∈ specConsts (d :: s)) : CtyFrom fl (d :: s) n ct := by
  obtain ⟨c, hc, v, hv, h1, h2⟩ := h
  refine ⟨c, by simp only [List.flatMap_cons, List.mem_append]; exact .inr hc, v, hs _ hv, h1, ?_⟩
  rcases h2 with h2 | ⟨h2, e, items, he, h3⟩
  · exact .inl h2
  · exact .inr ⟨h2, e, items, List.mem_cons_of_mem _ he, h3⟩

theorem ctyName_mem : ∀ {s : Spec} {n : Ident} {ct : CTy}, ctyName fl s n = some ct →
    CtyFrom fl s n ct
  | [], n, ct, h => by simp [ctyName] at h
  | d :: s, n, ct, h => by
    have hrec : ctyName fl s n = some ct → (∀ p ∈ specConsts s, p ∈ specConsts (d :: s)) →
        CtyFrom fl (d :: s) n ct := fun h hs => (ctyName_mem h).cons d hs
    cases d with
    | const m w =>
      simp only [ctyName] at h
      split at h
      · rename_i hnm
        subst hnm
        refine ⟨⟨n, fl.constType, .lit w⟩, by simp [defnConsts], .lit w, by simp [specConsts], rfl,
          .inl ⟨rfl, rfl, ⟨w, rfl⟩, ?_⟩⟩
        split at h
        · rename_i hc; cases h; exact .inl ⟨hc, rfl⟩
        · rename_i hc; exact .inr ⟨hc, h⟩
      · exact hrec h (fun p hp => by simp [specConsts, hp])
    | enum e items =>
      simp only [ctyName] at h
      split at h
      · rename_i hmem
        cases h
        obtain ⟨it, hit, rfl⟩ := List.mem_map.mp hmem
        refine ⟨⟨i it.name, i e, it.val⟩, ?_, it.val, ?_, rfl, .inr ⟨rfl, e, items, by simp, rfl, rfl⟩⟩
        · simp only [List.flatMap_cons, List.mem_append, defnConsts, List.mem_map]
          exact .inl ⟨it, hit, rfl⟩
        · simp only [specConsts, List.mem_append, List.mem_map]
          exact .inl ⟨it, hit, rfl⟩
      · exact hrec h (fun p hp => by simp [specConsts, hp])
    | typedef d => exact hrec h (fun p hp => by simpa [specConsts] using hp)
    | struct m ds => exact hrec h (fun p hp => by simpa [specConsts] using hp)
    | union m sw cs => exact hrec h (fun p hp => by simpa [specConsts] using hp)
    | program p => exact hrec h (fun p hp => by simpa [specConsts] using hp)

theorem enum_specTypes : ∀ {s : Spec} {e : Ident} {items : List EnumItem} {u : Bool},
    .enum e items ∈ s → (e, .typespec (.int u)) ∈ specTypes u s
  | [], e, items, u, h => by simp at h
  | d :: s, e, items, u, h => by
    rw [specTypes_cons]
    rcases List.mem_cons.mp h with rfl | h
    · simp [specTypes]
    · exact List.mem_append.mpr (.inr (enum_specTypes h))

theorem lookup_of_mem {β} {l : List (Ident × β)} {n : Ident} {t : β} (h : (n, t) ∈ l) :
    (l.lookup n).isSome = true := by
  induction l with
  | nil => simp at h
  | cons q l ih =>
    obtain ⟨m, u⟩ := q
    simp only [List.lookup_cons]
    split
    · rfl
    · rename_i hne
      rcases List.mem_cons.mp h with h | h
      · cases h; simp at hne
      · exact ih h

theorem mapAll_mem' {α β} {f : α → Option β} : ∀ {l : List α} {r : List β} {a : α},
    mapAll f l = some r → a ∈ l → ∃ b ∈ r, f a = some b
  | [], r, b, h, hb => by simp at hb
  | a :: l, r, b, h, hb => by
    simp only [mapAll, bind, Option.bind, Pure.pure] at h
    cases h1 : f a with
    | none => rw [h1] at h; cases h
    | some b' =>
      rw [h1] at h
      cases h2 : mapAll f l with
      | none => simp [h2] at h
      | some r2 =>
        simp only [h2, Option.some.injEq] at h
        subst h
        rcases List.mem_cons.mp hb with rfl | hb
        · exact ⟨b', by simp, h1⟩
        · obtain ⟨b2, hb2, h3⟩ := mapAll_mem' h2 hb
          exact ⟨b2, by simp [hb2], h3⟩

include H in
/-- Every definition of a type is in the package. -/
theorem Comp.type_of_mem {n : Ident} {t : DeclType} (h : (n, t) ∈ specTypes fl.unsignedEnum s) :
    ∃ gt, topType t = some gt ∧ (i n, gt) ∈ g.types := by
  obtain ⟨ht, _⟩ := generate_types H.facts.gen
  obtain ⟨b, hb, h1⟩ := mapAll_mem' ht h
  simp only [Option.map_eq_some_iff] at h1
  obtain ⟨gt, h2, rfl⟩ := h1
  exact ⟨gt, h2, hb⟩

theorem basicTy_bad {n : Ident} (h : (basicTy n).isSome = true) : n ∈ badNames := by
  unfold basicTy at h
  split at h
  all_goals try (simp [badNames, predeclared]; done)
  unfold otherMax at h
  split at h <;> simp_all [badNames, predeclared]

include H in
theorem Comp.tyByName_basic {n : Ident} {ct : CTy} (h : basicTy n = some ct) :
    tyByName g n = some ct := by
  unfold tyByName
  split
  · rename_i hl
    exact absurd (basicTy_bad (by simp [h])) (H.type_bad hl)
  · exact h

include H in
theorem Comp.tyByName_enum {e : Ident} {items : List EnumItem} (h : .enum e items ∈ s) :
    tyByName g (i e) = some (.typed (.named (i e))) ∧ i e ≠ "" := by
  obtain ⟨gt, _, hm⟩ := H.type_of_mem (enum_specTypes (u := fl.unsignedEnum) h)
  have hl := lookup_of_mem hm
  refine ⟨by simp [tyByName, hl], fun he => ?_⟩
  have := H.type_bad hl
  rw [he] at this
  exact this (by simp [badNames])

include H in
/-- Constants have the Go types that `ctyVal` says. -/
theorem Comp.constTy_eq {v : Val} {ct : CTy} (h : ctyVal fl s v = some ct) :
    constTy g v = some ct ∧ iVal v = v := by
  cases v with
  | lit n => cases h; exact ⟨rfl, rfl⟩
  | ident n =>
    simp only [ctyVal] at h
    obtain ⟨c, hc, v, hv, hcv, hcase⟩ := ctyName_mem h
    have hi : i n = n := H.facts.upper _ hv
    have hgc := generate_consts H.facts.gen
    have hmem : c ∈ g.consts := by rw [hgc]; exact hc
    have hfind := find_nodup H.facts.consts hmem
    refine ⟨?_, by simp [iVal, hi]⟩
    rcases hcase with ⟨h1, h2, ⟨k, hk⟩, h3⟩ | ⟨h1, e, items, he, h2, h3⟩
    · rw [h1] at hfind
      simp only [constTy, hfind]
      rcases h3 with ⟨h4, rfl⟩ | ⟨h4, h5⟩
      · rw [h2, h4, hcv, hk]; rfl
      · rw [if_neg (by rw [h2]; exact h4), h2]
        exact H.tyByName_basic h5
    · rw [h1, hi] at hfind
      simp only [constTy, hfind]
      obtain ⟨h4, h5⟩ := H.tyByName_enum he
      rw [if_neg (by rw [h2]; exact h5), h2, h4, h3]

include H in
theorem Comp.constFits_of {v : Val} {gt : GoType} {m : Nat} (hm : (under g gt).bind intMax = some m)
    (h : fits fl s gt m v = true) : constFits g v gt = true := by
  unfold fits at h
  split at h
  · rename_i hc
    obtain ⟨h1, _⟩ := H.constTy_eq hc
    cases hs : specConst s v with
    | none => rw [hs] at h; simp at h
    | some n =>
      rw [hs] at h
      have := const_link H.facts v n hs
      simp only [constFits, h1, this, hm]
      simpa using h
  · rename_i t hc
    obtain ⟨h1, _⟩ := H.constTy_eq hc
    simp only [constFits, h1]
    exact h
  · cases h

include H in
/-- A name that has a value as a constant is the name of a declaration of the package. -/
theorem Comp.const_bad {v : Val} {c : Nat} (h : specConst s v = some c) {hidden : List Ident}
    (hh : ∀ x ∈ hidden, x ∈ badNames) : visible hidden v = true := by
  cases v with
  | lit n => rfl
  | ident n =>
    obtain ⟨w, hw⟩ := resolve_ident h
    obtain ⟨ty, hm⟩ := specConsts_mem (fl := fl) hw H.facts.upper
    have := H.bad _ (constName_mem hm)
    simp only [visible, decide_eq_true_eq]
    exact fun hx => this (hh _ hx)

theorem resolve_cty : ∀ {s : Spec} {n : Ident} {v : Val}, (n, v) ∈ specConsts s →
    (∀ d ∈ s, d.chk fl s' = true) → (ctyName fl s n).isSome = true
  | [], n, v, h, _ => by simp [specConsts] at h
  | d :: s, n, v, h, hc => by
    have hc' : ∀ d ∈ s, d.chk fl s' = true := fun d hd => hc d (by simp [hd])
    cases d with
    | const m w =>
      simp only [ctyName]
      split
      · have := hc _ (List.mem_cons_self ..)
        simp only [Defn.chk] at this
        split
        · rfl
        · rename_i hne
          rw [if_neg hne] at this
          split at this <;> simp_all
      · simp only [specConsts, List.mem_cons, Prod.mk.injEq] at h
        rcases h with ⟨rfl, _⟩ | h
        · contradiction
        · exact resolve_cty h hc'
    | enum e items =>
      simp only [ctyName]
      split
      · rfl
      · rename_i hne
        simp only [specConsts, List.mem_append, List.mem_map, Prod.mk.injEq] at h
        rcases h with ⟨it, hit, rfl, _⟩ | h
        · exact absurd (List.mem_map.mpr ⟨it, hit, rfl⟩) hne
        · exact resolve_cty h hc'
    | typedef d => exact resolve_cty (s := s) (by simpa [specConsts] using h) hc'
    | struct m ds => exact resolve_cty (s := s) (by simpa [specConsts] using h) hc'
    | union m sw cs => exact resolve_cty (s := s) (by simpa [specConsts] using h) hc'
    | program p => exact resolve_cty (s := s) (by simpa [specConsts] using h) hc'

include H in
theorem Comp.constInt_of {v : Val} (h : inInt s v = true) : constInt g v = true := by
  unfold inInt at h
  cases hc : specConst s v with
  | none => simp [hc] at h
  | some c =>
    rw [hc] at h
    have h1 := const_link H.facts v c hc
    have h2 : (ctyVal fl s v).isSome = true := by
      cases v with
      | lit n => rfl
      | ident n =>
        obtain ⟨w, hw⟩ := resolve_ident hc
        exact resolve_cty hw H.chk
    obtain ⟨ct, hct⟩ := Option.isSome_iff_exists.mp h2
    simp only [constInt, (H.constTy_eq hct).1, h1]
    simpa using h

/-! ### Type expressions -/

theorem Decls.goFields_names : ∀ {ds : Decls} {fs : GoFields}, ds.goFields = some fs →
    fs.names = ds.names
  | .nil, fs, h => by simp [Decls.goFields] at h; subst h; rfl
  | .cons d ds, fs, h => by
    simp only [Decls.goFields] at h
    obtain ⟨f, hf, h⟩ := bind_some h
    obtain ⟨fs', hfs, h⟩ := bind_some h
    cases h
    have ih := Decls.goFields_names hfs
    cases d with
    | void => cases hf; simp [Decls.names, Decl.names, ih]
    | name t n =>
      simp only [Decl.goField] at hf
      obtain ⟨gt, _, hf⟩ := bind_some hf
      cases hf
      simp [Decls.names, Decl.names, GoFields.names, ih]

theorem Decl.goField_names {d : Decl} {f : GoFields → GoFields} (h : d.goField = some f)
    (fs : GoFields) : (f fs).names = d.names ++ fs.names := by
  cases d with
  | void => cases h; rfl
  | name t n =>
    simp only [Decl.goField] at h
    obtain ⟨gt, _, h⟩ := bind_some h
    cases h
    rfl

theorem Cases.goFields_names : ∀ {cs : Cases} {fs : GoFields}, cs.goFields = some fs →
    fs.names = cs.names
  | .nil, fs, h => by simp [Cases.goFields] at h; subst h; rfl
  | .dflt d, fs, h => by
    simp only [Cases.goFields] at h
    obtain ⟨f, hf, h⟩ := bind_some h
    cases h
    rw [Decl.goField_names hf]; simp [Cases.names, GoFields.names]
  | .cons l ls d cs, fs, h => by
    simp only [Cases.goFields] at h
    obtain ⟨f, hf, h⟩ := bind_some h
    obtain ⟨fs', hfs, h⟩ := bind_some h
    cases h
    rw [Decl.goField_names hf, Cases.goFields_names hfs]; rfl

local notation "E" => envOf fl.unsignedEnum s
local notation "K" => nameBound fl s

omit H in
theorem max_const {m : Option Val} (h : (Env.max E m).isSome = true) :
    ∀ v, m = some v → ∃ c, specConst s v = some c := by
  intro v hv
  subst hv
  simp only [Env.max, Option.isSome_map] at h
  exact Option.isSome_iff_exists.mp h

mutual
theorem Typespec.typeOk (H : Comp fl s g) {hidden : List Ident} (hh : ∀ x ∈ hidden, x ∈ badNames)
    {inArr : Bool} : ∀ (t : Typespec) {gt : GoType}, t.wf E K inArr = true → t.chk fl s = true →
      t.goType = some gt → Spec.typeOk g hidden gt = true
  | .int true, gt, _, _, h => by cases h; rfl
  | .int false, gt, _, _, h => by cases h; rfl
  | .hyper true, gt, _, _, h => by cases h; rfl
  | .hyper false, gt, _, _, h => by cases h; rfl
  | .bool, gt, _, _, h => by cases h; rfl
  | .float, gt, h, _, _ => by simp [Typespec.wf] at h
  | .double, gt, h, _, _ => by simp [Typespec.wf] at h
  | .quadruple, gt, h, _, _ => by simp [Typespec.wf] at h
  | .enum _, gt, h, _, _ => by simp [Typespec.wf] at h
  | .struct ds, gt, hw, hc, h => by
    simp only [Typespec.wf, Bool.and_eq_true, decide_eq_true_eq] at hw
    simp only [Typespec.chk] at hc
    simp only [Typespec.goType] at h
    obtain ⟨fs, hfs, h⟩ := bind_some h
    cases h
    simp only [Spec.typeOk, Bool.and_eq_true, decide_eq_true_eq]
    exact ⟨by rw [Decls.goFields_names hfs]; exact hw.1, Decls.typeOk H hh ds hw.2 hc hfs⟩
  | .union sw cs, gt, hw, hc, h => by
    simp only [Typespec.wf, Bool.and_eq_true, decide_eq_true_eq] at hw
    simp only [Typespec.chk, Bool.and_eq_true] at hc
    simp only [Typespec.goType] at h
    obtain ⟨f, hf, h⟩ := bind_some h
    obtain ⟨fs, hfs, h⟩ := bind_some h
    cases h
    simp only [Spec.typeOk, Bool.and_eq_true, decide_eq_true_eq]
    refine ⟨by rw [Decl.goField_names hf, Cases.goFields_names hfs]; exact hw.1.1,
      Decl.typeOk H hh sw hw.1.2 hc.1.1 hf ?_⟩
    cases hk : sw.kindOf E K with
    | none => rw [hk] at hw; simp at hw
    | some κ => rw [hk] at hw; exact Cases.typeOk H hh κ cs hw.2 hc.1.2 hfs
  | .ident n, gt, hw, _, h => by
    cases h
    simp only [Typespec.wf] at hw
    have hl := H.typeOf_lookup hw
    simp only [Spec.typeOk, Bool.and_eq_true, decide_eq_true_eq]
    exact ⟨fun hx => H.type_bad hl (hh _ hx), hl⟩
theorem DeclType.typeOk (H : Comp fl s g) {hidden : List Ident} (hh : ∀ x ∈ hidden, x ∈ badNames)
    {inArr : Bool} : ∀ (t : DeclType) {gt : GoType}, t.wf E K inArr = true → t.chk fl s = true →
      t.goType = some gt → Spec.typeOk g hidden gt = true
  | .typespec t, gt, hw, hc, h => by
    simp only [DeclType.wf] at hw
    simp only [DeclType.chk] at hc
    simp only [DeclType.goType] at h
    exact Typespec.typeOk H hh t hw hc h
  | .array _ _, gt, hw, _, _ => by simp [DeclType.wf] at hw
  | .varArray t m, gt, hw, hc, h => by
    simp only [DeclType.wf, Bool.and_eq_true] at hw
    simp only [DeclType.chk, Bool.and_eq_true] at hc
    simp only [DeclType.goType] at h
    obtain ⟨gt', h1, h⟩ := bind_some h
    cases h
    simp only [Spec.typeOk]
    exact Typespec.typeOk H hh t hw.1.2 hc.1 h1
  | .opaqueArray sz, gt, hw, hc, h => by
    simp only [DeclType.goType] at h
    cases h
    simp only [DeclType.chk] at hc
    simp only [Spec.typeOk, Bool.and_eq_true]
    refine ⟨?_, H.constInt_of hc⟩
    simp only [inInt] at hc
    cases hcv : specConst s sz with
    | none => simp [hcv] at hc
    | some c => exact H.const_bad hcv hh
  | .opaqueVarArray m, gt, hw, hc, h => by simp only [DeclType.goType] at h; cases h; rfl
  | .string m, gt, hw, hc, h => by simp only [DeclType.goType] at h; cases h; rfl
  | .ptr t, gt, hw, hc, h => by
    simp only [DeclType.wf] at hw
    simp only [DeclType.chk] at hc
    simp only [DeclType.goType] at h
    obtain ⟨gt', h1, h⟩ := bind_some h
    cases h
    simp only [Spec.typeOk]
    exact Typespec.typeOk H hh t hw hc h1
theorem Decl.typeOk (H : Comp fl s g) {hidden : List Ident} (hh : ∀ x ∈ hidden, x ∈ badNames)
    {inArr : Bool} : ∀ (d : Decl) {f : GoFields → GoFields} {fs : GoFields}, d.wf E K inArr = true →
      d.chk fl s = true → d.goField = some f → fieldsOk g hidden fs = true →
      fieldsOk g hidden (f fs) = true
  | .void, f, fs, _, _, h, hfs => by simp only [Decl.goField] at h; cases h; exact hfs
  | .name t n, f, fs, hw, hc, h, hfs => by
    simp only [Decl.wf] at hw
    simp only [Decl.chk, Bool.and_eq_true] at hc
    simp only [Decl.goField] at h
    obtain ⟨gt, h1, h⟩ := bind_some h
    cases h
    simp only [fieldsOk, Bool.and_eq_true]
    exact ⟨DeclType.typeOk H hh t hw hc.2 h1, hfs⟩
theorem Decls.typeOk (H : Comp fl s g) {hidden : List Ident} (hh : ∀ x ∈ hidden, x ∈ badNames)
    {inArr : Bool} : ∀ (ds : Decls) {fs : GoFields}, ds.wf E K inArr = true →
      ds.chk fl s = true → ds.goFields = some fs → fieldsOk g hidden fs = true
  | .nil, fs, _, _, h => by simp only [Decls.goFields] at h; cases h; rfl
  | .cons d ds, fs, hw, hc, h => by
    simp only [Decls.wf, Bool.and_eq_true] at hw
    simp only [Decls.chk, Bool.and_eq_true] at hc
    simp only [Decls.goFields] at h
    obtain ⟨f, hf, h⟩ := bind_some h
    obtain ⟨fs', hfs, h⟩ := bind_some h
    cases h
    exact Decl.typeOk H hh d hw.1 hc.1 hf (Decls.typeOk H hh ds hw.2 hc.2 hfs)
theorem Cases.typeOk (H : Comp fl s g) {hidden : List Ident} (hh : ∀ x ∈ hidden, x ∈ badNames)
    {inArr : Bool} (κ : Kind) : ∀ (cs : Cases) {fs : GoFields}, cs.wf E K inArr κ = true →
      cs.chk fl s = true → cs.goFields = some fs → fieldsOk g hidden fs = true
  | .nil, fs, _, _, h => by simp only [Cases.goFields] at h; cases h; rfl
  | .dflt d, fs, hw, hc, h => by
    simp only [Cases.wf] at hw
    simp only [Cases.chk] at hc
    simp only [Cases.goFields] at h
    obtain ⟨f, hf, h⟩ := bind_some h
    cases h
    exact Decl.typeOk H hh d hw hc hf rfl
  | .cons l ls d cs, fs, hw, hc, h => by
    simp only [Cases.wf, Bool.and_eq_true] at hw
    simp only [Cases.chk, Bool.and_eq_true] at hc
    simp only [Cases.goFields] at h
    obtain ⟨f, hf, h⟩ := bind_some h
    obtain ⟨fs', hfs, h⟩ := bind_some h
    cases h
    exact Decl.typeOk H hh d hw.1.2 hc.1 hf (Cases.typeOk H hh κ cs hw.2 hc.2 hfs)
end

/-! ### Discriminants -/

def Kind.go : Kind → GoType
  | .u32 => .uint32
  | .i32 => .int32
  | .u64 => .uint64
  | .i64 => .int64
  | .bool => .bool

theorem kindOf_under (H : Comp fl s g) : ∀ {k : Nat} {t : DeclType} {κ : Kind} {gt : GoType},
    kindOf E k t = some κ → t.goType = some gt → underN g k gt = some κ.go
  | k, .typespec (.int true), κ, gt, h, hg => by
    cases k <;> (simp only [kindOf] at h; cases h; simp only [DeclType.goType] at hg; cases hg; rfl)
  | k, .typespec (.int false), κ, gt, h, hg => by
    cases k <;> (simp only [kindOf] at h; cases h; simp only [DeclType.goType] at hg; cases hg; rfl)
  | k, .typespec (.hyper true), κ, gt, h, hg => by
    cases k <;> (simp only [kindOf] at h; cases h; simp only [DeclType.goType] at hg; cases hg; rfl)
  | k, .typespec (.hyper false), κ, gt, h, hg => by
    cases k <;> (simp only [kindOf] at h; cases h; simp only [DeclType.goType] at hg; cases hg; rfl)
  | k, .typespec .bool, κ, gt, h, hg => by
    cases k <;> (simp only [kindOf] at h; cases h; simp only [DeclType.goType] at hg; cases hg; rfl)
  | 0, .typespec (.ident n), κ, gt, h, hg => by simp [kindOf] at h
  | k + 1, .typespec (.ident n), κ, gt, h, hg => by
    simp only [kindOf] at h
    simp only [DeclType.goType, Typespec.goType] at hg
    cases hg
    cases ht : (envOf fl.unsignedEnum s).typeOf n with
    | none => rw [ht] at h; cases h
    | some t =>
      rw [ht] at h
      simp only [Option.bind_some] at h
      obtain ⟨gt, h1, h2⟩ := H.lnk.goType n t ht
      have h3 : g.types.lookup (i n) = some gt := by
        cases t with
        | ptr t => cases k <;> simp [kindOf] at h
        | _ => exact h2
      simp only [underN, h3, Option.bind_some]
      exact kindOf_under H h h1
  | k, .typespec .float, κ, gt, h, hg => by cases k <;> simp [kindOf] at h
  | k, .typespec .double, κ, gt, h, hg => by cases k <;> simp [kindOf] at h
  | k, .typespec .quadruple, κ, gt, h, hg => by cases k <;> simp [kindOf] at h
  | k, .typespec (.enum _), κ, gt, h, hg => by cases k <;> simp [kindOf] at h
  | k, .typespec (.struct _), κ, gt, h, hg => by cases k <;> simp [kindOf] at h
  | k, .typespec (.union _ _), κ, gt, h, hg => by cases k <;> simp [kindOf] at h
  | k, .array _ _, κ, gt, h, hg => by cases k <;> simp [kindOf] at h
  | k, .varArray _ _, κ, gt, h, hg => by cases k <;> simp [kindOf] at h
  | k, .opaqueArray _, κ, gt, h, hg => by cases k <;> simp [kindOf] at h
  | k, .opaqueVarArray _, κ, gt, h, hg => by cases k <;> simp [kindOf] at h
  | k, .string _, κ, gt, h, hg => by cases k <;> simp [kindOf] at h
  | k, .ptr _, κ, gt, h, hg => by cases k <;> simp [kindOf] at h

theorem mapAll_length {α β} {f : α → Option β} : ∀ {l : List α} {r : List β},
    mapAll f l = some r → r.length = l.length
  | [], r, h => by cases h; rfl
  | a :: l, r, h => by
    simp only [mapAll, bind, Option.bind, Pure.pure] at h
    cases h1 : f a with
    | none => rw [h1] at h; cases h
    | some b' =>
      rw [h1] at h
      cases h2 : mapAll f l with
      | none => simp [h2] at h
      | some r2 =>
        simp only [h2, Option.some.injEq] at h
        subst h
        simp [mapAll_length h2]

theorem kind_under (H : Comp fl s g) {t : DeclType} {κ : Kind} {gt : GoType}
    (h : kindOf E K t = some κ) (hg : t.goType = some gt) : under g gt = some κ.go := by
  have := mapAll_length (generate_types H.facts.gen).1
  unfold under
  rw [this]
  exact kindOf_under H h hg

theorem Kind.max_go {κ : Kind} {m : Nat} (h : κ.max = some m) : intMax κ.go = some m := by
  cases κ <;> simp_all [Kind.max, Kind.go, intMax]

include H in
theorem Comp.caseVal_of {hidden : List Ident} (hh : ∀ x ∈ hidden, x ∈ badNames)
    (hh' : "true" ∉ hidden ∧ "false" ∉ hidden) {t : DeclType}
    {κ : Kind} {gt : GoType} (hk : kindOf E K t = some κ) (hg : t.goType = some gt) {l : Val} {lab : Label}
    (hl : specLabel s l = some lab) (hf : labelFits κ lab = true)
    (hfit : ∀ m, κ.max = some m → fits fl s gt m l = true) :
    caseVal g hidden gt (iVal l) = some lab := by
  have hu := kind_under H hk hg
  have hnc : ∀ n ∈ badNames, g.consts.find? (·.name = n) = none := by
    intro n hn
    rw [List.find?_eq_none]
    intro c hc
    rw [generate_consts H.facts.gen] at hc
    have := H.bad _ (constName_mem hc)
    simp only [decide_eq_true_eq]
    rintro rfl
    exact this hn
  by_cases hb : κ = .bool
  · subst hb
    have : lab = .bool true ∧ l = .ident "TRUE" ∨ lab = .bool false ∧ l = .ident "FALSE" := by
      unfold specLabel at hl
      split at hl
      · cases hl; exact .inl ⟨rfl, rfl⟩
      · cases hl; exact .inr ⟨rfl, rfl⟩
      · obtain ⟨c, _, rfl⟩ := except_map_eq hl
        simp [labelFits] at hf
    rcases this with ⟨rfl, rfl⟩ | ⟨rfl, rfl⟩
    · have : iVal (.ident "TRUE") = .ident "true" := by decide
      rw [this]
      simp only [caseVal, hu, Kind.go, visible, hh'.1, not_false_eq_true, decide_true, if_true,
        hnc "true" (by simp [badNames, predeclared]), and_self]
    · have : iVal (.ident "FALSE") = .ident "false" := by decide
      rw [this]
      simp only [caseVal, hu, Kind.go, visible, hh'.2, not_false_eq_true, decide_true, if_true,
        hnc "false" (by simp [badNames, predeclared]), and_self]
      simp
  · obtain ⟨m, hm⟩ : ∃ m, κ.max = some m := by
      cases κ <;> simp [Kind.max] at hb ⊢
    have hfit := hfit m hm
    obtain ⟨ct, hct⟩ : ∃ ct, ctyVal fl s l = some ct := by
      unfold fits at hfit
      cases hct : ctyVal fl s l with
      | none => rw [hct] at hfit; cases hfit
      | some ct => exact ⟨ct, rfl⟩
    obtain ⟨_, hi⟩ := H.constTy_eq hct
    rw [hi]
    have hcf := H.constFits_of (by rw [hu]; exact Kind.max_go hm) hfit
    have : ∃ c, specConst s l = some c ∧ lab = .int c := by
      unfold specLabel at hl
      split at hl
      · cases hl; cases κ <;> simp [labelFits] at hf hb
      · cases hl; cases κ <;> simp [labelFits] at hf hb
      · obtain ⟨c, hc, rfl⟩ := except_map_eq hl
        exact ⟨c, hc, rfl⟩
    obtain ⟨c, hc, rfl⟩ := this
    have hv := H.const_bad hc hh
    have hgc := const_link H.facts l c hc
    simp only [caseVal, hv, if_true, hu]
    cases κ <;> simp [Kind.go, hcf, hgc] at hb ⊢

end

end Verif.Gen
