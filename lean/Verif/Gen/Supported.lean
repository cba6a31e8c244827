/-
Supported specifications, and the link between a supported specification and the package generated
for it.
-/
import Verif.Gen.Fill

namespace Verif.Gen
open Verif.Spec Verif.Xdr

/-- The definition behind a Go type name. -/
def defsOf (fl : Flags) (s : Spec) (N : Ident) : Option DeclType :=
  ((specTypes fl.unsignedEnum s).map fun p => (i p.1, p.2)).lookup N

/-- Bound on chains of names in discriminant types. -/
def nameBound (fl : Flags) (s : Spec) : Nat := (specTypes fl.unsignedEnum s).length + 1

/-- The names of all constants of the generated package. -/
def constNames (g : GoProg) : List Ident := g.consts.map (·.name)

/-- A decidable condition on specifications.  The names that the generated package declares must be
distinct (otherwise Go refuses it), constants must be spelled with a leading upper-case letter
(otherwise references to them do not resolve), no constant or type may have the name of a local variable
of generated methods (`__arraysz` is the only one that is not spelled with a lower-case letter), every
definition must be free of unsupported constructs (`wf`), and types must have finite size (Go refuses
"invalid recursive type"). -/
def supported (fl : Flags) (s : Spec) : Bool :=
  match generate fl s with
  | none => false
  | some g =>
    decide ((specTypes fl.unsignedEnum s).map fun p => i p.1).Nodup &&
    decide (constNames g).Nodup &&
    ((specConsts s).all fun p => decide (i p.1 = p.1 ∧ p.1 ≠ arraysz)) &&
    ((specTypes fl.unsignedEnum s).all fun p => decide (i p.1 ≠ arraysz)) &&
    ((specTypes fl.unsignedEnum s).all fun p =>
      p.2.wf (envOf fl.unsignedEnum s) (nameBound fl s) false && (g.zeroNamed (i p.1)).isSome)

/-! ### What `generate` puts into the package -/

theorem bind_some {α β} {o : Option α} {f : α → Option β} {b : β} (h : (o >>= f) = some b) :
    ∃ a, o = some a ∧ f a = some b := Option.bind_eq_some_iff.mp h

/-- The Go type declared for a definition. -/
def topType (t : DeclType) : Option GoType :=
  match t with
  | .ptr t => (DeclType.goType (.ptr t)).map fun gt => .struct (.cons "P" gt .nil)
  | t => t.goType

theorem emitTypedef_eq {t : DeclType} {n : Ident} {p : GoProg} (h : emitTypedef (.name t n) = some p) :
    ∃ gt b, topType t = some gt ∧ topXdr t = some b ∧ p = ⟨[], [(i n, gt)], [(i n, b)]⟩ := by
  cases t <;> (
    simp only [emitTypedef] at h
    obtain ⟨gt, hgt, h⟩ := bind_some h
    obtain ⟨b, hb, h⟩ := bind_some h
    refine ⟨_, b, ?_, hb, (Option.some.inj h).symm⟩
    simp [topType, hgt])

theorem emitDefn_types {fl : Flags} {d : Defn} {p : GoProg} (h : emitDefn fl d = some p) :
    mapAll (fun q : Ident × DeclType => (topType q.2).map fun gt => (i q.1, gt))
      (specTypes fl.unsignedEnum [d]) = some p.types ∧
    mapAll (fun q : Ident × DeclType => (topXdr q.2).map fun b => (i q.1, b))
      (specTypes fl.unsignedEnum [d]) = some p.methods := by
  cases d with
  | const n v => simp only [emitDefn, emitConst] at h; cases h; exact ⟨rfl, rfl⟩
  | typedef d =>
    cases d with
    | void => simp only [emitDefn, emitTypedef] at h; cases h; exact ⟨rfl, rfl⟩
    | name t n =>
      simp only [emitDefn] at h
      obtain ⟨gt, b, h1, h2, rfl⟩ := emitTypedef_eq h
      simp [specTypes, mapAll, h1, h2]
  | enum n items =>
    simp only [emitDefn, emitEnum] at h
    obtain ⟨gt, hgt, h⟩ := bind_some h
    obtain ⟨b, hb, h⟩ := bind_some h
    cases h
    simp [specTypes, mapAll, topType, topXdr, DeclType.goType, DeclType.goXdr, hgt, hb]
  | struct n ds =>
    simp only [emitDefn, emitStruct] at h
    obtain ⟨fs, hfs, h⟩ := bind_some h
    obtain ⟨b, hb, h⟩ := bind_some h
    cases h
    simp [specTypes, mapAll, topType, topXdr, DeclType.goType, DeclType.goXdr, Typespec.goType,
      hfs, hb]
  | union n sw cs =>
    simp only [emitDefn, emitUnion] at h
    obtain ⟨gt, hgt, h⟩ := bind_some h
    obtain ⟨b, hb, h⟩ := bind_some h
    cases h
    simp [specTypes, mapAll, topType, topXdr, DeclType.goType, DeclType.goXdr, hgt, hb]
  | program p =>
    simp only [emitDefn] at h
    split at h
    · cases h; exact ⟨rfl, rfl⟩
    · cases h

theorem specTypes_cons (u : Bool) (d : Defn) (s : Spec) :
    specTypes u (d :: s) = specTypes u [d] ++ specTypes u s := by
  cases d with
  | typedef d => cases d <;> simp [specTypes]
  | _ => simp [specTypes]

theorem mapAll_append {α β} {f : α → Option β} : ∀ (l l' : List α) (r r' : List β),
    mapAll f l = some r → mapAll f l' = some r' → mapAll f (l ++ l') = some (r ++ r')
  | [], l', r, r', h, h' => by cases h; exact h'
  | a :: l, l', r, r', h, h' => by
    simp only [mapAll, bind, Option.bind, Pure.pure] at h
    cases h1 : f a with
    | none => rw [h1] at h; cases h
    | some b =>
      rw [h1] at h
      cases h2 : mapAll f l with
      | none => simp [h2] at h
      | some r2 =>
        simp only [h2, Option.some.injEq] at h
        subst h
        simp [mapAll, h1, mapAll_append l l' r2 r' h2 h']

theorem generate_types {fl : Flags} : ∀ {s : Spec} {g : GoProg}, generate fl s = some g →
    mapAll (fun q : Ident × DeclType => (topType q.2).map fun gt => (i q.1, gt))
      (specTypes fl.unsignedEnum s) = some g.types ∧
    mapAll (fun q : Ident × DeclType => (topXdr q.2).map fun b => (i q.1, b))
      (specTypes fl.unsignedEnum s) = some g.methods
  | [], g, h => by cases h; exact ⟨rfl, rfl⟩
  | d :: s, g, h => by
    simp only [generate] at h
    obtain ⟨a, ha, h⟩ := bind_some h
    obtain ⟨b, hb, h⟩ := bind_some h
    cases h
    rw [specTypes_cons]
    obtain ⟨h1, h2⟩ := emitDefn_types ha
    obtain ⟨h3, h4⟩ := generate_types hb
    exact ⟨mapAll_append _ _ _ _ h1 h3, mapAll_append _ _ _ _ h2 h4⟩

/-- Looking up a name that occurs once. -/
theorem lookup_mapAll {β} {f : DeclType → Option β} : ∀ (l : List (Ident × DeclType))
    (r : List (Ident × β)) (n : Ident) (t : DeclType), (l.map fun p => i p.1).Nodup →
    mapAll (fun q : Ident × DeclType => (f q.2).map fun b => (i q.1, b)) l = some r →
    l.lookup n = some t →
    (l.map fun p => (i p.1, p.2)).lookup (i n) = some t ∧
      ∃ b, f t = some b ∧ r.lookup (i n) = some b
  | [], r, n, t, _, _, h => by simp at h
  | (m, u) :: l, r, n, t, hnd, hm, h => by
    simp only [List.map_cons, List.nodup_cons, List.mem_map, not_exists, not_and] at hnd
    simp only [mapAll, bind, Option.bind, Pure.pure] at hm
    cases h1 : f u with
    | none => simp [h1] at hm
    | some b =>
      simp only [h1, Option.map_some] at hm
      cases h2 : mapAll (fun q : Ident × DeclType => (f q.2).map fun b => (i q.1, b)) l with
      | none => simp [h2] at hm
      | some r' =>
        simp only [h2, Option.some.injEq] at hm
        subst hm
        simp only [List.lookup_cons] at h
        split at h
        · rename_i hnm
          have hnm : n = m := by simpa using hnm
          subst hnm
          cases h
          simp [h1]
        · have ih := lookup_mapAll l r' n t hnd.2 h2 h
          have hne : i n ≠ i m := by
            intro he
            have hmem : (n, t) ∈ l := by
              rw [List.lookup_eq_some_iff] at h
              obtain ⟨l1, l2, rfl, _⟩ := h
              simp
            exact hnd.1 (n, t) hmem he
          have hne' : (i n == i m) = false := by simpa using hne
          simpa [List.lookup_cons, hne'] using ih

/-! ### Constants -/

/-- The constants of one definition. -/
def defnConsts (fl : Flags) : Defn → List GoConst
  | .const n v => [⟨n, fl.constType, .lit v⟩]
  | .enum n items => items.map fun it => ⟨i it.name, i n, it.val⟩
  | .program p => (emitProgConsts p).consts
  | _ => []

theorem emitDefn_consts {fl : Flags} {d : Defn} {p : GoProg} (h : emitDefn fl d = some p) :
    p.consts = defnConsts fl d := by
  cases d with
  | const n v => simp only [emitDefn, emitConst] at h; cases h; rfl
  | typedef d =>
    cases d with
    | void => simp only [emitDefn, emitTypedef] at h; cases h; rfl
    | name t n =>
      simp only [emitDefn] at h
      obtain ⟨gt, b, h1, h2, rfl⟩ := emitTypedef_eq h
      rfl
  | enum n items =>
    simp only [emitDefn, emitEnum] at h
    obtain ⟨_, _, h⟩ := bind_some h
    obtain ⟨_, _, h⟩ := bind_some h
    cases h; rfl
  | struct n ds =>
    simp only [emitDefn, emitStruct] at h
    obtain ⟨_, _, h⟩ := bind_some h
    obtain ⟨_, _, h⟩ := bind_some h
    cases h; rfl
  | union n sw cs =>
    simp only [emitDefn, emitUnion] at h
    obtain ⟨_, _, h⟩ := bind_some h
    obtain ⟨_, _, h⟩ := bind_some h
    cases h; rfl
  | program p =>
    simp only [emitDefn] at h
    split at h
    · cases h; rfl
    · cases h

theorem generate_consts {fl : Flags} : ∀ {s : Spec} {g : GoProg}, generate fl s = some g →
    g.consts = s.flatMap (defnConsts fl)
  | [], g, h => by cases h; rfl
  | d :: s, g, h => by
    simp only [generate] at h
    obtain ⟨a, ha, h⟩ := bind_some h
    obtain ⟨b, hb, h⟩ := bind_some h
    cases h
    simp [GoProg.append, emitDefn_consts ha, generate_consts hb]

theorem specConsts_mem {fl : Flags} : ∀ {s : Spec} {n : Ident} {v : Val}, (n, v) ∈ specConsts s →
    (∀ p ∈ specConsts s, i p.1 = p.1) → ∃ ty, ⟨n, ty, v⟩ ∈ s.flatMap (defnConsts fl)
  | [], n, v, h, _ => by simp [specConsts] at h
  | d :: s, n, v, h, hi => by
    cases d with
    | const m w =>
      simp only [specConsts, List.mem_cons, Prod.mk.injEq] at h hi
      rcases h with ⟨rfl, rfl⟩ | h
      · exact ⟨fl.constType, by simp [defnConsts]⟩
      · obtain ⟨ty, h⟩ := specConsts_mem (fl := fl) h (fun p hp => hi p (.inr hp))
        exact ⟨ty, by simp only [List.flatMap_cons, List.mem_append]; exact .inr h⟩
    | enum m items =>
      simp only [specConsts, List.mem_append, List.mem_map, Prod.mk.injEq] at h hi
      rcases h with ⟨it, hit, rfl, rfl⟩ | h
      · have := hi (it.name, it.val) (.inl ⟨it, hit, rfl⟩)
        refine ⟨i m, ?_⟩
        simp only [List.flatMap_cons, List.mem_append, defnConsts, List.mem_map]
        exact .inl ⟨it, hit, by rw [this]⟩
      · obtain ⟨ty, h⟩ := specConsts_mem (fl := fl) h (fun p hp => hi p (.inr hp))
        exact ⟨ty, by simp only [List.flatMap_cons, List.mem_append]; exact .inr h⟩
    | typedef d' =>
      simp only [specConsts] at h hi
      obtain ⟨ty, h⟩ := specConsts_mem (fl := fl) h hi
      exact ⟨ty, by simp only [List.flatMap_cons, List.mem_append]; exact .inr h⟩
    | struct m ds =>
      simp only [specConsts] at h hi
      obtain ⟨ty, h⟩ := specConsts_mem (fl := fl) h hi
      exact ⟨ty, by simp only [List.flatMap_cons, List.mem_append]; exact .inr h⟩
    | union m sw cs =>
      simp only [specConsts] at h hi
      obtain ⟨ty, h⟩ := specConsts_mem (fl := fl) h hi
      exact ⟨ty, by simp only [List.flatMap_cons, List.mem_append]; exact .inr h⟩
    | program p =>
      simp only [specConsts] at h hi
      obtain ⟨ty, h⟩ := specConsts_mem (fl := fl) h hi
      exact ⟨ty, by simp only [List.flatMap_cons, List.mem_append]; exact .inr h⟩

theorem find_nodup : ∀ {cs : List GoConst} {c : GoConst}, (cs.map (·.name)).Nodup → c ∈ cs →
    cs.find? (·.name = c.name) = some c
  | [], c, _, h => by simp at h
  | d :: cs, c, hnd, h => by
    simp only [List.map_cons, List.nodup_cons, List.mem_map, not_exists, not_and] at hnd
    rcases List.mem_cons.mp h with rfl | h
    · simp
    · have hne : d.name ≠ c.name := fun he => hnd.1 c h he.symm
      simp [hne, find_nodup hnd.2 h]

theorem specConsts_length {fl : Flags} : ∀ (s : Spec),
    (specConsts s).length ≤ (s.flatMap (defnConsts fl)).length
  | [] => by simp [specConsts]
  | d :: s => by
    have ih := specConsts_length (fl := fl) s
    cases d <;> simp only [specConsts, defnConsts, List.flatMap_cons, List.length_append,
      List.length_cons, List.length_map, List.length_nil] <;> omega

theorem resolve_const {cs : List (Ident × Val)} {gs : List GoConst} (hnd : (gs.map (·.name)).Nodup)
    (hmem : ∀ n v, (n, v) ∈ cs → ∃ ty, ⟨n, ty, v⟩ ∈ gs) :
    ∀ (k k' : Nat) (v : Val) (c : Nat), k ≤ k' → resolve cs k v = some c → constVal gs k' v = some c
  | k, k', .lit n, c, _, h => by
    cases k <;> cases k' <;> simpa [resolve, constVal] using h
  | 0, k', .ident s, c, _, h => by simp [resolve] at h
  | k + 1, 0, .ident s, c, hk, h => by omega
  | k + 1, k' + 1, .ident s, c, hk, h => by
    simp only [resolve] at h
    cases hl : cs.lookup s with
    | none => rw [hl] at h; cases h
    | some v =>
      rw [hl] at h
      simp only [Option.bind_some] at h
      have hm : (s, v) ∈ cs := by
        rw [List.lookup_eq_some_iff] at hl
        obtain ⟨l1, l2, rfl, _⟩ := hl
        simp
      obtain ⟨ty, hg⟩ := hmem s v hm
      have := find_nodup hnd hg
      simp only at this
      simp only [constVal, this]
      exact resolve_const hnd hmem k k' v c (by omega) h

/-! ### The link -/

structure SupportedFacts (fl : Flags) (s : Spec) (g : GoProg) : Prop where
  gen : generate fl s = some g
  types : ((specTypes fl.unsignedEnum s).map fun p => i p.1).Nodup
  consts : (constNames g).Nodup
  upper : ∀ p ∈ specConsts s, i p.1 = p.1
  wf : ∀ p ∈ specTypes fl.unsignedEnum s, p.2.wf (envOf fl.unsignedEnum s) (nameBound fl s) false = true
  zero : ∀ p ∈ specTypes fl.unsignedEnum s, (g.zeroNamed (i p.1)).isSome = true

theorem supported_facts {fl : Flags} {s : Spec} {g : GoProg} (hg : generate fl s = some g)
    (hs : supported fl s = true) : SupportedFacts fl s g := by
  unfold supported at hs
  rw [hg] at hs
  simp only [Bool.and_eq_true, decide_eq_true_eq, List.all_eq_true] at hs
  exact ⟨hg, hs.1.1.1.1, hs.1.1.1.2, fun p hp => (hs.1.1.2 p hp).1, fun p hp => (hs.2 p hp).1,
    fun p hp => (hs.2 p hp).2⟩

theorem lookup_mem {β} {l : List (Ident × β)} {n : Ident} {t : β} (h : l.lookup n = some t) :
    (n, t) ∈ l := by
  rw [List.lookup_eq_some_iff] at h
  obtain ⟨l1, l2, rfl, _⟩ := h
  simp

theorem const_link {fl : Flags} {s : Spec} {g : GoProg} (h : SupportedFacts fl s g) (v : Val) (c : Nat)
    (hc : specConst s v = some c) : g.const v = some c := by
  have hgc := generate_consts h.gen
  unfold GoProg.const
  refine resolve_const h.consts ?_ _ _ v c ?_ hc
  · intro n w hm
    rw [hgc]
    exact specConsts_mem hm h.upper
  · have := specConsts_length (fl := fl) s
    rw [hgc]; omega

theorem resolve_ident {cs : List (Ident × Val)} {k : Nat} {n : Ident} {c : Nat}
    (h : resolve cs k (.ident n) = some c) : ∃ v, (n, v) ∈ cs := by
  cases k with
  | zero => cases h
  | succ k =>
    simp only [resolve] at h
    cases hl : cs.lookup n with
    | none => rw [hl] at h; cases h
    | some v => exact ⟨v, lookup_mem hl⟩

theorem label_link {fl : Flags} {s : Spec} {g : GoProg} (h : SupportedFacts fl s g) (v : Val) (l : Label)
    (hl : specLabel s v = some l) : g.label (iVal v) = some l := by
  unfold specLabel at hl
  split at hl
  · cases hl; rfl
  · cases hl; rfl
  · rename_i h1 h2
    obtain ⟨c, hc, rfl⟩ := except_map_eq hl
    have hg := const_link h v c hc
    cases v with
    | lit n => simp [iVal, GoProg.label, hg]
    | ident n =>
      obtain ⟨w, hw⟩ := resolve_ident hc
      have hi : i n = n := h.upper _ hw
      have ht : n ≠ "true" := by rintro rfl; exact absurd hi (by decide)
      have hf : n ≠ "false" := by rintro rfl; exact absurd hi (by decide)
      simp only [iVal, hi]
      unfold GoProg.label
      split
      · rename_i heq; exact absurd (Val.ident.inj heq) ht
      · rename_i heq; exact absurd (Val.ident.inj heq) hf
      · simp [hg]

/-- A supported specification and its package. -/
theorem link {fl : Flags} {s : Spec} {g : GoProg} (hg : generate fl s = some g)
    (hs : supported fl s = true) :
    Link g (envOf fl.unsignedEnum s) (defsOf fl s) (nameBound fl s) := by
  have h := supported_facts hg hs
  obtain ⟨ht, _⟩ := generate_types hg
  refine ⟨const_link h, label_link h, ?_, ?_, ?_, ?_⟩
  · intro n t hn
    exact (lookup_mapAll _ _ n t h.types ht hn).1
  · intro n t hn
    exact h.wf _ (lookup_mem hn)
  · intro n t hn
    obtain ⟨_, gt, h1, h2⟩ := lookup_mapAll _ _ n t h.types ht hn
    cases t with
    | ptr t =>
      simp only [topType] at h1
      obtain ⟨gt', h3, rfl⟩ := except_map_eq h1
      exact ⟨gt', h3, h2⟩
    | typespec t => exact ⟨gt, h1, h2⟩
    | array t sz => exact ⟨gt, h1, h2⟩
    | varArray t sz => exact ⟨gt, h1, h2⟩
    | opaqueArray sz => exact ⟨gt, h1, h2⟩
    | opaqueVarArray sz => exact ⟨gt, h1, h2⟩
    | string sz => exact ⟨gt, h1, h2⟩
  · intro n t hn
    exact h.zero _ (lookup_mem hn)

/-- The methods of the package are those of the definitions. -/
theorem methods_link {fl : Flags} {s : Spec} {g : GoProg} (hg : generate fl s = some g)
    (hs : supported fl s = true) : ∀ n t, defsOf fl s n = some t → t.ok false = true ∧
      ∃ body, topXdr t = some body ∧ g.methods.lookup n = some body := by
  have h := supported_facts hg hs
  obtain ⟨_, hm⟩ := generate_types hg
  intro N t hN
  have hmem : (N, t) ∈ (specTypes fl.unsignedEnum s).map fun p => (i p.1, p.2) := lookup_mem hN
  rw [List.mem_map] at hmem
  obtain ⟨⟨n, t'⟩, hp, he⟩ := hmem
  simp only [Prod.mk.injEq] at he
  obtain ⟨rfl, rfl⟩ := he
  have hn : (specTypes fl.unsignedEnum s).lookup n = some t' := by
    have hnd := h.types
    generalize specTypes fl.unsignedEnum s = l at hp hnd
    clear hm hN h
    induction l with
    | nil => simp at hp
    | cons q l ih =>
      simp only [List.map_cons, List.nodup_cons, List.mem_map, not_exists, not_and] at hnd
      rcases List.mem_cons.mp hp with rfl | hp'
      · simp
      · have hne : (n == q.1) = false := by
          simp only [beq_eq_false_iff_ne, ne_eq]
          rintro rfl
          exact hnd.1 _ hp' rfl
        obtain ⟨m, u⟩ := q
        simp only [List.lookup_cons, hne]
        exact ih hp' hnd.2
  obtain ⟨_, b, h1, h2⟩ := lookup_mapAll _ _ n t' h.types hm hn
  exact ⟨DeclType.ok_of_wf t' (h.wf _ hp), b, h1, h2⟩

end Verif.Gen
