/-
Facts about the specification alone: images are readable, aligned, and uniquely readable.
-/
import Verif.Spec.Rfc4506
import Verif.Xdr.BytesLemmas

namespace Verif.Spec
open Verif.Gen Verif.Xdr

theorem pad_align (n : Nat) : (n + pad n) % 4 = 0 := by unfold pad; omega

mutual
theorem reads_enc : ∀ x : XVal, Reads x (enc x)
  | .int z => by simp [Reads, enc]
  | .uint n => by simp [Reads, enc]
  | .hyper z => by simp [Reads, enc]
  | .uhyper n => by simp [Reads, enc]
  | .bool b => by cases b <;> simp [Reads, enc, be_length, beVal_be]
  | .opaque b => by
    simp only [Reads, enc]; exact ⟨zeroBytes (pad b.length), by simp, rfl⟩
  | .vopaque b => by
    simp only [Reads, enc]; exact ⟨zeroBytes (pad b.length), by simp, by simp [opaqueVar]⟩
  | .string b => by
    simp only [Reads, enc]; exact ⟨zeroBytes (pad b.length), by simp, by simp [opaqueVar]⟩
  | .array l => by
    simp only [Reads, enc]; exact ⟨encs l, readsL_encs l, rfl⟩
  | .struct l => by simp only [Reads, enc]; exact readsL_encs l
  | .union d a => by
    simp only [Reads, enc]; exact ⟨enc d, enc a, reads_enc d, reads_enc a, rfl⟩
  | .void => by simp [Reads, enc]
  | .opt none => by simp [Reads, enc]
  | .opt (some x) => by
    simp only [Reads, enc]
    exact ⟨be 4 1, enc x, by simp [be_length], by simp [beVal_be], reads_enc x, rfl⟩
theorem readsL_encs : ∀ l : List XVal, ReadsL l (encs l)
  | [] => by simp [ReadsL, encs]
  | x :: l => by
    simp only [ReadsL, encs]; exact ⟨enc x, encs l, reads_enc x, readsL_encs l, rfl⟩
end

mutual
theorem reads_align : ∀ (x : XVal) (b : List UInt8), Reads x b → b.length % 4 = 0
  | .int z, b, h => by simp only [Reads] at h; subst h; simp [be_length]
  | .uint n, b, h => by simp only [Reads] at h; subst h; simp [be_length]
  | .hyper z, b, h => by simp only [Reads] at h; subst h; simp [be_length]
  | .uhyper n, b, h => by simp only [Reads] at h; subst h; simp [be_length]
  | .bool x, b, h => by simp only [Reads] at h; omega
  | .opaque d, b, h => by
    simp only [Reads] at h; obtain ⟨p, hp, rfl⟩ := h
    rw [List.length_append, hp]; exact pad_align _
  | .vopaque d, b, h => by
    simp only [Reads] at h; obtain ⟨p, hp, rfl⟩ := h
    have := pad_align d.length
    simp only [List.length_append, be_length, hp]; omega
  | .string d, b, h => by
    simp only [Reads] at h; obtain ⟨p, hp, rfl⟩ := h
    have := pad_align d.length
    simp only [List.length_append, be_length, hp]; omega
  | .array l, b, h => by
    simp only [Reads] at h; obtain ⟨r, hr, rfl⟩ := h
    have := readsL_align l r hr
    simp only [List.length_append, be_length]; omega
  | .struct l, b, h => by simp only [Reads] at h; exact readsL_align l b h
  | .union d a, b, h => by
    simp only [Reads] at h; obtain ⟨p, q, hp, hq, rfl⟩ := h
    have := reads_align d p hp; have := reads_align a q hq
    simp only [List.length_append]; omega
  | .void, b, h => by simp only [Reads] at h; subst h; rfl
  | .opt none, b, h => by simp only [Reads] at h; subst h; simp [be_length]
  | .opt (some x), b, h => by
    simp only [Reads] at h; obtain ⟨p, q, hp, _, hq, rfl⟩ := h
    have := reads_align x q hq
    simp only [List.length_append]; omega
theorem readsL_align : ∀ (l : List XVal) (b : List UInt8), ReadsL l b → b.length % 4 = 0
  | [], b, h => by simp only [ReadsL] at h; subst h; rfl
  | x :: l, b, h => by
    simp only [ReadsL] at h; obtain ⟨p, q, hp, hq, rfl⟩ := h
    have := reads_align x p hp; have := readsL_align l q hq
    simp only [List.length_append]; omega
end

/-! ### Monotonicity in the meaning of names -/

mutual
theorem memT_mono {E : Env} {c1 c2 : Ident → XVal → Prop} (hc : ∀ n x, c1 n x → c2 n x) :
    ∀ (t : Typespec) (x : XVal), memT E c1 t x → memT E c2 t x
  | .int false, x, h => by simpa only [memT] using h
  | .int true, x, h => by simpa only [memT] using h
  | .hyper false, x, h => by simpa only [memT] using h
  | .hyper true, x, h => by simpa only [memT] using h
  | .bool, x, h => by simpa only [memT] using h
  | .struct ds, x, h => by
    simp only [memT] at h ⊢
    obtain ⟨l, h1, h2⟩ := h
    exact ⟨l, memDs_mono hc ds l h1, h2⟩
  | .union sw cs, x, h => by
    simp only [memT] at h ⊢
    obtain ⟨d, a, h1, h2, h3⟩ := h
    exact ⟨d, a, memDisc_mono hc sw d h1, memCs_mono hc d cs a h2, h3⟩
  | .ident n, x, h => by simp only [memT] at h ⊢; exact hc n x h
  | .float, _, h => by simp only [memT] at h
  | .double, _, h => by simp only [memT] at h
  | .quadruple, _, h => by simp only [memT] at h
  | .enum _, _, h => by simp only [memT] at h
theorem memD_mono {E : Env} {c1 c2 : Ident → XVal → Prop} (hc : ∀ n x, c1 n x → c2 n x) :
    ∀ (t : DeclType) (x : XVal), memD E c1 t x → memD E c2 t x
  | .typespec t, x, h => by simp only [memD] at h ⊢; exact memT_mono hc t x h
  | .array _ _, _, h => by simp only [memD] at h
  | .varArray t m, x, h => by
    simp only [memD] at h ⊢
    obtain ⟨l, mx, h1, h2, h3, h4⟩ := h
    exact ⟨l, mx, h1, h2, fun y hy => memT_mono hc t y (h3 y hy), h4⟩
  | .opaqueArray sz, x, h => by simpa only [memD] using h
  | .opaqueVarArray m, x, h => by simpa only [memD] using h
  | .string m, x, h => by simpa only [memD] using h
  | .ptr t, x, h => by
    simp only [memD] at h ⊢
    obtain ⟨o, h1, h2⟩ := h
    exact ⟨o, fun y hy => memT_mono hc t y (h1 y hy), h2⟩
theorem memDisc_mono {E : Env} {c1 c2 : Ident → XVal → Prop} (hc : ∀ n x, c1 n x → c2 n x) :
    ∀ (t : Decl) (x : XVal), memDisc E c1 t x → memDisc E c2 t x
  | .void, _, h => by simp only [memDisc] at h
  | .name t n, x, h => by simp only [memDisc] at h ⊢; exact memD_mono hc t x h
theorem memArm_mono {E : Env} {c1 c2 : Ident → XVal → Prop} (hc : ∀ n x, c1 n x → c2 n x) :
    ∀ (t : Decl) (x : XVal), memArm E c1 t x → memArm E c2 t x
  | .void, _, h => by simpa only [memArm] using h
  | .name t n, x, h => by simp only [memArm] at h ⊢; exact memD_mono hc t x h
theorem memDs_mono {E : Env} {c1 c2 : Ident → XVal → Prop} (hc : ∀ n x, c1 n x → c2 n x) :
    ∀ (ds : Decls) (l : List XVal), memDs E c1 ds l → memDs E c2 ds l
  | .nil, l, h => by simpa only [memDs] using h
  | .cons .void ds, l, h => by simp only [memDs] at h ⊢; exact memDs_mono hc ds l h
  | .cons (.name t n) ds, l, h => by
    simp only [memDs] at h ⊢
    obtain ⟨x, l', h1, h2, h3⟩ := h
    exact ⟨x, l', memD_mono hc t x h1, memDs_mono hc ds l' h2, h3⟩
theorem memCs_mono {E : Env} {c1 c2 : Ident → XVal → Prop} (hc : ∀ n x, c1 n x → c2 n x)
    (d : XVal) : ∀ (cs : Cases) (a : XVal), memCs E c1 d cs a → memCs E c2 d cs a
  | .nil, a, h => by simpa only [memCs] using h
  | .dflt b, a, h => by simp only [memCs] at h ⊢; exact memArm_mono hc b a h
  | .cons l more b cs, a, h => by
    simp only [memCs] at h ⊢
    split at h
    · rename_i hs; rw [if_pos hs]; exact memArm_mono hc b a h
    · rename_i hs; rw [if_neg hs]; exact memCs_mono hc d cs a h
end

theorem memN_mono {E : Env} {k : Nat} : ∀ (n : Ident) (x : XVal), memN E k n x → memN E (k + 1) n x := by
  induction k with
  | zero => intro n x h; exact h.elim
  | succ k ih =>
    intro n x h
    obtain ⟨t, ht, hx⟩ := h
    exact ⟨t, ht, memD_mono ih t x hx⟩

theorem memN_le {E : Env} {k k' : Nat} (h : k ≤ k') {n : Ident} {x : XVal} (hx : memN E k n x) :
    memN E k' n x := by
  induction h with
  | refl => exact hx
  | step _ ih => exact memN_mono n x ih

/-- A value of a named type is a value of its definition. -/
theorem IsValue.unfold {E : Env} {n : Ident} {x : XVal} (h : IsValue E n x) :
    ∃ t, E.typeOf n = some t ∧ memD E (IsValue E) t x := by
  obtain ⟨k, hk⟩ := h
  cases k with
  | zero => exact hk.elim
  | succ k =>
    obtain ⟨t, ht, hx⟩ := hk
    exact ⟨t, ht, memD_mono (fun n x h => ⟨k, h⟩) t x hx⟩

/-! ### Unique readability -/

/-- At most one value of `P` can be read from the front of a byte string. -/
def Unique (P : XVal → Prop) : Prop :=
  ∀ x y p q r s, P x → P y → Reads x p → Reads y q → p ++ r = q ++ s → x = y ∧ p = q

def UniqueL (P : List XVal → Prop) : Prop :=
  ∀ x y p q r s, P x → P y → ReadsL x p → ReadsL y q → p ++ r = q ++ s → x = y ∧ p = q

theorem append_inj4 {p q r s : List UInt8} (hp : p.length = q.length) (h : p ++ r = q ++ s) :
    p = q ∧ r = s := List.append_inj h hp

theorem twos32_inj {a b : Int} (ha : -2147483648 ≤ a) (ha' : a < 2147483648)
    (hb : -2147483648 ≤ b) (hb' : b < 2147483648) (h : twos 32 a = twos 32 b) : a = b := by
  unfold twos at h; omega

theorem twos64_inj {a b : Int} (ha : -9223372036854775808 ≤ a) (ha' : a < 9223372036854775808)
    (hb : -9223372036854775808 ≤ b) (hb' : b < 9223372036854775808)
    (h : twos 64 a = twos 64 b) : a = b := by
  unfold twos at h; omega

theorem twos_lt (bits : Nat) (z : Int) : twos bits z < 2 ^ bits := by
  unfold twos
  have h : (0 : Int) < 2 ^ bits := Int.pow_pos (by omega)
  have := Int.emod_lt_of_pos z h
  have h2 := Int.emod_nonneg z (Int.ne_of_gt h)
  rw [Int.toNat_lt h2]
  simpa using this

theorem unique_list {P : XVal → Prop} (hP : Unique P) :
    ∀ (l l' : List XVal) (p q r s : List UInt8), l.length = l'.length → (∀ y ∈ l, P y) →
      (∀ y ∈ l', P y) → ReadsL l p → ReadsL l' q → p ++ r = q ++ s → l = l' ∧ p = q
  | [], [], p, q, r, s, _, _, _, hp, hq, _ => by
    simp only [ReadsL] at hp hq; subst hp hq; exact ⟨rfl, rfl⟩
  | [], _ :: _, _, _, _, _, hl, _, _, _, _, _ => by simp at hl
  | _ :: _, [], _, _, _, _, hl, _, _, _, _, _ => by simp at hl
  | x :: l, y :: l', p, q, r, s, hl, h1, h2, hp, hq, h => by
    simp only [ReadsL] at hp hq
    obtain ⟨p1, p2, hp1, hp2, rfl⟩ := hp
    obtain ⟨q1, q2, hq1, hq2, rfl⟩ := hq
    rw [List.append_assoc, List.append_assoc] at h
    obtain ⟨rfl, rfl⟩ := hP x y p1 q1 _ _ (h1 x (by simp)) (h2 y (by simp)) hp1 hq1 h
    have h' := List.append_cancel_left h
    obtain ⟨rfl, rfl⟩ := unique_list hP l l' p2 q2 r s (by simpa using hl)
      (fun y hy => h1 y (by simp [hy])) (fun y hy => h2 y (by simp [hy])) hp2 hq2 h'
    exact ⟨rfl, rfl⟩

theorem unique_vopaque {d e p q r s : List UInt8} (hd : d.length ≤ 4294967295)
    (he : e.length ≤ 4294967295)
    (hp : ∃ p', p'.length = pad d.length ∧ p = be 4 d.length ++ (d ++ p'))
    (hq : ∃ p', p'.length = pad e.length ∧ q = be 4 e.length ++ (e ++ p'))
    (h : p ++ r = q ++ s) : d = e ∧ p = q := by
  obtain ⟨p', hp', rfl⟩ := hp
  obtain ⟨q', hq', rfl⟩ := hq
  simp only [List.append_assoc] at h
  obtain ⟨h1, h2⟩ := append_inj4 (by simp [be_length]) h
  have hl : d.length = e.length := be_inj (by omega) (by omega) h1
  obtain ⟨h3, h4⟩ := append_inj4 hl h2
  subst h3
  obtain ⟨h5, h6⟩ := append_inj4 (hp'.trans hq'.symm) h4
  subst h5
  exact ⟨rfl, rfl⟩

mutual
theorem uniqueT {E : Env} {call : Ident → XVal → Prop} (hc : ∀ n, Unique (call n)) :
    ∀ t : Typespec, Unique (memT E call t)
  | .int false => by
    intro x y p q r s hx hy hp hq h
    simp only [memT] at hx hy
    obtain ⟨a, ha, ha', rfl⟩ := hx
    obtain ⟨b, hb, hb', rfl⟩ := hy
    simp only [Reads] at hp hq
    subst hp hq
    obtain ⟨h1, -⟩ := append_inj4 (by simp [be_length]) h
    have := be_inj (twos_lt 32 a) (twos_lt 32 b) h1
    have := twos32_inj ha ha' hb hb' this
    subst this; exact ⟨rfl, rfl⟩
  | .int true => by
    intro x y p q r s hx hy hp hq h
    simp only [memT] at hx hy
    obtain ⟨a, ha, rfl⟩ := hx
    obtain ⟨b, hb, rfl⟩ := hy
    simp only [Reads] at hp hq
    subst hp hq
    obtain ⟨h1, -⟩ := append_inj4 (by simp [be_length]) h
    have := be_inj (by omega) (by omega) h1
    subst this; exact ⟨rfl, rfl⟩
  | .hyper false => by
    intro x y p q r s hx hy hp hq h
    simp only [memT] at hx hy
    obtain ⟨a, ha, ha', rfl⟩ := hx
    obtain ⟨b, hb, hb', rfl⟩ := hy
    simp only [Reads] at hp hq
    subst hp hq
    obtain ⟨h1, -⟩ := append_inj4 (by simp [be_length]) h
    have := be_inj (twos_lt 64 a) (twos_lt 64 b) h1
    have := twos64_inj ha ha' hb hb' this
    subst this; exact ⟨rfl, rfl⟩
  | .hyper true => by
    intro x y p q r s hx hy hp hq h
    simp only [memT] at hx hy
    obtain ⟨a, ha, rfl⟩ := hx
    obtain ⟨b, hb, rfl⟩ := hy
    simp only [Reads] at hp hq
    subst hp hq
    obtain ⟨h1, -⟩ := append_inj4 (by simp [be_length]) h
    have := be_inj (by omega) (by omega) h1
    subst this; exact ⟨rfl, rfl⟩
  | .bool => by
    intro x y p q r s hx hy hp hq h
    simp only [memT] at hx hy
    obtain ⟨a, rfl⟩ := hx
    obtain ⟨b, rfl⟩ := hy
    simp only [Reads] at hp hq
    obtain ⟨h1, -⟩ := append_inj4 (by omega) h
    subst h1
    rw [hp.2, hq.2]; exact ⟨rfl, rfl⟩
  | .struct ds => by
    intro x y p q r s hx hy hp hq h
    simp only [memT] at hx hy
    obtain ⟨l, hl, rfl⟩ := hx
    obtain ⟨l', hl', rfl⟩ := hy
    simp only [Reads] at hp hq
    obtain ⟨rfl, rfl⟩ := uniqueDs hc ds l l' p q r s hl hl' hp hq h
    exact ⟨rfl, rfl⟩
  | .union sw cs => by
    intro x y p q r s hx hy hp hq h
    simp only [memT] at hx hy
    obtain ⟨d, a, hd, ha, rfl⟩ := hx
    obtain ⟨d', a', hd', ha', rfl⟩ := hy
    simp only [Reads] at hp hq
    obtain ⟨p1, p2, hp1, hp2, rfl⟩ := hp
    obtain ⟨q1, q2, hq1, hq2, rfl⟩ := hq
    rw [List.append_assoc, List.append_assoc] at h
    obtain ⟨rfl, rfl⟩ := uniqueDisc hc sw d d' p1 q1 _ _ hd hd' hp1 hq1 h
    have h' := List.append_cancel_left h
    obtain ⟨rfl, rfl⟩ := uniqueCs hc d cs a a' p2 q2 r s ha ha' hp2 hq2 h'
    exact ⟨rfl, rfl⟩
  | .ident n => by
    intro x y p q r s hx hy hp hq h
    simp only [memT] at hx hy
    exact hc n x y p q r s hx hy hp hq h
  | .float => by intro x y p q r s hx; simp only [memT] at hx
  | .double => by intro x y p q r s hx; simp only [memT] at hx
  | .quadruple => by intro x y p q r s hx; simp only [memT] at hx
  | .enum _ => by intro x y p q r s hx; simp only [memT] at hx
theorem uniqueD {E : Env} {call : Ident → XVal → Prop} (hc : ∀ n, Unique (call n)) :
    ∀ t : DeclType, Unique (memD E call t)
  | .typespec t => by
    intro x y p q r s hx hy
    simp only [memD] at hx hy
    exact uniqueT hc t x y p q r s hx hy
  | .array _ _ => by intro x y p q r s hx; simp only [memD] at hx
  | .varArray t m => by
    intro x y p q r s hx hy hp hq h
    simp only [memD] at hx hy
    obtain ⟨l, mx, hmx, hw, hl, rfl⟩ := hx
    obtain ⟨l', mx', hmx', hw', hl', rfl⟩ := hy
    simp only [Reads] at hp hq
    obtain ⟨p', hp, rfl⟩ := hp
    obtain ⟨q', hq, rfl⟩ := hq
    simp only [List.append_assoc] at h
    obtain ⟨h1, h2⟩ := append_inj4 (by simp [be_length]) h
    have hlen : l.length = l'.length :=
      be_inj (by have := hw.1; omega) (by have := hw'.1; omega) h1
    obtain ⟨rfl, rfl⟩ := unique_list (uniqueT hc t) l l' p' q' r s hlen hl hl' hp hq h2
    exact ⟨rfl, rfl⟩
  | .opaqueArray sz => by
    intro x y p q r s hx hy hp hq h
    simp only [memD] at hx hy
    obtain ⟨b, hb, rfl⟩ := hx
    obtain ⟨b', hb', rfl⟩ := hy
    simp only [Reads] at hp hq
    obtain ⟨p', hp, rfl⟩ := hp
    obtain ⟨q', hq, rfl⟩ := hq
    have hl : b.length = b'.length := by rw [hb] at hb'; exact Option.some.inj hb'
    simp only [List.append_assoc] at h
    obtain ⟨rfl, h2⟩ := append_inj4 hl h
    obtain ⟨rfl, h2⟩ := append_inj4 (hp.trans hq.symm) h2
    exact ⟨rfl, rfl⟩
  | .opaqueVarArray m => by
    intro x y p q r s hx hy hp hq h
    simp only [memD] at hx hy
    obtain ⟨b, mx, _, hb, rfl⟩ := hx
    obtain ⟨b', mx', _, hb', rfl⟩ := hy
    simp only [Reads] at hp hq
    obtain ⟨rfl, rfl⟩ := unique_vopaque hb.1 hb'.1 hp hq h
    exact ⟨rfl, rfl⟩
  | .string m => by
    intro x y p q r s hx hy hp hq h
    simp only [memD] at hx hy
    obtain ⟨b, mx, _, hb, rfl⟩ := hx
    obtain ⟨b', mx', _, hb', rfl⟩ := hy
    simp only [Reads] at hp hq
    obtain ⟨rfl, rfl⟩ := unique_vopaque hb.1 hb'.1 hp hq h
    exact ⟨rfl, rfl⟩
  | .ptr t => by
    intro x y p q r s hx hy hp hq h
    simp only [memD] at hx hy
    obtain ⟨o, ho, rfl⟩ := hx
    obtain ⟨o', ho', rfl⟩ := hy
    cases o with
    | none =>
      cases o' with
      | none => simp only [Reads] at hp hq; subst hp hq; exact ⟨rfl, rfl⟩
      | some z =>
        simp only [Reads] at hp hq
        obtain ⟨q1, q2, hl, hv, _, rfl⟩ := hq
        subst hp
        rw [List.append_assoc] at h
        obtain ⟨h1, -⟩ := append_inj4 (by simp [be_length, hl]) h
        rw [← h1, beVal_be] at hv; simp at hv
    | some z =>
      cases o' with
      | none =>
        simp only [Reads] at hp hq
        obtain ⟨q1, q2, hl, hv, _, rfl⟩ := hp
        subst hq
        rw [List.append_assoc] at h
        obtain ⟨h1, -⟩ := append_inj4 (by simp [be_length, hl]) h
        rw [h1, beVal_be] at hv; simp at hv
      | some z' =>
        simp only [Reads] at hp hq
        obtain ⟨q1, q2, hl, hv, hr, rfl⟩ := hp
        obtain ⟨p1, p2, hl', hv', hr', rfl⟩ := hq
        rw [List.append_assoc, List.append_assoc] at h
        obtain ⟨rfl, h2⟩ := append_inj4 (hl.trans hl'.symm) h
        obtain ⟨rfl, rfl⟩ := uniqueT hc t z z' q2 p2 r s (ho z rfl) (ho' z' rfl) hr hr' h2
        exact ⟨rfl, rfl⟩
theorem uniqueDisc {E : Env} {call : Ident → XVal → Prop} (hc : ∀ n, Unique (call n)) :
    ∀ d : Decl, Unique (memDisc E call d)
  | .void => by intro x y p q r s hx; simp only [memDisc] at hx
  | .name t n => by
    intro x y p q r s hx hy
    simp only [memDisc] at hx hy
    exact uniqueD hc t x y p q r s hx hy
theorem uniqueArm {E : Env} {call : Ident → XVal → Prop} (hc : ∀ n, Unique (call n)) :
    ∀ d : Decl, Unique (memArm E call d)
  | .void => by
    intro x y p q r s hx hy hp hq h
    simp only [memArm] at hx hy
    subst hx hy
    simp only [Reads] at hp hq
    subst hp hq; exact ⟨rfl, rfl⟩
  | .name t n => by
    intro x y p q r s hx hy
    simp only [memArm] at hx hy
    exact uniqueD hc t x y p q r s hx hy
theorem uniqueDs {E : Env} {call : Ident → XVal → Prop} (hc : ∀ n, Unique (call n)) :
    ∀ ds : Decls, UniqueL (memDs E call ds)
  | .nil => by
    intro x y p q r s hx hy hp hq h
    simp only [memDs] at hx hy
    subst hx hy
    simp only [ReadsL] at hp hq
    subst hp hq; exact ⟨rfl, rfl⟩
  | .cons .void ds => by
    intro x y p q r s hx hy
    simp only [memDs] at hx hy
    exact uniqueDs hc ds x y p q r s hx hy
  | .cons (.name t n) ds => by
    intro x y p q r s hx hy hp hq h
    simp only [memDs] at hx hy
    obtain ⟨z, l, hz, hl, rfl⟩ := hx
    obtain ⟨z', l', hz', hl', rfl⟩ := hy
    simp only [ReadsL] at hp hq
    obtain ⟨p1, p2, hp1, hp2, rfl⟩ := hp
    obtain ⟨q1, q2, hq1, hq2, rfl⟩ := hq
    rw [List.append_assoc, List.append_assoc] at h
    obtain ⟨rfl, rfl⟩ := uniqueD hc t z z' p1 q1 _ _ hz hz' hp1 hq1 h
    have h' := List.append_cancel_left h
    obtain ⟨rfl, rfl⟩ := uniqueDs hc ds l l' p2 q2 r s hl hl' hp2 hq2 h'
    exact ⟨rfl, rfl⟩
theorem uniqueCs {E : Env} {call : Ident → XVal → Prop} (hc : ∀ n, Unique (call n)) (d : XVal) :
    ∀ cs : Cases, Unique (memCs E call d cs)
  | .nil => by
    intro x y p q r s hx hy hp hq h
    simp only [memCs] at hx hy
    subst hx hy
    simp only [Reads] at hp hq
    subst hp hq; exact ⟨rfl, rfl⟩
  | .dflt b => by
    intro x y p q r s hx hy
    simp only [memCs] at hx hy
    exact uniqueArm hc b x y p q r s hx hy
  | .cons l more b cs => by
    intro x y p q r s hx hy
    simp only [memCs] at hx hy
    split at hx
    · rename_i hs
      rw [if_pos hs] at hy
      exact uniqueArm hc b x y p q r s hx hy
    · rename_i hs
      rw [if_neg hs] at hy
      exact uniqueCs hc d cs x y p q r s hx hy
end

theorem uniqueN (E : Env) (k : Nat) : ∀ n, Unique (memN E k n) := by
  induction k with
  | zero => intro n x y p q r s hx; exact hx.elim
  | succ k ih =>
    intro n x y p q r s hx hy
    obtain ⟨t, ht, hx⟩ := hx
    obtain ⟨t', ht', hy⟩ := hy
    rw [ht] at ht'; cases ht'
    exact uniqueD ih t x y p q r s hx hy

theorem unique_named (E : Env) (n : Ident) : Unique (IsValue E n) := by
  intro x y p q r s ⟨k, hx⟩ ⟨k', hy⟩
  exact uniqueN E (max k k') n x y p q r s (memN_le (Nat.le_max_left _ _) hx)
    (memN_le (Nat.le_max_right _ _) hy)

end Verif.Spec
