/-
What the codecs do on a reader.
-/
import Verif.Gen.Encode

namespace Verif.Gen
open Verif.Spec Verif.Xdr

/-- A result of a decoder on a reader holding `b`: either a prefix of `b` is the wire image (`Rd`)
of a value (`P`), the rest is left and the target is overwritten (`fil`), or there is no such prefix
and an error is reported.  The target has its type (`T`) in any case. -/
def DecRes {χ α} (b : List UInt8) (P : χ → Prop) (Rd : χ → List UInt8 → Prop)
    (fil : χ → Option α) (T : α → Prop) (r : Res (XdrState × α)) : Prop :=
  (∃ x p rest v', b = p ++ rest ∧ Rd x p ∧ P x ∧ r = .ok (makeReader rest, v') ∧
    fil x = some v' ∧ T v') ∨
  (∃ xs' v', r = .ok (xs', v') ∧ Failed xs' ∧ T v' ∧ ∀ x p rest, P x → Rd x p → b ≠ p ++ rest)

theorem DecRes.seq {χ₁ χ₂ χ₃ α β γ} {b : List UInt8} {P₁ : χ₁ → Prop} {P₂ : χ₁ → χ₂ → Prop}
    {P₃ : χ₃ → Prop} {R₁ : χ₁ → List UInt8 → Prop} {R₂ : χ₂ → List UInt8 → Prop}
    {R₃ : χ₃ → List UInt8 → Prop} {f₁ : χ₁ → Option α} {f₂ : χ₁ → χ₂ → Option β}
    {f₃ : χ₃ → Option γ} {T₁ : α → Prop} {T₂ : β → Prop} {T₃ : γ → Prop} {mk : χ₁ → χ₂ → χ₃}
    {cmb : α → β → γ} {r₁ : Res (XdrState × α)} {r₂ : α → XdrState → Res (XdrState × β)}
    (hu : ∀ x y p q r s, P₁ x → P₁ y → R₁ x p → R₁ y q → p ++ r = q ++ s → x = y ∧ p = q)
    (h₁ : DecRes b P₁ R₁ f₁ T₁ r₁)
    (h₂ : ∀ x v rest, rest.length ≤ b.length → P₁ x → f₁ x = some v → T₁ v →
      DecRes rest (P₂ x) R₂ (f₂ x) T₂ (r₂ v (makeReader rest)))
    (hs : ∀ xs v, Failed xs → T₁ v → ∃ v₂, T₂ v₂ ∧ r₂ v xs = .ok (xs, v₂))
    (hP : ∀ z, P₃ z ↔ ∃ x y, P₁ x ∧ P₂ x y ∧ z = mk x y)
    (hR : ∀ x y p, R₃ (mk x y) p ↔ ∃ p₁ p₂, R₁ x p₁ ∧ R₂ y p₂ ∧ p = p₁ ++ p₂)
    (hf : ∀ x y v₁ v₂, f₁ x = some v₁ → f₂ x y = some v₂ → f₃ (mk x y) = some (cmb v₁ v₂))
    (hT : ∀ v₁ v₂, T₁ v₁ → T₂ v₂ → T₃ (cmb v₁ v₂)) :
    DecRes b P₃ R₃ f₃ T₃ (r₁ >>= fun a => r₂ a.2 a.1 >>= fun c => .ok (c.1, cmb a.2 c.2)) := by
  rcases h₁ with ⟨x, p, rest, v, rfl, hrd, hp, rfl, hfx, hTv⟩ | ⟨xs', v, rfl, hF, hTv, hno⟩
  · rcases h₂ x v rest (by simp) hp hfx hTv with
      ⟨y, q, rest', v₂, rfl, hrd2, hp2, h2, hfy, hTv2⟩ | ⟨xs', v₂, h2, hF, hTv2, hno⟩
    · refine .inl ⟨mk x y, p ++ q, rest', cmb v v₂, by simp, (hR ..).mpr ⟨p, q, hrd, hrd2, rfl⟩,
        (hP _).mpr ⟨x, y, hp, hp2, rfl⟩, ?_, hf x y v v₂ hfx hfy, hT v v₂ hTv hTv2⟩
      simp [bind, Except.bind, h2]
    · refine .inr ⟨xs', cmb v v₂, by simp [bind, Except.bind, h2], hF, hT v v₂ hTv hTv2, ?_⟩
      intro z pz rz hz hrz heq
      obtain ⟨x', y', hx', hy', rfl⟩ := (hP z).mp hz
      obtain ⟨p₁, p₂, h1, h2', rfl⟩ := (hR ..).mp hrz
      rw [List.append_assoc] at heq
      obtain ⟨rfl, rfl⟩ := hu x x' p p₁ rest _ hp hx' hrd h1 heq
      exact hno y' p₂ rz hy' h2' (List.append_cancel_left heq)
  · obtain ⟨v₂, hTv2, h2⟩ := hs xs' v hF hTv
    refine .inr ⟨xs', cmb v v₂, by simp [bind, Except.bind, h2], hF, hT v v₂ hTv hTv2, ?_⟩
    intro z pz rz hz hrz heq
    obtain ⟨x', y', hx', hy', rfl⟩ := (hP z).mp hz
    obtain ⟨p₁, p₂, h1, h2', rfl⟩ := (hR ..).mp hrz
    rw [List.append_assoc] at heq
    exact hno x' p₁ _ hx' h1 heq

theorem DecRes.map {χ χ' α β} {b : List UInt8} {P : χ → Prop} {P' : χ' → Prop}
    {R : χ → List UInt8 → Prop} {R' : χ' → List UInt8 → Prop} {f : χ → Option α}
    {f' : χ' → Option β} {T : α → Prop} {T' : β → Prop} {r : Res (XdrState × α)}
    (h : DecRes b P R f T r) (mk : χ → χ') (cmb : α → β)
    (hP : ∀ z, P' z ↔ ∃ x, P x ∧ z = mk x) (hR : ∀ x p, R' (mk x) p ↔ R x p)
    (hf : ∀ x v, f x = some v → f' (mk x) = some (cmb v)) (hT : ∀ v, T v → T' (cmb v)) :
    DecRes b P' R' f' T' (r >>= fun a => .ok (a.1, cmb a.2)) := by
  rcases h with ⟨x, p, rest, v, rfl, hrd, hp, rfl, hfx, hTv⟩ | ⟨xs', v, rfl, hF, hTv, hno⟩
  · exact .inl ⟨mk x, p, rest, cmb v, rfl, (hR ..).mpr hrd, (hP _).mpr ⟨x, hp, rfl⟩, rfl,
      hf x v hfx, hT v hTv⟩
  · refine .inr ⟨xs', cmb v, rfl, hF, hT v hTv, ?_⟩
    intro z pz rz hz hrz
    obtain ⟨x, hx, rfl⟩ := (hP z).mp hz
    exact hno x pz rz hx ((hR ..).mp hrz)

/-- A list of elements, all starting as `z`. -/
theorem codecElems_dec {f : XdrState → GoVal → Res (XdrState × GoVal)} {P : XVal → Prop}
    {fil : XVal → Option GoVal} {T : GoVal → Prop} {z : GoVal} (hu : Unique P) (hz : T z)
    (hs : ∀ xs, xs.err.isSome → f xs z = .ok (xs, z)) :
    ∀ (n : Nat) (b : List UInt8),
      (∀ b' : List UInt8, b'.length ≤ b.length → DecRes b' P Reads fil T (f (makeReader b') z)) →
      DecRes b (fun l => l.length = n ∧ ∀ y ∈ l, P y) ReadsL (mapAll fil) (fun l => ∀ w ∈ l, T w)
        (codecElems f n (makeReader b) (List.replicate n z))
  | 0, b, h => by
    refine .inl ⟨[], [], b, [], rfl, by simp [ReadsL], by simp, by simp [codecElems], rfl, by simp⟩
  | n + 1, b, h => by
    have ih := fun b' (hb' : b'.length ≤ b.length) => codecElems_dec hu hz hs n b'
      (fun b'' hb'' => h b'' (Nat.le_trans hb'' hb'))
    simp only [List.replicate_succ, codecElems]
    refine DecRes.seq (mk := List.cons) (cmb := List.cons)
      (f₂ := fun _ => mapAll fil) (P₂ := fun _ l => l.length = n ∧ ∀ y ∈ l, P y)
      (r₂ := fun _ xs => codecElems f n xs (List.replicate n z))
      hu (h b (Nat.le_refl _)) (fun x v rest hl _ _ _ => ih rest hl) ?_ ?_ ?_ ?_ ?_
    · intro xs v hF _
      exact ⟨List.replicate n z, by simp_all [List.mem_replicate],
        codecElems_err _ n (by simp) (fun w hw => by
          rw [List.mem_replicate] at hw; rw [hw.2]; exact hs xs hF.1)⟩
    · intro l
      cases l with
      | nil => simp
      | cons y l =>
        simp only [List.length_cons, Nat.add_right_cancel_iff, List.mem_cons, forall_eq_or_imp]
        constructor
        · rintro ⟨h1, h2, h3⟩; exact ⟨y, l, h2, ⟨h1, h3⟩, rfl⟩
        · rintro ⟨x, y', h1, ⟨h2, h3⟩, h4⟩; cases h4; exact ⟨h2, h1, h3⟩
    · intro x y p; simp only [ReadsL]
    · intro x y v1 v2 h1 h2; simp [mapAll, h1, h2]
    · intro v1 v2 h1 h2; simpa using ⟨h1, h2⟩

theorem int32_of_twos {z : Int} {x : UInt32} (h1 : -2147483648 ≤ z) (h2 : z < 2147483648)
    (h : x.toNat = twos 32 z) : Int32.ofInt z = x.toInt32 := by
  apply Int32.toInt_inj.mp
  rw [Int32.toInt_ofInt_of_le h1 h2]
  have h3 := int32_toNat x.toInt32
  rw [UInt32.toUInt32_toInt32, h] at h3
  exact twos32_inj h1 h2 x.toInt32.le_toInt x.toInt32.toInt_lt h3

theorem int64_of_twos {z : Int} {x : UInt64} (h1 : -9223372036854775808 ≤ z)
    (h2 : z < 9223372036854775808) (h : x.toNat = twos 64 z) : Int64.ofInt z = x.toInt64 := by
  apply Int64.toInt_inj.mp
  rw [Int64.toInt_ofInt_of_le h1 h2]
  have h3 := int64_toNat x.toInt64
  rw [UInt64.toUInt64_toInt64, h] at h3
  exact twos64_inj h1 h2 x.toInt64.le_toInt x.toInt64.toInt_lt h3

section
variable {g : GoProg} {E : Env} {defs : Ident → Option DeclType} {K : Nat}

/-- The discriminant that was filled in has the meaning that was read. -/
theorem kind_fill {κ : Kind} {zt : Typespec → Option GoVal} :
    ∀ (k j : Nat) (t : DeclType) (v v' : GoVal) (x : XVal),
    kindOf E k t = some κ → memD E (IsValue E) t x → fillD E zt (fillN E zt j) t v x = some v' →
    kindVal v' = x := by
  intro k
  have base : ∀ (t : Typespec) (v v' : GoVal) (x : XVal) (call : Ident → GoVal → XVal → Option GoVal),
      (∃ b, t = .int b) ∨ (∃ b, t = .hyper b) ∨ t = .bool →
      memT E (IsValue E) t x → fillT E zt call t v x = some v' → kindVal v' = x := by
    rintro t v v' x call (⟨b, rfl⟩ | ⟨b, rfl⟩ | rfl) hm hf
    · cases b with
      | true =>
        simp only [memT] at hm; obtain ⟨n, hn, rfl⟩ := hm
        simp only [fillT, fillU32] at hf; cases hf
        simp only [kindVal]; rw [u32_ofNat (by omega)]
      | false =>
        simp only [memT] at hm; obtain ⟨z, h1, h2, rfl⟩ := hm
        simp only [fillT, fillI32] at hf; cases hf
        simp only [kindVal]; rw [Int32.toInt_ofInt_of_le h1 h2]
    · cases b with
      | true =>
        simp only [memT] at hm; obtain ⟨n, hn, rfl⟩ := hm
        simp only [fillT, fillU64] at hf; cases hf
        simp only [kindVal]
        rw [UInt64.toNat_ofNat', Nat.mod_eq_of_lt (by omega)]
      | false =>
        simp only [memT] at hm; obtain ⟨z, h1, h2, rfl⟩ := hm
        simp only [fillT, fillI64] at hf; cases hf
        simp only [kindVal]; rw [Int64.toInt_ofInt_of_le h1 h2]
    · simp only [memT] at hm; obtain ⟨n, rfl⟩ := hm
      simp only [fillT, fillBool] at hf; cases hf
      rfl
  induction k with
  | zero =>
    intro j t v v' x hk hm hf
    unfold kindOf at hk
    split at hk <;> first
      | (simp only [memD, fillD] at hm hf
         exact base _ v v' x _ (by first | exact .inl ⟨_, rfl⟩ | exact .inr (.inl ⟨_, rfl⟩) | exact .inr (.inr rfl)) hm hf)
      | simp_all
  | succ k ih =>
    intro j t v v' x hk hm hf
    unfold kindOf at hk
    split at hk <;> first
      | (simp only [memD, fillD] at hm hf
         exact base _ v v' x _ (by first | exact .inl ⟨_, rfl⟩ | exact .inr (.inl ⟨_, rfl⟩) | exact .inr (.inr rfl)) hm hf)
      | skip
    · rename_i n heq
      cases heq
      simp only [memD, memT] at hm
      obtain ⟨t', ht', hm⟩ := IsValue.unfold hm
      rw [ht'] at hk
      simp only [Option.bind_some] at hk
      simp only [fillD, fillT] at hf
      cases j with
      | zero => simp [fillN] at hf
      | succ j =>
        simp only [fillN, ht', Option.bind_some] at hf
        rcases t'.ptr_or with ⟨t'', rfl⟩ | hn
        · cases k <;> simp [kindOf] at hk
        · refine ih j t' v v' x hk hm ?_
          cases t' <;> first | exact hf | exact hn.elim
    · simp at hk

theorem no_short {n : Nat} {b p rest : List UInt8} (hb : b.length < n) (hp : p.length = n) :
    b ≠ p ++ rest := by
  rintro rfl; simp at hb; omega

section
variable {F : Nat}

theorem codecN_sticky_le (L : Link g E defs K) {xs : XdrState} (he : xs.err.isSome) {k : Nat}
    (hk : k ≤ F) (n : Ident) (v : GoVal) (h : hasN E k n v) :
    codecN g defs F (i n) xs v = .ok (xs, v) :=
  codecN_le hk _ _ _ _ (codecN_sticky L he k n v h)

/-- The hypothesis on named types. -/
def DecN (g : GoProg) (E : Env) (defs : Ident → Option DeclType) (F : Nat) : Prop :=
  ∀ (n : Ident) (k : Nat) (b : List UInt8) (v : GoVal), k + b.length / 4 * g.depth ≤ F →
    hasN E k n v → DecRes b (IsValue E n) Reads (fillN E (zeroOf g) F n v) (Typed E n)
      (codecN g defs F (i n) (makeReader b) v)

theorem bound_le {k R F : Nat} {b b' : List UInt8} (h : k + b.length / 4 * R ≤ F)
    (hb : b'.length ≤ b.length) : k + b'.length / 4 * R ≤ F := by
  have : b'.length / 4 * R ≤ b.length / 4 * R :=
    Nat.mul_le_mul_right R (Nat.div_le_div_right hb)
  omega

theorem bound_new {k R F : Nat} {b b' : List UInt8} (h : k + b.length / 4 * R ≤ F)
    (hb : b'.length + 4 ≤ b.length) : R + b'.length / 4 * R ≤ F := by
  have h1 : b'.length / 4 + 1 ≤ b.length / 4 := by omega
  have h2 : (b'.length / 4 + 1) * R ≤ b.length / 4 * R := Nat.mul_le_mul_right R h1
  rw [Nat.add_mul] at h2
  omega

theorem typedT {k : Nat} {t : Typespec} {v : GoVal} (h : hasT E (hasN E k) t v) :
    hasT E (Typed E) t v := hasT_mono (fun n v h => ⟨k, h⟩) t v h

theorem typedD {k : Nat} {t : DeclType} {v : GoVal} (h : hasD E (hasN E k) t v) :
    hasD E (Typed E) t v := hasD_mono (fun n v h => ⟨k, h⟩) t v h

mutual
theorem Typespec.decode (L : Link g E defs K) (hc : DecN g E defs F) :
    ∀ (t : Typespec) (inArr : Bool) (k : Nat) (b : List UInt8) (v : GoVal),
      t.wf E K inArr = true → k + b.length / 4 * g.depth ≤ F → hasT E (hasN E k) t v →
      DecRes b (memT E (IsValue E) t) Reads (fillT E (zeroOf g) (fillN E (zeroOf g) F) t v)
        (hasT E (Typed E) t) (t.codec g (codecN g defs F) (makeReader b) v)
  | .int true, _, k, b, v, _, _, h => by
    have hT := typedT h
    simp only [hasT] at h; obtain ⟨x, rfl⟩ := h
    rcases short_or_split b 4 with hs | ⟨p, rest, rfl, hp⟩
    · refine .inr ⟨shortState 4 b, .u32 x, ?_, failed_short .., hT, ?_⟩
      · simp [Typespec.codec, libU32, u32_short b x hs]
      · intro y p rest hy hr
        simp only [memT] at hy; obtain ⟨n, _, rfl⟩ := hy
        simp only [Reads] at hr; exact no_short hs (by simp [hr])
    · have hv : (getU32 p).toNat = beVal p := getU32_toNat hp
      have hlt := (getU32 p).toNat_lt
      refine .inl ⟨.uint (getU32 p).toNat, p, rest, .u32 (getU32 p), rfl, ?_, ?_, ?_, ?_, ?_⟩
      · simp only [Reads]; rw [hv, ← hp, be_beVal]
      · simp only [memT]; exact ⟨_, hlt, rfl⟩
      · simp [Typespec.codec, libU32, u32_reader p rest x hp]
      · simp [fillT, fillU32]
      · simp only [hasT]; exact ⟨_, rfl⟩
  | .int false, _, k, b, v, _, _, h => by
    have hT := typedT h
    simp only [hasT] at h; obtain ⟨x, rfl⟩ := h
    rcases short_or_split b 4 with hs | ⟨p, rest, rfl, hp⟩
    · refine .inr ⟨shortState 4 b, .i32 x, ?_, failed_short .., hT, ?_⟩
      · simp [Typespec.codec, libS32, s32_short b x hs]
      · intro y p rest hy hr
        simp only [memT] at hy; obtain ⟨n, _, _, rfl⟩ := hy
        simp only [Reads] at hr; exact no_short hs (by simp [hr])
    · have hv : (getU32 p).toNat = beVal p := getU32_toNat hp
      have htw := int32_toNat (getU32 p).toInt32
      rw [UInt32.toUInt32_toInt32] at htw
      have h1 := (getU32 p).toInt32.le_toInt
      have h2 := (getU32 p).toInt32.toInt_lt
      refine .inl ⟨.int (getU32 p).toInt32.toInt, p, rest, .i32 (getU32 p).toInt32, rfl,
        ?_, ?_, ?_, ?_, ?_⟩
      · simp only [Reads]; rw [← htw, hv, ← hp, be_beVal]
      · simp only [memT]; exact ⟨_, h1, h2, rfl⟩
      · simp [Typespec.codec, libS32, s32_reader p rest x hp]
      · simp only [fillT, fillI32]; rw [int32_of_twos h1 h2 htw]
      · simp only [hasT]; exact ⟨_, rfl⟩
  | .hyper true, _, k, b, v, _, _, h => by
    have hT := typedT h
    simp only [hasT] at h; obtain ⟨x, rfl⟩ := h
    rcases short_or_split b 8 with hs | ⟨p, rest, rfl, hp⟩
    · refine .inr ⟨shortState 8 b, .u64 x, ?_, failed_short .., hT, ?_⟩
      · simp [Typespec.codec, libU64, u64_short b x hs]
      · intro y p rest hy hr
        simp only [memT] at hy; obtain ⟨n, _, rfl⟩ := hy
        simp only [Reads] at hr; exact no_short hs (by simp [hr])
    · have hv : (getU64 p).toNat = beVal p := getU64_toNat hp
      have hlt := (getU64 p).toNat_lt
      refine .inl ⟨.uhyper (getU64 p).toNat, p, rest, .u64 (getU64 p), rfl, ?_, ?_, ?_, ?_, ?_⟩
      · simp only [Reads]; rw [hv, ← hp, be_beVal]
      · simp only [memT]; exact ⟨_, hlt, rfl⟩
      · simp [Typespec.codec, libU64, u64_reader p rest x hp]
      · simp [fillT, fillU64]
      · simp only [hasT]; exact ⟨_, rfl⟩
  | .hyper false, _, k, b, v, _, _, h => by
    have hT := typedT h
    simp only [hasT] at h; obtain ⟨x, rfl⟩ := h
    rcases short_or_split b 8 with hs | ⟨p, rest, rfl, hp⟩
    · refine .inr ⟨shortState 8 b, .i64 x, ?_, failed_short .., hT, ?_⟩
      · simp [Typespec.codec, libS64, s64_short b x hs]
      · intro y p rest hy hr
        simp only [memT] at hy; obtain ⟨n, _, _, rfl⟩ := hy
        simp only [Reads] at hr; exact no_short hs (by simp [hr])
    · have hv : (getU64 p).toNat = beVal p := getU64_toNat hp
      have htw := int64_toNat (getU64 p).toInt64
      rw [UInt64.toUInt64_toInt64] at htw
      have h1 := (getU64 p).toInt64.le_toInt
      have h2 := (getU64 p).toInt64.toInt_lt
      refine .inl ⟨.hyper (getU64 p).toInt64.toInt, p, rest, .i64 (getU64 p).toInt64, rfl,
        ?_, ?_, ?_, ?_, ?_⟩
      · simp only [Reads]; rw [← htw, hv, ← hp, be_beVal]
      · simp only [memT]; exact ⟨_, h1, h2, rfl⟩
      · simp [Typespec.codec, libS64, s64_reader p rest x hp]
      · simp only [fillT, fillI64]; rw [int64_of_twos h1 h2 htw]
      · simp only [hasT]; exact ⟨_, rfl⟩
  | .bool, _, k, b, v, _, _, h => by
    have hT := typedT h
    simp only [hasT] at h; obtain ⟨x, rfl⟩ := h
    rcases short_or_split b 4 with hs | ⟨p, rest, rfl, hp⟩
    · refine .inr ⟨shortState 4 b, .bool x, ?_, failed_short .., hT, ?_⟩
      · simp [Typespec.codec, libBool, bool_short b x hs]
      · intro y p rest hy hr
        simp only [memT] at hy; obtain ⟨n, rfl⟩ := hy
        simp only [Reads] at hr; exact no_short hs hr.1
    · refine .inl ⟨.bool (decide (beVal p ≠ 0)), p, rest, .bool (decide (beVal p ≠ 0)), rfl,
        ?_, ?_, ?_, ?_, ?_⟩
      · simp only [Reads]; exact ⟨hp, trivial⟩
      · simp only [memT]; exact ⟨_, rfl⟩
      · simp only [Typespec.codec, libBool, bool_reader p rest x hp]
      · simp only [fillT, fillBool]
      · simp only [hasT]; exact ⟨_, rfl⟩
  | .struct ds, inArr, k, b, v, hwf, hb, h => by
    simp only [hasT] at h; obtain ⟨fs, rfl, h⟩ := h
    simp only [Typespec.wf, Bool.and_eq_true] at hwf
    simp only [Typespec.codec]
    refine (Decls.decode L hc ds inArr k b fs hwf.2 hb h).map XVal.struct GoVal.struct ?_ ?_ ?_ ?_
    · intro z; simp only [memT]
    · intro l p; simp only [Reads]
    · intro l fs' hl; simp [fillT, hl]
    · intro fs' h'; simp only [hasT]; exact ⟨fs', rfl, h'⟩
  | .union sw cs, inArr, k, b, v, hwf, hb, h => by
    simp only [hasT] at h; obtain ⟨fs, rest, rfl, h1, h2⟩ := h
    simp only [Typespec.wf, Bool.and_eq_true] at hwf
    cases hk : sw.kindOf E K with
    | none => rw [hk] at hwf; simp at hwf
    | some κ =>
      rw [hk] at hwf
      cases sw with
      | void => simp [Decl.kindOf] at hk
      | name t n =>
        simp only [hasField] at h1
        obtain ⟨d, rfl, h1⟩ := h1
        simp only [Decl.kindOf] at hk
        simp only [Decl.wf] at hwf
        unfold Typespec.codec
        simp only [if_true]
        refine DecRes.seq (mk := XVal.union)
          (cmb := fun d arms => GoVal.struct ((i n, d) :: arms))
          (P₂ := fun d a => memCs E (IsValue E) d cs a)
          (f₂ := fun d a => fillCs E (zeroOf g) (fillN E (zeroOf g) F) d cs rest a)
          (T₂ := fun fs => hasCs E (Typed E) cs fs) (R₂ := Reads)
          (r₂ := fun d xs => cs.codec g (codecN g defs F) d xs rest)
          (uniqueD (unique_named E) t) (DeclType.decode L hc t inArr k b d hwf.1.2 hb h1)
          ?_ ?_ ?_ ?_ ?_ ?_
        · intro x d' rest' hl hx hf hT'
          have hd := kind_has K t d' hk hT'
          have := kind_fill K F t d d' x hk hx hf
          subst this
          exact Cases.decode L hc κ d' hd cs inArr k rest' rest hwf.2 (bound_le hb hl) h2
        · intro xs d' hF hT'
          have hd := kind_has K t d' hk hT'
          exact ⟨rest, hasCs_mono (fun n v h => ⟨k, h⟩) cs rest h2,
            Cases.sticky L hF.1 (fun n v h => ⟨k, h⟩)
            (codecN_sticky_le L hF.1 (by omega)) κ d' hd cs inArr rest hwf.2 h2⟩
        · intro z; simp only [memT, memDisc]
        · intro x y p; simp only [Reads]
        · intro x y v1 v2 e1 e2
          simp [fillT, skipField, fillDecl, e1, e2]
        · intro v1 v2 e1 e2
          simp only [hasT, hasField]
          exact ⟨_, v2, rfl, ⟨v1, rfl, e1⟩, e2⟩
  | .ident n, _, k, b, v, _, hb, h => by
    simp only [hasT] at h; simp only [Typespec.codec]
    have := hc n k b v hb h
    simpa only [memT, fillT, hasT] using this
  | .float, _, _, _, _, h, _, _ => by simp [Typespec.wf] at h
  | .double, _, _, _, _, h, _, _ => by simp [Typespec.wf] at h
  | .quadruple, _, _, _, _, h, _, _ => by simp [Typespec.wf] at h
  | .enum _, _, _, _, _, h, _, _ => by simp [Typespec.wf] at h
theorem DeclType.decode (L : Link g E defs K) (hc : DecN g E defs F) :
    ∀ (t : DeclType) (inArr : Bool) (k : Nat) (b : List UInt8) (v : GoVal),
      t.wf E K inArr = true → k + b.length / 4 * g.depth ≤ F → hasD E (hasN E k) t v →
      DecRes b (memD E (IsValue E) t) Reads (fillD E (zeroOf g) (fillN E (zeroOf g) F) t v)
        (hasD E (Typed E) t) (t.codec g (codecN g defs F) (makeReader b) v)
  | .typespec t, inArr, k, b, v, hwf, hb, h => by
    simp only [DeclType.wf, hasD] at hwf h
    have := Typespec.decode L hc t inArr k b v hwf hb h
    simpa only [memD, fillD, hasD, DeclType.codec] using this
  | .array _ _, _, _, _, _, h, _, _ => by simp [DeclType.wf] at h
  | .varArray t m, inArr, k, b, v, hwf, hb, h => by
    have hT := typedD h
    simp only [DeclType.wf, Bool.and_eq_true] at hwf
    obtain ⟨mx, hmx⟩ := Option.isSome_iff_exists.mp hwf.2
    rw [codec_varArray L hmx]
    simp only [hasD] at h
    obtain ⟨o, rfl, h⟩ := h
    rcases short_or_split b 4 with hs | ⟨p, rest, rfl, hp⟩
    · have h0 : mx.any (fun m => decide ((0 : UInt32).toNat > m)) = false := by
        cases mx <;> simp
      refine .inr ⟨shortState 4 b, .slice o, ?_, failed_short .., hT, ?_⟩
      · simp only [codecVar, setSize_reader, u32_short b 0 hs, h0, decoding_err (xs := shortState 4 b) rfl,
          Bool.false_eq_true, if_false]
        cases o with
        | none => simp [Pure.pure, Except.pure]
        | some l => simp [codecElems, bind, Except.bind, Pure.pure, Except.pure]
      · intro y p rest hy hr
        simp only [memD] at hy; obtain ⟨l, _, _, _, _, rfl⟩ := hy
        simp only [Reads] at hr; obtain ⟨r, _, rfl⟩ := hr
        rw [List.append_assoc]
        exact no_short hs (by simp)
    · have hv : (getU32 p).toNat = beVal p := getU32_toNat hp
      have hlt := (getU32 p).toNat_lt
      simp only [codecVar, setSize_reader, u32_reader p rest 0 hp, decoding_reader, if_true]
      -- the length word determines the number of elements
      have hlen : ∀ (y : XVal) (q r : List UInt8), memD E (IsValue E) (.varArray t m) y →
          Reads y q → p ++ rest = q ++ r →
          ∃ l r', y = .array l ∧ l.length = (getU32 p).toNat ∧ withinMax mx l.length ∧
            (∀ z ∈ l, memT E (IsValue E) t z) ∧ ReadsL l r' ∧ rest = r' ++ r := by
        intro y q r hy hr heq
        simp only [memD] at hy; obtain ⟨l, mx', h1, h2, h3, rfl⟩ := hy
        rw [hmx] at h1; cases h1
        simp only [Reads] at hr; obtain ⟨r', hr', rfl⟩ := hr
        rw [List.append_assoc] at heq
        obtain ⟨e1, e2⟩ := append_inj4 (by simp [hp]) heq
        refine ⟨l, r', rfl, ?_, h2, h3, hr', e2⟩
        rw [hv, e1, beVal_be, Nat.mod_eq_of_lt]
        have := h2.1; omega
      by_cases hm : withinMax mx (getU32 p).toNat
      · have hany : mx.any (fun m => decide ((getU32 p).toNat > m)) = false := by
          cases mx with
          | none => rfl
          | some m => simpa using hm.2 m rfl
        simp only [hany, Bool.false_eq_true, if_false]
        obtain ⟨z, hz, hzt, _⟩ := zeroOf_ok L t true hwf.1.2
        rw [hz]
        simp only [orStuck, bind, Except.bind]
        have hbn : ∀ b' : List UInt8, b'.length ≤ rest.length →
            g.depth + b'.length / 4 * g.depth ≤ F := by
          intro b' hb'
          refine bound_new hb ?_
          simp; omega
        have hdep : g.depth ≤ F := by have := hbn [] (by simp); omega
        have el := codecElems_dec (f := fun xs v => t.codec g (codecN g defs F) xs v)
          (T := hasT E (Typed E) t) (z := z)
          (uniqueT (unique_named E) t) (typedT hzt)
          (fun xs he => Typespec.sticky L he (fun n v h => ⟨_, h⟩)
            (codecN_sticky_le L he hdep) t true z hwf.1.2 hzt)
          (getU32 p).toNat rest
          (fun b' hb' => Typespec.decode L hc t true g.depth b' z hwf.1.2 (hbn b' hb') hzt)
        rcases el with ⟨l, q, rest', l', rfl, hrd, ⟨hl1, hl2⟩, hr, hf, hTl⟩ |
          ⟨xs', l', hr, hF, hTl, hno⟩
        · refine .inl ⟨.array l, p ++ q, rest', .slice (some l'), by simp, ?_, ?_, ?_, ?_, ?_⟩
          · simp only [Reads]; exact ⟨q, hrd, by rw [hl1, hv, ← hp, be_beVal]⟩
          · simp only [memD]; exact ⟨l, mx, hmx, hl1 ▸ hm, hl2, rfl⟩
          · simp only [hr]; rfl
          · simp [fillD, hz, hf]
          · simp only [hasD]; exact ⟨some l', rfl, fun l h => by cases h; exact hTl⟩
        · refine .inr ⟨xs', .slice (some l'), by simp only [hr]; rfl, hF, ?_, ?_⟩
          · simp only [hasD]; exact ⟨some l', rfl, fun l h => by cases h; exact hTl⟩
          · intro y q r hy hr' heq
            obtain ⟨l, r', rfl, e1, _, e3, e4, e5⟩ := hlen y q r hy hr' heq
            exact hno l r' r ⟨e1, e3⟩ e4 e5
      · have hany : mx.any (fun m => decide ((getU32 p).toNat > m)) = true := by
          cases mx with
          | none => exact absurd ⟨by omega, by simp⟩ hm
          | some m =>
            simp only [Option.any_some, decide_eq_true_eq, gt_iff_lt]
            rcases Nat.lt_or_ge m (getU32 p).toNat with h1 | h1
            · exact h1
            · exact absurd ⟨by omega, by intro m' hm'; cases hm'; exact h1⟩ hm
        simp only [hany, if_true]
        refine .inr ⟨_, .slice o, rfl, failed_setError _ rfl, hT, ?_⟩
        intro y q r hy hr' heq
        obtain ⟨l, r', rfl, e1, e2, _⟩ := hlen y q r hy hr' heq
        exact hm (e1 ▸ e2)
  | .opaqueArray sz, _, k, b, v, _, _, h => by
    simp only [hasD] at h; obtain ⟨d0, rfl, hd0⟩ := h
    rcases short_or_split b (d0.length + pad d0.length) with hs | ⟨p, rest, rfl, hp⟩
    · obtain ⟨hF, hlen⟩ := array_fail b d0 hs
      refine .inr ⟨_, .barr (xdrArray (makeReader b) d0).2, by simp only [DeclType.codec, libArray], hF, ?_, ?_⟩
      · simp only [hasD]; exact ⟨_, rfl, by rw [hlen]; exact hd0⟩
      · intro y p rest hy hr
        simp only [memD] at hy; obtain ⟨d, hd, rfl⟩ := hy
        simp only [Reads] at hr; obtain ⟨q, hq, rfl⟩ := hr
        rw [hd0] at hd; injection hd with hd
        refine no_short hs ?_
        simp [hq, hd]
    · have hsplit : p = p.take d0.length ++ p.drop d0.length := (List.take_append_drop _ _).symm
      have h1 : (p.take d0.length).length = d0.length := by simp; omega
      have h2 : (p.drop d0.length).length = pad (p.take d0.length).length := by rw [h1]; simp; omega
      generalize p.take d0.length = d at hsplit h1 h2
      generalize p.drop d0.length = q at hsplit h2
      subst hsplit
      refine .inl ⟨.opaque d, d ++ q, rest, .barr d, rfl, ?_, ?_, ?_, ?_, ?_⟩
      · simp only [Reads]; exact ⟨q, h2, rfl⟩
      · simp only [memD]; exact ⟨d, by rw [h1]; exact hd0, rfl⟩
      · simp only [DeclType.codec, libArray, array_reader d q rest d0 h1 h2]
      · simp [fillD]
      · simp only [hasD]; exact ⟨d, rfl, by rw [h1]; exact hd0⟩
  | .opaqueVarArray m, _, k, b, v, hwf, _, h => by
    simp only [DeclType.wf] at hwf
    obtain ⟨mx, hmx⟩ := Option.isSome_iff_exists.mp hwf
    simp only [hasD] at h; obtain ⟨d0, rfl⟩ := h
    simp only [DeclType.codec, maxOf_ok L hmx, orStuck, bind, Except.bind, libVarArray]
    by_cases hs : ∃ d q rest, b = be 4 d.length ++ (d ++ q) ++ rest ∧ withinMax mx d.length ∧
      q.length = pad d.length
    · obtain ⟨d, q, rest, rfl, h1, h2⟩ := hs
      rw [varArray_reader d q rest mx d0 h1 h2]
      refine .inl ⟨.vopaque d, be 4 d.length ++ (d ++ q), rest, .bytes (some d), rfl, ?_, ?_, rfl, ?_, ?_⟩
      · simp only [Reads]; exact ⟨q, h2, rfl⟩
      · simp only [memD]; exact ⟨d, mx, hmx, h1, rfl⟩
      · simp [fillD]
      · simp only [hasD]; exact ⟨_, rfl⟩
    · refine .inr ⟨_, _, rfl, varArray_fail b mx d0 hs, ?_, ?_⟩
      · simp only [hasD]; exact ⟨_, rfl⟩
      · intro y p rest hy hr heq
        simp only [memD] at hy; obtain ⟨d, mx', h1, h2, rfl⟩ := hy
        rw [hmx] at h1; cases h1
        simp only [Reads] at hr; obtain ⟨q, hq, rfl⟩ := hr
        exact hs ⟨d, q, rest, heq, h2, hq⟩
  | .string m, _, k, b, v, hwf, _, h => by
    simp only [DeclType.wf] at hwf
    obtain ⟨mx, hmx⟩ := Option.isSome_iff_exists.mp hwf
    simp only [hasD] at h; obtain ⟨d0, rfl⟩ := h
    simp only [DeclType.codec, maxOf_ok L hmx, orStuck, bind, Except.bind, libString]
    by_cases hs : ∃ d q rest, b = be 4 d.length ++ (d ++ q) ++ rest ∧ withinMax mx d.length ∧
      q.length = pad d.length
    · obtain ⟨d, q, rest, rfl, h1, h2⟩ := hs
      rw [string_reader d q rest mx d0 h1 h2]
      refine .inl ⟨.string d, be 4 d.length ++ (d ++ q), rest, .str d, rfl, ?_, ?_, rfl, ?_, ?_⟩
      · simp only [Reads]; exact ⟨q, h2, rfl⟩
      · simp only [memD]; exact ⟨d, mx, hmx, h1, rfl⟩
      · simp [fillD]
      · simp only [hasD]; exact ⟨_, rfl⟩
    · refine .inr ⟨_, _, rfl, string_fail b mx d0 hs, ?_, ?_⟩
      · simp only [hasD]; exact ⟨_, rfl⟩
      · intro y p rest hy hr heq
        simp only [memD] at hy; obtain ⟨d, mx', h1, h2, rfl⟩ := hy
        rw [hmx] at h1; cases h1
        simp only [Reads] at hr; obtain ⟨q, hq, rfl⟩ := hr
        exact hs ⟨d, q, rest, heq, h2, hq⟩
  | .ptr t, inArr, k, b, v, hwf, hb, h => by
    have hT := typedD h
    simp only [DeclType.wf] at hwf
    simp only [hasD] at h; obtain ⟨o, rfl, h⟩ := h
    simp only [DeclType.codec, codecPtr, codecPtrEnc, encoding_reader, Bool.false_eq_true, if_false,
      codecPtrDec]
    rcases short_or_split b 4 with hs | ⟨p, rest, rfl, hp⟩
    · refine .inr ⟨shortState 4 b, .ptr o, ?_, failed_short .., hT, ?_⟩
      · simp [bind, Except.bind, Pure.pure, Except.pure, decoding_reader, bool_short b false hs]
      · intro y p rest hy hr
        simp only [memD] at hy; obtain ⟨o, _, rfl⟩ := hy
        cases o with
        | none => simp only [Reads] at hr; exact no_short hs (by simp [hr])
        | some y =>
          simp only [Reads] at hr
          obtain ⟨p', q, hp', _, _, rfl⟩ := hr
          rw [List.append_assoc]; exact no_short hs hp'
    · simp only [bind, Except.bind, Pure.pure, Except.pure, decoding_reader, if_true,
        bool_reader p rest false hp]
      by_cases h0 : beVal p = 0
      · refine .inl ⟨.opt none, p, rest, .ptr o, rfl, ?_, ?_, ?_, ?_, hT⟩
        · simp only [Reads]; rw [← h0, ← hp, be_beVal]
        · simp only [memD]; exact ⟨none, by simp, rfl⟩
        · simp [h0]
        · simp [fillD]
      · simp only [decide_eq_true_eq, ne_eq, h0, not_false_eq_true, if_true]
        obtain ⟨z, hz, hzt, _⟩ := zeroOf_ok L t inArr hwf
        have hbn := bound_new (b' := rest) hb (by simp; omega)
        have el := Typespec.decode L hc t inArr g.depth rest z hwf hbn hzt
        have hz' : t.goType.bind g.zero = some z := hz
        simp only [hz', orStuck]
        rcases el with ⟨x, q, rest', w, rfl, hrd, hx, hr, hf, hTw⟩ | ⟨xs', w, hr, hF, hTw, hno⟩
        · refine .inl ⟨.opt (some x), p ++ q, rest', .ptr (some w), by simp, ?_, ?_, ?_, ?_, ?_⟩
          · simp only [Reads]; exact ⟨p, q, hp, h0, hrd, rfl⟩
          · simp only [memD]; exact ⟨some x, fun y hy => by cases hy; exact hx, rfl⟩
          · simp only [hr]
          · simp [fillD, hz, hf]
          · simp only [hasD]; exact ⟨some w, rfl, fun y hy => by cases hy; exact hTw⟩
        · refine .inr ⟨xs', .ptr (some w), by simp only [hr], hF, ?_, ?_⟩
          · simp only [hasD]; exact ⟨some w, rfl, fun y hy => by cases hy; exact hTw⟩
          · intro y q r hy hr' heq
            simp only [memD] at hy; obtain ⟨o, ho, rfl⟩ := hy
            cases o with
            | none =>
              simp only [Reads] at hr'
              obtain ⟨e1, _⟩ := append_inj4 (by simp [hr', hp]) heq
              rw [e1, hr', beVal_be] at h0; exact h0 rfl
            | some y =>
              simp only [Reads] at hr'
              obtain ⟨p', q', hp', _, hrd, rfl⟩ := hr'
              rw [List.append_assoc] at heq
              obtain ⟨e1, e2⟩ := append_inj4 (by rw [hp, hp']) heq
              exact hno y q' r (ho y rfl) hrd e2
theorem Decls.decode (L : Link g E defs K) (hc : DecN g E defs F) :
    ∀ (ds : Decls) (inArr : Bool) (k : Nat) (b : List UInt8) (fs : List (Ident × GoVal)),
      ds.wf E K inArr = true → k + b.length / 4 * g.depth ≤ F → hasDs E (hasN E k) ds fs →
      DecRes b (memDs E (IsValue E) ds) ReadsL (fillDs E (zeroOf g) (fillN E (zeroOf g) F) ds fs)
        (hasDs E (Typed E) ds) (ds.codec g (codecN g defs F) (makeReader b) fs)
  | .nil, _, k, b, fs, _, _, h => by
    simp only [hasDs] at h; subst h
    refine .inl ⟨[], [], b, [], rfl, by simp [ReadsL], by simp [memDs], by simp [Decls.codec],
      by simp [fillDs], by simp [hasDs]⟩
  | .cons .void ds, inArr, k, b, fs, hwf, hb, h => by
    simp only [Decls.wf, Bool.and_eq_true] at hwf
    simp only [hasDs, hasField] at h
    obtain ⟨rest, rfl, h⟩ := h
    have := Decls.decode L hc ds inArr k b fs hwf.2 hb h
    simp only [Decls.codec]
    have := this.map (mk := id) (cmb := id) (P' := memDs E (IsValue E) (.cons .void ds))
      (R' := ReadsL) (T' := hasDs E (Typed E) (.cons .void ds))
      (f' := fillDs E (zeroOf g) (fillN E (zeroOf g) F) (.cons .void ds) fs)
      (by intro z; simp [memDs]) (by intro x p; rfl) (by intro x v h; simpa [fillDs] using h)
      (by intro v hv; simp only [hasDs, hasField]; exact ⟨_, rfl, hv⟩)
    rcases hr : ds.codec g (codecN g defs F) (makeReader b) fs with _ | ⟨xs', fs'⟩
    · rw [hr] at this; exact this
    · rw [hr] at this; exact this
  | .cons (.name t n) ds, inArr, k, b, fs, hwf, hb, h => by
    simp only [Decls.wf, Decl.wf, Bool.and_eq_true] at hwf
    simp only [hasDs, hasField] at h
    obtain ⟨rest, ⟨w, rfl, h1⟩, h2⟩ := h
    simp only [Decls.codec, if_true]
    refine DecRes.seq (mk := List.cons) (cmb := fun w fs => (i n, w) :: fs)
      (P₂ := fun _ => memDs E (IsValue E) ds) (R₂ := ReadsL)
      (f₂ := fun _ => fillDs E (zeroOf g) (fillN E (zeroOf g) F) ds rest)
      (T₂ := hasDs E (Typed E) ds)
      (r₂ := fun _ xs => ds.codec g (codecN g defs F) xs rest)
      (uniqueD (unique_named E) t) (DeclType.decode L hc t inArr k b w hwf.1 hb h1)
      ?_ ?_ ?_ ?_ ?_ ?_
    · intro x v rest' hl _ _ _
      exact Decls.decode L hc ds inArr k rest' rest hwf.2 (bound_le hb hl) h2
    · intro xs v hF _
      exact ⟨rest, hasDs_mono (fun n v h => ⟨k, h⟩) ds rest h2,
        Decls.sticky L hF.1 (fun n v h => ⟨k, h⟩)
          (codecN_sticky_le L hF.1 (by omega)) ds inArr rest hwf.2 h2⟩
    · intro z; simp only [memDs]
    · intro x y p; simp only [ReadsL]
    · intro x y v1 v2 e1 e2
      simp [fillDs, fillDecl, e1, e2]
    · intro v1 v2 e1 e2
      simp only [hasDs, hasField]
      exact ⟨v2, ⟨v1, rfl, e1⟩, e2⟩
theorem Decl.decode (L : Link g E defs K) (hc : DecN g E defs F) :
    ∀ (d : Decl) (inArr : Bool) (k : Nat) (b : List UInt8) (fs rest : List (Ident × GoVal)),
      d.wf E K inArr = true → k + b.length / 4 * g.depth ≤ F → hasField E (hasN E k) d fs rest →
      DecRes b (memArm E (IsValue E) d) Reads
        (fun x => fillDecl E (zeroOf g) (fillN E (zeroOf g) F) d fs x (skipField d fs))
        (fun fs => hasField E (Typed E) d fs rest)
        (d.codec g (codecN g defs F) (makeReader b) fs)
  | .void, _, k, b, fs, rest, _, _, h => by
    simp only [hasField] at h; subst h
    refine .inl ⟨.void, [], b, fs, rfl, by simp [Reads], by simp [memArm], by simp [Decl.codec],
      by simp [fillDecl, skipField], by simp [hasField]⟩
  | .name t n, inArr, k, b, fs, rest, hwf, hb, h => by
    simp only [Decl.wf] at hwf
    simp only [hasField] at h
    obtain ⟨w, rfl, h1⟩ := h
    simp only [Decl.codec, if_true]
    refine (DeclType.decode L hc t inArr k b w hwf hb h1).map id (fun w => (i n, w) :: rest)
      ?_ ?_ ?_ ?_
    · intro z; simp [memArm]
    · intro x p; rfl
    · intro x v e; simp [fillDecl, skipField, e]
    · intro v e; simp only [hasField]; exact ⟨v, rfl, e⟩
theorem Cases.decode (L : Link g E defs K) (hc : DecN g E defs F) (κ : Kind) (d : GoVal)
    (hd : ofKind κ d) :
    ∀ (cs : Cases) (inArr : Bool) (k : Nat) (b : List UInt8) (fs : List (Ident × GoVal)),
      cs.wf E K inArr κ = true → k + b.length / 4 * g.depth ≤ F → hasCs E (hasN E k) cs fs →
      DecRes b (memCs E (IsValue E) (kindVal d) cs) Reads
        (fillCs E (zeroOf g) (fillN E (zeroOf g) F) (kindVal d) cs fs)
        (hasCs E (Typed E) cs) (cs.codec g (codecN g defs F) d (makeReader b) fs)
  | .nil, _, k, b, fs, _, _, h => by
    simp only [hasCs] at h; subst h
    refine .inl ⟨.void, [], b, [], rfl, by simp [Reads], by simp [memCs], by simp [Cases.codec],
      by simp [fillCs], by simp [hasCs]⟩
  | .dflt a, inArr, k, b, fs, hwf, hb, h => by
    simp only [Cases.wf] at hwf
    simp only [hasCs] at h
    have := Decl.decode L hc a inArr k b fs [] hwf hb h
    simpa only [Cases.codec, memCs, fillCs, hasCs] using this
  | .cons l more a cs, inArr, k, b, fs, hwf, hb, h => by
    simp only [Cases.wf, Bool.and_eq_true] at hwf
    simp only [hasCs] at h
    obtain ⟨rest, h1, h2⟩ := h
    have h2' : hasCs E (Typed E) cs rest := hasCs_mono (fun n v h => ⟨k, h⟩) cs rest h2
    have h1' : hasField E (Typed E) a fs rest := hasField_mono (fun n v h => ⟨k, h⟩) a fs rest h1
    simp only [Cases.codec, matchLabels_ok L hd (l :: more) hwf.1.1, bind, Except.bind]
    cases hsel : selects E (kindVal d) (l :: more) with
    | true =>
      simp only [if_true]
      have := Decl.decode L hc a inArr k b fs rest hwf.1.2 hb h1
      rcases this with ⟨x, p, r, v, e1, e2, e3, e4, e5, e6⟩ | ⟨xs', v, e1, e2, e3, e4⟩
      · refine .inl ⟨x, p, r, v, e1, e2, ?_, e4, ?_, ?_⟩
        · simp only [memCs, hsel, if_true]; exact e3
        · simp only [fillCs, hsel, if_true]; exact e5
        · simp only [hasCs]; exact ⟨rest, e6, h2'⟩
      · refine .inr ⟨xs', v, e1, e2, ?_, ?_⟩
        · simp only [hasCs]; exact ⟨rest, e3, h2'⟩
        · intro x p r hx; simp only [memCs, hsel, if_true] at hx; exact e4 x p r hx
    | false =>
      simp only [Bool.false_eq_true, if_false]
      have ih := Cases.decode L hc κ d hd cs inArr k b rest hwf.2 hb h2
      cases a with
      | void =>
        simp only [hasField] at h1; subst h1
        rcases ih with ⟨x, p, r, v, e1, e2, e3, e4, e5, e6⟩ | ⟨xs', v, e1, e2, e3, e4⟩
        · refine .inl ⟨x, p, r, v, e1, e2, ?_, e4, ?_, ?_⟩
          · simp only [memCs, hsel, Bool.false_eq_true, if_false]; exact e3
          · simp [fillCs, hsel, skipField, keepField, e5]
          · simp only [hasCs, hasField]; exact ⟨v, rfl, e6⟩
        · refine .inr ⟨xs', v, e1, e2, ?_, ?_⟩
          · simp only [hasCs, hasField]; exact ⟨v, rfl, e3⟩
          · intro x p r hx
            simp only [memCs, hsel, Bool.false_eq_true, if_false] at hx; exact e4 x p r hx
      | name t n =>
        simp only [hasField] at h1
        obtain ⟨w, rfl, hw⟩ := h1
        simp only [if_true]
        refine ih.map id (fun fs => (i n, w) :: fs) ?_ ?_ ?_ ?_
        · intro z; simp [memCs, hsel]
        · intro x p; rfl
        · intro x v e; simp [fillCs, hsel, skipField, keepField, e]
        · intro v e; simp only [hasCs, hasField]; exact ⟨v, ⟨w, rfl, typedD hw⟩, e⟩
end
end

theorem decN_all (L : Link g E defs K) (F : Nat) : DecN g E defs F := by
  induction F with
  | zero =>
    intro n k b v hk h
    have : k = 0 := by omega
    subst this; exact h.elim
  | succ F ih =>
    intro n k b v hk h
    cases k with
    | zero => exact h.elim
    | succ k =>
      obtain ⟨t, ht, hv⟩ := h
      rw [codecN_succ_eq L ht]
      have main := fun (u : GoVal) (hu : hasD E (hasN E k) t u) =>
        DeclType.decode L ih t false k b u (L.wf n t ht) (by omega) hu
      rcases t.ptr_or with ⟨t', rfl⟩ | hn
      · obtain ⟨u, rfl, hu⟩ := hv
        simp only [topCodec, if_true]
        refine (main u hu).map id (fun u => GoVal.struct [("P", u)]) ?_ ?_ ?_ ?_
        · intro z; simp [isValue_iff ht]
        · intro x p; rfl
        · intro x v e; simp [fillN, ht, fillTop, e]
        · intro v e; exact typed_fold ht ⟨v, rfl, e⟩
      · rw [hasTop_notPtr hn] at hv
        rw [topCodec_notPtr hn]
        rcases main v hv with ⟨x, p, r, v', e1, e2, e3, e4, e5, e6⟩ | ⟨xs', v', e1, e2, e3, e4⟩
        · refine .inl ⟨x, p, r, v', e1, e2, (isValue_iff ht).mpr e3, e4, ?_, ?_⟩
          · simp only [fillN, ht, Option.bind_some]
            cases t <;> first | exact e5 | exact hn.elim
          · exact typed_fold ht (by rw [hasTop_notPtr hn]; exact e6)
        · refine .inr ⟨xs', v', e1, e2, ?_, ?_⟩
          · exact typed_fold ht (by rw [hasTop_notPtr hn]; exact e3)
          · intro x p r hx; exact e4 x p r ((isValue_iff ht).mp hx)

/-- The decoder of a named type. -/
theorem codecN_decode (L : Link g E defs K) {n : Ident} {k F : Nat} {b : List UInt8} {v : GoVal}
    (hF : k + b.length / 4 * g.depth ≤ F) (hv : hasN E k n v) :
    DecRes b (IsValue E n) Reads (fillN E (zeroOf g) F n v) (Typed E n)
      (codecN g defs F (i n) (makeReader b) v) := decN_all L F n k b v hF hv

end

end Verif.Gen
