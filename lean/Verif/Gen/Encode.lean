/-
What the codecs do on a state in error and on a writer.
-/
import Verif.Gen.Zero
import Verif.Gen.CodecN
import Verif.Xdr.LibLemmas

namespace Verif.Gen
open Verif.Spec Verif.Xdr

/-! ### Discriminants -/

/-- The abstract value of a discriminant. -/
def kindVal : GoVal → XVal
  | .u32 x => .uint x.toNat
  | .i32 x => .int x.toInt
  | .u64 x => .uhyper x.toNat
  | .i64 x => .hyper x.toInt
  | .bool b => .bool b
  | _ => .void

theorem matchLabel_ok {κ : Kind} {d : GoVal} {l : Label} (hd : ofKind κ d)
    (hl : labelFits κ l = true) : matchLabel d l = some ((kindVal d).matches l) := by
  cases κ <;> obtain ⟨x, rfl⟩ := hd <;> cases l <;> simp [labelFits] at hl <;> rfl

section
variable {g : GoProg} {E : Env} {defs : Ident → Option DeclType} {K : Nat}

theorem matchLabels_ok (L : Link g E defs K) {κ : Kind} {d : GoVal} (hd : ofKind κ d) :
    ∀ ls : List Val, (ls.all fun l => (E.label l).any (labelFits κ)) = true →
      matchLabels g d ls = .ok (selects E (kindVal d) ls)
  | [], _ => rfl
  | l :: ls, h => by
    simp only [List.all_cons, Bool.and_eq_true] at h
    obtain ⟨h1, h2⟩ := h
    cases hl : E.label l with
    | none => rw [hl] at h1; simp at h1
    | some lab =>
      rw [hl] at h1
      have h1 : labelFits κ lab = true := by simpa using h1
      have ih := matchLabels_ok L hd ls h2
      simp only [matchLabels, L.label l lab hl, orStuck, matchLabel_ok hd h1, ih, bind, Except.bind]
      cases hm : (kindVal d).matches lab <;> simp [selects, hl, hm, Pure.pure, Except.pure]

theorem maxOf_ok (L : Link g E defs K) {m : Option Val} {mx : Option Nat} (h : E.max m = some mx) :
    maxOf g.const m = some (maxInt mx) := by
  cases m with
  | none => simp only [Env.max] at h; cases h; rfl
  | some v =>
    simp only [Env.max] at h
    obtain ⟨c, hc, rfl⟩ := except_map_eq h
    simp [maxOf, L.const v c hc, maxInt]

theorem codec_varArray (L : Link g E defs K) {m : Option Val} {mx : Option Nat}
    (h : E.max m = some mx) (call : Call) (t : Typespec) (xs : XdrState) (v : GoVal) :
    DeclType.codec g call (.varArray t m) xs v =
      codecVar mx (zeroOf g t) (fun xs v => t.codec g call xs v) xs v := by
  cases m with
  | none => simp only [Env.max] at h; cases h; simp only [DeclType.codec]; rfl
  | some v =>
    simp only [Env.max] at h
    obtain ⟨c, hc, rfl⟩ := except_map_eq h
    simp only [DeclType.codec, L.const v c hc, orStuck, bind, Except.bind]
    rfl

/-! ### Errors are sticky -/

theorem codecElems_err {f : XdrState → GoVal → Res (XdrState × GoVal)} {xs : XdrState} :
    ∀ (l : List GoVal) (n : Nat), n ≤ l.length → (∀ w ∈ l, f xs w = .ok (xs, w)) →
      codecElems f n xs l = .ok (xs, l)
  | l, 0, _, _ => by simp [codecElems]
  | [], n + 1, h, _ => by simp at h
  | w :: l, n + 1, h, hf => by
    have ih := codecElems_err l n (by simpa using h) (fun w hw => hf w (by simp [hw]))
    simp [codecElems, hf w (by simp), ih, bind, Except.bind, Pure.pure, Except.pure]

section
variable {call : Call} {cl : Ident → GoVal → Prop} {xs : XdrState}

mutual
theorem Typespec.sticky (L : Link g E defs K) (he : xs.err.isSome)
    (hty : ∀ n v, cl n v → Typed E n v)
    (hc : ∀ n v, cl n v → call (i n) xs v = .ok (xs, v)) :
    ∀ (t : Typespec) (inArr : Bool) (v : GoVal), t.wf E K inArr = true → hasT E cl t v →
      t.codec g call xs v = .ok (xs, v)
  | .int true, _, v, _, h => by
    simp only [hasT] at h; obtain ⟨x, rfl⟩ := h; simp [Typespec.codec, libU32, u32_err x he]
  | .int false, _, v, _, h => by
    simp only [hasT] at h; obtain ⟨x, rfl⟩ := h; simp [Typespec.codec, libS32, s32_err x he]
  | .hyper true, _, v, _, h => by
    simp only [hasT] at h; obtain ⟨x, rfl⟩ := h; simp [Typespec.codec, libU64, u64_err x he]
  | .hyper false, _, v, _, h => by
    simp only [hasT] at h; obtain ⟨x, rfl⟩ := h; simp [Typespec.codec, libS64, s64_err x he]
  | .bool, _, v, _, h => by
    simp only [hasT] at h; obtain ⟨x, rfl⟩ := h; simp [Typespec.codec, libBool, bool_err x he]
  | .struct ds, inArr, v, hwf, h => by
    simp only [hasT] at h; obtain ⟨fs, rfl, h⟩ := h
    simp only [Typespec.wf, Bool.and_eq_true] at hwf
    have := Decls.sticky L he hty hc ds inArr fs hwf.2 h
    simp [Typespec.codec, this, bind, Except.bind, Pure.pure, Except.pure]
  | .union sw cs, inArr, v, hwf, h => by
    simp only [hasT] at h; obtain ⟨fs, rest, rfl, h1, h2⟩ := h
    simp only [Typespec.wf, Bool.and_eq_true] at hwf
    cases hk : sw.kindOf E K with
    | none => rw [hk] at hwf; simp at hwf
    | some κ =>
      rw [hk] at hwf
      cases sw with
      | void => simp [Decl.kindOf] at hk
      | name t n =>
        simp only [hasField] at h1
        obtain ⟨w, rfl, h1⟩ := h1
        simp only [Decl.kindOf] at hk
        simp only [Decl.wf] at hwf
        have hd := kind_has K t w hk (hasD_mono hty t w h1)
        have e1 := DeclType.sticky L he hty hc t inArr w hwf.1.2 h1
        have e2 := Cases.sticky L he hty hc κ w hd cs inArr rest hwf.2 h2
        unfold Typespec.codec
        simp [e1, e2, bind, Except.bind, Pure.pure, Except.pure]
  | .ident n, _, v, _, h => by
    simp only [hasT] at h; simp only [Typespec.codec]; exact hc n v h
  | .float, _, _, h, _ => by simp [Typespec.wf] at h
  | .double, _, _, h, _ => by simp [Typespec.wf] at h
  | .quadruple, _, _, h, _ => by simp [Typespec.wf] at h
  | .enum _, _, _, h, _ => by simp [Typespec.wf] at h
theorem DeclType.sticky (L : Link g E defs K) (he : xs.err.isSome)
    (hty : ∀ n v, cl n v → Typed E n v)
    (hc : ∀ n v, cl n v → call (i n) xs v = .ok (xs, v)) :
    ∀ (t : DeclType) (inArr : Bool) (v : GoVal), t.wf E K inArr = true → hasD E cl t v →
      t.codec g call xs v = .ok (xs, v)
  | .typespec t, inArr, v, hwf, h => by
    simp only [DeclType.wf, hasD, DeclType.codec] at *
    exact Typespec.sticky L he hty hc t inArr v hwf h
  | .array _ _, _, _, h, _ => by simp [DeclType.wf] at h
  | .varArray t m, inArr, v, hwf, h => by
    simp only [DeclType.wf, Bool.and_eq_true] at hwf
    obtain ⟨mx, hmx⟩ := Option.isSome_iff_exists.mp hwf.2
    rw [codec_varArray L hmx]
    simp only [hasD] at h
    obtain ⟨o, rfl, h⟩ := h
    have h0 : mx.any (fun m => decide ((0 : UInt32).toNat > m)) = false := by
      cases mx <;> simp
    simp only [codecVar, setSize_err _ _ he, u32_err _ he, h0, decoding_err he, Bool.false_eq_true,
      if_false]
    cases o with
    | none => simp [Pure.pure, Except.pure]
    | some l => simp [codecElems, bind, Except.bind, Pure.pure, Except.pure]
  | .opaqueArray sz, _, v, _, h => by
    simp only [hasD] at h; obtain ⟨b, rfl, _⟩ := h
    simp [DeclType.codec, libArray, array_err b he]
  | .opaqueVarArray m, _, v, hwf, h => by
    simp only [DeclType.wf] at hwf
    obtain ⟨mx, hmx⟩ := Option.isSome_iff_exists.mp hwf
    simp only [hasD] at h; obtain ⟨b, rfl⟩ := h
    simp [DeclType.codec, maxOf_ok L hmx, orStuck, bind, Except.bind, libVarArray,
      varArray_err _ b he]
  | .string m, _, v, hwf, h => by
    simp only [DeclType.wf] at hwf
    obtain ⟨mx, hmx⟩ := Option.isSome_iff_exists.mp hwf
    simp only [hasD] at h; obtain ⟨b, rfl⟩ := h
    simp [DeclType.codec, maxOf_ok L hmx, orStuck, bind, Except.bind, libString,
      string_err _ b he]
  | .ptr t, _, v, _, h => by
    simp only [hasD] at h; obtain ⟨o, rfl, _⟩ := h
    simp [DeclType.codec, codecPtr, codecPtrEnc, codecPtrDec, encoding_err he, decoding_err he,
      bind, Except.bind, Pure.pure, Except.pure]
theorem Decls.sticky (L : Link g E defs K) (he : xs.err.isSome)
    (hty : ∀ n v, cl n v → Typed E n v)
    (hc : ∀ n v, cl n v → call (i n) xs v = .ok (xs, v)) :
    ∀ (ds : Decls) (inArr : Bool) (fs : List (Ident × GoVal)), ds.wf E K inArr = true →
      hasDs E cl ds fs → ds.codec g call xs fs = .ok (xs, fs)
  | .nil, _, fs, _, h => by simp [Decls.codec]
  | .cons .void ds, inArr, fs, hwf, h => by
    simp only [Decls.wf, Bool.and_eq_true] at hwf
    simp only [hasDs, hasField] at h
    obtain ⟨rest, rfl, h⟩ := h
    simp only [Decls.codec]
    exact Decls.sticky L he hty hc ds inArr fs hwf.2 h
  | .cons (.name t n) ds, inArr, fs, hwf, h => by
    simp only [Decls.wf, Decl.wf, Bool.and_eq_true] at hwf
    simp only [hasDs, hasField] at h
    obtain ⟨rest, ⟨w, rfl, h1⟩, h2⟩ := h
    have e1 := DeclType.sticky L he hty hc t inArr w hwf.1 h1
    have e2 := Decls.sticky L he hty hc ds inArr rest hwf.2 h2
    simp [Decls.codec, e1, e2, bind, Except.bind, Pure.pure, Except.pure]
theorem Decl.sticky (L : Link g E defs K) (he : xs.err.isSome)
    (hty : ∀ n v, cl n v → Typed E n v)
    (hc : ∀ n v, cl n v → call (i n) xs v = .ok (xs, v)) :
    ∀ (d : Decl) (inArr : Bool) (fs rest : List (Ident × GoVal)), d.wf E K inArr = true →
      hasField E cl d fs rest → d.codec g call xs fs = .ok (xs, fs)
  | .void, _, fs, rest, _, h => by simp [Decl.codec]
  | .name t n, inArr, fs, rest, hwf, h => by
    simp only [Decl.wf] at hwf
    simp only [hasField] at h
    obtain ⟨w, rfl, h1⟩ := h
    have e1 := DeclType.sticky L he hty hc t inArr w hwf h1
    simp [Decl.codec, e1, bind, Except.bind, Pure.pure, Except.pure]
theorem Cases.sticky (L : Link g E defs K) (he : xs.err.isSome)
    (hty : ∀ n v, cl n v → Typed E n v)
    (hc : ∀ n v, cl n v → call (i n) xs v = .ok (xs, v)) (κ : Kind) (d : GoVal) (hd : ofKind κ d) :
    ∀ (cs : Cases) (inArr : Bool) (fs : List (Ident × GoVal)), cs.wf E K inArr κ = true →
      hasCs E cl cs fs → cs.codec g call d xs fs = .ok (xs, fs)
  | .nil, _, fs, _, h => by simp [Cases.codec]
  | .dflt b, inArr, fs, hwf, h => by
    simp only [Cases.wf] at hwf
    simp only [hasCs] at h
    simp only [Cases.codec]
    exact Decl.sticky L he hty hc b inArr fs [] hwf h
  | .cons l more b cs, inArr, fs, hwf, h => by
    simp only [Cases.wf, Bool.and_eq_true] at hwf
    simp only [hasCs] at h
    obtain ⟨rest, h1, h2⟩ := h
    have e1 := Decl.sticky L he hty hc b inArr fs rest hwf.1.2 h1
    have e2 := Cases.sticky L he hty hc κ d hd cs inArr rest hwf.2 h2
    simp only [Cases.codec, matchLabels_ok L hd (l :: more) hwf.1.1, bind, Except.bind]
    cases selects E (kindVal d) (l :: more) with
    | true => simpa using e1
    | false =>
      cases b with
      | void => simp only [hasField] at h1; subst h1; simpa using e2
      | name t n =>
        simp only [hasField] at h1
        obtain ⟨w, rfl, _⟩ := h1
        simp [e2, Pure.pure, Except.pure]
end
end

theorem topCodec_notPtr {call : Call} {t : DeclType} (ht : t.NotPtr) (xs : XdrState) (v : GoVal) :
    topCodec g call t xs v = t.codec g call xs v := by
  cases t <;> first | rfl | exact ht.elim

theorem codecN_succ_eq (L : Link g E defs K) {n : Ident} {t : DeclType} (ht : E.typeOf n = some t)
    (k : Nat) (xs : XdrState) (v : GoVal) :
    codecN g defs (k + 1) (i n) xs v = topCodec g (codecN g defs k) t xs v := by
  simp [codecN, L.typeOf n t ht]

/-- On a state in error, a codec changes nothing. -/
theorem codecN_sticky (L : Link g E defs K) {xs : XdrState} (he : xs.err.isSome) (k : Nat) :
    ∀ n v, hasN E k n v → codecN g defs k (i n) xs v = .ok (xs, v) := by
  induction k with
  | zero => intro n v h; exact h.elim
  | succ k ih =>
    intro n v h
    obtain ⟨t, ht, hv⟩ := h
    rw [codecN_succ_eq L ht]
    rcases t.ptr_or with ⟨t', rfl⟩ | hn
    · obtain ⟨w, rfl, hw⟩ := hv
      have := DeclType.sticky L he (fun n v h => ⟨k, h⟩) ih _ false w (L.wf n _ ht) hw
      simp [topCodec, this, bind, Except.bind, Pure.pure, Except.pure]
    · rw [hasTop_notPtr hn] at hv
      rw [topCodec_notPtr hn]
      exact DeclType.sticky L he (fun n v h => ⟨k, h⟩) ih t false v (L.wf n t ht) hv

/-! ### Encoding -/

/-- A result of an encoder on a writer holding `w`: if `P`, the bytes `bs` are appended, otherwise
an error is reported; the value is `v` in any case. -/
def EncRes {α} (w : List UInt8) (P : Prop) (bs : List UInt8) (v : α) (r : Res (XdrState × α)) :
    Prop :=
  (P ∧ r = .ok (makeWriter (w ++ bs), v)) ∨
  (¬ P ∧ ∃ xs', r = .ok (xs', v) ∧ xs'.err.isSome ∧ xs'.reader = false ∧ ∃ s, xs'.buf = w ++ s)

theorem EncRes.ok {α} {w bs : List UInt8} {P : Prop} {v : α} (hP : P) :
    EncRes w P bs v (.ok (makeWriter (w ++ bs), v)) := .inl ⟨hP, rfl⟩

theorem EncRes.congr {α} {w bs : List UInt8} {P Q : Prop} {v : α} {r : Res (XdrState × α)}
    (h : EncRes w P bs v r) (hpq : P ↔ Q) : EncRes w Q bs v r := by
  unfold EncRes at *; rwa [hpq] at h

theorem EncRes.seq {α β γ} {w b1 b2 : List UInt8} {P1 P2 : Prop} {v1 : α} {v2 : β}
    {r1 : Res (XdrState × α)} {r2 : XdrState → Res (XdrState × β)} {f : α → β → γ}
    (h1 : EncRes w P1 b1 v1 r1) (h2 : ∀ w, EncRes w P2 b2 v2 (r2 (makeWriter w)))
    (hs : ∀ xs, xs.err.isSome → r2 xs = .ok (xs, v2)) :
    EncRes w (P1 ∧ P2) (b1 ++ b2) (f v1 v2)
      (r1 >>= fun a => r2 a.1 >>= fun b => .ok (b.1, f a.2 b.2)) := by
  rcases h1 with ⟨hp1, rfl⟩ | ⟨hp1, xs', rfl, he, hr, s, hb⟩
  · rcases h2 (w ++ b1) with ⟨hp2, h2⟩ | ⟨hp2, xs', h2, he, hr, s, hb⟩
    · refine .inl ⟨⟨hp1, hp2⟩, ?_⟩
      simp [bind, Except.bind, h2]
    · refine .inr ⟨fun h => hp2 h.2, xs', ?_, he, hr, b1 ++ s, by rw [hb]; simp⟩
      simp [bind, Except.bind, h2]
  · refine .inr ⟨fun h => hp1 h.1, xs', ?_, he, hr, s, hb⟩
    simp [bind, Except.bind, hs xs' he]

theorem EncRes.map {α β} {w bs : List UInt8} {P : Prop} {v : α} {r : Res (XdrState × α)}
    (h : EncRes w P bs v r) (f : α → β) :
    EncRes w P bs (f v) (r >>= fun a => .ok (a.1, f a.2)) := by
  rcases h with ⟨hp, rfl⟩ | ⟨hp, xs', rfl, h⟩
  · exact .inl ⟨hp, rfl⟩
  · exact .inr ⟨hp, xs', rfl, h⟩

/-- A list of elements. -/
theorem codecElems_enc {f : XdrState → GoVal → Res (XdrState × GoVal)}
    {P : XVal → Prop} {ab : GoVal → Option XVal} : ∀ (l : List GoVal),
      (∀ v ∈ l, (∃ x, ab v = some x ∧ ∀ w, EncRes w (P x) (enc x) v (f (makeWriter w) v)) ∧
        ∀ xs, xs.err.isSome → f xs v = .ok (xs, v)) →
      ∃ xl, mapAll ab l = some xl ∧ xl.length = l.length ∧
        ∀ w, EncRes w (∀ y ∈ xl, P y) (encs xl) l (codecElems f l.length (makeWriter w) l)
  | [], _ => ⟨[], rfl, rfl, fun w => .inl ⟨by simp, by simp [codecElems, encs]⟩⟩
  | v :: l, h => by
    obtain ⟨⟨x, hx, e1⟩, s1⟩ := h v (by simp)
    obtain ⟨xl, hxl, hlen, e2⟩ := codecElems_enc l (fun v hv => h v (by simp [hv]))
    refine ⟨x :: xl, by simp [mapAll, hx, hxl], by simp [hlen], fun w => ?_⟩
    simp only [codecElems, List.length_cons, encs]
    have := EncRes.seq (f := List.cons) (e1 w) e2 (fun xs he =>
      codecElems_err l l.length (Nat.le_refl _) (fun v hv => (h v (by simp [hv])).2 xs he))
    exact this.congr (by simp)

section
variable {call : Call} {cl : Ident → GoVal → Prop} {ab : Ident → GoVal → Option XVal}

/-- The discriminant's meaning is its integer or boolean value. -/
theorem kind_abs {κ : Kind} : ∀ (k j : Nat) (t : DeclType) (v : GoVal) (x : XVal),
    kindOf E k t = some κ → hasD E (Typed E) t v → absD E (absN E j) t v = some x →
    x = kindVal v := by
  intro k
  induction k with
  | zero =>
    intro j t v x hk hv ha
    unfold kindOf at hk
    split at hk <;> first
      | (simp only [hasD, hasT] at hv; obtain ⟨y, rfl⟩ := hv
         simp only [absD, absT, absU32, absI32, absU64, absI64, absBool] at ha; cases ha; rfl)
      | simp_all
  | succ k ih =>
    intro j t v x hk hv ha
    unfold kindOf at hk
    split at hk <;> first
      | (simp only [hasD, hasT] at hv; obtain ⟨y, rfl⟩ := hv
         simp only [absD, absT, absU32, absI32, absU64, absI64, absBool] at ha; cases ha; rfl)
      | skip
    · rename_i n heq
      cases heq
      simp only [hasD, hasT] at hv
      obtain ⟨t', ht', hv⟩ := typed_unfold hv
      rw [ht'] at hk
      simp only [Option.bind_some] at hk
      simp only [absD, absT] at ha
      cases j with
      | zero => simp [absN] at ha
      | succ j =>
        simp only [absN, ht', Option.bind_some] at ha
        rcases t'.ptr_or with ⟨t'', rfl⟩ | hn
        · cases k <;> simp [kindOf] at hk
        · rw [hasTop_notPtr hn] at hv
          refine ih j t' v x hk hv ?_
          cases t' <;> first | exact ha | exact hn.elim
    · simp at hk

theorem u32_ofNat {n : Nat} (h : n ≤ 4294967295) : (UInt32.ofNat n).toNat = n := toNat_ofNat_le h

mutual
theorem Typespec.encode (L : Link g E defs K)
    (hty : ∀ n v, cl n v → Typed E n v)
    (hab : ∃ j, ab = absN E j)
    (hs : ∀ xs, xs.err.isSome → ∀ n v, cl n v → call (i n) xs v = .ok (xs, v))
    (hc : ∀ n v, cl n v → ∃ x, ab n v = some x ∧
      ∀ w, EncRes w (IsValue E n x) (enc x) v (call (i n) (makeWriter w) v)) :
    ∀ (t : Typespec) (inArr : Bool) (v : GoVal), t.wf E K inArr = true → hasT E cl t v →
      ∃ x, absT E ab t v = some x ∧
        ∀ w, EncRes w (memT E (IsValue E) t x) (enc x) v (t.codec g call (makeWriter w) v)
  | .int true, _, v, _, h => by
    simp only [hasT] at h; obtain ⟨x, rfl⟩ := h
    refine ⟨.uint x.toNat, by simp [absT, absU32], fun w => .inl ⟨?_, ?_⟩⟩
    · simp only [memT]; exact ⟨_, x.toNat_lt, rfl⟩
    · simp [Typespec.codec, libU32, u32_writer, enc]
  | .int false, _, v, _, h => by
    simp only [hasT] at h; obtain ⟨x, rfl⟩ := h
    refine ⟨.int x.toInt, by simp [absT, absI32], fun w => .inl ⟨?_, ?_⟩⟩
    · simp only [memT]
      have h1 := x.le_toInt; have h2 := x.toInt_lt
      exact ⟨_, h1, h2, rfl⟩
    · simp [Typespec.codec, libS32, s32_writer, enc]
  | .hyper true, _, v, _, h => by
    simp only [hasT] at h; obtain ⟨x, rfl⟩ := h
    refine ⟨.uhyper x.toNat, by simp [absT, absU64], fun w => .inl ⟨?_, ?_⟩⟩
    · simp only [memT]; exact ⟨_, x.toNat_lt, rfl⟩
    · simp [Typespec.codec, libU64, u64_writer, enc]
  | .hyper false, _, v, _, h => by
    simp only [hasT] at h; obtain ⟨x, rfl⟩ := h
    refine ⟨.hyper x.toInt, by simp [absT, absI64], fun w => .inl ⟨?_, ?_⟩⟩
    · simp only [memT]
      have h1 := x.le_toInt; have h2 := x.toInt_lt
      exact ⟨_, h1, h2, rfl⟩
    · simp [Typespec.codec, libS64, s64_writer, enc]
  | .bool, _, v, _, h => by
    simp only [hasT] at h; obtain ⟨x, rfl⟩ := h
    refine ⟨.bool x, by simp [absT, absBool], fun w => .inl ⟨?_, ?_⟩⟩
    · simp only [memT]; exact ⟨_, rfl⟩
    · simp [Typespec.codec, libBool, bool_writer, enc]
  | .struct ds, inArr, v, hwf, h => by
    simp only [hasT] at h; obtain ⟨fs, rfl, h⟩ := h
    simp only [Typespec.wf, Bool.and_eq_true] at hwf
    obtain ⟨l, hl, e⟩ := Decls.encode L hty hab hs hc ds inArr fs hwf.2 h
    refine ⟨.struct l, by simp [absT, hl], fun w => ?_⟩
    simp only [Typespec.codec, memT, enc]
    refine ((e w).map GoVal.struct).congr ?_
    constructor
    · intro h; exact ⟨l, h, rfl⟩
    · rintro ⟨l', h', h2⟩; cases h2; exact h'
  | .union sw cs, inArr, v, hwf, h => by
    simp only [hasT] at h; obtain ⟨fs, rest, rfl, h1, h2⟩ := h
    simp only [Typespec.wf, Bool.and_eq_true] at hwf
    cases hk : sw.kindOf E K with
    | none => rw [hk] at hwf; simp at hwf
    | some κ =>
      rw [hk] at hwf
      cases sw with
      | void => simp [Decl.kindOf] at hk
      | name t n =>
        simp only [hasField] at h1
        obtain ⟨d, rfl, h1⟩ := h1
        simp only [Decl.kindOf] at hk
        simp only [Decl.wf] at hwf
        have hd := kind_has K t d hk (hasD_mono hty t d h1)
        obtain ⟨x, hx, e1⟩ := DeclType.encode L hty hab hs hc t inArr d hwf.1.2 h1
        have hxd : x = kindVal d := by
          obtain ⟨j, rfl⟩ := hab
          exact kind_abs K j t d x hk (hasD_mono hty t d h1) hx
        subst hxd
        obtain ⟨a, ha, e2⟩ := Cases.encode L hty hab hs hc κ d hd cs inArr rest hwf.2 h2
        refine ⟨.union (kindVal d) a, by simp [absT, absDecl, skipField, hx, ha], fun w => ?_⟩
        unfold Typespec.codec
        simp only [if_true, memT, enc, memDisc]
        have := EncRes.seq (f := fun d arms => GoVal.struct ((i n, d) :: arms)) (e1 w) e2
          (fun xs he => Cases.sticky L he hty (hs xs he) κ d hd cs inArr rest hwf.2 h2)
        have hcomp := this.congr (Q := ∃ d' a', memD E (IsValue E) t d' ∧
            memCs E (IsValue E) d' cs a' ∧ XVal.union (kindVal d) a = .union d' a') (by
          constructor
          · rintro ⟨p, q⟩; exact ⟨_, _, p, q, rfl⟩
          · rintro ⟨d', a', p, q, hh⟩; cases hh; exact ⟨p, q⟩)
        rcases e1 w with ⟨hp, hr⟩ | ⟨hp, xs', hr, he, hrd, s, hbuf⟩
        · simp only [hr, bind, Except.bind] at hcomp ⊢
          exact hcomp
        · simp only [hr, bind, Except.bind] at hcomp ⊢
          exact hcomp
  | .ident n, _, v, _, h => by
    simp only [hasT] at h; simp only [Typespec.codec, absT, memT]; exact hc n v h
  | .float, _, _, h, _ => by simp [Typespec.wf] at h
  | .double, _, _, h, _ => by simp [Typespec.wf] at h
  | .quadruple, _, _, h, _ => by simp [Typespec.wf] at h
  | .enum _, _, _, h, _ => by simp [Typespec.wf] at h
theorem DeclType.encode (L : Link g E defs K)
    (hty : ∀ n v, cl n v → Typed E n v)
    (hab : ∃ j, ab = absN E j)
    (hs : ∀ xs, xs.err.isSome → ∀ n v, cl n v → call (i n) xs v = .ok (xs, v))
    (hc : ∀ n v, cl n v → ∃ x, ab n v = some x ∧
      ∀ w, EncRes w (IsValue E n x) (enc x) v (call (i n) (makeWriter w) v)) :
    ∀ (t : DeclType) (inArr : Bool) (v : GoVal), t.wf E K inArr = true → hasD E cl t v →
      ∃ x, absD E ab t v = some x ∧
        ∀ w, EncRes w (memD E (IsValue E) t x) (enc x) v (t.codec g call (makeWriter w) v)
  | .typespec t, inArr, v, hwf, h => by
    simp only [DeclType.wf, hasD, DeclType.codec, absD, memD] at *
    exact Typespec.encode L hty hab hs hc t inArr v hwf h
  | .array _ _, _, _, h, _ => by simp [DeclType.wf] at h
  | .varArray t m, inArr, v, hwf, h => by
    simp only [DeclType.wf, Bool.and_eq_true] at hwf
    obtain ⟨mx, hmx⟩ := Option.isSome_iff_exists.mp hwf.2
    simp only [codec_varArray L hmx]
    simp only [hasD] at h
    obtain ⟨o, rfl, h⟩ := h
    have hel : ∀ v ∈ o.getD [], (∃ x, absT E ab t v = some x ∧
        ∀ w, EncRes w (memT E (IsValue E) t x) (enc x) v (t.codec g call (makeWriter w) v)) ∧
        ∀ xs, xs.err.isSome → t.codec g call xs v = .ok (xs, v) := by
      intro v hv
      cases o with
      | none => simp at hv
      | some l =>
        have hv' := h l rfl v (by simpa using hv)
        exact ⟨Typespec.encode L hty hab hs hc t true v hwf.1.2 hv',
          fun xs he => Typespec.sticky L he hty (hs xs he) t true v hwf.1.2 hv'⟩
    obtain ⟨xl, hxl, hlen, e⟩ := codecElems_enc (f := fun xs v => t.codec g call xs v) _ hel
    refine ⟨.array xl, by simp [absD, hxl], fun w => ?_⟩
    simp only [memD, hmx, enc]
    by_cases hsz : (o.getD []).length ≤ 4294967295
    · simp only [codecVar, setSize_writer w 0 _ hsz, u32_writer, u32_ofNat hsz, decoding_writer,
        Bool.false_eq_true, if_false]
      by_cases hm : withinMax mx xl.length
      · have hany : mx.any (fun m => decide ((o.getD []).length > m)) = false := by
          cases mx with
          | none => rfl
          | some m => simpa [hlen] using hm.2 m rfl
        simp only [hany, Bool.false_eq_true, if_false]
        have key : ∀ r, EncRes (w ++ be 4 (o.getD []).length) (∀ y ∈ xl, memT E (IsValue E) t y)
            (encs xl) (GoVal.slice o) r →
            EncRes w (∃ l mx_1, some mx = some mx_1 ∧ withinMax mx_1 l.length ∧
              (∀ y ∈ l, memT E (IsValue E) t y) ∧ XVal.array xl = XVal.array l)
              (be 4 xl.length ++ encs xl) (GoVal.slice o) r := by
          intro r hr
          have : (∀ y ∈ xl, memT E (IsValue E) t y) ↔
              (∃ l mx_1, some mx = some mx_1 ∧ withinMax mx_1 l.length ∧
              (∀ y ∈ l, memT E (IsValue E) t y) ∧ XVal.array xl = XVal.array l) := by
            constructor
            · intro hh; exact ⟨xl, mx, rfl, hm, hh, rfl⟩
            · rintro ⟨l, mx1, _, _, hh, h2⟩; cases h2; exact hh
          rcases hr with ⟨p, rfl⟩ | ⟨p, xs', rfl, he, hrd, s, hb⟩
          · exact .inl ⟨this.mp p, by simp [hlen]⟩
          · exact .inr ⟨fun hh => p (this.mpr hh), xs', rfl, he, hrd,
              be 4 (o.getD []).length ++ s, by rw [hb]; simp⟩
        apply key
        cases o with
        | none =>
          have : xl = [] := List.eq_nil_of_length_eq_zero (by simpa using hlen)
          subst this
          refine .inl ⟨by simp, ?_⟩
          simp [encs, Pure.pure, Except.pure]
        | some l => exact (e _).map (fun l => GoVal.slice (some l))
      · have hany : mx.any (fun m => decide ((o.getD []).length > m)) = true := by
          cases mx with
          | none => exact absurd ⟨hlen ▸ hsz, by simp⟩ hm
          | some m =>
            simp only [Option.any_some, decide_eq_true_eq, gt_iff_lt]
            rcases Nat.lt_or_ge m (o.getD []).length with h1 | h1
            · exact h1
            · exact absurd ⟨hlen ▸ hsz, by intro m' hm'; cases hm'; rw [hlen]; exact h1⟩ hm
        simp only [hany, if_true]
        refine .inr ⟨?_, _, rfl, rfl, rfl, be 4 (o.getD []).length, rfl⟩
        rintro ⟨l, mx1, h1, h2, _, h3⟩
        cases h1; cases h3
        exact hm h2
    · have h0 : mx.any (fun m => decide ((0 : UInt32).toNat > m)) = false := by
        cases mx <;> simp
      have he : (setError (makeWriter w) "length too large").err.isSome := rfl
      simp only [codecVar, setSize_writer_large w 0 _ hsz, u32_err _ he, h0, decoding_err he,
        Bool.false_eq_true, if_false]
      refine .inr ⟨?_, setError (makeWriter w) "length too large", ?_, rfl, rfl, [], by simp [setError, makeWriter]⟩
      · rintro ⟨l, mx1, h1, h2, _, h3⟩
        cases h3
        exact hsz (hlen ▸ h2.1)
      · cases o with
        | none => simp [Pure.pure, Except.pure]
        | some l => simp [codecElems, bind, Except.bind, Pure.pure, Except.pure]
  | .opaqueArray sz, _, v, _, h => by
    simp only [hasD] at h; obtain ⟨b, rfl, hb⟩ := h
    refine ⟨.opaque b, by simp [absD], fun w => .inl ⟨?_, ?_⟩⟩
    · simp only [memD]; exact ⟨b, hb, rfl⟩
    · simp [DeclType.codec, libArray, array_writer, enc]
  | .opaqueVarArray m, _, v, hwf, h => by
    simp only [DeclType.wf] at hwf
    obtain ⟨mx, hmx⟩ := Option.isSome_iff_exists.mp hwf
    simp only [hasD] at h; obtain ⟨b, rfl⟩ := h
    refine ⟨.vopaque (b.getD []), by simp [absD], fun w => ?_⟩
    simp only [DeclType.codec, maxOf_ok L hmx, orStuck, bind, Except.bind, libVarArray, memD, hmx, enc]
    by_cases hm : withinMax mx (goLen b)
    · rw [varArray_writer w mx b hm]
      exact .inl ⟨⟨b.getD [], mx, rfl, hm, rfl⟩, rfl⟩
    · rw [varArray_writer_large w mx b hm]
      refine .inr ⟨?_, _, rfl, rfl, rfl, [], by simp [setError, makeWriter]⟩
      rintro ⟨b', mx', h1, h2, h3⟩
      cases h1; cases h3; exact hm h2
  | .string m, _, v, hwf, h => by
    simp only [DeclType.wf] at hwf
    obtain ⟨mx, hmx⟩ := Option.isSome_iff_exists.mp hwf
    simp only [hasD] at h; obtain ⟨b, rfl⟩ := h
    refine ⟨.string b, by simp [absD], fun w => ?_⟩
    simp only [DeclType.codec, maxOf_ok L hmx, orStuck, bind, Except.bind, libString, memD, hmx, enc]
    by_cases hm : withinMax mx b.length
    · rw [string_writer w mx b hm]
      exact .inl ⟨⟨b, mx, rfl, hm, rfl⟩, rfl⟩
    · rw [string_writer_large w mx b hm]
      refine .inr ⟨?_, _, rfl, rfl, rfl, [], by simp [setError, makeWriter]⟩
      rintro ⟨b', mx', h1, h2, h3⟩
      cases h1; cases h3; exact hm h2
  | .ptr t, inArr, v, hwf, h => by
    simp only [DeclType.wf] at hwf
    simp only [hasD] at h; obtain ⟨o, rfl, h⟩ := h
    cases o with
    | none =>
      refine ⟨.opt none, by simp [absD], fun w => .inl ⟨?_, ?_⟩⟩
      · simp only [memD]; exact ⟨none, by simp, rfl⟩
      · simp [DeclType.codec, codecPtr, codecPtrEnc, codecPtrDec, encoding_writer, decoding_writer,
          bool_writer, bind, Except.bind, Pure.pure, Except.pure, enc]
    | some y =>
      obtain ⟨x, hx, e⟩ := Typespec.encode L hty hab hs hc t inArr y hwf (h y rfl)
      refine ⟨.opt (some x), by simp [absD, hx], fun w => ?_⟩
      have hiff : memT E (IsValue E) t x ↔ memD E (IsValue E) (.ptr t) (.opt (some x)) := by
        simp only [memD]
        constructor
        · intro hh; exact ⟨some x, fun y hy => by cases hy; exact hh, rfl⟩
        · rintro ⟨o, h1, h2⟩; cases h2; exact h1 x rfl
      simp only [DeclType.codec, codecPtr, codecPtrEnc, encoding_writer, bool_writer,
        Option.isSome_some, if_true, enc]
      rcases e (w ++ be 4 1) with ⟨p, hr⟩ | ⟨p, xs', hr, he, hrd, s, hb⟩
      · refine .inl ⟨hiff.mp p, ?_⟩
        simp [hr, bind, Except.bind, Pure.pure, Except.pure, codecPtrDec, decoding_writer]
      · refine .inr ⟨fun hh => p (hiff.mpr hh), xs', ?_, he, hrd, be 4 1 ++ s, by rw [hb]; simp⟩
        simp [hr, bind, Except.bind, Pure.pure, Except.pure, codecPtrDec, decoding_err he]
theorem Decls.encode (L : Link g E defs K)
    (hty : ∀ n v, cl n v → Typed E n v)
    (hab : ∃ j, ab = absN E j)
    (hs : ∀ xs, xs.err.isSome → ∀ n v, cl n v → call (i n) xs v = .ok (xs, v))
    (hc : ∀ n v, cl n v → ∃ x, ab n v = some x ∧
      ∀ w, EncRes w (IsValue E n x) (enc x) v (call (i n) (makeWriter w) v)) :
    ∀ (ds : Decls) (inArr : Bool) (fs : List (Ident × GoVal)), ds.wf E K inArr = true →
      hasDs E cl ds fs → ∃ l, absDs E ab ds fs = some l ∧
        ∀ w, EncRes w (memDs E (IsValue E) ds l) (encs l) fs (ds.codec g call (makeWriter w) fs)
  | .nil, _, fs, _, h => by
    refine ⟨[], by simp [absDs], fun w => .inl ⟨by simp [memDs], by simp [Decls.codec, encs]⟩⟩
  | .cons .void ds, inArr, fs, hwf, h => by
    simp only [Decls.wf, Bool.and_eq_true] at hwf
    simp only [hasDs, hasField] at h
    obtain ⟨rest, rfl, h⟩ := h
    simp only [Decls.codec, absDs, memDs]
    exact Decls.encode L hty hab hs hc ds inArr fs hwf.2 h
  | .cons (.name t n) ds, inArr, fs, hwf, h => by
    simp only [Decls.wf, Decl.wf, Bool.and_eq_true] at hwf
    simp only [hasDs, hasField] at h
    obtain ⟨rest, ⟨w, rfl, h1⟩, h2⟩ := h
    obtain ⟨x, hx, e1⟩ := DeclType.encode L hty hab hs hc t inArr w hwf.1 h1
    obtain ⟨l, hl, e2⟩ := Decls.encode L hty hab hs hc ds inArr rest hwf.2 h2
    refine ⟨x :: l, by simp [absDs, absDecl, hx, hl], fun w' => ?_⟩
    simp only [Decls.codec, if_true, memDs, encs]
    have := EncRes.seq (f := fun w fs => (i n, w) :: fs) (e1 w') e2
      (fun xs he => Decls.sticky L he hty (hs xs he) ds inArr rest hwf.2 h2)
    refine this.congr ?_
    constructor
    · rintro ⟨p, q⟩; exact ⟨_, _, p, q, rfl⟩
    · rintro ⟨d', a', p, q, hh⟩; cases hh; exact ⟨p, q⟩
theorem Decl.encode (L : Link g E defs K)
    (hty : ∀ n v, cl n v → Typed E n v)
    (hab : ∃ j, ab = absN E j)
    (hs : ∀ xs, xs.err.isSome → ∀ n v, cl n v → call (i n) xs v = .ok (xs, v))
    (hc : ∀ n v, cl n v → ∃ x, ab n v = some x ∧
      ∀ w, EncRes w (IsValue E n x) (enc x) v (call (i n) (makeWriter w) v)) :
    ∀ (d : Decl) (inArr : Bool) (fs rest : List (Ident × GoVal)), d.wf E K inArr = true →
      hasField E cl d fs rest → ∃ x, absDecl E ab d fs = some x ∧
        ∀ w, EncRes w (memArm E (IsValue E) d x) (enc x) fs (d.codec g call (makeWriter w) fs)
  | .void, _, fs, rest, _, h => by
    refine ⟨.void, by simp [absDecl], fun w => .inl ⟨by simp [memArm], by simp [Decl.codec, enc]⟩⟩
  | .name t n, inArr, fs, rest, hwf, h => by
    simp only [Decl.wf] at hwf
    simp only [hasField] at h
    obtain ⟨w, rfl, h1⟩ := h
    obtain ⟨x, hx, e1⟩ := DeclType.encode L hty hab hs hc t inArr w hwf h1
    refine ⟨x, by simp [absDecl, hx], fun w' => ?_⟩
    simp only [Decl.codec, if_true, memArm]
    exact (e1 w').map (fun w => (i n, w) :: rest)
theorem Cases.encode (L : Link g E defs K)
    (hty : ∀ n v, cl n v → Typed E n v)
    (hab : ∃ j, ab = absN E j)
    (hs : ∀ xs, xs.err.isSome → ∀ n v, cl n v → call (i n) xs v = .ok (xs, v))
    (hc : ∀ n v, cl n v → ∃ x, ab n v = some x ∧
      ∀ w, EncRes w (IsValue E n x) (enc x) v (call (i n) (makeWriter w) v))
    (κ : Kind) (d : GoVal) (hd : ofKind κ d) :
    ∀ (cs : Cases) (inArr : Bool) (fs : List (Ident × GoVal)), cs.wf E K inArr κ = true →
      hasCs E cl cs fs → ∃ x, absCs E ab (kindVal d) cs fs = some x ∧
        ∀ w, EncRes w (memCs E (IsValue E) (kindVal d) cs x) (enc x) fs
          (cs.codec g call d (makeWriter w) fs)
  | .nil, _, fs, _, h => by
    refine ⟨.void, by simp [absCs], fun w => .inl ⟨by simp [memCs], by simp [Cases.codec, enc]⟩⟩
  | .dflt b, inArr, fs, hwf, h => by
    simp only [Cases.wf] at hwf
    simp only [hasCs] at h
    simp only [Cases.codec, absCs, memCs]
    exact Decl.encode L hty hab hs hc b inArr fs [] hwf h
  | .cons l more b cs, inArr, fs, hwf, h => by
    simp only [Cases.wf, Bool.and_eq_true] at hwf
    simp only [hasCs] at h
    obtain ⟨rest, h1, h2⟩ := h
    simp only [Cases.codec, matchLabels_ok L hd (l :: more) hwf.1.1, absCs, memCs]
    cases hsel : selects E (kindVal d) (l :: more) with
    | true =>
      simp only [if_true, bind, Except.bind]
      exact Decl.encode L hty hab hs hc b inArr fs rest hwf.1.2 h1
    | false =>
      simp only [Bool.false_eq_true, if_false, bind, Except.bind]
      obtain ⟨x, hx, e⟩ := Cases.encode L hty hab hs hc κ d hd cs inArr rest hwf.2 h2
      cases b with
      | void => simp only [hasField] at h1; subst h1; exact ⟨x, by simpa [skipField] using hx, e⟩
      | name t n =>
        simp only [hasField] at h1
        obtain ⟨w, rfl, _⟩ := h1
        refine ⟨x, by simpa [skipField] using hx, fun w' => ?_⟩
        simp only [if_true]
        exact (e w').map (fun fs => (i n, w) :: fs)
end
end

/-- The encoder of a named type. -/
theorem codecN_encode (L : Link g E defs K) (k : Nat) : ∀ n v, hasN E k n v →
    ∃ x, absN E k n v = some x ∧
      ∀ w, EncRes w (IsValue E n x) (enc x) v (codecN g defs k (i n) (makeWriter w) v) := by
  induction k with
  | zero => intro n v h; exact h.elim
  | succ k ih =>
    intro n v h
    obtain ⟨t, ht, hv⟩ := h
    simp only [codecN_succ_eq L ht, isValue_iff ht, absN, ht, Option.bind_some]
    have main := fun (u : GoVal) (hu : hasD E (hasN E k) t u) =>
      DeclType.encode L (fun n v h => ⟨k, h⟩) ⟨k, rfl⟩ (fun xs he => codecN_sticky L he k) ih t
        false u (L.wf n t ht) hu
    rcases t.ptr_or with ⟨t', rfl⟩ | hn
    · obtain ⟨u, rfl, hu⟩ := hv
      obtain ⟨x, hx, e⟩ := main u hu
      refine ⟨x, by simpa [absTop] using hx, fun w => ?_⟩
      simp only [topCodec, if_true]
      exact (e w).map (fun u => GoVal.struct [("P", u)])
    · rw [hasTop_notPtr hn] at hv
      obtain ⟨x, hx, e⟩ := main v hv
      refine ⟨x, ?_, fun w => ?_⟩
      · cases t <;> first | exact hx | exact hn.elim
      · rw [topCodec_notPtr hn]; exact e w

end

end Verif.Gen
