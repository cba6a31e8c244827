/-
Generated code for variable-length arrays (out.go:72-90).
-/
import Verif.Lang.GenPtr

namespace Verif.Lang.Text
open Verif.Xdr (XErr XdrState)
variable {ω : Type} {Ps : Prog}
set_option linter.unusedSimpArgs false

theorem PtrTo.weaken {S : Sem ω} {pkg : String} {u : Bool} {ρ : Env} {D D' : Nat → Prop} {st : St ω} {e : Expr} {l : Loc}
    (h : PtrTo S pkg u ρ D st e l) (hd : ∀ j, D j → D' j) : PtrTo S pkg u ρ D' st e l :=
  fun _ _ h1 h2 => h _ _ h1 fun j hj => h2 j (hd j hj)

/-- One turn of a loop. -/
def loopStep (S : Sem ω) (p : String) (c : Expr) (q : Stmt) (b : List Stmt) (ρ : Env) : M ω Ctl := do
  match ← (evalM S p ρ c >>= one) with
  | .bool true => do
    let s ← execs S p b ([] :: ρ) .next
    match s.2 with
    | .next => do
      let _ ← exec S p q ρ
      pure .next
    | d => pure d
  | _ => pure (.goto "")

theorem wp_s_loop (S : Sem ω) (p : String) (i : Stmt) (c : Expr) (q : Stmt) (b : List Stmt) (ρ : Env) (Q : Env × Ctl → St ω → Prop)
    (st : St ω) :
    wp (exec S p (.loop i c q b) ρ) Q st = wp (exec S p i ([] :: ρ)) (fun r s =>
      wp (repeatM S.loops (loopStep S p c q b r.1)) (fun d s => Q (ρ, match d with | .goto "" => .next | d => d) s) s) st := by
  rw [exec, wp_bind]
  simp only [wp_bind, wp_pure]
  rfl

theorem wp_turn {S : Sem ω} {p : String} {c : Expr} {q : Stmt} {b : List Stmt} {ρ : Env} {Q : Ctl → St ω → Prop} {st : St ω}
    (hc : ∀ Q, wp (evalM S p ρ c) Q st = Q [.bool true] st)
    (h : wp (execs S p b ([] :: ρ) .next) (fun r s => r = ([] :: ρ, .next) ∧ wp (exec S p q ρ) (fun _ s => Q .next s) s) st) :
    wp (loopStep S p c q b ρ) Q st := by
  rw [loopStep, wp_bind, wp_bind, hc, wp_one]
  dsimp only
  rw [wp_bind]
  refine wp_mono h ?_
  rintro _ s ⟨rfl, h⟩
  dsimp only
  rw [wp_bind]
  exact h

theorem wp_last {S : Sem ω} {p : String} {c : Expr} {q : Stmt} {b : List Stmt} {ρ : Env} {Q : Ctl → St ω → Prop} {st : St ω}
    (hc : ∀ Q, wp (evalM S p ρ c) Q st = Q [.bool false] st) (h : Q (.goto "") st) : wp (loopStep S p c q b ρ) Q st := by
  rw [loopStep, wp_bind, wp_bind, hc, wp_one]
  exact h

/-- `i < uint64(__arraysz)` -/
def condE : Expr := .bin "<" (.id "i") (.call (.id "uint64") [.id "__arraysz"] false)

section
variable {E : Ext ω} {k : Nat} {pkg : String} {u : Bool} {e : Expr}
local notation "𝕊" => (Sem.mk (xdrPkg :: Ps) (callN (xdrPkg :: Ps) E (k + 2)) E.ext E.spawn E.grow E.loops : Sem ω)

theorem wp_condE {S : Sem ω} {ρ : Env} {D : Nat → Prop} {st : St ω} {x ci ca i : Nat} {n : UInt32} (hE : EnvOK ρ st D x)
    (h1 : ρ.find "i" = some ci) (h2 : ρ.find "__arraysz" = some ca) (h3 : st.heap ci = .u64 (UInt64.ofNat i)) (h4 : st.heap ca = .u32 n)
    (hi : i < 2 ^ 64) (Q : List V → St ω → Prop) : wp (evalM S pkg ρ condE) Q st = Q [.bool (decide (i < n.toNat))] st := by
  have h5 := hE.other "uint64" (by decide)
  rw [condE]
  go_run [h1, h2, h3, h4, h5, isType_uint64', zero_uint64']
  congr 3
  rw [decide_eq_decide, UInt64.lt_iff_toNat_lt, UInt64.toNat_ofNat_of_lt' hi, UInt32.toNat_toUInt64]

theorem wp_incE {S : Sem ω} {ρ : Env} {st : St ω} {ci i : Nat} (h1 : ρ.find "i" = some ci) (h3 : st.heap ci = .u64 (UInt64.ofNat i))
    (Q : Env × Ctl → St ω → Prop) :
    wp (exec S pkg (.inc (.id "i")) ρ) Q st = Q (ρ, .next) (st.set ci (.u64 (UInt64.ofNat (i + 1)))) := by
  rw [wp_s_inc]
  go_run [h1, h3]
  rw [UInt64.ofNat_add]
  rfl

/-- The loop over the elements. -/
theorem wp_elems {rd : Bool} {sb : St ω} {x a wb t bc ci ca off n : Nat} {p bp : List String} {xs0 : XdrState} {okb : Nat → Prop} {vs0 : List V}
    {ρ : Env} {D : Nat → Prop} {b : List Stmt} {F : XdrState → Gen.GoVal → Gen.Res (XdrState × Gen.GoVal)} {s : Slice} {nn : UInt32}
    (hb : Does 𝕊 pkg true (.un "&" (.idx (.un "*" e) (.id "i"))) b F)
    (hA : At rd sb x a wb bc bp xs0 okb (.vals vs0)) (hp : PtrTo 𝕊 pkg false ρ D sb e ⟨t, p⟩) (hE : EnvOK ρ sb D x)
    (hs : (sb.heap t).at p = some (.slice s)) (hsb : s.base = ⟨bc, bp⟩) (hso : s.off = off) (hsl : n ≤ s.len)
    (hi : ρ.find "i" = some ci) (ha : ρ.find "__arraysz" = some ca) (hn : sb.heap ca = .u32 nn) (hnn : nn.toNat = n)
    (hDt : D t) (hDa : D ca) (hD : Fixed D rd sb x wb bc) (hci : sb.next = ci) (hcb : ¬ okb ci) :
    ∀ m i st w xs vs ys ys' xs' L, i + m = n → Did rd sb st x a wb w bc bp xs okb (.vals vs0) (.vals vs) →
      st.heap ci = .u64 (UInt64.ofNat i) → ci < st.next → ci ≠ w → off + n ≤ vs.length →
      (∀ j v y, vs[off + i + j]? = some v → ys[j]? = some y → Rep st (After rd a x (sb.push .nil) okb) v y) →
      Gen.codecElems F m xs ys = .ok (xs', ys') → m < L →
      wp (repeatM L (loopStep 𝕊 pkg condE (.inc (.id "i")) b ρ)) (fun d st' => d = .goto "" ∧ ∃ w' vs',
        Did rd sb st' x a wb w' bc bp xs' okb (.vals vs0) (.vals vs') ∧ vs'.length = vs.length ∧ ys'.length = ys.length ∧
        (∀ j, j < off + i → vs'[j]? = vs[j]?) ∧
        (∀ u z, Rep st (After rd a x (sb.push .nil) okb) u z → Rep st' (After rd a x (sb.push .nil) okb) u z) ∧
        ∀ j v y, vs'[off + i + j]? = some v → ys'[j]? = some y → Rep st' (After rd a x (sb.push .nil) okb) v y) st := by
  intro m
  induction m with
  | zero =>
    intro i st w xs vs ys ys' xs' L him hd hv hlt hcw hl hR hF hL
    obtain ⟨L, rfl⟩ : ∃ L', L = L' + 1 := ⟨L - 1, by omega⟩
    rw [Gen.codecElems] at hF
    cases hF
    obtain ⟨hfx, hD'⟩ := hd.fixed hA hD
    have hn64 : nn.toNat < 2 ^ 32 := nn.toNat_lt
    rw [repeatM, wp_bind]
    refine wp_last (fun Q => ?_) ⟨rfl, w, vs, hd, rfl, rfl, fun _ _ => rfl, fun _ _ h => h, hR⟩
    rw [wp_condE (hE.mono (fun _ h => h) hfx) hi ha hv ((hfx _ hDa).trans hn) (by omega)]
    rw [show decide (i < nn.toNat) = false from decide_eq_false (by omega)]
  | succ m ih =>
    intro i st w xs vs ys ys' xs' L him hd hv hlt hcw hl hR hF hL
    obtain ⟨L, rfl⟩ : ∃ L', L = L' + 1 := ⟨L - 1, by omega⟩
    cases ys with
    | nil => rw [Gen.codecElems] at hF; cases hF
    | cons y ys =>
    rw [Gen.codecElems] at hF
    cases hr : F xs y with
    | error => simp only [hr, bind, Except.bind] at hF; cases hF
    | ok r =>
    obtain ⟨xs1, y1⟩ := r
    simp only [hr, bind, Except.bind] at hF
    cases hr' : Gen.codecElems F m xs1 ys with
    | error => simp only [hr'] at hF; cases hF
    | ok r' =>
    obtain ⟨xs2, ys2⟩ := r'
    simp only [hr'] at hF
    obtain ⟨rfl, rfl⟩ := Prod.mk.inj (Except.ok.inj hF)
    obtain ⟨hfx, hD'⟩ := hd.fixed hA hD
    have hn64 : nn.toNat < 2 ^ 32 := nn.toNat_lt
    have hE1 := hE.mono (fun _ h => h) hfx
    have hnx := hd.keeps.next
    rw [repeatM, wp_bind]
    obtain ⟨v, hvi⟩ : ∃ v, vs[off + i]? = some v := ⟨_, List.getElem?_eq_getElem (by omega)⟩
    have hbc : bc < sb.next := hA.tlt
    have hAs : At rd st x a w bc bp xs (After rd a x (sb.push .nil) okb) (.vals vs) := by
      refine hd.at'.sub fun j hj => ?_
      rcases hj with hj | ⟨h, h' | h'⟩
      · exact .inl hj
      · exact .inr ⟨h, .inl h'⟩
      · exact .inr ⟨h, .inr (by rw [next_push] at h'; omega)⟩
    have hp1 : PtrTo 𝕊 pkg true ([] :: ρ) (fun j => (D j ∨ j = t) ∨ j = ci) st (.un "&" (.idx (.un "*" e) (.id "i"))) ⟨bc, bp ++ [stroke (off + i)]⟩ := by
      have := (hp.mono (.refl _ _) hfx).elem (s := s) (c := ci) (i := i) (by dsimp only; rw [hfx _ hDt]; exact hs) hi hv (by omega) (by omega)
      rw [hsb, hso] at this
      exact this.mono (.scope _ _ _ rfl fun _ => rfl) fun _ _ => rfl
    refine wp_turn (fun Q => ?_) (wp_mono (hb (hAs.elem hvi) hp1 ?_ ?_ (hR 0 v y hvi rfl) hr) ?_)
    · rw [wp_condE hE1 hi ha hv ((hfx _ hDa).trans hn) (by omega)]
      rw [show decide (i < nn.toNat) = true from decide_eq_true (by omega)]
    · exact (hE1.mono (fun _ h => .inl (.inl h)) fun _ _ => rfl).scope _ fun _ _ => rfl
    · have hxl := hA.hx.xlt
      rintro j ((hj | rfl) | rfl)
      · exact hD' j hj
      · exact hD' _ hDt
      · exact ⟨hlt, by omega, hcw, fun _ => by omega⟩
    · rintro _ st1 ⟨rfl, w1, v1, hd1, hrep1⟩
      refine ⟨rfl, ?_⟩
      have hd2 := Did.elem hAs hvi hd1
      have hd3 := hd.trans hA hd2
      have hw1 := hd1.hw
      have hn1 := hd1.keeps.next
      have hxl := hA.hx.xlt
      have hci1 : st1.heap ci = .u64 (UInt64.ofNat i) := by
        rw [hd1.keeps.heap ci hlt (by omega) hcw (by omega), hv]
      rw [wp_incE hi hci1]
      dsimp only
      have hmono : ∀ {u z}, Rep st1 (After rd a x (sb.push .nil) okb) u z →
          Rep (st1.set ci (.u64 (UInt64.ofNat (i + 1)))) (After rd a x (sb.push .nil) okb) u z := by
        intro u z hz
        refine hz.mono (fun j hj _ => heap_set_ne _ _ _ _ ?_) (Nat.le_refl _) fun _ h _ => h
        rintro rfl
        have := hA.hx.alt
        rcases hj with hj | ⟨-, ⟨h, -⟩ | h⟩
        · exact hcb hj
        · omega
        · rw [next_push] at h; omega
      have hstep : ∀ {u z}, Rep st (After rd a x (sb.push .nil) okb) u z → Rep st1 (After rd a x (sb.push .nil) okb) u z := by
        intro u z hz
        refine (hd2.rep hAs hz).mono (fun _ _ _ => rfl) (Nat.le_refl _) fun j hj _ => hj.trans ?_
        rw [next_push]; omega
      refine wp_mono (ih (i + 1) _ w1 xs1 (vs.set (off + i) v1) ys ys2 xs2 L (by omega) (Did.set hA hd3 (by omega) (by omega) _)
        (heap_set_same _ _ _) (by show ci < st1.next; omega) (by omega) (by rw [List.length_set]; exact hl) ?_ hr' (by omega)) ?_
      · intro j u z hu hz
        refine hmono (hstep (hR (j + 1) u z ?_ hz))
        rw [List.getElem?_set_ne (by omega)] at hu
        rw [← hu]
        congr 1
        omega
      · rintro _ st2 ⟨rfl, w2, vs2, hd4, hl4, hy4, hb4, hk4, hr4⟩
        rw [List.length_set] at hl4
        refine ⟨rfl, w2, vs2, hd4, hl4, by simp [hy4], fun j hj => ?_,
          fun u z h => hk4 u z (hmono (hstep h)), fun j u z hu hz => ?_⟩
        · rw [hb4 j (by omega), List.getElem?_set_ne (by omega)]
        · cases j with
          | zero =>
            cases hz
            rw [Nat.add_zero, hb4 _ (by omega), List.getElem?_set_self (by omega)] at hu
            cases hu
            refine hk4 _ _ (hmono (hrep1.mono (fun _ _ _ => rfl) (Nat.le_refl _) fun j hj _ => hj.trans ?_))
            rw [next_push]; omega
          | succ j =>
            refine hr4 j u z ?_ hz
            rw [← hu]
            congr 1
            omega

theorem elems_length {F : XdrState → Gen.GoVal → Gen.Res (XdrState × Gen.GoVal)} :
    ∀ {n xs ys r}, Gen.codecElems F n xs ys = .ok r → n ≤ ys.length
  | 0, _, _, _, _ => Nat.zero_le _
  | n + 1, _, [], _, h => by rw [Gen.codecElems] at h; cases h
  | n + 1, xs, y :: ys, r, h => by
    rw [Gen.codecElems] at h
    cases h1 : F xs y with
    | error => simp only [h1, bind, Except.bind] at h; cases h
    | ok q =>
      simp only [h1, bind, Except.bind] at h
      cases h2 : Gen.codecElems F n q.1 ys with
      | error => simp only [h2] at h; cases h
      | ok q' =>
        have := elems_length h2
        simp only [List.length_cons]
        omega

/-- `for i := uint64(0); …` -/
theorem wp_initE {S : Sem ω} {ρ : Env} {D : Nat → Prop} {st : St ω} {x : Nat} (hE : EnvOK ρ st D x) (Q : Env × Ctl → St ω → Prop) :
    wp (exec S pkg (.define ["i"] [.call (.id "uint64") [.int 0] false]) ([] :: ρ)) Q st =
      Q ([("i", st.next)] :: ρ, .next) (st.push (.u64 0)) := by
  have h5 := hE.other "uint64" (by decide)
  rw [wp_s_define]
  go_run [h5, isType_uint64', zero_uint64']
  rfl

/-- The loop over the elements of a slice. -/
def forE (b : List Stmt) : Stmt :=
  .loop (.define ["i"] [.call (.id "uint64") [.int 0] false]) condE (.inc (.id "i")) b

theorem wp_forE {rd : Bool} {sb : St ω} {x a wb t bc ca off : Nat} {p bp : List String} {xs xs' : XdrState} {okb : Nat → Prop} {vs : List V}
    {ρ : Env} {D : Nat → Prop} {b : List Stmt} {F : XdrState → Gen.GoVal → Gen.Res (XdrState × Gen.GoVal)} {s : Slice} {nn : UInt32}
    {ys ys' : List Gen.GoVal} (hloop : 2 ^ 32 ≤ E.loops)
    (hb : Does 𝕊 pkg true (.un "&" (.idx (.un "*" e) (.id "i"))) b F)
    (hA : At rd sb x a wb bc bp xs okb (.vals vs)) (hp : PtrTo 𝕊 pkg false ρ D sb e ⟨t, p⟩) (hE : EnvOK ρ sb D x)
    (hs : (sb.heap t).at p = some (.slice s)) (hsb : s.base = ⟨bc, bp⟩) (hso : s.off = off) (hsl : nn.toNat ≤ s.len) (hv : off + nn.toNat ≤ vs.length)
    (ha : ρ.find "__arraysz" = some ca) (hn : sb.heap ca = .u32 nn)
    (hDt : D t) (hDa : D ca) (hD : Fixed D rd sb x wb bc) (hcb : ¬ okb sb.next)
    (hR : ∀ (j : Nat) v y, vs[off + j]? = some v → ys[j]? = some y → Rep sb okb v y)
    (hF : Gen.codecElems F nn.toNat xs ys = .ok (xs', ys')) :
    wp (exec 𝕊 pkg (forE b) ρ) (fun r st' => r = (ρ, .next) ∧ ∃ w' vs',
        Did rd sb st' x a wb w' bc bp xs' okb (.vals vs) (.vals vs') ∧ vs'.length = vs.length ∧ ys'.length = ys.length ∧
        ∀ (j : Nat) v y, vs'[off + j]? = some v → ys'[j]? = some y → Rep st' (After rd a x sb okb) v y) sb := by
  rw [forE, wp_s_loop, wp_initE hE]
  dsimp only
  have hs0 : Side rd sb (sb.push (.u64 0)) x a wb wb xs := (Side.refl hA.hx hA.hr).push _
  have hd0 := Did.side hA hs0
  have hsc : ∀ y, y ∉ ["i", "opted", "__arraysz"] → List.lookup y [("i", sb.next)] = none := fun y hy => by
    rw [lookup_cons, if_neg (fun e => hy (by rw [e]; decide)), lookup_nil]
  have hwlt := hA.hx.wlt
  have hnn : nn.toNat < 2 ^ 32 := nn.toNat_lt
  refine wp_mono (wp_elems (rd := rd) (s := s) (n := nn.toNat) (ci := sb.next) hb hA
    (hp.mono (.scope false ρ [("i", sb.next)] rfl (by simp)) fun _ _ => rfl) (hE.scope _ hsc) hs hsb hso hsl
    (by rw [find_cons]; rfl) (by rw [find_cons]; exact ha) hn rfl hDt hDa hD rfl hcb nn.toNat 0 (sb.push (.u64 0)) wb xs vs ys ys' xs' E.loops
    (by omega) hd0 (heap_push_same _ _) (by rw [next_push]; omega) (by omega) hv ?_ hF (by omega)) ?_
  · intro j v y h1 h2
    rw [Nat.add_zero] at h1
    refine (hR j v y h1 h2).mono (fun j hj hl => heap_push_ne _ _ _ (by omega)) ?_ fun _ h _ => .inl h
    rw [next_push]; omega
  · rintro _ st1 ⟨rfl, w1, vs1, hd1, hl1, hy1, -, -, hr1⟩
    refine ⟨rfl, w1, vs1, hd1, hl1, hy1, fun j v y h1 h2 => ?_⟩
    refine (hr1 j v y (by rw [Nat.add_zero]; exact h1) h2).mono (fun _ _ _ => rfl) (Nat.le_refl _) fun j hj _ => ?_
    rcases hj with hj | ⟨h, h' | h'⟩
    · exact .inl hj
    · exact .inr ⟨h, .inl h'⟩
    · exact .inr ⟨h, .inr (by rw [next_push] at h'; omega)⟩

/-- No elements. -/
theorem wp_forE0 {sb : St ω} {x ca : Nat} {ρ : Env} {D : Nat → Prop} {b : List Stmt} (hloop : 2 ^ 32 ≤ E.loops) (hE : EnvOK ρ sb D x)
    (ha : ρ.find "__arraysz" = some ca) (hl : ca < sb.next) (hn : sb.heap ca = .u32 0) (Q : Env × Ctl → St ω → Prop)
    (hQ : Q (ρ, .next) (sb.push (.u64 0))) :
    wp (exec 𝕊 pkg (forE b) ρ) Q sb := by
  rw [forE, wp_s_loop, wp_initE hE]
  dsimp only
  obtain ⟨L, hL⟩ : ∃ L', E.loops = L' + 1 := ⟨E.loops - 1, by omega⟩
  rw [hL, repeatM, wp_bind]
  have hsc : ∀ y, y ∉ ["i", "opted", "__arraysz"] → List.lookup y [("i", sb.next)] = none := fun y hy => by
    rw [lookup_cons, if_neg (fun e => hy (by rw [e]; decide)), lookup_nil]
  have h5 := hE.other "uint64" (by decide)
  refine wp_last (fun Q => ?_) hQ
  rw [condE]
  have h6 : Env.find ([("i", sb.next)] :: ρ) "__arraysz" = some ca := by rw [find_cons]; exact ha
  have h7 : Env.find ([("i", sb.next)] :: ρ) "uint64" = none := by rw [find_cons]; exact h5
  have h8 : (sb.push (.u64 0)).heap ca = .u32 0 := by rw [heap_push_ne _ _ _ (by omega), hn]
  go_run [ha, h5, h6, h7, h8, isType_uint64', zero_uint64']
  rfl

/-- `if xs.Decoding() { *e = make([]T, __arraysz) }; for … { b }` -/
def arrBody (e : Expr) (ty : Ty) (b : List Stmt) : List Stmt :=
  [.ite (xsE "Decoding" []) [.assign [.un "*" e] [.call (.id "make") [.ty (.slice ty), .id "__arraysz"] false]] [], forE b]

/-- The elements of a variable-length array. -/
def codecArr (z : Option Gen.GoVal) (F : XdrState → Gen.GoVal → Gen.Res (XdrState × Gen.GoVal)) (n : UInt32) (xs : XdrState)
    (o : Option (List Gen.GoVal)) : Gen.Res (XdrState × Gen.GoVal) :=
  if Xdr.decoding xs then do
    let z ← Gen.orStuck z
    let (xs, l) ← Gen.codecElems F n.toNat xs (List.replicate n.toNat z)
    pure (xs, .slice (some l))
  else
    match o with
    | some l => do
      let (xs, l) ← Gen.codecElems F n.toNat xs l
      pure (xs, .slice (some l))
    | none => if n = 0 then pure (xs, .slice none) else .error .stuck

theorem does_arrBody {b : List Stmt} {F : XdrState → Gen.GoVal → Gen.Res (XdrState × Gen.GoVal)} {ty : Ty}
    {z : Option Gen.GoVal} (hz : ZeroOK (xdrPkg :: Ps) pkg ty z) (hty : ty ≠ .name "byte") (hloop : 2 ^ 32 ≤ E.loops)
    (hb : Does 𝕊 pkg true (.un "&" (.idx (.un "*" e) (.id "i"))) b F)
    {rd : Bool} {st : St ω} {x a w t ca : Nat} {p : List String} {xs xs' : XdrState} {ok : Nat → Prop} {v : V} {ρ : Env} {D : Nat → Prop}
    {o : Option (List Gen.GoVal)} {y' : Gen.GoVal} {nn : UInt32} (hA : At rd st x a w t p xs ok v)
    (hp : PtrTo 𝕊 pkg false ρ D st e ⟨t, p⟩) (hE : EnvOK ρ st D x) (hD : Fixed D rd st x w t) (hR : Rep st ok v (.slice o))
    (ha : ρ.find "__arraysz" = some ca) (hDa : D ca) (hn : st.heap ca = .u32 nn)
    (hn0 : rd = true → Xdr.decoding xs = false → nn = 0) (hF : codecArr z F nn xs o = .ok (xs', y')) :
    wp (execs 𝕊 pkg (arrBody e ty b) ρ .next) (fun r st' => r = (ρ, .next) ∧ ∃ w' v', Did rd st st' x a w w' t p xs' ok v v' ∧
      Rep st' (After rd a x st ok) v' y') st := by
  rw [arrBody, wp_execs_next, wp_s_ite]
  refine wp_decodingE hE hA.hx fun st1 hpost => ?_
  obtain ⟨w1, -, hs1⟩ := (Side.refl hA.hx hA.hr).post hpost rfl (.inr rfl)
  rw [wp_one]
  dsimp only
  obtain ⟨hfx1, hD1⟩ := hs1.fixed hD
  have hE1 := hE.mono (fun _ h => h) hfx1
  have hA1 := hA.side hs1
  have hnx1 := hs1.keeps.next
  have hn1 : st1.heap ca = .u32 nn := (hfx1 _ hDa).trans hn
  cases hde : Xdr.decoding xs with
  | false =>
    rw [codecArr.eq_def, if_neg (by simp [hde])] at hF
    simp only [Bool.false_eq_true, ↓reduceIte, wp_execs_nil]
    rw [wp_execs_next]
    by_cases h0 : nn = 0
    · subst h0
      refine wp_forE0 hloop hE1 ha (hD1 _ hDa).1 hn1 _ ?_
      dsimp only
      rw [wp_execs_nil]
      have hd := Did.side hA (hs1.push (.u64 0))
      have : xs' = xs ∧ y' = .slice o := by
        cases o with
        | none => simp only [↓reduceIte] at hF; cases hF; exact ⟨rfl, rfl⟩
        | some l =>
          simp only [UInt32.toNat_zero, Gen.codecElems, bind, Except.bind] at hF
          cases hF; exact ⟨rfl, rfl⟩
      obtain ⟨rfl, rfl⟩ := this
      exact ⟨rfl, w1, v, hd, hd.rep hA hR⟩
    · have hrd : rd = false := by
        cases rd with
        | false => rfl
        | true => exact absurd (hn0 rfl hde) h0
      subst hrd
      cases o with
      | none => simp only [if_neg h0] at hF; cases hF
      | some ys =>
        dsimp only at hF
        cases hr : Gen.codecElems F nn.toNat xs ys with
        | error => simp only [hr, bind, Except.bind] at hF; cases hF
        | ok r =>
          obtain ⟨xs2, ys2⟩ := r
          simp only [hr, bind, Except.bind] at hF
          obtain ⟨rfl, rfl⟩ := Prod.mk.inj (Except.ok.inj hF)
          have hlen := elems_length hr
          cases hR with
          | slice hv hc hl hyl hlt hok h =>
          rename_i s vs
          have hkeep : st1.heap s.base.id = st.heap s.base.id := hs1.keeps.heap _ hlt (hA.hok _ hok).1 (hA.hok _ hok).2.1 (hA.hok _ hok).1
          have hAi : At false st1 x a w1 s.base.id s.base.path xs ok (.vals vs) := by
            have hax := hA1.w
            simp only [Bool.false_eq_true, ↓reduceIte] at hax
            have := hA1.hok _ hok
            exact ⟨hs1.hx, hs1.hr, by rw [hkeep]; exact hv, by omega, this.1, by rw [hax]; exact this.1, this.2.1, fun j hj => ⟨(hA1.hok j hj).1,
              (hA1.hok j hj).2.1, by simp, (hA1.hok j hj).2.2.2⟩⟩
          refine wp_mono (wp_forE (D := fun j => D j ∨ j = t) hloop hb hAi (hp.mono (.refl _ _) hfx1 |>.weaken fun _ h => .inl h)
            (hE1.mono (fun _ h => .inl h) fun _ _ => rfl) hA1.cell rfl rfl (by omega) (by omega) ha hn1 (.inr rfl) (.inl hDa) ?_ ?_ ?_ hr) ?_
          · rintro j (hj | rfl)
            · obtain ⟨h1, h2, h3, -⟩ := hD1 j hj
              exact ⟨h1, h2, h3, by simp⟩
            · exact ⟨hA1.tlt, hA1.tx, hA1.tw, by simp⟩
          · intro hcb
            have := (hA1.hok _ hcb).2.2.2 rfl
            omega
          · intro j v y h1 h2
            exact (h j v y h1 h2).side hA hs1
          · rintro _ st2 ⟨rfl, w2, vs2, hd2, hl2, hy2, hr2⟩
            rw [wp_execs_nil]
            have hd3 := Did.inner hA1 hAi hd2
            have hd4 := (Did.side hA hs1).trans hA hd3
            have hn2 := hd2.keeps.next
            refine ⟨rfl, w2, _, hd4, .slice (vs := vs2) ?_ (by omega) hl (by omega) (by omega) (.inl hok) fun j v y h1 h2 => ?_⟩
            · exact hd2.at'.cell
            · refine (hr2 j v y h1 h2).mono (fun _ _ _ => rfl) (Nat.le_refl _) fun j hj _ => ?_
              rcases hj with hj | ⟨h, -⟩
              · exact .inl hj
              · cases h
  | true =>
    have hrd : rd = true := by
      rw [← hA.hr]
      simp [Xdr.decoding] at hde
      exact hde.2
    subst hrd
    rw [codecArr.eq_def, if_pos hde] at hF
    simp only [↓reduceIte]
    cases hzz : z with
    | none => rw [hzz] at hF; cases hF
    | some zy =>
    cases hr : Gen.codecElems F nn.toNat xs (List.replicate nn.toNat zy) with
    | error => simp only [hzz, hr, bind, Except.bind, Gen.orStuck] at hF; cases hF
    | ok r =>
      obtain ⟨xs2, ys2⟩ := r
      simp only [hzz, hr, bind, Except.bind, Gen.orStuck] at hF
      obtain ⟨rfl, rfl⟩ := Prod.mk.inj (Except.ok.inj hF)
      obtain ⟨zv, hz1, hz2⟩ := hz zy hzz
      have hs4 := hs1.push (.vals (List.replicate nn.toNat zv))
      obtain ⟨hfx4, hD4⟩ := hs4.fixed hD
      obtain ⟨-, T, hT⟩ := hp ([] :: ρ) (st1.push (.vals (List.replicate nn.toNat zv))) (.scope _ _ _ rfl (by simp)) hfx4
      have hA4 := hA.side hs4
      obtain ⟨W, hW⟩ := put_some hA4.cell (.slice ⟨⟨st1.next, []⟩, 0, nn.toNat, nn.toNat⟩)
      have hmake := hE.other "make" (by decide)
      have hco : coerce v (.slice ⟨⟨st1.next, []⟩, 0, nn.toNat, nn.toNat⟩) = .slice ⟨⟨st1.next, []⟩, 0, nn.toNat, nn.toNat⟩ := by cases v <;> rfl
      have hnat : ∀ Q : Nat → St ω → Prop, ∀ s, wp (natV (.u32 nn)) Q s = Q nn.toNat s := fun _ _ => rfl
      have hasg : ∀ Q : Env × Ctl → St ω → Prop, Q ([] :: ρ, .next) ((st1.push (.vals (List.replicate nn.toNat zv))).set t W) →
          wp (exec 𝕊 pkg (.assign [.un "*" e] [.call (.id "make") [.ty (.slice ty), .id "__arraysz"] false]) ([] :: ρ)) Q st1 := by
        intro Q hQ
        rw [wp_s_assign]
        go_run [hmake, ha, hn1, wp_make_vals _ _ hty, hnat, hz1, ↓hT, hA4.cell, hco, hW]
        exact hQ
      rw [wp_execs_next]
      refine hasg _ ?_
      dsimp only
      rw [wp_execs_nil]
      dsimp only
      rw [wp_execs_next]
      have hd5 := Did.store hA hs4 hW
      have htl := hA1.tlt
      have hn5 : ((st1.push (.vals (List.replicate nn.toNat zv))).set t W).next = st1.next + 1 := rfl
      have hc5 : ((st1.push (.vals (List.replicate nn.toNat zv))).set t W).heap st1.next = .vals (List.replicate nn.toNat zv) := by
        rw [heap_set_ne _ _ _ _ (by omega), heap_push_same]
      generalize (st1.push (.vals (List.replicate nn.toNat zv))).set t W = st5 at hd5 hn5 hc5 ⊢
      obtain ⟨hfx5, hD5⟩ := hd5.fixed hA hD
      have hx5 := hA1.hx.xlt
      have ha5 := hA1.hx.alt
      have hw5 := hA1.hx.wlt
      have hAi : At true st5 x a w1 st1.next [] xs (fun _ => False) (.vals (List.replicate nn.toNat zv)) :=
        ⟨hd5.at'.hx, hd5.at'.hr, by rw [hc5, at_nil], by omega, by omega, by omega, by omega, fun j hj => hj.elim⟩
      refine wp_mono (wp_forE (D := fun j => D j ∨ j = t) (off := 0) hloop hb hAi (hp.mono (.refl _ _) hfx5 |>.weaken fun _ h => .inl h)
        ((hE.mono (fun _ h => .inl h) hfx5)) hd5.at'.cell rfl rfl (Nat.le_refl _) (by simp) ha ((hfx5 _ hDa).trans hn)
        (.inr rfl) (.inl hDa) ?_ (fun h => h) ?_ hr) ?_
      · rintro j (hj | rfl)
        · obtain ⟨h1, h2, h3, -⟩ := hD5 j hj
          have := (hD1 j hj).1
          exact ⟨h1, h2, h3, fun _ => by omega⟩
        · exact ⟨hd5.at'.tlt, hd5.at'.tx, hd5.at'.tw, fun _ => by omega⟩
      · intro j v y h1 h2
        rw [List.getElem?_replicate] at h1 h2
        split at h1
        · split at h2
          · cases h1; cases h2; exact hz2 _
          · cases h2
        · cases h1
      · rintro _ st6 ⟨rfl, w6, vs6, hd6, hl6, hy6, hr6⟩
        rw [wp_execs_nil]
        have hd := Did.fresh hA hd5 (by omega) hd6
        rw [List.length_replicate] at hl6 hy6
        refine ⟨rfl, w6, _, hd, .slice (vs := vs6) hd6.at'.cell (by simp [hl6]) (Nat.le_refl _) hy6 hd6.at'.tlt
          (.inr ⟨rfl, .inr (by dsimp only; omega)⟩) fun j v y h1 h2 => ?_⟩
        exact (hr6 j v y h1 h2).mono (fun _ _ _ => rfl) (Nat.le_refl _) fun j hj _ => by
          rcases hj with hj | ⟨h, h' | h'⟩
          · exact hj.elim
          · exact .inr ⟨h, .inl h'⟩
          · exact .inr ⟨h, .inr (by omega)⟩

theorem SetError_spec {st : St ω} {x a w : Nat} {xs : XdrState} (h : Xs st x a w xs) (m : String) :
    wp (callN (xdrPkg :: Ps) E (k + 2) (.meth "xdr.XdrState" "SetError") [.ptr "" ⟨x, []⟩, .str (strBytes m)])
      (fun _ st' => Post st st' x a w x (Xdr.setError xs m)) st := by
  obtain ⟨err, reader, buf⟩ := xs
  obtain ⟨⟨e, b, hx, he, hb, hn⟩, xlt, alt, wlt, ho⟩ := h
  dsimp only at *
  rw [wp_callN _ _ _ _ _ _ _ _ _ find_lib_XdrState_SetError, wp_callFunc, lib_XdrState_SetError]
  cases reader with
  | true =>
    simp only [↓reduceIte] at *
    subst ho
    go_run [hx]
    exact Post.reader _ b (by go_run) (.msg _) (hb.mono' hn fun _ => by go_run) hn xlt alt (by go_keeps)
  | false =>
    simp only [↓reduceIte, Bool.false_eq_true] at *
    subst ho
    go_run [hx]
    exact Post.writer w _ _ (.inl rfl) (by go_run) (.msg _) (hb.mono' hn (fun _ => by go_run)) hn xlt (by go_lt) (by go_keeps)

/-- `var __arraysz uint32; xs.EncodingSetSize(&__arraysz, len(*e)); xdr.XdrU32(xs, (*uint32)(&__arraysz))` -/
def arrHead (e : Expr) : List Stmt :=
  [.var ["__arraysz"] (.name "uint32"),
    .expr (xsE "EncodingSetSize" [.un "&" (.id "__arraysz"), .call (.id "len") [.un "*" e] false]),
    xdrE "XdrU32" "uint32" (.un "&" (.id "__arraysz"))]

theorem wp_lenSlice {st : St ω} {ok : Nat → Prop} {v : V} {o : Option (List Gen.GoVal)} (h : Rep st ok v (.slice o)) (Q : V → St ω → Prop)
    (st' : St ω) : wp (lenV v) Q st' = Q (.int ((o.getD []).length : Nat)) st' := by
  cases h with
  | snil => rfl
  | slice hv hc hl hn => rw [wp_len_slice, Option.getD, hn]

theorem does_arrHead (hP : PkgOK Ps pkg)
    {rd : Bool} {st : St ω} {x a w t : Nat} {p : List String} {xs : XdrState} {ok : Nat → Prop} {v : V} {ρ : Env} {D : Nat → Prop}
    {o : Option (List Gen.GoVal)} (hA : At rd st x a w t p xs ok v)
    (hp : PtrTo 𝕊 pkg u ρ D st e ⟨t, p⟩) (hE : EnvOK ρ st D x) (hD : Fixed D rd st x w t) (hR : Rep st ok v (.slice o)) (hu : u = false) :
    wp (execs 𝕊 pkg (arrHead e) ([] :: ρ) .next) (fun r st' => r = ([("__arraysz", st.next)] :: ρ, .next) ∧
      ∃ w', Side rd st st' x a w w' (Xdr.xdrU32 (Xdr.encodingSetSize xs 0 (o.getD []).length).1 (Xdr.encodingSetSize xs 0 (o.getD []).length).2).1 ∧
        st'.heap st.next = .u32 (Xdr.xdrU32 (Xdr.encodingSetSize xs 0 (o.getD []).length).1 (Xdr.encodingSetSize xs 0 (o.getD []).length).2).2 ∧
        st.next ≠ w' ∧ st.next < st'.next) st := by
  subst hu
  have hdef : ∀ Q : Env × Ctl → St ω → Prop, Q ([("__arraysz", st.next)] :: ρ, .next) (st.push (.u32 0)) →
      wp (exec 𝕊 pkg (.var ["__arraysz"] (.name "uint32")) ([] :: ρ)) Q st := by
    intro Q hQ
    rw [wp_s_var]
    go_run [zero_uint32']
    exact hQ
  rw [arrHead, wp_execs_next]
  refine hdef _ ?_
  dsimp only
  have hs1 := (Side.refl hA.hx hA.hr).push (.u32 0)
  have hxl := hA.hx.xlt
  have hal := hA.hx.alt
  have hwl := hA.hx.wlt
  generalize hst1 : st.push (.u32 0) = st1 at hs1 ⊢
  have hc1 : st1.heap st.next = .u32 0 := by rw [← hst1, heap_push_same]
  have hn1 : st1.next = st.next + 1 := by rw [← hst1, next_push]
  obtain ⟨hfx1, hD1⟩ := hs1.fixed hD
  have hE1 : EnvOK ([("__arraysz", st.next)] :: ρ) st1 D x :=
    (hE.mono (fun _ h => h) hfx1).scope _ fun y hy => by
      rw [lookup_cons, if_neg (fun e => hy (by rw [e]; decide)), lookup_nil]
  obtain ⟨-, T, hT⟩ := hp ([("__arraysz", st.next)] :: ρ) st1 (.scope _ _ _ rfl (by simp)) hfx1
  have hA1 := hA.side hs1
  have hlen := hE1.other "len" (by decide)
  have hargs : ∀ Q : List V → St ω → Prop, Q [.ptr "" ⟨st.next, []⟩, .int ((o.getD []).length : Nat)] st1 →
      wp (evalArgs 𝕊 pkg ([("__arraysz", st.next)] :: ρ) [.un "&" (.id "__arraysz"), .call (.id "len") [.un "*" e] false]) Q st1 := by
    intro Q hQ
    go_run [hlen, ↓hT, hA1.cell, wp_lenSlice hR]
    exact hQ
  rw [wp_execs_next, wp_s_expr, wp_xsE hE1]
  refine hargs _ ?_
  rw [wp_xs hA1.hx]
  refine wp_mono (EncodingSetSize_spec E k hA1.hx "" st.next [] 0 (by rw [hc1, at_nil]) _ (by omega) (by omega) (by omega) (by omega)) ?_
  rintro _ st2 ⟨-, hpost2, hput2⟩
  obtain ⟨w2, hw2, hs2⟩ := hs1.post hpost2 (setSize_rd _ _ _) (.inl (Nat.le_refl _))
  rw [put_nil] at hput2
  have hc2 := (Option.some.inj hput2).symm
  have hn2 := hs2.keeps.next
  have hn2' : st1.next ≤ st2.next := by obtain ⟨_, _, _, h⟩ := hpost2; exact h.next
  dsimp only
  obtain ⟨hfx2, hD2⟩ := hs2.fixed hD
  have hE2 : EnvOK ([("__arraysz", st.next)] :: ρ) st2 D x :=
    (hE.mono (fun _ h => h) hfx2).scope _ fun y hy => by
      rw [lookup_cons, if_neg (fun e => hy (by rw [e]; decide)), lookup_nil]
  refine wp_xdrVar hP (by rw [find_cons]; rfl) hE2 isType_xdr_XdrU32 (by decide) (by decide) fun T => ?_
  refine wp_mono (XdrU32_spec E k hs2.hx T st.next [] _ (by rw [hc2, at_nil]) (by omega) (by omega) (by omega) (by omega)) ?_
  rintro _ st3 ⟨-, hpost3, hput3⟩
  obtain ⟨w3, hw3, hs3⟩ := hs2.post hpost3 (u32_rd _ _) (.inl (Nat.le_refl _))
  have hn3 : st2.next ≤ st3.next := by obtain ⟨_, _, _, h⟩ := hpost3; exact h.next
  rw [put_nil] at hput3
  exact ⟨rfl, w3, hs3, (Option.some.inj hput3).symm, by omega, by omega⟩

/-- A reader without a number: none. -/
theorem setSize_reader {xs : XdrState} (hr : xs.reader = true) (n : Nat)
    (hd : Xdr.decoding (Xdr.xdrU32 (Xdr.encodingSetSize xs 0 n).1 (Xdr.encodingSetSize xs 0 n).2).1 = false) :
    (Xdr.xdrU32 (Xdr.encodingSetSize xs 0 n).1 (Xdr.encodingSetSize xs 0 n).2).2 = 0 := by
  have h1 : Xdr.encodingSetSize xs 0 n = (xs, 0) := by
    simp only [Xdr.encodingSetSize, hr, ↓reduceIte, ite_self]
  rw [h1] at hd ⊢
  simp only [Xdr.xdrU32] at hd ⊢
  repeat' split
  all_goals first | rfl | (rename_i h1 h2; simp only [h1, h2, ↓reduceIte] at hd; simp_all)

/-- The length check. -/
def checkE (m : Option Gen.Val) (body : List Stmt) : List Stmt :=
  match m with
  | some c => [.ite (.bin ">" (.id "__arraysz") (valE c)) [.expr (xsE "SetError" [.str "array too large"])] body]
  | none => body

theorem does_slice (hP : PkgOK Ps pkg) {b : List Stmt} {F : XdrState → Gen.GoVal → Gen.Res (XdrState × Gen.GoVal)} {ty : Ty}
    {z : Option Gen.GoVal} (hz : ZeroOK (xdrPkg :: Ps) pkg ty z) (hty : ty ≠ .name "byte") (hloop : 2 ^ 32 ≤ E.loops)
    {c : Option Gen.Val} {m : Option Nat}
    (hm : c = none ∧ m = none ∨ ∃ v n, c = some v ∧ m = some n ∧ SizeIs (xdrPkg :: Ps) pkg v n)
    (hb : Does 𝕊 pkg true (.un "&" (.idx (.un "*" e) (.id "i"))) b F) :
    Does 𝕊 pkg false e [.block (arrHead e ++ checkE c (arrBody e ty b))] (Gen.codecVar m z F) := by
  intro rd st x a w t p xs ok v ρ D y xs' y' hA hp hE hD hR hF
  cases y <;> try (cases hF; done)
  rename_i o
  rw [wp_execs_next, wp_s_block, wp_execs_append]
  refine wp_mono (does_arrHead hP hA hp hE hD hR rfl) ?_
  rintro _ st1 ⟨rfl, w1, hs1, hc1, hcw, hcl⟩
  rw [Gen.codecVar] at hF
  have hn0 : rd = true → _ := fun h => setSize_reader (hA.hr.trans h) (o.getD []).length
  generalize Xdr.encodingSetSize xs 0 (o.getD []).length = q at hF hs1 hc1 hn0
  obtain ⟨xs0, n0⟩ := q
  dsimp only at hF hs1 hc1 hn0
  generalize Xdr.xdrU32 xs0 n0 = q' at hF hs1 hc1 hn0
  obtain ⟨xs1, nn⟩ := q'
  dsimp only at hF hs1 hc1 hn0
  obtain ⟨hfx1, hD1⟩ := hs1.fixed hD
  have hxl := hA.hx.xlt
  have htl := hA.tlt
  have hE1 : EnvOK ([("__arraysz", st.next)] :: ρ) st1 D x :=
    (hE.mono (fun _ h => h) hfx1).scope _ fun y hy => by
      rw [lookup_cons, if_neg (fun e => hy (by rw [e]; decide)), lookup_nil]
  have hA1 := hA.side hs1
  have hfind : Env.find ([("__arraysz", st.next)] :: ρ) "__arraysz" = some st.next := by rw [find_cons]; rfl
  have hbody : ∀ ρ2 : Env, ρ2.find "__arraysz" = some st.next → EnvOK ρ2 st1 D x → Agree false ρ ρ2 → codecArr z F nn xs1 o = .ok (xs', y') →
      wp (execs 𝕊 pkg (arrBody e ty b) ρ2 .next)
        (fun r st' => r = (ρ2, .next) ∧ ∃ w' v', Did rd st st' x a w w' t p xs' ok v v' ∧
          Rep st' (After rd a x st ok) v' y') st1 := by
    intro ρ2 hf2 hE2 hag hF
    refine wp_mono (does_arrBody (D := fun j => D j ∨ j = st.next) hz hty hloop hb hA1
      (hp.mono hag hfx1 |>.weaken fun _ h => .inl h) (hE2.mono (fun _ h => .inl h) fun _ _ => rfl) ?_ (hR.side hA hs1) hf2 (.inr rfl) hc1 hn0 hF) ?_
    · rintro j (hj | rfl)
      · exact hD1 j hj
      · exact ⟨hcl, by omega, hcw, fun _ => by omega⟩
    · rintro _ st2 ⟨rfl, w2, v2, hd2, hrep2⟩
      refine ⟨rfl, w2, v2, (Did.side hA hs1).trans hA hd2, hrep2.mono (fun _ _ _ => rfl) (Nat.le_refl _) fun j hj _ => ?_⟩
      have := hs1.keeps.next
      rcases hj with hj | ⟨h, h' | h'⟩
      · exact .inl hj
      · exact .inr ⟨h, .inl h'⟩
      · exact .inr ⟨h, .inr (by omega)⟩
  have hag : Agree false ρ ([("__arraysz", st.next)] :: ρ) := .scope _ _ _ rfl (by simp)
  rcases hm with ⟨rfl, rfl⟩ | ⟨c, n, rfl, rfl, hn, hsz⟩
  · rw [checkE]
    refine wp_mono (hbody _ hfind hE1 hag ?_) ?_
    · rw [codecArr.eq_def]
      simp only [Option.any_none, Bool.false_eq_true, ↓reduceIte] at hF
      exact hF
    · rintro _ st2 ⟨rfl, h⟩
      simp only [wp_execs_nil]
      exact ⟨trivial, h⟩
  · rw [checkE, wp_execs_next, wp_s_ite]
    have hcond : ∀ Q, wp (evalM 𝕊 pkg ([("__arraysz", st.next)] :: ρ) (.bin ">" (.id "__arraysz") (valE c))) Q st1 =
        Q [.bool (decide (n < nn.toNat))] st1 := by
      intro Q
      rcases hsz with hv | hv
      · have hval := fun Q st' => wp_valE (S := 𝕊) (pkg := pkg) hE1 hv Q st'
        go_run [hfind, hc1, hval]
        rw [ofInt32_nat]
        congr 3
        rw [decide_eq_decide, UInt32.lt_iff_toNat_lt, UInt32.toNat_ofNat_of_lt' hn]
      · have hval := fun Q st' => wp_valE (S := 𝕊) (pkg := pkg) hE1 hv Q st'
        go_run [hfind, hc1, hval]
        congr 3
        rw [decide_eq_decide, UInt32.lt_iff_toNat_lt, UInt32.toNat_ofNat_of_lt' hn]
    rw [hcond, wp_one]
    dsimp only
    simp only [Option.any_some, gt_iff_lt, decide_eq_true_eq] at hF
    by_cases hlt : n < nn.toNat
    · rw [if_pos hlt] at hF
      obtain ⟨rfl, rfl⟩ := Prod.mk.inj (Except.ok.inj hF)
      rw [decide_eq_true hlt]
      simp only [↓reduceIte]
      rw [wp_execs_next, wp_s_expr, wp_xsE (hE1.scope [] fun _ _ => rfl)]
      have hargs : ∀ Q : List V → St ω → Prop, Q [.str (strBytes "array too large")] st1 →
          wp (evalArgs 𝕊 pkg ([] :: [("__arraysz", st.next)] :: ρ) [.str "array too large"]) Q st1 := by
        intro Q hQ
        go_run
        exact hQ
      refine hargs _ ?_
      rw [wp_xs hA1.hx]
      refine wp_mono (SetError_spec hA1.hx "array too large") ?_
      rintro _ st2 hpost
      obtain ⟨w2, -, hs2⟩ := hs1.post hpost rfl (.inr rfl)
      simp only [wp_execs_nil]
      have hd := Did.side hA hs2
      exact ⟨trivial, w2, v, hd, hd.rep hA hR⟩
    · rw [if_neg hlt] at hF
      rw [decide_eq_false hlt]
      simp only [Bool.false_eq_true, ↓reduceIte]
      refine wp_mono (hbody ([] :: [("__arraysz", st.next)] :: ρ) (by rw [find_cons]; exact hfind) (hE1.scope [] fun _ _ => rfl)
        (hag.trans (.scope _ _ _ rfl (by simp))) (by rw [codecArr.eq_def]; exact hF)) ?_
      rintro _ st2 ⟨rfl, h⟩
      simp only [wp_execs_nil]
      exact ⟨trivial, h⟩

end
end Verif.Lang.Text
