/-
What the text of `xdr/lib.go` computes, continued: `XdrVarArray` (lib.go:191-223).
-/
import Verif.Lang.LibBytes
namespace Verif.Lang
open Verif.Xdr (XErr XdrState)
variable {ω : Type} {Ps : Prog}
set_option linter.unusedSimpArgs false

theorem GoB.mono {st st' : St ω} {v : V} {b : Xdr.GoBytes} (h : GoB st v b)
    (e : ∀ s, v = .slice s → st'.heap s.base.id = st.heap s.base.id) : GoB st' v b := by
  cases h with
  | nil => exact .nil
  | slice s arr h => exact .slice s arr ⟨by rw [e s rfl]; exact h.1, h.2⟩

/-- Writing leaves the argument alone. -/
theorem xdrRW_enc (E : Ext ω) (k : Nat) {st : St ω} {x a w xs} (h : Xs st x a w xs) (hr : xs.reader = false) (s : Slice) (arr : List UInt8)
    (hv : ArrAt st s arr) (h0 : s.base.id < st.next) (h1 : s.base.id ≠ x) (h3 : s.base.id ≠ w) :
    wp (callN (xdrPkg :: Ps) E (k + 1) (.fn "xdr" "xdrRW") [.ptr "" ⟨x, []⟩, .slice s])
      (fun r st' => r = [] ∧ Post st st' x a w x (Xdr.xdrRW xs (sub s arr)).1) st := by
  have ha : a = x := by have := h.other; rw [hr] at this; exact this
  refine wp_mono (xdrRW_spec E k h s arr hv h0 h1 (by omega) h3) ?_
  rintro _ st1 ⟨rfl, ⟨w1, hw1, h1', hk⟩, hp⟩
  refine ⟨rfl, w1, hw1, h1', ?_, hk.next, hk.world, hk.defers⟩
  have e : (Xdr.xdrRW xs (sub s arr)).2 = sub s arr := by
    simp only [Xdr.xdrRW, hr]
    split <;> rfl
  rw [e, overwrite_sub hv, put_at hv.1] at hp
  injection hp with hp
  intro j hj hjx hjw _
  by_cases hjs : j = s.base.id
  · rw [hjs, hp]
  · exact hk.heap j hj hjx hjw hjs

theorem ofInt32_0' : UInt32.ofInt 0 = UInt32.ofNat 0 := (rfl)
theorem tmod_zero : (((0 : Int).tmod ((4 : Nat) : Int)) == ((0 : Nat) : Int)) = true := (rfl)

set_option maxHeartbeats 2000000 in
theorem XdrVarArray_spec (E : Ext ω) (k : Nat) {st : St ω} {x a w xs} (h : Xs st x a w xs) (m : Int) (T : String) (t : Nat) (p : List String)
    (v : V) (b : Xdr.GoBytes) (hv : (st.heap t).at p = some v) (hg : GoB st v b)
    (hvs : ∀ s, v = .slice s → s.base.id < st.next ∧ s.base.id ≠ x ∧ s.base.id ≠ w)
    (h0 : t < st.next) (h1 : t ≠ x) (h2 : t ≠ a) (h3 : t ≠ w) :
    wp (callN (xdrPkg :: Ps) E (k + 2) (.fn "xdr" "XdrVarArray") [.ptr "" ⟨x, []⟩, .int m, .ptr T ⟨t, p⟩])
      (fun r st' => r = [] ∧ Post st st' x a w t (Xdr.xdrVarArray xs m b).1 ∧ ∃ v',
        V.put v' (st.heap t) p = some (st'.heap t) ∧ GoB st' v' (Xdr.xdrVarArray xs m b).2 ∧
        (v' = v ∨ v' = .nil ∨ a ≠ x ∧ ∃ o n, v' = .slice ⟨⟨a, []⟩, o, n, n⟩)) st := by
  have h' := h
  obtain ⟨err, reader, buf⟩ := xs
  obtain ⟨⟨e, bb, hx, he, hb, hn⟩, xlt, alt, wlt, ho⟩ := h
  dsimp only at *
  rw [wp_callN _ _ _ _ _ _ _ _ _ find_lib_XdrVarArray, wp_callFunc, lib_XdrVarArray]
  cases err with
  | some r => 
    obtain ⟨m', vs, rfl⟩ := he.some'
    have hX : Xdr.xdrVarArray ⟨some r, reader, buf⟩ m b = (⟨some r, reader, buf⟩, b) := by
      simp [Xdr.xdrVarArray]
    rw [hX]
    go_run [hx]
    refine ⟨Post.via (.inl rfl) h' (by go_run) (by go_run) (by go_run) (by go_lt) (by go_keeps), v, put_at hv, ?_, .inl rfl⟩
    exact hg.mono (fun s hs => by have := hvs s hs; go_run)
  | none => 
    obtain rfl := he.nil
    cases reader with
    | true => 
      simp only [↓reduceIte] at *
      subst ho
      go_run [hx, hv]
      refine wp_mono (xdrRW_local E k (h'.mono (by go_run) (by go_run) (by go_run) (by go_lt)) _ _ [0, 0, 0, 0] (by go_run) rfl ?_ ?_ ?_ ?_) ?_
      · go_lt
      · go_ne
      · go_ne
      · go_ne
      rintro _ st1 ⟨rfl, ⟨w1, hw1, h1', hk⟩, hp⟩
      go_after hk n1 k1 o1 d1
      cases hR : Xdr.xdrRW ⟨none, true, buf⟩ [0, 0, 0, 0] with
      | mk xs1 l1 =>
      have hl1 := rw_length' hR
      have hr1 := rw_reader' hR
      rw [hR] at h1' hp
      dsimp only at hr1
      have hne : a ≠ w ∨ xs1.err ≠ none := by
        by_cases haw : a = w
        · obtain rfl := hn.1 haw
          cases hb
          right
          have : xs1 = (Xdr.xdrRW ⟨none, true, []⟩ [0, 0, 0, 0]).1 := by rw [hR]
          rw [this]
          simp [Xdr.xdrRW]
        · exact .inl haw
      have h1 := h1'
      obtain ⟨⟨e1, b1, hx1, he1, hb1, hn1⟩, xlt1, alt1, wlt1, ho1⟩ := h1'
      simp only [hr1, ↓reduceIte] at ho1
      subst ho1
      have hsz : (0 : Int) ≤ ((Xdr.getU32 l1).toNat : Int) := by omega
      rcases (by omega : (0 ≤ m ∧ m < (Xdr.getU32 l1).toNat) ∨ (¬ 0 ≤ m ∨ 0 ≤ m ∧ ¬ m < (Xdr.getU32 l1).toNat)) with ⟨hm0, hm1⟩ | hok
      · go_run [k1, d1, hp, List.take_of_length_le, List.drop_zero, ofBe32_getU32 l1 hl1, Bool.not_eq_true', decide_eq_false_iff_not, hx1]
        have hX : Xdr.xdrVarArray ⟨none, true, buf⟩ m b = (⟨some (.msg "var array too large"), true, xs1.buf⟩, b) := by
          have hc : m ≥ 0 ∧ ((Xdr.getU32 l1).toNat : Int) > m := by omega
          simp only [Xdr.xdrVarArray, Xdr.encoding, Xdr.zeros, Option.isSome, Option.isNone, Bool.false_eq_true, ↓reduceIte, Bool.true_and,
            true_beq_false, List.replicate, hR, hc, and_self, Xdr.setError, hr1]
        rw [hX]
        simp only [hr1, ↓reduceIte] at hx1 hb1 hn1
        refine ⟨Post.reader _ b1 (by go_run [hr1]) (.msg _) ?_ hn1 xlt alt (by go_keeps' [k1, o1]), v, put_at hv, ?_, .inl rfl⟩
        · exact hb1.mono' hn1 (fun _ => by go_run)
        · exact hg.mono (fun s hs => by have := hvs s hs; go_run [k1])
      · have hX : Xdr.xdrVarArray ⟨none, true, buf⟩ m b =
            (if Xdr.goLen (Xdr.xdrR xs1 (Xdr.getU32 l1).toNat).2 % 4 ≠ 0 then 
             (Xdr.xdrRW (Xdr.xdrR xs1 (Xdr.getU32 l1).toNat).1 (Xdr.zeros (Xdr.padLen (Xdr.goLen (Xdr.xdrR xs1 (Xdr.getU32 l1).toNat).2)))).1
             else (Xdr.xdrR xs1 (Xdr.getU32 l1).toNat).1, (Xdr.xdrR xs1 (Xdr.getU32 l1).toNat).2) := by
          have hc : ¬ (m ≥ 0 ∧ ((Xdr.getU32 l1).toNat : Int) > m) := by omega
          simp only [Xdr.xdrVarArray, Xdr.encoding, Xdr.zeros, Option.isSome, Option.isNone, Bool.false_eq_true, ↓reduceIte, Bool.true_and,
            true_beq_false, List.replicate, hR, hc, Xdr.setError, hr1]
        rw [hX]
        have hR1 := r_reader_eq xs1 (Xdr.getU32 l1).toNat
        rcases hok with hm0 | ⟨hm0, hm1⟩
        all_goals
          go_run [k1, d1, hp, List.take_of_length_le, List.drop_zero, ofBe32_getU32 l1 hl1, Bool.not_eq_true', decide_eq_false_iff_not, hx1]
          refine wp_mono (xdrR_spec E k (h1.mono (by go_run) (by go_run) (by go_run) (by go_lt)) hr1 hne _) ?_
          rintro _ st2 ⟨v2, rfl, ⟨w2, hw2, h2', hk2⟩, hb2, hv2⟩
          go_after hk2 n2 k2 o2 d2
          generalize Xdr.xdrR xs1 (Xdr.getU32 l1).toNat = R at hR1 hX h2' hb2 ⊢
          obtain ⟨R1, R2⟩ := R
          obtain ⟨W, hW⟩ := put_some hv v2
          have hW' := at_put hW
          dsimp only at *
          have hr2 : R1.reader = true := hR1.trans hr1
          obtain ⟨⟨e2, b2, hx2, he2, hb2', hn2⟩, xlt2, alt2, wlt2, ho2⟩ := id h2'
          simp only [hr2, ↓reduceIte] at ho2
          subst ho2
          cases hb2 with
          | nil => 
            go_run [k2, k1, d2, d1, hv, hW, hW', four_ne, tmod_four, tmod_pad, tmod_zero]
            refine ⟨Post.via (by simp only [next_set, next_push, next_deferring] at hw2; omega) h2' (by go_run) (by go_run) (by go_run) (by go_lt) (by go_keeps' [k2, k1, o2, o1]), _, hW, .nil, .inr (.inl rfl)⟩
          | slice s arr h => 
            rcases hv2 with hv2 | ⟨haw, o, hv2⟩
            · cases hv2
            cases hv2
            have hgl : Xdr.goLen (some (sub ⟨⟨a, []⟩, o, (Xdr.getU32 l1).toNat, (Xdr.getU32 l1).toNat⟩ arr)) = (Xdr.getU32 l1).toNat := sub_length h
            rw [hgl]
            by_cases h4 : (Xdr.getU32 l1).toNat % 4 = 0
            · have h4' : ((((Xdr.getU32 l1).toNat % 4 : Nat) : Int) == ((0 : Nat) : Int)) = true := by rw [h4]; rfl
              go_run [k2, k1, d2, d1, hv, hW, hW', four_ne, tmod_four, tmod_pad, h4']
              rw [if_neg (by omega)]
              refine ⟨Post.via (by simp only [next_set, next_push, next_deferring] at hw2; omega) h2' (by go_run) (by go_run) (by go_run) (by go_lt) (by go_keeps' [k2, k1, o2, o1]), _, hW, ?_, .inr (.inr ⟨haw, _, _, rfl⟩)⟩
              exact (GoB.slice _ arr h).mono (fun s hs => by cases hs; go_run)
            · have h4' : ((((Xdr.getU32 l1).toNat % 4 : Nat) : Int) == ((0 : Nat) : Int)) = false := by simp; omega
              go_run [k2, k1, d2, d1, hv, hW, hW', four_ne, tmod_four, tmod_pad, h4']
              refine wp_mono (xdrRW_push E k (h2'.mono (by go_run) (by go_run) (by go_run) (by go_lt)) _ _ _ _ (by go_run) (by simp only [List.length_replicate, Int.toNat_natCast]) rfl) ?_
              rintro _ st3 ⟨rfl, w3, hw3, h3', hk3⟩
              go_after hk3 n3 k3 o3 d3
              go_run [k3, d3, k2, d2, k1, d1]
              rw [if_pos (by omega)]
              refine ⟨Post.via (by simp only [next_set, next_push, next_deferring] at hw3; omega) h3' (by go_run) (by go_run) (by go_run) (by go_lt) (by go_keeps' [k3, k2, k1, o3, o2, o1]), _, hW, ?_, .inr (.inr ⟨haw, _, _, rfl⟩)⟩
              exact (GoB.slice _ arr h).mono (fun s hs => by cases hs; go_run [k3])
    | false =>
      simp only [↓reduceIte, Bool.false_eq_true] at *
      subst ho
      cases hg with
      | nil =>
        have hX : Xdr.xdrVarArray ⟨none, false, buf⟩ m none = ((Xdr.xdrRW (Xdr.xdrRW ⟨none, false, buf⟩ (be32 (UInt32.ofNat 0))).1 []).1, none) := by
          have : ¬ ((0 : Nat) > Xdr.maxUint32 ∨ (m ≥ 0 ∧ ((0 : Nat) : Int) > m)) := by simp only [Xdr.maxUint32]; omega
          simp only [Xdr.xdrVarArray, Xdr.encoding, Xdr.goLen, Xdr.goElems, Option.getD, List.length_nil, this, be32_putU32, if_neg]
          simp [Xdr.xdrRW]
        rw [hX]
        rcases (by omega : 0 ≤ m ∨ ¬ 0 ≤ m) with hm0 | hm0
        all_goals
          go_run [hx, hv, Bool.not_eq_true', decide_eq_false_iff_not, be32_length, overwrite_be32]
          refine wp_mono (xdrRW_local E k (h'.mono (by go_run) (by go_run) (by go_run) (by go_lt)) _ _ (be32 (UInt32.ofNat 0))
            (by go_run [ofInt32_0', overwrite_be32]) (by simp only [be32_length]) ?_ ?_ ?_ ?_) ?_
          · go_lt
          · go_ne
          · go_ne
          · go_ne
          rintro _ st1 ⟨rfl, ⟨w1, hw1, h1', hk⟩, hp⟩
          go_after hk n1 k1 o1 d1
          simp only [next_set, next_push, next_deferring] at hw1
          go_run [k1, d1, hv]
          refine wp_mono (xdrRW_nil E k (h1'.mono (by go_run) (by go_run) (by go_run) (by go_lt))) ?_
          rintro _ st2 ⟨rfl, w2, hw2, h2', hk2⟩
          go_after hk2 n2 k2 o2 d2
          go_run [k2, k1, d2, d1, hv, four_ne, tmod_zero]
          refine ⟨Post.via (by omega) h2' (by go_run) (by go_run) (by go_run) (by go_lt) (by go_keeps' [k2, k1, o2, o1]), _, put_at hv, .nil, .inl rfl⟩
      | slice s arr hg =>
        obtain ⟨hs1, hs2, hs3⟩ := hvs s rfl
        have hl := sub_length hg
        have hcase : (4294967295 < (s.len : Int) ∨ (0 ≤ m ∧ m < s.len)) ∨ 
           (¬ 4294967295 < (s.len : Int) ∧ ¬ (0 ≤ m ∧ m < s.len)) := by omega
        rcases hcase with hbad | ⟨ha, hb⟩
        · have hX : Xdr.xdrVarArray ⟨none, false, buf⟩ m (some (sub s arr)) = (⟨some (.msg "var array too large"), false, buf⟩, some (sub s arr)) := by
            have : (sub s arr).length > Xdr.maxUint32 ∨ (m ≥ 0 ∧ ((sub s arr).length : Int) > m) := by simp only [Xdr.maxUint32]; omega
            simp only [Xdr.xdrVarArray, Xdr.encoding, Xdr.goLen, Option.getD, this, Xdr.setError]
            simp
          rw [hX]
          by_cases hc : 4294967295 < (s.len : Int)
          · go_run [hx, hv]
            refine ⟨Post.writer w _ _ (.inl rfl) (by go_run <;> rfl) (.msg _) (hb.mono' hn (fun _ => by go_run)) hn xlt (by go_lt) (by go_keeps), _, put_at hv, ?_, .inl rfl⟩
            exact (GoB.slice _ arr hg).mono (fun s hs => by cases hs; go_run)
          · have hm0 : 0 ≤ m := by omega
            have hm1 : m < s.len := by omega
            go_run [hx, hv, Bool.not_eq_true', decide_eq_false_iff_not]
            refine ⟨Post.writer w _ _ (.inl rfl) (by go_run <;> rfl) (.msg _) (hb.mono' hn (fun _ => by go_run)) hn xlt (by go_lt) (by go_keeps), _, put_at hv, ?_, .inl rfl⟩
            exact (GoB.slice _ arr hg).mono (fun s hs => by cases hs; go_run)
        · have hX : Xdr.xdrVarArray ⟨none, false, buf⟩ m (some (sub s arr)) =
              (if s.len % 4 ≠ 0 then (Xdr.xdrRW (Xdr.xdrRW (Xdr.xdrRW ⟨none, false, buf⟩ (be32 (UInt32.ofNat s.len))).1 (sub s arr)).1 (Xdr.zeros (Xdr.padLen s.len))).1
                else (Xdr.xdrRW (Xdr.xdrRW ⟨none, false, buf⟩ (be32 (UInt32.ofNat s.len))).1 (sub s arr)).1, some (sub s arr)) := by
            have : ¬ (s.len > Xdr.maxUint32 ∨ (m ≥ 0 ∧ (s.len : Int) > m)) := by simp only [Xdr.maxUint32]; omega
            simp only [Xdr.xdrVarArray, Xdr.encoding, Xdr.goLen, Xdr.goElems, Option.getD, hl, this, be32_putU32, if_neg]
            simp only [Option.isSome, Option.isNone, Bool.false_eq_true, ↓reduceIte, Bool.true_and, beq_self_eq_true]
          rw [hX]
          by_cases h4 : s.len % 4 = 0
          · have h4' : (((s.len % 4 : Nat) : Int) == ((0 : Nat) : Int)) = true := by rw [h4]; rfl
            rw [if_neg (by omega)]
            rcases (by omega : ¬ 0 ≤ m ∨ 0 ≤ m ∧ ¬ m < s.len) with hm0 | ⟨hm0, hm1⟩
            all_goals
              go_run [hx, hv, Bool.not_eq_true', decide_eq_false_iff_not, be32_length, overwrite_be32]
              refine wp_mono (xdrRW_local E k (h'.mono (by go_run) (by go_run) (by go_run) (by go_lt)) _ _ (be32 (UInt32.ofNat s.len))
                (by go_run [ofInt32_nat, overwrite_be32]) (by simp only [be32_length]) ?_ ?_ ?_ ?_) ?_
              · go_lt
              · go_ne
              · go_ne
              · go_ne
              rintro _ st1 ⟨rfl, ⟨w1, hw1, h1', hk⟩, hp⟩
              go_after hk n1 k1 o1 d1
              simp only [next_set, next_push, next_deferring] at hw1
              go_run [k1, d1, hv]
              refine wp_mono (xdrRW_enc E k h1' (rw_reader_eq _ _) s arr ⟨by go_run [k1, hg.1], hg.2⟩ (by omega) (by omega) (by omega)) ?_
              rintro _ st2 ⟨rfl, w2, hw2, h2', hk2⟩
              go_after hk2 n2 k2 o2 d2
              go_run [k2, k1, d2, d1, hv, four_ne, tmod_four, h4']
              refine ⟨Post.via (by omega) h2' (by go_run) (by go_run) (by go_run) (by go_lt) (by go_keeps' [k2, k1, o2, o1]), _, put_at hv, ?_, .inl rfl⟩
              exact (GoB.slice _ arr hg).mono (fun s hs => by cases hs; go_run [k2, k1])
          · have h4' : (((s.len % 4 : Nat) : Int) == ((0 : Nat) : Int)) = false := by simp; omega
            rw [if_pos (by omega)]
            rcases (by omega : ¬ 0 ≤ m ∨ 0 ≤ m ∧ ¬ m < s.len) with hm0 | ⟨hm0, hm1⟩
            all_goals
              go_run [hx, hv, Bool.not_eq_true', decide_eq_false_iff_not, be32_length, overwrite_be32]
              refine wp_mono (xdrRW_local E k (h'.mono (by go_run) (by go_run) (by go_run) (by go_lt)) _ _ (be32 (UInt32.ofNat s.len))
                (by go_run [ofInt32_nat, overwrite_be32]) (by simp only [be32_length]) ?_ ?_ ?_ ?_) ?_
              · go_lt
              · go_ne
              · go_ne
              · go_ne
              rintro _ st1 ⟨rfl, ⟨w1, hw1, h1', hk⟩, hp⟩
              go_after hk n1 k1 o1 d1
              simp only [next_set, next_push, next_deferring] at hw1
              go_run [k1, d1, hv]
              refine wp_mono (xdrRW_enc E k h1' (rw_reader_eq _ _) s arr ⟨by go_run [k1, hg.1], hg.2⟩ (by omega) (by omega) (by omega)) ?_
              rintro _ st2 ⟨rfl, w2, hw2, h2', hk2⟩
              go_after hk2 n2 k2 o2 d2
              go_run [k2, k1, d2, d1, hv, four_ne, tmod_four, tmod_pad, h4']
              refine wp_mono (xdrRW_push E k h2' _ _ _ _ rfl (by simp only [List.length_replicate, Int.toNat_natCast]) rfl) ?_
              rintro _ st3 ⟨rfl, w3, hw3, h3', hk3⟩
              go_after hk3 n3 k3 o3 d3
              go_run [k3, k2, k1, d3, d2, d1]
              refine ⟨Post.via (by omega) h3' (by go_run) (by go_run) (by go_run) (by go_lt) (by go_keeps' [k3, k2, k1, o3, o2, o1]), _, put_at hv, ?_, .inl rfl⟩
              exact (GoB.slice _ arr hg).mono (fun s hs => by cases hs; go_run [k3, k2, k1])

end Verif.Lang
