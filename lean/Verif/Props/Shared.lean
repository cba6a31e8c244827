/-
PROPERTY C51: several goroutines using one client.
-/
import Verif.Rpc.Shared
import Verif.Props.EndToEnd
import Verif.Props.Concurrent
import Mathlib.Data.List.Nodup
import Mathlib.Data.List.Perm.Subperm

namespace Verif.Props
open Verif.Xdr Verif.Spec Verif.Rpc

variable {τ : Type}

/-- A client with calls that have not begun. -/
def Fresh (m : Shared τ) : Prop := ∀ J ∈ m.calls, J.phase = .start ∧ J.xid = none ∧ J.seen = []

/-- What call `J`, which was `J₀` at the beginning, has done so far. -/
def CallInv (J₀ J : Calling τ) : Prop :=
  J.resp = J₀.resp ∧
  match J.phase with
  | .start => J.xid = none ∧ J.seen = [] ∧ J.r = J₀.r
  | .loaded _ => J.xid = none ∧ J.seen = [] ∧ J.r = J₀.r
  | .stored => J.xid = none ∧ J.seen = [] ∧ J.r = J₀.r
  | .ready xid _ => J.xid = some xid ∧ J.seen = [] ∧ J.r = J₀.r
  | .header xid got => J.xid = some xid ∧ J.seen = got ∧ got.length ≤ 4 ∧ J.r = J₀.r
  | .body xid n got => J.xid = some xid ∧ n < 2 ^ 31 ∧ J.seen = be 4 (2 ^ 31 + n) ++ got ∧ got.length ≤ n ∧
      J.r = J₀.r
  | .done none => ∃ xid m verf bytes, J.xid = some xid ∧ IsRecord m J.seen ∧
      IsReply xid (.accepted verf (.success bytes)) m ∧
      (J₀.resp (makeReader bytes) J₀.r).1.err = none ∧ J.r = (J₀.resp (makeReader bytes) J₀.r).2
  | .done (some _) => True

/-- All calls. -/
def SharedInv (m₀ m : Shared τ) : Prop :=
  m.calls.length = m₀.calls.length ∧
    ∀ (j : Nat) J₀ J, m₀.calls[j]? = some J₀ → m.calls[j]? = some J → CallInv J₀ J

theorem mark_split (got : List UInt8) (h : got.length = 4)
    (hm : getU32 got &&& ((1 : UInt32) <<< 31) ≠ 0) :
    (getU32 got &&& 0x7fffffff).toNat < 2 ^ 31 ∧ got = be 4 (2 ^ 31 + (getU32 got &&& 0x7fffffff).toNat) := by
  have hx : beVal got < 2 ^ 32 := by have := beVal_lt got; rw [h] at this; omega
  have hb : be 4 (beVal got) = got := by have := be_beVal got; rwa [h] at this
  have hg : getU32 got = UInt32.ofNat (beVal got) := by
    rw [← UInt32.toNat_inj, getU32_toNat h, UInt32.toNat_ofNat', Nat.mod_eq_of_lt hx]
  rw [hg] at hm ⊢
  rw [mark_len hx]
  rw [ne_eq, mark_bit hx] at hm
  refine ⟨by omega, ?_⟩
  rw [show 2 ^ 31 + beVal got % 2 ^ 31 = beVal got by omega, hb]

theorem SharedInv.set {m₀ m m' : Shared τ} {j : Nat} {J J' : Calling τ} (h : SharedInv m₀ m)
    (hj : m.calls[j]? = some J) (hc : m'.calls = m.calls.set j J')
    (hi : ∀ J₀, CallInv J₀ J → CallInv J₀ J') : SharedInv m₀ m' := by
  refine ⟨by rw [hc, List.length_set]; exact h.1, fun k J₀ K h0 hk => ?_⟩
  rw [hc, List.getElem?_set] at hk
  split at hk
  · rename_i e
    subst e
    split at hk
    · cases hk; exact hi _ (h.2 j J₀ J h0 hj)
    · cases hk
  · exact h.2 k J₀ K h0 hk

theorem step_inv {m₀ m m' : Shared τ} {a : CallAct} (h : SharedInv m₀ m) (hs : m.step a = some m') :
    SharedInv m₀ m' := by
  cases a with
  | arrive d => simp only [Shared.step] at hs; cases hs; exact h
  | load j =>
    simp only [Shared.step] at hs
    split at hs
    · rename_i J hj
      split at hs
      · rename_i hp
        cases hs
        refine h.set hj rfl fun J₀ hi => ?_
        simp only [CallInv, hp] at hi ⊢; exact hi
      · cases hs
    · cases hs
  | store j =>
    simp only [Shared.step] at hs
    split at hs
    · rename_i J hj
      split at hs
      · rename_i x hp
        cases hs
        refine h.set hj rfl fun J₀ hi => ?_
        simp only [CallInv, hp] at hi ⊢; exact hi
      · cases hs
    · cases hs
  | fetch j =>
    simp only [Shared.step] at hs
    split at hs
    · rename_i J hj
      split at hs
      · rename_i hp
        split at hs
        · cases hs
          refine h.set hj rfl fun J₀ hi => ?_
          simp only [CallInv, hp] at hi ⊢; exact ⟨hi.1, trivial, hi.2.2⟩
        · cases hs
          refine h.set hj rfl fun J₀ hi => ?_
          simp only [CallInv, hp] at hi ⊢; exact ⟨hi.1, trivial⟩
      · cases hs
    · cases hs
  | write j ok =>
    simp only [Shared.step] at hs
    split at hs
    · rename_i J hj
      split at hs
      · rename_i xid msg hp
        cases ok with
        | true =>
          simp only [if_true] at hs
          cases hs
          refine h.set hj rfl fun J₀ hi => ?_
          simp only [CallInv, hp] at hi ⊢; exact ⟨hi.1, hi.2.1, hi.2.2.1, by simp, hi.2.2.2⟩
        | false =>
          simp only [Bool.false_eq_true, if_false] at hs
          cases hs
          refine h.set hj rfl fun J₀ hi => ?_
          simp only [CallInv, hp] at hi ⊢; exact ⟨hi.1, trivial⟩
      · cases hs
    · cases hs
  | read j n =>
    simp only [Shared.step] at hs
    split at hs
    · rename_i J hj
      split at hs
      · rename_i xid got hp
        split at hs
        · rename_i hn
          cases hs
          refine h.set hj rfl fun J₀ hi => ?_
          simp only [CallInv, hp] at hi ⊢
          obtain ⟨h1, h2, h3, h4, h5⟩ := hi
          refine ⟨h1, h2, by rw [h3], ?_, h5⟩
          rw [List.length_append, List.length_take]; omega
        · cases hs
      · rename_i xid k got hp
        split at hs
        · rename_i hn
          cases hs
          refine h.set hj rfl fun J₀ hi => ?_
          simp only [CallInv, hp] at hi ⊢
          obtain ⟨h1, h2, h3, h4, h5, h6⟩ := hi
          refine ⟨h1, h2, h3, by rw [h4, List.append_assoc], ?_, h6⟩
          rw [List.length_append, List.length_take]; omega
        · cases hs
      · cases hs
    · cases hs
  | eof j =>
    simp only [Shared.step] at hs
    split at hs
    · rename_i J hj
      split at hs
      · rename_i xid got hp
        split at hs
        · cases hs
          refine h.set hj rfl fun J₀ hi => ?_
          simp only [CallInv, hp] at hi ⊢; exact ⟨hi.1, trivial⟩
        · cases hs
      · rename_i xid k got hp
        split at hs
        · cases hs
          refine h.set hj rfl fun J₀ hi => ?_
          simp only [CallInv, hp] at hi ⊢; exact ⟨hi.1, trivial⟩
        · cases hs
      · cases hs
    · cases hs
  | mark j =>
    simp only [Shared.step] at hs
    split at hs
    · rename_i J hj
      split at hs
      · rename_i xid got hp
        split at hs
        · rename_i hl
          split at hs
          · cases hs
            refine h.set hj rfl fun J₀ hi => ?_
            simp only [CallInv, hp] at hi ⊢; exact ⟨hi.1, trivial⟩
          · rename_i hm
            cases hs
            refine h.set hj rfl fun J₀ hi => ?_
            simp only [CallInv, hp] at hi ⊢
            obtain ⟨h1, h2, h3, h4, h5⟩ := hi
            obtain ⟨k1, k2⟩ := mark_split got hl hm
            exact ⟨h1, h2, k1, by rw [h3, List.append_nil]; exact k2, by simp, h5⟩
        · cases hs
      · cases hs
    · cases hs
  | finish j =>
    simp only [Shared.step] at hs
    split at hs
    · rename_i J hj
      split at hs
      · rename_i xid k got hp
        split at hs
        · rename_i hl
          cases hs
          refine h.set hj rfl fun J₀ hi => ?_
          simp only [CallInv, hp] at hi
          obtain ⟨h1, h2, h3, h4, h5, h6⟩ := hi
          refine ⟨h1, ?_⟩
          by_cases hr : ∃ verf bytes, IsReply xid (.accepted verf (.success bytes)) got
          · obtain ⟨verf, bytes, hr⟩ := hr
            rw [parseReply_ok J.resp J.r hr]
            cases he : (J.resp (makeReader bytes) J.r).1.err with
            | some e => simp only [Option.map_some]
            | none =>
              simp only [Option.map_none]
              rw [h1, h6] at he
              exact ⟨xid, got, verf, bytes, h2, ⟨by omega, by rw [h4, hl]⟩, hr, he, by rw [h1, h6]⟩
          · obtain ⟨e, he⟩ := parseReply_other J.resp J.r hr
            rw [he]
            trivial
        · cases hs
      · cases hs
    · cases hs

theorem exec_inv {m₀ : Shared τ} : ∀ (as : List CallAct) (m m' : Shared τ), SharedInv m₀ m →
    m.exec as = some m' → SharedInv m₀ m'
  | [], m, m', h, he => by simp only [Shared.exec] at he; cases he; exact h
  | a :: as, m, m', h, he => by
    simp only [Shared.exec] at he
    obtain ⟨m₁, h1, h2⟩ := Option.bind_eq_some_iff.mp he
    exact exec_inv as m₁ m' (step_inv h h1) h2

/-- However the calls interleave: one that has returned nil has itself read one record, which is a
successful reply carrying its transaction id, and its result variable holds what that reply says. -/
theorem C51_reply (m₀ m : Shared τ) (hf : Fresh m₀) (as : List CallAct) (h : m₀.exec as = some m) (j : Nat)
    (J₀ J : Calling τ) (h0 : m₀.calls[j]? = some J₀) (hj : m.calls[j]? = some J) (hd : J.phase = .done none) :
    ∃ xid b verf bytes, J.xid = some xid ∧ IsRecord b J.seen ∧
      IsReply xid (.accepted verf (.success bytes)) b ∧
      (J₀.resp (makeReader bytes) J₀.r).1.err = none ∧ J.r = (J₀.resp (makeReader bytes) J₀.r).2 := by
  have hi : SharedInv m₀ m₀ := by
    refine ⟨rfl, fun j J₀ J h0 hj => ?_⟩
    rw [h0] at hj; cases hj
    obtain ⟨h1, h2, h3⟩ := hf J₀ (List.mem_of_getElem? h0)
    exact ⟨rfl, by rw [h1]; exact ⟨h2, h3, rfl⟩⟩
  have := ((exec_inv as m₀ m hi h).2 j J₀ J h0 hj).2
  rw [hd] at this
  exact this

/-! Transaction ids -/

/-- In the execution, nothing happens between the parts of `c.xid++; req.Xid = c.xid` of a call. -/
inductive Uninterrupted : List CallAct → Prop
  | nil : Uninterrupted []
  | begin (j : Nat) (as : List CallAct) : Uninterrupted as → Uninterrupted (.load j :: .store j :: .fetch j :: as)
  | write (j : Nat) (ok : Bool) (as : List CallAct) : Uninterrupted as → Uninterrupted (.write j ok :: as)
  | arrive (d : List UInt8) (as : List CallAct) : Uninterrupted as → Uninterrupted (.arrive d :: as)
  | read (j n : Nat) (as : List CallAct) : Uninterrupted as → Uninterrupted (.read j n :: as)
  | eof (j : Nat) (as : List CallAct) : Uninterrupted as → Uninterrupted (.eof j :: as)
  | mark (j : Nat) (as : List CallAct) : Uninterrupted as → Uninterrupted (.mark j :: as)
  | finish (j : Nat) (as : List CallAct) : Uninterrupted as → Uninterrupted (.finish j :: as)

/-- The calls that have a transaction id, in the order in which they got it. -/
structure Ids (x₀ : UInt32) (m : Shared τ) (ord : List Nat) : Prop where
  nodup : ord.Nodup
  xid : m.client.xid = x₀ + UInt32.ofNat ord.length
  has : ∀ i j : Nat, ord[i]? = some j → ∃ J, m.calls[j]? = some J ∧ J.phase ≠ .start ∧
    J.xid = some (x₀ + UInt32.ofNat (i + 1))
  all : ∀ (j : Nat) J, m.calls[j]? = some J → J.xid ≠ none → j ∈ ord

theorem Ids.set {x₀ : UInt32} {m m' : Shared τ} {ord : List Nat} {j : Nat} {J J' : Calling τ} (h : Ids x₀ m ord)
    (hj : m.calls[j]? = some J) (hc : m'.calls = m.calls.set j J') (hx : m'.client = m.client)
    (h1 : J'.xid = J.xid) (h2 : J'.phase ≠ .start) : Ids x₀ m' ord := by
  have hlt : j < m.calls.length := (List.getElem?_eq_some_iff.mp hj).1
  refine ⟨h.nodup, by rw [hx]; exact h.xid, fun i k hi => ?_, fun k K hk hn => ?_⟩
  · obtain ⟨K, k1, k2, k3⟩ := h.has i k hi
    rw [hc, List.getElem?_set]
    split
    · rename_i e; subst e
      rw [hj] at k1; cases k1
      exact ⟨J', by simp, h2, by rw [h1]; exact k3⟩
    · exact ⟨K, k1, k2, k3⟩
  · rw [hc, List.getElem?_set] at hk
    split at hk
    · rename_i e; subst e
      cases hk
      exact h.all j J hj (by rw [← h1]; exact hn)
    · exact h.all k K hk hn

/-- A call that goes through `c.xid++; req.Xid = c.xid` without interruption. -/
theorem Ids.begin {x₀ : UInt32} {m m₁ m₂ m₃ : Shared τ} {ord : List Nat} {j : Nat} (h : Ids x₀ m ord)
    (h1 : m.step (.load j) = some m₁) (h2 : m₁.step (.store j) = some m₂) (h3 : m₂.step (.fetch j) = some m₃) :
    Ids x₀ m₃ (ord ++ [j]) := by
  simp only [Shared.step] at h1
  split at h1
  · rename_i J hj
    have hlt : j < m.calls.length := (List.getElem?_eq_some_iff.mp hj).1
    split at h1
    · rename_i hp
      cases h1
      simp only [Shared.step, Shared.setCall, List.getElem?_set_self hlt] at h2
      cases h2
      have hlt2 : j < (m.calls.set j { J with phase := .loaded m.client.xid }).length := by simpa using hlt
      simp only [Shared.step, Shared.setCall, List.getElem?_set_self hlt2] at h3
      have key : ∃ J' : Calling τ, m₃.calls = m.calls.set j J' ∧ m₃.client.xid = m.client.xid + 1 ∧
          J'.xid = some (m.client.xid + 1) ∧ J'.phase ≠ .start := by
        split at h3
        · cases h3
          exact ⟨_, (List.set_set _).trans (List.set_set _), rfl, rfl, by simp⟩
        · cases h3
          exact ⟨_, (List.set_set _).trans (List.set_set _), rfl, rfl, by simp⟩
      obtain ⟨J', k1, k2, k3, k4⟩ := key
      have hnot : j ∉ ord := by
        intro hm
        obtain ⟨i, hi⟩ := List.getElem?_of_mem hm
        obtain ⟨K, q1, q2, _⟩ := h.has i j hi
        rw [hj] at q1; cases q1
        exact q2 hp
      have hadd : ∀ n : Nat, x₀ + UInt32.ofNat n + 1 = x₀ + UInt32.ofNat (n + 1) := by
        intro n
        rw [UInt32.add_assoc, UInt32.ofNat_add]; rfl
      refine ⟨List.nodup_append.mpr ⟨h.nodup, by simp, by
          intro a ha b hb e
          simp only [List.mem_singleton] at hb
          subst hb; subst e; exact hnot ha⟩, ?_, fun i k hi => ?_, fun k K hk hn => ?_⟩
      · rw [k2, h.xid, List.length_append, List.length_singleton, hadd]
      · rw [List.getElem?_append] at hi
        split at hi
        · obtain ⟨K, q1, q2, q3⟩ := h.has i k hi
          refine ⟨K, ?_, q2, q3⟩
          rw [k1, List.getElem?_set_ne]
          · exact q1
          · rintro rfl; exact hnot (List.mem_of_getElem? hi)
        · rename_i hge
          have hi0 : i - ord.length = 0 := by
            by_contra hne
            rw [List.getElem?_eq_none (by simp only [List.length_singleton]; omega)] at hi
            cases hi
          rw [hi0] at hi
          simp only [List.getElem?_cons_zero, Option.some.injEq] at hi
          subst hi
          refine ⟨J', by rw [k1, List.getElem?_set_self hlt], k4, ?_⟩
          rw [k3, h.xid, hadd, show i = ord.length by omega]
      · rw [List.mem_append, List.mem_singleton]
        by_cases e : k = j
        · exact .inr e
        · rw [k1, List.getElem?_set_ne (Ne.symm e)] at hk
          exact .inl (h.all k K hk hn)
    · cases h1
  · cases h1

theorem Ids.other {x₀ : UInt32} {m m' : Shared τ} {ord : List Nat} {a : CallAct} (h : Ids x₀ m ord)
    (hs : m.step a = some m') (h1 : ∀ j, a ≠ .load j) (h2 : ∀ j, a ≠ .store j) (h3 : ∀ j, a ≠ .fetch j) :
    Ids x₀ m' ord := by
  cases a with
  | load j => exact absurd rfl (h1 j)
  | store j => exact absurd rfl (h2 j)
  | fetch j => exact absurd rfl (h3 j)
  | arrive d => simp only [Shared.step] at hs; cases hs; exact ⟨h.nodup, h.xid, h.has, h.all⟩
  | write j ok =>
    simp only [Shared.step] at hs
    split at hs
    · rename_i J hj
      split at hs
      · cases ok <;> simp only [if_true, Bool.false_eq_true, if_false] at hs <;> cases hs <;>
          exact h.set hj rfl rfl rfl (by simp)
      · cases hs
    · cases hs
  | read j n =>
    simp only [Shared.step] at hs
    split at hs
    · rename_i J hj
      split at hs
      · split at hs
        · cases hs; exact h.set hj rfl rfl rfl (by simp)
        · cases hs
      · split at hs
        · cases hs; exact h.set hj rfl rfl rfl (by simp)
        · cases hs
      · cases hs
    · cases hs
  | eof j =>
    simp only [Shared.step] at hs
    split at hs
    · rename_i J hj
      split at hs
      · split at hs
        · cases hs; exact h.set hj rfl rfl rfl (by simp)
        · cases hs
      · split at hs
        · cases hs; exact h.set hj rfl rfl rfl (by simp)
        · cases hs
      · cases hs
    · cases hs
  | mark j =>
    simp only [Shared.step] at hs
    split at hs
    · rename_i J hj
      split at hs
      · split at hs
        · split at hs
          · cases hs; exact h.set hj rfl rfl rfl (by simp)
          · cases hs; exact h.set hj rfl rfl rfl (by simp)
        · cases hs
      · cases hs
    · cases hs
  | finish j =>
    simp only [Shared.step] at hs
    split at hs
    · rename_i J hj
      split at hs
      · split at hs
        · cases hs; exact h.set hj rfl rfl rfl (by simp)
        · cases hs
      · cases hs
    · cases hs

theorem Ids.exec {x₀ : UInt32} : ∀ {as : List CallAct} (_ : Uninterrupted as) {m m' : Shared τ} {ord : List Nat},
    Ids x₀ m ord → m.exec as = some m' → ∃ ord', Ids x₀ m' ord' := by
  intro as hu
  induction hu with
  | nil => intro m m' ord h he; simp only [Shared.exec] at he; cases he; exact ⟨_, h⟩
  | begin j as _ ih =>
    intro m m' ord h he
    simp only [Shared.exec] at he
    obtain ⟨m₁, h1, he⟩ := Option.bind_eq_some_iff.mp he
    obtain ⟨m₂, h2, he⟩ := Option.bind_eq_some_iff.mp he
    obtain ⟨m₃, h3, he⟩ := Option.bind_eq_some_iff.mp he
    exact ih (h.begin h1 h2 h3) he
  | write j ok as _ ih | arrive d as _ ih | read j n as _ ih | eof j as _ ih | mark j as _ ih | finish j as _ ih =>
    intro m m' ord h he
    simp only [Shared.exec] at he
    obtain ⟨m₁, h1, he⟩ := Option.bind_eq_some_iff.mp he
    exact ih (h.other h1 (by simp) (by simp) (by simp)) he

/-- If `c.xid++; req.Xid = c.xid` of each call is not interrupted by other calls, fewer than `2^32`
calls have different transaction ids. -/
theorem C51_distinct (m₀ m : Shared τ) (hf : Fresh m₀) (as : List CallAct) (hu : Uninterrupted as)
    (h : m₀.exec as = some m) (hn : m.calls.length < 2 ^ 32) (j j' : Nat) (J J' : Calling τ)
    (hj : m.calls[j]? = some J) (hj' : m.calls[j']? = some J') (hne : j ≠ j') (x : UInt32)
    (hx : J.xid = some x) : J'.xid ≠ some x := by
  have h0 : Ids m₀.client.xid m₀ [] :=
    ⟨List.nodup_nil, by simp, by simp, fun j J hj hn => absurd (hf J (List.mem_of_getElem? hj)).2.1 hn⟩
  obtain ⟨ord, hi⟩ := Ids.exec hu h0 h
  intro hx'
  have hlen : ord.length ≤ m.calls.length := by
    have hsub : ord ⊆ List.range m.calls.length := by
      intro k hk
      obtain ⟨i, hik⟩ := List.getElem?_of_mem hk
      obtain ⟨K, q, _⟩ := hi.has i k hik
      exact List.mem_range.mpr (List.getElem?_eq_some_iff.mp q).1
    have := (hi.nodup.subperm hsub).length_le
    simpa using this
  obtain ⟨a, ha⟩ := List.getElem?_of_mem (hi.all j J hj (by rw [hx]; simp))
  obtain ⟨b, hb⟩ := List.getElem?_of_mem (hi.all j' J' hj' (by rw [hx']; simp))
  obtain ⟨K, q1, _, q3⟩ := hi.has a j ha
  rw [hj] at q1; cases q1
  obtain ⟨K', r1, _, r3⟩ := hi.has b j' hb
  rw [hj'] at r1; cases r1
  rw [hx] at q3; rw [hx'] at r3
  have hal := (List.getElem?_eq_some_iff.mp ha).1
  have hbl := (List.getElem?_eq_some_iff.mp hb).1
  have e : m₀.client.xid + UInt32.ofNat (a + 1) = m₀.client.xid + UInt32.ofNat (b + 1) := by
    rw [← Option.some.injEq, ← q3, ← r3]
  have e2 := (UInt32.add_right_inj _).mp e
  rw [← UInt32.toNat_inj, UInt32.toNat_ofNat', UInt32.toNat_ofNat', Nat.mod_eq_of_lt (by omega),
    Nat.mod_eq_of_lt (by omega)] at e2
  have : a = b := by omega
  subst this
  rw [ha] at hb
  exact hne (Option.some.inj hb)

/-! What goes wrong: two calls to the server of `demoRegs`, adding 5 and 7 to a counter that is 37. -/

/-- A call of procedure 3 with argument `x` and a result variable of type `uint32`. -/
def adding (x : UInt32) : Calling UInt32 :=
  ⟨3, .zero, .zero, fun wr => (xdrU32 wr x).1, xdrU32, 0, .start, none, []⟩

def sharedStart : Shared UInt32 := ⟨makeClient 7 1, [adding 5, adding 7], [], []⟩

theorem sharedStart_fresh : Fresh sharedStart := by
  intro J hJ
  simp only [sharedStart, List.mem_cons, List.not_mem_nil, or_false] at hJ
  rcases hJ with rfl | rfl <;> exact ⟨rfl, rfl, rfl⟩

def phaseErr : CallPhase → Option (Option CallErr)
  | .done e => some e
  | _ => none

/-- What the examples look at: how the calls ended, their result variables, and what was written. -/
structure SharedSummary where
  ends : List (Option (Option CallErr))
  results : List UInt32
  written : List (List UInt8)
  deriving DecidableEq

def Shared.summary (m : Shared UInt32) : SharedSummary :=
  ⟨m.calls.map fun J => phaseErr J.phase, m.calls.map (·.r), m.written⟩

/-- Both calls execute `c.xid++` at the same time. -/
def racing (reply : List UInt8) : List CallAct :=
  [.load 0, .load 1, .store 0, .store 1, .fetch 0, .fetch 1, .write 0 true, .write 1 true, .arrive reply,
   .read 1 4, .mark 1, .read 1 28, .finish 1, .read 0 4, .mark 0, .read 0 28, .finish 0]

/-- They do not, but the second one is the first to read. -/
def crossing (reply : List UInt8) : List CallAct :=
  [.load 0, .store 0, .fetch 0, .load 1, .store 1, .fetch 1, .write 0 true, .write 1 true, .arrive reply,
   .read 1 4, .mark 1, .read 1 28, .finish 1, .read 0 4, .mark 0, .read 0 28, .finish 0]

/-- The request and the reply of such a call. -/
def addRequest (xid x : UInt8) : List UInt8 :=
  [128, 0, 0, 44, 0, 0, 0, xid, 0, 0, 0, 0, 0, 0, 0, 2, 0, 0, 0, 7, 0, 0, 0, 1, 0, 0, 0, 3,
   0, 0, 0, 0, 0, 0, 0, 0, 0, 0, 0, 0, 0, 0, 0, 0, 0, 0, 0, x]
def addAnswer (xid x : UInt8) : List UInt8 :=
  [128, 0, 0, 28, 0, 0, 0, xid, 0, 0, 0, 1, 0, 0, 0, 0, 0, 0, 0, 0, 0, 0, 0, 0, 0, 0, 0, 0, 0, 0, 0, x]

/-- Two calls on one client at the same time can end without an error, each with the other's result:
the server answers the first call (which adds 5) with 42 and the second one (which adds 7) with 49;
the first call returns 49 and the second one 42. -/
theorem C51_swapped : ∃ (as : List CallAct) (m : Shared UInt32) (w₀ w₁ rep₀ rep₁ : List UInt8),
    serve (registerMany makeServer demoRegs) [w₀] 37 = (42, rep₀) ∧
    serve (registerMany makeServer demoRegs) [w₁] 42 = (49, rep₁) ∧
    .arrive (rep₀ ++ rep₁) ∈ as ∧ sharedStart.exec as = some m ∧ m.written = [w₀, w₁] ∧
    m.calls.map (fun J => phaseErr J.phase) = [some none, some none] ∧ m.calls.map (·.r) = [49, 42] := by
  have h : (sharedStart.exec (racing (addAnswer 1 42 ++ addAnswer 1 49))).map Shared.summary =
      some ⟨[some none, some none], [49, 42], [addRequest 1 5, addRequest 1 7]⟩ := by
    decide +kernel
  obtain ⟨m, hm, h⟩ := Option.map_eq_some_iff.mp h
  simp only [Shared.summary, SharedSummary.mk.injEq] at h
  refine ⟨_, m, addRequest 1 5, addRequest 1 7, addAnswer 1 42, addAnswer 1 49, by decide +kernel,
    by decide +kernel, by simp [racing], hm, h.2.2, h.1, h.2.1⟩

/-- With different transaction ids neither call succeeds if the replies are read by the wrong calls,
although the server has answered both. -/
theorem C51_mismatch : ∃ (as : List CallAct) (m : Shared UInt32) (w₀ w₁ rep₀ rep₁ : List UInt8),
    Uninterrupted as ∧
    serve (registerMany makeServer demoRegs) [w₀] 37 = (42, rep₀) ∧
    serve (registerMany makeServer demoRegs) [w₁] 42 = (49, rep₁) ∧
    .arrive (rep₀ ++ rep₁) ∈ as ∧ sharedStart.exec as = some m ∧ m.written = [w₀, w₁] ∧
    m.calls.map (fun J => phaseErr J.phase) = [some (some (.xidMismatch 2 1)), some (some (.xidMismatch 1 2))] ∧
    m.calls.map (·.r) = [0, 0] := by
  have h : (sharedStart.exec (crossing (addAnswer 1 42 ++ addAnswer 2 49))).map Shared.summary =
      some ⟨[some (some (.xidMismatch 2 1)), some (some (.xidMismatch 1 2))], [0, 0],
        [addRequest 1 5, addRequest 2 7]⟩ := by
    decide +kernel
  obtain ⟨m, hm, h⟩ := Option.map_eq_some_iff.mp h
  simp only [Shared.summary, SharedSummary.mk.injEq] at h
  refine ⟨_, m, addRequest 1 5, addRequest 2 7, addAnswer 1 42, addAnswer 2 49, ?_, by decide +kernel,
    by decide +kernel, by simp [crossing], hm, h.2.2, h.1, h.2.1⟩
  · exact .begin _ _ (.begin _ _ (.write _ _ _ (.write _ _ _ (.arrive _ _ (.read _ _ _ (.mark _ _ (.read _ _ _
      (.finish _ _ (.read _ _ _ (.mark _ _ (.read _ _ _ (.finish _ _ .nil))))))))))))

end Verif.Props
