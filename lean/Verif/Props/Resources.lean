/-
PROPERTY C52: what peers can make the server allocate.
-/
import Verif.Props.Concurrent

namespace Verif.Props
open Verif.Xdr Verif.Spec Verif.Rpc

variable {σ : Type} {hs : Nat → Handlers σ} {whole : Bool} {inp : Nat → List UInt8} {s : σ}

/-- Is the action the end of a record mark? -/
def isMark : Act → Bool
  | .mark _ _ => true
  | _ => false

theorem getReqBuf_bounds (m : Machine σ) (c : Option Nat) (n : Nat) (hn : n < 2 ^ 31)
    (h : ∀ i, (m.heap i).length < 2 ^ 31) :
    (∀ i, ((getReqBuf m c n).1.heap i).length < 2 ^ 31) ∧ (getReqBuf m c n).1.next ≤ m.next + 1 := by
  have hup : ∀ i, (upd m.heap m.next (zeros n) i).length < 2 ^ 31 := by
    intro i
    simp only [upd]
    split
    · simpa using hn
    · exact h i
  unfold getReqBuf
  split
  · dsimp only
    split
    · exact ⟨h, Nat.le_succ _⟩
    · exact ⟨hup, Nat.le_refl _⟩
  · exact ⟨hup, Nat.le_refl _⟩

theorem writeAt_length (b : List UInt8) (off : Nat) (d : List UInt8) (h : off + d.length ≤ b.length) :
    (writeAt b off d).length = b.length := by
  simp only [writeAt, List.length_append, List.length_take, List.length_drop]; omega

theorem mark_lt (got : List UInt8) : (getU32 got &&& 0x7fffffff).toNat < 2 ^ 31 := by
  rw [UInt32.toNat_and]
  exact Nat.lt_of_le_of_lt Nat.and_le_right (by decide)

theorem step_bounds {m m' : Machine σ} {a : Act} (ho : ∃ o, Owns m o) (h : step hs whole m a = some m')
    (hb : ∀ i, (m.heap i).length < 2 ^ 31) :
    (∀ i, (m'.heap i).length < 2 ^ 31) ∧ m'.next ≤ m.next + (if isMark a then 1 else 0) := by
  have hnext : isMark a = false → m'.next = m.next := by
    intro ha
    cases a with
    | mark k c => cases ha
    | _ =>
      simp only [step] at h
      repeat' (first | (cases h; done) | (cases h; rfl) | split at h)
  have hle : m'.next ≤ m.next + (if isMark a then 1 else 0) := by
    cases ha : isMark a with
    | false => rw [hnext ha]; simp
    | true =>
      cases a with
      | mark k c =>
        simp only [step] at h
        split at h
        · split at h
          · split at h
            · cases h; simp [Machine.setConn]
            · cases h
              exact (getReqBuf_bounds m c _ (mark_lt _) hb).2
          · cases h
        · cases h
      | _ => cases ha
  refine ⟨?_, hle⟩
  obtain ⟨o, ho⟩ := ho
  cases step_sound h with
  | readBody k n b got hp h1 h2 h3 =>
    obtain ⟨_, _, q1, q2, _⟩ := ho.conn k b got hp
    intro i
    show (upd m.heap b.id _ i).length < _
    simp only [upd]
    split
    · rw [writeAt_length _ _ _ (by rw [List.length_take]; omega)]; exact hb _
    · exact hb i
  | buf k c got hp h1 h2 => exact (getReqBuf_bounds m c _ (mark_lt _) hb).1
  | _ => exact hb

/-- Whatever peers send and however it is scheduled: no request buffer has more than `2^31 - 1` bytes,
and at most one is allocated for each record mark received. -/
theorem C52_bounds (as : List Act) (m : Machine σ) (h : exec hs whole (start inp s) as = some m) :
    (∀ i, (m.heap i).length < 2 ^ 31) ∧ m.next ≤ (as.filter isMark).length := by
  suffices H : ∀ (as : List Act) (m₀ m : Machine σ), (∃ o, Owns m₀ o) → (∀ i, (m₀.heap i).length < 2 ^ 31) →
      exec hs whole m₀ as = some m →
      (∀ i, (m.heap i).length < 2 ^ 31) ∧ m.next ≤ m₀.next + (as.filter isMark).length by
    have := H as (start inp s) m (exec_owns (hs := hs) (whole := whole) (as := []) (s := s) (inp := inp) rfl)
      (fun i => by simp [start]) h
    simpa [start] using this
  intro as
  induction as with
  | nil => intro m₀ m _ hb he; cases he; exact ⟨hb, by simp⟩
  | cons a as ih =>
    intro m₀ m ho hb he
    simp only [exec] at he
    obtain ⟨m₁, h1, he⟩ := Option.bind_eq_some_iff.mp he
    obtain ⟨b1, b2⟩ := step_bounds ho h1 hb
    obtain ⟨c1, c2⟩ := ih m₁ m (step_owns ho (step_sound h1)) b1 he
    refine ⟨c1, ?_⟩
    simp only [List.filter_cons]
    cases ha : isMark a <;> rw [ha] at b2 <;> simp at b2 ⊢ <;> omega

/-- Four bytes from one peer are enough for any of these sizes. -/
theorem C52_alloc (n : Nat) (hn : n < 2 ^ 31) (hin : inp 0 = be 4 (2 ^ 31 + n)) :
    ∃ as m, exec hs whole (start inp s) as = some m ∧ m.next = 1 ∧ (m.heap 0).length = n := by
  have hlen : (be 4 (2 ^ 31 + n)).length = 4 := be_length _ _
  have hg : getU32 (be 4 (2 ^ 31 + n)) &&& ((1 : UInt32) <<< 31) ≠ 0 := by
    rw [getU32_be, Ne, mark_bit (by omega)]; omega
  have hl : (getU32 (be 4 (2 ^ 31 + n)) &&& 0x7fffffff).toNat = n := by
    rw [getU32_be, mark_len (by omega)]; omega
  generalize be 4 (2 ^ 31 + n) = w at *
  have h1 : step hs whole (start inp s) (.read 0 4) = some ((start inp s).setConn 0
      { (start inp s).conns 0 with phase := .header (w), input := [] }) := by
    simp only [step, start, hin, hlen]
    simp
    rw [List.take_of_length_le (by omega), List.drop_eq_nil_of_le (by omega)]
  have h2 : step hs whole ((start inp s).setConn 0
      { (start inp s).conns 0 with phase := .header (w), input := [] }) (.mark 0 none) =
      some ((getReqBuf ((start inp s).setConn 0
        { (start inp s).conns 0 with phase := .header (w), input := [] }) none n).1.setConn 0
        { (start inp s).conns 0 with phase := .body ⟨0, n⟩ [], input := [] }) := by
    simp only [step, Machine.setConn, upd_same, hlen, if_true, hg, if_false, hl]
    rfl
  refine ⟨[.read 0 4, .mark 0 none], _, by rw [exec, h1]; simp only [Option.bind_some, exec, h2]; rfl, rfl, ?_⟩
  simp [Machine.setConn, getReqBuf, start]

/-- There is no limit on the number of requests in progress: for every `N`, a peer that sends `N`
empty records (4 bytes each) may have as many goroutines running. -/
theorem C52_goroutines (N : Nat) (hin : inp 0 = (List.replicate N (be 4 (2 ^ 31))).flatten) :
    ∃ as m, exec hs whole (start inp s) as = some m ∧ m.jobs.length = N ∧
      ∀ J ∈ m.jobs, J.conn = 0 ∧ J.phase.live = true := by
  suffices H : ∀ (k : Nat) (m : Machine σ), (m.conns 0).phase = .header [] →
      (m.conns 0).input = (List.replicate k (be 4 (2 ^ 31))).flatten →
      (∀ J ∈ m.jobs, J.conn = 0 ∧ J.phase.live = true) →
      ∃ as m', exec hs whole m as = some m' ∧ m'.jobs.length = m.jobs.length + k ∧
        ∀ J ∈ m'.jobs, J.conn = 0 ∧ J.phase.live = true by
    obtain ⟨as, m, h1, h2, h3⟩ := H N (start inp s) rfl hin (by simp [start])
    exact ⟨as, m, h1, by simpa [start] using h2, h3⟩
  intro k
  induction k with
  | zero => intro m _ _ hj; exact ⟨[], m, rfl, rfl, hj⟩
  | succ k ih =>
    intro m hp hi hj
    obtain ⟨m₁, ⟨a₁, e₁⟩, _, _, _, g3, g4, g5⟩ := read_record (hs := hs) (whole := whole) (m := m) (k := 0)
      (r := []) (rest := (List.replicate k (be 4 (2 ^ 31))).flatten) none (by simp) hp
      (by rw [hi, List.replicate_succ]; simp)
    obtain ⟨a₂, m₂, e₂, q1, q2⟩ := ih m₁ g4 g5 (by
      intro J hJ
      rw [g3, List.mem_append, List.mem_singleton] at hJ
      rcases hJ with hJ | rfl
      · exact hj J hJ
      · exact ⟨rfl, rfl⟩)
    refine ⟨a₁ ++ a₂, m₂, by rw [exec_append, e₁]; exact e₂, ?_, q2⟩
    rw [q1, g3, List.length_append, List.length_singleton]; omega

end Verif.Props
