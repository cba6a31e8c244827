/-
Property C31: the server's reader splits the byte stream into records, however the transport cuts it
into pieces.  `Stream` is the specification (RFC 1057 §10) in `Verif.Spec.Rpc`.
-/
import Verif.Rpc.StreamLemmas

namespace Verif.Props
open Verif.Xdr Verif.Spec Verif.Rpc

/-- How `Run` reports the ways a stream may end.  A connection closed inside a record is an
`io.ErrUnexpectedEOF`, or `io.EOF` when it is closed right after a record mark. -/
def Reported : StreamEnd → RunErr → Prop
  | .clean, e => e = .read .eof
  | .fragment, e => e = .fragment
  | .truncated, e => e = .read .unexpectedEOF ∨ e = .read .eof

theorem runN_stream {b : List UInt8} {ms : List (List UInt8)} {e : StreamEnd} (h : Stream b ms e) :
    ∃ err, Reported e err ∧ ∀ (k : Nat) (cs : Chunks), cs.flatten = b → b.length < k →
      runN k cs = (ms, some err) := by
  induction h with
  | clean =>
    refine ⟨_, rfl, fun k cs hc hk => ?_⟩
    obtain ⟨k, rfl⟩ : ∃ j, k = j + 1 := ⟨k - 1, by omega⟩
    have h1 := readRequest_short (cs := cs) (by rw [hc]; simp)
    rw [hc] at h1
    rw [runN]
    generalize readRequest cs = x at h1
    obtain ⟨x1, x2⟩ := x
    simp only at h1; subst h1; rfl
  | short b h0 h4 =>
    refine ⟨.read .unexpectedEOF, .inl rfl, fun k cs hc hk => ?_⟩
    obtain ⟨k, rfl⟩ : ∃ j, k = j + 1 := ⟨k - 1, by omega⟩
    have h1 := readRequest_short (cs := cs) (by rw [hc]; exact h4)
    have h2 : b.isEmpty = false := by cases b <;> simp_all
    rw [hc, h2] at h1
    rw [runN]
    generalize readRequest cs = x at h1
    obtain ⟨x1, x2⟩ := x
    simp only at h1; subst h1; rfl
  | fragment n rest hn =>
    refine ⟨_, rfl, fun k cs hc hk => ?_⟩
    obtain ⟨k, rfl⟩ : ∃ j, k = j + 1 := ⟨k - 1, by omega⟩
    have h1 := readRequest_fragment hc hn
    rw [runN]
    generalize readRequest cs = x at h1
    obtain ⟨x1, x2⟩ := x
    simp only at h1; subst h1; rfl
  | shortBody n part hn hp =>
    refine ⟨.read (if part.isEmpty then .eof else .unexpectedEOF), ?_, fun k cs hc hk => ?_⟩
    · cases part.isEmpty
      · exact .inl rfl
      · exact .inr rfl
    obtain ⟨k, rfl⟩ : ∃ j, k = j + 1 := ⟨k - 1, by omega⟩
    have h1 := readRequest_shortBody hc hn hp
    rw [runN]
    generalize readRequest cs = x at h1
    obtain ⟨x1, x2⟩ := x
    simp only at h1; subst h1; rfl
  | record m r rest ms e hr hs ih =>
    obtain ⟨err, he, ih⟩ := ih
    refine ⟨err, he, fun k cs hc hk => ?_⟩
    obtain ⟨k, rfl⟩ : ∃ j, k = j + 1 := ⟨k - 1, by omega⟩
    obtain ⟨cs', h1, h2⟩ := readRequest_record hr hc
    have hlen : 4 ≤ r.length := by rw [hr.2]; simp [be_length]
    have := ih k cs' h2 (by simp at hk; omega)
    simp only [runN, h1, this]

/-- The requests handled are the records of the stream, and the error returned tells how it ended. -/
theorem C31_records (cs : Chunks) (ms : List (List UInt8)) (e : StreamEnd) (h : Stream cs.flatten ms e) :
    (Rpc.run cs).1 = ms ∧ ∃ err, (Rpc.run cs).2 = some err ∧ Reported e err := by
  obtain ⟨err, he, hr⟩ := runN_stream h
  rw [Rpc.run, hr (cs.total + 1) cs rfl (by rw [total_eq]; omega)]
  exact ⟨rfl, err, rfl, he⟩

/-- Every byte stream has such a decomposition, so the previous theorem always applies, and it is
unique. -/
theorem C31_decomposition (b : List UInt8) : ∃ ms, (∃ e, Stream b ms e) ∧
    ∀ ms' e', Stream b ms' e' → ms' = ms := by
  obtain ⟨ms, e, h⟩ := stream_total b
  refine ⟨ms, ⟨e, h⟩, fun ms' e' h' => ?_⟩
  have h1 := (C31_records [b] ms e (by simpa using h)).1
  have h2 := (C31_records [b] ms' e' (by simpa using h')).1
  rw [← h2, h1]

/-- Only the bytes matter, not how they are cut into pieces. -/
theorem C31_chunking (cs cs' : Chunks) (h : cs.flatten = cs'.flatten) : Rpc.run cs = Rpc.run cs' := by
  obtain ⟨ms, e, hs⟩ := stream_total cs.flatten
  obtain ⟨err, he, hr⟩ := runN_stream hs
  rw [Rpc.run, Rpc.run, hr _ cs rfl (by rw [total_eq]; omega), hr _ cs' h.symm (by rw [total_eq, h]; omega)]

private theorem stream_append {b : List UInt8} {ms : List (List UInt8)} {e : StreamEnd} (h : Stream b ms e)
    (more : List UInt8) : ∃ ms' e', Stream (b ++ more) (ms ++ ms') e' := by
  induction h with
  | record m r rest ms e hr hs ih =>
    obtain ⟨ms', e', h⟩ := ih
    exact ⟨ms', e', by rw [List.append_assoc]; exact .record m r _ _ e' hr h⟩
  | clean => exact stream_total _
  | short => exact stream_total _
  | fragment => exact stream_total _
  | shortBody => exact stream_total _

/-- Requests are handed out as they arrive: what follows does not change the requests before it. -/
theorem C31_online (cs more : Chunks) : (Rpc.run cs).1 <+: (Rpc.run (cs ++ more)).1 := by
  obtain ⟨ms, e, hs⟩ := stream_total cs.flatten
  obtain ⟨ms', e', hs'⟩ := stream_append hs more.flatten
  rw [(C31_records cs ms e hs).1, (C31_records (cs ++ more) _ e' (by simpa using hs')).1]
  exact ⟨ms', rfl⟩

/-- Two records in pieces that cut through marks and bodies, then a fragment that is not the last. -/
def demoChunks : Chunks :=
  [[128, 0], [], [0, 3, 7], [8, 9, 128, 0, 0], [0], [0, 0, 0, 1, 5]]

example : Rpc.run demoChunks = ([[7, 8, 9], []], some .fragment) := by decide +kernel

example : Stream demoChunks.flatten [[7, 8, 9], []] .fragment :=
  .record [7, 8, 9] [128, 0, 0, 3, 7, 8, 9] [128, 0, 0, 0, 0, 0, 0, 1, 5] _ _ ⟨by decide, by decide⟩
    (.record [] [128, 0, 0, 0] [0, 0, 0, 1, 5] _ _ ⟨by decide, by decide⟩ (.fragment 1 [5] (by decide)))

/-- A connection closed right after a record mark is reported like one closed between records. -/
theorem C31_eof_ambiguous : ∃ b, Stream b [] .truncated ∧ (Rpc.run [b]).2 = some (.read .eof) ∧
    (Rpc.run []).2 = some (.read .eof) :=
  ⟨[128, 0, 0, 1], .shortBody 1 [] (by decide) (by decide), by decide +kernel, by decide +kernel⟩

end Verif.Props
