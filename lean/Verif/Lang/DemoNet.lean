/-
A concrete environment for the text of rfc1057/server.go: a connection, a buffer pool, and the handlers of the server of
Verif.Props.Server (`demoRegs`).  It shows that what the theorems of Verif.Lang assume of the environment can be met.
-/
import Verif.Lang.SeqSpec
import Verif.Lang.TypesSpec
import Verif.Props.Server
namespace Verif.Lang
open Verif.Xdr (XErr XdrState)
open Verif.Rpc
set_option linter.unusedSimpArgs false


variable [Others]

/-- The connection, the pool and the log. -/
structure Net where
  input : Chunks
  sent : List (List UInt8)
  ok : Bool
  pool : Option Slice
  log : List V

def netWire : Wire Net := ⟨Net.input, Net.sent, Net.ok⟩

/-- For the library, which needs nothing. -/
def libExt : Ext Net := ⟨fun _ _ => stop .stuck, fun _ _ => stop .stuck, fun _ n => n, 0⟩

def netWrite (s : Slice) : M Net (List V) := fun st =>
  match st.at s.base with
  | some (.bytes arr) => .ok ([.int s.len, if st.world.ok then .nil else .err (strBytes "broken pipe") []],
      { st with world := { st.world with sent := st.world.sent ++ [sub s arr] } })
  | _ => .error (.stuck, st)

def netRead (s : Slice) : M Net (List V) := fun st =>
  match st.at s.base with
  | some (.bytes arr) =>
    match readFull s.len st.world.input with
    | (.ok b, rest) => .ok ([.int s.len, .nil], { (st.set s.base.id (.bytes (overwrite arr s.off b))) with world := { st.world with input := rest } })
    | (.error e, rest) => .ok ([.int 0, ioErr e], { st with world := { st.world with input := rest } })
  | _ => .error (.stuck, st)

def netGet : M Net (List V) := fun st =>
  match st.world.pool with
  | none => .ok ([.nil], st)
  | some s => .ok ([.slice s], { st with world := { st.world with pool := none } })

/-- A pool may forget what it is given; this one forgets what is not a byte slice, and the buffer it had. -/
def netPut (v : V) : M Net (List V) := fun st =>
  match v with
  | .slice s =>
    match st.at s.base with
    | some (.bytes arr) =>
      if s.off + s.cap ≤ arr.length ∧ s.len ≤ s.cap then .ok ([], { st with world := { st.world with pool := some s } }) else .ok ([], st)
    | _ => .ok ([], st)
  | _ => .ok ([], st)

def netLog (v : V) : M Net (List V) := fun st => .ok ([], { st with world := { st.world with log := st.world.log ++ [v] } })

/-- `addHandler` of Verif.Props.Server; the counter is in the cell 0. -/
def netAdd (args : V) : M Net (List V) := do
  let t ← alloc (.u32 0)
  let _ ← callN goProg libExt 3 (.meth "xdr.Uint32" "Xdr") [.ptr "xdr.Uint32" ⟨t, []⟩, args]
  let e ← callN goProg libExt 1 (.meth "xdr.XdrState" "Error") [args]
  match e with
  | [.nil] => do
    match ← load ⟨t, []⟩ with
    | .u32 x => do
      match ← load ⟨0, []⟩ with
      | .u32 y => do
        store ⟨0, []⟩ (.u32 (y + x))
        let r ← alloc (.u32 (y + x))
        pure [.ptr "xdr.Uint32" ⟨r, []⟩, .nil]
      | _ => stop .stuck
    | _ => stop .stuck
  | [e] => pure [.nil, e]
  | _ => stop .stuck

def netExt : String → List V → M Net (List V)
  | "Write", [_, .slice s] => netWrite s
  | "io.ReadFull", [_, .slice s] => netRead s
  | "Get", _ => netGet
  | "Put", [_, b] => netPut b
  | "fmt.Fprintf", [_, _, e] => netLog e
  | "()", [.obj 1, args] => netAdd args
  | "()", [.obj 2, _] => pure [.nil, .err (strBytes "no") []]
  | _, _ => stop .stuck

def net : Ext Net := ⟨netExt, fun _ _ => stop .stuck, fun _ n => n, 1000⟩

/-- The application: the counter is in the cell 0, and the array of the pooled buffer belongs to nobody else. -/
structure NetInv (app : Nat → Prop) (st : St Net) (y : UInt32) : Prop where
  counter : st.heap 0 = .u32 y
  lt : 0 < st.next
  pool : ∀ s, st.world.pool = some s → s.base.path = [] ∧ (∃ arr, ArrAt st s arr) ∧ s.base.id < st.next ∧ s.base.id ≠ 0
  cells : ∀ j, app j ↔ j = 0 ∨ ∃ s, st.world.pool = some s ∧ j = s.base.id

theorem wp_of {ω α : Type} {m : M ω α} {Q : α → St ω → Prop} {st : St ω} (a : α) (st' : St ω) (h : m st = .ok (a, st')) (hq : Q a st') : wp m Q st := 
  wp_iff.2 ⟨a, st', h, hq⟩

theorem sub_overwrite {s : Slice} {arr b : List UInt8} {st : St Net} (h : ArrAt st s arr) (hb : b.length = s.len) : sub s (overwrite arr s.off b) = b := by
  obtain ⟨_, h1, h2⟩ := h
  have hl : (arr.take s.off).length = s.off := by rw [List.length_take]; omega
  simp only [sub, overwrite]
  rw [List.append_assoc, List.drop_append, List.drop_eq_nil_of_le (by omega), hl, Nat.sub_self, List.drop_zero, List.nil_append,
    List.take_append, hb, List.take_of_length_le (by omega), Nat.sub_self, List.take_zero, List.append_nil]

theorem net_transport : Transport net netWire (.obj 0) := by
  refine ⟨⟨0, rfl⟩, fun st s arr ha => ?_, fun st s arr ha hp => ?_⟩
  · refine wp_of _ _ (by show netWrite s st = _; simp only [netWrite, St.at, ha.1]; rfl) ?_
    refine ⟨_, _, rfl, ?_, rfl, rfl, fun j hj => rfl, Nat.le_refl _, rfl⟩
    show if st.world.ok = true then _ else _
    split
    · rfl
    · exact ⟨_, _, rfl⟩
  · obtain ⟨⟨id, p⟩, off, len, cap⟩ := s
    cases hp
    rcases hr : readFull len st.world.input with ⟨r, rest⟩
    cases r with
    | ok b =>
      have hb := readFull_length hr
      refine wp_of _ _ (by show netRead _ st = _; simp only [netRead, St.at, ha.1, hr]; rfl) ?_
      have hlen : (overwrite arr off b).length = arr.length := overwrite_length _ _ _ (by have h1 := ha.2.1; have h2 := ha.2.2; dsimp only at h1 h2; omega)
      refine ⟨_, _, overwrite arr off b, rfl, hlen, ⟨by simp [St.set, V.at], by rw [hlen]; exact ha.2.1, ha.2.2⟩, ?_, rfl, ?_, fun j hj hn => ?_, Nat.le_refl _, rfl⟩
      · show match (readFull len st.world.input).1 with | .ok b' => _ | .error x => _
        rw [hr]
        exact ⟨rfl, sub_overwrite ha hb⟩
      · show rest = (readFull len st.world.input).2
        rw [hr]
      · exact if_neg hn
    | error e =>
      refine wp_of _ _ (by show netRead _ st = _; simp only [netRead, St.at, ha.1, hr]; rfl) ?_
      refine ⟨_, _, arr, rfl, rfl, ha, ?_, rfl, ?_, fun j hj hn => rfl, Nat.le_refl _, rfl⟩
      · show match (readFull len st.world.input).1 with | .ok b' => _ | .error x => _
        rw [hr]
      · show rest = (readFull len st.world.input).2
        rw [hr]

theorem net_app : App net (.obj 0) NetInv := by
  refine ⟨?_, ?_, ?_⟩
  · rintro app st y j ⟨h1, h2, h3, h4⟩ hj
    rcases (h4 j).1 hj with rfl | ⟨s, h5, rfl⟩
    · exact h2
    · exact (h3 s h5).2.2.1
  · rintro app st y st' ⟨h1, h2, h3, h4⟩ hk hw hn
    refine ⟨by rw [hk 0 ((h4 0).2 (.inl rfl)), h1], by omega, fun s hs => ?_, by rw [hw]; exact h4⟩
    rw [hw] at hs
    obtain ⟨a, ⟨arr, b⟩, c, d⟩ := h3 s hs
    exact ⟨a, ⟨arr, by rw [hk _ ((h4 _).2 (.inr ⟨s, hs, rfl⟩))]; exact b.1, b.2⟩, by omega, d⟩
  · rintro app st y s arr ha ⟨h1, h2, h3, h4⟩
    refine wp_of _ _ (by show netWrite s st = _; simp only [netWrite, St.at, ha.1]; rfl) ?_
    exact ⟨h1, h2, h3, h4⟩

theorem net_back : Back net netWire NetInv := by
  refine ⟨?_, ?_⟩
  · rintro app st y a b ⟨h1, h2, h3, h4⟩ hb ha hna
    have same : netExt "Put" [.glob "rfc1057.reqBufPool", b] st = .ok ([], st) → wp (net.ext "Put" [.glob "rfc1057.reqBufPool", b])
        (fun _ st' => Gives netWire NetInv (· = a) app y st st') st := fun h =>
      wp_of _ _ h ⟨⟨app, ⟨h1, h2, h3, h4⟩, fun j hj => .inl hj⟩, fun j _ _ _ => rfl, Nat.le_refl _, rfl, rfl, rfl⟩
    cases hb with
    | nil => exact same rfl
    | slice s hs =>
      obtain ⟨⟨i, p⟩, off, len, cap⟩ := s
      cases hs
      have hv : ∀ v, st.heap a = v → (∀ arr, v = .bytes arr → ¬ (off + cap ≤ arr.length ∧ len ≤ cap)) →
          netExt "Put" [.glob "rfc1057.reqBufPool", .slice ⟨⟨a, []⟩, off, len, cap⟩] st = .ok ([], st) := by
        intro v hv hn
        show netPut (.slice ⟨⟨a, []⟩, off, len, cap⟩) st = _
        simp only [netPut, St.at, V.at, hv]
        cases v with
        | bytes arr => exact if_neg (hn arr rfl)
        | _ => rfl
      cases hc : st.heap a with
      | bytes arr =>
        by_cases hl : off + cap ≤ arr.length ∧ len ≤ cap
        · refine wp_of _ _ (by show netPut (.slice ⟨⟨a, []⟩, off, len, cap⟩) st = _; simp only [netPut, St.at, V.at, hc]; rw [if_pos hl]) ?_
          have ha0 : a ≠ 0 := fun h => hna ((h4 a).2 (.inl h))
          refine ⟨⟨fun j => j = 0 ∨ j = a, ⟨h1, h2, fun s hs => ?_, fun j => ?_⟩, fun j hj => ?_⟩, fun j _ _ _ => rfl, Nat.le_refl _, rfl, rfl, rfl⟩
          · cases hs
            exact ⟨rfl, ⟨arr, by rw [← hc]; rfl, hl⟩, ha, ha0⟩
          · constructor
            · rintro (h | h)
              · exact .inl h
              · exact .inr ⟨_, rfl, h⟩
            · rintro (h | ⟨s, hs, h⟩)
              · exact .inl h
              · cases hs
                exact .inr h
          · rcases hj with rfl | rfl
            · exact .inl ((h4 _).2 (.inl rfl))
            · exact .inr (.inl rfl)
        · exact same (hv _ hc fun arr' h => by cases h; exact hl)
      | _ => exact same (hv _ hc fun arr h => by cases h)
  · rintro app st y e ⟨h1, h2, h3, h4⟩
    exact wp_of _ _ rfl ⟨⟨app, ⟨h1, h2, h3, h4⟩, fun j hj => .inl hj⟩, fun j _ _ _ => rfl, Nat.le_refl _, rfl, rfl, rfl⟩

theorem net_front : Front net netWire (.obj 0) NetInv := by
  refine ⟨?_, ?_⟩
  · rintro app st y ⟨h1, h2, h3, h4⟩
    cases hp : st.world.pool with
    | none =>
      refine wp_of _ _ (by show netGet st = _; simp only [netGet, hp]; rfl) ?_
      exact ⟨_, rfl, ⟨⟨app, ⟨h1, h2, h3, h4⟩, fun j hj => .inl hj, .inl rfl⟩, fun j _ _ => rfl, Nat.le_refl _, rfl, rfl⟩, rfl⟩
    | some s =>
      refine wp_of _ _ (by show netGet st = _; simp only [netGet, hp]; rfl) ?_
      obtain ⟨a, ⟨arr, b⟩, c, d⟩ := h3 s hp
      refine ⟨_, rfl, ⟨⟨(· = 0), ⟨h1, h2, fun s hs => (by cases hs), fun j => ⟨.inl, fun h => ?_⟩⟩, fun j hj => .inl ((h4 j).2 (.inl hj)), 
        .inr ⟨s, arr, rfl, a, b, c, d, .inl ((h4 _).2 (.inr ⟨s, hp, rfl⟩))⟩⟩, fun j _ _ => rfl, Nat.le_refl _, rfl, rfl⟩, rfl⟩
      rcases h with h | ⟨s, hs, _⟩
      · exact h
      · cases hs
  · rintro app st y s arr ⟨h1, h2, h3, h4⟩ ha hp hna hlt
    obtain ⟨⟨id, p⟩, off, len, cap⟩ := s
    cases hp
    have hne : ∀ j, app j → j ≠ id := fun j hj h => hna (h ▸ hj)
    rcases hr : readFull len st.world.input with ⟨r, rest⟩
    cases r with
    | ok b =>
      refine wp_of _ _ (by show netRead _ st = _; simp only [netRead, St.at, ha.1, hr]; rfl) ?_
      refine ⟨(if_neg (hne 0 ((h4 0).2 (.inl rfl)))).trans h1, h2, fun s hs => ?_, h4⟩
      obtain ⟨a, ⟨arr, b⟩, c, d⟩ := h3 s hs
      refine ⟨a, ⟨arr, ?_, b.2⟩, c, d⟩
      show ((if s.base.id = id then _ else st.heap s.base.id)).at _ = _
      rw [if_neg (hne _ ((h4 _).2 (.inr ⟨s, hs, rfl⟩)))]
      exact b.1
    | error e =>
      refine wp_of _ _ (by show netRead _ st = _; simp only [netRead, St.at, ha.1, hr]; rfl) ?_
      exact ⟨h1, h2, h3, h4⟩

theorem u32_reader (xs : XdrState) (y : UInt32) : (Xdr.xdrU32 xs y).1.reader = xs.reader := by
  simp only [Xdr.xdrU32]
  split
  · rfl
  · split <;> split <;> exact rw_reader_eq _ _

/-- The function value 1 is `addHandler`. -/
theorem net_add (k : Nat) : Handles net netWire (k + 3) NetInv (.obj 1) Props.addHandler := by
  refine ⟨fun n e => (by cases e), ?_⟩
  rintro st x a w l hx hl app y ⟨h1, h2, h3, h4⟩ hax haa
  obtain ⟨xs, hrd, hxl⟩ : ∃ xs, xs.reader = true ∧ Xdr.makeReader l = xs := ⟨_, rfl, rfl⟩
  rw [hxl] at hx ⊢
  show wp (netAdd _) _ _
  have hwx : w = x := by have := hx.other; rw [hrd] at this; exact this
  subst hwx
  have xlt := hx.xlt
  have alt := hx.alt
  have hap : ∀ j, app j → j < st.next := fun j hj => by
    rcases (h4 j).1 hj with rfl | ⟨s, h5, rfl⟩
    · exact h2
    · exact (h3 s h5).2.2.1
  rw [netAdd, wp_bind, wp_alloc, wp_bind]
  refine wp_mono (Uint32_codec libExt 0 (hx.mono (st' := st.push (.u32 0)) (by go_run) (by go_run) (by go_run) (by go_lt)) "xdr.Uint32" st.next [] (.u32 0) 0 (by go_run) rfl
    (by go_lt) (by omega) (by omega) (by omega)) ?_
  rintro _ st1 ⟨rfl, w1, hw1, hx1, hk, v1, hv1, rfl⟩
  go_after hk n1 k1 o1 d1
  obtain ⟨e1, b1, hc1, he1, _⟩ := hx1.cell
  have x1lt := hx1.xlt
  have hv1 : st1.heap st.next = .u32 (Xdr.xdrU32 xs 0).2 := (Option.some.inj hv1).symm
  rw [wp_bind]
  go_run [hc1, d1]
  have w0 : w ≠ 0 := fun h => hax ((h4 w).2 (.inl h))
  have inv : ∀ (st2 : St Net) (y' : UInt32), st2.heap 0 = .u32 y' → (∀ j, app j → j ≠ 0 → st2.heap j = st.heap j) → st2.world = st.world → st.next ≤ st2.next →
      NetInv app st2 y' := by
    intro st2 y' h0 hk hw hn
    refine ⟨h0, by omega, fun s hs => ?_, by rw [hw]; exact h4⟩
    rw [hw] at hs
    obtain ⟨a, ⟨arr, b⟩, c, d⟩ := h3 s hs
    exact ⟨a, ⟨arr, by rw [hk _ ((h4 _).2 (.inr ⟨s, hs, rfl⟩)) d]; exact b.1, b.2⟩, by omega, d⟩
  rcases hr : Xdr.xdrU32 xs 0 with ⟨xs1, v⟩
  rw [hr] at hv1 he1
  have hne : ∀ j, app j → j ≠ w ∧ j ≠ a := fun j hj => ⟨fun h => hax (h ▸ hj), fun h => haa (h ▸ hj)⟩
  cases hxe : xs1.err with
  | none =>
    rw [hxe] at he1
    cases he1
    have hrun : Props.addHandler.run xs y = (y + v, some fun wr => (Xdr.xdrU32 wr (y + v)).1, false) := by
      simp only [Props.addHandler, Proc.run_atom, hr, hxe]
    rw [hrun]
    have z1 : st1.heap 0 = .u32 y := by rw [k1 0 (by omega) (Ne.symm w0) (Ne.symm w0) (by omega)]; go_run [h1]
    go_run [hv1, z1]
    refine ⟨_, _, app, rfl, inv _ _ (by go_run) (fun j a b => ?_) (by go_run [o1]) (by go_lt), fun j hj => .inl hj, rfl, ?_, fun j a b c d => ?_, by go_lt, by go_run [d1],
      by go_run [o1], by go_run [o1], by go_run [o1]⟩
    · have := hap j a
      have := (hne j a).1
      go_run [k1]
    · refine .some ((Uint32_codec net k).xdrs (fun xs y => ?_) (by decide) _).writes (y := y + v) ⟨by go_lt, by go_run⟩ (fun xs h => rfl) (fun xs h => ?_) rfl ?_
      · exact u32_reader xs y
      · simp only [Xdr.xdrU32, Xdr.xdrRW, Xdr.encoding, Xdr.decoding, h]
        split <;> simp
      · rintro j rfl
        exact ⟨.inr (by go_lt), fun h => by have := hap _ h; omega⟩
    · have : j ≠ 0 := fun h => b (h ▸ (h4 0).2 (.inl rfl))
      go_run [k1]
  | some ex =>
    rw [hxe] at he1
    have hrun : Props.addHandler.run xs y = (y, none, true) := by
      simp only [Props.addHandler, Proc.run_atom, hr, hxe]
    rw [hrun]
    obtain ⟨m, vs, rfl⟩ : ∃ m vs, e1 = .err m vs := by cases he1 <;> exact ⟨_, _, rfl⟩
    go_run
    refine ⟨_, _, app, rfl, inv _ _ ?_ (fun j a b => ?_) (by go_run [o1]) (by go_lt), fun j hj => .inl hj, ⟨_, _, rfl⟩, .none, fun j a b c d => ?_, by go_lt, by go_run [d1],
      by go_run [o1], by go_run [o1], by go_run [o1]⟩
    · go_run [k1 0 (by omega) (Ne.symm w0) (Ne.symm w0) (by omega), h1]
    · have := hap j a
      have := (hne j a).1
      go_run [k1]
    · go_run [k1]

/-- The function value 2 is the handler that always fails. -/
theorem net_fail (n : Nat) : Handles net netWire n NetInv (.obj 2) (.ret (none, true)) := by
  refine ⟨fun n e => (by cases e), ?_⟩
  rintro st x a w l hx hl app y hI hax haa
  exact wp_of _ _ rfl ⟨_, _, app, rfl, hI, fun j hj => .inl hj, ⟨_, _, rfl⟩, .none, fun j _ _ _ _ => rfl, Nat.le_refl _, rfl, rfl, rfl, rfl⟩

end Verif.Lang
