/-
What getReqBuf, putReqBuf, Run and handleReq of rfc1057/server.go (lines 16-30 and 69-105), as read from the file, do:
what Verif.Rpc.Stream and Verif.Rpc.Server say.
-/
import Verif.Lang.ServeSpec
import Verif.Rpc.Stream
namespace Verif.Lang
open Verif.Xdr (XErr XdrState)
open Verif.Rpc
variable {ω : Type} [Others]
set_option linter.unusedSimpArgs false


attribute [local irreducible] wp

@[go_sim] theorem import_pool : isImport goProg "rfc1057" "reqBufPool" = false := by kernel_rfl
@[go_sim] theorem const_stderr : goProg.const "os" "Stderr" = none := by rw [Prog.const, pkg_eq_os]; rfl

/-- What an operation of the environment does: it may change the cells of the application, take the cells it is given,
and allocate. -/
structure Gives {σ : Type} (W : Wire ω) (I : (Nat → Prop) → St ω → σ → Prop) (given app : Nat → Prop) (y : σ) (st st' : St ω) : Prop where
  inv : ∃ app', I app' st' y ∧ ∀ j, app' j → app j ∨ given j ∨ st.next ≤ j
  frame : ∀ j, j < st.next → ¬ app j → ¬ given j → st'.heap j = st.heap j
  next : st.next ≤ st'.next
  defers : st'.defers = st.defers
  sent : W.sent st'.world = W.sent st.world
  input : W.input st'.world = W.input st.world

/-- The value is a slice of the array in the cell `a`. -/
inductive SliceOf (a : Nat) : V → Prop
  | nil : SliceOf a .nil
  | slice (s : Slice) (hs : s.base = ⟨a, []⟩) : SliceOf a (.slice s)

theorem BytesAt.of {st : St ω} {a : Nat} {b : V} {l : List UInt8} (h : BytesAt st a b l) : SliceOf a b := by
  cases h with
  | nil => exact .nil
  | slice s _ _ hc => exact .slice s hc

/-- `sync.Pool.Put` and `fmt.Fprintf(os.Stderr, …)`. -/
structure Back {σ : Type} (E : Ext ω) (W : Wire ω) (I : (Nat → Prop) → St ω → σ → Prop) : Prop where
  put : ∀ {app st y a b}, I app st y → SliceOf a b → a < st.next → ¬ app a →
    wp (E.ext "Put" [.glob "rfc1057.reqBufPool", b]) (fun _ st' => Gives W I (· = a) app y st st') st
  log : ∀ {app st y e}, I app st y →
    wp (E.ext "fmt.Fprintf" [.glob "os.Stderr", .str (strBytes "%v\n"), e]) (fun _ st' => Gives W I (fun _ => False) app y st st') st

/-- server.go:28-30 -/
theorem putReqBuf_spec {σ : Type} (E : Ext ω) (W : Wire ω) (k : Nat) {I : (Nat → Prop) → St ω → σ → Prop} (B : Back E W I) {rw : V} (A : App E rw I)
    {st : St ω} {app : Nat → Prop} {y : σ} (hI : I app st y) {a : Nat} {b : V} (hb : SliceOf a b) (ha : a < st.next) (haa : ¬ app a) :
    wp (callN goProg E (k + 1) (.fn "rfc1057" "putReqBuf") [b]) (fun _ st' => Gives W I (· = a) app y st st') st := by
  rw [wp_callN _ _ _ _ _ _ _ _ _ find_server_putReqBuf, wp_callFunc]
  dsimp only [server_putReqBuf]
  have hbs : isStruct b = false := by cases hb <;> rfl
  have alt : ∀ j, app j → j < st.next := fun j => A.lt j hI
  go_run
  refine wp_mono (B.put (A.stable _ hI (fun j hj => by have := alt j hj; go_run) (by go_run) (by go_lt)) hb (by go_lt) haa) ?_
  rintro _ st1 ⟨⟨app1, h1, m1⟩, k1, n1, e1, s1, i1⟩
  simp only [next_set, next_push, next_deferring, world_set, world_push, world_deferring, defers_set, defers_push, defers_deferring] at m1 k1 n1 e1 s1 i1
  go_run [e1]
  exact ⟨⟨app1, A.stable _ h1 (fun j hj => rfl) rfl (Nat.le_refl _), fun j hj => by rcases m1 j hj with h | h | h; exact .inl h; exact .inr (.inl h); exact .inr (.inr (by omega))⟩,
    fun j h2 h3 h4 => by go_run [k1 j (by omega) h3 h4], by go_lt, by go_run, by go_run [s1], by go_run [i1]⟩

/-- How a call of `handleReq` ends, `res` being what the model says. -/
structure ServeEnd {σ : Type} (W : Wire ω) (I : (Nat → Prop) → St ω → σ → Prop) (a : Nat) (app : Nat → Prop)
    (res : σ × Except ServeErr (List UInt8)) (st st' : St ω) : Prop where
  inv : ∃ app', I app' st' res.1 ∧ ∀ j, app' j → app j ∨ j = a ∨ st.next ≤ j
  sent : W.sent st'.world = W.sent st.world ++ (match res.2 with | .ok m => [m] | .error _ => [])
  input : W.input st'.world = W.input st.world
  frame : ∀ j, j < st.next → ¬ app j → j ≠ a → st'.heap j = st.heap j
  next : st.next ≤ st'.next
  defers : st'.defers = st.defers

set_option maxRecDepth 10000 in
/-- server.go:98-105 -/
theorem handleReq_spec {σ : Type} (E : Ext ω) (W : Wire ω) (k : Nat) {rw : V} (T : Transport E W rw) {I : (Nat → Prop) → St ω → σ → Prop} (A : App E rw I)
    (B : Back E W I) {st : St ω} {app : Nat → Prop} {y : σ} (hI : I app st y) {s : Shape} {hs : Handlers σ} (ht : Table (Handles E W (k + 7) I) st s hs)
    {Ts : String} {c cs a : Nat} {b : V} {l : List UInt8} (hll : l.length < 2 ^ 31)
    (hc : st.heap c = connV Ts cs rw) (hcs : st.heap cs = serverV s.top) (hb : BytesAt st a b l) (u1 : c < st.next) (u2 : cs < st.next) (u3 : a < st.next)
    (hac : ¬ app c) (haa : ¬ app a) (dca : c ≠ a) :
    wp (callN goProg E (k + 9) (.meth "rfc1057.serverConn" "handleReq") [.ptr "" ⟨c, []⟩, b])
      (fun r st' => r = [] ∧ ServeEnd W I a app ((handleReqErr hs).run l y) st st') st := by
  rw [wp_callN _ _ _ _ _ _ _ _ _ find_server_serverConn_handleReq, wp_callFunc]
  dsimp only [server_serverConn_handleReq]
  have hbs : isStruct b = false := by cases hb <;> rfl
  have alt : ∀ j, app j → j < st.next := fun j => A.lt j hI
  rw [connV] at hc
  go_run [hc]
  have s1 : ∀ j, j < st.next → ((((st.deferring []).push (coerce V.nil (V.ptr "" { id := c, path := [] }))).push (coerce V.nil b)).deferring
      ((FKey.fn "rfc1057" "putReqBuf", [b]) ::
        (((st.deferring []).push (coerce V.nil (V.ptr "" { id := c, path := [] }))).push (coerce V.nil b)).defers)).heap j = st.heap j :=
    fun j hj => by go_run
  generalize hS : ((((st.deferring []).push (coerce V.nil (V.ptr "" { id := c, path := [] }))).push (coerce V.nil b)).deferring
      ((FKey.fn "rfc1057" "putReqBuf", [b]) ::
        (((st.deferring []).push (coerce V.nil (V.ptr "" { id := c, path := [] }))).push (coerce V.nil b)).defers)) = S at s1 ⊢
  have s2 : S.next = st.next + 2 := by rw [← hS]; go_run
  have s3 : S.world = st.world := by rw [← hS]; go_run
  have s4 : S.defers = [(.fn "rfc1057" "putReqBuf", [b])] := by rw [← hS]; go_run
  clear hS
  refine wp_mono (handleReqErr_spec E W k T A (st := S) (A.stable _ hI (fun j hj => s1 j (alt j hj)) s3 (by omega))
    (ht.mono (fun j hj => s1 j (ht.lt hj)) (by omega)) (Tc := "") (c := c) (cs := cs) (a := a) (b := b) (Ts := Ts) (l := l) hll
    (by rw [connV, s1 _ u1, hc]) (by rw [s1 _ u2, hcs]) (hb.mono (s1 _ u3)) (by omega) (by omega) (by omega) hac haa dca) ?_
  rintro _ st1 ⟨e, rfl, ⟨app1, inv1, more1⟩, out1, i1, k1, n1, e1⟩
  have alt1 : ∀ j, app1 j → j < st1.next := fun j => A.lt j inv1
  have hee : e = .nil ∨ ∃ m vs, e = .err m vs := by
    cases hr : ((handleReqErr hs).run l y).2 with
    | ok m =>
      rw [hr] at out1
      have := out1.2
      split at this
      · exact .inl this
      · exact .inr this
    | error x =>
      rw [hr] at out1
      obtain ⟨_, hsr⟩ := out1
      cases hsr with
      | xdr _ _ h => cases h <;> first | exact .inl rfl | exact .inr ⟨_, _, rfl⟩
      | notCall => exact .inr ⟨_, _, rfl⟩
  have sent1 : W.sent st1.world = W.sent st.world ++ (match ((handleReqErr hs).run l y).2 with | .ok m => [m] | .error _ => []) := by
    cases hr : ((handleReqErr hs).run l y).2 with
    | ok m => rw [hr] at out1; rw [out1.1, s3]
    | error x => rw [hr] at out1; rw [out1.1, s3, List.append_nil]
  clear out1
  have hapa : ¬ app1 a := fun h => by rcases more1 a h with h | h; exact haa h; omega
  have fin : ∀ app2 st2, I app2 st2 ((handleReqErr hs).run l y).1 → (∀ j, app2 j → app1 j ∨ st1.next ≤ j) →
      (∀ j, j < st1.next → ¬ app1 j → st2.heap j = st1.heap j) → st1.next ≤ st2.next → st2.defers = st1.defers → W.sent st2.world = W.sent st1.world →
      W.input st2.world = W.input st1.world →
      wp (runDefers ⟨goProg, callN goProg E (k + 8), E.ext, E.spawn, E.grow, E.loops⟩ st2.defers)
        (fun _ s' => ([] : List V) = [] ∧ ServeEnd W I a app ((handleReqErr hs).run l y) st (s'.deferring st.defers)) st2 := by
    intro app2 st2 inv2 more2 k2 n2 e2 s2' i2
    have hapa2 : ¬ app2 a := fun h => by rcases more2 a h with h | h; exact hapa h; omega
    rw [e2, e1, s4]
    go_run
    refine wp_mono (putReqBuf_spec E W (k + 7) B A inv2 hb.of (by omega) hapa2) ?_
    rintro _ st3 ⟨⟨app3, inv3, more3⟩, k3, n3, e3, s3', i3⟩
    rw [wp_defers_nil]
    refine ⟨rfl, ⟨app3, A.stable _ inv3 (fun j hj => rfl) rfl (Nat.le_refl _), fun j hj => ?_⟩, by go_run [s3', s2', sent1], by go_run [i3, i2, i1, s3], fun j h1 h2 h3 => ?_, by go_lt, by go_run⟩
    · rcases more3 j hj with h | h | h
      · rcases more2 j h with h | h
        · rcases more1 j h with h | h
          · exact .inl h
          · exact .inr (.inr (by omega))
        · exact .inr (.inr (by omega))
      · exact .inr (.inl h)
      · exact .inr (.inr (by omega))
    · have x1 : ¬ app1 j := fun h => by rcases more1 j h with h | h; exact h2 h; omega
      have x2 : ¬ app2 j := fun h => by rcases more2 j h with h | h; exact x1 h; omega
      go_run
      rw [k3 j (by omega) x2 h3, k2 j (by omega) x1, k1 j (by omega) h2 h3, s1 j h1]
  rcases hee with rfl | ⟨m, vs, rfl⟩
  · go_run
    exact fin app1 (st1.push (coerce (V.int 0) V.nil)) (A.stable _ inv1 (fun j hj => by have := alt1 j hj; go_run) (by go_run) (by go_lt)) (fun j hj => .inl hj)
      (fun j h1 h2 => by go_run) (by go_lt) (by go_run) (by go_run) (by go_run)
  · go_run
    refine wp_mono (B.log (A.stable _ inv1 (fun j hj => by have := alt1 j hj; go_run) (by go_run) (by go_lt))) ?_
    rintro _ st2 ⟨⟨app2, inv2, more2⟩, k2, n2, e2, s2', i2⟩
    simp only [next_set, next_push, next_deferring, world_set, world_push, world_deferring, defers_set, defers_push, defers_deferring] at more2 k2 n2 e2 s2' i2
    go_run
    exact fin app2 st2 inv2 (fun j hj => by rcases more2 j hj with h | h | h; exact .inl h; exact h.elim; exact .inr (by omega))
      (fun j h1 h2 => by rw [k2 j (by omega) h2 id]; go_run) (by omega) e2 s2' i2


/-- What `Get` of the pool gives: nothing, or a slice of an array that nobody else has. -/
structure Got {σ : Type} (W : Wire ω) (I : (Nat → Prop) → St ω → σ → Prop) (app : Nat → Prop) (y : σ) (v : V) (st st' : St ω) : Prop where
  inv : ∃ app', I app' st' y ∧ (∀ j, app' j → app j ∨ st.next ≤ j) ∧
    (v = .nil ∨ ∃ s arr, v = .slice s ∧ s.base.path = [] ∧ ArrAt st' s arr ∧ s.base.id < st'.next ∧ ¬ app' s.base.id ∧ (app s.base.id ∨ st.next ≤ s.base.id))
  frame : ∀ j, j < st.next → ¬ app j → st'.heap j = st.heap j
  next : st.next ≤ st'.next
  defers : st'.defers = st.defers
  input : W.input st'.world = W.input st.world

/-- What `Run` needs: `sync.Pool.Get`, reading, and `go`. -/
structure Host {σ : Type} (E : Ext ω) (W : Wire ω) (rw : V) (cs : Nat) (I : (Nat → Prop) → St ω → σ → Prop) (step : σ → List UInt8 → σ) : Prop where
  obj : ∃ i, rw = .obj i
  lt : ∀ {app st y} (j : Nat), I app st y → app j → j < st.next
  stable : ∀ {app st y} (st' : St ω), I app st y → (∀ j, app j → st'.heap j = st.heap j) → st'.world = st.world → st.next ≤ st'.next →
    I app st' y
  get : ∀ {app st y}, I app st y →
    wp (E.ext "Get" [.glob "rfc1057.reqBufPool"]) (fun r st' => ∃ v, r = [v] ∧ Got W I app y v st st') st
  read : ∀ {app st y} (s : Slice) (arr : List UInt8), I app st y → ArrAt st s arr → s.base.path = [] → ¬ app s.base.id → s.base.id < st.next →
    wp (E.ext "io.ReadFull" [rw, .slice s]) (fun r st' => ∃ n e arr' app', r = [.int n, e] ∧ arr'.length = arr.length ∧ ArrAt st' s arr' ∧
      (match (readFull s.len (W.input st.world)).1 with
        | .ok b => e = .nil ∧ sub s arr' = b
        | .error x => e = ioErr x) ∧
      I app' st' y ∧ (∀ j, app' j → app j ∨ st.next ≤ j) ∧
      W.input st'.world = (readFull s.len (W.input st.world)).2 ∧
      (∀ j, j < st.next → ¬ app j → j ≠ s.base.id → st'.heap j = st.heap j) ∧ st.next ≤ st'.next ∧ st'.defers = st.defers) st
  spawn : ∀ {app st y c s arr}, s.len < 2 ^ 31 → I app st y → st.heap c = connV "" cs rw → ArrAt st s arr → s.base.path = [] →
    c < st.next → s.base.id < st.next → ¬ app c → ¬ app s.base.id → c ≠ s.base.id →
    wp (E.spawn (.meth "rfc1057.serverConn" "handleReq") [.ptr "" ⟨c, []⟩, .slice s]) (fun _ st' =>
      (∃ app', I app' st' (step y (sub s arr)) ∧ (∀ j, app' j → app j ∨ j = s.base.id ∨ st.next ≤ j)) ∧
      (∀ j, j < st.next → ¬ app j → j ≠ s.base.id → st'.heap j = st.heap j) ∧ st.next ≤ st'.next ∧ st'.defers = st.defers ∧
      W.input st'.world = W.input st.world) st

/-- A record mark leaves at most 31 bits for the length. -/
theorem masked31 (x : UInt32) : (x &&& 2147483647).toNat < 2 ^ 31 := by
  rw [UInt32.toNat_and]
  exact Nat.lt_of_le_of_lt Nat.and_le_right (by decide)

/-- How a call of `getReqBuf` ends. -/
structure BufEnd {σ : Type} (W : Wire ω) (I : (Nat → Prop) → St ω → σ → Prop) (app : Nat → Prop) (y : σ) (n : Nat) (s : Slice) (st st' : St ω) : Prop where
  inv : ∃ app', I app' st' y ∧ (∀ j, app' j → app j ∨ st.next ≤ j) ∧ ¬ app' s.base.id
  len : s.len = n
  arr : ∃ arr, ArrAt st' s arr
  path : s.base.path = []
  lt : s.base.id < st'.next
  ge : app s.base.id ∨ st.next ≤ s.base.id
  frame : ∀ j, j < st.next → ¬ app j → st'.heap j = st.heap j
  next : st.next ≤ st'.next
  defers : st'.defers = st.defers
  input : W.input st'.world = W.input st.world

/-- server.go:16-26 -/
theorem getReqBuf_spec {σ : Type} (E : Ext ω) (W : Wire ω) (k : Nat) {rw : V} {cs : Nat} {I : (Nat → Prop) → St ω → σ → Prop} {step : σ → List UInt8 → σ}
    (H : Host E W rw cs I step) {st : St ω} {app : Nat → Prop} {y : σ} (hI : I app st y) (n : Nat) :
    wp (callN goProg E (k + 1) (.fn "rfc1057" "getReqBuf") [.int n]) (fun r st' => ∃ s, r = [.slice s] ∧ BufEnd W I app y n s st st') st := by
  rw [wp_callN _ _ _ _ _ _ _ _ _ find_server_getReqBuf, wp_callFunc]
  dsimp only [server_getReqBuf]
  have alt : ∀ j, app j → j < st.next := fun j => H.lt j hI
  go_run
  refine wp_mono (H.get (H.stable _ hI (fun j hj => by have := alt j hj; go_run) (by go_run) (by go_lt))) ?_
  rintro _ st1 ⟨v, rfl, ⟨app1, inv1, more1, hv⟩, k1, n1, e1, i1⟩
  simp only [next_set, next_push, next_deferring, world_set, world_push, world_deferring, defers_set, defers_push, defers_deferring] at more1 k1 n1 e1 i1 hv
  have alt1 : ∀ j, app1 j → j < st1.next := fun j => H.lt j inv1
  have nap : ¬ app st.next := fun h => by have := alt _ h; omega
  have hbl : st1.heap st.next = .int n := by rw [k1 _ (by omega) nap]; go_run
  rcases hv with rfl | ⟨s, arr, rfl, hp, ha, hlt, hna, hge⟩
  · go_run [hbl, Int.toNat_natCast]
    rw [e1]
    go_run
    exact ⟨_, rfl, ⟨app1, H.stable _ inv1 (fun j hj => by have := alt1 j hj; go_run) (by go_run) (by go_lt),
        fun j hj => by rcases more1 j hj with h | h; exact .inl h; exact .inr (by omega), fun h => by have := alt1 _ h; dsimp only at this; omega⟩, rfl,
      ⟨List.replicate n 0, by go_run, by simp, by simp⟩, rfl, by go_lt, .inr (by go_lt), fun j h1 h2 => by go_run [k1 j (by omega) h2], by go_lt,
      by go_run, by go_run [i1]⟩
  · obtain ⟨⟨si, sp⟩, so, sl, sc⟩ := s
    dsimp only at hp hlt hna hge
    subst hp
    by_cases hcap : n ≤ sc
    · have hd : decide ((sc : Int) < (n : Int)) = false := by simpa using hcap
      go_run [hbl, hd, Bool.not_false, Int.toNat_natCast]
      rw [e1]
      go_run
      exact ⟨_, rfl, ⟨app1, H.stable _ inv1 (fun j hj => by have := alt1 j hj; go_run) (by go_run) (by go_lt),
          fun j hj => by rcases more1 j hj with h | h; exact .inl h; exact .inr (by omega), hna⟩, by simp,
        ⟨arr, by go_run [ha.1], ha.2.1, hcap⟩, rfl, by go_lt, by rcases hge with h | h; exact .inl h; exact .inr (by dsimp only; omega), fun j h1 h2 => by go_run [k1 j (by omega) h2], by go_lt,
        by go_run, by go_run [i1]⟩
    · have hd : decide ((sc : Int) < (n : Int)) = true := by simpa using hcap
      go_run [hbl, hd, Bool.not_true, Int.toNat_natCast]
      rw [e1]
      go_run
      exact ⟨_, rfl, ⟨app1, H.stable _ inv1 (fun j hj => by have := alt1 j hj; go_run) (by go_run) (by go_lt),
          fun j hj => by rcases more1 j hj with h | h; exact .inl h; exact .inr (by omega), fun h => by have := alt1 _ h; dsimp only at this; omega⟩, rfl,
        ⟨List.replicate n 0, by go_run, by simp, by simp⟩, rfl, by go_lt, .inr (by go_lt), fun j h1 h2 => by go_run [k1 j (by omega) h2], by go_lt,
        by go_run, by go_run [i1]⟩
  

/-- The errors of `Run`. -/
inductive RunRel : V → RunErr → Prop
  | read (e : ReadErr) : RunRel (ioErr e) (.read e)
  | fragment : RunRel (.err (strBytes "fragments not supported") []) .fragment

/-- server.go:75-94 -/
def runLoop : List Stmt :=
  match server_Server_Run.body with
  | [_, .forever b] => b
  | _ => []

/-- One iteration: what it leaves alone. -/
structure IterEnd {σ : Type} (W : Wire ω) (I : (Nat → Prop) → St ω → σ → Prop) (app app' : Nat → Prop) (y' : σ) (cs' : Chunks) (st st' : St ω) : Prop where
  inv : I app' st' y'
  more : ∀ j, app' j → app j ∨ st.next ≤ j
  frame : ∀ j, j < st.next → ¬ app j → st'.heap j = st.heap j
  next : st.next ≤ st'.next
  defers : st'.defers = st.defers
  input : W.input st'.world = cs'

set_option maxRecDepth 10000 in
set_option maxHeartbeats 1000000 in
theorem runLoop_spec {σ : Type} (E : Ext ω) (W : Wire ω) (k : Nat) {rw : V} {cs : Nat} {I : (Nat → Prop) → St ω → σ → Prop} {step : σ → List UInt8 → σ}
    (H : Host E W rw cs I step) {st : St ω} {app : Nat → Prop} {y : σ} (hI : I app st y) {csc crw cself c : Nat}
    (hsc : st.heap csc = .ptr "" ⟨c, []⟩) (hc : st.heap c = connV "" cs rw) (u1 : csc < st.next) (u2 : c < st.next) (nc : ¬ app csc) (nc' : ¬ app c) :
    wp (execs (sem E (k + 1)) "rfc1057" runLoop [[], [("sc", csc), ("rw", crw), ("s", cself)]] .next) (fun r st' =>
      match readRequest (W.input st.world) with
      | (.error x, cs') => ∃ app' e, r.2 = .ret [e] ∧ RunRel e x ∧ IterEnd W I app app' y cs' st st'
      | (.ok req, cs') => ∃ app', r.2 = .next ∧ IterEnd W I app app' (step y req) cs' st st') st := by
  simp only [runLoop, server_Server_Run, sem]
  obtain ⟨i, rfl⟩ := H.obj
  have alt : ∀ j, app j → j < st.next := fun j => H.lt j hI
  have napn : ∀ j, st.next ≤ j → ¬ app j := fun j hj h => by have := alt j h; omega
  rw [connV] at hc
  go_run [hsc, hc]
  refine wp_mono (H.read _ [0, 0, 0, 0] (H.stable _ hI (fun j hj => by have := alt j hj; go_run) (by go_run) (by go_lt)) ⟨by go_run, (by decide : 4 ≤ 4), (by decide : 4 ≤ 4)⟩ rfl
    (napn _ (Nat.le_refl _)) (by go_lt)) ?_
  rintro _ st1 ⟨n1, e1, arr1, app1, rfl, hla, harr, hm, inv1, more1, i1, k1, x1, f1⟩
  simp only [next_set, next_push, next_deferring, world_set, world_push, world_deferring, defers_set, defers_push, defers_deferring] at more1 k1 x1 f1 i1 hm
  have alt1 : ∀ j, app1 j → j < st1.next := fun j => H.lt j inv1
  have harr' : st1.heap st.next = .bytes arr1 := by have := harr.1; dsimp only at this; rw [at_nil] at this; exact Option.some.inj this
  simp only [readRequest]
  rcases hrf : readFull 4 (W.input st.world) with ⟨r1, in1⟩
  rw [hrf] at hm i1
  cases r1 with
  | error re =>
    dsimp only at hm ⊢
    subst hm
    have he1 : IterEnd W I app app1 y in1 st (st1.push (ioErr re)) :=
      ⟨H.stable _ inv1 (fun j hj => by have := alt1 j hj; go_run) (by go_run) (by go_lt), fun j hj => by rcases more1 j hj with h | h; exact .inl h; exact .inr (by omega),
        fun j h1 h2 => by go_run [k1 j (by omega) h2 (by omega)], by go_lt, by go_run [f1], by go_run [i1]⟩
    cases re <;> simp only [ioErr] at he1 ⊢ <;> go_run
    · exact ⟨app1, _, rfl, .read .eof, he1⟩
    · exact ⟨app1, _, rfl, .read .unexpectedEOF, he1⟩
  | ok b =>
    obtain ⟨rfl, hb⟩ := hm
    have hl4 : arr1.length = 4 := hla
    have hb' : b = arr1 := by
      rw [← hb, sub]
      dsimp only
      rw [List.drop_zero, List.take_of_length_le (by omega)]
    subst hb'
    clear hb
    dsimp only at i1 ⊢
    have nap1 : ∀ j, j < st.next + 1 → ¬ app j → ¬ app1 j := fun j hj h1 h => by rcases more1 j h with h | h; exact h1 h; omega
    have hsc1 : st1.heap csc = .ptr "" ⟨c, []⟩ := by rw [k1 _ (by omega) nc (by omega)]; go_run [hsc]
    have hc1 : st1.heap c = connV "" cs (.obj i) := by rw [k1 _ (by omega) nc' (by omega), connV]; go_run [hc]
    by_cases cf : Xdr.getU32 b &&& ((1 : UInt32) <<< 31) = 0
    · rw [if_pos cf]
      have cf' : (Xdr.getU32 b &&& ((1 : UInt32) <<< 31) == 0) = true := by rw [beq_iff_eq, ← cf]
      go_run [harr', List.drop_zero, List.take_length, ofBe32_getU32 _ hl4, shl31, ofInt31, ofInt_0, cf']
      exact ⟨app1, _, rfl, .fragment, H.stable _ inv1 (fun j hj => by have := alt1 j hj; go_run) (by go_run) (by go_lt),
        fun j hj => by rcases more1 j hj with h | h; exact .inl h; exact .inr (by omega),
        fun j h1 h2 => by go_run [k1 j (by omega) h2 (by omega)], by go_lt, by go_run [f1], by go_run [i1]⟩
    · rw [if_neg cf]
      have cf' : (Xdr.getU32 b &&& ((1 : UInt32) <<< 31) == 0) = false := by simpa using cf
      go_run [harr', List.drop_zero, List.take_length, ofBe32_getU32 _ hl4, shl31, ofInt31, ofInt_0, cf', ofInt_7]
      have hn := masked31 (Xdr.getU32 b)
      generalize (Xdr.getU32 b &&& 2147483647).toNat = n at hn ⊢
      refine wp_mono (getReqBuf_spec E W k H (H.stable _ inv1 (fun j hj => by have := alt1 j hj; go_run) (by go_run) (by go_lt)) n) ?_
      rintro _ st2 ⟨s, rfl, ⟨app2, inv2, more2, na2⟩, sl, ⟨arr, ha⟩, sp, slt, sge, k2, x2, f2, i2⟩
      simp only [next_set, next_push, next_deferring, world_set, world_push, world_deferring, defers_set, defers_push, defers_deferring] at more2 k2 x2 f2 i2 sge
      have alt2 : ∀ j, app2 j → j < st2.next := fun j => H.lt j inv2
      have nap2 : ∀ j, j < st1.next + 3 → ¬ app1 j → ¬ app2 j := fun j hj h1 h => by rcases more2 j h with h | h; exact h1 h; omega
      have ner : ¬ app1 st1.next := fun h => by have := alt1 _ h; omega
      have hsc2 : st2.heap csc = .ptr "" ⟨c, []⟩ := by rw [k2 _ (by omega) (nap1 _ (by omega) nc)]; go_run [hsc1]
      have hc2 : st2.heap c = connV "" cs (.obj i) := by rw [k2 _ (by omega) (nap1 _ (by omega) nc')]; go_run [hc1]
      have sne : ∀ j, j < st1.next + 3 → ¬ app1 j → j ≠ s.base.id := fun j h1 h2 h => by
        rcases sge with h' | h'
        · exact h2 (h ▸ h')
        · omega
      rw [connV] at hc2
      go_run [hsc2, hc2]
      refine wp_mono (H.read s arr (H.stable _ inv2 (fun j hj => by have := alt2 j hj; go_run) (by go_run) (by go_lt)) ⟨by go_run [ha.1], ha.2.1, ha.2.2⟩ sp na2 (by go_lt)) ?_
      rintro _ st3 ⟨n3, e3, arr3, app3, rfl, hla3, harr3, hm3, inv3, more3, i3, k3, x3, f3⟩
      simp only [next_set, next_push, next_deferring, world_set, world_push, world_deferring, defers_set, defers_push, defers_deferring] at more3 k3 x3 f3 i3 hm3
      have alt3 : ∀ j, app3 j → j < st3.next := fun j => H.lt j inv3
      have nap3 : ∀ j, j < st2.next + 1 → ¬ app2 j → ¬ app3 j := fun j hj h1 h => by rcases more3 j h with h | h; exact h1 h; omega
      rw [sl, i2, i1] at hm3 i3
      have kj : ∀ j, j < st.next → ¬ app j → st3.heap j = st.heap j := fun j h1 h2 => by
        have h3 := nap1 j (by omega) h2
        have h4 := nap2 j (by omega) h3
        rw [k3 j (by omega) h4 (sne j (by omega) h3)]
        go_run
        rw [k2 j (by omega) h3]
        go_run [k1 j (by omega) h2 (by omega)]
      have more : ∀ j, app3 j → app j ∨ st.next ≤ j := fun j hj => by
        rcases more3 j hj with h | h
        · rcases more2 j h with h | h
          · rcases more1 j h with h | h
            · exact .inl h
            · exact .inr (by omega)
          · exact .inr (by omega)
        · exact .inr (by omega)
      have ner3 : ¬ app3 st1.next := nap3 _ (by omega) (nap2 _ (by omega) ner)
      rcases hrf2 : readFull n in1 with ⟨r2, in2⟩
      rw [hrf2] at hm3 i3
      cases r2 with
      | error re =>
        dsimp only at hm3 i3 ⊢
        subst hm3
        have he3 : ∀ v, IterEnd W I app app3 y in2 st (st3.set st1.next v) := fun v =>
          ⟨H.stable _ inv3 (fun j hj => by have : j ≠ st1.next := fun h => ner3 (h ▸ hj); go_run) (by go_run) (by go_lt), more,
            fun j h1 h2 => by go_run [kj j h1 h2], by go_lt, by go_run [f3, f2, f1], by go_run [i3]⟩
        cases re <;> simp only [ioErr] at ⊢ <;> go_run
        · exact ⟨app3, _, rfl, .read .eof, he3 _⟩
        · exact ⟨app3, _, rfl, .read .unexpectedEOF, he3 _⟩
      | ok l =>
        dsimp only at hm3 i3 ⊢
        obtain ⟨rfl, rfl⟩ := hm3
        have hb3 : st3.heap st2.next = .slice s := by
          rw [k3 _ (by omega) (fun h => by have := alt2 _ h; omega) (by omega)]; go_run
        have hsc3 : st3.heap csc = .ptr "" ⟨c, []⟩ := by rw [kj _ u1 nc, hsc]
        have hc3 : st3.heap c = connV "" cs (.obj i) := by rw [kj _ u2 nc', hc, connV]
        have hc3' := hc3
        rw [connV] at hc3'
        have sb : st1.next ≠ s.base.id := sne _ (by omega) ner
        go_run [hsc3, hc3', hb3]
        refine wp_mono (H.spawn (c := c) (s := s) (arr := arr3) (by omega) (H.stable _ inv3 (fun j hj => by have : j ≠ st1.next := fun h => ner3 (h ▸ hj); go_run) (by go_run) (by go_lt))
          (by go_run [hc3]) ⟨by go_run [harr3.1], harr3.2.1, harr3.2.2⟩ sp (by go_lt) (by go_lt) (nap3 _ (by omega) (nap2 _ (by omega) (nap1 _ (by omega) nc')))
          (nap3 _ (by omega) na2) (sne _ (by omega) (nap1 _ (by omega) nc'))) ?_
        rintro _ st4 ⟨⟨app4, inv4, more4⟩, k4, x4, f4, i4⟩
        simp only [next_set, next_push, next_deferring, world_set, world_push, world_deferring, defers_set, defers_push, defers_deferring] at more4 k4 x4 f4 i4
        go_run
        refine ⟨app4, inv4, fun j hj => ?_, fun j h1 h2 => ?_, by go_lt, by go_run [f4, f3, f2, f1], by go_run [i4, i3]⟩
        · rcases more4 j hj with h | rfl | h
          · exact more j h
          · rcases sge with h | h
            · rcases more1 _ h with h | h
              · exact .inl h
              · exact .inr (by omega)
            · exact .inr (by omega)
          · exact .inr (by omega)
        · have h3 := nap1 j (by omega) h2
          rw [k4 j (by omega) (nap3 j (by omega) (nap2 j (by omega) h3)) (sne j (by omega) h3)]
          go_run [kj j h1 h2]

/-- How `Run` ends. -/
structure RunEnd {σ : Type} (W : Wire ω) (I : (Nat → Prop) → St ω → σ → Prop) (app : Nat → Prop) (y' : σ) (st st' : St ω) : Prop where
  inv : ∃ app', I app' st' y' ∧ ∀ j, app' j → app j ∨ st.next ≤ j
  frame : ∀ j, j < st.next → ¬ app j → st'.heap j = st.heap j
  next : st.next ≤ st'.next
  defers : st'.defers = st.defers

theorem repeat_spec {σ : Type} (E : Ext ω) (W : Wire ω) (k : Nat) {rw : V} {cs : Nat} {I : (Nat → Prop) → St ω → σ → Prop} {step : σ → List UInt8 → σ}
    (H : Host E W rw cs I step) {csc crw cself c : Nat} {x : RunErr} :
    ∀ (n : Nat) {reqs : List (List UInt8)} {st : St ω} {app : Nat → Prop} {y : σ} (_ : I app st y)
      (_ : st.heap csc = .ptr "" ⟨c, []⟩) (_ : st.heap c = connV "" cs rw) (_ : csc < st.next) (_ : c < st.next) (_ : ¬ app csc) (_ : ¬ app c)
      (_ : runN n (W.input st.world) = (reqs, some x)),
      wp (repeatM n (execs (sem E (k + 1)) "rfc1057" runLoop [[], [("sc", csc), ("rw", crw), ("s", cself)]] .next >>= fun r => pure r.2)) (fun ctl st' =>
        ∃ e, ctl = .ret [e] ∧ RunRel e x ∧ RunEnd W I app (reqs.foldl step y) st st') st
  | 0, _, _, _, _, _, _, _, _, _, _, _, h => by simp [runN] at h
  | n + 1, reqs, st, app, y, hI, h1, h2, h3, h4, h5, h6, h => by
    rw [repeatM, wp_bind, wp_bind]
    refine wp_mono (runLoop_spec E W k H hI h1 h2 h3 h4 h5 h6) ?_
    rintro ⟨ρ1, ctl1⟩ st1 hm
    rw [runN] at h
    rcases hr : readRequest (W.input st.world) with ⟨r, in1⟩
    rw [hr] at hm h
    cases r with
    | error e =>
      dsimp only at hm h
      obtain ⟨rfl, he⟩ := Prod.mk.inj h
      cases he
      obtain ⟨app1, ev, rfl, hrel, ⟨inv1, more1, k1, n1, d1, i1⟩⟩ := hm
      rw [wp_pure]
      dsimp only
      rw [wp_pure]
      exact ⟨_, rfl, hrel, ⟨app1, inv1, more1⟩, k1, n1, d1⟩
    | ok req =>
      dsimp only at hm h
      obtain ⟨app1, rfl, ⟨inv1, more1, k1, n1, d1, i1⟩⟩ := hm
      rw [wp_pure]
      dsimp only
      rcases hn : runN n in1 with ⟨reqs', e'⟩
      rw [hn] at h
      obtain ⟨rfl, rfl⟩ := Prod.mk.inj h
      have nap1 : ∀ j, j < st.next → ¬ app j → ¬ app1 j := fun j a b d => by rcases more1 j d with d | d; exact b d; omega
      refine wp_mono (repeat_spec E W k H n inv1 (by rw [k1 _ h3 h5, h1]) (by rw [k1 _ h4 h6, h2]) (by omega) (by omega) (nap1 _ h3 h5) (nap1 _ h4 h6)
        (by rw [i1]; exact hn)) ?_
      rintro _ st2 ⟨e, rfl, hrel, ⟨app2, inv2, more2⟩, k2, n2, d2⟩
      refine ⟨e, rfl, hrel, ⟨app2, inv2, fun j hj => ?_⟩, fun j a b => ?_, by omega, by rw [d2, d1]⟩
      · rcases more2 j hj with h | h
        · exact more1 j h
        · exact .inr (by omega)
      · rw [k2 j (by omega) (nap1 j a b), k1 j a b]

/-- server.go:69-96 -/
theorem Run_spec {σ : Type} (E : Ext ω) (W : Wire ω) (k : Nat) {rw : V} {cs : Nat} {I : (Nat → Prop) → St ω → σ → Prop} {step : σ → List UInt8 → σ}
    (H : Host E W rw cs I step) {st : St ω} {app : Nat → Prop} {y : σ} (hI : I app st y) {reqs : List (List UInt8)} {x : RunErr}
    (hrun : runN E.loops (W.input st.world) = (reqs, some x)) :
    wp (callN goProg E (k + 2) (.meth "rfc1057.Server" "Run") [.ptr "" ⟨cs, []⟩, rw]) (fun r st' =>
      ∃ e, r = [e] ∧ RunRel e x ∧ RunEnd W I app (reqs.foldl step y) st st') st := by
  rw [wp_callN _ _ _ _ _ _ _ _ _ find_server_Server_Run, wp_callFunc]
  dsimp only [server_Server_Run]
  obtain ⟨i, rfl⟩ := H.obj
  have alt : ∀ j, app j → j < st.next := fun j => H.lt j hI
  have napn : ∀ j, st.next ≤ j → ¬ app j := fun j hj h => by have := alt j h; omega
  go_run
  refine wp_mono (repeat_spec E W k H (csc := st.next + 1 + 1 + 1) (c := st.next + 1 + 1) (crw := st.next + 1) (cself := st.next) E.loops (reqs := reqs) (x := x)
    (H.stable _ hI (fun j hj => by have := alt j hj; go_run) (by go_run) (by go_lt)) (by go_run) (by rw [connV]; go_run) (by go_lt) (by go_lt) (napn _ (by omega)) (napn _ (by omega))
    (by go_run; exact hrun)) ?_
  rintro _ st1 ⟨e, rfl, hrel, ⟨app1, inv1, more1⟩, k1, n1, d1⟩
  simp only [next_set, next_push, next_deferring, world_set, world_push, world_deferring, defers_set, defers_push, defers_deferring] at more1 k1 n1 d1
  go_run [d1]
  exact ⟨e, rfl, hrel, ⟨app1, H.stable _ inv1 (fun j hj => rfl) rfl (Nat.le_refl _), fun j hj => by rcases more1 j hj with h | h; exact .inl h; exact .inr (by omega)⟩,
    fun j h1 h2 => by go_run [k1 j (by omega) h2], by go_lt, by go_run⟩

end Verif.Lang
