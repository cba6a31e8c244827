/-
The world outside the program: if two worlds answer the calls of a program alike, the program does the same
in both.
-/
import Verif.Lang.Sem

namespace Verif.Lang
set_option linter.unusedSectionVars false
variable {ω ω' α β : Type}
/-- The same memory, with worlds that are related. -/
structure Alike (R : ω → ω' → Prop) (st : St ω) (st' : St ω') : Prop where
  heap : st'.heap = st.heap
  next : st'.next = st.next
  defers : st'.defers = st.defers
  world : R st.world st'.world

/-- The same outcome, as far as that is known: nothing is said of what is stuck or runs out of calls. -/
def RelR (R : ω → ω' → Prop) : Except (Stop × St ω) (α × St ω) → Except (Stop × St ω') (α × St ω') → Prop
  | .ok r, x => ∃ s', x = .ok (r.1, s') ∧ Alike R r.2 s'
  | .error e, x => e.1 = .stuck ∨ e.1 = .fuel ∨ ∃ s', x = .error (e.1, s') ∧ Alike R e.2 s'

/-- `m'` does what `m` does. -/
def RelM (R : ω → ω' → Prop) (m : M ω α) (m' : M ω' α) : Prop :=
  ∀ st st', Alike R st st' → RelR R (m st) (m' st')

variable {R : ω → ω' → Prop}

theorem RelM.pure (a : α) : RelM R (Pure.pure a : M ω α) (Pure.pure a : M ω' α) :=
  fun _ st' h => ⟨st', rfl, h⟩

theorem RelM.stop (e : Stop) : RelM R (stop e : M ω α) (stop e : M ω' α) := fun _ st' h => .inr (.inr ⟨st', rfl, h⟩)

theorem RelM.bind {m : M ω α} {m' : M ω' α} {f : α → M ω β} {f' : α → M ω' β} (h : RelM R m m')
    (hf : ∀ a, RelM R (f a) (f' a)) : RelM R (m >>= f) (m' >>= f') := by
  intro st st' hs
  have h := h st st' hs
  show RelR R (M.bind m f st) (M.bind m' f' st')
  unfold M.bind
  cases hm : m st with
  | error e =>
    rw [hm] at h
    rcases h with h | h | ⟨s, h, h'⟩
    · exact .inl h
    · exact .inr (.inl h)
    · rw [h]; exact .inr (.inr ⟨s, rfl, h'⟩)
  | ok r =>
    rw [hm] at h
    obtain ⟨s', h1, h2⟩ := h
    rw [h1]
    exact hf r.1 r.2 s' h2

theorem RelM.finally {m : M ω α} {m' : M ω' α} {d : M ω Unit} {d' : M ω' Unit} (h : RelM R m m') (hd : RelM R d d') :
    RelM R (finally' m d) (finally' m' d') := by
  intro st st' hs
  have h := h st st' hs
  have h1 := fun a : α => RelM.bind hd fun _ => RelM.pure (R := R) a
  have h2 := RelM.bind hd fun _ => RelM.stop (R := R) (α := α) .panic
  unfold finally'
  cases hm : m st with
  | error e =>
    rw [hm] at h
    obtain ⟨e, s⟩ := e
    rcases h with h | h | ⟨s', h, h'⟩
    · cases h; exact .inl rfl
    · cases h; exact .inr (.inl rfl)
    · rw [h]
      cases e with
      | panic => exact h2 s s' h'
      | _ => exact .inr (.inr ⟨s', rfl, h'⟩)
  | ok r =>
    rw [hm] at h
    obtain ⟨s', e1, e2⟩ := h
    rw [e1]
    exact h1 r.1 r.2 s' e2

theorem RelM.ite {c : Prop} [Decidable c] {a b : M ω α} {a' b' : M ω' α} (h1 : RelM R a a') (h2 : RelM R b b') :
    RelM R (if c then a else b) (if c then a' else b') := by
  split
  · exact h1
  · exact h2

theorem some_rel (o : Option α) : RelM R (some! o : M ω α) (some! o : M ω' α) := by
  cases o with
  | none => exact .stop _
  | some a => exact .pure _

theorem load_rel (l : Loc) : RelM R (load l : M ω V) (load l : M ω' V) := by
  intro st st' h
  have e : st'.at l = st.at l := by unfold St.at; rw [h.heap]
  unfold load
  rw [e]
  cases st.at l with
  | none => exact .inl rfl
  | some v => exact ⟨st', rfl, h⟩

theorem Alike.set {st : St ω} {st' : St ω'} (h : Alike R st st') (i : Nat) (w : V) :
    Alike R (st.set i w) (st'.set i w) :=
  ⟨by show (fun j => if j = i then w else st'.heap j) = _; rw [h.heap]; rfl, h.next, h.defers, h.world⟩

theorem raw_rel (l : Loc) (v : V) : RelM R (storeRaw l v : M ω Unit) (storeRaw l v : M ω' Unit) := by
  intro st st' h
  unfold storeRaw
  rw [h.heap]
  cases V.put v (st.heap l.id) l.path with
  | none => exact .inl rfl
  | some w => exact ⟨_, rfl, h.set _ _⟩

theorem alloc_rel (v : V) : RelM R (alloc v : M ω Nat) (alloc v : M ω' Nat) := by
  intro st st' h
  refine ⟨_, by unfold alloc; rw [h.next], ?_⟩
  exact ⟨by show (fun j => if j = st.next then v else st'.heap j) = _; rw [h.heap], rfl, h.defers, h.world⟩

theorem getDefers_rel : RelM R (getDefers : M ω _) (getDefers : M ω' _) := by
  intro st st' h
  exact ⟨st', by show Except.ok (st'.defers, st') = _; rw [h.defers], h⟩

theorem setDefers_rel (ds : List (FKey × List V)) : RelM R (setDefers ds : M ω _) (setDefers ds : M ω' _) :=
  fun _ _ h => ⟨_, rfl, h.heap, h.next, rfl, h.world⟩

theorem pushDefer_rel (c : FKey × List V) : RelM R (pushDefer c : M ω _) (pushDefer c : M ω' _) := by
  intro st st' h
  exact ⟨_, rfl, h.heap, h.next, by show _ :: st'.defers = _; rw [h.defers], h.world⟩

/-- What does not depend on the world does the same in both. -/
syntax "rel" ("[" term,* "]")? : tactic
macro_rules
  | `(tactic| rel) => `(tactic| rel [RelM.pure])
  | `(tactic| rel [$hs,*]) => do
    let ts ← hs.getElems.mapM fun h => `(tactic| apply $h)
    `(tactic| repeat' first
      | assumption
      | exact RelM.pure _
      | exact RelM.stop _
      | exact some_rel _
      | exact load_rel _
      | exact raw_rel _ _
      | exact alloc_rel _
      $[| $ts:tactic]*
      | refine RelM.bind ?_ fun _ => ?_
      | refine RelM.ite ?_ ?_
      | split
      | (exfalso; simp_all; done))

theorem store_rel (l : Loc) (v : V) : RelM R (store l v : M ω Unit) (store l v : M ω' Unit) := by
  unfold store; rel
theorem array_rel (s : Slice) : RelM R (arrayOf s : M ω _) (arrayOf s : M ω' _) := by unfold arrayOf; rel
theorem bytesOf_rel (v : V) : RelM R (bytesOf v : M ω _) (bytesOf v : M ω' _) := by
  cases v <;> unfold bytesOf <;> rel [array_rel]
theorem len_rel (v : V) : RelM R (lenV v : M ω _) (lenV v : M ω' _) := by cases v <;> unfold lenV <;> rel
theorem cap_rel (v : V) : RelM R (capV v : M ω _) (capV v : M ω' _) := by cases v <;> unfold capV <;> rel
theorem copy_rel (d v : V) : RelM R (copyV d v : M ω _) (copyV d v : M ω' _) := by
  cases d <;> unfold copyV <;> rel [bytesOf_rel, array_rel]
theorem newSlice_rel (b : List UInt8) (n : Nat) : RelM R (newSlice b n : M ω _) (newSlice b n : M ω' _) := by
  unfold newSlice; rel
theorem append_rel (g : Nat → Nat → Nat) (d v : V) : RelM R (appendV g d v : M ω _) (appendV g d v : M ω' _) := by
  cases d <;> unfold appendV <;> rel [bytesOf_rel, array_rel, newSlice_rel]
theorem elem_rel (g : Nat → Nat → Nat) (d v : V) : RelM R (appendElem g d v : M ω _) (appendElem g d v : M ω' _) := by
  cases d <;> unfold appendElem <;> rel
theorem slice_rel (v : V) (lo hi mx : Option Nat) : RelM R (sliceV v lo hi mx : M ω _) (sliceV v lo hi mx : M ω' _) := by
  cases v <;> unfold sliceV <;> rel
theorem nat_rel (v : V) : RelM R (natV v : M ω _) (natV v : M ω' _) := by cases v <;> unfold natV <;> rel
theorem make_rel (P : Prog) (p : String) (t : Ty) (vs : List V) :
    RelM R (makeV P p t vs : M ω _) (makeV P p t vs : M ω' _) := by
  unfold makeV; rel [nat_rel, newSlice_rel]
theorem putBytes_rel (v : V) (d : List UInt8) : RelM R (putBytes v d : M ω _) (putBytes v d : M ω' _) := by
  cases v <;> unfold putBytes <;> rel [array_rel]
theorem bigEndian_rel (m : String) (vs : List V) : RelM R (bigEndian m vs : M ω _) (bigEndian m vs : M ω' _) := by
  unfold bigEndian; rel [putBytes_rel, bytesOf_rel]
theorem builtin_rel (g : Nat → Nat → Nat) (f : String) (vs : List V) (sp : Bool) :
    RelM R (builtin g f vs sp : M ω _) (builtin g f vs sp : M ω' _) := by
  unfold builtin; rel [len_rel, cap_rel, copy_rel, append_rel, elem_rel, bytesOf_rel]
theorem convert_rel (P : Prog) (p : String) (t : Ty) (vs : List V) :
    RelM R (convertV P p t vs : M ω _) (convertV P p t vs : M ω' _) := by
  unfold convertV; rel [newSlice_rel]
theorem one_rel (vs : List V) : RelM R (one vs : M ω _) (one vs : M ω' _) := by unfold one; rel
theorem index_rel (v k : V) : RelM R (indexV v k : M ω _) (indexV v k : M ω' _) := by
  cases v <;> unfold indexV <;> rel [nat_rel]
theorem place_rel (v k : V) : RelM R (elemV v k : M ω _) (elemV v k : M ω' _) := by
  cases v <;> unfold elemV <;> rel [nat_rel]
theorem lookup_rel (m k : V) : RelM R (lookupV m k : M ω _) (lookupV m k : M ω' _) := by
  unfold lookupV; rel
theorem update_rel (m k v : V) : RelM R (updateV m k v : M ω _) (updateV m k v : M ω' _) := by
  unfold updateV; rel
theorem field_rel (v : V) (f : String) : RelM R (evalField v f : M ω _) (evalField v f : M ω' _) := by
  cases v <;> unfold evalField <;> rel
theorem declare_rel (x : String) (v : V) (ρ : Env) : RelM R (declare x v ρ : M ω _) (declare x v ρ : M ω' _) := by
  unfold declare; rel
theorem define_rel (x : String) (v : V) (ρ : Env) : RelM R (define x v ρ : M ω _) (define x v ρ : M ω' _) := by
  unfold define; rel [store_rel, declare_rel]
theorem defineAll_rel : ∀ (xs : List String) (vs : List V) (ρ : Env),
    RelM R (defineAll xs vs ρ : M ω _) (defineAll xs vs ρ : M ω' _)
  | [], [], _ => .pure _
  | [], _ :: _, _ => .stop _
  | _ :: _, [], _ => .stop _
  | x :: xs, v :: vs, ρ => by
    rw [defineAll, defineAll]; exact .bind (define_rel _ _ _) fun _ => defineAll_rel xs vs _
theorem declareAll_rel (v : V) : ∀ (xs : List String) (ρ : Env),
    RelM R (declareAll v xs ρ : M ω _) (declareAll v xs ρ : M ω' _)
  | [], _ => .pure _
  | x :: xs, ρ => by rw [declareAll, declareAll]; exact .bind (declare_rel _ _ _) fun _ => declareAll_rel v xs _
theorem elems_rel (v : V) : RelM R (elemsV v : M ω _) (elemsV v : M ω' _) := by cases v <;> unfold elemsV <;> rel

section
variable {S : Sem ω} {S' : Sem ω'}

/-- The same program, in worlds that answer alike. -/
structure RelS (R : ω → ω' → Prop) (S : Sem ω) (S' : Sem ω') : Prop where
  prog : S'.prog = S.prog
  call : ∀ k vs, RelM R (S.call k vs) (S'.call k vs)
  ext : ∀ f vs, RelM R (S.ext f vs) (S'.ext f vs)
  spawn : ∀ k vs, RelM R (S.spawn k vs) (S'.spawn k vs)
  grow : S'.grow = S.grow
  loops : S'.loops = S.loops

variable (F : RelS R S S')
include F

theorem id_rel (p : String) (ρ : Env) (x : String) : RelM R (evalId S p ρ x) (evalId S' p ρ x) := by
  unfold evalId; rw [F.prog]; rel

theorem member_rel (q x : String) : RelM R (evalMember S q x) (evalMember S' q x) := by
  unfold evalMember; rw [F.prog]; rel

theorem callVal_rel (f : V) (vs : List V) : RelM R (callVal S f vs) (callVal S' f vs) := by
  unfold callVal; rel [F.call, F.ext]

theorem callPkg_rel (q f : String) (vs : List V) : RelM R (callPkg S q f vs) (callPkg S' q f vs) := by
  unfold callPkg; rw [F.prog]; rel [F.call, F.ext, convert_rel]

theorem callMeth_rel (v : V) (m : String) (vs : List V) : RelM R (callMeth S v m vs) (callMeth S' v m vs) := by
  cases v <;> unfold callMeth <;> rel [F.call, F.ext]

omit F in
/-- One value. -/
theorem oneOf_rel {m : M ω (List V)} {m' : M ω' (List V)} (h : RelM R m m') : RelM R (m >>= one) (m' >>= one) :=
  h.bind fun _ => one_rel _

theorem callid_rel (p : String) (ρ : Env) (f : String) (args : List Expr) (sp : Bool)
    (ha : RelM R (evalArgs S p ρ args) (evalArgs S' p ρ args))
    (ht : ∀ t as, args = .ty t :: as → RelM R (evalArgs S p ρ as) (evalArgs S' p ρ as)) :
    RelM R (evalM S p ρ (.call (.id f) args sp)) (evalM S' p ρ (.call (.id f) args sp)) := by
  have key : ∀ (r : M ω (List V)) (r' : M ω' (List V)), RelM R r r' → RelM R
      (match ρ.find f with
        | some i => do
          let fv ← load ⟨i, []⟩
          let vs ← evalArgs S p ρ args
          callVal S fv vs
        | none =>
          if f = "make" then r
          else if f = "new" then
            match newArg args with
            | some t => do
              let z ← some! (S.prog.zero p t)
              let i ← alloc z
              pure [.ptr "" ⟨i, []⟩]
            | none => stop .stuck
          else do
            let vs ← evalArgs S p ρ args
            if builtins.contains f then builtin S.grow f vs sp
            else if isType S.prog p f then convertV S.prog p (.name f) vs
            else S.call (.fn p f) vs)
      (match ρ.find f with
        | some i => do
          let fv ← load ⟨i, []⟩
          let vs ← evalArgs S' p ρ args
          callVal S' fv vs
        | none =>
          if f = "make" then r'
          else if f = "new" then
            match newArg args with
            | some t => do
              let z ← some! (S.prog.zero p t)
              let i ← alloc z
              pure [.ptr "" ⟨i, []⟩]
            | none => stop .stuck
          else do
            let vs ← evalArgs S' p ρ args
            if builtins.contains f then builtin S.grow f vs sp
            else if isType S.prog p f then convertV S.prog p (.name f) vs
            else S'.call (.fn p f) vs) := by
    intro r r' hr
    rel [callVal_rel F, F.call, builtin_rel, convert_rel]
  cases args with
  | nil =>
    rw [evalM, evalM, F.prog, F.grow]
    · exact key _ _ (.stop _)
    all_goals (intros; contradiction)
  | cons e es =>
    cases e with
    | ty t =>
      rw [evalM, evalM, F.prog, F.grow]
      exact key _ _ (.bind (ht t es rfl) fun _ => .bind (make_rel _ _ _ _) fun _ => .pure _)
    | _ =>
      rw [evalM, evalM, F.prog, F.grow]
      · exact key _ _ (.stop _)
      all_goals (intro _ _ h; cases h)

theorem un_rel (p : String) (ρ : Env) (op : String) (e : Expr) (h1 : RelM R (evalM S p ρ e) (evalM S' p ρ e))
    (h2 : RelM R (addr S p ρ e) (addr S' p ρ e))
    (h3 : ∀ t fs es, e = .lit t fs es → RelM R (evalArgs S p ρ es) (evalArgs S' p ρ es)) :
    RelM R (evalM S p ρ (.un op e)) (evalM S' p ρ (.un op e)) := by
  by_cases hl : ∃ t fs es, e = .lit t fs es
  · obtain ⟨t, fs, es, rfl⟩ := hl
    have e1 : ∀ {ω : Type} (S : Sem ω), evalM S p ρ (.un op (.lit t fs es)) = (if op = "&" then (do
        let z ← some! (S.prog.zero p t)
        let vs ← evalArgs S p ρ es
        let v ← some! (setFields (fieldNames fs z) vs z)
        let i ← alloc v
        pure [.ptr "" ⟨i, []⟩])
      else if op = "*" then do
        match ← (evalM S p ρ (.lit t fs es) >>= one) with
        | .ptr _ l => do pure [← load l]
        | .nil => stop .panic
        | .glob x => do pure [← (S.ext "*" [.glob x] >>= one)]
        | _ => stop .stuck
      else if op = "!" then do
        match ← (evalM S p ρ (.lit t fs es) >>= one) with
        | .bool b => pure [.bool (!b)]
        | _ => stop .stuck
      else if op = "-" then do
        match ← (evalM S p ρ (.lit t fs es) >>= one) with
        | .const n => pure [.const (-n)]
        | _ => stop .stuck
      else stop .stuck) := fun S => by rw [evalM]; rfl
    have h3 := h3 _ _ _ rfl
    rw [e1, e1, F.prog]
    rel [one_rel, F.ext]
  · rw [evalM, evalM]
    · rel [one_rel, F.ext]
    all_goals exact fun t fs es h => hl ⟨t, fs, es, h⟩

mutual
theorem eval_rel (p : String) (ρ : Env) : ∀ e : Expr, RelM R (evalM S p ρ e) (evalM S' p ρ e)
  | .id x => by rw [evalM, evalM]; exact .bind (id_rel F p ρ x) fun _ => .pure _
  | .int k => by rw [evalM, evalM]; exact .pure _
  | .str s => by rw [evalM, evalM]; exact .pure _
  | .sel e f => by
    have h := eval_rel p ρ e
    rw [evalM, evalM, F.prog]
    rel [member_rel F, one_rel, field_rel]
  | .idx e i => by
    have h1 := eval_rel p ρ e
    have h2 := eval_rel p ρ i
    rw [evalM, evalM]
    rel [one_rel, lookup_rel, index_rel]
  | .slc e lo hi mx => by
    have h1 := eval_rel p ρ e
    have h2 := addr_rel p ρ e
    have h3 := bound_rel p ρ lo
    have h4 := bound_rel p ρ hi
    have h5 := bound_rel p ρ mx
    rw [evalM, evalM]
    rel [one_rel, slice_rel]
  | .call (.id f) args sp => by
    refine callid_rel F p ρ f args sp (args_rel p ρ args) ?_
    cases args with
    | nil => intro _ _ h; cases h
    | cons e es => intro t as h; cases h; exact args_rel p ρ es
  | .call (.sel e m) args sp => by
    have h1 := eval_rel p ρ e
    have h2 := addr_rel p ρ e
    have h3 := args_rel p ρ args
    rw [evalM, evalM, F.prog]
    rel [one_rel, bigEndian_rel, callPkg_rel F, callMeth_rel F]
  | .call (.un op t) args sp => by
    have h3 := args_rel p ρ args
    rw [evalM, evalM, F.prog]
    rel [convert_rel]
  | .call (.ty t) args sp => by
    have h3 := args_rel p ρ args
    rw [evalM, evalM, F.prog]
    rel [convert_rel]
  | .call (.int _) _ _ | .call (.str _) _ _ | .call (.idx _ _) _ _ | .call (.slc _ _ _ _) _ _
  | .call (.call _ _ _) _ _ | .call (.bin _ _ _) _ _ | .call (.lit _ _ _) _ _
  | .call (.assert _ _) _ _ | .call (.mval _ _ _) _ _ => by
    rw [evalM, evalM]
    · exact .stop _
    all_goals (intros; contradiction)
  | .un op e => by
    refine un_rel F p ρ op e (eval_rel p ρ e) (addr_rel p ρ e) ?_
    cases e with
    | lit t fs es => intro _ _ _ h; cases h; exact args_rel p ρ es
    | _ => intro _ _ _ h; cases h
  | .bin op a b => by
    have h1 := eval_rel p ρ a
    have h2 := eval_rel p ρ b
    rw [evalM, evalM]
    rel [one_rel]
  | .lit t fs es => by
    have h := args_rel p ρ es
    cases t with
    | slice t => rw [evalM, evalM]; rel
    | _ =>
      rw [evalM, evalM, F.prog]
      · rel
      all_goals (intros; contradiction)
  | .ty t => by rw [evalM, evalM]; exact .stop _
  | .assert e t => by rw [evalM, evalM]; exact eval_rel p ρ e
  | .mval T e m => by
    have h1 := eval_rel p ρ e
    rw [evalM, evalM]
    rel [one_rel]

theorem addr_rel (p : String) (ρ : Env) : ∀ e : Expr, RelM R (addr S p ρ e) (addr S' p ρ e)
  | .id x => by rw [addr, addr]; rel
  | .sel e f => by
    have h1 := eval_rel p ρ e
    have h2 := addr_rel p ρ e
    rw [addr, addr]
    rel [one_rel]
  | .un op e => by
    have h1 := eval_rel p ρ e
    rw [addr, addr]
    rel [one_rel]
  | .idx e i => by
    have h1 := eval_rel p ρ e
    have h2 := eval_rel p ρ i
    rw [addr, addr]
    rel [one_rel, place_rel]
  | .int _ | .str _ | .slc _ _ _ _ | .call _ _ _ | .bin _ _ _ | .lit _ _ _ | .ty _ | .assert _ _ | .mval _ _ _ => by
    rw [addr, addr]
    · exact .stop _
    all_goals (intros; contradiction)

theorem args_rel (p : String) (ρ : Env) : ∀ es : List Expr, RelM R (evalArgs S p ρ es) (evalArgs S' p ρ es)
  | [] => by rw [evalArgs, evalArgs]; exact .pure _
  | e :: es => by
    have h1 := eval_rel p ρ e
    have h2 := args_rel p ρ es
    rw [evalArgs, evalArgs]
    rel [one_rel]

theorem bound_rel (p : String) (ρ : Env) : ∀ e : Option Expr, RelM R (evalBound S p ρ e) (evalBound S' p ρ e)
  | none => by rw [evalBound, evalBound]; exact .pure _
  | some e => by
    have h1 := eval_rel p ρ e
    rw [evalBound, evalBound]
    rel [one_rel, nat_rel]
end

theorem rhs_rel (p : String) (ρ : Env) (n : Nat) (es : List Expr) : RelM R (evalRhs S p ρ n es) (evalRhs S' p ρ n es) := by
  unfold evalRhs
  split
  · rel [one_rel, eval_rel F, lookup_rel]
  · exact eval_rel F p ρ _
  · exact args_rel F p ρ _

theorem assignTo_rel (p : String) (ρ : Env) (e : Expr) (v : V) : RelM R (assignTo S p ρ e v) (assignTo S' p ρ e v) := by
  unfold assignTo
  rw [F.prog]
  split
  · rel [one_rel, eval_rel F, update_rel]
  · exact .pure _
  · rel [store_rel, F.ext]
  · rel [addr_rel F, store_rel]

theorem assignAll_rel (p : String) (ρ : Env) : ∀ (es : List Expr) (vs : List V), RelM R (assignAll S p ρ es vs) (assignAll S' p ρ es vs)
  | [], [] => .pure _
  | [], _ :: _ => .stop _
  | _ :: _, [] => .stop _
  | e :: es, v :: vs => .bind (assignTo_rel F p ρ e v) fun _ => assignAll_rel p ρ es vs

omit F in
theorem repeat_rel {m : M ω Ctl} {m' : M ω' Ctl} (h : RelM R m m') : ∀ n, RelM R (repeatM n m) (repeatM n m')
  | 0 => .stop _
  | n + 1 => by
    rw [repeatM, repeatM]
    refine .bind h fun c => ?_
    cases c with
    | next => exact repeat_rel h n
    | _ => exact .pure _

omit F in
theorem range_rel {f : Nat → V → M ω Ctl} {f' : Nat → V → M ω' Ctl} (h : ∀ i v, RelM R (f i v) (f' i v)) :
    ∀ (vs : List V) (i : Nat), RelM R (rangeM f i vs) (rangeM f' i vs)
  | [], _ => .pure _
  | v :: vs, i => by
    rw [rangeM, rangeM]
    refine .bind (h i v) fun c => ?_
    cases c with
    | next => exact range_rel h vs _
    | _ => exact .pure _

theorem any_rel (p : String) (ρ : Env) (v : V) : ∀ es : List Expr, RelM R (anyCase S p ρ v es) (anyCase S' p ρ v es)
  | [] => .pure _
  | e :: es => by
    have ih := any_rel p ρ v es
    rw [anyCase, anyCase]
    rel [one_rel, eval_rel F]

theorem choose_rel (p : String) (ρ : Env) (v : V) : ∀ (cs : List (List Expr)) (i : Nat) (d : Option Nat),
    RelM R (choose S p ρ v i d cs) (choose S' p ρ v i d cs)
  | [], _, _ => .pure _
  | [] :: cs, i, d => by rw [choose, choose]; exact choose_rel p ρ v cs _ _
  | (e :: es) :: cs, i, d => by
    rw [choose, choose]
    exact .bind (any_rel F p ρ v _) fun b => .ite (.pure _) (choose_rel p ρ v cs _ _)

theorem callee_rel (p : String) (ρ : Env) (e : Expr) : RelM R (callee S p ρ e) (callee S' p ρ e) := by
  unfold callee
  split
  · rel [args_rel F]
  · rw [F.prog]
    rel [args_rel F, one_rel, eval_rel F]
  · exact .stop _

mutual
theorem exec_rel (p : String) : ∀ (s : Stmt) (ρ : Env), RelM R (exec S p s ρ) (exec S' p s ρ)
  | .expr e, ρ => by rw [exec, exec]; rel [eval_rel F]
  | .define xs es, ρ => by rw [exec, exec]; rel [rhs_rel F, defineAll_rel]
  | .assign ls es, ρ => by rw [exec, exec]; rel [rhs_rel F, assignAll_rel F]
  | .inc e, ρ => by rw [exec, exec]; rel [addr_rel F, store_rel]
  | .var xs t, ρ => by rw [exec, exec, F.prog]; rel [declareAll_rel]
  | .ite c a b, ρ => by
    have ha := execs_rel p a ([] :: ρ) .next
    have hb := execs_rel p b ([] :: ρ) .next
    rw [exec, exec]
    rel [one_rel, eval_rel F]
  | .forever b, ρ => by
    have hb := execs_rel p b ([] :: ρ) .next
    rw [exec, exec, F.loops]
    exact .bind (repeat_rel (.bind hb fun _ => .pure _) _) fun _ => .pure _
  | .range k v e b, ρ => by
    have hb := fun ρ => execs_rel p b ρ .next
    rw [exec, exec]
    exact .bind (oneOf_rel (eval_rel F p ρ e)) fun l => .bind (elems_rel _) fun vs => .bind
      (range_rel (fun i w => .bind (define_rel _ _ _) fun _ => .bind (define_rel _ _ _) fun _ =>
        .bind (hb _) fun _ => .pure _) _ _) fun _ => .pure _
  | .loop i c q b, ρ => by
    have hi := exec_rel p i ([] :: ρ)
    have hb := fun ρ => execs_rel p b ρ .next
    have hq := fun ρ => exec_rel p q ρ
    rw [exec, exec, F.loops]
    refine .bind hi fun r => .bind (repeat_rel ?_ _) fun _ => .pure _
    refine .bind (oneOf_rel (eval_rel F p r.1 c)) fun v => ?_
    have hb := hb ([] :: r.1)
    have hq := hq r.1
    cases v with
    | bool t => cases t with
      | true =>
        refine .bind hb fun s => ?_
        rcases s with ⟨ρ', c'⟩
        cases c' with
        | next => exact .bind hq fun _ => .pure _
        | _ => exact .pure _
      | false => exact .pure _
    | _ => exact .pure _
  | .switch e cs bs, ρ => by
    have hb := fun i => nth_rel p bs i ρ
    rw [exec, exec]
    rel [one_rel, eval_rel F, choose_rel F, hb]
  | .tswitch x e cs bs, ρ => by
    have hb := fun i ρ => nth_rel p bs i ρ
    rw [exec, exec]
    rel [one_rel, eval_rel F, hb, declare_rel]
  | .ret es, ρ => by rw [exec, exec]; rel [rhs_rel F]
  | .goto l, ρ => by rw [exec, exec]; exact .pure _
  | .label l, ρ => by rw [exec, exec]; exact .pure _
  | .go e, ρ => by rw [exec, exec]; rel [callee_rel F, F.spawn]
  | .defer e, ρ => by rw [exec, exec]; rel [callee_rel F, pushDefer_rel]
  | .block b, ρ => by
    have hb := execs_rel p b ([] :: ρ) .next
    rw [exec, exec]; rel

theorem execs_rel (p : String) : ∀ (b : List Stmt) (ρ : Env) (c : Ctl), RelM R (execs S p b ρ c) (execs S' p b ρ c)
  | [], ρ, c => by rw [execs, execs]; exact .pure _
  | s :: b, ρ, c => by
    have hs := exec_rel p s ρ
    have hb := fun ρ c => execs_rel p b ρ c
    cases c with
    | next => rw [execs, execs]; exact .bind hs fun _ => hb _ _
    | ret vs =>
      cases s <;> first
        | (rw [execs, execs] <;> first | exact hb _ _ | (intros; contradiction))
    | goto l =>
      cases s <;> first
        | (rw [execs, execs] <;> first | exact hb _ _ | (intros; contradiction))

theorem nth_rel (p : String) : ∀ (bs : List (List Stmt)) (i : Nat) (ρ : Env), RelM R (execNth S p bs i ρ) (execNth S' p bs i ρ)
  | [], i, ρ => by rw [execNth, execNth]; exact .stop _
  | b :: bs, i, ρ => by
    have hb := execs_rel p b ([] :: ρ) .next
    have hn := fun i => nth_rel p bs i ρ
    cases i with
    | zero => rw [execNth, execNth]; exact .bind hb fun _ => .pure _
    | succ i => rw [execNth, execNth]; exact hn i
end

theorem defers_rel : ∀ ds : List (FKey × List V), RelM R (runDefers S ds) (runDefers S' ds)
  | [] => .pure _
  | (k, vs) :: ds => by rw [runDefers, runDefers]; exact .finally (.bind (F.call k vs) fun _ => .pure _) (defers_rel ds)

omit F in
theorem params_rel (P : Prog) (p : String) : ∀ (ps : List (String × Ty)) (vs : List V) (ρ : Env),
    RelM R (bindParams P p ps vs ρ : M ω _) (bindParams P p ps vs ρ : M ω' _)
  | [], [], _ => .pure _
  | [], _ :: _, _ => .stop _
  | _ :: _, [], _ => .stop _
  | (x, t) :: ps, v :: vs, ρ => by
    rw [bindParams, bindParams]
    exact .bind (some_rel _) fun _ => .bind (declare_rel _ _ _) fun _ => params_rel P p ps vs _

omit F in
theorem bindResults_rel (P : Prog) (p : String) : ∀ (rs : List (String × Ty)) (ρ : Env),
    RelM R (bindResults P p rs ρ : M ω _) (bindResults P p rs ρ : M ω' _)
  | [], _ => .pure _
  | (x, t) :: rs, ρ => by
    have h := fun ρ => bindResults_rel P p rs ρ
    rw [bindResults, bindResults]
    exact .ite (h _) (.bind (some_rel _) fun _ => .bind (declare_rel _ _ _) fun _ => h _)

omit F in
theorem results_rel (P : Prog) (p : String) : ∀ (rs : List (String × Ty)) (vs : List V),
    RelM R (results P p rs vs : M ω _) (results P p rs vs : M ω' _)
  | [], [] => .pure _
  | [], _ :: _ => .stop _
  | _ :: _, [] => .stop _
  | (x, t) :: rs, v :: vs => by
    rw [results, results]
    exact .bind (some_rel _) fun _ => .bind (results_rel P p rs vs) fun _ => .pure _

omit F in
theorem named_rel (ρ : Env) : ∀ rs : List (String × Ty),
    RelM R (namedResults ρ rs : M ω _) (namedResults ρ rs : M ω' _)
  | [] => .pure _
  | (x, t) :: rs => by
    rw [namedResults, namedResults]
    exact .bind (some_rel _) fun _ => .bind (load_rel _) fun _ => .bind (named_rel ρ rs) fun _ => .pure _

theorem finish_rel (p : String) (ρ : Env) (f : Func) (c : Ctl) : RelM R (finish S p ρ f c) (finish S' p ρ f c) := by
  unfold finish
  rw [F.prog]
  rel [named_rel, results_rel]

theorem func_rel (p : String) (f : Func) (args : List V) : RelM R (callFunc S p f args) (callFunc S' p f args) := by
  unfold callFunc runBody
  rw [F.prog]
  exact .bind getDefers_rel fun _ => .bind (setDefers_rel _) fun _ => .finally (.bind (params_rel _ _ _ _ _) fun _ =>
    .bind (bindResults_rel _ _ _ _) fun _ => .bind (execs_rel F p _ _ _) fun _ => finish_rel F _ _ _ _)
    (.bind getDefers_rel fun _ => .bind (defers_rel F _) fun _ => setDefers_rel _)
end

/-- Worlds that answer alike. -/
structure RelE (R : ω → ω' → Prop) (E : Ext ω) (E' : Ext ω') : Prop where
  ext : ∀ f vs, RelM R (E.ext f vs) (E'.ext f vs)
  spawn : ∀ k vs, RelM R (E.spawn k vs) (E'.spawn k vs)
  grow : E'.grow = E.grow
  loops : E'.loops = E.loops

/-- A call does the same in both worlds. -/
theorem callN_rel (P : Prog) {E : Ext ω} {E' : Ext ω'} (h : RelE R E E') : ∀ (k : Nat) (key : FKey) (args : List V),
    RelM R (callN P E k key args) (callN P E' k key args)
  | 0, _, _ => .stop _
  | k + 1, key, args => by
    rw [callN, callN]
    cases P.find key with
    | none => exact h.ext _ _
    | some pf =>
      exact func_rel (S := ⟨P, callN P E k, E.ext, E.spawn, E.grow, E.loops⟩)
        (S' := ⟨P, callN P E' k, E'.ext, E'.spawn, E'.grow, E'.loops⟩)
        ⟨rfl, callN_rel P h k, h.ext, h.spawn, h.grow, h.loops⟩ _ _ _

end Verif.Lang
