/-
Running the generated code is the codec: `execs (goXdr t p)` changes exactly the value `p` points
to, as `t.codec` says.  Where the codec is `stuck` nothing is claimed.
-/
import Verif.Gen.Path
import Verif.Gen.Codec

namespace Verif.Gen
open Verif.Xdr

def Decl.names : Decl → List Ident
  | .void => []
  | .name _ n => [i n]

def Decls.names : Decls → List Ident
  | .nil => []
  | .cons d ds => d.names ++ ds.names

def Cases.names : Cases → List Ident
  | .nil => []
  | .dflt d => d.names
  | .cons _ _ d cs => d.names ++ cs.names

mutual
/-- The declarations for which the generated code addresses the right data: no fixed-length arrays
of non-opaque elements, no variable-length array inside the inline element type of another one
(`inArr`), distinct field names. -/
def Typespec.ok (inArr : Bool) : Typespec → Bool
  | .struct ds => decide ds.names.Nodup && ds.ok inArr
  | .union sw cs => decide (sw.names ++ cs.names).Nodup && sw.ok inArr && cs.ok inArr
  | _ => true
def DeclType.ok (inArr : Bool) : DeclType → Bool
  | .typespec t => t.ok inArr
  | .array _ _ => false
  | .varArray t _ => !inArr && t.ok true
  | .opaqueArray _ => true
  | .opaqueVarArray _ => true
  | .string _ => true
  | .ptr t => t.ok inArr
def Decl.ok (inArr : Bool) : Decl → Bool
  | .void => true
  | .name t _ => t.ok inArr
def Decls.ok (inArr : Bool) : Decls → Bool
  | .nil => true
  | .cons d ds => d.ok inArr && ds.ok inArr
def Cases.ok (inArr : Bool) : Cases → Bool
  | .nil => true
  | .dflt d => d.ok inArr
  | .cons _ _ d cs => d.ok inArr && cs.ok inArr
end

/-- `e`, started in `st`, does to the content of `path` what `r` says. -/
def Sim (r : Res (XdrState × GoVal)) (st : St) (path : List Step) (e : Res St) : Prop :=
  match r with
  | .error .stuck => True
  | .error s => e = .error s
  | .ok (xs', w') => ∃ v', storePath st.v path w' = .ok v' ∧ e = .ok ⟨xs', v', st.locals⟩

theorem Sim.seq {r1 : Res (XdrState × GoVal)} {r2 : XdrState × GoVal → Res (XdrState × GoVal)}
    {st : St} {path : List Step} {w0 : GoVal} {e1 : Res St} {e2 : St → Res St}
    (hl : loadPath st.v path = .ok w0) (h1 : Sim r1 st path e1)
    (h2 : ∀ xs' w' v', r1 = .ok (xs', w') → loadPath v' path = .ok w' →
      Sim (r2 (xs', w')) ⟨xs', v', st.locals⟩ path (e2 ⟨xs', v', st.locals⟩)) :
    Sim (r1 >>= r2) st path (e1 >>= e2) := by
  cases r1 with
  | error s => cases s <;> simp_all [Sim, bind, Except.bind]
  | ok a =>
    obtain ⟨xs', w'⟩ := a
    obtain ⟨v', hs, he⟩ := h1
    obtain ⟨v'', hs', hl'⟩ := storePath_ok w' hl
    rw [hs] at hs'; cases hs'
    have := h2 xs' w' v' rfl hl'
    subst he
    show Sim (r2 (xs', w')) st path (e2 ⟨xs', v', st.locals⟩)
    unfold Sim at this ⊢
    split at this
    · trivial
    · exact this
    · obtain ⟨v3, h3, h4⟩ := this
      exact ⟨v3, by rw [← h3]; exact (storePath_storePath _ hl hs).symm, h4⟩

theorem Sim.sub {r : Res (XdrState × GoVal)} {st : St} {path q : List Step} {w : GoVal}
    {e : Res St} {h : GoVal → GoVal} (hl : loadPath st.v path = .ok w)
    (hs : Sim r st (path ++ q) e) (hh : ∀ x, storePath w q x = .ok (h x)) :
    Sim (r >>= fun a => .ok (a.1, h a.2)) st path e := by
  cases r with
  | error s => cases s <;> simp_all [Sim, bind, Except.bind]
  | ok a =>
    obtain ⟨xs', w'⟩ := a
    obtain ⟨v', h1, he⟩ := hs
    refine ⟨v', ?_, he⟩
    rw [storePath_append q _ hl, hh] at h1
    exact h1

/-- The converse reading of `Sim`: no claim when stuck. -/
theorem Sim.of_stuck {st : St} {path : List Step} {e : Res St} : Sim (.error .stuck) st path e :=
  trivial

theorem Sim.pure {st : St} {path : List Step} {xs : XdrState} {w : GoVal}
    (hl : loadPath st.v path = .ok w) (hx : xs = st.xs) :
    Sim (.ok (xs, w)) st path (.ok st) := by
  obtain ⟨v', h1, h2⟩ := storePath_ok w hl
  refine ⟨v', h1, ?_⟩
  have : v' = st.v := by
    clear h2
    subst hx
    generalize st.v = v at *
    induction path generalizing v v' with
    | nil => cases h1; cases hl; rfl
    | cons s p ih =>
      obtain ⟨u, hc, hu⟩ := loadPath_cons_inv hl
      rw [storePath_cons _ _ hc] at h1
      obtain ⟨u', h3, h4⟩ := storePath_ok w hu
      rw [h3] at h1; cases h1
      have := ih _ _ hu h3
      subst this
      unfold child at hc
      split at hc
      case h_1 fs f =>
        split at hc
        · rename_i x hx
          cases hc
          simp only [setChild, GoVal.struct.injEq]
          clear ih hl hu h3 h4
          induction fs with
          | nil => rfl
          | cons a fs ih =>
            obtain ⟨g, y⟩ := a
            by_cases hg : g = f
            · subst hg; simp [getField] at hx; simp [setField, hx]
            · have h1 : (f == g) = false := by simp; exact fun e => hg e.symm
              simp only [getField, List.lookup, h1] at hx
              simp only [setField, hg, if_false, List.cons.injEq, true_and]
              exact ih hx
        · cases hc
      case h_2 l n =>
        split at hc
        · rename_i x hx
          cases hc
          obtain ⟨h1, h2⟩ := List.getElem?_eq_some_iff.1 hx
          simp [setChild, ← h2]
        · cases hc
      case h_4 l n =>
        split at hc
        · rename_i x hx
          cases hc
          obtain ⟨h1, h2⟩ := List.getElem?_eq_some_iff.1 hx
          simp [setChild, ← h2]
        · cases hc
      case h_5 => cases hc; simp [setChild]
      all_goals cases hc
  subst this hx; rfl

theorem execs_append (g : GoProg) (call : Call) (a b : Stmts) (st : St) :
    execs g call (a ++ b) st = (execs g call a st >>= execs g call b) := by
  show execs g call (a.append b) st = _
  induction a using Stmts.rec (motive_1 := fun _ => True) (motive_3 := fun _ => True)
    generalizing st with
  | nil => simp [Stmts.append, execs, bind, Except.bind]
  | cons s a _ ih =>
    simp only [Stmts.append, execs]
    cases exec g call s st with
    | error e => rfl
    | ok st' => simpa [bind, Except.bind] using ih st'
  | _ => intros; trivial

theorem execs_one (g : GoProg) (call : Call) (s : Stmt) (st : St) :
    execs g call (.cons s .nil) st = exec g call s st := by
  simp only [execs]
  cases exec g call s st <;> rfl

theorem withPtr_sim {vi : Option Nat} {p : Ex} {path : List Step} {st : St} {w : GoVal}
    {f : XdrState → GoVal → Res (XdrState × GoVal)} (hp : PtrAt vi p path)
    (hv : ViOK vi st.locals) (hl : loadPath st.v path = .ok w) :
    Sim (f st.xs w) st path (withPtr st p f) := by
  have h1 := hp st w hv hl
  unfold withPtr
  simp only [h1, load_root, hl, bind, Except.bind]
  cases hf : f st.xs w with
  | error s => cases s <;> simp [Sim]
  | ok a =>
    obtain ⟨xs', w'⟩ := a
    obtain ⟨v', h2, h3⟩ := storePath_ok w' hl
    exact ⟨v', h2, by simp [St.store, h2, bind, Except.bind, Pure.pure, Except.pure]⟩

theorem ViOK.push {vi : Option Nat} {locals : List (Ident × GoVal)} {x : Ident} {a : GoVal}
    (h : ViOK vi locals) (hx : x ≠ iVar) : ViOK vi ((x, a) :: locals) := by
  intro n hn
  obtain ⟨h1, h2⟩ := h n hn
  refine ⟨h1, ?_⟩
  have : (iVar == x) = false := by simp; exact fun e => hx e.symm
  simp only [getField, List.lookup, this]
  exact h2

theorem ViOK.none (locals : List (Ident × GoVal)) : ViOK none locals := by
  intro n hn; cases hn

theorem ViOK.iVar {n : Nat} {locals : List (Ident × GoVal)} (hn : n < 2 ^ 64) :
    ViOK (some n) ((iVar, .u64 (UInt64.ofNat n)) :: locals) := by
  intro m hm; cases hm
  exact ⟨hn, by simp [getField]⟩

theorem popTo_self (st : St) : st.popTo st.locals.length = st := by
  simp [St.popTo]

theorem popTo_cons (xs : XdrState) (v : GoVal) (a : Ident × GoVal) (ls : List (Ident × GoVal)) :
    (St.mk xs v (a :: ls)).popTo ls.length = ⟨xs, v, ls⟩ := by
  simp [St.popTo]

/-- A block that leaves one more local variable behind. -/
theorem Sim.pop {r : Res (XdrState × GoVal)} {st : St} {path : List Step} {e : Res St}
    {a : Ident × GoVal} (h : Sim r ⟨st.xs, st.v, a :: st.locals⟩ path e) :
    Sim r st path (e >>= fun st' => .ok (st'.popTo st.locals.length)) := by
  unfold Sim at h ⊢
  split at h
  · trivial
  · subst h; rfl
  · obtain ⟨v', h1, h2⟩ := h
    exact ⟨v', h1, by subst h2; simp [bind, Except.bind, popTo_cons]⟩

theorem Sim.pop0 {r : Res (XdrState × GoVal)} {st : St} {path : List Step} {e : Res St}
    (h : Sim r st path e) :
    Sim r st path (e >>= fun st' => .ok (st'.popTo st.locals.length)) := by
  unfold Sim at h ⊢
  split at h
  · trivial
  · subst h; rfl
  · obtain ⟨v', h1, h2⟩ := h
    exact ⟨v', h1, by subst h2; simp [bind, Except.bind, St.popTo]⟩

/-- Only the content at the start matters, not the state the encoder was in. -/
theorem Sim.xs_irrel {r : Res (XdrState × GoVal)} {st : St} {path : List Step} {e : Res St}
    {xs : XdrState} (h : Sim r ⟨xs, st.v, st.locals⟩ path e) : Sim r st path e := h

theorem Sim.restore {r : Res (XdrState × GoVal)} {st : St} {path : List Step} {e : Res St}
    {v1 w0 x : GoVal} {xs : XdrState} (hl : loadPath st.v path = .ok w0)
    (hs : storePath st.v path x = .ok v1) (h : Sim r ⟨xs, v1, st.locals⟩ path e) :
    Sim r st path e := by
  cases r with
  | error s => cases s <;> exact h
  | ok a =>
    obtain ⟨v', h3, h4⟩ := h
    exact ⟨v', by rw [← h3]; exact (storePath_storePath _ hl hs).symm, h4⟩

theorem bind_ok_eq {α : Type} (e : Res α) : (e >>= fun a => Except.ok a) = e := by
  cases e <;> rfl

/-- The loop over the elements of a slice. -/
theorem loop_sim {f : XdrState → GoVal → Res (XdrState × GoVal)} {body : St → Res St}
    {path : List Step} {n : UInt32}
    (hb : ∀ (st : St) (w : GoVal) (j : Nat), ViOK (some j) st.locals →
      loadPath st.v (path ++ [.idx j]) = .ok w →
      Sim (f st.xs w) st (path ++ [.idx j]) (body st)) :
    ∀ (k : Nat) (done rest : List GoVal) (st : St),
      loadPath st.v path = .ok (.slice (some (done ++ rest))) →
      getField st.locals arraysz = some (.u32 n) →
      done.length + k = n.toNat →
      Sim (codecElems f k st.xs rest >>= fun a => .ok (a.1, .slice (some (done ++ a.2)))) st path
        (loop (fun j => .u64 (UInt64.ofNat j)) iVar
          (fun st => do let k ← localU32 st arraysz; pure k.toNat) body k done.length st) := by
  intro k
  induction k with
  | zero =>
    intro done rest st hl hn hk
    unfold loop
    simp only [localU32, hn, bind, Except.bind, Pure.pure, Except.pure]
    rw [if_neg (by omega)]
    exact Sim.pure hl rfl
  | succ k ih =>
    intro done rest st hl hn hk
    cases rest with
    | nil => exact Sim.of_stuck
    | cons w rest =>
      have hlt : done.length < 2 ^ 64 := by
        have := n.toNat_lt
        omega
      unfold loop
      simp only [localU32, hn]
      show Sim _ st path (if done.length < n.toNat then _ else _)
      rw [if_pos (by omega)]
      have hchild : loadPath (.slice (some (done ++ w :: rest))) [.idx done.length] = .ok w := by
        simp [loadPath, child, bind, Except.bind]
      have h1 : loadPath st.v (path ++ [.idx done.length]) = .ok w := by
        rw [loadPath_append _ hl, hchild]
      have hs := (hb (st.push iVar (.u64 (UInt64.ofNat done.length))) w done.length
        (ViOK.iVar hlt) h1).sub (w := .slice (some (done ++ w :: rest))) (q := [.idx done.length])
        (h := fun x => .slice (some (done ++ x :: rest)))
        (st := st.push iVar (.u64 (UInt64.ofNat done.length))) hl (by
          intro x; simp [storePath, child, setChild, bind, Except.bind, Pure.pure, Except.pure])
      have hs' := Sim.pop (st := st) hs
      have := Sim.seq (r2 := fun a => do
          let b ← codecElems f k a.1 rest
          .ok (b.1, match a.2 with
            | .slice (some l) => .slice (some (l.take (done.length + 1) ++ b.2))
            | x => x))
        (e2 := fun st' => loop (fun j => .u64 (UInt64.ofNat j)) iVar
          (fun st => do let k ← localU32 st arraysz; pure k.toNat) body k (done.length + 1) st')
        hl hs' (by
          intro xs' w' v' hr hl'
          have hw' : ∃ x, w' = .slice (some (done ++ x :: rest)) := by
            cases hf : f (st.push iVar (.u64 (UInt64.ofNat done.length))).xs w with
            | error e => rw [hf] at hr; cases hr
            | ok a => rw [hf] at hr; cases hr; exact ⟨_, rfl⟩
          obtain ⟨x, rfl⟩ := hw'
          have hl2 : loadPath v' path = .ok (.slice (some ((done ++ [x]) ++ rest))) := by
            simpa using hl'
          have h3 := ih (done ++ [x]) rest ⟨xs', v', st.locals⟩ hl2 hn (by simp; omega)
          rw [List.length_append, List.length_singleton] at h3
          have ht : (done ++ x :: rest).take (done.length + 1) = done ++ [x] := by
            rw [List.take_append, List.take_of_length_le (by omega)]
            simp
          simpa [ht] using h3)
      have e1 : (codecElems f (k + 1) st.xs (w :: rest) >>= fun a =>
            Except.ok (a.1, GoVal.slice (some (done ++ a.2)))) =
          ((f st.xs w >>= fun a => .ok (a.1, GoVal.slice (some (done ++ a.2 :: rest)))) >>= fun a => do
            let b ← codecElems f k a.1 rest
            .ok (b.1, match a.2 with
              | .slice (some l) => GoVal.slice (some (l.take (done.length + 1) ++ b.2))
              | x => x)) := by
        simp only [codecElems]
        cases f st.xs w with
        | error e => rfl
        | ok a =>
          simp only [bind, Except.bind, Pure.pure, Except.pure]
          cases codecElems f k a.1 rest with
          | error e => rfl
          | ok b =>
            simp only [List.take_append, List.take_of_length_le (show done.length ≤ done.length + 1 by omega)]
            simp
      rw [e1]
      have e2 : ∀ (e : Res St) (F : St → Res St),
          (e >>= fun st' => F (st'.popTo st.locals.length)) =
          ((e >>= fun st' => .ok (st'.popTo st.locals.length)) >>= F) := by
        intro e F; cases e <;> rfl
      exact (e2 _ _) ▸ this

/-- What follows the length in a variable-length array. -/
def codecVarBody (z : Option GoVal) (f : XdrState → GoVal → Res (XdrState × GoVal))
    (xs : XdrState) (n : UInt32) (o : Option (List GoVal)) : Res (XdrState × GoVal) :=
  if decoding xs then do
    let z ← orStuck z
    let (xs, l) ← codecElems f n.toNat xs (List.replicate n.toNat z)
    pure (xs, .slice (some l))
  else
    match o with
    | some l => do
      let (xs, l) ← codecElems f n.toNat xs l
      pure (xs, .slice (some l))
    | none => if n = 0 then pure (xs, .slice none) else .error .stuck

theorem codecVar_slice (max : Option Nat) (z : Option GoVal)
    (f : XdrState → GoVal → Res (XdrState × GoVal)) (xs : XdrState) (o : Option (List GoVal)) :
    codecVar max z f xs (.slice o) =
      (let r := encodingSetSize xs 0 (o.getD []).length
       let r := xdrU32 r.1 r.2
       if max.any (fun m => r.2.toNat > m) then .ok (setError r.1 "array too large", .slice o)
       else codecVarBody z f r.1 r.2 o) := rfl

theorem varBody_sim {g : GoProg} {call : Call} {b : Stmts} {gt : GoType} {p : Ex}
    {path : List Step} {f : XdrState → GoVal → Res (XdrState × GoVal)} {n : UInt32}
    (hb : ∀ (st : St) (w : GoVal) (j : Nat), ViOK (some j) st.locals →
      loadPath st.v (path ++ [.idx j]) = .ok w →
      Sim (f st.xs w) st (path ++ [.idx j]) (execs g call b st))
    (hp : PtrAt none p path) (st : St) (o : Option (List GoVal))
    (hl : loadPath st.v path = .ok (.slice o))
    (hn : getField st.locals arraysz = some (.u32 n)) :
    Sim (codecVarBody (g.zero gt) f st.xs n o) st path
      (execs g call (.cons (.ifDecoding (.cons (.assignMake p gt arraysz) .nil))
        (.cons (.forU64 iVar arraysz b) .nil)) st) := by
  have hloop : ∀ (l : List GoVal) (st : St), loadPath st.v path = .ok (.slice (some l)) →
      getField st.locals arraysz = some (.u32 n) →
      Sim (codecElems f n.toNat st.xs l >>= fun a => .ok (a.1, .slice (some a.2))) st path
        (exec g call (.forU64 iVar arraysz b) st) := by
    intro l st hl hn
    have := loop_sim (n := n) hb n.toNat [] l st (by simpa using hl) hn (by simp)
    unfold exec
    simp only [localU32, hn] at this ⊢
    simpa [bind, Except.bind] using this
  rw [show execs g call (.cons (.ifDecoding (.cons (.assignMake p gt arraysz) .nil))
        (.cons (.forU64 iVar arraysz b) .nil)) st =
      (exec g call (.ifDecoding (.cons (.assignMake p gt arraysz) .nil)) st >>=
        fun st => exec g call (.forU64 iVar arraysz b) st) from by
    simp only [execs]
    cases exec g call (.ifDecoding (.cons (.assignMake p gt arraysz) .nil)) st with
    | error e => rfl
    | ok st' =>
      simp only [bind, Except.bind]
      cases exec g call (.forU64 iVar arraysz b) st' <;> rfl]
  unfold codecVarBody
  by_cases hd : decoding st.xs = true
  · rw [if_pos hd]
    cases hz : g.zero gt with
    | none => exact Sim.of_stuck
    | some z =>
      have hasg : exec g call (.ifDecoding (.cons (.assignMake p gt arraysz) .nil)) st =
          (storePath st.v path (.slice (some (List.replicate n.toNat z))) >>= fun v =>
            .ok ⟨st.xs, v, st.locals⟩) := by
        have hp' := hp st _ (ViOK.none _) hl
        unfold exec
        rw [if_pos hd, execs_one]
        unfold exec
        simp only [hp', localU32, hn, hz, orStuck, load_root, hl, bind, Except.bind, St.store]
        cases storePath st.v path (.slice (some (List.replicate n.toNat z))) with
        | error e => rfl
        | ok v => simp [Pure.pure, Except.pure, St.popTo]
      obtain ⟨v1, h1, h2⟩ := storePath_ok (.slice (some (List.replicate n.toNat z))) hl
      rw [hasg, h1]
      have := hloop (List.replicate n.toNat z) ⟨st.xs, v1, st.locals⟩ h2 hn
      show Sim (codecElems f n.toNat st.xs (List.replicate n.toNat z) >>=
        fun a => .ok (a.1, .slice (some a.2))) st path _
      exact Sim.restore hl h1 this
  · rw [if_neg hd]
    have hskip : exec g call (.ifDecoding (.cons (.assignMake p gt arraysz) .nil)) st = .ok st := by
      unfold exec; rw [if_neg hd]; rfl
    rw [hskip]
    cases o with
    | some l => exact hloop l st hl hn
    | none =>
      by_cases h0 : n = 0
      · subst h0
        have : exec g call (.forU64 iVar arraysz b) st = .ok st := by
          unfold exec loop
          simp [localU32, hn, bind, Except.bind, Pure.pure, Except.pure]
        show Sim (if (0 : UInt32) = 0 then _ else _) st path (exec g call _ st)
        rw [if_pos rfl, this]
        exact Sim.pure hl rfl
      · show Sim (if n = 0 then _ else _) st path _
        rw [if_neg h0]; exact Sim.of_stuck

theorem arraysz_ne : arraysz ≠ iVar := by decide
theorem opted_ne : opted ≠ iVar := by decide

theorem getField_head (x : Ident) (a : GoVal) (ls : List (Ident × GoVal)) :
    getField ((x, a) :: ls) x = some a := by simp [getField]

theorem setField_head (x : Ident) (a b : GoVal) (ls : List (Ident × GoVal)) :
    setField ((x, a) :: ls) x b = (x, b) :: ls := by simp [setField]

/-- `xdr.XdrU32(xs, (*uint32)(&x))` on the innermost local. -/
theorem exec_u32_local (g : GoProg) (call : Call) (x : Ident) (n : UInt32) (xs : XdrState) (v : GoVal)
    (ls : List (Ident × GoVal)) :
    exec g call (.xdrU32 (.addr (.var x))) ⟨xs, v, (x, .u32 n) :: ls⟩ =
      .ok ⟨(xdrU32 xs n).1, v, (x, .u32 (xdrU32 xs n).2) :: ls⟩ := by
  unfold exec
  simp [withPtr, evalPtr, evalEx, St.load, getField_head, loadPath, libU32, St.store, storePath,
    setField_head, bind, Except.bind, Pure.pure, Except.pure]

theorem exec_bool_local (g : GoProg) (call : Call) (x : Ident) (n : Bool) (xs : XdrState) (v : GoVal)
    (ls : List (Ident × GoVal)) :
    exec g call (.xdrBool (.addr (.var x))) ⟨xs, v, (x, .bool n) :: ls⟩ =
      .ok ⟨(xdrBool xs n).1, v, (x, .bool (xdrBool xs n).2) :: ls⟩ := by
  unfold exec
  simp [withPtr, evalPtr, evalEx, St.load, getField_head, loadPath, libBool, St.store, storePath,
    setField_head, bind, Except.bind, Pure.pure, Except.pure]

theorem var_sim {g : GoProg} {call : Call} {b : Stmts} {gt : GoType} {p : Ex} {max : Option Val}
    {path : List Step} {f : XdrState → GoVal → Res (XdrState × GoVal)} {mx : Option Nat}
    (hb : ∀ (st : St) (w : GoVal) (j : Nat), ViOK (some j) st.locals →
      loadPath st.v (path ++ [.idx j]) = .ok w →
      Sim (f st.xs w) st (path ++ [.idx j]) (execs g call b st))
    (hp : PtrAt none p path)
    (hm : ∀ m, max = some m → ∃ k, g.const m = some k ∧ mx = some k)
    (hm' : max = none → mx = none)
    (st : St) (w : GoVal) (hl : loadPath st.v path = .ok w) :
    Sim (codecVar mx (g.zero gt) f st.xs w) st path
      (exec g call (.block (.cons (.varU32 arraysz)
      (.cons (.encSetSize arraysz p)
      (.cons (.xdrU32 (.addr (.var arraysz)))
        (checkMax max (.cons (.ifDecoding (.cons (.assignMake p gt arraysz) .nil))
              (.cons (.forU64 iVar arraysz b) .nil))))))) st) := by
  cases w with
  | slice o =>
    rw [codecVar_slice]
    unfold exec
    refine Sim.pop (a := (arraysz, .u32 (xdrU32 (encodingSetSize st.xs 0 (o.getD []).length).1
      (encodingSetSize st.xs 0 (o.getD []).length).2).2)) ?_
    have h0 : exec g call (.varU32 arraysz) st = .ok ⟨st.xs, st.v, (arraysz, .u32 0) :: st.locals⟩ := by
      simp [exec, St.push]
    have h1 : exec g call (.encSetSize arraysz p) ⟨st.xs, st.v, (arraysz, .u32 0) :: st.locals⟩ =
        .ok ⟨(encodingSetSize st.xs 0 (o.getD []).length).1, st.v,
          (arraysz, .u32 (encodingSetSize st.xs 0 (o.getD []).length).2) :: st.locals⟩ := by
      have hp' := hp ⟨st.xs, st.v, (arraysz, .u32 0) :: st.locals⟩ _ (ViOK.none _) hl
      unfold exec
      simp [localU32, getField_head, hp', load_root, hl, bind, Except.bind, St.store, loadPath,
        storePath, setField_head, Pure.pure, Except.pure]
    unfold execs
    rw [h0]
    show Sim _ _ path (execs g call _ _)
    unfold execs
    rw [h1]
    show Sim _ _ path (execs g call _ _)
    unfold execs
    rw [exec_u32_local]
    show Sim _ _ path (execs g call _ _)
    generalize hr1 : encodingSetSize st.xs 0 (o.getD []).length = r1
    generalize hr2 : xdrU32 r1.1 r1.2 = r2
    simp only [hr2]
    apply Sim.xs_irrel (xs := r2.1)
    cases max with
    | none =>
      rw [hm' rfl]
      simp only [Option.any_none, Bool.false_eq_true, if_false]
      exact varBody_sim hb hp ⟨r2.1, st.v, (arraysz, .u32 r2.2) :: st.locals⟩ o hl
        (getField_head _ _ _)
    | some m =>
      obtain ⟨k, hk, rfl⟩ := hm m rfl
      simp only [checkMax]
      rw [execs_one]
      unfold exec
      simp only [localU32, getField_head, hk, orStuck, bind, Except.bind, Option.any_some,
        decide_eq_true_eq]
      by_cases hgt : r2.2.toNat > k
      · simp only [hgt, if_true]
        obtain ⟨v', h3, h4⟩ := Sim.pure (st := st) (xs := st.xs) hl rfl
        have h5 : v' = st.v := by
          have := congrArg (fun e => match e with | Except.ok (s : St) => s.v | _ => st.v) h4
          exact this.symm
        subst h5
        exact ⟨st.v, h3, rfl⟩
      · simp only [hgt, if_false]
        have h2 := Sim.pop0 (varBody_sim hb hp ⟨r2.1, st.v, (arraysz, .u32 r2.2) :: st.locals⟩ o hl
          (getField_head _ _ _) (gt := gt))
        exact h2
  | _ => exact Sim.of_stuck

theorem ifVar_sim {g : GoProg} {call : Call} {b : Stmts} {st : St} {path : List Step} {bb : Bool}
    {x : Ident} {r : Res (XdrState × GoVal)} {w : GoVal} (hl : loadPath st.v path = .ok w)
    (hx : getField st.locals x = some (.bool bb))
    (ht : bb = true → Sim r st path (execs g call b st)) :
    Sim (if bb then r else .ok (st.xs, w)) st path (exec g call (.ifVar x b) st) := by
  unfold exec
  rw [hx]
  cases bb with
  | true => exact Sim.pop0 (ht rfl)
  | false => exact Sim.pure hl rfl

theorem ptr_sim {g : GoProg} {call : Call} {b : Stmts} {gt : GoType} {p : Ex} {vi : Option Nat}
    {path : List Step} {f : XdrState → GoVal → Res (XdrState × GoVal)}
    (hb : ∀ (st : St) (w : GoVal), ViOK vi st.locals →
      loadPath st.v (path ++ [.deref]) = .ok w →
      Sim (f st.xs w) st (path ++ [.deref]) (execs g call b st))
    (hp : PtrAt vi p path)
    (st : St) (w : GoVal) (hv : ViOK vi st.locals) (hl : loadPath st.v path = .ok w) :
    Sim (codecPtr (g.zero gt) f st.xs w) st path
      (execs g call (.cons (.ifEncoding
        (.cons (.defNotNil opted p)
        (.cons (.xdrBool (.addr (.var opted)))
        (.cons (.ifVar opted b) .nil))))
      (.cons (.ifDecoding
        (.cons (.varBool opted)
        (.cons (.xdrBool (.addr (.var opted)))
        (.cons (.ifVar opted (.cons (.assignNew p gt) b)) .nil)))) .nil)) st) := by
  cases w with
  | ptr o =>
    have hsub : ∀ (st : St) (u : GoVal), ViOK vi st.locals →
        loadPath st.v path = .ok (.ptr (some u)) →
        Sim (f st.xs u >>= fun a => .ok (a.1, .ptr (some a.2))) st path (execs g call b st) := by
      intro st u hv hl
      refine Sim.sub (q := [.deref]) (h := fun x => .ptr (some x)) hl (hb st u hv ?_) ?_
      · rw [loadPath_append _ hl]; rfl
      · intro x; rfl
    have henc : Sim (codecPtrEnc f st.xs o >>= fun a => .ok (a.1, .ptr a.2)) st path
        (exec g call (.ifEncoding (.cons (.defNotNil opted p)
          (.cons (.xdrBool (.addr (.var opted)))
          (.cons (.ifVar opted b) .nil)))) st) := by
      unfold exec codecPtrEnc
      by_cases he : encoding st.xs = true
      · rw [if_pos he, if_pos he]
        refine Sim.pop (a := (opted, .bool (xdrBool st.xs o.isSome).2)) ?_
        have h1 : exec g call (.defNotNil opted p) st =
            .ok ⟨st.xs, st.v, (opted, .bool o.isSome) :: st.locals⟩ := by
          have hp' := hp st _ hv hl
          unfold exec
          simp [hp', load_root, hl, bind, Except.bind, Pure.pure, Except.pure, St.push]
        unfold execs
        rw [h1]
        show Sim _ _ path (execs g call _ _)
        unfold execs
        rw [exec_bool_local]
        show Sim _ _ path (execs g call _ _)
        rw [execs_one]
        generalize xdrBool st.xs o.isSome = r
        obtain ⟨xs', bb⟩ := r
        have := ifVar_sim (g := g) (call := call) (b := b) (bb := bb) (path := path)
          (r := orStuck o >>= fun w => (f xs' w >>= fun a => .ok (a.1, GoVal.ptr (some a.2))))
          (st := ⟨xs', st.v, (opted, .bool bb) :: st.locals⟩) hl (getField_head _ _ _) (by
            intro _
            cases o with
            | none => exact Sim.of_stuck
            | some u => exact hsub ⟨xs', st.v, (opted, .bool bb) :: st.locals⟩ u (hv.push opted_ne) hl)
        apply Sim.xs_irrel (xs := xs')
        cases bb with
        | false => exact this
        | true =>
          cases o with
          | none => exact Sim.of_stuck
          | some u =>
            simp only [if_true] at this ⊢
            have e : ((f xs' u >>= fun a => (pure (a.1, some a.2) : Res (XdrState × Option GoVal))) >>=
                fun a => (Except.ok (a.1, GoVal.ptr a.2) : Res (XdrState × GoVal))) =
                (f xs' u >>= fun a => .ok (a.1, GoVal.ptr (some a.2))) := by
              cases f xs' u <;> rfl
            exact e ▸ this
      · rw [if_neg he, if_neg he]
        exact Sim.pure hl rfl
    have hdec : ∀ (st : St) (o : Option GoVal), ViOK vi st.locals →
        loadPath st.v path = .ok (.ptr o) →
        Sim (codecPtrDec (g.zero gt) f st.xs o >>= fun a => .ok (a.1, .ptr a.2)) st path
        (exec g call (.ifDecoding (.cons (.varBool opted)
          (.cons (.xdrBool (.addr (.var opted)))
          (.cons (.ifVar opted (.cons (.assignNew p gt) b)) .nil)))) st) := by
      intro st o hv hl
      unfold exec codecPtrDec
      by_cases he : decoding st.xs = true
      · rw [if_pos he, if_pos he]
        refine Sim.pop (a := (opted, .bool (xdrBool st.xs false).2)) ?_
        have h1 : exec g call (.varBool opted) st =
            .ok ⟨st.xs, st.v, (opted, .bool false) :: st.locals⟩ := by
          simp [exec, St.push]
        unfold execs
        rw [h1]
        show Sim _ _ path (execs g call _ _)
        unfold execs
        rw [exec_bool_local]
        show Sim _ _ path (execs g call _ _)
        rw [execs_one]
        generalize xdrBool st.xs false = r
        obtain ⟨xs', bb⟩ := r
        have := ifVar_sim (g := g) (call := call) (b := .cons (.assignNew p gt) b) (bb := bb)
          (path := path)
          (r := orStuck (g.zero gt) >>= fun z => (f xs' z >>= fun a =>
            .ok (a.1, GoVal.ptr (some a.2))))
          (st := ⟨xs', st.v, (opted, .bool bb) :: st.locals⟩) hl (getField_head _ _ _) (by
            intro _
            cases hz : g.zero gt with
            | none => exact Sim.of_stuck
            | some z =>
              obtain ⟨v1, h2, h3⟩ := storePath_ok (.ptr (some z)) hl
              have hv' : ViOK vi ((opted, GoVal.bool bb) :: st.locals) := hv.push opted_ne
              have hp' := hp ⟨xs', st.v, (opted, .bool bb) :: st.locals⟩ _ hv' hl
              have h4 : exec g call (.assignNew p gt) ⟨xs', st.v, (opted, .bool bb) :: st.locals⟩ =
                  .ok ⟨xs', v1, (opted, .bool bb) :: st.locals⟩ := by
                unfold exec
                simp [hp', hz, orStuck, load_root, hl, bind, Except.bind, St.store, h2, Pure.pure,
                  Except.pure]
              unfold execs
              rw [h4]
              have h5 := hsub ⟨xs', v1, (opted, .bool bb) :: st.locals⟩ z hv' h3
              show Sim (f xs' z >>= fun a => .ok (a.1, GoVal.ptr (some a.2))) _ path (execs g call b _)
              exact Sim.restore (st := ⟨xs', st.v, (opted, .bool bb) :: st.locals⟩) hl h2 h5)
        apply Sim.xs_irrel (xs := xs')
        cases bb with
        | false => exact this
        | true =>
          simp only [if_true] at this ⊢
          have e : ((orStuck (g.zero gt) >>= fun z => (f xs' z >>= fun a =>
              (pure (a.1, some a.2) : Res (XdrState × Option GoVal)))) >>=
              fun a => (Except.ok (a.1, GoVal.ptr a.2) : Res (XdrState × GoVal))) =
              (orStuck (g.zero gt) >>= fun z =>
                (f xs' z >>= fun a => .ok (a.1, GoVal.ptr (some a.2)))) := by
            cases orStuck (g.zero gt) with
            | error _ => rfl
            | ok z => simp only [bind, Except.bind]; cases f xs' z <;> rfl
          exact e ▸ this
      · rw [if_neg he, if_neg he]
        exact Sim.pure hl rfl
    have := Sim.seq (r2 := fun a => match a.2 with
        | .ptr o => codecPtrDec (g.zero gt) f a.1 o >>= fun a => .ok (a.1, .ptr a.2)
        | _ => .error .stuck)
      (e2 := fun st => exec g call (.ifDecoding (.cons (.varBool opted)
          (.cons (.xdrBool (.addr (.var opted)))
          (.cons (.ifVar opted (.cons (.assignNew p gt) b)) .nil)))) st)
      hl henc (by
        intro xs' w' v' hr hl'
        cases hc : codecPtrEnc f st.xs o with
        | error e => rw [hc] at hr; cases hr
        | ok a =>
          rw [hc] at hr; cases hr
          exact hdec ⟨a.1, v', st.locals⟩ a.2 hv hl')
    have e1 : codecPtr (g.zero gt) f st.xs (.ptr o) =
        ((codecPtrEnc f st.xs o >>= fun a => (.ok (a.1, GoVal.ptr a.2) : Res (XdrState × GoVal))) >>=
          fun a => match a.2 with
          | .ptr o => codecPtrDec (g.zero gt) f a.1 o >>= fun a => .ok (a.1, .ptr a.2)
          | _ => .error .stuck) := by
      simp only [codecPtr]
      cases codecPtrEnc f st.xs o <;> rfl
    rw [e1]
    unfold execs
    simpa only [execs_one] using this
  | _ => exact Sim.of_stuck

end Verif.Gen
