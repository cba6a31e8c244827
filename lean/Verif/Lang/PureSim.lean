/-
Verif.Lang.Pure gives what Verif.Lang.Sem gives, where it gives anything.
-/
import Verif.Lang.Pure

namespace Verif.Lang
variable {ω W α β γ δ : Type}

/-- Element by element. -/
inductive All2 (P : α → β → Prop) : List α → List β → Prop where
  | nil : All2 P [] []
  | cons {a b l l'} (h : P a b) (r : All2 P l l') : All2 P (a :: l) (b :: l')

theorem All2.imp {P Q : α → β → Prop} (h : ∀ a b, P a b → Q a b) : ∀ {l : List α} {l' : List β},
    All2 P l l' → All2 Q l l'
  | _, _, .nil => .nil
  | _, _, .cons a r => .cons (h _ _ a) (All2.imp h r)

/-- The outcome of `m` is what `pm` says; of the results and the state `R` holds.  `view` is what can be seen
of the world; `ds` are the deferred calls. -/
def Meets (view : ω → W) (ds : List (FKey × List V)) (R : α → β → St ω → Prop) :
    Except Stop (β × W) → Except (Stop × St ω) (α × St ω) → Prop
  | .ok (b, w), r => ∃ a st', r = .ok (a, st') ∧ view st'.world = w ∧ st'.defers = ds ∧ R a b st'
  | .error .panic, r => ∃ st', r = .error (.panic, st') ∧ st'.defers = ds
  | .error _, _ => True

/-- `m` does what `pm` says, from states in `I`. -/
def Sim (view : ω → W) (I : St ω → Prop) (R : α → β → St ω → Prop) (m : M ω α) (pm : PM W β) : Prop :=
  ∀ st, I st → Meets view st.defers R (pm (view st.world)) (m st)

/-- The same result. -/
abbrev SimE (view : ω → W) (I : St ω → Prop) (m : M ω α) (pm : PM W α) : Prop :=
  Sim view I (fun a b st => a = b ∧ I st) m pm

section
variable {view : ω → W} {I : St ω → Prop}

theorem Sim.bind {R : α → β → St ω → Prop} {R' : γ → δ → St ω → Prop} {m : M ω α} {pm : PM W β} {f : α → M ω γ}
    {g : β → PM W δ} (h : Sim view I R m pm) (hf : ∀ a b, Sim view (R a b) R' (f a) (g b)) :
    Sim view I R' (m >>= f) (pm >>= g) := by
  intro st hI
  have h1 := h st hI
  show Meets view st.defers R' (PM.bind pm g (view st.world)) (M.bind m f st)
  unfold PM.bind M.bind
  cases hp : pm (view st.world) with
  | error e =>
    rw [hp] at h1
    cases e with
    | panic =>
      obtain ⟨s, h1, hd⟩ := h1
      rw [h1]
      exact ⟨s, rfl, hd⟩
    | _ => trivial
  | ok r =>
    obtain ⟨b, w⟩ := r
    rw [hp] at h1
    obtain ⟨a, st', e, hw, hd, hr⟩ := h1
    have h2 := hf a b st' hr
    dsimp only
    rw [hw, hd] at h2
    rw [e]
    exact h2

theorem SimE.bind {R' : γ → δ → St ω → Prop} {m : M ω α} {pm : PM W α} {f : α → M ω γ}
    {g : α → PM W δ} (h : SimE view I m pm) (hf : ∀ a, Sim view I R' (f a) (g a)) :
    Sim view I R' (m >>= f) (pm >>= g) := by
  refine Sim.bind h fun a b => ?_
  intro st hI
  obtain ⟨rfl, hI⟩ := hI
  exact hf a st hI

theorem Sim.pure {R : α → β → St ω → Prop} {a : α} {b : β} (h : ∀ st, I st → R a b st) :
    Sim view I R (Pure.pure a) (Pure.pure b) := fun st hI => ⟨a, st, rfl, rfl, rfl, h st hI⟩

theorem SimE.pure {a : α} : SimE view I (Pure.pure a) (Pure.pure a) := Sim.pure fun _ h => ⟨rfl, h⟩

theorem Sim.stuck {R : α → β → St ω → Prop} {m : M ω α} : Sim view I R m (pstop .stuck) := fun _ _ => trivial

theorem Sim.fuel {R : α → β → St ω → Prop} {m : M ω α} : Sim view I R m (pstop .fuel) := fun _ _ => trivial

theorem Sim.panic {R : α → β → St ω → Prop} : Sim view I R (stop .panic) (pstop .panic) := fun st _ => ⟨st, rfl, rfl⟩

theorem SimE.some {o : Option α} : SimE view I (some! o) (psome o) := by
  cases o with
  | none => exact Sim.stuck
  | some a => exact SimE.pure

theorem Sim.ite {R : α → β → St ω → Prop} {c : Prop} [Decidable c] {a b : M ω α} {x y : PM W β}
    (h1 : c → Sim view I R a x) (h2 : ¬ c → Sim view I R b y) :
    Sim view I R (if c then a else b) (if c then x else y) := by
  split
  · exact h1 ‹_›
  · exact h2 ‹_›

/-- A test that only the fragment makes. -/
theorem Sim.guard {R : α → β → St ω → Prop} {c : Prop} [Decidable c] {a : M ω α} {x y : PM W β}
    (h1 : c → Sim view I R a x) (h2 : ¬ c → Sim view I R a y) :
    Sim view I R a (if c then x else y) := by
  split
  · exact h1 ‹_›
  · exact h2 ‹_›

theorem SimE.single (vs : List V) : SimE view I (one vs) (pone vs) := by
  match vs with
  | [] => exact Sim.stuck
  | [v] => exact SimE.pure
  | _ :: _ :: _ => exact Sim.stuck

theorem Sim.mono {R R' : α → β → St ω → Prop} {m : M ω α} {pm : PM W β} {J : St ω → Prop} (h : Sim view I R m pm)
    (hI : ∀ st, J st → I st) (hR : ∀ a b st, R a b st → R' a b st) : Sim view J R' m pm := by
  intro st hJ
  have h1 := h st (hI st hJ)
  cases hp : pm (view st.world) with
  | error e =>
    rw [hp] at h1
    cases e <;> exact h1
  | ok r =>
    rw [hp] at h1
    obtain ⟨a, st', e, hw, hd, hr⟩ := h1
    exact ⟨a, st', e, hw, hd, hR _ _ _ hr⟩
end

/-! ### States -/

/-- Cells below `n` are as in `h`. -/
structure Agrees (h : Nat → V) (n : Nat) (st : St ω) : Prop where
  next : n ≤ st.next
  heap : ∀ j, j < n → st.heap j = h j

/-- A variable has its value; its cell is not below `n`. -/
structure VarAt (n : Nat) (st : St ω) (a : String × Nat) (b : String × V) : Prop where
  name : a.1 = b.1
  ge : n ≤ a.2
  lt : a.2 < st.next
  val : st.heap a.2 = b.2

/-- The cells of the variables. -/
def cells (ρ : Env) : List Nat := ρ.flatMap fun s => s.map (·.2)

abbrev ScopeAt (n : Nat) (st : St ω) (s : List (String × Nat)) (sv : List (String × V)) : Prop :=
  All2 (VarAt n st) s sv

structure Locals (h : Nat → V) (n : Nat) (ρ : Env) (ρv : VEnv) (st : St ω) : Prop where
  agrees : Agrees h n st
  env : All2 (ScopeAt n st) ρ ρv
  nodup : (cells ρ).Nodup
  defers : st.defers = []

/-- Only new cells are made. -/
structure Over (st st' : St ω) : Prop where
  next : st.next ≤ st'.next
  heap : ∀ j, j < st.next → st'.heap j = st.heap j
  defers : st'.defers = st.defers

theorem Over.refl (st : St ω) : Over st st := ⟨Nat.le_refl _, fun _ _ => rfl, rfl⟩

theorem Over.trans {a b c : St ω} (h : Over a b) (h' : Over b c) : Over a c :=
  ⟨Nat.le_trans h.next h'.next, fun j hj => (h'.heap j (Nat.lt_of_lt_of_le hj h.next)).trans (h.heap j hj),
    h'.defers.trans h.defers⟩

theorem Agrees.over {h : Nat → V} {n : Nat} {st st' : St ω} (a : Agrees h n st) (o : Over st st') : Agrees h n st' :=
  ⟨Nat.le_trans a.next o.next, fun j hj => (o.heap j (Nat.lt_of_lt_of_le hj a.next)).trans (a.heap j hj)⟩

theorem VarAt.over {n : Nat} {st st' : St ω} {a b} (h : VarAt n st a b) (o : Over st st') : VarAt n st' a b :=
  ⟨h.name, h.ge, Nat.lt_of_lt_of_le h.lt o.next, (o.heap _ h.lt).trans h.val⟩

theorem Locals.over {h : Nat → V} {n : Nat} {ρ : Env} {ρv : VEnv} {st st' : St ω} (i : Locals h n ρ ρv st)
    (o : Over st st') : Locals h n ρ ρv st' :=
  ⟨i.agrees.over o, All2.imp (fun _ _ s => All2.imp (fun _ _ v => v.over o) s) i.env, i.nodup,
    o.defers.trans i.defers⟩

/-! ### Variables -/

theorem scope_lookup {n : Nat} {st : St ω} (x : String) : ∀ {s : List (String × Nat)} {sv : List (String × V)},
    ScopeAt n st s sv →
    match s.lookup x, sv.lookup x with
    | some i, some v => st.heap i = v ∧ i < st.next
    | none, none => True
    | _, _ => False
  | _, _, .nil => by simp
  | (y, i) :: s, (z, v) :: sv, .cons h r => by
    have hn : y = z := h.name
    subst hn
    simp only [List.lookup_cons]
    cases hx : x == y
    · exact scope_lookup x r
    · exact ⟨h.val, h.lt⟩

theorem env_find {n : Nat} {st : St ω} (x : String) : ∀ {ρ : Env} {ρv : VEnv},
    All2 (ScopeAt n st) ρ ρv →
    match ρ.find x, ρv.find x with
    | some i, some v => st.heap i = v ∧ i < st.next
    | none, none => True
    | _, _ => False
  | _, _, .nil => trivial
  | s :: ρ, sv :: ρv, .cons h r => by
    simp only [Env.find, VEnv.find, List.findSome?_cons]
    have h1 := scope_lookup x h
    cases hs : s.lookup x <;> cases hv : sv.lookup x <;> rw [hs, hv] at h1
    · exact env_find x r
    · exact h1.elim
    · exact h1.elim
    · exact h1

/-! ### Expressions -/

/-- The parameters of the two semantics fit. -/
structure Fits (view : ω → W) (S : Sem ω) (PS : PSem W) : Prop where
  prog : S.prog = PS.prog
  call : ∀ key args st, Agrees PS.heap PS.bound st →
    Sim view (· = st) (fun a b st' => a = b ∧ Over st st') (S.call key args) (PS.call key args)
  ext : ∀ f args st, Agrees PS.heap PS.bound st →
    Sim view (· = st) (fun a b st' => a = b ∧ Over st st') (S.ext f args) (PS.ext f args)

section
variable {view : ω → W} {S : Sem ω} {PS : PSem W} {h : Nat → V} {n : Nat}

/-- What only makes new cells does not change variables. -/
theorem locals_over {m : M ω α} {pm : PM W α} {ρ : Env} {ρv : VEnv} (hn : PS.bound ≤ n)
    (hh : ∀ j, j < PS.bound → h j = PS.heap j)
    (hm : ∀ st, Agrees PS.heap PS.bound st → Sim view (· = st) (fun a b st' => a = b ∧ Over st st') m pm) :
    SimE view (Locals h n ρ ρv) m pm := by
  intro st hI
  have ha : Agrees PS.heap PS.bound st :=
    ⟨Nat.le_trans hn hI.agrees.next, fun j hj => (hI.agrees.heap j (by omega)).trans (hh j hj)⟩
  have := Sim.mono (hm st ha) (J := (· = st)) (R' := fun a b st' => a = b ∧ Locals h n ρ ρv st') (fun _ h => h)
    (fun a b st' r => ⟨r.1, hI.over r.2⟩)
  exact this st rfl

variable (F : Fits view S PS) (hn : PS.bound ≤ n) (hh : ∀ j, j < PS.bound → h j = PS.heap j)
include F hn hh

theorem call_sim {ρ : Env} {ρv : VEnv} (key : FKey) (args : List V) :
    SimE view (Locals h n ρ ρv) (S.call key args) (PS.call key args) := locals_over hn hh (F.call key args)

theorem ext_sim {ρ : Env} {ρv : VEnv} (f : String) (args : List V) :
    SimE view (Locals h n ρ ρv) (S.ext f args) (PS.ext f args) := locals_over hn hh (F.ext f args)

omit hn hh in
/-- A variable, constant, or package-level variable. -/
theorem id_sim {ρ : Env} {ρv : VEnv} (p x : String) :
    SimE view (Locals h n ρ ρv) (evalId S p ρ x) (pevalId PS p ρv x) := by
  intro st hI
  have hf := env_find x hI.env
  unfold evalId pevalId
  cases h1 : ρ.find x with
  | some i =>
    cases h2 : VEnv.find ρv x with
    | none => rw [h1, h2] at hf; exact hf.elim
    | some v =>
      rw [h1, h2] at hf
      refine ⟨v, st, ?_, rfl, rfl, rfl, hI⟩
      show (match st.at ⟨i, []⟩ with | some v => Except.ok (v, st) | none => .error (Stop.stuck, st)) = _
      have : st.at ⟨i, []⟩ = some v := by
        show (st.heap i).at [] = some v
        rw [hf.1]
        cases v <;> rfl
      rw [this]
  | none =>
    cases h2 : VEnv.find ρv x with
    | some v => rw [h1, h2] at hf; exact hf.elim
    | none =>
      dsimp only
      rw [F.prog]
      have : SimE view (Locals h n ρ ρv)
          (match PS.prog.const p x with
            | some v => (pure v : M ω V)
            | none =>
              if x = "nil" then pure .nil
              else if x = "true" then pure (.bool true)
              else if x = "false" then pure (.bool false)
              else if isVar PS.prog p x then pure (.glob (p ++ "." ++ x))
              else if (PS.prog.find (.fn p x)).isSome then pure (.fn (.fn p x))
              else stop .stuck)
          (match PS.prog.const p x with
            | some v => pure v
            | none =>
              if x = "nil" then pure .nil
              else if x = "true" then pure (.bool true)
              else if x = "false" then pure (.bool false)
              else if isVar PS.prog p x then pure (.glob (p ++ "." ++ x))
              else pstop .stuck) := by
        cases PS.prog.const p x with
        | some v => exact SimE.pure
        | none =>
          exact Sim.ite (fun _ => SimE.pure) fun _ => Sim.ite (fun _ => SimE.pure) fun _ =>
            Sim.ite (fun _ => SimE.pure) fun _ => Sim.ite (fun _ => SimE.pure) fun _ => Sim.stuck
      exact this st hI

omit hn hh in
theorem pkg_sim {ρ : Env} {ρv : VEnv} {st : St ω} (hI : Locals h n ρ ρv st) (p : String) (e : Expr) :
    pkgName S.prog p ρ e = ppkgName PS.prog p ρv e := by
  cases e with
  | id x =>
    have hf := env_find x hI.env
    simp only [pkgName, ppkgName, F.prog]
    cases h1 : ρ.find x <;> cases h2 : VEnv.find ρv x <;> rw [h1, h2] at hf <;>
      first | exact hf.elim | rfl
  | _ => rfl

omit F hn hh in
theorem Sim.inhab {I : St ω → Prop} {R : α → β → St ω → Prop} {m : M ω α} {pm : PM W β}
    (hs : ∀ st, I st → Sim view I R m pm) : Sim view I R m pm := fun st hI => hs st hI st hI

omit hn hh in
theorem find_none {ρ : Env} {ρv : VEnv} {st : St ω} (hI : Locals h n ρ ρv st) {x : String} :
    (VEnv.find ρv x = none → ρ.find x = none) ∧ ((VEnv.find ρv x).isSome → (ρ.find x).isSome) := by
  have hf := env_find x hI.env
  cases h1 : ρ.find x <;> cases h2 : VEnv.find ρv x <;> rw [h1, h2] at hf <;> simp at hf ⊢

omit hn hh in
theorem member_sim {I : St ω → Prop} (q x : String) : SimE view I (evalMember S q x) (pmember PS q x) := by
  unfold evalMember pmember
  by_cases hq : q = "math"
  · rw [if_pos hq]; exact Sim.stuck
  · rw [if_neg (fun h => hq h.1), if_neg hq, F.prog]
    cases PS.prog.const q x with
    | some v => exact SimE.pure
    | none => exact SimE.pure

omit F hn hh in
theorem field_sim {I : St ω → Prop} (v : V) (f : String) : SimE view I (evalField v f) (pfield v f) := by
  cases v with
  | struct T fs => exact SimE.some
  | _ => exact Sim.stuck

omit F hn hh in
theorem builtin_sim {I : St ω → Prop} {g : Nat → Nat → Nat} (f : String) (vs : List V) (sp : Bool)
    (hf : builtins.contains f = true) : SimE view I (builtin g f vs sp) (pbuiltin f vs) := by
  unfold builtin pbuiltin
  by_cases h1 : f = "len"
  · rw [if_pos h1, if_pos h1]
    match vs with
    | [] => exact Sim.stuck
    | [v] =>
      refine SimE.bind ?_ fun a => SimE.pure
      cases v with
      | nil => exact SimE.pure
      | slice s => exact SimE.pure
      | str s => exact SimE.pure
      | _ => exact Sim.stuck
    | _ :: _ :: _ => exact Sim.stuck
  · rw [if_neg h1, if_neg h1]
    by_cases h2 : f = "panic"
    · subst h2
      exact Sim.panic
    · rw [if_neg h2]
      exact Sim.stuck

omit F hn hh in
theorem slice_sim {I : St ω → Prop} (s : List UInt8) (lo hi : Option Nat) :
    SimE view I (sliceV (.str s) lo hi none) (pslice (.str s) lo hi) := by
  unfold sliceV pslice
  dsimp only
  by_cases hc : lo.getD 0 ≤ hi.getD s.length ∧ hi.getD s.length ≤ s.length
  · rw [if_pos ⟨hc.1, hc.2, rfl⟩, if_pos hc]
    exact SimE.pure
  · rw [if_neg (fun h => hc ⟨h.1, h.2.1⟩), if_neg hc]
    exact Sim.panic

omit F hn hh in
theorem nat_sim {I : St ω → Prop} (v : V) : SimE view I (natV v) (pnat v) := by
  cases v with
  | int k => exact Sim.ite (fun _ => SimE.pure) fun _ => Sim.panic
  | const k => exact Sim.ite (fun _ => SimE.pure) fun _ => Sim.panic
  | _ => exact Sim.stuck

theorem pkgcall_sim {ρ : Env} {ρv : VEnv} (q f : String) (vs : List V) :
    SimE view (Locals h n ρ ρv) (callPkg S q f vs) (pcallPkg PS q f vs) := by
  unfold callPkg pcallPkg
  by_cases h1 : q = "fmt" ∧ f = "Sprintf"
  · obtain ⟨rfl, rfl⟩ := h1
    rw [if_neg (by decide), if_neg (by decide), if_pos ⟨rfl, rfl⟩, if_pos ⟨rfl, rfl⟩]
    match vs with
    | .str s :: vs => exact SimE.bind SimE.some fun _ => SimE.pure
    | [] => exact Sim.stuck
    | .const _ :: _ | .int _ :: _ | .u32 _ :: _ | .i32 _ :: _ | .u64 _ :: _ | .i64 _ :: _ | .bool _ :: _
    | .nil :: _ | .ptr _ _ :: _ | .slice _ :: _ | .map _ :: _ | .err _ _ :: _ | .fn _ :: _ | .bound _ _ :: _ | .obj _ :: _
    | .glob _ :: _ | .struct _ _ :: _ | .bytes _ :: _ | .vals _ :: _ | .mapv _ :: _ => exact Sim.stuck
  · rw [if_neg h1]
    by_cases h2 : q = "strings" ∧ f = "ToUpper"
    · obtain ⟨rfl, rfl⟩ := h2
      rw [if_neg (by decide), if_neg (by decide), if_pos ⟨rfl, rfl⟩, if_neg (by decide), if_pos ⟨rfl, rfl⟩]
      match vs with
      | [.str s] => exact Sim.ite (fun _ => SimE.pure) fun _ => Sim.stuck
      | .str _ :: _ :: _ => exact Sim.stuck
      | [] => exact Sim.stuck
      | .const _ :: _ | .int _ :: _ | .u32 _ :: _ | .i32 _ :: _ | .u64 _ :: _ | .i64 _ :: _ | .bool _ :: _
      | .nil :: _ | .ptr _ _ :: _ | .slice _ :: _ | .map _ :: _ | .err _ _ :: _ | .fn _ :: _ | .bound _ _ :: _ | .obj _ :: _
      | .glob _ :: _ | .struct _ _ :: _ | .bytes _ :: _ | .vals _ :: _ | .mapv _ :: _ => exact Sim.stuck
    · rw [if_neg h2, if_neg h1, if_neg h2]
      by_cases h3 : q = "errors" ∨ f = "Errorf"
      · rw [if_pos h3]; exact Sim.stuck
      · rw [if_neg h3, if_neg (fun h => h3 (.inl h.1)), if_neg (fun h => h3 (.inr h.2)), F.prog]
        by_cases h4 : (PS.prog.pkg q).isNone = true
        · rw [if_pos h4, if_pos h4]
          exact ext_sim F hn hh _ _
        · rw [if_neg h4, if_neg h4]
          exact Sim.stuck

theorem deref_sim {ρ : Env} {ρv : VEnv} (v : V) :
    SimE view (Locals h n ρ ρv)
      (match v with
        | .ptr _ l => do pure [← load l]
        | .nil => stop .panic
        | .glob x => do pure [← (S.ext "*" [.glob x] >>= one)]
        | _ => stop .stuck)
      (do pure [← pderef PS v]) := by
  cases v with
  | glob x =>
    exact SimE.bind (SimE.bind (ext_sim F hn hh _ _) fun _ => SimE.single _) fun _ => SimE.pure
  | _ => exact Sim.stuck

omit F hn hh in
theorem eval_callid {ρ : Env} (p f : String) (args : List Expr) (sp : Bool) (hρ : ρ.find f = none)
    (h1 : ¬ f = "make") (h2 : ¬ f = "new") :
    evalM S p ρ (.call (.id f) args sp) = (do
      let vs ← evalArgs S p ρ args
      if builtins.contains f then builtin S.grow f vs sp
      else if isType S.prog p f then convertV S.prog p (.name f) vs
      else S.call (.fn p f) vs) := by
  cases args with
  | nil => simp only [evalM, hρ, if_neg h1, if_neg h2]
  | cons a as => cases a <;> simp only [evalM, hρ, if_neg h1, if_neg h2]

theorem callid_sim {ρ : Env} {ρv : VEnv} (p f : String) (args : List Expr) (sp : Bool)
    (ha : SimE view (Locals h n ρ ρv) (evalArgs S p ρ args) (pargs PS p ρv args)) :
    SimE view (Locals h n ρ ρv) (evalM S p ρ (.call (.id f) args sp)) (peval PS p ρv (.call (.id f) args sp)) := by
  refine Sim.inhab fun st hI => ?_
  rw [peval]
  cases hf : VEnv.find ρv f with
  | some v => exact Sim.stuck
  | none =>
    by_cases h1 : f = "make"
    · simp only [if_pos h1]; exact Sim.stuck
    · by_cases h2 : f = "new"
      · simp only [if_neg h1, if_pos h2]; exact Sim.stuck
      · rw [eval_callid p f args sp ((find_none F hI).1 hf) h1 h2]
        dsimp only
        rw [if_neg h1, if_neg h2]
        refine SimE.bind ha fun vs => ?_
        refine Sim.ite (fun h => builtin_sim f vs sp h) fun _ => ?_
        rw [F.prog]
        exact Sim.ite (fun _ => Sim.stuck) fun _ => call_sim F hn hh _ _

mutual
theorem eval_sim {ρ : Env} {ρv : VEnv} (p : String) : ∀ e : Expr,
    SimE view (Locals h n ρ ρv) (evalM S p ρ e) (peval PS p ρv e)
  | .id x => by
    rw [evalM, peval]
    exact SimE.bind (id_sim F p x) fun _ => SimE.pure
  | .int k => by rw [evalM, peval]; exact SimE.pure
  | .str s => by rw [evalM, peval]; exact SimE.pure
  | .sel e f => by
    refine Sim.inhab fun st hI => ?_
    rw [evalM, peval, pkg_sim F hI p e]
    cases ppkgName PS.prog p ρv e with
    | some q => exact SimE.bind (member_sim F q f) fun _ => SimE.pure
    | none =>
      exact SimE.bind (SimE.bind (eval_sim p e) fun _ => SimE.single _) fun v =>
        SimE.bind (field_sim v f) fun _ => SimE.pure
  | .idx e i => by simp only [peval]; exact Sim.stuck
  | .slc e lo hi none => by
    rw [evalM, peval]
    refine SimE.bind (SimE.bind (eval_sim p e) fun _ => SimE.single _) fun v => ?_
    cases v with
    | str s =>
      exact SimE.bind (bound_sim p lo) fun lo => SimE.bind (bound_sim p hi) fun hi =>
        SimE.bind (slice_sim s lo hi) fun _ => SimE.pure
    | _ => exact Sim.stuck
  | .slc e lo hi (some _) => by simp only [peval]; exact Sim.stuck
  | .call (.id f) args sp => callid_sim F hn hh p f args sp (args_sim p args)
  | .call (.sel e m) args sp => by
    refine Sim.inhab fun st hI => ?_
    rw [evalM, peval]
    refine Sim.ite (fun _ => Sim.stuck) fun _ => ?_
    rw [pkg_sim F hI p e]
    cases ppkgName PS.prog p ρv e with
    | some q => exact SimE.bind (args_sim p args) fun vs => pkgcall_sim F hn hh q m vs
    | none =>
      refine SimE.bind (SimE.bind (eval_sim p e) fun _ => SimE.single _) fun v => ?_
      cases v with
      | struct T fs =>
        refine Sim.guard (fun hb => ?_) fun _ => Sim.stuck
        dsimp only
        rw [F.prog, if_pos hb]
        exact SimE.bind (args_sim p args) fun vs => call_sim F hn hh _ _
      | _ => exact Sim.stuck
  | .call (.int _) _ _ | .call (.str _) _ _ | .call (.idx _ _) _ _ | .call (.slc _ _ _ _) _ _
  | .call (.call _ _ _) _ _ | .call (.un _ _) _ _ | .call (.bin _ _ _) _ _ | .call (.lit _ _ _) _ _
  | .call (.ty _) _ _ | .call (.assert _ _) _ _ | .call (.mval _ _ _) _ _ => by simp only [peval]; exact Sim.stuck
  | .un op e => by
    rw [peval]
    by_cases h1 : op = "*"
    · subst h1
      rw [if_pos rfl]
      have h1 : ("*" = "&") = False := by decide
      simp only [evalM, h1, ↓reduceIte]
      exact SimE.bind (SimE.bind (eval_sim p e) fun _ => SimE.single _) fun v => deref_sim F hn hh v
    · rw [if_neg h1]
      by_cases h2 : op = "!"
      · subst h2
        rw [if_pos rfl]
        have h1 : ("!" = "&") = False := by decide
        have h2 : ("!" = "*") = False := by decide
        simp only [evalM, h1, h2, ↓reduceIte]
        refine SimE.bind (SimE.bind (eval_sim p e) fun _ => SimE.single _) fun v => ?_
        cases v with
        | bool b => exact SimE.pure
        | _ => exact Sim.stuck
      · rw [if_neg h2]
        exact Sim.stuck
  | .bin op a b => by
    rw [evalM, peval]
    refine Sim.ite (fun _ => Sim.stuck) fun _ => Sim.ite (fun _ => Sim.stuck) fun _ => ?_
    exact SimE.bind (SimE.bind (eval_sim p a) fun _ => SimE.single _) fun x =>
      SimE.bind (SimE.bind (eval_sim p b) fun _ => SimE.single _) fun y =>
        SimE.bind SimE.some fun _ => SimE.pure
  | .lit (.name t) fs es => by
    rw [evalM, peval, F.prog]
    · exact SimE.bind SimE.some fun z => SimE.bind (args_sim p es) fun vs =>
        SimE.bind SimE.some fun _ => SimE.pure
    · intro _ h; cases h
  | .lit (.qual _ _) _ _ | .lit (.ptr _) _ _ | .lit (.slice _) _ _ | .lit (.arr _ _) _ _ | .lit (.arrc _ _) _ _ | .lit (.map _ _) _ _
  | .lit (.func _ _) _ _ | .lit (.struct _) _ _ | .lit .iface _ _ => by simp only [peval]; exact Sim.stuck
  | .ty t => by simp only [peval]; exact Sim.stuck
  | .assert e t => by simp only [peval]; exact Sim.stuck
  | .mval _ _ _ => by simp only [peval]; exact Sim.stuck

theorem args_sim {ρ : Env} {ρv : VEnv} (p : String) : ∀ es : List Expr,
    SimE view (Locals h n ρ ρv) (evalArgs S p ρ es) (pargs PS p ρv es)
  | [] => by rw [evalArgs, pargs]; exact SimE.pure
  | e :: es => by
    rw [evalArgs, pargs]
    exact SimE.bind (SimE.bind (eval_sim p e) fun _ => SimE.single _) fun v =>
      SimE.bind (args_sim p es) fun vs => SimE.pure

theorem bound_sim {ρ : Env} {ρv : VEnv} (p : String) : ∀ e : Option Expr,
    SimE view (Locals h n ρ ρv) (evalBound S p ρ e) (pbound PS p ρv e)
  | none => by rw [evalBound, pbound]; exact SimE.pure
  | some e => by
    rw [evalBound, pbound]
    exact SimE.bind (SimE.bind (eval_sim p e) fun _ => SimE.single _) fun v =>
      SimE.bind (nat_sim v) fun _ => SimE.pure
end

end

/-! ### Assignments and declarations -/

section
variable {view : ω → W} {h : Nat → V} {n : Nat}

theorem scope_other {st : St ω} {i : Nat} {v : V} : ∀ {s : List (String × Nat)} {sv : List (String × V)},
    i ∉ s.map (·.2) → ScopeAt n st s sv → ScopeAt n (st.set i v) s sv
  | _, _, _, .nil => .nil
  | a :: s, b :: sv, hi, .cons h r => by
    simp only [List.map_cons, List.mem_cons, not_or] at hi
    refine .cons ⟨h.name, h.ge, h.lt, ?_⟩ (scope_other hi.2 r)
    show (if a.2 = i then v else st.heap a.2) = b.2
    rw [if_neg (fun e => hi.1 e.symm)]
    exact h.val

theorem env_other {st : St ω} {i : Nat} {v : V} : ∀ {ρ : Env} {ρv : VEnv},
    i ∉ cells ρ → All2 (ScopeAt n st) ρ ρv → All2 (ScopeAt n (st.set i v)) ρ ρv
  | _, _, _, .nil => .nil
  | s :: ρ, sv :: ρv, hi, .cons h r => by
    simp only [cells, List.flatMap_cons, List.mem_append, not_or] at hi
    exact .cons (scope_other hi.1 h) (env_other hi.2 r)

theorem lookup_mem {x : String} {i : Nat} : ∀ {s : List (String × Nat)}, s.lookup x = some i → i ∈ s.map (·.2)
  | [], h => by simp at h
  | (y, j) :: s, h => by
    simp only [List.lookup_cons] at h
    cases hx : x == y
    · rw [hx] at h
      exact List.mem_cons_of_mem _ (lookup_mem h)
    · rw [hx] at h
      cases h
      exact List.mem_cons_self

theorem scope_set {st : St ω} {x : String} {v : V} : ∀ {s : List (String × Nat)} {sv : List (String × V)},
    (s.map (·.2)).Nodup → ScopeAt n st s sv →
    match s.lookup x with
    | some i => n ≤ i ∧ ∃ sv', setScope x v sv = some sv' ∧ ScopeAt n (st.set i v) s sv'
    | none => setScope x v sv = none
  | _, _, _, .nil => rfl
  | (y, j) :: s, (z, w) :: sv, hd, .cons h r => by
    have hn : y = z := h.name
    subst hn
    simp only [List.map_cons, List.nodup_cons] at hd
    have ih := scope_set (x := x) (v := v) hd.2 r
    simp only [List.lookup_cons, setScope]
    by_cases hx : x = y
    · subst hx
      simp only [beq_self_eq_true, ↓reduceIte]
      refine ⟨h.ge, _, rfl, .cons ⟨rfl, h.ge, h.lt, ?_⟩ (scope_other hd.1 r)⟩
      show (if j = j then v else _) = v
      rw [if_pos rfl]
    · have hx' : (x == y) = false := by simpa using hx
      rw [hx', if_neg hx]
      dsimp only
      cases hl : s.lookup x with
      | none =>
        rw [hl] at ih
        dsimp only at ih ⊢
        rw [ih]
        rfl
      | some i =>
        rw [hl] at ih
        obtain ⟨h1, sv', h2, h3⟩ := ih
        refine ⟨h1, (y, w) :: sv', by rw [h2]; rfl, .cons ⟨rfl, h.ge, h.lt, ?_⟩ h3⟩
        show (if j = i then v else st.heap j) = w
        rw [if_neg (fun (e : j = i) => hd.1 (by rw [e]; exact lookup_mem hl))]
        exact h.val

theorem env_set {st : St ω} {x : String} {v : V} {i : Nat} : ∀ {ρ : Env} {ρv : VEnv},
    (cells ρ).Nodup → All2 (ScopeAt n st) ρ ρv → ρ.find x = some i →
    n ≤ i ∧ ∃ ρv', VEnv.set x v ρv = some ρv' ∧ All2 (ScopeAt n (st.set i v)) ρ ρv'
  | _, _, _, .nil, hf => by simp [Env.find] at hf
  | s :: ρ, sv :: ρv, hd, .cons h r, hf => by
    simp only [cells, List.flatMap_cons] at hd
    rw [List.nodup_append] at hd
    have h1 := scope_set (x := x) (v := v) hd.1 h
    simp only [Env.find, List.findSome?_cons] at hf
    simp only [VEnv.set]
    cases hl : s.lookup x with
    | some j =>
      rw [hl] at hf h1
      cases hf
      obtain ⟨g1, sv', g2, g3⟩ := h1
      refine ⟨g1, sv' :: ρv, by rw [g2], .cons g3 (env_other ?_ r)⟩
      intro hm
      exact hd.2.2 _ (lookup_mem hl) _ hm rfl
    | none =>
      rw [hl] at hf h1
      dsimp only at h1 hf
      obtain ⟨g1, ρv', g2, g3⟩ := env_set (x := x) (v := v) hd.2.1 r hf
      refine ⟨g1, sv :: ρv', by rw [h1, g2]; rfl, .cons (scope_other ?_ h) g3⟩
      intro hm
      exact hd.2.2 _ hm _ (find_mem hf) rfl
where
  find_mem {x : String} {i : Nat} : ∀ {ρ : Env}, ρ.findSome? (fun s => s.lookup x) = some i → i ∈ cells ρ
    | [], h => by simp at h
    | s :: ρ, h => by
      simp only [List.findSome?_cons] at h
      simp only [cells, List.flatMap_cons, List.mem_append]
      cases hl : s.lookup x with
      | some j => rw [hl] at h; cases h; exact .inl (lookup_mem hl)
      | none => rw [hl] at h; exact .inr (find_mem h)

theorem Locals.set {ρ : Env} {ρv : VEnv} {st : St ω} (hI : Locals h n ρ ρv st) {x : String} {i : Nat} (v : V)
    (hf : ρ.find x = some i) : ∃ ρv', VEnv.set x v ρv = some ρv' ∧ Locals h n ρ ρv' (st.set i v) := by
  obtain ⟨h1, ρv', h2, h3⟩ := env_set (v := v) hI.nodup hI.env hf
  refine ⟨ρv', h2, ⟨hI.agrees.next, fun j hj => ?_⟩, h3, hI.nodup, hI.defers⟩
  show (if j = i then v else st.heap j) = h j
  rw [if_neg (by omega)]
  exact hI.agrees.heap j hj

theorem cells_lt {st : St ω} : ∀ {ρ : Env} {ρv : VEnv}, All2 (ScopeAt n st) ρ ρv → ∀ i ∈ cells ρ, i < st.next
  | _, _, .nil, i, hi => by simp [cells] at hi
  | s :: ρ, sv :: ρv, .cons h r, i, hi => by
    simp only [cells, List.flatMap_cons, List.mem_append] at hi
    rcases hi with hi | hi
    · exact scope h i hi
    · exact cells_lt r i hi
where
  scope {s : List (String × Nat)} {sv : List (String × V)} (h : ScopeAt n st s sv) : ∀ i ∈ s.map (·.2), i < st.next := by
    induction h with
    | nil => simp
    | cons h r ih =>
      intro i hi
      simp only [List.map_cons, List.mem_cons] at hi
      rcases hi with rfl | hi
      · exact h.lt
      · exact ih i hi

/-- The state with one more cell. -/
theorem over_alloc (st : St ω) (v : V) :
    Over st { st with heap := fun j => if j = st.next then v else st.heap j, next := st.next + 1 } :=
  ⟨Nat.le_succ _, fun _ hj => if_neg (Nat.ne_of_lt hj), rfl⟩

/-- What a declaration or statement makes of the variables: those of the outer scopes stay where they are. -/
abbrev DefR (h : Nat → V) (n : Nat) (ρ : Env) (a : Env) (b : VEnv) (st : St ω) : Prop :=
  a.tail = ρ.tail ∧ Locals h n a b st

abbrev StepR (h : Nat → V) (n : Nat) (ρ : Env) (a : Env × Ctl) (b : VEnv × Ctl) (st : St ω) : Prop :=
  a.2 = b.2 ∧ a.1.tail = ρ.tail ∧ Locals h n a.1 b.1 st

abbrev CtlR (h : Nat → V) (n : Nat) (ρ : Env) (c : Ctl) (b : VEnv × Ctl) (st : St ω) : Prop :=
  c = b.2 ∧ Locals h n ρ b.1 st

theorem Locals.push {ρ : Env} {ρv : VEnv} {st : St ω} (hI : Locals h n ρ ρv st) :
    Locals h n ([] :: ρ) ([] :: ρv) st := ⟨hI.agrees, .cons .nil hI.env, hI.nodup, hI.defers⟩

theorem Locals.tail {ρ : Env} {ρv : VEnv} {st : St ω} (hI : Locals h n ρ ρv st) :
    Locals h n ρ.tail ρv.tail st := by
  refine ⟨hI.agrees, ?_, ?_, hI.defers⟩
  · have := hI.env
    cases this with
    | nil => exact .nil
    | cons _ r => exact r
  · have := hI.nodup
    cases ρ with
    | nil => exact this
    | cons s ρ =>
      simp only [cells, List.flatMap_cons] at this
      rw [List.nodup_append] at this
      exact this.2.1

theorem declare_sim {ρ : Env} {ρv : VEnv} (x : String) (v : V) :
    Sim view (Locals h n ρ ρv) (DefR h n ρ) (declare x v ρ) (pdeclare x v ρv) := by
  intro st hI
  have he := hI.env
  cases he with
  | nil => exact trivial
  | cons hs hr =>
    rename_i s sv ρ ρv
    have o := over_alloc st v
    have hI' := hI.over o
    refine ⟨((x, st.next) :: s) :: ρ, _, rfl, rfl, rfl, rfl, hI'.agrees, ?_, ?_, hI'.defers⟩
    · have he := hI'.env
      cases he with
      | cons hs hr =>
        exact .cons (.cons ⟨rfl, hI.agrees.next, Nat.lt_succ_self _, if_pos rfl⟩ hs) hr
    · show (st.next :: cells (s :: ρ)).Nodup
      rw [List.nodup_cons]
      exact ⟨fun hm => Nat.lt_irrefl _ (cells_lt hI.env _ hm), hI.nodup⟩

theorem define_sim {ρ : Env} {ρv : VEnv} (x : String) (v : V) :
    Sim view (Locals h n ρ ρv) (DefR h n ρ) (define x v ρ) (pdefine x v ρv) := by
  refine Sim.inhab fun st hI => ?_
  unfold define pdefine
  refine Sim.ite (fun _ => Sim.pure fun _ h => ⟨rfl, h⟩) fun _ => ?_
  have : (List.headD ρ []).lookup x = none ↔ (List.headD ρv []).lookup x = none := by
    have he := hI.env
    cases he with
    | nil => simp
    | cons hs hr =>
      rename_i s sv ρ ρv
      have := scope_lookup x hs
      simp only [List.headD_cons]
      cases h1 : s.lookup x <;> cases h2 : sv.lookup x <;> rw [h1, h2] at this <;> simp at this ⊢
  cases h2 : (List.headD ρv []).lookup x with
  | some _ => exact Sim.stuck
  | none =>
    rw [this.2 h2]
    exact declare_sim x _

theorem store_sim {ρ : Env} {ρv : VEnv} {S : Sem ω} (p x : String) (v : V) (hx : x ≠ "_") :
    Sim view (Locals h n ρ ρv) (fun _ b st => Locals h n ρ b st) (assignTo S p ρ (.id x) v)
      (psome (VEnv.find ρv x) >>= fun old => psome (VEnv.set x (coerce old v) ρv)) := by
  intro st hI
  have hf := env_find x hI.env
  have e0 : assignTo S p ρ (.id x) v =
      match ρ.find x with
      | some i => store ⟨i, []⟩ v
      | none =>
        if isVar S.prog p x then S.ext "=" [.glob (p ++ "." ++ x), v] >>= fun _ => pure () else stop .stuck := by
    unfold assignTo
    split
    · rename_i h; cases h
    · rename_i h; cases h; exact absurd rfl hx
    · rename_i h; cases h; rfl
    · rename_i h1; exact (h1 _ rfl).elim
  rw [e0]
  cases h1 : ρ.find x with
  | none =>
    cases h2 : VEnv.find ρv x with
    | none => exact trivial
    | some _ => rw [h1, h2] at hf; exact hf.elim
  | some i =>
    cases h2 : VEnv.find ρv x with
    | none => rw [h1, h2] at hf; exact hf.elim
    | some old =>
      rw [h1, h2] at hf
      obtain ⟨ρv', h3, h4⟩ := hI.set (coerce old v) h1
      have e1 : store (ω := ω) ⟨i, []⟩ v st = .ok ((), st.set i (coerce old v)) := by
        have : load (ω := ω) ⟨i, []⟩ st = .ok (old, st) := by
          have : st.at ⟨i, []⟩ = some old := by
            show (st.heap i).at [] = some old
            rw [hf.1]
            cases old <;> rfl
          unfold load
          rw [this]
        show M.bind (load ⟨i, []⟩) (fun old => storeRaw ⟨i, []⟩ (coerce old v)) st = _
        unfold M.bind
        rw [this]
        show storeRaw (ω := ω) ⟨i, []⟩ (coerce old v) st = _
        unfold storeRaw
        have : V.put (coerce old v) (st.heap i) [] = some (coerce old v) := by
          cases st.heap i <;> rfl
        dsimp only
        rw [this]
      have e2 : (psome (some old) >>= fun old => psome (VEnv.set x (coerce old v) ρv) : PM W VEnv)
          = pure ρv' := by
        show (psome (VEnv.set x (coerce old v) ρv) : PM W VEnv) = _
        rw [h3]
        rfl
      rw [e2]
      exact ⟨(), _, e1, rfl, rfl, h4⟩

end

/-! ### Statements -/

section
variable {view : ω → W} {S : Sem ω} {PS : PSem W} {h : Nat → V} {n : Nat}

theorem range_sim {ρ : Env} {f : Nat → V → M ω Ctl} {g : Nat → V → VEnv → PM W (VEnv × Ctl)}
    (hf : ∀ i v ρv, Sim view (Locals h n ρ ρv) (CtlR h n ρ) (f i v) (g i v ρv)) : ∀ (vs : List V) (i : Nat) (ρv : VEnv),
    Sim view (Locals h n ρ ρv) (CtlR h n ρ) (rangeM f i vs) (prange g i vs ρv)
  | [], _, _ => Sim.pure fun _ h => ⟨rfl, h⟩
  | v :: vs, i, ρv => by
    refine Sim.bind (hf i v ρv) fun c r => ?_
    intro st hR
    obtain ⟨rfl, hI⟩ := hR
    obtain ⟨ρv', c⟩ := r
    cases c with
    | next => exact range_sim hf vs (i + 1) ρv' st hI
    | ret _ => exact ⟨_, st, rfl, rfl, rfl, rfl, hI⟩
    | goto _ => exact ⟨_, st, rfl, rfl, rfl, rfl, hI⟩

variable (F : Fits view S PS) (hn : PS.bound ≤ n) (hh : ∀ j, j < PS.bound → h j = PS.heap j)
include F hn hh

omit F in
theorem elems_sim {ρ : Env} {ρv : VEnv} (v : V) :
    SimE view (Locals h n ρ ρv) (elemsV v) (pelems PS v) := by
  cases v with
  | nil => exact SimE.pure
  | slice s =>
    refine Sim.guard (fun hb => ?_) fun _ => Sim.stuck
    intro st hI
    have hl : st.heap s.base.id = PS.heap s.base.id :=
      (hI.agrees.heap _ (Nat.lt_of_lt_of_le hb hn)).trans (hh _ hb)
    cases ha : (PS.heap s.base.id).at s.base.path with
    | none => exact trivial
    | some w =>
      cases w with
      | vals l =>
        refine ⟨(l.drop s.off).take s.len, st, ?_, rfl, rfl, rfl, hI⟩
        have : load (ω := ω) s.base st = .ok (.vals l, st) := by
          unfold load St.at
          rw [hl, ha]
        show M.bind (load s.base) _ st = _
        unfold M.bind
        rw [this]
        rfl
      | _ => exact trivial
  | _ => exact Sim.stuck

theorem any_sim {ρ : Env} {ρv : VEnv} (p : String) (v : V) : ∀ es : List Expr,
    SimE view (Locals h n ρ ρv) (anyCase S p ρ v es) (panyCase PS p ρv v es)
  | [] => SimE.pure
  | e :: es => by
    refine SimE.bind (SimE.bind (eval_sim F hn hh p e) fun _ => SimE.single _) fun w => ?_
    show Sim _ _ _ (some! (binop "==" v w) >>= _) ((psome (binop "==" v w) >>= pbool) >>= _)
    cases binop "==" v w with
    | none => exact Sim.stuck
    | some r =>
      cases r with
      | bool b =>
        cases b with
        | true => exact SimE.pure
        | false => exact any_sim p v es
      | _ => exact Sim.stuck

theorem choose_sim {ρ : Env} {ρv : VEnv} (p : String) (v : V) : ∀ (cs : List (List Expr)) (i : Nat) (d : Option Nat),
    SimE view (Locals h n ρ ρv) (choose S p ρ v i d cs) (pchoose PS p ρv v i d cs)
  | [], _, _ => by simp only [choose, pchoose]; exact SimE.pure
  | [] :: cs, i, _ => by simp only [choose, pchoose]; exact choose_sim p v cs (i + 1) (some i)
  | (e :: es) :: cs, i, d => by
    simp only [choose, pchoose]
    exact SimE.bind (any_sim F hn hh p v (e :: es)) fun b =>
      Sim.ite (fun _ => SimE.pure) fun _ => choose_sim p v cs (i + 1) d

theorem rhs_sim {ρ : Env} {ρv : VEnv} (p : String) : ∀ es : List Expr,
    SimE view (Locals h n ρ ρv) (evalRhs S p ρ es.length es) (prhs PS p ρv es)
  | [] => args_sim F hn hh p []
  | [e] => eval_sim F hn hh p e
  | [a, b] => by
    have : evalRhs S p ρ [a, b].length [a, b] = evalArgs S p ρ [a, b] := by
      unfold evalRhs; cases a <;> rfl
    rw [this]
    exact args_sim F hn hh p _
  | a :: b :: c :: l => by
    have : evalRhs S p ρ (a :: b :: c :: l).length (a :: b :: c :: l) = evalArgs S p ρ (a :: b :: c :: l) := by
      unfold evalRhs; cases a <;> rfl
    rw [this]
    exact args_sim F hn hh p _

omit F hn hh in
/-- A block: a new scope, left at the end. -/
theorem block_sim {ρ : Env} {ρv : VEnv} {m : M ω (Env × Ctl)} {pm : PM W (VEnv × Ctl)}
    (hs : Sim view (Locals h n ([] :: ρ) ([] :: ρv)) (StepR h n ([] :: ρ)) m pm) :
    Sim view (Locals h n ρ ρv) (StepR h n ρ) (m >>= fun r => pure (ρ, r.2)) (pm >>= fun r => pure (outer r)) := by
  refine Sim.bind (Sim.mono hs (fun _ h => h.push) fun _ _ _ h => h) fun r rv => Sim.pure fun st hR => ?_
  obtain ⟨h1, h2, h3⟩ := hR
  have h4 := h3.tail
  rw [show r.1.tail = ρ from h2] at h4
  exact ⟨h1, rfl, h4⟩

omit F hn hh in
theorem block_ctl {ρ : Env} {ρv : VEnv} {m : M ω (Env × Ctl)} {pm : PM W (VEnv × Ctl)}
    (hs : Sim view (Locals h n ([] :: ρ) ([] :: ρv)) (StepR h n ([] :: ρ)) m pm) :
    Sim view (Locals h n ρ ρv) (CtlR h n ρ) (m >>= fun r => pure r.2) (pm >>= fun r => pure (outer r)) := by
  refine Sim.bind (Sim.mono hs (fun _ h => h.push) fun _ _ _ h => h) fun r rv => Sim.pure fun st hR => ?_
  obtain ⟨h1, h2, h3⟩ := hR
  have h4 := h3.tail
  rw [show r.1.tail = ρ from h2] at h4
  exact ⟨h1, h4⟩

omit F hn hh in
theorem mbind_pure {a : Type} (m : M ω a) : (m >>= fun x => pure x) = m := by
  funext st
  show M.bind m M.pure st = m st
  unfold M.bind
  cases m st with
  | error _ => rfl
  | ok _ => rfl

omit F hn hh in
theorem pbind_assoc {a b c : Type} (m : PM W a) (f : a → PM W b) (g : b → PM W c) :
    (m >>= f) >>= g = m >>= fun x => f x >>= g := by
  funext w
  show PM.bind (PM.bind m f) g w = PM.bind m (fun x => PM.bind (f x) g) w
  unfold PM.bind
  cases m w with
  | error _ => rfl
  | ok _ => rfl

omit F hn hh in
theorem nth_step {ρ : Env} {ρv : VEnv} {m : M ω Ctl} {pm : PM W (VEnv × Ctl)}
    (hs : Sim view (Locals h n ρ ρv) (CtlR h n ρ) m pm) :
    Sim view (Locals h n ρ ρv) (StepR h n ρ) (m >>= fun r => pure (ρ, r)) pm := by
  have : pm = (pm >>= fun r => pure r : PM W _) := by
    funext w
    show pm w = PM.bind pm PM.pure w
    unfold PM.bind
    cases pm w with
    | error _ => rfl
    | ok _ => rfl
  rw [this]
  exact Sim.bind hs fun c r => Sim.pure fun st hR => ⟨hR.1, rfl, hR.2⟩

omit F hn hh in
theorem assign_stuck (p : String) (ls es : List Expr) (ρv : VEnv) (hs : ∀ x e, ls = [.id x] → es = [e] → False) :
    pexec PS p (.assign ls es) ρv = pstop .stuck := by
  rw [pexec.eq_def]
  split <;> first | rfl | (rename_i h; cases h; done) | skip
  rename_i h
  cases h
  exact (hs _ _ rfl rfl).elim

theorem assign_sim (p : String) (ls es : List Expr) (ρ : Env) (ρv : VEnv) :
    Sim view (Locals h n ρ ρv) (StepR h n ρ) (exec S p (.assign ls es) ρ) (pexec PS p (.assign ls es) ρv) := by
  by_cases hs : ∃ x e, ls = [.id x] ∧ es = [e]
  · obtain ⟨x, e, rfl, rfl⟩ := hs
    simp only [exec, pexec, pbind_assoc]
    rw [show evalRhs S p ρ [Expr.id x].length [e] = evalM S p ρ e by cases e <;> rfl]
    refine SimE.bind (eval_sim F hn hh p e) fun vs => ?_
    match vs with
    | [] => exact Sim.stuck
    | [v] =>
      have e1 : (assignAll S p ρ [.id x] [v] : M ω Unit) = assignTo S p ρ (.id x) v := mbind_pure _
      rw [e1]
      refine Sim.bind (R := fun _ b st => Locals h n ρ b st) (m := assignTo S p ρ (.id x) v) (pm := passign x v ρv) ?_
        fun a b => Sim.pure fun st hR => ⟨rfl, rfl, hR⟩
      unfold passign
      by_cases hx : x = "_"
      · subst hx
        exact Sim.pure fun _ h => h
      · rw [if_neg hx]
        exact store_sim p x v hx
    | _ :: _ :: _ => exact Sim.stuck
  · rw [assign_stuck p ls es ρv fun x e h1 h2 => hs ⟨x, e, h1, h2⟩]
    exact Sim.stuck

mutual
theorem exec_sim (p : String) : ∀ (s : Stmt) (ρ : Env) (ρv : VEnv),
    Sim view (Locals h n ρ ρv) (StepR h n ρ) (exec S p s ρ) (pexec PS p s ρv)
  | .expr e, ρ, ρv => by
    simp only [exec, pexec]
    exact SimE.bind (eval_sim F hn hh p e) fun _ => Sim.pure fun _ h => ⟨rfl, rfl, h⟩
  | .define [x] [e], ρ, ρv => by
    simp only [exec, pexec, pbind_assoc]
    rw [show evalRhs S p ρ [x].length [e] = evalM S p ρ e by cases e <;> rfl]
    refine SimE.bind (eval_sim F hn hh p e) fun vs => ?_
    match vs with
    | [] => exact Sim.stuck
    | [v] =>
      have e1 : (defineAll [x] [v] ρ : M ω Env) = define x v ρ := mbind_pure _
      rw [e1]
      exact Sim.bind (pm := pdefine x v ρv) (define_sim x v) fun a b => Sim.pure fun st (hR : DefR h n ρ a b st) => ⟨rfl, hR.1, hR.2⟩
    | _ :: _ :: _ => exact Sim.stuck
  | .define [] _, _, _ | .define (_ :: _ :: _) _, _, _ | .define [_] [], _, _ | .define [_] (_ :: _ :: _), _, _ => by
    rw [pexec.eq_def]; exact Sim.stuck
  | .assign ls es, ρ, ρv => assign_sim F hn hh p ls es ρ ρv
  | .var [x] t, ρ, ρv => by
    simp only [exec, pexec, F.prog]
    refine SimE.bind SimE.some fun z => ?_
    have e1 : (declareAll z [x] ρ : M ω Env) = declare x z ρ := mbind_pure _
    rw [e1]
    exact Sim.bind (declare_sim x z) fun a b =>
      Sim.pure fun st (hR : DefR h n ρ a b st) => ⟨rfl, hR.1, hR.2⟩
  | .ite c a b, ρ, ρv => by
    simp only [exec, pexec]
    refine SimE.bind (SimE.bind (eval_sim F hn hh p c) fun _ => SimE.single _) fun v => ?_
    cases v with
    | bool t =>
      cases t with
      | true => exact block_sim (execs_sim p a _ _ .next)
      | false => exact block_sim (execs_sim p b _ _ .next)
    | _ => exact Sim.stuck
  | .range k v e b, ρ, ρv => by
    simp only [exec, pexec]
    refine SimE.bind (SimE.bind (eval_sim F hn hh p e) fun _ => SimE.single _) fun l => ?_
    refine SimE.bind (elems_sim hn hh l) fun vs => ?_
    intro st hI
    have hr := range_sim (view := view) (h := h) (n := n) (ρ := ρ)
      (f := fun i w => define k (.int i) ([] :: ρ) >>= fun ρ' => define v w ρ' >>= fun ρ' =>
        execs S p b ([] :: ρ') .next >>= fun r => pure r.2)
      (g := fun i w ρ => pdefine k (.int i) ([] :: ρ) >>= fun ρ' => pdefine v w ρ' >>= fun ρ' =>
        pexecs PS p b ([] :: ρ') .next >>= fun r => pure (outer (outer r))) ?_ vs 0 ρv st hI
    · have h1 : ∀ (m : M ω Ctl) (pm : PM W (VEnv × Ctl)), Meets view st.defers (CtlR h n ρ) (pm (view st.world)) (m st) →
          Meets view st.defers (StepR h n ρ) (pm (view st.world)) ((m >>= fun c => pure (ρ, c)) st) := by
        intro m pm hm
        have : (m >>= fun c => pure (ρ, c)) st = M.bind m (fun c => M.pure (ρ, c)) st := rfl
        rw [this]
        unfold M.bind
        cases hp : pm (view st.world) with
        | error x =>
          rw [hp] at hm
          cases x with
          | panic =>
            obtain ⟨s, hm, hd⟩ := hm
            rw [hm]
            exact ⟨s, rfl, hd⟩
          | _ => trivial
        | ok r =>
          rw [hp] at hm
          obtain ⟨c, st', e1, e2, hd, e3, e4⟩ := hm
          rw [e1]
          exact ⟨_, _, rfl, e2, hd, e3, rfl, e4⟩
      exact h1 _ _ hr
    · intro i w ρv
      refine Sim.bind (R := DefR h n ([] :: ρ)) (Sim.mono (define_sim k (.int i)) (fun _ h => h.push) fun _ _ _ h => h)
        fun a1 b1 => ?_
      refine Sim.mono (I := fun st => a1.tail = ρ ∧ Locals h n a1 b1 st) ?_ (fun _ h => h) fun _ _ _ h => h
      intro st ⟨ht, hI⟩
      refine Sim.bind (I := Locals h n a1 b1) (R := DefR h n a1) (define_sim v w) (fun a2 b2 => ?_) st hI
      intro st ⟨ht2, hI⟩
      refine Sim.bind (Sim.mono (execs_sim p b ([] :: a2) ([] :: b2) .next) (fun _ h => h.push) fun _ _ _ h => h)
        (fun r rv => Sim.pure fun st hR => ?_) st hI
      obtain ⟨h1, h2, h3⟩ := hR
      have h4 := h3.tail
      rw [show r.1.tail = a2 from h2] at h4
      have h5 := h4.tail
      rw [ht2, ht] at h5
      exact ⟨h1, h5⟩
  | .switch e cs bs, ρ, ρv => by
    simp only [exec, pexec]
    refine SimE.bind (SimE.bind (eval_sim F hn hh p e) fun _ => SimE.single _) fun v => ?_
    refine SimE.bind (choose_sim F hn hh p v cs 0 none) fun o => ?_
    cases o with
    | none => exact Sim.pure fun _ h => ⟨rfl, rfl, h⟩
    | some i => exact nth_step (nth_sim p bs i ρ ρv)
  | .tswitch x e cs bs, ρ, ρv => by
    simp only [exec, pexec]
    refine SimE.bind (SimE.bind (eval_sim F hn hh p e) fun _ => SimE.single _) fun v => ?_
    refine SimE.bind SimE.some fun o => ?_
    cases o with
    | none => exact Sim.pure fun _ h => ⟨rfl, rfl, h⟩
    | some i =>
      refine Sim.ite (fun _ => nth_step (nth_sim p bs i ρ ρv)) fun _ => ?_
      refine Sim.mono (I := Locals h n ([] :: ρ) ([] :: ρv)) ?_ (fun _ h => h.push) fun _ _ _ h => h
      have : (pexecNth PS p bs i ([(x, v)] :: ρv) >>= fun r => pure (outer r) : PM W _) =
          (pdeclare x v ([] :: ρv) >>= fun ρ' => pexecNth PS p bs i ρ' >>= fun r => pure (outer r)) := rfl
      rw [this]
      refine Sim.bind (declare_sim x v) fun a b => ?_
      intro st ⟨ht, hI⟩
      refine Sim.bind (nth_sim p bs i a b) (fun c r => Sim.pure fun st hR => ?_) st hI
      have h5 := hR.2.tail
      rw [show a.tail = ρ from ht] at h5
      exact ⟨hR.1, rfl, h5⟩
  | .ret es, ρ, ρv => by
    simp only [exec, pexec]
    exact SimE.bind (rhs_sim F hn hh p es) fun _ => Sim.pure fun _ h => ⟨rfl, rfl, h⟩
  | .block b, ρ, ρv => by
    simp only [exec, pexec]
    exact block_sim (execs_sim p b _ _ .next)
  | .var [] _, _, _ | .var (_ :: _ :: _) _, _, _ => by rw [pexec.eq_def]; exact Sim.stuck
  | .inc _, _, _ | .forever _, _, _ | .loop _ _ _ _, _, _ | .goto _, _, _ | .label _, _, _ | .go _, _, _
  | .defer _, _, _ => by rw [pexec.eq_def]; exact Sim.stuck

theorem execs_sim (p : String) : ∀ (b : List Stmt) (ρ : Env) (ρv : VEnv) (c : Ctl),
    Sim view (Locals h n ρ ρv) (StepR h n ρ) (execs S p b ρ c) (pexecs PS p b ρv c)
  | [], ρ, ρv, c => by
    simp only [execs, pexecs]
    exact Sim.pure fun _ h => ⟨rfl, rfl, h⟩
  | s :: b, ρ, ρv, .next => by
    simp only [execs, pexecs]
    refine Sim.bind (exec_sim p s ρ ρv) fun r rv => ?_
    intro st ⟨h1, h2, h3⟩
    have := execs_sim p b r.1 rv.1 rv.2
    rw [h1]
    refine Sim.mono this (fun _ h => h) (fun _ _ _ h => ?_) st h3
    exact ⟨h.1, h.2.1.trans h2, h.2.2⟩
  | s :: b, ρ, ρv, .ret vs => by
    have : execs S p (s :: b) ρ (.ret vs) = execs S p b ρ (.ret vs) := by
      simp only [execs]
    rw [this]
    simp only [pexecs]
    exact execs_sim p b ρ ρv _
  | _ :: _, _, _, .goto _ => by simp only [pexecs]; exact Sim.stuck

theorem nth_sim (p : String) : ∀ (bs : List (List Stmt)) (i : Nat) (ρ : Env) (ρv : VEnv),
    Sim view (Locals h n ρ ρv) (CtlR h n ρ) (execNth S p bs i ρ) (pexecNth PS p bs i ρv)
  | [], _, _, _ => by simp only [pexecNth]; exact Sim.stuck
  | b :: _, 0, ρ, ρv => by
    simp only [execNth, pexecNth]
    exact block_ctl (execs_sim p b _ _ .next)
  | _ :: bs, i + 1, ρ, ρv => by
    simp only [execNth, pexecNth]
    exact nth_sim p bs i ρ ρv
end

end

/-! ### Functions -/

section
variable {view : ω → W} {h : Nat → V} {n : Nat}

theorem params_sim (P : Prog) (p : String) : ∀ (ps : List (String × Ty)) (vs : List V) (ρ : Env) (ρv : VEnv),
    Sim view (Locals h n ρ ρv) (fun a b st => Locals h n a b st) (bindParams P p ps vs ρ) (pbindParams P p ps vs ρv)
  | [], [], _, _ => Sim.pure fun _ h => h
  | (x, t) :: ps, v :: vs, ρ, ρv => by
    refine SimE.bind SimE.some fun z => ?_
    refine Sim.bind (declare_sim x (coerce z v)) fun a b => ?_
    exact Sim.mono (params_sim P p ps vs a b) (fun _ h => h.2) fun _ _ _ h => h
  | [], _ :: _, _, _ => Sim.stuck
  | _ :: _, [], _, _ => Sim.stuck

theorem results_sim {I : St ω → Prop} (P : Prog) (p : String) : ∀ (rs : List (String × Ty)) (vs : List V),
    SimE view I (results P p rs vs) (presults P p rs vs)
  | [], [] => SimE.pure
  | (_, t) :: rs, v :: vs => SimE.bind SimE.some fun _ => SimE.bind (results_sim P p rs vs) fun _ => SimE.pure
  | [], _ :: _ => Sim.stuck
  | _ :: _, [] => Sim.stuck

theorem no_results (P : Prog) (p : String) (ρ : Env) : ∀ rs : List (String × Ty), rs.all (·.1 == "") = true →
    (bindResults P p rs ρ : M ω Env) = pure ρ
  | [], _ => rfl
  | (x, t) :: rs, h => by
    simp only [List.all_cons, Bool.and_eq_true, beq_iff_eq] at h
    rw [bindResults, if_pos h.1]
    exact no_results P p ρ rs h.2

theorem func_sim {S : Sem ω} {PS : PSem W} (F : Fits view S PS) (p : String) (f : Func) (args : List V) (st : St ω)
    (ha : Agrees PS.heap PS.bound st) :
    Sim view (· = st) (fun a b st' => a = b ∧ Over st st') (callFunc S p f args) (pcallFunc PS p f args) := by
  refine Sim.guard (fun hr => ?_) fun _ => Sim.stuck
  let st0 : St ω := { st with defers := [] }
  have hL : Locals st.heap st.next [[]] [[]] st0 :=
    ⟨⟨Nat.le_refl _, fun _ _ => rfl⟩, .cons .nil .nil, List.nodup_nil, rfl⟩
  have hbody : Sim view (Locals st.heap st.next [[]] [[]]) (fun a b st' => a = b ∧ Over st { st' with defers := st.defers })
      (runBody S p f args)
      (do
        let ρ ← pbindParams PS.prog p f.args args [[]]
        let r ← pexecs PS p f.body ρ .next
        pfinish PS.prog p f r.2) := by
    unfold runBody
    rw [F.prog]
    refine Sim.bind (params_sim PS.prog p f.args args [[]] [[]]) fun ρ ρv => ?_
    rw [no_results PS.prog p ρ f.results hr]
    show Sim view (Locals st.heap st.next ρ ρv) _ (execs S p f.body ρ .next >>= _) _
    refine Sim.bind (execs_sim F ha.next (fun j hj => ha.heap j hj) p f.body ρ ρv .next) fun r rv => ?_
    intro st1 ⟨h1, _, h3⟩
    have hfin : SimE view (Locals st.heap st.next r.1 rv.1) (finish S p ρ f r.2) (pfinish PS.prog p f rv.2) := by
      rw [h1]
      cases rv.2 with
      | next => exact Sim.ite (fun _ => SimE.pure) fun _ => Sim.stuck
      | goto _ => exact Sim.stuck
      | ret vs =>
        cases vs with
        | nil => exact Sim.stuck
        | cons v vs =>
          unfold finish pfinish
          rw [F.prog]
          exact results_sim _ _ _ _
    refine Sim.mono hfin (fun _ h => h) (fun a b st2 h => ?_) st1 h3
    exact ⟨h.1, h.2.agrees.next, h.2.agrees.heap, rfl⟩
  intro st' hst
  subst hst
  have hb := hbody st0 hL
  show Meets view st'.defers _ _ (finally' (runBody S p f args) _ st0)
  unfold finally'
  show Meets view st'.defers _ ((do
        let ρ ← pbindParams PS.prog p f.args args [[]]
        let r ← pexecs PS p f.body ρ .next
        pfinish PS.prog p f r.2 : PM W _) (view st0.world)) _
  revert hb
  cases (do
        let ρ ← pbindParams PS.prog p f.args args [[]]
        let r ← pexecs PS p f.body ρ .next
        pfinish PS.prog p f r.2 : PM W _) (view st0.world) with
  | error e =>
    intro hb
    cases e with
    | panic =>
      obtain ⟨s, hm, hd⟩ := hb
      rw [hm]
      refine ⟨{ s with defers := st'.defers }, ?_, rfl⟩
      show M.bind (M.bind (runDefers S s.defers) _) _ s = _
      rw [hd]
      rfl
    | _ => trivial
  | ok r =>
    intro hb
    obtain ⟨a, s, hm, hw, hd, hr1, hr2⟩ := hb
    rw [hm]
    refine ⟨a, { s with defers := st'.defers }, ?_, hw, rfl, hr1, hr2⟩
    show M.bind (M.bind (runDefers S s.defers) _) _ s = _
    rw [hd]
    rfl

/-- Running with values for variables is running. -/
theorem callN_sim (P : Prog) (E : Ext ω) (PE : PExt W)
    (he : ∀ f args st, Agrees PE.heap PE.bound st →
      Sim view (· = st) (fun a b st' => a = b ∧ Over st st') (E.ext f args) (PE.ext f args)) :
    ∀ (k : Nat) (key : FKey) (args : List V) (st : St ω), Agrees PE.heap PE.bound st →
      Sim view (· = st) (fun a b st' => a = b ∧ Over st st') (callN P E k key args) (pcallN P PE k key args)
  | 0, _, _, _, _ => Sim.fuel
  | k + 1, key, args, st, ha => by
    rw [callN, pcallN]
    cases P.find key with
    | none => exact Sim.stuck
    | some pf =>
      obtain ⟨p, f⟩ := pf
      exact func_sim ⟨rfl, callN_sim P E PE he k, he⟩ p f args st ha

end
end Verif.Lang
