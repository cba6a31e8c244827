/-
A larger bound on the depth of calls changes nothing, once the bound suffices.
-/
import Verif.Lang.Sem

namespace Verif.Lang
set_option linter.unusedSectionVars false
variable {ω α β : Type}

/-- `m'` gives what `m` gives, unless `m` ran out of calls. -/
def LeM (m m' : M ω α) : Prop := ∀ st, (∃ s, m st = .error (.fuel, s)) ∨ m' st = m st

theorem LeM.refl (m : M ω α) : LeM m m := fun _ => .inr rfl

theorem LeM.bind {m m' : M ω α} {f f' : α → M ω β} (h : LeM m m') (hf : ∀ a, LeM (f a) (f' a)) :
    LeM (m >>= f) (m' >>= f') := by
  intro st
  show (∃ s, M.bind m f st = .error (.fuel, s)) ∨ M.bind m' f' st = M.bind m f st
  unfold M.bind
  rcases h st with ⟨s, h⟩ | h
  · rw [h]; exact .inl ⟨s, rfl⟩
  · rw [h]
    cases m st with
    | error e => exact .inr rfl
    | ok r => exact hf r.1 r.2

theorem LeM.finally {m m' : M ω α} {d d' : M ω Unit} (h : LeM m m') (hd : LeM d d') :
    LeM (finally' m d) (finally' m' d') := by
  intro st
  have h1 := fun (a : α) s => LeM.bind (f := fun _ => pure a) hd (fun _ => .refl _) s
  have h2 := fun s => LeM.bind (β := α) (f := fun _ => stop .panic) hd (fun _ => .refl _) s
  unfold finally'
  rcases h st with ⟨s, h⟩ | h
  · rw [h]; exact .inl ⟨s, rfl⟩
  · rw [h]
    cases m st with
    | error e =>
      obtain ⟨e, s⟩ := e
      cases e with
      | panic => exact h2 s
      | _ => exact .inr rfl
    | ok r => exact h1 r.1 r.2

theorem LeM.ite {c : Prop} [Decidable c] {a a' b b' : M ω α} (h1 : LeM a a') (h2 : LeM b b') :
    LeM (if c then a else b) (if c then a' else b') := by
  split
  · exact h1
  · exact h2

section
variable {S S' : Sem ω}

/-- The same meaning, with more calls. -/
structure More (S S' : Sem ω) : Prop where
  prog : S'.prog = S.prog
  call : ∀ k vs, LeM (S.call k vs) (S'.call k vs)
  ext : S'.ext = S.ext
  spawn : S'.spawn = S.spawn
  grow : S'.grow = S.grow
  loops : S'.loops = S.loops

variable (F : More S S')
include F

theorem id_le (p : String) (ρ : Env) (x : String) : LeM (evalId S p ρ x) (evalId S' p ρ x) := by
  unfold evalId
  rw [F.prog]
  exact LeM.refl _

theorem member_le (q x : String) : LeM (evalMember S q x) (evalMember S' q x) := by
  unfold evalMember
  rw [F.prog]
  exact LeM.refl _

theorem callVal_le (f : V) (vs : List V) : LeM (callVal S f vs) (callVal S' f vs) := by
  unfold callVal
  rw [F.ext]
  cases f with
  | fn k => exact F.call _ _
  | bound k v => exact F.call _ _
  | _ => exact LeM.refl _

theorem callPkg_le (q f : String) (vs : List V) : LeM (callPkg S q f vs) (callPkg S' q f vs) := by
  unfold callPkg
  rw [F.ext, F.prog]
  refine .ite (.refl _) (.ite (.refl _) (.ite (.refl _) (.ite (.refl _) (.ite (.refl _) (.ite (.refl _) (F.call _ _))))))

theorem callMeth_le (v : V) (m : String) (vs : List V) : LeM (callMeth S v m vs) (callMeth S' v m vs) := by
  unfold callMeth
  rw [F.ext]
  cases v with
  | ptr T l =>
    refine .ite (.bind (.refl _) fun w => ?_) (F.call _ _)
    cases w with
    | struct T fs => exact F.call _ _
    | _ => exact LeM.refl _
  | struct T fs => exact F.call _ _
  | _ => exact LeM.refl _

omit F in
/-- One value. -/
theorem one_le {m m' : M ω (List V)} (h : LeM m m') : LeM (m >>= one) (m' >>= one) := h.bind fun _ => .refl _

theorem callid_le (p : String) (ρ : Env) (f : String) (args : List Expr) (sp : Bool)
    (ha : LeM (evalArgs S p ρ args) (evalArgs S' p ρ args))
    (ht : ∀ t as, args = .ty t :: as → LeM (evalArgs S p ρ as) (evalArgs S' p ρ as)) :
    LeM (evalM S p ρ (.call (.id f) args sp)) (evalM S' p ρ (.call (.id f) args sp)) := by
  have key : ∀ (r r' : M ω (List V)), LeM r r' → LeM
      (match ρ.find f with
        | some i => do
          let fv ← load ⟨i, []⟩
          let vs ← evalArgs S p ρ args
          callVal S fv vs
        | none =>
          if f = "make" then r
          else if f = "new" then
            match newArg args with
            | some t => do
              let z ← some! (S.prog.zero p t)
              let i ← alloc z
              pure [.ptr "" ⟨i, []⟩]
            | none => stop .stuck
          else do
            let vs ← evalArgs S p ρ args
            if builtins.contains f then builtin S.grow f vs sp
            else if isType S.prog p f then convertV S.prog p (.name f) vs
            else S.call (.fn p f) vs)
      (match ρ.find f with
        | some i => do
          let fv ← load ⟨i, []⟩
          let vs ← evalArgs S' p ρ args
          callVal S' fv vs
        | none =>
          if f = "make" then r'
          else if f = "new" then
            match newArg args with
            | some t => do
              let z ← some! (S.prog.zero p t)
              let i ← alloc z
              pure [.ptr "" ⟨i, []⟩]
            | none => stop .stuck
          else do
            let vs ← evalArgs S' p ρ args
            if builtins.contains f then builtin S.grow f vs sp
            else if isType S.prog p f then convertV S.prog p (.name f) vs
            else S'.call (.fn p f) vs) := by
    intro r r' hr
    cases ρ.find f with
    | some i => exact .bind (.refl _) fun v => .bind ha fun vs => callVal_le F _ _
    | none =>
      exact .ite hr (.ite (.refl _) (.bind ha fun vs => .ite (.refl _) (.ite (.refl _) (F.call _ _))))
  cases args with
  | nil =>
    rw [evalM, evalM, F.prog, F.grow]
    · exact key _ _ (.refl _)
    all_goals (intros; contradiction)
  | cons e es =>
    cases e with
    | ty t =>
      rw [evalM, evalM, F.prog, F.grow]
      exact key _ _ (.bind (ht t es rfl) fun _ => .refl _)
    | _ =>
      rw [evalM, evalM, F.prog, F.grow]
      · exact key _ _ (.refl _)
      all_goals (intro _ _ h; cases h)

theorem un_le (p : String) (ρ : Env) (op : String) (e : Expr) (h1 : LeM (evalM S p ρ e) (evalM S' p ρ e))
    (h2 : LeM (addr S p ρ e) (addr S' p ρ e))
    (h3 : ∀ t fs es, e = .lit t fs es → LeM (evalArgs S p ρ es) (evalArgs S' p ρ es)) :
    LeM (evalM S p ρ (.un op e)) (evalM S' p ρ (.un op e)) := by
  by_cases hl : ∃ t fs es, e = .lit t fs es
  · obtain ⟨t, fs, es, rfl⟩ := hl
    have e1 : ∀ S : Sem ω, evalM S p ρ (.un op (.lit t fs es)) = (if op = "&" then (do
        let z ← some! (S.prog.zero p t)
        let vs ← evalArgs S p ρ es
        let v ← some! (setFields (fieldNames fs z) vs z)
        let i ← alloc v
        pure [.ptr "" ⟨i, []⟩])
      else if op = "*" then do
        match ← (evalM S p ρ (.lit t fs es) >>= one) with
        | .ptr _ l => do pure [← load l]
        | .nil => stop .panic
        | .glob x => do pure [← (S.ext "*" [.glob x] >>= one)]
        | _ => stop .stuck
      else if op = "!" then do
        match ← (evalM S p ρ (.lit t fs es) >>= one) with
        | .bool b => pure [.bool (!b)]
        | _ => stop .stuck
      else if op = "-" then do
        match ← (evalM S p ρ (.lit t fs es) >>= one) with
        | .const n => pure [.const (-n)]
        | _ => stop .stuck
      else stop .stuck) := fun S => by rw [evalM]; rfl
    rw [e1, e1, F.prog, F.ext]
    exact .ite (.bind (.refl _) fun _ => .bind (h3 _ _ _ rfl) fun _ => .refl _)
      (.ite (.bind (one_le h1) fun _ => .refl _) (.ite (.bind (one_le h1) fun _ => .refl _)
      (.ite (.bind (one_le h1) fun _ => .refl _) (.refl _))))
  · rw [evalM, evalM, F.ext]
    · exact .ite (.bind h2 fun _ => .refl _)
        (.ite (.bind (one_le h1) fun _ => .refl _) (.ite (.bind (one_le h1) fun _ => .refl _)
        (.ite (.bind (one_le h1) fun _ => .refl _) (.refl _))))
    all_goals exact fun t fs es h => hl ⟨t, fs, es, h⟩

mutual
theorem eval_le (p : String) (ρ : Env) : ∀ e : Expr, LeM (evalM S p ρ e) (evalM S' p ρ e)
  | .id x => by rw [evalM, evalM]; exact .bind (id_le F p ρ x) fun _ => .refl _
  | .int k => by rw [evalM, evalM]; exact .refl _
  | .str s => by rw [evalM, evalM]; exact .refl _
  | .sel e f => by
    rw [evalM, evalM, F.prog]
    cases pkgName S.prog p ρ e with
    | some q => exact .bind (member_le F q f) fun _ => .refl _
    | none => exact .bind (one_le (eval_le p ρ e)) fun _ => .refl _
  | .idx e i => by
    rw [evalM, evalM]
    exact .bind (one_le (eval_le p ρ e)) fun _ => .bind (one_le (eval_le p ρ i)) fun _ => .refl _
  | .slc e lo hi mx => by
    rw [evalM, evalM]
    refine .bind (one_le (eval_le p ρ e)) fun v => .bind ?_ fun _ => .bind (bound_le p ρ lo) fun _ =>
      .bind (bound_le p ρ hi) fun _ => .bind (bound_le p ρ mx) fun _ => .refl _
    cases v with
    | bytes b => exact .bind (addr_le p ρ e) fun _ => .refl _
    | _ => exact .refl _
  | .call (.id f) args sp => by
    refine callid_le F p ρ f args sp (args_le p ρ args) ?_
    cases args with
    | nil => intro _ _ h; cases h
    | cons e es => intro t as h; cases h; exact args_le p ρ es
  | .call (.sel e m) args sp => by
    rw [evalM, evalM, F.prog]
    refine .ite (.bind (args_le p ρ args) fun _ => .refl _) ?_
    cases pkgName S.prog p ρ e with
    | some q => exact .bind (args_le p ρ args) fun _ => callPkg_le F _ _ _
    | none =>
      refine .bind (one_le (eval_le p ρ e)) fun v => .bind ?_ fun r => .bind (args_le p ρ args) fun vs => callMeth_le F _ _ _
      cases v with
      | struct T fs => exact .ite (.refl _) (.bind (addr_le p ρ e) fun _ => .refl _)
      | _ => exact .refl _
  | .call (.un op t) args sp => by
    rw [evalM, evalM, F.prog]
    refine .ite ?_ (.refl _)
    cases tyOf t with
    | some t => exact .bind (args_le p ρ args) fun _ => .refl _
    | none => exact .refl _
  | .call (.ty t) args sp => by
    rw [evalM, evalM, F.prog]
    exact .bind (args_le p ρ args) fun _ => .refl _
  | .call (.int _) _ _ | .call (.str _) _ _ | .call (.idx _ _) _ _ | .call (.slc _ _ _ _) _ _
  | .call (.call _ _ _) _ _ | .call (.bin _ _ _) _ _ | .call (.lit _ _ _) _ _
  | .call (.assert _ _) _ _ | .call (.mval _ _ _) _ _ => by
    rw [evalM, evalM]
    · exact .refl _
    all_goals (intros; contradiction)
  | .un op e => by
    refine un_le F p ρ op e (eval_le p ρ e) (addr_le p ρ e) ?_
    cases e with
    | lit t fs es => intro _ _ _ h; cases h; exact args_le p ρ es
    | _ => intro _ _ _ h; cases h
  | .bin op a b => by
    rw [evalM, evalM]
    refine .ite (.bind (one_le (eval_le p ρ a)) fun v => ?_) (.ite (.bind (one_le (eval_le p ρ a)) fun v => ?_)
      (.bind (one_le (eval_le p ρ a)) fun v => .bind (one_le (eval_le p ρ b)) fun _ => .refl _))
    · cases v with
      | bool b' => cases b' with
        | true => exact eval_le p ρ b
        | false => exact .refl _
      | _ => exact .refl _
    · cases v with
      | bool b' => cases b' with
        | true => exact .refl _
        | false => exact eval_le p ρ b
      | _ => exact .refl _
  | .lit t fs es => by
    have h := args_le p ρ es
    cases t with
    | slice t => rw [evalM, evalM]; exact .bind h fun _ => .refl _
    | _ =>
      rw [evalM, evalM, F.prog]
      · exact .bind (.refl _) fun _ => .bind h fun _ => .refl _
      all_goals (intros; contradiction)
  | .ty t => by rw [evalM, evalM]; exact .refl _
  | .assert e t => by rw [evalM, evalM]; exact eval_le p ρ e
  | .mval T e m => by rw [evalM, evalM]; exact .bind (one_le (eval_le p ρ e)) fun _ => .refl _

theorem addr_le (p : String) (ρ : Env) : ∀ e : Expr, LeM (addr S p ρ e) (addr S' p ρ e)
  | .id x => by rw [addr, addr]; exact .refl _
  | .sel e f => by
    rw [addr, addr]
    refine .bind (one_le (eval_le p ρ e)) fun v => ?_
    have h := addr_le p ρ e
    cases v with
    | ptr T l => exact .refl _
    | nil => exact .refl _
    | _ => exact .bind h fun _ => .refl _
  | .un op e => by
    rw [addr, addr]
    exact .ite (.bind (one_le (eval_le p ρ e)) fun _ => .refl _) (.refl _)
  | .idx e i => by
    rw [addr, addr]
    exact .bind (one_le (eval_le p ρ e)) fun _ => .bind (one_le (eval_le p ρ i)) fun _ => .refl _
  | .int _ | .str _ | .slc _ _ _ _ | .call _ _ _ | .bin _ _ _ | .lit _ _ _ | .ty _ | .assert _ _ | .mval _ _ _ => by
    rw [addr, addr]
    · exact .refl _
    all_goals (intros; contradiction)

theorem args_le (p : String) (ρ : Env) : ∀ es : List Expr, LeM (evalArgs S p ρ es) (evalArgs S' p ρ es)
  | [] => by rw [evalArgs, evalArgs]; exact .refl _
  | e :: es => by
    rw [evalArgs, evalArgs]
    exact .bind (one_le (eval_le p ρ e)) fun _ => .bind (args_le p ρ es) fun _ => .refl _

theorem bound_le (p : String) (ρ : Env) : ∀ e : Option Expr, LeM (evalBound S p ρ e) (evalBound S' p ρ e)
  | none => by rw [evalBound, evalBound]; exact .refl _
  | some e => by rw [evalBound, evalBound]; exact .bind (one_le (eval_le p ρ e)) fun _ => .refl _
end

theorem rhs_le (p : String) (ρ : Env) (n : Nat) (es : List Expr) : LeM (evalRhs S p ρ n es) (evalRhs S' p ρ n es) := by
  unfold evalRhs
  split
  · exact .bind (one_le (eval_le F p ρ _)) fun _ => .bind (one_le (eval_le F p ρ _)) fun _ => .refl _
  · exact eval_le F p ρ _
  · exact args_le F p ρ _

theorem assignTo_le (p : String) (ρ : Env) (e : Expr) (v : V) : LeM (assignTo S p ρ e v) (assignTo S' p ρ e v) := by
  unfold assignTo
  split
  · exact .bind (one_le (eval_le F p ρ _)) fun _ => .bind (one_le (eval_le F p ρ _)) fun _ => .refl _
  · exact .refl _
  · split
    · exact .refl _
    · rw [F.prog, F.ext]; exact .refl _
  · exact .bind (addr_le F p ρ _) fun _ => .refl _

theorem assignAll_le (p : String) (ρ : Env) : ∀ (es : List Expr) (vs : List V), LeM (assignAll S p ρ es vs) (assignAll S' p ρ es vs)
  | [], [] => .refl _
  | [], _ :: _ => .refl _
  | _ :: _, [] => .refl _
  | e :: es, v :: vs => .bind (assignTo_le F p ρ e v) fun _ => assignAll_le p ρ es vs

omit F in
theorem repeat_le {m m' : M ω Ctl} (h : LeM m m') : ∀ n, LeM (repeatM n m) (repeatM n m')
  | 0 => .refl _
  | n + 1 => by
    rw [repeatM, repeatM]
    refine .bind h fun c => ?_
    cases c with
    | next => exact repeat_le h n
    | _ => exact .refl _

omit F in
theorem range_le {f f' : Nat → V → M ω Ctl} (h : ∀ i v, LeM (f i v) (f' i v)) : ∀ (vs : List V) (i : Nat),
    LeM (rangeM f i vs) (rangeM f' i vs)
  | [], _ => .refl _
  | v :: vs, i => by
    rw [rangeM, rangeM]
    refine .bind (h i v) fun c => ?_
    cases c with
    | next => exact range_le h vs _
    | _ => exact .refl _

theorem any_le (p : String) (ρ : Env) (v : V) : ∀ es : List Expr, LeM (anyCase S p ρ v es) (anyCase S' p ρ v es)
  | [] => .refl _
  | e :: es => by
    rw [anyCase, anyCase]
    refine .bind (one_le (eval_le F p ρ e)) fun w => .bind (.refl _) fun r => ?_
    cases r with
    | bool b => cases b with
      | true => exact .refl _
      | false => exact any_le p ρ v es
    | _ => exact any_le p ρ v es

theorem choose_le (p : String) (ρ : Env) (v : V) : ∀ (cs : List (List Expr)) (i : Nat) (d : Option Nat),
    LeM (choose S p ρ v i d cs) (choose S' p ρ v i d cs)
  | [], _, _ => .refl _
  | [] :: cs, i, d => by rw [choose, choose]; exact choose_le p ρ v cs _ _
  | (e :: es) :: cs, i, d => by
    rw [choose, choose]
    exact .bind (any_le F p ρ v _) fun b => .ite (.refl _) (choose_le p ρ v cs _ _)

theorem callee_le (p : String) (ρ : Env) (e : Expr) : LeM (callee S p ρ e) (callee S' p ρ e) := by
  unfold callee
  split
  · exact .bind (args_le F p ρ _) fun _ => .refl _
  · rw [F.prog]
    split
    · exact .bind (args_le F p ρ _) fun _ => .refl _
    · exact .bind (one_le (eval_le F p ρ _)) fun _ => .bind (args_le F p ρ _) fun _ => .refl _
  · exact .refl _

mutual
theorem exec_le (p : String) : ∀ (s : Stmt) (ρ : Env), LeM (exec S p s ρ) (exec S' p s ρ)
  | .expr e, ρ => by rw [exec, exec]; exact .bind (eval_le F p ρ e) fun _ => .refl _
  | .define xs es, ρ => by rw [exec, exec]; exact .bind (rhs_le F p ρ _ es) fun _ => .refl _
  | .assign ls es, ρ => by
    rw [exec, exec]; exact .bind (rhs_le F p ρ _ es) fun _ => .bind (assignAll_le F p ρ _ _) fun _ => .refl _
  | .inc e, ρ => by rw [exec, exec]; exact .bind (addr_le F p ρ e) fun _ => .refl _
  | .var xs t, ρ => by rw [exec, exec, F.prog]; exact .refl _
  | .ite c a b, ρ => by
    rw [exec, exec]
    refine .bind (one_le (eval_le F p ρ c)) fun v => ?_
    have ha := execs_le p a ([] :: ρ) .next
    have hb := execs_le p b ([] :: ρ) .next
    cases v with
    | bool t => cases t with
      | true => exact .bind ha fun _ => .refl _
      | false => exact .bind hb fun _ => .refl _
    | _ => exact .refl _
  | .forever b, ρ => by
    rw [exec, exec, F.loops]
    exact .bind (repeat_le (.bind (execs_le p b _ _) fun _ => .refl _) _) fun _ => .refl _
  | .range k v e b, ρ => by
    rw [exec, exec]
    exact .bind (one_le (eval_le F p ρ e)) fun _ => .bind (.refl _) fun _ => .bind (range_le (fun i w =>
      .bind (.refl _) fun _ => .bind (.refl _) fun _ => .bind (execs_le p b _ _) fun _ => .refl _) _ _) fun _ => .refl _
  | .loop i c q b, ρ => by
    rw [exec, exec, F.loops]
    refine .bind (exec_le p i _) fun r => .bind (repeat_le (.bind (one_le (eval_le F p _ c)) fun v => ?_) _) fun _ => .refl _
    have hb := execs_le p b ([] :: r.1) .next
    have hq := exec_le p q r.1
    cases v with
    | bool t => cases t with
      | true =>
        refine .bind hb fun s => ?_
        rcases s with ⟨ρ', c'⟩
        cases c' with
        | next => exact .bind hq fun _ => .refl _
        | _ => exact .refl _
      | false => exact .refl _
    | _ => exact .refl _
  | .switch e cs bs, ρ => by
    rw [exec, exec]
    refine .bind (one_le (eval_le F p ρ e)) fun v => .bind (choose_le F p ρ v cs _ _) fun o => ?_
    have hb := fun i => nth_le p bs i ρ
    cases o with
    | none => exact .refl _
    | some i => exact .bind (hb i) fun _ => .refl _
  | .tswitch x e cs bs, ρ => by
    rw [exec, exec]
    refine .bind (one_le (eval_le F p ρ e)) fun v => .bind (.refl _) fun o => ?_
    have hb := fun i ρ => nth_le p bs i ρ
    cases o with
    | none => exact .refl _
    | some i => exact .ite (.bind (hb i _) fun _ => .refl _) (.bind (.refl _) fun _ => .bind (hb i _) fun _ => .refl _)
  | .ret es, ρ => by rw [exec, exec]; exact .bind (rhs_le F p ρ _ es) fun _ => .refl _
  | .goto l, ρ => by rw [exec, exec]; exact .refl _
  | .label l, ρ => by rw [exec, exec]; exact .refl _
  | .go e, ρ => by rw [exec, exec, F.spawn]; exact .bind (callee_le F p ρ e) fun _ => .refl _
  | .defer e, ρ => by rw [exec, exec]; exact .bind (callee_le F p ρ e) fun _ => .refl _
  | .block b, ρ => by rw [exec, exec]; exact .bind (execs_le p b _ _) fun _ => .refl _

theorem execs_le (p : String) : ∀ (b : List Stmt) (ρ : Env) (c : Ctl), LeM (execs S p b ρ c) (execs S' p b ρ c)
  | [], ρ, c => by rw [execs, execs]; exact .refl _
  | s :: b, ρ, c => by
    have hs := exec_le p s ρ
    have hb := fun ρ c => execs_le p b ρ c
    cases c with
    | next => rw [execs, execs]; exact .bind hs fun _ => hb _ _
    | ret vs =>
      cases s <;> first
        | (rw [execs, execs] <;> first | exact hb _ _ | (intros; contradiction))
    | goto l =>
      cases s <;> first
        | (rw [execs, execs] <;> first | exact hb _ _ | (intros; contradiction))

theorem nth_le (p : String) : ∀ (bs : List (List Stmt)) (i : Nat) (ρ : Env), LeM (execNth S p bs i ρ) (execNth S' p bs i ρ)
  | [], i, ρ => by rw [execNth, execNth]; exact .refl _
  | b :: bs, i, ρ => by
    have hb := execs_le p b ([] :: ρ) .next
    have hn := fun i => nth_le p bs i ρ
    cases i with
    | zero => rw [execNth, execNth]; exact .bind hb fun _ => .refl _
    | succ i => rw [execNth, execNth]; exact hn i
end

theorem defers_le : ∀ ds : List (FKey × List V), LeM (runDefers S ds) (runDefers S' ds)
  | [] => .refl _
  | (k, vs) :: ds => by rw [runDefers, runDefers]; exact .finally (.bind (F.call k vs) fun _ => .refl _) (defers_le ds)

theorem func_le (p : String) (f : Func) (args : List V) : LeM (callFunc S p f args) (callFunc S' p f args) := by
  unfold callFunc runBody
  rw [F.prog]
  refine .bind (.refl _) fun _ => .bind (.refl _) fun _ => .finally (.bind (.refl _) fun _ => .bind (.refl _) fun _ =>
    .bind (execs_le F p _ _ _) fun _ => ?_) (.bind (.refl _) fun _ => .bind (defers_le F _) fun _ => .refl _)
  unfold finish
  rw [F.prog]
  exact .refl _
end

theorem callN_succ (P : Prog) (E : Ext ω) : ∀ (k : Nat) (key : FKey) (args : List V),
    LeM (callN P E k key args) (callN P E (k + 1) key args)
  | 0, _, _ => fun st => .inl ⟨st, rfl⟩
  | k + 1, key, args => by
    rw [callN, callN]
    cases P.find key with
    | none => exact .refl _
    | some pf => exact func_le (S := ⟨P, callN P E k, E.ext, E.spawn, E.grow, E.loops⟩) (S' := ⟨P, callN P E (k + 1), E.ext, E.spawn, E.grow, E.loops⟩) ⟨rfl, callN_succ P E k, rfl, rfl, rfl, rfl⟩ _ _ _

theorem callN_le (P : Prog) (E : Ext ω) {k k' : Nat} (h : k ≤ k') (key : FKey) (args : List V) :
    LeM (callN P E k key args) (callN P E k' key args) := by
  induction h with
  | refl => exact .refl _
  | step _ ih =>
    intro st
    rcases ih st with h1 | h1
    · exact .inl h1
    · rcases callN_succ P E _ key args st with ⟨s, h2⟩ | h2
      · exact .inl ⟨s, h1.symm.trans h2⟩
      · exact .inr (h2.trans h1)

/-- A call that ends within `k` calls ends the same way whatever larger number is allowed. -/
theorem callN_mono {P : Prog} {E : Ext ω} {k k' : Nat} {key : FKey} {args : List V} {st : St ω} (h : k ≤ k')
    (hf : ∀ s, callN P E k key args st ≠ .error (.fuel, s)) : callN P E k' key args st = callN P E k key args st :=
  (callN_le P E h key args st).resolve_left fun ⟨s, e⟩ => hf s e

end Verif.Lang
