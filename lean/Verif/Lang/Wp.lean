/-
Running programs of Verif.Lang symbolically: `wp m Q st` says that `m` finishes from `st` without panic
and that `Q` holds of its result and final state; the lemmas say what this means for each construct.
`go_run` rewrites with all of them from the outside in.
-/
import Verif.Lang.Sem
import Verif.Lang.Prog

namespace Verif.Lang
variable {ω : Type} {α β : Type}

/-- `m` finishes and `Q` holds afterwards. -/
def wp (m : M ω α) (Q : α → St ω → Prop) (st : St ω) : Prop :=
  match m st with
  | .ok (a, st) => Q a st
  | .error _ => False

theorem wp_iff {m : M ω α} {Q : α → St ω → Prop} {st : St ω} :
    wp m Q st ↔ ∃ a st', m st = .ok (a, st') ∧ Q a st' := by
  unfold wp
  cases m st with
  | error e => simp
  | ok r =>
    obtain ⟨a, s⟩ := r
    constructor
    · exact fun h => ⟨a, s, rfl, h⟩
    · rintro ⟨a', s', h, q⟩
      cases h
      exact q

theorem wp_mono {m : M ω α} {Q R : α → St ω → Prop} {st : St ω} (h : wp m Q st)
    (hr : ∀ a st', Q a st' → R a st') : wp m R st := by
  rw [wp_iff] at *
  obtain ⟨a, s, e, q⟩ := h
  exact ⟨a, s, e, hr _ _ q⟩

/-- Only the state is simplified. -/
@[congr] theorem wp_congr {m : M ω α} {Q : α → St ω → Prop} {st st' : St ω} (h : st = st') :
    wp m Q st = wp m Q st' := by rw [h]

theorem wp_pure (a : α) (Q : α → St ω → Prop) (st : St ω) : wp (pure a) Q st = Q a st := rfl

theorem wp_bind (m : M ω α) (f : α → M ω β) (Q : β → St ω → Prop) (st : St ω) :
    wp (m >>= f) Q st = wp m (fun a s => wp (f a) Q s) st := by
  show (match M.bind m f st with | .ok (a, st) => Q a st | .error _ => False) = _
  unfold M.bind wp
  cases m st <;> rfl

theorem wp_stop (e : Stop) (Q : α → St ω → Prop) (st : St ω) : wp (stop e) Q st = False := rfl

theorem wp_ite (c : Prop) [Decidable c] (a b : M ω α) (Q : α → St ω → Prop) (st : St ω) :
    wp (if c then a else b) Q st = if c then wp a Q st else wp b Q st := by split <;> rfl

theorem wp_some (o : Option α) (Q : α → St ω → Prop) (st : St ω) :
    wp (some! o) Q st = match o with | some a => Q a st | none => False := by cases o <;> rfl

/-! ### Memory -/

def St.push (st : St ω) (v : V) : St ω :=
  { st with heap := fun j => if j = st.next then v else st.heap j, next := st.next + 1 }

theorem heap_set_same (st : St ω) (i : Nat) (v : V) : (st.set i v).heap i = v := by simp [St.set]
theorem heap_set_ne (st : St ω) (i j : Nat) (v : V) (h : j ≠ i) : (st.set i v).heap j = st.heap j := by
  simp [St.set, h]
theorem heap_push_same (st : St ω) (v : V) : (st.push v).heap st.next = v := by simp [St.push]
theorem heap_push_eq (st : St ω) (v : V) (j : Nat) (h : j = st.next) : (st.push v).heap j = v := by
  simp [St.push, h]
theorem heap_push_ne (st : St ω) (j : Nat) (v : V) (h : j ≠ st.next) : (st.push v).heap j = st.heap j := by
  simp [St.push, h]
theorem next_set (st : St ω) (i : Nat) (v : V) : (st.set i v).next = st.next := (rfl)
theorem next_push (st : St ω) (v : V) : (st.push v).next = st.next + 1 := (rfl)
theorem world_set (st : St ω) (i : Nat) (v : V) : (st.set i v).world = st.world := (rfl)
theorem world_push (st : St ω) (v : V) : (st.push v).world = st.world := (rfl)
theorem defers_set (st : St ω) (i : Nat) (v : V) : (st.set i v).defers = st.defers := (rfl)
theorem defers_push (st : St ω) (v : V) : (st.push v).defers = st.defers := (rfl)

/-- The state with other deferred calls. -/
def St.deferring (st : St ω) (ds : List (FKey × List V)) : St ω := { st with defers := ds }
theorem heap_deferring (st : St ω) (ds) : (st.deferring ds).heap = st.heap := (rfl)
theorem next_deferring (st : St ω) (ds) : (st.deferring ds).next = st.next := (rfl)
theorem world_deferring (st : St ω) (ds) : (st.deferring ds).world = st.world := (rfl)
theorem defers_deferring (st : St ω) (ds) : (st.deferring ds).defers = ds := (rfl)

theorem wp_load (l : Loc) (Q : V → St ω → Prop) (st : St ω) :
    wp (load l) Q st = match (st.heap l.id).at l.path with | some v => Q v st | none => False := by
  unfold wp load St.at
  cases (st.heap l.id).at l.path <;> rfl

theorem wp_storeRaw (l : Loc) (v : V) (Q : Unit → St ω → Prop) (st : St ω) :
    wp (storeRaw l v) Q st =
      match V.put v (st.heap l.id) l.path with | some w => Q () (st.set l.id w) | none => False := by
  unfold wp storeRaw
  cases V.put v (st.heap l.id) l.path <;> rfl

theorem wp_store (l : Loc) (v : V) (Q : Unit → St ω → Prop) (st : St ω) :
    wp (store l v) Q st =
      match (st.heap l.id).at l.path with
      | some old =>
        (match V.put (coerce old v) (st.heap l.id) l.path with | some w => Q () (st.set l.id w) | none => False)
      | none => False := by
  simp only [store, wp_bind, wp_load, wp_storeRaw]

theorem wp_alloc (v : V) (Q : Nat → St ω → Prop) (st : St ω) :
    wp (alloc v) Q st = Q st.next (st.push v) := rfl

theorem wp_arrayOf (s : Slice) (Q : List UInt8 → St ω → Prop) (st : St ω) :
    wp (arrayOf s) Q st =
      match (st.heap s.base.id).at s.base.path with
      | some (.bytes b) => if s.off + s.cap ≤ b.length ∧ s.len ≤ s.cap then Q b st else False
      | _ => False := by
  simp only [arrayOf, wp_bind, wp_load]
  cases (st.heap s.base.id).at s.base.path with
  | none => rfl
  | some v => cases v <;> simp only [wp_ite, wp_pure, wp_stop]

theorem wp_bytesOf_nil (Q : List UInt8 → St ω → Prop) (st : St ω) : wp (bytesOf .nil) Q st = Q [] st := rfl
theorem wp_bytesOf_str (s) (Q : List UInt8 → St ω → Prop) (st : St ω) :
    wp (bytesOf (.str s)) Q st = Q s st := rfl
theorem wp_bytesOf_slice (s : Slice) (Q : List UInt8 → St ω → Prop) (st : St ω) :
    wp (bytesOf (.slice s)) Q st = wp (arrayOf s) (fun b st => Q ((b.drop s.off).take s.len) st) st := by
  simp only [bytesOf, wp_bind]; rfl

/-! ### Expressions -/

variable (S : Sem ω) (p : String) (ρ : Env)

theorem wp_one (v : V) (Q : V → St ω → Prop) (st : St ω) : wp (one [v]) Q st = Q v st := rfl

theorem wp_evalId (x : String) (Q : V → St ω → Prop) (st : St ω) :
    wp (evalId S p ρ x) Q st =
      match ρ.find x with
      | some i => wp (load ⟨i, []⟩) Q st
      | none =>
        match S.prog.const p x with
        | some v => Q v st
        | none =>
          if x = "nil" then Q .nil st
          else if x = "true" then Q (.bool true) st
          else if x = "false" then Q (.bool false) st
          else if isVar S.prog p x then Q (.glob (p ++ "." ++ x)) st
          else if (S.prog.find (.fn p x)).isSome then Q (.fn (.fn p x)) st
          else False := by
  unfold evalId
  cases ρ.find x with
  | some i => rfl
  | none =>
    dsimp only
    cases S.prog.const p x with
    | some v => rfl
    | none =>
      dsimp only
      simp only [wp_ite, wp_pure, wp_stop]

theorem wp_id (x : String) (Q : List V → St ω → Prop) (st : St ω) :
    wp (evalM S p ρ (.id x)) Q st = wp (evalId S p ρ x) (fun v s => Q [v] s) st := by
  simp only [evalM, wp_bind]; rfl

theorem wp_int (n : Nat) (Q : List V → St ω → Prop) (st : St ω) :
    wp (evalM S p ρ (.int n)) Q st = Q [.const n] st := rfl

theorem wp_str (s : String) (Q : List V → St ω → Prop) (st : St ω) :
    wp (evalM S p ρ (.str s)) Q st = Q [.str (strBytes s)] st := rfl

theorem wp_evalMember (q x : String) (Q : V → St ω → Prop) (st : St ω) :
    wp (evalMember S q x) Q st =
      if q = "math" ∧ x = "MaxUint32" then Q (.const 4294967295) st
      else match S.prog.const q x with
        | some v => Q v st
        | none => Q (.glob (q ++ "." ++ x)) st := by
  unfold evalMember
  rw [wp_ite]
  cases S.prog.const q x <;> rfl

theorem wp_field_ptr (T : String) (l : Loc) (f : String) (Q : V → St ω → Prop) (st : St ω) :
    wp (evalField (.ptr T l) f) Q st = wp (load (l.field f)) Q st := rfl

theorem wp_field_struct (T : String) (fs : List (String × V)) (f : String) (Q : V → St ω → Prop) (st : St ω) :
    wp (evalField (.struct T fs) f) Q st = match fs.lookup f with | some v => Q v st | none => False := by
  simp only [evalField, wp_some, V.field]
  cases fs.lookup f <;> rfl

theorem wp_sel (e : Expr) (f : String) (Q : List V → St ω → Prop) (st : St ω) :
    wp (evalM S p ρ (.sel e f)) Q st =
      match pkgName S.prog p ρ e with
      | some q => wp (evalMember S q f) (fun v s => Q [v] s) st
      | none => wp (evalM S p ρ e) (fun vs s =>
          wp (one vs) (fun v s => wp (evalField v f) (fun v s => Q [v] s) s) s) st := by
  rw [evalM]
  cases pkgName S.prog p ρ e <;> simp only [wp_bind] <;> rfl

theorem wp_idx_map (e i : Expr) (Q : List V → St ω → Prop) (st : St ω) :
    wp (evalM S p ρ (.idx e i)) Q st =
      wp (evalM S p ρ e) (fun vs s => wp (one vs) (fun v s =>
        wp (evalM S p ρ i) (fun ks s => wp (one ks) (fun k s =>
          match v with
          | .map _ => wp (lookupV v k) (fun rs s => match rs with | r :: _ => Q [r] s | [] => False) s
          | _ => wp (indexV v k) (fun r s => Q [r] s) s) s) s) s) st := by
  rw [evalM]
  simp only [wp_bind]
  congr; funext vs s; congr; funext v s; congr; funext ks s; congr; funext k s
  cases v <;> simp only [wp_bind] <;> first | rfl | skip
  congr; funext rs s; cases rs <;> rfl

theorem wp_slc (e : Expr) (lo hi mx : Option Expr) (Q : List V → St ω → Prop) (st : St ω) :
    wp (evalM S p ρ (.slc e lo hi mx)) Q st =
      wp (evalM S p ρ e) (fun vs s => wp (one vs) (fun v s =>
        wp (match v with
            | .bytes _ => (addr S p ρ e >>= fun l => pure (.ptr "" l))
            | v => pure v) (fun v s =>
          wp (evalBound S p ρ lo) (fun lo s => wp (evalBound S p ρ hi) (fun hi s =>
            wp (evalBound S p ρ mx) (fun mx s =>
              wp (sliceV v lo hi mx) (fun r s => Q [r] s) s) s) s) s) s) s) st := by
  rw [evalM]
  simp only [wp_bind]
  rfl

theorem wp_call_id (f : String) (args : List Expr) (sp : Bool) (Q : List V → St ω → Prop) (st : St ω) :
    wp (evalM S p ρ (.call (.id f) args sp)) Q st =
      match ρ.find f with
      | some i => wp (load ⟨i, []⟩) (fun fv s => wp (evalArgs S p ρ args) (fun vs s =>
          wp (callVal S fv vs) Q s) s) st
      | none =>
        if f = "make" then
          match args with
          | .ty t :: args => wp (evalArgs S p ρ args) (fun vs s => wp (makeV S.prog p t vs) (fun r s => Q [r] s) s) st
          | _ => False
        else if f = "new" then
          match newArg args with
          | some t => wp (some! (S.prog.zero p t)) (fun z s => wp (alloc z) (fun i s => Q [.ptr "" ⟨i, []⟩] s) s) st
          | none => False
        else
          wp (evalArgs S p ρ args) (fun vs s =>
            if builtins.contains f then wp (builtin S.grow f vs sp) Q s
            else if isType S.prog p f then wp (convertV S.prog p (.name f) vs) Q s
            else wp (S.call (.fn p f) vs) Q s) st := by
  have : evalM S p ρ (.call (.id f) args sp) =
      match ρ.find f with
      | some i => load ⟨i, []⟩ >>= fun fv => evalArgs S p ρ args >>= fun vs => callVal S fv vs
      | none =>
        if f = "make" then
          match args with
          | .ty t :: args => evalArgs S p ρ args >>= fun vs => makeV S.prog p t vs >>= fun r => pure [r]
          | _ => stop .stuck
        else if f = "new" then
          match newArg args with
          | some t => some! (S.prog.zero p t) >>= fun z => alloc z >>= fun i => pure [.ptr "" ⟨i, []⟩]
          | none => stop .stuck
        else
          evalArgs S p ρ args >>= fun vs =>
            if builtins.contains f then builtin S.grow f vs sp
            else if isType S.prog p f then convertV S.prog p (.name f) vs
            else S.call (.fn p f) vs := by
    cases args with
    | nil => simp only [evalM]; cases ρ.find f <;> rfl
    | cons a as => cases a <;> simp only [evalM] <;> cases ρ.find f <;> rfl
  rw [this]
  cases ρ.find f with
  | some i => simp only [wp_bind]
  | none =>
    dsimp only
    rw [wp_ite]
    split
    · cases args with
      | nil => rfl
      | cons a as => cases a <;> dsimp only <;> first | rfl | (simp only [wp_bind]; rfl)
    · rw [wp_ite]
      split
      · cases newArg args with
        | none => rfl
        | some n => simp only [wp_bind]; rfl
      · simp only [wp_bind, wp_ite]

theorem wp_call_be (m : String) (args : List Expr) (sp : Bool) (Q : List V → St ω → Prop) (st : St ω) :
    wp (evalM S p ρ (.call (.sel (.sel (.id "binary") "BigEndian") m) args sp)) Q st =
      wp (evalArgs S p ρ args) (fun vs s => wp (bigEndian m vs) Q s) st := by
  have : isBE (.sel (.id "binary") "BigEndian") = true := by decide
  rw [evalM, if_pos this, wp_bind]

/-- What a method is called on: a structure is called by address. -/
def recvM (copies : String → Bool) (m : M ω Loc) : V → M ω V
  | .struct T fs => if copies T then pure (.struct T fs) else m >>= fun l => pure (.ptr T l)
  | v => pure v

def isStruct : V → Bool
  | .struct _ _ => true
  | _ => false

theorem wp_recv_struct (c : String → Bool) (m : M ω Loc) (T : String) (fs : List (String × V))
    (Q : V → St ω → Prop) (st : St ω) :
    wp (recvM c m (.struct T fs)) Q st = if c T then Q (.struct T fs) st else wp m (fun l s => Q (.ptr T l) s) st := by
  simp only [recvM, wp_bind, wp_pure, wp_ite]

theorem wp_recv_ptr (c : String → Bool) (m : M ω Loc) (T : String) (l : Loc) (Q : V → St ω → Prop) (st : St ω) :
    wp (recvM c m (.ptr T l)) Q st = Q (.ptr T l) st := rfl
theorem wp_recv_obj (c : String → Bool) (m : M ω Loc) (n : Nat) (Q : V → St ω → Prop) (st : St ω) :
    wp (recvM c m (.obj n)) Q st = Q (.obj n) st := rfl
theorem wp_recv_glob (c : String → Bool) (m : M ω Loc) (n : String) (Q : V → St ω → Prop) (st : St ω) :
    wp (recvM c m (.glob n)) Q st = Q (.glob n) st := rfl

theorem wp_recv (c : String → Bool) (m : M ω Loc) (v : V) (Q : V → St ω → Prop) (st : St ω) (h : isStruct v = false) :
    wp (recvM c m v) Q st = Q v st := by
  cases v <;> first | rfl | cases h

theorem wp_call_sel (e : Expr) (m : String) (args : List Expr) (sp : Bool) (Q : List V → St ω → Prop)
    (st : St ω) (h : isBE e = false) :
    wp (evalM S p ρ (.call (.sel e m) args sp)) Q st =
      match pkgName S.prog p ρ e with
      | some q => wp (evalArgs S p ρ args) (fun vs s => wp (callPkg S q m vs) Q s) st
      | none => wp (evalM S p ρ e) (fun vs s => wp (one vs) (fun v s =>
          wp (recvM (byValue S.prog · m) (addr S p ρ e) v) (fun r s =>
            wp (evalArgs S p ρ args) (fun vs s => wp (callMeth S r m vs) Q s) s) s) s) st := by
  rw [evalM]
  simp only [h, Bool.false_eq_true, ↓reduceIte]
  cases pkgName S.prog p ρ e <;> simp only [wp_bind]
  congr; funext vs s; congr; funext v s
  cases v <;> rfl

theorem wp_call_ptr (t : Expr) (args : List Expr) (sp : Bool) (Q : List V → St ω → Prop) (st : St ω) :
    wp (evalM S p ρ (.call (.un "*" t) args sp)) Q st =
      match tyOf t with
      | some t => wp (evalArgs S p ρ args) (fun vs s => wp (convertV S.prog p (.ptr t) vs) Q s) st
      | none => False := by
  simp only [evalM, ↓reduceIte]
  cases tyOf t <;> simp only [wp_bind] <;> rfl

theorem wp_call_ty (t : Ty) (args : List Expr) (sp : Bool) (Q : List V → St ω → Prop) (st : St ω) :
    wp (evalM S p ρ (.call (.ty t) args sp)) Q st =
      wp (evalArgs S p ρ args) (fun vs s => wp (convertV S.prog p t vs) Q s) st := by
  simp only [evalM, wp_bind]

theorem wp_ref_lit (t : Ty) (fs : List String) (es : List Expr) (Q : List V → St ω → Prop) (st : St ω) :
    wp (evalM S p ρ (.un "&" (.lit t fs es))) Q st =
      match S.prog.zero p t with
      | some z => wp (evalArgs S p ρ es) (fun vs s =>
          match setFields (fieldNames fs z) vs z with
          | some v => Q [.ptr "" ⟨s.next, []⟩] (s.push v)
          | none => False) st
      | none => False := by
  simp only [evalM, ↓reduceIte, wp_bind, wp_some, wp_alloc]
  cases S.prog.zero p t with
  | none => rfl
  | some z =>
    dsimp only
    congr; funext vs s
    cases setFields (fieldNames fs z) vs z <;> rfl

/-- Not a composite literal. -/
def notLit : Expr → Bool
  | .lit _ _ _ => false
  | _ => true

theorem wp_ref (e : Expr) (Q : List V → St ω → Prop) (st : St ω) (h : notLit e = true) :
    wp (evalM S p ρ (.un "&" e)) Q st = wp (addr S p ρ e) (fun l s => Q [.ptr "" l] s) st := by
  cases e <;> first | (simp only [evalM, ↓reduceIte, wp_bind]; rfl) | simp [notLit] at h

/-- `*v`. -/
def loadAt (S : Sem ω) : V → M ω V
  | .ptr _ l => load l
  | .nil => stop .panic
  | .glob x => S.ext "*" [.glob x] >>= one
  | _ => stop .stuck

theorem wp_loadAt_ptr (T : String) (l : Loc) (Q : V → St ω → Prop) (st : St ω) :
    wp (loadAt S (.ptr T l)) Q st = wp (load l) Q st := rfl

/-- The place a pointer points to. -/
def deref : V → M ω Loc
  | .ptr _ l => pure l
  | .nil => stop .panic
  | _ => stop .stuck

theorem wp_deref_ptr (T : String) (l : Loc) (Q : Loc → St ω → Prop) (st : St ω) :
    wp (deref (.ptr T l)) Q st = Q l st := rfl

theorem wp_star (e : Expr) (Q : List V → St ω → Prop) (st : St ω) :
    wp (evalM S p ρ (.un "*" e)) Q st =
      wp (evalM S p ρ e) (fun vs s => wp (one vs) (fun v s =>
        wp (loadAt S v) (fun v s => Q [v] s) s) s) st := by
  have h1 : ("*" = "&") = False := by decide
  simp only [evalM, h1, ↓reduceIte, wp_bind]
  congr; funext vs s; congr; funext v s
  cases v <;> simp only [wp_bind, loadAt] <;> rfl

theorem wp_not (e : Expr) (Q : List V → St ω → Prop) (st : St ω) :
    wp (evalM S p ρ (.un "!" e)) Q st =
      wp (evalM S p ρ e) (fun vs s => wp (one vs) (fun v s =>
        match v with | .bool b => Q [.bool (!b)] s | _ => False) s) st := by
  have h1 : ("!" = "&") = False := by decide
  have h2 : ("!" = "*") = False := by decide
  simp only [evalM, h1, h2, ↓reduceIte, wp_bind]
  congr; funext vs s; congr; funext v s
  cases v <;> rfl

theorem wp_neg (e : Expr) (Q : List V → St ω → Prop) (st : St ω) :
    wp (evalM S p ρ (.un "-" e)) Q st =
      wp (evalM S p ρ e) (fun vs s => wp (one vs) (fun v s =>
        match v with | .const n => Q [.const (-n)] s | _ => False) s) st := by
  have h1 : ("-" = "&") = False := by decide
  have h2 : ("-" = "*") = False := by decide
  have h3 : ("-" = "!") = False := by decide
  simp only [evalM, h1, h2, h3, ↓reduceIte, wp_bind]
  congr; funext vs s; congr; funext v s
  cases v <;> rfl

theorem wp_and (a b : Expr) (Q : List V → St ω → Prop) (st : St ω) :
    wp (evalM S p ρ (.bin "&&" a b)) Q st =
      wp (evalM S p ρ a) (fun vs s => wp (one vs) (fun v s =>
        match v with
        | .bool c => if c then wp (evalM S p ρ b) Q s else Q [.bool false] s
        | _ => False) s) st := by
  simp only [evalM, ↓reduceIte, wp_bind]
  congr; funext vs s; congr; funext v s
  cases v with
  | bool c => cases c <;> rfl
  | _ => rfl

theorem wp_or (a b : Expr) (Q : List V → St ω → Prop) (st : St ω) :
    wp (evalM S p ρ (.bin "||" a b)) Q st =
      wp (evalM S p ρ a) (fun vs s => wp (one vs) (fun v s =>
        match v with
        | .bool c => if c then Q [.bool true] s else wp (evalM S p ρ b) Q s
        | _ => False) s) st := by
  have h1 : ("||" = "&&") = False := by decide
  simp only [evalM, h1, ↓reduceIte, wp_bind]
  congr; funext vs s; congr; funext v s
  cases v with
  | bool c => cases c <;> rfl
  | _ => rfl

theorem wp_bin (op : String) (a b : Expr) (Q : List V → St ω → Prop) (st : St ω)
    (h1 : op ≠ "&&") (h2 : op ≠ "||") :
    wp (evalM S p ρ (.bin op a b)) Q st =
      wp (evalM S p ρ a) (fun vs s => wp (one vs) (fun x s =>
        wp (evalM S p ρ b) (fun ws s => wp (one ws) (fun y s =>
          match binop op x y with | some r => Q [r] s | none => False) s) s) s) st := by
  simp only [evalM, h1, h2, ↓reduceIte, wp_bind, wp_some]
  congr; funext vs s; congr; funext x s; congr; funext ws s; congr; funext y s
  cases binop op x y <;> rfl

/-- Is it the type of a slice? -/
def sliceTy : Ty → Bool
  | .slice _ => true
  | _ => false

theorem wp_lit (t : Ty) (fs : List String) (es : List Expr) (Q : List V → St ω → Prop) (st : St ω)
    (h : sliceTy t = false) :
    wp (evalM S p ρ (.lit t fs es)) Q st =
      match S.prog.zero p t with
      | some z => wp (evalArgs S p ρ es) (fun vs s =>
          match setFields (fieldNames fs z) vs z with
          | some v => Q [v] s
          | none => False) st
      | none => False := by
  have : evalM S p ρ (.lit t fs es) = (some! (S.prog.zero p t) >>= fun z => evalArgs S p ρ es >>= fun vs =>
      some! (setFields (fieldNames fs z) vs z) >>= fun v => pure [v]) := by
    cases t <;> first | (simp only [evalM]; done) | (simp [sliceTy] at h)
  simp only [this, wp_bind, wp_some]
  cases S.prog.zero p t with
  | none => rfl
  | some z =>
    dsimp only
    congr; funext vs s
    cases setFields (fieldNames fs z) vs z <;> rfl

theorem wp_lit_slice (t : Ty) (fs : List String) (es : List Expr) (Q : List V → St ω → Prop) (st : St ω) :
    wp (evalM S p ρ (.lit (.slice t) fs es)) Q st =
      wp (evalArgs S p ρ es) (fun vs s => Q [.slice ⟨⟨s.next, []⟩, 0, vs.length, vs.length⟩] (s.push (.vals vs))) st := by
  simp only [evalM, wp_bind, wp_alloc, wp_pure]

theorem wp_mval (T : String) (e : Expr) (m : String) (Q : List V → St ω → Prop) (st : St ω) :
    wp (evalM S p ρ (.mval T e m)) Q st =
      wp (evalM S p ρ e) (fun vs s => wp (one vs) (fun v s => Q [.bound (.meth (p ++ "." ++ T) m) v] s) s) st := by
  simp only [evalM, wp_bind, wp_pure]

theorem wp_assert (e : Expr) (t : Ty) (Q : List V → St ω → Prop) (st : St ω) :
    wp (evalM S p ρ (.assert e t)) Q st = wp (evalM S p ρ e) Q st := by simp only [evalM]

theorem wp_addr_id (x : String) (Q : Loc → St ω → Prop) (st : St ω) :
    wp (addr S p ρ (.id x)) Q st = match ρ.find x with | some i => Q ⟨i, []⟩ st | none => False := by
  simp only [addr]
  cases ρ.find x <;> rfl

theorem wp_addr_sel (e : Expr) (f : String) (Q : Loc → St ω → Prop) (st : St ω) :
    wp (addr S p ρ (.sel e f)) Q st =
      wp (evalM S p ρ e) (fun vs s => wp (one vs) (fun v s =>
        match v with
        | .ptr _ l => Q (l.field f) s
        | .nil => False
        | _ => wp (addr S p ρ e) (fun l s => Q (l.field f) s) s) s) st := by
  simp only [addr, wp_bind]
  congr; funext vs s; congr; funext v s
  cases v <;> simp only [wp_bind] <;> rfl

theorem wp_addr_idx (e i : Expr) (Q : Loc → St ω → Prop) (st : St ω) :
    wp (addr S p ρ (.idx e i)) Q st =
      wp (evalM S p ρ e) (fun vs s => wp (one vs) (fun v s => wp (evalM S p ρ i) (fun ks s => wp (one ks) (fun k s =>
        wp (elemV v k) Q s) s) s) s) st := by
  simp only [addr, wp_bind]

theorem wp_addr_star (e : Expr) (Q : Loc → St ω → Prop) (st : St ω) :
    wp (addr S p ρ (.un "*" e)) Q st =
      wp (evalM S p ρ e) (fun vs s => wp (one vs) (fun v s => wp (deref v) Q s) s) st := by
  simp only [addr, ↓reduceIte, wp_bind]
  congr

theorem wp_args_nil (Q : List V → St ω → Prop) (st : St ω) : wp (evalArgs S p ρ []) Q st = Q [] st := rfl

theorem wp_args_cons (e : Expr) (es : List Expr) (Q : List V → St ω → Prop) (st : St ω) :
    wp (evalArgs S p ρ (e :: es)) Q st =
      wp (evalM S p ρ e) (fun vs s => wp (one vs) (fun v s =>
        wp (evalArgs S p ρ es) (fun ws s => Q (v :: ws) s) s) s) st := by
  simp only [evalArgs, wp_bind]; rfl

theorem wp_bound_none (Q : Option Nat → St ω → Prop) (st : St ω) :
    wp (evalBound S p ρ none) Q st = Q none st := rfl

theorem wp_bound_some (e : Expr) (Q : Option Nat → St ω → Prop) (st : St ω) :
    wp (evalBound S p ρ (some e)) Q st =
      wp (evalM S p ρ e) (fun vs s => wp (one vs) (fun v s => wp (natV v) (fun n s => Q (some n) s) s) s) st := by
  simp only [evalBound, wp_bind]; rfl

/-! ### Built-in functions -/

theorem wp_natV_int (n : Int) (Q : Nat → St ω → Prop) (st : St ω) :
    wp (natV (.int n)) Q st = if 0 ≤ n then Q n.toNat st else False := by
  simp only [natV, wp_ite, wp_pure, wp_stop]
theorem wp_natV_const (n : Int) (Q : Nat → St ω → Prop) (st : St ω) :
    wp (natV (.const n)) Q st = if 0 ≤ n then Q n.toNat st else False := by
  simp only [natV, wp_ite, wp_pure, wp_stop]
theorem wp_natV_u32 (x : UInt32) (Q : Nat → St ω → Prop) (st : St ω) :
    wp (natV (.u32 x)) Q st = Q x.toNat st := rfl

theorem wp_len_nil (Q : V → St ω → Prop) (st : St ω) : wp (lenV .nil) Q st = Q (.int 0) st := rfl
theorem wp_len_slice (s : Slice) (Q : V → St ω → Prop) (st : St ω) :
    wp (lenV (.slice s)) Q st = Q (.int s.len) st := rfl
theorem wp_len_str (s) (Q : V → St ω → Prop) (st : St ω) : wp (lenV (.str s)) Q st = Q (.int s.length) st := rfl
theorem wp_cap_nil (Q : V → St ω → Prop) (st : St ω) : wp (capV .nil) Q st = Q (.int 0) st := rfl
theorem wp_cap_slice (s : Slice) (Q : V → St ω → Prop) (st : St ω) :
    wp (capV (.slice s)) Q st = Q (.int s.cap) st := rfl

theorem wp_newSlice (b : List UInt8) (n : Nat) (Q : V → St ω → Prop) (st : St ω) :
    wp (newSlice b n) Q st = Q (.slice ⟨⟨st.next, []⟩, 0, n, b.length⟩) (st.push (.bytes b)) := rfl

theorem wp_copy_slice (s : Slice) (src : V) (Q : V → St ω → Prop) (st : St ω) :
    wp (copyV (.slice s) src) Q st =
      wp (bytesOf src) (fun d st => wp (arrayOf s) (fun b st =>
        wp (storeRaw s.base (.bytes (overwrite b s.off (d.take (min s.len d.length)))))
          (fun _ st => Q (.int ((min s.len d.length : Nat) : Int)) st) st) st) st := by
  simp only [copyV, wp_bind]; rfl

theorem wp_copy_nil (src : V) (Q : V → St ω → Prop) (st : St ω) :
    wp (copyV .nil src) Q st = wp (bytesOf src) (fun _ st => Q (.int 0) st) st := by
  simp only [copyV, wp_bind]; rfl

theorem wp_append_nil (g) (src : V) (Q : V → St ω → Prop) (st : St ω) :
    wp (appendV g .nil src) Q st =
      wp (bytesOf src) (fun d st =>
        if d.isEmpty then Q .nil st
        else wp (newSlice (d ++ List.replicate (g 0 d.length - d.length) 0) d.length) Q st) st := by
  simp only [appendV, wp_bind, wp_ite]; rfl

theorem wp_append_slice (g) (s : Slice) (src : V) (Q : V → St ω → Prop) (st : St ω) :
    wp (appendV g (.slice s) src) Q st =
      wp (bytesOf src) (fun d st => wp (arrayOf s) (fun b st =>
        if s.len + d.length ≤ s.cap then
          wp (storeRaw s.base (.bytes (overwrite b (s.off + s.len) d)))
            (fun _ st => Q (.slice { s with len := s.len + d.length }) st) st
        else
          wp (newSlice (((b.drop s.off).take s.len ++ d) ++
            List.replicate (g s.cap ((b.drop s.off).take s.len ++ d).length -
              ((b.drop s.off).take s.len ++ d).length) 0) ((b.drop s.off).take s.len ++ d).length) Q st) st) st := by
  simp only [appendV, wp_bind, wp_ite]; rfl

theorem wp_sliceV_nil (lo hi mx : Option Nat) (Q : V → St ω → Prop) (st : St ω) :
    wp (sliceV .nil lo hi mx) Q st =
      if lo.getD 0 = 0 ∧ hi.getD 0 = 0 ∧ mx.getD 0 = 0 then Q .nil st else False := by
  simp only [sliceV, wp_ite, wp_pure, wp_stop]

theorem wp_sliceV_slice (s : Slice) (lo hi mx : Option Nat) (Q : V → St ω → Prop) (st : St ω) :
    wp (sliceV (.slice s) lo hi mx) Q st =
      if lo.getD 0 ≤ hi.getD s.len ∧ hi.getD s.len ≤ mx.getD s.cap ∧ mx.getD s.cap ≤ s.cap then
        Q (.slice ⟨s.base, s.off + lo.getD 0, hi.getD s.len - lo.getD 0, mx.getD s.cap - lo.getD 0⟩) st
      else False := by
  simp only [sliceV, wp_bind, wp_ite, wp_pure, wp_stop]

theorem wp_sliceV_ptr (T : String) (l : Loc) (lo hi mx : Option Nat) (Q : V → St ω → Prop) (st : St ω) :
    wp (sliceV (.ptr T l) lo hi mx) Q st =
      match (st.heap l.id).at l.path with
      | some (.bytes b) =>
        if lo.getD 0 ≤ hi.getD b.length ∧ hi.getD b.length ≤ mx.getD b.length ∧ mx.getD b.length ≤ b.length then
          Q (.slice ⟨l, lo.getD 0, hi.getD b.length - lo.getD 0, mx.getD b.length - lo.getD 0⟩) st
        else False
      | _ => False := by
  simp only [sliceV, wp_bind, wp_load]
  cases h : (st.heap l.id).at l.path with
  | none => rfl
  | some v => cases v <;> simp [wp_ite, wp_pure, wp_stop]

theorem wp_make_bytes (P : Prog) (p : String) (n : V) (Q : V → St ω → Prop) (st : St ω) :
    wp (makeV P p (.slice (.name "byte")) [n]) Q st =
      wp (natV n) (fun n st => wp (newSlice (List.replicate n 0) n) Q st) st := by
  simp only [makeV, wp_bind]

theorem wp_make_vals (P : Prog) (p : String) {t : Ty} (ht : t ≠ .name "byte") (n : V) (Q : V → St ω → Prop) (st : St ω) :
    wp (makeV P p (.slice t) [n]) Q st =
      wp (natV n) (fun n st => wp (some! (P.zero p t)) (fun z st =>
        Q (.slice ⟨⟨st.next, []⟩, 0, n, n⟩) (st.push (.vals (List.replicate n z)))) st) st := by
  have : makeV (ω := ω) P p (.slice t) [n] = natV n >>= fun n => some! (P.zero p t) >>= fun z =>
      alloc (.vals (List.replicate n z)) >>= fun i => pure (.slice ⟨⟨i, []⟩, 0, n, n⟩) := by
    unfold makeV
    split
    · rename_i h _; exact absurd (Ty.slice.inj h) ht
    · rename_i h _; cases h
    · rename_i h h'; cases h; cases h'; rfl
    · rename_i h; exact absurd rfl (h t n rfl)
  rw [this]
  simp only [wp_bind]
  rfl

theorem wp_make_map (P : Prog) (p : String) (a b : Ty) (Q : V → St ω → Prop) (st : St ω) :
    wp (makeV P p (.map a b) []) Q st = Q (.map st.next) (st.push (.mapv [])) := rfl

theorem wp_putBytes (s : Slice) (d : List UInt8) (Q : Unit → St ω → Prop) (st : St ω) :
    wp (putBytes (.slice s) d) Q st =
      wp (arrayOf s) (fun b st => if d.length ≤ s.len then wp (storeRaw s.base (.bytes (overwrite b s.off d))) Q st
        else False) st := by
  simp only [putBytes, wp_bind, wp_ite]; rfl

theorem wp_be_put32 (dst x : V) (Q : List V → St ω → Prop) (st : St ω) :
    wp (bigEndian "PutUint32" [dst, x]) Q st =
      match coerce (.u32 0) x with
      | .u32 x => wp (putBytes dst (be32 x)) (fun _ s => Q [] s) st
      | _ => False := by
  simp only [bigEndian, ↓reduceIte]
  cases coerce (.u32 0) x <;> simp only [wp_bind] <;> rfl

theorem wp_be_put64 (dst x : V) (Q : List V → St ω → Prop) (st : St ω) :
    wp (bigEndian "PutUint64" [dst, x]) Q st =
      match coerce (.u64 0) x with
      | .u64 x => wp (putBytes dst (be64 x)) (fun _ s => Q [] s) st
      | _ => False := by
  have h1 : ("PutUint64" = "PutUint32") = False := by decide
  simp only [bigEndian, h1, ↓reduceIte]
  cases coerce (.u64 0) x <;> simp only [wp_bind] <;> rfl

theorem wp_be_get32 (src : V) (Q : List V → St ω → Prop) (st : St ω) :
    wp (bigEndian "Uint32" [src]) Q st =
      wp (bytesOf src) (fun d s => match ofBe32 d with | some x => Q [.u32 x] s | none => False) st := by
  have h1 : ("Uint32" = "PutUint32") = False := by decide
  have h2 : ("Uint32" = "PutUint64") = False := by decide
  simp only [bigEndian, h1, h2, ↓reduceIte, wp_bind]
  congr; funext d s
  cases ofBe32 d <;> rfl

theorem wp_be_get64 (src : V) (Q : List V → St ω → Prop) (st : St ω) :
    wp (bigEndian "Uint64" [src]) Q st =
      wp (bytesOf src) (fun d s => match ofBe64 d with | some x => Q [.u64 x] s | none => False) st := by
  have h1 : ("Uint64" = "PutUint32") = False := by decide
  have h2 : ("Uint64" = "PutUint64") = False := by decide
  have h3 : ("Uint64" = "Uint32") = False := by decide
  simp only [bigEndian, h1, h2, h3, ↓reduceIte, wp_bind]
  congr; funext d s
  cases ofBe64 d <;> rfl

theorem wp_b_len (g) (v : V) (sp : Bool) (Q : List V → St ω → Prop) (st : St ω) :
    wp (builtin g "len" [v] sp) Q st = wp (lenV v) (fun r s => Q [r] s) st := by
  unfold builtin
  simp only [↓reduceIte, wp_bind]; rfl
theorem wp_b_cap (g) (v : V) (sp : Bool) (Q : List V → St ω → Prop) (st : St ω) :
    wp (builtin g "cap" [v] sp) Q st = wp (capV v) (fun r s => Q [r] s) st := by
  have h1 : ("cap" = "len") = False := by decide
  unfold builtin
  simp only [h1, ↓reduceIte, wp_bind]; rfl
theorem wp_b_copy (g) (a b : V) (sp : Bool) (Q : List V → St ω → Prop) (st : St ω) :
    wp (builtin g "copy" [a, b] sp) Q st = wp (copyV a b) (fun r s => Q [r] s) st := by
  have h1 : ("copy" = "len") = False := by decide
  have h2 : ("copy" = "cap") = False := by decide
  unfold builtin
  simp only [h1, h2, ↓reduceIte, wp_bind]; rfl
theorem wp_b_append (g) (a b : V) (Q : List V → St ω → Prop) (st : St ω) :
    wp (builtin g "append" [a, b] true) Q st = wp (appendV g a b) (fun r s => Q [r] s) st := by
  have h1 : ("append" = "len") = False := by decide
  have h2 : ("append" = "cap") = False := by decide
  have h3 : ("append" = "copy") = False := by decide
  unfold builtin
  simp only [h1, h2, h3, ↓reduceIte, wp_bind]; rfl
theorem wp_b_string (g) (v : V) (sp : Bool) (Q : List V → St ω → Prop) (st : St ω) :
    wp (builtin g "string" [v] sp) Q st = wp (bytesOf v) (fun r s => Q [.str r] s) st := by
  have h1 : ("string" = "len") = False := by decide
  have h2 : ("string" = "cap") = False := by decide
  have h3 : ("string" = "copy") = False := by decide
  have h4 : ("string" = "append") = False := by decide
  unfold builtin
  simp only [h1, h2, h3, h4, ↓reduceIte, wp_bind]; rfl

theorem wp_conv_name (P : Prog) (n : String) (v : V) (Q : List V → St ω → Prop) (st : St ω) :
    wp (convertV P p (.name n) [v]) Q st =
      match P.zero p (.name n) with
      | some z => (match convert z v with | some r => Q [r] st | none => False)
      | none => False := by
  simp only [convertV, wp_bind, wp_some]
  cases P.zero p (.name n) with
  | none => rfl
  | some z => dsimp only; cases convert z v <;> rfl

theorem wp_conv_bytes_str (P : Prog) (s : List UInt8) (Q : List V → St ω → Prop) (st : St ω) :
    wp (convertV P p (.slice (.name "byte")) [.str s]) Q st = wp (newSlice s s.length) (fun r s => Q [r] s) st := by
  simp only [convertV, wp_bind]; rfl

theorem wp_conv_bytes_slice (P : Prog) (s : Slice) (Q : List V → St ω → Prop) (st : St ω) :
    wp (convertV P p (.slice (.name "byte")) [.slice s]) Q st = Q [.slice s] st := rfl

theorem wp_conv_bytes_nil (P : Prog) (Q : List V → St ω → Prop) (st : St ω) :
    wp (convertV P p (.slice (.name "byte")) [.nil]) Q st = Q [.nil] st := rfl

theorem wp_conv_ptr (P : Prog) (n T : String) (l : Loc) (Q : List V → St ω → Prop) (st : St ω) :
    wp (convertV P p (.ptr (.name n)) [.ptr T l]) Q st = Q [.ptr (p ++ "." ++ n) l] st := rfl

theorem wp_conv_ptr_qual (P : Prog) (q n T : String) (l : Loc) (Q : List V → St ω → Prop) (st : St ω) :
    wp (convertV P p (.ptr (.qual q n)) [.ptr T l]) Q st = Q [.ptr (q ++ "." ++ n) l] st := rfl

theorem wp_conv_ptr_slice (P : Prog) (t : Ty) (T : String) (l : Loc) (Q : List V → St ω → Prop) (st : St ω) :
    wp (convertV P p (.ptr (.slice t)) [.ptr T l]) Q st = Q [.ptr "" l] st := rfl

theorem wp_errors_new (s : List UInt8) (Q : List V → St ω → Prop) (st : St ω) :
    wp (callPkg S "errors" "New" [.str s]) Q st = Q [.err s []] st := rfl

theorem wp_errorf (s : List UInt8) (vs : List V) (Q : List V → St ω → Prop) (st : St ω) :
    wp (callPkg S "fmt" "Errorf" (.str s :: vs)) Q st = Q [.err s vs] st := rfl

theorem wp_callPkg (q f : String) (args : List V) (Q : List V → St ω → Prop) (st : St ω)
    (h1 : q ≠ "errors") (h2 : f ≠ "Errorf") (h3 : f ≠ "Sprintf") (h4 : q ≠ "strings") :
    wp (callPkg S q f args) Q st =
      if (S.prog.pkg q).isNone then wp (S.ext (q ++ "." ++ f) args) Q st
      else if isType S.prog q f then wp (convertV S.prog q (.name f) args) Q st
      else wp (S.call (.fn q f) args) Q st := by
  simp only [callPkg, h1, h2, h3, h4, false_and, and_false, ↓reduceIte, wp_ite]

theorem wp_meth_ptr (T : String) (l : Loc) (m : String) (args : List V) (Q : List V → St ω → Prop) (st : St ω)
    (h : T ≠ "") :
    wp (callMeth S (.ptr T l) m args) Q st = wp (S.call (.meth T m) (.ptr T l :: args)) Q st := by
  simp only [callMeth, h, ↓reduceIte]

theorem wp_meth_ptr0 (l : Loc) (m : String) (args : List V) (Q : List V → St ω → Prop) (st : St ω) :
    wp (callMeth S (.ptr "" l) m args) Q st =
      match (st.heap l.id).at l.path with
      | some (.struct T _) => wp (S.call (.meth T m) (.ptr "" l :: args)) Q st
      | _ => False := by
  simp only [callMeth, ↓reduceIte, wp_bind, wp_load]
  cases (st.heap l.id).at l.path with
  | none => rfl
  | some v => cases v <;> rfl

theorem wp_meth_obj (n : Nat) (m : String) (args : List V) (Q : List V → St ω → Prop) (st : St ω) :
    wp (callMeth S (.obj n) m args) Q st = wp (S.ext m (.obj n :: args)) Q st := rfl
theorem wp_meth_glob (n : String) (m : String) (args : List V) (Q : List V → St ω → Prop) (st : St ω) :
    wp (callMeth S (.glob n) m args) Q st = wp (S.ext m (.glob n :: args)) Q st := rfl
theorem wp_val_fn (k : FKey) (args : List V) (Q : List V → St ω → Prop) (st : St ω) :
    wp (callVal S (.fn k) args) Q st = wp (S.call k args) Q st := rfl
theorem wp_val_bound (k : FKey) (v : V) (args : List V) (Q : List V → St ω → Prop) (st : St ω) :
    wp (callVal S (.bound k v) args) Q st = wp (S.call k (v :: args)) Q st := rfl
theorem wp_val_obj (n : Nat) (args : List V) (Q : List V → St ω → Prop) (st : St ω) :
    wp (callVal S (.obj n) args) Q st = wp (S.ext "()" (.obj n :: args)) Q st := rfl

/-! ### Statements -/

theorem wp_s_expr (e : Expr) (Q : Env × Ctl → St ω → Prop) (st : St ω) :
    wp (exec S p (.expr e) ρ) Q st = wp (evalM S p ρ e) (fun _ s => Q (ρ, .next) s) st := by
  simp only [exec, wp_bind]; rfl

theorem wp_s_define (xs : List String) (es : List Expr) (Q : Env × Ctl → St ω → Prop) (st : St ω) :
    wp (exec S p (.define xs es) ρ) Q st =
      wp (evalRhs S p ρ xs.length es) (fun vs s => wp (defineAll xs vs ρ) (fun ρ s => Q (ρ, .next) s) s) st := by
  simp only [exec, wp_bind]; rfl

theorem wp_s_assign (ls es : List Expr) (Q : Env × Ctl → St ω → Prop) (st : St ω) :
    wp (exec S p (.assign ls es) ρ) Q st =
      wp (evalRhs S p ρ ls.length es) (fun vs s => wp (assignAll S p ρ ls vs) (fun _ s => Q (ρ, .next) s) s) st := by
  simp only [exec, wp_bind]; rfl

theorem wp_s_inc (e : Expr) (Q : Env × Ctl → St ω → Prop) (st : St ω) :
    wp (exec S p (.inc e) ρ) Q st =
      wp (addr S p ρ e) (fun l s => wp (load l) (fun v s =>
        match binop "+" v (.const 1) with
        | some w => wp (store l w) (fun _ s => Q (ρ, .next) s) s
        | none => False) s) st := by
  simp only [exec, wp_bind, wp_some]
  congr; funext l s; congr; funext v s
  cases binop "+" v (.const 1) <;> rfl

theorem wp_s_var (xs : List String) (t : Ty) (Q : Env × Ctl → St ω → Prop) (st : St ω) :
    wp (exec S p (.var xs t) ρ) Q st =
      match S.prog.zero p t with
      | some z => wp (declareAll z xs ρ) (fun ρ s => Q (ρ, .next) s) st
      | none => False := by
  simp only [exec, wp_bind, wp_some]
  cases S.prog.zero p t <;> rfl

theorem wp_s_ite (c : Expr) (a b : List Stmt) (Q : Env × Ctl → St ω → Prop) (st : St ω) :
    wp (exec S p (.ite c a b) ρ) Q st =
      wp (evalM S p ρ c) (fun vs s => wp (one vs) (fun v s =>
        match v with
        | .bool c =>
          if c then wp (execs S p a ([] :: ρ) .next) (fun r s => Q (ρ, r.2) s) s
          else wp (execs S p b ([] :: ρ) .next) (fun r s => Q (ρ, r.2) s) s
        | _ => False) s) st := by
  simp only [exec, wp_bind]
  congr; funext vs s; congr; funext v s
  cases v with
  | bool c => cases c <;> simp only [wp_bind] <;> rfl
  | _ => rfl

theorem wp_s_forever (b : List Stmt) (Q : Env × Ctl → St ω → Prop) (st : St ω) :
    wp (exec S p (.forever b) ρ) Q st =
      wp (repeatM S.loops (execs S p b ([] :: ρ) .next >>= fun r => pure r.2)) (fun c s => Q (ρ, c) s) st := by
  simp only [exec, wp_bind]; rfl

theorem wp_s_range (k v : String) (e : Expr) (b : List Stmt) (Q : Env × Ctl → St ω → Prop) (st : St ω) :
    wp (exec S p (.range k v e b) ρ) Q st =
      wp (evalM S p ρ e) (fun vs s => wp (one vs) (fun l s => wp (elemsV l) (fun vs s =>
        wp (rangeM (fun i w => do
          let ρ' ← define k (.int i) ([] :: ρ)
          let ρ' ← define v w ρ'
          let r ← execs S p b ([] :: ρ') .next
          pure r.2) 0 vs) (fun c s => Q (ρ, c) s) s) s) s) st := by
  simp only [exec, wp_bind]; rfl

theorem wp_s_switch (e : Expr) (cs : List (List Expr)) (bs : List (List Stmt)) (Q : Env × Ctl → St ω → Prop)
    (st : St ω) :
    wp (exec S p (.switch e cs bs) ρ) Q st =
      wp (evalM S p ρ e) (fun vs s => wp (one vs) (fun v s => wp (choose S p ρ v 0 none cs) (fun o s =>
        match o with
        | none => Q (ρ, .next) s
        | some i => wp (execNth S p bs i ρ) (fun r s => Q (ρ, r) s) s) s) s) st := by
  simp only [exec, wp_bind]
  congr; funext vs s; congr; funext v s; congr; funext o s
  cases o <;> simp only [wp_bind] <;> rfl

theorem wp_s_ret (es : List Expr) (Q : Env × Ctl → St ω → Prop) (st : St ω) :
    wp (exec S p (.ret es) ρ) Q st =
      wp (evalRhs S p ρ es.length es) (fun vs s => Q (ρ, .ret vs) s) st := by
  simp only [exec, wp_bind]; rfl

theorem wp_s_goto (l : String) (Q : Env × Ctl → St ω → Prop) (st : St ω) :
    wp (exec S p (.goto l) ρ) Q st = Q (ρ, .goto l) st := rfl
theorem wp_s_label (l : String) (Q : Env × Ctl → St ω → Prop) (st : St ω) :
    wp (exec S p (.label l) ρ) Q st = Q (ρ, .next) st := rfl

theorem wp_s_go (e : Expr) (Q : Env × Ctl → St ω → Prop) (st : St ω) :
    wp (exec S p (.go e) ρ) Q st =
      wp (callee S p ρ e) (fun c s => wp (S.spawn c.1 c.2) (fun _ s => Q (ρ, .next) s) s) st := by
  simp only [exec, wp_bind]; rfl

theorem wp_s_defer (e : Expr) (Q : Env × Ctl → St ω → Prop) (st : St ω) :
    wp (exec S p (.defer e) ρ) Q st =
      wp (callee S p ρ e) (fun c s => Q (ρ, .next) (s.deferring (c :: s.defers))) st := by
  simp only [exec, wp_bind]; rfl

theorem wp_s_block (b : List Stmt) (Q : Env × Ctl → St ω → Prop) (st : St ω) :
    wp (exec S p (.block b) ρ) Q st =
      wp (execs S p b ([] :: ρ) .next) (fun r s => Q (ρ, r.2) s) st := by
  simp only [exec, wp_bind]; rfl

theorem wp_execs_nil (c : Ctl) (Q : Env × Ctl → St ω → Prop) (st : St ω) :
    wp (execs S p [] ρ c) Q st = Q (ρ, c) st := rfl

theorem wp_execs_next (s : Stmt) (b : List Stmt) (Q : Env × Ctl → St ω → Prop) (st : St ω) :
    wp (execs S p (s :: b) ρ .next) Q st = wp (exec S p s ρ) (fun r s => wp (execs S p b r.1 r.2) Q s) st := by
  simp only [execs, wp_bind]

/-- After `return` nothing else happens. -/
theorem execs_ret (b : List Stmt) (vs : List V) : execs S p b ρ (.ret vs) = pure (ρ, .ret vs) := by
  induction b with
  | nil => rfl
  | cons s b ih => cases s <;> simp only [execs, ih]

theorem wp_execs_ret (b : List Stmt) (vs : List V) (Q : Env × Ctl → St ω → Prop) (st : St ω) :
    wp (execs S p b ρ (.ret vs)) Q st = Q (ρ, .ret vs) st := by
  rw [execs_ret]; rfl

/-- What is left after the label. -/
def afterLabel (l : String) : List Stmt → Option (List Stmt)
  | [] => none
  | .label m :: b => if m = l then some b else afterLabel l b
  | _ :: b => afterLabel l b

theorem wp_execs_goto (b : List Stmt) (l : String) (Q : Env × Ctl → St ω → Prop) (st : St ω) :
    wp (execs S p b ρ (.goto l)) Q st =
      match afterLabel l b with
      | some b => wp (execs S p b ρ .next) Q st
      | none => Q (ρ, .goto l) st := by
  induction b with
  | nil => rfl
  | cons s b ih =>
    cases s with
    | label m =>
      simp only [execs, afterLabel]
      by_cases h : m = l
      · simp only [h, ↓reduceIte]
      · simp only [h, ↓reduceIte, ih]
    | _ => simp only [execs, afterLabel, ih]

theorem wp_nth_zero (b : List Stmt) (bs : List (List Stmt)) (Q : Ctl → St ω → Prop) (st : St ω) :
    wp (execNth S p (b :: bs) 0 ρ) Q st = wp (execs S p b ([] :: ρ) .next) (fun r s => Q r.2 s) st := by
  simp only [execNth, wp_bind]; rfl
theorem wp_nth_succ (b : List Stmt) (bs : List (List Stmt)) (i : Nat) (Q : Ctl → St ω → Prop) (st : St ω) :
    wp (execNth S p (b :: bs) (i + 1) ρ) Q st = wp (execNth S p bs i ρ) Q st := by
  simp only [execNth]

/-- A single expression that is not an index, or is for one variable. -/
theorem wp_rhs_one (e : Expr) (Q : List V → St ω → Prop) (st : St ω) :
    wp (evalRhs S p ρ 1 [e]) Q st = wp (evalM S p ρ e) Q st := by
  simp [evalRhs]

theorem wp_rhs_nil (Q : List V → St ω → Prop) (st : St ω) : wp (evalRhs S p ρ 0 []) Q st = Q [] st := rfl

theorem wp_rhs_two (a b : Expr) (Q : List V → St ω → Prop) (st : St ω) :
    wp (evalRhs S p ρ 2 [a, b]) Q st = wp (evalArgs S p ρ [a, b]) Q st := by
  unfold evalRhs
  cases a <;> rfl

theorem wp_rhs_call (f : Expr) (args : List Expr) (sp : Bool) (Q : List V → St ω → Prop) (st : St ω) :
    wp (evalRhs S p ρ 2 [.call f args sp]) Q st = wp (evalM S p ρ (.call f args sp)) Q st := rfl

theorem wp_rhs_idx (e i : Expr) (Q : List V → St ω → Prop) (st : St ω) :
    wp (evalRhs S p ρ 2 [.idx e i]) Q st =
      wp (evalM S p ρ e) (fun vs s => wp (one vs) (fun v s =>
        wp (evalM S p ρ i) (fun ks s => wp (one ks) (fun k s => wp (lookupV v k) Q s) s) s) s) st := by
  simp only [evalRhs, wp_bind]

theorem wp_assign_nil (Q : Unit → St ω → Prop) (st : St ω) : wp (assignAll S p ρ [] []) Q st = Q () st := rfl
theorem wp_assign_cons (e : Expr) (es : List Expr) (v : V) (vs : List V) (Q : Unit → St ω → Prop) (st : St ω) :
    wp (assignAll S p ρ (e :: es) (v :: vs)) Q st =
      wp (assignTo S p ρ e v) (fun _ s => wp (assignAll S p ρ es vs) Q s) st := by
  simp only [assignAll, wp_bind]

theorem wp_to_idx (e i : Expr) (v : V) (Q : Unit → St ω → Prop) (st : St ω) :
    wp (assignTo S p ρ (.idx e i) v) Q st =
      wp (evalM S p ρ e) (fun vs s => wp (one vs) (fun m s =>
        wp (evalM S p ρ i) (fun ks s => wp (one ks) (fun k s => wp (updateV m k v) Q s) s) s) s) st := by
  simp only [assignTo, wp_bind]
theorem wp_to_blank (v : V) (Q : Unit → St ω → Prop) (st : St ω) :
    wp (assignTo S p ρ (.id "_") v) Q st = Q () st := rfl
theorem wp_to_id (x : String) (v : V) (Q : Unit → St ω → Prop) (st : St ω) (h : x ≠ "_") :
    wp (assignTo S p ρ (.id x) v) Q st =
      match ρ.find x with
      | some i => wp (store ⟨i, []⟩ v) Q st
      | none => if isVar S.prog p x then wp (S.ext "=" [.glob (p ++ "." ++ x), v]) (fun _ s => Q () s) st else False := by
  unfold assignTo
  split
  · rename_i h'; cases h'
  · rename_i h'; simp only [Expr.id.injEq] at h'; exact absurd h' h
  · rename_i h'; cases h'
    cases ρ.find x with
    | some i => rfl
    | none => simp only [wp_ite, wp_bind, wp_pure, wp_stop]
  · rename_i h1; exact (h1 _ rfl).elim
theorem wp_to_sel (e : Expr) (f : String) (v : V) (Q : Unit → St ω → Prop) (st : St ω) :
    wp (assignTo S p ρ (.sel e f) v) Q st = wp (addr S p ρ (.sel e f)) (fun l s => wp (store l v) Q s) st := by
  simp only [assignTo, wp_bind]
theorem wp_to_star (e : Expr) (v : V) (Q : Unit → St ω → Prop) (st : St ω) :
    wp (assignTo S p ρ (.un "*" e) v) Q st = wp (addr S p ρ (.un "*" e)) (fun l s => wp (store l v) Q s) st := by
  simp only [assignTo, wp_bind]

theorem wp_declare (x : String) (v : V) (sc : List (String × Nat)) (ρ : Env) (Q : Env → St ω → Prop) (st : St ω) :
    wp (declare x v (sc :: ρ)) Q st = Q (((x, st.next) :: sc) :: ρ) (st.push v) := rfl

theorem wp_define (x : String) (v : V) (Q : Env → St ω → Prop) (st : St ω) :
    wp (define x v ρ) Q st =
      if x = "_" then Q ρ st
      else
        match (ρ.headD []).lookup x with
        | some i => wp (store ⟨i, []⟩ v) (fun _ s => Q ρ s) st
        | none => wp (declare x (coerce (.int 0) v) ρ) Q st := by
  simp only [define, wp_ite, wp_pure]
  cases (ρ.headD []).lookup x <;> simp only [wp_bind] <;> rfl

theorem wp_defineAll_nil (Q : Env → St ω → Prop) (st : St ω) : wp (defineAll [] [] ρ) Q st = Q ρ st := rfl
theorem wp_defineAll_cons (x : String) (xs : List String) (v : V) (vs : List V) (Q : Env → St ω → Prop)
    (st : St ω) :
    wp (defineAll (x :: xs) (v :: vs) ρ) Q st = wp (define x v ρ) (fun ρ s => wp (defineAll xs vs ρ) Q s) st := by
  simp only [defineAll, wp_bind]

theorem wp_declareAll_nil (v : V) (Q : Env → St ω → Prop) (st : St ω) :
    wp (declareAll v [] ρ) Q st = Q ρ st := rfl
theorem wp_declareAll_cons (v : V) (x : String) (xs : List String) (Q : Env → St ω → Prop) (st : St ω) :
    wp (declareAll v (x :: xs) ρ) Q st = wp (declare x v ρ) (fun ρ s => wp (declareAll v xs ρ) Q s) st := by
  simp only [declareAll, wp_bind]

theorem wp_lookup_map (i : Nat) (k : UInt32) (Q : List V → St ω → Prop) (st : St ω) :
    wp (lookupV (.map i) (.u32 k)) Q st =
      match st.heap i with
      | .mapv kvs => (match kvs.lookup k with
        | some v => Q [v, .bool true] st
        | none => Q [.nil, .bool false] st)
      | _ => False := by
  simp only [lookupV, coerce, wp_bind, wp_load, V.at]
  cases st.heap i with
  | mapv kvs => dsimp only; cases kvs.lookup k <;> rfl
  | _ => rfl

theorem wp_lookup_nil (k : UInt32) (Q : List V → St ω → Prop) (st : St ω) :
    wp (lookupV .nil (.u32 k)) Q st = Q [.nil, .bool false] st := rfl

theorem wp_update_map (i : Nat) (k : UInt32) (v : V) (Q : Unit → St ω → Prop) (st : St ω) :
    wp (updateV (.map i) (.u32 k) v) Q st =
      match st.heap i with
      | .mapv kvs => Q () (st.set i (.mapv ((k, v) :: kvs)))
      | _ => False := by
  simp only [updateV, coerce, wp_bind, wp_load, V.at]
  cases st.heap i with
  | mapv kvs => simp only [wp_storeRaw, V.put]
  | _ => rfl

theorem wp_any_nil (v : V) (Q : Bool → St ω → Prop) (st : St ω) : wp (anyCase S p ρ v []) Q st = Q false st := rfl
theorem wp_any_cons (v : V) (e : Expr) (es : List Expr) (Q : Bool → St ω → Prop) (st : St ω) :
    wp (anyCase S p ρ v (e :: es)) Q st =
      wp (evalM S p ρ e) (fun vs s => wp (one vs) (fun w s =>
        match binop "==" v w with
        | some (.bool c) => if c then Q true s else wp (anyCase S p ρ v es) Q s
        | some _ => wp (anyCase S p ρ v es) Q s
        | none => False) s) st := by
  simp only [anyCase, wp_bind, wp_some]
  congr; funext vs s; congr; funext w s
  cases binop "==" v w with
  | none => rfl
  | some r =>
    cases r with
    | bool c => cases c <;> rfl
    | _ => rfl

theorem wp_choose_nil (v : V) (i : Nat) (d : Option Nat) (Q : Option Nat → St ω → Prop) (st : St ω) :
    wp (choose S p ρ v i d []) Q st = Q d st := rfl
theorem wp_choose_default (v : V) (i : Nat) (d : Option Nat) (cs : List (List Expr))
    (Q : Option Nat → St ω → Prop) (st : St ω) :
    wp (choose S p ρ v i d ([] :: cs)) Q st = wp (choose S p ρ v (i + 1) (some i) cs) Q st := by
  simp only [choose]
theorem wp_choose_cons (v : V) (i : Nat) (d : Option Nat) (e : Expr) (es : List Expr) (cs : List (List Expr))
    (Q : Option Nat → St ω → Prop) (st : St ω) :
    wp (choose S p ρ v i d ((e :: es) :: cs)) Q st =
      wp (anyCase S p ρ v (e :: es)) (fun b s =>
        if b then Q (some i) s else wp (choose S p ρ v (i + 1) d cs) Q s) st := by
  simp only [choose, wp_bind, wp_ite, wp_pure]

theorem wp_callee_id (f : String) (args : List Expr) (sp : Bool) (Q : FKey × List V → St ω → Prop) (st : St ω) :
    wp (callee S p ρ (.call (.id f) args sp)) Q st =
      wp (evalArgs S p ρ args) (fun vs s => Q (.fn p f, vs) s) st := by
  simp only [callee, wp_bind]; rfl

theorem wp_callee_sel (e : Expr) (m : String) (args : List Expr) (sp : Bool) (Q : FKey × List V → St ω → Prop)
    (st : St ω) :
    wp (callee S p ρ (.call (.sel e m) args sp)) Q st =
      match pkgName S.prog p ρ e with
      | some q => wp (evalArgs S p ρ args) (fun vs s => Q (.fn q m, vs) s) st
      | none =>
        wp (evalM S p ρ e) (fun vs s => wp (one vs) (fun v s => wp (evalArgs S p ρ args) (fun vs s =>
          match v with
          | .ptr T l =>
            if T = "" then
              match (s.heap l.id).at l.path with
              | some (.struct T _) => Q (.meth T m, v :: vs) s
              | _ => False
            else Q (.meth T m, v :: vs) s
          | _ => False) s) s) st := by
  cases hq : pkgName S.prog p ρ e with
  | some q => simp only [callee, hq, wp_bind]; rfl
  | none =>
    simp only [callee, hq, wp_bind]
    congr; funext vs s; congr; funext v s; congr; funext ws s
    cases v with
    | ptr T l =>
      simp only [wp_ite, wp_pure, wp_bind, wp_load]
      split
      · cases (s.heap l.id).at l.path with
        | none => rfl
        | some v => cases v <;> rfl
      · rfl
    | _ => rfl

/-! ### Calls -/

theorem wp_bindParams_nil (P : Prog) (Q : Env → St ω → Prop) (st : St ω) :
    wp (bindParams P p [] [] ρ) Q st = Q ρ st := rfl
theorem wp_bindParams_cons (P : Prog) (x : String) (t : Ty) (ps : List (String × Ty)) (v : V) (vs : List V)
    (Q : Env → St ω → Prop) (st : St ω) :
    wp (bindParams P p ((x, t) :: ps) (v :: vs) ρ) Q st =
      match P.zero p t with
      | some z => wp (declare x (coerce z v) ρ) (fun ρ s => wp (bindParams P p ps vs ρ) Q s) st
      | none => False := by
  simp only [bindParams, wp_bind, wp_some]
  cases P.zero p t <;> rfl

theorem wp_bindResults_nil (P : Prog) (Q : Env → St ω → Prop) (st : St ω) :
    wp (bindResults P p [] ρ) Q st = Q ρ st := rfl
theorem wp_bindResults_cons (P : Prog) (x : String) (t : Ty) (rs : List (String × Ty))
    (Q : Env → St ω → Prop) (st : St ω) :
    wp (bindResults P p ((x, t) :: rs) ρ) Q st =
      if x = "" then wp (bindResults P p rs ρ) Q st
      else match P.zero p t with
        | some z => wp (declare x z ρ) (fun ρ s => wp (bindResults P p rs ρ) Q s) st
        | none => False := by
  simp only [bindResults, wp_bind, wp_some, wp_ite]
  cases P.zero p t <;> rfl

theorem wp_results_nil (P : Prog) (Q : List V → St ω → Prop) (st : St ω) :
    wp (results P p [] []) Q st = Q [] st := rfl
theorem wp_results_cons (P : Prog) (x : String) (t : Ty) (rs : List (String × Ty)) (v : V) (vs : List V)
    (Q : List V → St ω → Prop) (st : St ω) :
    wp (results P p ((x, t) :: rs) (v :: vs)) Q st =
      match P.zero p t with
      | some z => wp (results P p rs vs) (fun vs s => Q (coerce z v :: vs) s) st
      | none => False := by
  simp only [results, wp_bind, wp_some]
  cases P.zero p t <;> rfl

theorem wp_named_nil (Q : List V → St ω → Prop) (st : St ω) : wp (namedResults ρ []) Q st = Q [] st := rfl
theorem wp_named_cons (x : String) (t : Ty) (rs : List (String × Ty)) (Q : List V → St ω → Prop) (st : St ω) :
    wp (namedResults ρ ((x, t) :: rs)) Q st =
      match ρ.find x with
      | some i => wp (load ⟨i, []⟩) (fun v s => wp (namedResults ρ rs) (fun vs s => Q (v :: vs) s) s) st
      | none => False := by
  simp only [namedResults, wp_bind, wp_some]
  cases ρ.find x <;> rfl

theorem wp_finally {α : Type} (m : M ω α) (d : M ω Unit) (Q : α → St ω → Prop) (st : St ω) :
    wp (finally' m d) Q st = wp m (fun a s => wp d (fun _ s => Q a s) s) st := by
  have h1 : ∀ a s, wp (d >>= fun _ => pure a) Q s = wp d (fun _ s => Q a s) s := fun a s => wp_bind _ _ _ _
  have h2 : ∀ s, wp (d >>= fun _ => stop .panic) Q s = False := fun s => by
    rw [wp_bind]
    unfold wp
    cases d s <;> rfl
  unfold wp finally' at *
  cases hm : m st with
  | ok r => exact h1 r.1 r.2
  | error e =>
    obtain ⟨e, s⟩ := e
    cases e with
    | panic => exact h2 s
    | _ => rfl

theorem wp_defers_nil (Q : Unit → St ω → Prop) (st : St ω) : wp (runDefers S []) Q st = Q () st := rfl
theorem wp_defers_cons (k : FKey) (vs : List V) (ds) (Q : Unit → St ω → Prop) (st : St ω) :
    wp (runDefers S ((k, vs) :: ds)) Q st = wp (S.call k vs) (fun _ s => wp (runDefers S ds) Q s) st := by
  simp only [runDefers, wp_finally, wp_bind, wp_pure]

theorem wp_finish_ret0 (f : Func) (Q : List V → St ω → Prop) (st : St ω) :
    wp (finish S p ρ f (.ret [])) Q st = wp (namedResults ρ f.results) Q st := rfl
theorem wp_finish_ret (f : Func) (v : V) (vs : List V) (Q : List V → St ω → Prop) (st : St ω) :
    wp (finish S p ρ f (.ret (v :: vs))) Q st = wp (results S.prog p f.results (v :: vs)) Q st := rfl
theorem wp_finish_next (f : Func) (Q : List V → St ω → Prop) (st : St ω) :
    wp (finish S p ρ f .next) Q st = if f.results.isEmpty then Q [] st else False := by
  simp only [finish, wp_ite, wp_pure, wp_stop]

theorem wp_callFunc (f : Func) (args : List V) (Q : List V → St ω → Prop) (st : St ω) :
    wp (callFunc S p f args) Q st =
      wp (bindParams S.prog p f.args args [[]]) (fun ρ s => wp (bindResults S.prog p f.results ρ) (fun ρ s =>
        wp (execs S p f.body ρ .next) (fun r s => wp (finish S p ρ f r.2) (fun vs s =>
          wp (runDefers S s.defers) (fun _ s => Q vs (s.deferring st.defers)) s) s) s) s) (st.deferring []) := by
  unfold callFunc runBody
  simp only [wp_bind, wp_finally]
  rfl

theorem wp_callN (P : Prog) (E : Ext ω) (k : Nat) (key : FKey) (p : String) (f : Func) (args : List V)
    (Q : List V → St ω → Prop) (st : St ω) (h : P.find key = some (p, f)) :
    wp (callN P E (k + 1) key args) Q st =
      wp (callFunc ⟨P, callN P E k, E.ext, E.spawn, E.grow, E.loops⟩ p f args) Q st := by
  simp only [callN, h]

theorem wp_execs_append (S : Sem ω) (p : String) (b b' : List Stmt) : ∀ (ρ : Env) (c : Ctl) (Q : Env × Ctl → St ω → Prop) (st : St ω),
    wp (execs S p (b ++ b') ρ c) Q st = wp (execs S p b ρ c) (fun r s => wp (execs S p b' r.1 r.2) Q s) st := by
  induction b with
  | nil => intro ρ c Q st; rfl
  | cons s b ih =>
    intro ρ c Q st
    cases c with
    | next => rw [List.cons_append, wp_execs_next, wp_execs_next]; simp only [ih]
    | ret vs => cases s <;> simp only [List.cons_append, execs, ih]
    | goto l => cases s <;> simp only [List.cons_append, execs, ih]

end Verif.Lang
