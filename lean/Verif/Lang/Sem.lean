/-
What the programs of Verif.Lang.Syntax do.

* Every variable is a cell of the heap, so that it can be pointed to; a pointer is a cell and a path of
  fields.  The elements of an array (of anything but bytes) are like fields: element 3 is called `|||`.  A slice refers to an array in the heap: copies of a slice share the array, `append` writes into
  spare capacity, and how much spare capacity a new array gets is a parameter (`grow`).
* `int` is unbounded (the files only do arithmetic on lengths); `uint32` … wrap.  An untyped constant
  takes the type of the other operand, of the variable it is assigned to, or of the parameter.
* A value knows the type it is of as far as it matters here: a structure has the name of its type, and so
  have pointers that were converted explicitly.
* `stuck` is a program that the Go compiler refuses or that is outside the fragment, `panic` a run-time
  panic, `exit` the end of the process by `os.Exit`, `fuel` an exhausted bound on the depth of calls or on the
  number of iterations of `for { }`.  Deferred calls are run when a function returns and when it panics.
* What is not in the files (the standard library apart from what is below, interface values from outside)
  is a parameter (`ext`), and may have a state of its own (`world`).  So are the variables of a package: their
  names are passed to it when they are used.  Constants of other packages are names, all different.
-/
import Verif.Lang.Syntax

namespace Verif.Lang

inductive Stop where
  | panic | stuck | fuel | exit
  deriving DecidableEq, Repr

/-- A cell of the heap, and a field of a field … in it. -/
structure Loc where
  id : Nat
  path : List String
  deriving DecidableEq, Repr

/-- The part `[off, off+len)` of the array at `base`, with capacity `cap`. -/
structure Slice where
  base : Loc
  off : Nat
  len : Nat
  cap : Nat
  deriving DecidableEq, Repr

/-- Functions and methods of the files; a type is `pkg.name`. -/
inductive FKey where
  | fn (pkg f : String)
  | meth (T m : String)
  deriving DecidableEq, Repr

/-- Values.  `nil` is the nil of every type. -/
inductive V where
  | const (n : Int)
  | int (n : Int)
  | u32 (x : UInt32)
  | i32 (x : Int32)
  | u64 (x : UInt64)
  | i64 (x : Int64)
  | bool (b : Bool)
  | str (s : List UInt8)
  | nil
  | ptr (T : String) (l : Loc)
  | slice (s : Slice)
  | bytes (b : List UInt8)                    -- an array of bytes
  | vals (l : List V)                         -- any other array
  | struct (T : String) (fs : List (String × V))
  | map (id : Nat)                            -- the map in a cell
  | mapv (kvs : List (UInt32 × V))            -- the content of such a cell
  | err (msg : List UInt8) (args : List V)    -- an error, with the operands of its format
  | fn (k : FKey)
  | bound (k : FKey) (v : V)                  -- a method with its receiver
  | obj (n : Nat)                             -- from outside
  | glob (s : String)                         -- a package-level variable
  deriving Repr, Inhabited

/-- The memory, the rest of the world, and the deferred calls of the function that is running. -/
structure St (ω : Type) where
  heap : Nat → V
  next : Nat
  world : ω
  defers : List (FKey × List V)

/-- A program; when it stops the state is kept. -/
abbrev M (ω α : Type) := St ω → Except (Stop × St ω) (α × St ω)

namespace M
variable {ω α β : Type}
def pure (a : α) : M ω α := fun st => .ok (a, st)
def bind (m : M ω α) (f : α → M ω β) : M ω β := fun st =>
  match m st with
  | .ok (a, st) => f a st
  | .error e => .error e
end M

section
variable {ω : Type}

instance : Monad (M ω) where
  pure := M.pure
  bind := M.bind

def stop {α : Type} (e : Stop) : M ω α := fun st => .error (e, st)

def some! {α : Type} : Option α → M ω α
  | some a => pure a
  | none => stop .stuck

/-! ### Memory -/

/-- The name of element `i` of an array. -/
def stroke (i : Nat) : String := String.ofList (List.replicate i '|')

/-- The field `f` of a structure, or the element of an array. -/
def V.field : V → String → Option V
  | .struct _ fs, f => fs.lookup f
  | .vals l, f => l[f.length]?
  | _, _ => none

/-- The fields with `f` changed. -/
def setFld (f : String) (v : V) : List (String × V) → List (String × V)
  | [] => []
  | (g, w) :: fs => if g = f then (g, v) :: fs else (g, w) :: setFld f v fs

/-- What is at the end of a path. -/
def V.at : V → List String → Option V
  | v, [] => some v
  | v, f :: p => (v.field f).bind (·.at p)

/-- The value with what is at the end of a path changed. -/
def V.put (w : V) : V → List String → Option V
  | _, [] => some w
  | .struct T fs, f :: p => do
    let v ← fs.lookup f
    let v' ← V.put w v p
    pure (.struct T (setFld f v' fs))
  | .vals l, f :: p => do
    let v ← l[f.length]?
    let v' ← V.put w v p
    pure (.vals (l.set f.length v'))
  | _, _ :: _ => none

def Loc.field (l : Loc) (f : String) : Loc := ⟨l.id, l.path ++ [f]⟩

def St.set (st : St ω) (i : Nat) (v : V) : St ω := { st with heap := fun j => if j = i then v else st.heap j }

def St.at (st : St ω) (l : Loc) : Option V := (st.heap l.id).at l.path

def load (l : Loc) : M ω V := fun st =>
  match st.at l with
  | some v => .ok (v, st)
  | none => .error (.stuck, st)

def storeRaw (l : Loc) (v : V) : M ω Unit := fun st =>
  match V.put v (st.heap l.id) l.path with
  | some w => .ok ((), st.set l.id w)
  | none => .error (.stuck, st)

/-- An untyped constant takes the type of the variable. -/
def coerce (old v : V) : V :=
  match old, v with
  | .int _, .const n => .int n
  | .u32 _, .const n => .u32 (UInt32.ofInt n)
  | .i32 _, .const n => .i32 (Int32.ofInt n)
  | .u64 _, .const n => .u64 (UInt64.ofInt n)
  | .i64 _, .const n => .i64 (Int64.ofInt n)
  | _, v => v

def store (l : Loc) (v : V) : M ω Unit := do
  let old ← load l
  storeRaw l (coerce old v)

def alloc (v : V) : M ω Nat := fun st =>
  .ok (st.next, { st with heap := fun j => if j = st.next then v else st.heap j, next := st.next + 1 })

/-- The array a slice is part of. -/
def arrayOf (s : Slice) : M ω (List UInt8) := do
  match ← load s.base with
  | .bytes b => if s.off + s.cap ≤ b.length ∧ s.len ≤ s.cap then pure b else stop .stuck
  | _ => stop .stuck

/-- The bytes of a slice. -/
def bytesOf : V → M ω (List UInt8)
  | .nil => pure []
  | .slice s => do
    let b ← arrayOf s
    pure ((b.drop s.off).take s.len)
  | .str s => pure s
  | _ => stop .stuck

/-- An array with the bytes from `i` on replaced. -/
def overwrite (b : List UInt8) (i : Nat) (d : List UInt8) : List UInt8 := b.take i ++ d ++ b.drop (i + d.length)

/-! ### Programs -/

/-- A package, from its files. -/
structure Pkg where
  name : String
  imports : List String
  types : List (String × Ty)
  consts : List (String × Option Ty × Expr)
  vars : List String
  funcs : List (String × Func)
  /-- methods by type and name -/
  meths : List ((String × String) × Func)
  deriving Inhabited

abbrev Prog := List Pkg

def Prog.pkg (P : Prog) (p : String) : Option Pkg := P.find? fun q => q.name == p

/-- The function or method and the package it is in. -/
def Prog.find (P : Prog) : FKey → Option (String × Func)
  | .fn p f => do
    let q ← P.pkg p
    let f ← q.funcs.lookup f
    pure (p, f)
  | .meth T m => P.findSome? fun q =>
      (q.meths.find? fun x => q.name ++ "." ++ x.1.1 == T && x.1.2 == m).map fun x => (q.name, x.2)

/-- The zero value of a type of a package that is not among the files: `scanner.Scanner` is a structure, the
others are interfaces (`io.ReadWriter`) or only pointed to. -/
def foreign (q n : String) : V := if q = "scanner" ∧ n = "Scanner" then .struct "scanner.Scanner" [] else .nil

/-- The number that a constant stands for; `k` bounds the number of names on the way. -/
def constNat (cs : List (String × Option Ty × Expr)) : Nat → Expr → Option Nat
  | _, .int n => some n
  | k + 1, .id x => do
    let c ← cs.lookup x
    constNat cs k c.2
  | _, _ => none

/-- The number that a constant of a package stands for. -/
def Pkg.nat (q : Pkg) (e : Expr) : Option Nat := constNat q.consts (q.consts.length + 1) e

/-- The zero value of a type; `k` bounds the number of names on the way. -/
def zeroN (P : Prog) : Nat → String → Ty → Option V
  | 0, _, _ => none
  | k + 1, p, t =>
    match t with
    | .name n =>
      if n = "int" then some (.int 0)
      else if n = "uint32" then some (.u32 0)
      else if n = "int32" then some (.i32 0)
      else if n = "uint64" then some (.u64 0)
      else if n = "int64" then some (.i64 0)
      else if n = "bool" then some (.bool false)
      else if n = "string" then some (.str [])
      else if n = "error" then some .nil
      else do
        let q ← P.pkg p
        let t ← q.types.lookup n
        match t with
        | .struct fs => do
          let vs ← fs.mapM fun f => (zeroN P k p f.2).map (f.1, ·)
          pure (.struct (p ++ "." ++ n) vs)
        | t => zeroN P k p t
    | .qual q n => if (P.pkg q).isNone then some (foreign q n) else zeroN P k q (.name n)
    | .arr n (.name "byte") => some (.bytes (List.replicate n 0))
    | .arrc c (.name "byte") => do
      let q ← P.pkg p
      let n ← q.nat (.id c)
      pure (.bytes (List.replicate n 0))
    | .struct fs => do
      let vs ← fs.mapM fun f => (zeroN P k p f.2).map (f.1, ·)
      pure (.struct "" vs)
    | .arr _ _ | .arrc _ _ => none
    | .ptr _ | .slice _ | .map _ _ | .func _ _ | .iface => some .nil

mutual
/-- How deep structure types are nested in a type. -/
def Ty.depth : Ty → Nat
  | .struct fs => depths fs + 1
  | _ => 1
def depths : List (String × Ty) → Nat
  | [] => 0
  | f :: fs => max (depthF f) (depths fs)
def depthF : String × Ty → Nat
  | (_, t) => t.depth
end

/-- Enough steps for the zero value of any type that has one: every name costs at most as many as the deepest
declaration, and no name comes twice. -/
def Prog.fuel (P : Prog) (t : Ty) : Nat :=
  ((P.map (·.types.length)).sum + 1) * ((P.map fun q => depths q.types).sum + 1) + t.depth + 20

def Prog.zero (P : Prog) (p : String) (t : Ty) : Option V := zeroN P (P.fuel t) p t

/-- A constant of a package. -/
def Prog.const (P : Prog) (p x : String) : Option V := do
  let q ← P.pkg p
  match ← q.consts.lookup x with
  | (none, .int n) => pure (.const n)
  | (some _, .id "true") => pure (.bool true)
  | (some _, .id "false") => pure (.bool false)
  | (some t, e) => do pure (coerce (← P.zero p t) (.const (← q.nat e)))
  | _ => none

/-- Scopes, the innermost first. -/
abbrev Env := List (List (String × Nat))

def Env.find (ρ : Env) (x : String) : Option Nat := ρ.findSome? fun s => s.lookup x

/-- What the meaning of a program depends on. -/
structure Sem (ω : Type) where
  prog : Prog
  /-- calling a function of the files -/
  call : FKey → List V → M ω (List V)
  /-- anything else that can be called -/
  ext : String → List V → M ω (List V)
  /-- starting a goroutine -/
  spawn : FKey → List V → M ω Unit
  /-- the capacity of a new array, from the old capacity and the length needed -/
  grow : Nat → Nat → Nat
  /-- bound on iterations -/
  loops : Nat

/-! ### Operators -/

/-- An untyped operand takes the type of the other. -/
def unify (a b : V) : V × V := (coerce b a, coerce a b)

def eqV : V → V → Option Bool
  | .const a, .const b => some (a == b)
  | .int a, .int b => some (a == b)
  | .u32 a, .u32 b => some (a == b)
  | .i32 a, .i32 b => some (a == b)
  | .u64 a, .u64 b => some (a == b)
  | .i64 a, .i64 b => some (a == b)
  | .bool a, .bool b => some (a == b)
  | .str a, .str b => some (a == b)
  | .nil, .nil => some true
  | .nil, .ptr _ _ | .ptr _ _, .nil => some false
  | .nil, .slice _ | .slice _, .nil => some false
  | .nil, .map _ | .map _, .nil => some false
  | .nil, .err _ _ | .err _ _, .nil => some false
  | .nil, .fn _ | .fn _, .nil => some false
  | .nil, .obj _ | .obj _, .nil => some false
  | .nil, .struct _ _ | .struct _ _, .nil => some false   -- an interface that holds a structure
  | .glob a, .glob b => some (a == b)
  | _, _ => none

def ltV : V → V → Option Bool
  | .const a, .const b => some (decide (a < b))
  | .int a, .int b => some (decide (a < b))
  | .u32 a, .u32 b => some (decide (a < b))
  | .u64 a, .u64 b => some (decide (a < b))
  | _, _ => none

def arith (op : String) : V → V → Option V
  | .const a, .const b =>
    if op = "+" then some (.const (a + b))
    else if op = "-" then some (.const (a - b))
    else if op = "*" then some (.const (a * b))
    else if op = "<<" then if 0 ≤ b then some (.const (a * 2 ^ b.toNat)) else none
    else none
  | .int a, .int b =>
    if op = "+" then some (.int (a + b))
    else if op = "-" then some (.int (a - b))
    else if op = "*" then some (.int (a * b))
    else if op = "%" then if b = 0 then none else some (.int (a.tmod b))
    else none
  | .u32 a, .u32 b =>
    if op = "+" then some (.u32 (a + b))
    else if op = "-" then some (.u32 (a - b))
    else if op = "&" then some (.u32 (a &&& b))
    else if op = "|" then some (.u32 (a ||| b))
    else none
  | .u64 a, .u64 b => if op = "+" then some (.u64 (a + b)) else none
  | .str a, .str b => if op = "+" then some (.str (a ++ b)) else none
  | .glob a, .glob b => if op = "|" then some (.glob (a ++ "|" ++ b)) else none   -- `os.O_WRONLY|os.O_EXCL`
  | _, _ => none

def binop (op : String) (a b : V) : Option V :=
  let a' := (unify a b).1
  let b' := (unify a b).2
  if op = "==" then (eqV a' b').map .bool
  else if op = "!=" then (eqV a' b').map fun r => .bool (!r)
  else if op = "<" then (ltV a' b').map .bool
  else if op = ">" then (ltV b' a').map .bool
  else if op = "<=" then (ltV b' a').map fun r => .bool (!r)
  else if op = ">=" then (ltV a' b').map fun r => .bool (!r)
  else arith op a' b'

/-- Conversion to a type, given by a value of it. -/
def convert (target v : V) : Option V :=
  match target, v with
  | .int _, .const n => some (.int n)
  | .int _, .int n => some (.int n)
  | .int _, .u32 x => some (.int x.toNat)
  | .int _, .i32 x => some (.int x.toInt)
  | .int _, .u64 x => some (.int x.toInt64.toInt)
  | .int _, .i64 x => some (.int x.toInt)
  | .u32 _, .const n => some (.u32 (UInt32.ofInt n))
  | .u32 _, .int n => some (.u32 (UInt32.ofInt n))
  | .u32 _, .u32 x => some (.u32 x)
  | .u32 _, .i32 x => some (.u32 x.toUInt32)
  | .i32 _, .const n => some (.i32 (Int32.ofInt n))
  | .i32 _, .i32 x => some (.i32 x)
  | .i32 _, .u32 x => some (.i32 x.toInt32)
  | .u64 _, .const n => some (.u64 (UInt64.ofInt n))
  | .u64 _, .u64 x => some (.u64 x)
  | .u64 _, .i64 x => some (.u64 x.toUInt64)
  | .u64 _, .u32 x => some (.u64 x.toUInt64)
  | .i64 _, .const n => some (.i64 (Int64.ofInt n))
  | .i64 _, .i64 x => some (.i64 x)
  | .i64 _, .u64 x => some (.i64 x.toInt64)
  | .bool _, .bool b => some (.bool b)
  | .str _, .str s => some (.str s)
  | _, _ => none

/-! ### Built-in functions and the standard library -/

def strBytes (s : String) : List UInt8 := s.toList.map fun c => c.toNat.toUInt8

def lenV : V → M ω V
  | .nil => pure (.int 0)
  | .slice s => pure (.int s.len)
  | .str s => pure (.int s.length)
  | .bytes b => pure (.int b.length)
  | _ => stop .stuck

def capV : V → M ω V
  | .nil => pure (.int 0)
  | .slice s => pure (.int s.cap)
  | _ => stop .stuck

/-- `copy(dst, src)`. -/
def copyV (dst src : V) : M ω V := do
  let d ← bytesOf src
  match dst with
  | .nil => pure (.int 0)
  | .slice s => do
    let b ← arrayOf s
    let n := min s.len d.length
    storeRaw s.base (.bytes (overwrite b s.off (d.take n)))
    pure (.int n)
  | _ => stop .stuck

/-- A new array; its first `n` bytes as a slice. -/
def newSlice (b : List UInt8) (n : Nat) : M ω V := do
  let i ← alloc (.bytes b)
  pure (.slice ⟨⟨i, []⟩, 0, n, b.length⟩)

/-- `append(dst, src...)` on byte slices. -/
def appendV (grow : Nat → Nat → Nat) (dst src : V) : M ω V := do
  let d ← bytesOf src
  match dst with
  | .nil =>
    if d.isEmpty then pure .nil
    else newSlice (d ++ List.replicate (grow 0 d.length - d.length) 0) d.length
  | .slice s => do
    let b ← arrayOf s
    if s.len + d.length ≤ s.cap then do
      storeRaw s.base (.bytes (overwrite b (s.off + s.len) d))
      pure (.slice { s with len := s.len + d.length })
    else do
      let new := (b.drop s.off).take s.len ++ d
      newSlice (new ++ List.replicate (grow s.cap new.length - new.length) 0) new.length
  | _ => stop .stuck

/-- `append(dst, v)` on slices of anything but bytes. -/
def appendElem (grow : Nat → Nat → Nat) (dst v : V) : M ω V := do
  match dst with
  | .nil => do
    let i ← alloc (.vals (v :: List.replicate (grow 0 1 - 1) .nil))
    pure (.slice ⟨⟨i, []⟩, 0, 1, grow 0 1 - 1 + 1⟩)
  | .slice s => do
    match ← load s.base with
    | .vals l =>
      if s.off + s.cap ≤ l.length ∧ s.len ≤ s.cap then
        if s.len + 1 ≤ s.cap then do
          storeRaw s.base (.vals (l.set (s.off + s.len) v))
          pure (.slice { s with len := s.len + 1 })
        else do
          let new := (l.drop s.off).take s.len ++ [v]
          let i ← alloc (.vals (new ++ List.replicate (grow s.cap new.length - new.length) .nil))
          pure (.slice ⟨⟨i, []⟩, 0, new.length, grow s.cap new.length - new.length + new.length⟩)
      else stop .stuck
    | _ => stop .stuck
  | _ => stop .stuck

/-- `v[lo:hi:max]`; an array is given by its address. -/
def sliceV (v : V) (lo hi mx : Option Nat) : M ω V := do
  match v with
  | .nil => if lo.getD 0 = 0 ∧ hi.getD 0 = 0 ∧ mx.getD 0 = 0 then pure .nil else stop .panic
  | .str s =>
    if lo.getD 0 ≤ hi.getD s.length ∧ hi.getD s.length ≤ s.length ∧ mx.isNone then
      pure (.str ((s.drop (lo.getD 0)).take (hi.getD s.length - lo.getD 0)))
    else stop .panic
  | _ => do
    let s ← (match v with
      | .slice s => pure s
      | .ptr _ l => do
        match ← load l with
        | .bytes b => pure ⟨l, 0, b.length, b.length⟩
        | _ => stop .stuck
      | _ => stop .stuck)
    let lo := lo.getD 0
    let hi := hi.getD s.len
    let mx := mx.getD s.cap
    if lo ≤ hi ∧ hi ≤ mx ∧ mx ≤ s.cap then
      pure (.slice ⟨s.base, s.off + lo, hi - lo, mx - lo⟩)
    else stop .panic

/-- An index. -/
def natV : V → M ω Nat
  | .int n => if 0 ≤ n then pure n.toNat else stop .panic
  | .const n => if 0 ≤ n then pure n.toNat else stop .panic
  | .u32 x => pure x.toNat
  | .u64 x => pure x.toNat
  | _ => stop .stuck

/-- `make(t, n)`. -/
def makeV (P : Prog) (p : String) (t : Ty) (args : List V) : M ω V := do
  match t, args with
  | .slice (.name "byte"), [n] => do
    let n ← natV n
    newSlice (List.replicate n 0) n
  | .map _ _, [] => do
    let i ← alloc (.mapv [])
    pure (.map i)
  | .slice t, [n] => do
    let n ← natV n
    let z ← some! (P.zero p t)
    let i ← alloc (.vals (List.replicate n z))
    pure (.slice ⟨⟨i, []⟩, 0, n, n⟩)
  | _, _ => stop .stuck

def be32 (x : UInt32) : List UInt8 := [(x >>> 24).toUInt8, (x >>> 16).toUInt8, (x >>> 8).toUInt8, x.toUInt8]
def be64 (x : UInt64) : List UInt8 :=
  [(x >>> 56).toUInt8, (x >>> 48).toUInt8, (x >>> 40).toUInt8, (x >>> 32).toUInt8,
   (x >>> 24).toUInt8, (x >>> 16).toUInt8, (x >>> 8).toUInt8, x.toUInt8]

def ofBe32 : List UInt8 → Option UInt32
  | a :: b :: c :: d :: _ =>
    some (d.toUInt32 ||| (c.toUInt32 <<< 8) ||| (b.toUInt32 <<< 16) ||| (a.toUInt32 <<< 24))
  | _ => none

def ofBe64 : List UInt8 → Option UInt64
  | a :: b :: c :: d :: e :: f :: g :: h :: _ =>
    some (h.toUInt64 ||| (g.toUInt64 <<< 8) ||| (f.toUInt64 <<< 16) ||| (e.toUInt64 <<< 24) |||
      (d.toUInt64 <<< 32) ||| (c.toUInt64 <<< 40) ||| (b.toUInt64 <<< 48) ||| (a.toUInt64 <<< 56))
  | _ => none

/-- Writing to the beginning of a slice; panics if it is too short. -/
def putBytes (dst : V) (d : List UInt8) : M ω Unit := do
  match dst with
  | .slice s => do
    let b ← arrayOf s
    if d.length ≤ s.len then storeRaw s.base (.bytes (overwrite b s.off d)) else stop .panic
  | _ => stop .panic

/-- `binary.BigEndian.m(args)`. -/
def bigEndian (m : String) (args : List V) : M ω (List V) := do
  if m = "PutUint32" then
    match args with
    | [dst, x] =>
      match coerce (.u32 0) x with
      | .u32 x => do putBytes dst (be32 x); pure []
      | _ => stop .stuck
    | _ => stop .stuck
  else if m = "PutUint64" then
    match args with
    | [dst, x] =>
      match coerce (.u64 0) x with
      | .u64 x => do putBytes dst (be64 x); pure []
      | _ => stop .stuck
    | _ => stop .stuck
  else if m = "Uint32" then
    match args with
    | [src] => do
      match ofBe32 (← bytesOf src) with
      | some x => pure [.u32 x]
      | none => stop .panic
    | _ => stop .stuck
  else if m = "Uint64" then
    match args with
    | [src] => do
      match ofBe64 (← bytesOf src) with
      | some x => pure [.u64 x]
      | none => stop .panic
    | _ => stop .stuck
  else stop .stuck

def builtins : List String := ["len", "cap", "copy", "append", "panic", "string"]

def builtin (grow : Nat → Nat → Nat) (f : String) (args : List V) (spread : Bool) : M ω (List V) := do
  if f = "len" then
    match args with
    | [v] => do pure [← lenV v]
    | _ => stop .stuck
  else if f = "cap" then
    match args with
    | [v] => do pure [← capV v]
    | _ => stop .stuck
  else if f = "copy" then
    match args with
    | [a, b] => do pure [← copyV a b]
    | _ => stop .stuck
  else if f = "append" then
    match args, spread with
    | [a, b], true => do pure [← appendV grow a b]
    | [a, b], false => do pure [← appendElem grow a b]
    | _, _ => stop .stuck
  else if f = "string" then
    match args with
    | [v] => do pure [.str (← bytesOf v)]
    | _ => stop .stuck
  else stop .panic

/-- Conversion `t(v)`. -/
def convertV (P : Prog) (p : String) (t : Ty) (args : List V) : M ω (List V) := do
  match args with
  | [v] =>
    match t, v with
    | .slice (.name "byte"), .str s => do pure [← newSlice s s.length]
    | .slice (.name "byte"), v => pure [v]
    | .ptr (.name n), .ptr _ l => pure [.ptr (p ++ "." ++ n) l]
    | .ptr (.qual q n), .ptr _ l => pure [.ptr (q ++ "." ++ n) l]
    | .ptr (.slice _), .ptr _ l => pure [.ptr "" l]
    | t, v => do
      let z ← some! (P.zero p t)
      pure [← some! (convert z v)]
  | _ => stop .stuck

/-- A type name of the package, or a basic one. -/
def isType (P : Prog) (p x : String) : Bool :=
  ["int", "uint32", "int32", "uint64", "int64", "bool"].contains x ||
    ((P.pkg p).bind fun q => q.types.lookup x).isSome

/-- The parts of a format between its verbs, which are all `%s`. -/
def pieces : List UInt8 → Option (List (List UInt8))
  | [] => some [[]]
  | c :: t =>
    if c = 37 then
      match t with
      | d :: t => if d = 115 then (pieces t).map ([] :: ·) else none
      | [] => none
    else
      match pieces t with
      | some (p :: ps) => some ((c :: p) :: ps)
      | _ => none

/-- The parts with the operands, which are all strings, between them. -/
def weave : List (List UInt8) → List V → Option (List UInt8)
  | [p], [] => some p
  | p :: ps, .str s :: vs => (weave ps vs).map fun r => p ++ s ++ r
  | _, _ => none

/-- `fmt.Sprintf`. -/
def sprintf (f : List UInt8) (vs : List V) : Option (List UInt8) := do weave (← pieces f) vs

/-- `strings.ToUpper` of an ASCII letter. -/
def upper (c : UInt8) : UInt8 := if 97 ≤ c ∧ c ≤ 122 then c - 32 else c

/-- `q.f(args)` for a package `q`. -/
def callPkg (S : Sem ω) (q f : String) (args : List V) : M ω (List V) := do
  if q = "errors" ∧ f = "New" then
    match args with
    | [.str s] => pure [.err s []]
    | _ => stop .stuck
  else if q = "fmt" ∧ f = "Errorf" then
    match args with
    | .str s :: vs => pure [.err s vs]
    | _ => stop .stuck
  else if q = "fmt" ∧ f = "Sprintf" then
    match args with
    | .str s :: vs => do pure [.str (← some! (sprintf s vs))]
    | _ => stop .stuck
  else if q = "strings" ∧ f = "ToUpper" then
    match args with
    | [.str s] => if s.all (· < 128) then pure [.str (s.map upper)] else stop .stuck
    | _ => stop .stuck
  else
    if (S.prog.pkg q).isNone then S.ext (q ++ "." ++ f) args
    else if isType S.prog q f then convertV S.prog q (.name f) args
    else S.call (.fn q f) args

/-- A method call. -/
def callMeth (S : Sem ω) (recv : V) (m : String) (args : List V) : M ω (List V) := do
  match recv with
  | .ptr T l =>
    if T = "" then
      match ← load l with
      | .struct T _ => S.call (.meth T m) (recv :: args)
      | _ => stop .stuck
    else S.call (.meth T m) (recv :: args)
  | .struct T _ => S.call (.meth T m) (recv :: args)
  | .obj _ => S.ext m (recv :: args)
  | .glob _ => S.ext m (recv :: args)
  | .nil => stop .panic
  | _ => stop .stuck

/-- Calling a function value. -/
def callVal (S : Sem ω) (f : V) (args : List V) : M ω (List V) :=
  match f with
  | .fn k => S.call k args
  | .bound k v => S.call k (v :: args)
  | .obj _ => S.ext "()" (f :: args)
  | .nil => stop .panic
  | _ => stop .stuck

/-- Is the receiver of the method a copy (and not a pointer)? -/
def byValue (P : Prog) (T m : String) : Bool :=
  match P.find (.meth T m) with
  | some (_, ⟨some (_, .name _), _, _, _, _⟩) => true
  | _ => false

/-- The only value. -/
def one : List V → M ω V
  | [v] => pure v
  | _ => stop .stuck

/-- Does the package import it? -/
def isImport (P : Prog) (p x : String) : Bool :=
  match P.pkg p with
  | some q => q.imports.contains x
  | none => false

/-- The package that an expression names, if it does. -/
def pkgName (P : Prog) (p : String) (ρ : Env) : Expr → Option String
  | .id x =>
    match ρ.find x with
    | some _ => none
    | none => if isImport P p x then some x else none
  | _ => none

/-- A variable of the package. -/
def isVar (P : Prog) (p x : String) : Bool :=
  match P.pkg p with
  | some q => q.vars.contains x
  | none => false

/-- The type an expression names. -/
def tyOf : Expr → Option Ty
  | .id x => some (.name x)
  | .sel (.id p) x => some (.qual p x)
  | .ty t => some t
  | _ => none

/-- The type in `new(T)`. -/
def newArg : List Expr → Option Ty
  | [e] => tyOf e
  | _ => none

/-- Is it `binary.BigEndian`? -/
def isBE : Expr → Bool
  | .sel (.id x) f => x == "binary" && f == "BigEndian"
  | _ => false

/-- `v[k]`. -/
def indexV (v k : V) : M ω V := do
  match v with
  | .nil => stop .panic
  | .slice s => do
    let i ← natV k
    match ← load s.base with
    | .vals l => if i < s.len then some! l[s.off + i]? else stop .panic
    | _ => stop .stuck
  | _ => stop .stuck

/-- The place of `v[k]`. -/
def elemV (v k : V) : M ω Loc := do
  match v with
  | .nil => stop .panic
  | .slice s => do
    let i ← natV k
    if i < s.len then pure (s.base.field (stroke (s.off + i))) else stop .panic
  | _ => stop .stuck

/-- `v, ok := m[k]`. -/
def lookupV (m k : V) : M ω (List V) := do
  match coerce (.u32 0) k with
  | .u32 k =>
    match m with
    | .nil => pure [.nil, .bool false]
    | .map i => do
      match ← load ⟨i, []⟩ with
      | .mapv kvs =>
        match kvs.lookup k with
        | some v => pure [v, .bool true]
        | none => pure [.nil, .bool false]
      | _ => stop .stuck
    | _ => stop .stuck
  | _ => stop .stuck

/-- `m[k] = v`. -/
def updateV (m k v : V) : M ω Unit := do
  match coerce (.u32 0) k with
  | .u32 k =>
    match m with
    | .nil => stop .panic
    | .map i => do
      match ← load ⟨i, []⟩ with
      | .mapv kvs => storeRaw ⟨i, []⟩ (.mapv ((k, v) :: kvs))
      | _ => stop .stuck
    | _ => stop .stuck
  | _ => stop .stuck

/-- The value of a variable, constant or function. -/
def evalId (S : Sem ω) (p : String) (ρ : Env) (x : String) : M ω V :=
  match ρ.find x with
  | some i => load ⟨i, []⟩
  | none =>
    match S.prog.const p x with
    | some v => pure v
    | none =>
      if x = "nil" then pure .nil
      else if x = "true" then pure (.bool true)
      else if x = "false" then pure (.bool false)
      else if isVar S.prog p x then pure (.glob (p ++ "." ++ x))
      else if (S.prog.find (.fn p x)).isSome then pure (.fn (.fn p x))
      else stop .stuck

/-- A constant or variable of another package. -/
def evalMember (S : Sem ω) (q x : String) : M ω V :=
  if q = "math" ∧ x = "MaxUint32" then pure (.const 4294967295)
  else
    match S.prog.const q x with
    | some v => pure v
    | none => pure (.glob (q ++ "." ++ x))

/-- A field of a structure or of what is pointed to. -/
def evalField (v : V) (f : String) : M ω V :=
  match v with
  | .ptr _ l => load (l.field f)
  | .nil => stop .panic
  | v => some! (v.field f)

/-- The fields that the elements of a composite literal are for: those of the type in turn if there are no
keys. -/
def fieldNames (fs : List String) (z : V) : List String :=
  if fs.headD "_" = "" then
    match z with
    | .struct _ l => l.map (·.1)
    | _ => fs
  else fs

/-- The fields of a composite literal. -/
def setFields : List String → List V → V → Option V
  | [], [], s => some s
  | f :: fs, v :: vs, s => do
    let old ← s.field f
    let s ← V.put (coerce old v) s [f]
    setFields fs vs s
  | _, _, _ => none

mutual
/-- The values of an expression; a call may have any number. -/
def evalM (S : Sem ω) (p : String) (ρ : Env) : Expr → M ω (List V)
  | .id x => do pure [← evalId S p ρ x]
  | .int n => pure [.const n]
  | .str s => pure [.str (strBytes s)]
  | .sel e f =>
    match pkgName S.prog p ρ e with
    | some q => do pure [← evalMember S q f]
    | none => do
      let v ← (evalM S p ρ e >>= one)
      pure [← evalField v f]
  | .idx e i => do
    let v ← (evalM S p ρ e >>= one)
    let k ← (evalM S p ρ i >>= one)
    match v with
    | .map _ => do
      match ← lookupV v k with
      | r :: _ => pure [r]
      | [] => stop .stuck
    | _ => do pure [← indexV v k]
  | .slc e lo hi mx => do
    let v ← (evalM S p ρ e >>= one)
    let v ← (match v with
      | .bytes _ => do pure (.ptr "" (← addr S p ρ e))
      | v => pure v)
    let lo ← evalBound S p ρ lo
    let hi ← evalBound S p ρ hi
    let mx ← evalBound S p ρ mx
    pure [← sliceV v lo hi mx]
  | .call (.id f) args spread =>
    match ρ.find f with
    | some i => do
      let fv ← load ⟨i, []⟩
      let vs ← evalArgs S p ρ args
      callVal S fv vs
    | none =>
      if f = "make" then
        match args with
        | .ty t :: args => do
          let vs ← evalArgs S p ρ args
          pure [← makeV S.prog p t vs]
        | _ => stop .stuck
      else if f = "new" then
        match newArg args with
        | some t => do
          let z ← some! (S.prog.zero p t)
          let i ← alloc z
          pure [.ptr "" ⟨i, []⟩]
        | none => stop .stuck
      else do
        let vs ← evalArgs S p ρ args
        if builtins.contains f then builtin S.grow f vs spread
        else if isType S.prog p f then convertV S.prog p (.name f) vs
        else S.call (.fn p f) vs
  | .call (.sel e m) args _ =>
    if isBE e then do
      let vs ← evalArgs S p ρ args
      bigEndian m vs
    else
      match pkgName S.prog p ρ e with
      | some q => do
        let vs ← evalArgs S p ρ args
        callPkg S q m vs
      | none => do
        let v ← (evalM S p ρ e >>= one)
        let r ← (match v with
          | .struct T _ => if byValue S.prog T m then pure v else do pure (.ptr T (← addr S p ρ e))
          | v => pure v)
        let vs ← evalArgs S p ρ args
        callMeth S r m vs
  | .call (.un op t) args _ =>
    if op = "*" then
      match tyOf t with
      | some t => do
        let vs ← evalArgs S p ρ args
        convertV S.prog p (.ptr t) vs
      | none => stop .stuck
    else stop .stuck
  | .call (.ty t) args _ => do
    let vs ← evalArgs S p ρ args
    convertV S.prog p t vs
  | .call _ _ _ => stop .stuck
  | .un op e =>
    if op = "&" then
      match e with
      | .lit t fs es => do
        let z ← some! (S.prog.zero p t)
        let vs ← evalArgs S p ρ es
        let v ← some! (setFields (fieldNames fs z) vs z)
        let i ← alloc v
        pure [.ptr "" ⟨i, []⟩]
      | e => do pure [.ptr "" (← addr S p ρ e)]
    else if op = "*" then do
      match ← (evalM S p ρ e >>= one) with
      | .ptr _ l => do pure [← load l]
      | .nil => stop .panic
      | .glob x => do pure [← (S.ext "*" [.glob x] >>= one)]
      | _ => stop .stuck
    else if op = "!" then do
      match ← (evalM S p ρ e >>= one) with
      | .bool b => pure [.bool (!b)]
      | _ => stop .stuck
    else if op = "-" then do
      match ← (evalM S p ρ e >>= one) with
      | .const n => pure [.const (-n)]
      | _ => stop .stuck
    else stop .stuck
  | .bin op a b =>
    if op = "&&" then do
      match ← (evalM S p ρ a >>= one) with
      | .bool true => evalM S p ρ b
      | .bool false => pure [.bool false]
      | _ => stop .stuck
    else if op = "||" then do
      match ← (evalM S p ρ a >>= one) with
      | .bool true => pure [.bool true]
      | .bool false => evalM S p ρ b
      | _ => stop .stuck
    else do
      let x ← (evalM S p ρ a >>= one)
      let y ← (evalM S p ρ b >>= one)
      pure [← some! (binop op x y)]
  | .lit (.slice _) _ es => do
    let vs ← evalArgs S p ρ es
    let i ← alloc (.vals vs)
    pure [.slice ⟨⟨i, []⟩, 0, vs.length, vs.length⟩]
  | .lit t fs es => do
    let z ← some! (S.prog.zero p t)
    let vs ← evalArgs S p ρ es
    pure [← some! (setFields (fieldNames fs z) vs z)]
  | .ty _ => stop .stuck
  | .assert e _ => evalM S p ρ e
  | .mval T e m => do
    let v ← (evalM S p ρ e >>= one)
    pure [.bound (.meth (p ++ "." ++ T) m) v]

/-- The place an expression stands for. -/
def addr (S : Sem ω) (p : String) (ρ : Env) : Expr → M ω Loc
  | .id x =>
    match ρ.find x with
    | some i => pure ⟨i, []⟩
    | none => stop .stuck
  | .sel e f => do
    match ← (evalM S p ρ e >>= one) with
    | .ptr _ l => pure (l.field f)
    | .nil => stop .panic
    | _ => do
      let l ← addr S p ρ e
      pure (l.field f)
  | .idx e i => do
    let v ← (evalM S p ρ e >>= one)
    let k ← (evalM S p ρ i >>= one)
    elemV v k
  | .un op e =>
    if op = "*" then do
      match ← (evalM S p ρ e >>= one) with
      | .ptr _ l => pure l
      | .nil => stop .panic
      | _ => stop .stuck
    else stop .stuck
  | _ => stop .stuck

def evalArgs (S : Sem ω) (p : String) (ρ : Env) : List Expr → M ω (List V)
  | [] => pure []
  | e :: es => do
    let v ← (evalM S p ρ e >>= one)
    let vs ← evalArgs S p ρ es
    pure (v :: vs)

def evalBound (S : Sem ω) (p : String) (ρ : Env) : Option Expr → M ω (Option Nat)
  | none => pure none
  | some e => do
    let v ← (evalM S p ρ e >>= one)
    pure (some (← natV v))
end

/-- What follows a statement. -/
inductive Ctl where
  | next
  | ret (vs : List V)
  | goto (l : String)

/-- The values of the right-hand side of an assignment to `n` variables. -/
def evalRhs (S : Sem ω) (p : String) (ρ : Env) (n : Nat) (es : List Expr) : M ω (List V) :=
  match n, es with
  | 2, [.idx e i] => do
    let v ← (evalM S p ρ e >>= one)
    let k ← (evalM S p ρ i >>= one)
    lookupV v k
  | _, [e] => evalM S p ρ e
  | _, es => evalArgs S p ρ es

/-- `e = v`. -/
def assignTo (S : Sem ω) (p : String) (ρ : Env) (e : Expr) (v : V) : M ω Unit :=
  match e with
  | .idx e i => do
    let m ← (evalM S p ρ e >>= one)
    let k ← (evalM S p ρ i >>= one)
    updateV m k v
  | .id "_" => pure ()
  | .id x =>
    match ρ.find x with
    | some i => store ⟨i, []⟩ v
    | none =>
      if isVar S.prog p x then do
        let _ ← S.ext "=" [.glob (p ++ "." ++ x), v]
        pure ()
      else stop .stuck
  | e => do
    let l ← addr S p ρ e
    store l v

def assignAll (S : Sem ω) (p : String) (ρ : Env) : List Expr → List V → M ω Unit
  | [], [] => pure ()
  | e :: es, v :: vs => do
    assignTo S p ρ e v
    assignAll S p ρ es vs
  | _, _ => stop .stuck

/-- Declares a variable in the innermost scope. -/
def declare (x : String) (v : V) (ρ : Env) : M ω Env := do
  let i ← alloc v
  match ρ with
  | s :: ρ => pure (((x, i) :: s) :: ρ)
  | [] => stop .stuck

/-- `x := v`: variables of the innermost scope are assigned, others declared. -/
def define (x : String) (v : V) (ρ : Env) : M ω Env :=
  if x = "_" then pure ρ
  else
    match (ρ.headD []).lookup x with
    | some i => do store ⟨i, []⟩ v; pure ρ
    | none => declare x (coerce (.int 0) v) ρ

def defineAll : List String → List V → Env → M ω Env
  | [], [], ρ => pure ρ
  | x :: xs, v :: vs, ρ => do
    let ρ ← define x v ρ
    defineAll xs vs ρ
  | _, _, _ => stop .stuck

/-- `var x … T`. -/
def declareAll (v : V) : List String → Env → M ω Env
  | [], ρ => pure ρ
  | x :: xs, ρ => do
    let ρ ← declare x v ρ
    declareAll v xs ρ

/-- At most `n` times. -/
def repeatM (n : Nat) (m : M ω Ctl) : M ω Ctl :=
  match n with
  | 0 => stop .fuel
  | n + 1 => do
    match ← m with
    | .next => repeatM n m
    | c => pure c

/-- For every element. -/
def rangeM (f : Nat → V → M ω Ctl) : Nat → List V → M ω Ctl
  | _, [] => pure .next
  | i, v :: vs => do
    match ← f i v with
    | .next => rangeM f (i + 1) vs
    | c => pure c

/-- The elements of a slice. -/
def elemsV : V → M ω (List V)
  | .nil => pure []
  | .slice s => do
    match ← load s.base with
    | .vals l => pure ((l.drop s.off).take s.len)
    | _ => stop .stuck
  | _ => stop .stuck

/-- Does one of the expressions have the value? -/
def anyCase (S : Sem ω) (p : String) (ρ : Env) (v : V) : List Expr → M ω Bool
  | [] => pure false
  | e :: es => do
    let w ← (evalM S p ρ e >>= one)
    match ← some! (binop "==" v w) with
    | .bool true => pure true
    | _ => anyCase S p ρ v es

/-- The clause that is chosen: the first with the value, else the default. -/
def choose (S : Sem ω) (p : String) (ρ : Env) (v : V) : Nat → Option Nat → List (List Expr) → M ω (Option Nat)
  | _, d, [] => pure d
  | i, _, [] :: cs => choose S p ρ v (i + 1) (some i) cs
  | i, d, (e :: es) :: cs => do
    if ← anyCase S p ρ v (e :: es) then pure (some i)
    else choose S p ρ v (i + 1) d cs

/-- Is the type that the value of an interface is of the one given? -/
def hasType (p : String) : V → Ty → Option Bool
  | .struct T _, .name n => some (T == p ++ "." ++ n)
  | .nil, .name n => some (n == "nil")
  | _, _ => none

/-- Is it one of the types? -/
def anyType (p : String) (v : V) : List Ty → Option Bool
  | [] => some false
  | t :: ts => do if ← hasType p v t then pure true else anyType p v ts

/-- The clause of a type switch that is chosen. -/
def chooseT (p : String) (v : V) : Nat → Option Nat → List (List Ty) → Option (Option Nat)
  | _, d, [] => some d
  | i, _, [] :: cs => chooseT p v (i + 1) (some i) cs
  | i, d, (t :: ts) :: cs => do
    if ← anyType p v (t :: ts) then pure (some i) else chooseT p v (i + 1) d cs

/-- What a deferred or `go` call calls, and with what. -/
def callee (S : Sem ω) (p : String) (ρ : Env) : Expr → M ω (FKey × List V)
  | .call (.id f) args _ => do
    let vs ← evalArgs S p ρ args
    pure (.fn p f, vs)
  | .call (.sel e m) args _ =>
    match pkgName S.prog p ρ e with
    | some q => do
      let vs ← evalArgs S p ρ args
      pure (.fn q m, vs)
    | none => do
      let v ← (evalM S p ρ e >>= one)
      let vs ← evalArgs S p ρ args
      match v with
      | .ptr T l =>
        if T = "" then
          match ← load l with
          | .struct T _ => pure (.meth T m, v :: vs)
          | _ => stop .stuck
        else pure (.meth T m, v :: vs)
      | _ => stop .stuck
  | _ => stop .stuck

def pushDefer (c : FKey × List V) : M ω Unit := fun st => .ok ((), { st with defers := c :: st.defers })

mutual
def exec (S : Sem ω) (p : String) : Stmt → Env → M ω (Env × Ctl)
  | .expr e, ρ => do
    let _ ← evalM S p ρ e
    pure (ρ, .next)
  | .define xs es, ρ => do
    let vs ← evalRhs S p ρ xs.length es
    let ρ ← defineAll xs vs ρ
    pure (ρ, .next)
  | .assign ls es, ρ => do
    let vs ← evalRhs S p ρ ls.length es
    assignAll S p ρ ls vs
    pure (ρ, .next)
  | .inc e, ρ => do
    let l ← addr S p ρ e
    let v ← load l
    store l (← some! (binop "+" v (.const 1)))
    pure (ρ, .next)
  | .var xs t, ρ => do
    let z ← some! (S.prog.zero p t)
    let ρ ← declareAll z xs ρ
    pure (ρ, .next)
  | .ite c a b, ρ => do
    match ← (evalM S p ρ c >>= one) with
    | .bool true => do
      let r ← execs S p a ([] :: ρ) .next
      pure (ρ, r.2)
    | .bool false => do
      let r ← execs S p b ([] :: ρ) .next
      pure (ρ, r.2)
    | _ => stop .stuck
  | .forever b, ρ => do
    let c ← repeatM S.loops (do
      let r ← execs S p b ([] :: ρ) .next
      pure r.2)
    pure (ρ, c)
  | .range k v e b, ρ => do
    let l ← (evalM S p ρ e >>= one)
    let vs ← elemsV l
    let c ← rangeM (fun i w => do
      let ρ' ← define k (.int i) ([] :: ρ)
      let ρ' ← define v w ρ'
      let r ← execs S p b ([] :: ρ') .next
      pure r.2) 0 vs
    pure (ρ, c)
  | .loop i c q b, ρ => do
    let r ← exec S p i ([] :: ρ)
    let d ← repeatM S.loops (do
      match ← (evalM S p r.1 c >>= one) with
      | .bool true => do
        let s ← execs S p b ([] :: r.1) .next
        match s.2 with
        | .next => do
          let _ ← exec S p q r.1
          pure .next
        | d => pure d
      | _ => pure (.goto ""))
    pure (ρ, match d with | .goto "" => .next | d => d)
  | .switch e cs bs, ρ => do
    let v ← (evalM S p ρ e >>= one)
    match ← choose S p ρ v 0 none cs with
    | none => pure (ρ, .next)
    | some i => do
      let r ← execNth S p bs i ρ
      pure (ρ, r)
  | .tswitch x e cs bs, ρ => do
    let v ← (evalM S p ρ e >>= one)
    match ← some! (chooseT p v 0 none cs) with
    | none => pure (ρ, .next)
    | some i =>
      if x = "" then do
        let r ← execNth S p bs i ρ
        pure (ρ, r)
      else do
        let ρ' ← declare x v ([] :: ρ)
        let r ← execNth S p bs i ρ'
        pure (ρ, r)
  | .ret es, ρ => do
    let vs ← evalRhs S p ρ es.length es
    pure (ρ, .ret vs)
  | .goto l, ρ => pure (ρ, .goto l)
  | .label _, ρ => pure (ρ, .next)
  | .go e, ρ => do
    let c ← callee S p ρ e
    S.spawn c.1 c.2
    pure (ρ, .next)
  | .defer e, ρ => do
    let c ← callee S p ρ e
    pushDefer c
    pure (ρ, .next)
  | .block b, ρ => do
    let r ← execs S p b ([] :: ρ) .next
    pure (ρ, r.2)

/-- Statements in turn; after a `goto` those up to its label are skipped. -/
def execs (S : Sem ω) (p : String) : List Stmt → Env → Ctl → M ω (Env × Ctl)
  | [], ρ, c => pure (ρ, c)
  | s :: b, ρ, .next => do
    let r ← exec S p s ρ
    execs S p b r.1 r.2
  | .label l :: b, ρ, .goto l' => execs S p b ρ (if l = l' then .next else .goto l')
  | _ :: b, ρ, c => execs S p b ρ c

def execNth (S : Sem ω) (p : String) : List (List Stmt) → Nat → Env → M ω Ctl
  | [], _, _ => stop .stuck
  | b :: _, 0, ρ => do
    let r ← execs S p b ([] :: ρ) .next
    pure r.2
  | _ :: bs, i + 1, ρ => execNth S p bs i ρ
end

/-- Parameters are new variables. -/
def bindParams (P : Prog) (p : String) : List (String × Ty) → List V → Env → M ω Env
  | [], [], ρ => pure ρ
  | (x, t) :: ps, v :: vs, ρ => do
    let z ← some! (P.zero p t)
    let ρ ← declare x (coerce z v) ρ
    bindParams P p ps vs ρ
  | _, _, _ => stop .stuck

/-- Named results are variables, initially zero. -/
def bindResults (P : Prog) (p : String) : List (String × Ty) → Env → M ω Env
  | [], ρ => pure ρ
  | (x, t) :: rs, ρ =>
    if x = "" then bindResults P p rs ρ
    else do
      let z ← some! (P.zero p t)
      let ρ ← declare x z ρ
      bindResults P p rs ρ

/-- `m`, then `d`, which also runs if `m` panics; the panic then goes on. -/
def finally' {α : Type} (m : M ω α) (d : M ω Unit) : M ω α := fun st =>
  match m st with
  | .ok (a, st) => (d >>= fun _ => pure a) st
  | .error (.panic, st) => (d >>= fun _ => stop .panic) st
  | .error e => .error e

/-- The deferred calls; one that panics does not keep the others from running. -/
def runDefers (S : Sem ω) : List (FKey × List V) → M ω Unit
  | [] => pure ()
  | (k, vs) :: ds => finally' (S.call k vs >>= fun _ => pure ()) (runDefers S ds)

def getDefers : M ω (List (FKey × List V)) := fun st => .ok (st.defers, st)
def setDefers (ds : List (FKey × List V)) : M ω Unit := fun st => .ok ((), { st with defers := ds })

/-- The values a function returns: untyped constants take the type of the result. -/
def results (P : Prog) (p : String) : List (String × Ty) → List V → M ω (List V)
  | [], [] => pure []
  | (_, t) :: rs, v :: vs => do
    let z ← some! (P.zero p t)
    let vs ← results P p rs vs
    pure (coerce z v :: vs)
  | _, _ => stop .stuck

/-- The named results. -/
def namedResults (ρ : Env) : List (String × Ty) → M ω (List V)
  | [] => pure []
  | (x, _) :: rs => do
    let i ← some! (ρ.find x)
    let v ← load ⟨i, []⟩
    let vs ← namedResults ρ rs
    pure (v :: vs)

/-- What a function returns. -/
def finish (S : Sem ω) (p : String) (ρ : Env) (f : Func) (c : Ctl) : M ω (List V) :=
  match c with
  | .ret [] => namedResults ρ f.results
  | .ret vs => results S.prog p f.results vs
  | .next => if f.results.isEmpty then pure [] else stop .stuck
  | .goto _ => stop .stuck

/-- Receiver and parameters. -/
def Func.args (f : Func) : List (String × Ty) :=
  match f.recv with
  | some r => r :: f.params
  | none => f.params

/-- The body of a function. -/
def runBody (S : Sem ω) (p : String) (f : Func) (args : List V) : M ω (List V) := do
  let ρ ← bindParams S.prog p f.args args [[]]
  let ρ ← bindResults S.prog p f.results ρ
  let r ← execs S p f.body ρ .next
  finish S p ρ f r.2

/-- Calling a function that is in package `p`: its body, then the calls that it deferred. -/
def callFunc (S : Sem ω) (p : String) (f : Func) (args : List V) : M ω (List V) := do
  let outer ← getDefers
  setDefers []
  finally' (runBody S p f args) (do
    let ds ← getDefers
    runDefers S ds
    setDefers outer)

/-- The parameters that a caller chooses. -/
structure Ext (ω : Type) where
  ext : String → List V → M ω (List V)
  spawn : FKey → List V → M ω Unit
  grow : Nat → Nat → Nat
  loops : Nat

def FKey.name : FKey → String
  | .fn p f => p ++ "." ++ f
  | .meth T m => T ++ "." ++ m

/-- Calls nested at most `k` deep.  What is not in the files is called outside. -/
def callN (P : Prog) (E : Ext ω) : Nat → FKey → List V → M ω (List V)
  | 0, _, _ => stop .fuel
  | k + 1, key, args =>
    match P.find key with
    | some (p, f) => callFunc ⟨P, callN P E k, E.ext, E.spawn, E.grow, E.loops⟩ p f args
    | none => E.ext key.name args

end

end Verif.Lang
