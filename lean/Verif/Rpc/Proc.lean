/-
Resumptions: the code of a request goroutine as a tree of atomic actions on the shared state of the
handlers.  Every action sees the current contents `V` of the memory its input lives in, because Go
code that was handed a slice reads that memory when it runs, not when it was handed the slice.

This is a modelling device, not a definition of /repo: the code of `handleReqErr` (server.go:107-182)
is written with it in `Verif.Rpc.Server`.  Handlers that do not return are not represented.
-/
namespace Verif.Rpc

/-- A terminating computation with result `α`, whose actions read the live memory `V` and read and
write the shared state `σ`. -/
inductive Proc (V σ α : Type) where
  | ret (a : α) : Proc V σ α
  | act (upd : V → σ → σ) (next : V → σ → Proc V σ α) : Proc V σ α

namespace Proc
variable {V W σ α β : Type}

/-- Run to completion without interference, on memory that does not change. -/
def run : Proc V σ α → V → σ → σ × α
  | .ret a, _, s => (s, a)
  | .act u n, v, s => (n v s).run v (u v s)

def bind : Proc V σ α → (α → Proc V σ β) → Proc V σ β
  | .ret a, f => f a
  | .act u n, f => .act u fun v s => (n v s).bind f

/-- The same computation on memory of which it sees the part `f`. -/
def comap (f : V → W) : Proc W σ α → Proc V σ α
  | .ret a => .ret a
  | .act u n => .act (fun v => u (f v)) fun v s => (n (f v) s).comap f

/-- One atomic action with a result. -/
def atom (g : V → σ → σ × α) : Proc V σ α :=
  .act (fun v s => (g v s).1) fun v s => .ret (g v s).2

theorem run_bind (p : Proc V σ α) (f : α → Proc V σ β) (v : V) (s : σ) :
    (p.bind f).run v s = (f (p.run v s).2).run v (p.run v s).1 := by
  induction p generalizing s with
  | ret a => rfl
  | act u n ih => simp only [bind, run]; exact ih v s (u v s)

theorem run_comap (f : V → W) (p : Proc W σ α) (v : V) (s : σ) :
    (p.comap f).run v s = p.run (f v) s := by
  induction p generalizing s with
  | ret a => rfl
  | act u n ih => simp only [comap, run]; exact ih (f v) s (u (f v) s)

@[simp] theorem run_atom (g : V → σ → σ × α) (v : V) (s : σ) : (atom g).run v s = g v s := rfl

end Proc
end Verif.Rpc
