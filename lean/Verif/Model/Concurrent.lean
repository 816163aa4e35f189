import Verif.Model.Basic
/-
Threads on a shared memory: what the parallel example programs (rayon) may do.  A thread is a tree of accesses to single elements of the
memory; an execution interleaves the accesses of the threads in any order (sequentially consistent; rayon's own synchronization only
removes executions).
-/
namespace PackedSimd

/-- A thread: it loads from and stores to elements of a shared memory and computes in between. -/
inductive Prog (α β : Type) where
  | ret (b : β)
  | fault (f : Fault)
  | load (i : Nat) (k : α → Prog α β)
  | store (i : Nat) (x : α) (k : Prog α β)

namespace Prog
variable {α β γ : Type}

def bind : Prog α β → (β → Prog α γ) → Prog α γ
  | .ret b, f => f b
  | .fault e, _ => .fault e
  | .load i k, f => .load i fun x => (k x).bind f
  | .store i x k, f => .store i x (k.bind f)

instance : Monad (Prog α) where
  pure := .ret
  bind := bind

/-- A computation without memory accesses. -/
def lift : R β → Prog α β
  | .ok b => .ret b
  | .error e => .fault e

/-- Running a thread alone, to its end: its result and the memory it leaves.  An access outside of the memory is undefined behaviour. -/
def run : Prog α β → List α → R (β × List α)
  | .ret b, m => .ok (b, m)
  | .fault e, _ => .error e
  | .load i k, m => if h : i < m.length then (k m[i]).run m else .error .ub
  | .store i x k, m => if i < m.length then k.run (m.set i x) else .error .ub

/-- Running threads one after the other. -/
def runAll (ts : List (Prog α β)) (m : List α) : R (List α) := ts.foldlM (fun m t => (t.run m).map Prod.snd) m

end Prog

/-- Some thread makes one access. -/
inductive Step {α β : Type} : List (Prog α β) × List α → List (Prog α β) × List α → Prop where
  | load (ts : List (Prog α β)) (m : List α) (j i : Nat) (k : α → Prog α β) (h : ts[j]? = some (.load i k)) (hi : i < m.length) :
      Step (ts, m) (ts.set j (k m[i]), m)
  | store (ts : List (Prog α β)) (m : List α) (j i : Nat) (x : α) (k : Prog α β) (h : ts[j]? = some (.store i x k)) (hi : i < m.length) :
      Step (ts, m) (ts.set j k, m.set i x)

/-- A sequence of accesses. -/
inductive Steps {α β : Type} : List (Prog α β) × List α → List (Prog α β) × List α → Prop where
  | refl (c : List (Prog α β) × List α) : Steps c c
  | step (a b c : List (Prog α β) × List α) : Steps a b → Step b c → Steps a c

end PackedSimd
