import Verif.Model.Concurrent
/-
What can be said about threads on a shared memory.
-/
namespace PackedSimd.Spec

/-- The program accesses only elements of `O`, whatever values it loads. -/
def Confined {α β : Type} (O : Nat → Prop) : Prog α β → Prop
  | .ret _ => True
  | .fault _ => True
  | .load i k => O i ∧ ∀ x, Confined O (k x)
  | .store i _ k => O i ∧ Confined O k

/-- The element a thread is about to access, and whether it is about to write. -/
def nextAccess {α β : Type} : Prog α β → Option (Nat × Bool)
  | .load i _ => some (i, false)
  | .store i _ _ => some (i, true)
  | _ => none

/-- Two threads are about to access the same element and one of them to write it. -/
def Race {α β : Type} (ts : List (Prog α β)) : Prop :=
  ∃ (j j' : Nat) (t t' : Prog α β) (i : Nat) (a b : Bool), j ≠ j' ∧ ts[j]? = some t ∧ ts[j']? = some t' ∧ nextAccess t = some (i, a) ∧ nextAccess t' = some (i, b) ∧ (a || b) = true

/-- The thread has ended without fault. -/
def Done {α β : Type} (t : Prog α β) : Prop := ∃ b, t = .ret b

/-- All accesses of thread `j` are at elements of `O j`. -/
def AllConfined {α β : Type} (O : Nat → Nat → Prop) (ts : List (Prog α β)) : Prop := ∀ (j : Nat) t, ts[j]? = some t → Confined (O j) t
/-- No two threads own the same element. -/
def Disjoint (O : Nat → Nat → Prop) : Prop := ∀ j j' i, O j i → O j' i → j = j'

/-- Whatever the order of the accesses, there is never a race, no thread is ever stuck before its end, there is no infinite execution, and when all threads
have ended the memory is `final`. -/
def AlwaysEndsWith {α β : Type} (ts : List (Prog α β)) (m final : List α) : Prop :=
  (∀ c, Steps (ts, m) c → ¬ Race c.1 ∧ ((∃ c', Step c c') ∨ ((∀ t ∈ c.1, Done t) ∧ c.2 = final))) ∧
  ¬ ∃ f : Nat → List (Prog α β) × List α, f 0 = (ts, m) ∧ ∀ k, Step (f k) (f (k + 1))

/-- Whatever the order of the accesses, there is never a race and never an access outside of the memory. -/
def AlwaysSafe {α β : Type} (ts : List (Prog α β)) (m : List α) : Prop :=
  ∀ c, Steps (ts, m) c → ¬ Race c.1 ∧ c.2.length = m.length ∧ ∀ (j : Nat) t i a, c.1[j]? = some t → nextAccess t = some (i, a) → i < c.2.length

end PackedSimd.Spec
