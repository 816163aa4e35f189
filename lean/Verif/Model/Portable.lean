import Verif.Model.Shuffle
import Verif.Model.BitManip
import Verif.Model.FloatVec
import Verif.Model.Slices
/-
Programs that use the crate, run on a target.  A program is ordinary code (loops, branches, scalar arithmetic, the vector operations whose
implementation does not look at the target) which calls the functions of the API whose implementation is chosen by `cfg` or depends on the byte order.
-/
namespace PackedSimd.Portable

/-- A vector shape with the number of bytes of a lane on targets with `p`-byte pointers (only `msize` lanes depend on `p`). -/
structure Shape (p : Nat) where
  ty : MaskTy
  k : Nat
  hk : ∀ t : Target, t.ptrBytes = p → ty.laneBytes t = k

/-- A vector of this shape. -/
abbrev Shape.V {p : Nat} (S : Shape p) : Type := Vec (BitVec (8 * S.k)) S.ty.lanes

/-- The same vector in the types of a target. -/
def Shape.on {p : Nat} (S : Shape p) (t : Target) (ht : t.ptrBytes = p) (v : S.V) : Vec (BitVec (8 * S.ty.laneBytes t)) S.ty.lanes :=
  (S.hk t ht).symm ▸ v
/-- And back. -/
def Shape.off {p : Nat} (S : Shape p) (t : Target) (ht : t.ptrBytes = p) (v : Vec (BitVec (8 * S.ty.laneBytes t)) S.ty.lanes) : S.V :=
  show Vec (BitVec (8 * S.k)) S.ty.lanes from S.hk t ht ▸ v

/-- A call that answers a `β`.  Masks are given by their Boolean lanes.  `code` is everything that does not depend on the target: scalar code, and the
operators, comparisons, `select`, `shuffle!`, casts, constructors and lane accesses, whose models (`Ops`, `Cmp`, `FVec`, `Cast`, `Minimal`) have no target
argument.  `shuffle1_dyn` may only be called with indices in range. -/
inductive Call (p : Nat) : Type → Type 1
  | code {β : Type} (r : R β) : Call p β
  | all (ty : MaskTy) (m : Vec Bool ty.lanes) : Call p Bool
  | any (ty : MaskTy) (m : Vec Bool ty.lanes) : Call p Bool
  | none (ty : MaskTy) (m : Vec Bool ty.lanes) : Call p Bool
  | eqInt (S : Shape p) (a b : S.V) : Call p Bool
  | neInt (S : Shape p) (a b : S.V) : Call p Bool
  | cmpInt (S : Shape p) (s : Bool) (a b : S.V) : Call p Ordering
  | eqMask (ty : MaskTy) (a b : Vec Bool ty.lanes) : Call p Bool
  | cmpMask (ty : MaskTy) (a b : Vec Bool ty.lanes) : Call p Ordering
  | eqFloat (S : Shape p) (man : Nat) (hf : Spec.Format (8 * S.k) man) (a b : S.V) : Call p Bool
  | neFloat (S : Shape p) (man : Nat) (hf : Spec.Format (8 * S.k) man) (a b : S.V) : Call p Bool
  | cmpFloat (S : Shape p) (man : Nat) (hf : Spec.Format (8 * S.k) man) (a b : S.V) : Call p (Option Ordering)
  | wrappingSum {w n : Nat} (hn : LaneCount n) (v : Vec (BitVec w) n) : Call p (BitVec w)
  | wrappingProduct {w n : Nat} (hn : LaneCount n) (v : Vec (BitVec w) n) : Call p (BitVec w)
  | and {w n : Nat} (hn : LaneCount n) (v : Vec (BitVec w) n) : Call p (BitVec w)
  | or {w n : Nat} (hn : LaneCount n) (v : Vec (BitVec w) n) : Call p (BitVec w)
  | xor {w n : Nat} (hn : LaneCount n) (v : Vec (BitVec w) n) : Call p (BitVec w)
  | andMask {w n : Nat} (hn : LaneCount n) (hw : 0 < w) (m : Vec Bool n) : Call p Bool
  | orMask {w n : Nat} (hn : LaneCount n) (hw : 0 < w) (m : Vec Bool n) : Call p Bool
  | xorMask {w n : Nat} (hn : LaneCount n) (hw : 0 < w) (m : Vec Bool n) : Call p Bool
  | maxElement {w n : Nat} (hn : LaneCount n) (s : Bool) (v : Vec (BitVec w) n) : Call p (BitVec w)
  | minElement {w n : Nat} (hn : LaneCount n) (s : Bool) (v : Vec (BitVec w) n) : Call p (BitVec w)
  | maxElementF {w n : Nat} (hn : LaneCount n) (man : Nat) (pick : BitVec w → BitVec w → Bool) (v : Vec (BitVec w) n) : Call p (BitVec w)
  | minElementF {w n : Nat} (hn : LaneCount n) (man : Nat) (pick : BitVec w → BitVec w → Bool) (v : Vec (BitVec w) n) : Call p (BitVec w)
  | countOnes {w n : Nat} (hn : LaneCount n) (hw : 8 ≤ w ∧ w ≤ 128) (s : Bool) (v : Vec (BitVec w) n) : Call p (Vec (BitVec w) n)
  | countZeros {w n : Nat} (hn : LaneCount n) (hw : 8 ≤ w ∧ w ≤ 128) (s : Bool) (v : Vec (BitVec w) n) : Call p (Vec (BitVec w) n)
  | leadingZeros {w n : Nat} (hn : LaneCount n) (hw : 8 ≤ w ∧ w ≤ 128) (s : Bool) (v : Vec (BitVec w) n) : Call p (Vec (BitVec w) n)
  | trailingZeros {w n : Nat} (hn : LaneCount n) (hw : 8 ≤ w ∧ w ≤ 128) (s : Bool) (v : Vec (BitVec w) n) : Call p (Vec (BitVec w) n)
  | shuffle1Dyn (S : Shape p) (v idx : S.V) (h : ∀ i : Fin S.ty.lanes, idx[i].toNat < S.ty.lanes) : Call p S.V
  | shuffle1DynNonU (S : Shape p) (v idx : S.V) (h : ∀ i : Fin S.ty.lanes, idx[i].toNat < S.ty.lanes) : Call p S.V
  | swapBytes (S : Shape p) (v : S.V) : Call p S.V
  | hash {σ : Type} {k n : Nat} (H : Hasher σ (BitVec (8 * k))) (v : Vec (BitVec (8 * k)) n) (st : σ) : Call p σ
  | fromArray {k n : Nat} (a : Vector (BitVec (8 * k)) n) : Call p (Vec (BitVec (8 * k)) n)
  | toArray {k n : Nat} (v : Vec (BitVec (8 * k)) n) : Call p (Vector (BitVec (8 * k)) n)

/-- A function that did not compile (`Option`) cannot be called; the model never takes this branch (C32). -/
def compiled {α : Type} : Option α → R α
  | some a => .ok a
  | .none => .error .ub

/-- What the call does on a target: the model's functions. -/
def Call.run {p : Nat} (t : Target) (ht : t.ptrBytes = p) : {β : Type} → Call p β → R β
  | _, .code r => r
  | _, .all ty m => Mask.all t ty (Mask.new _ m)
  | _, .any ty m => Mask.any t ty (Mask.new _ m)
  | _, .none ty m => Mask.none t ty (Mask.new _ m)
  | _, .eqInt S a b => intEq t S.ty (S.on t ht a) (S.on t ht b)
  | _, .neInt S a b => intNe t S.ty (S.on t ht a) (S.on t ht b)
  | _, .cmpInt S s a b => lexCmp t S.ty false s (S.on t ht a) (S.on t ht b)
  | _, .eqMask ty a b => intEq t ty (Mask.new _ a) (Mask.new _ b)
  | _, .cmpMask ty a b => lexCmp t ty true true (Mask.new _ a) (Mask.new _ b)
  | _, .eqFloat S man _ a b => FVec.partialEq man t S.ty (S.on t ht a) (S.on t ht b)
  | _, .neFloat S man _ a b => FVec.partialNe man t S.ty (S.on t ht a) (S.on t ht b)
  | _, .cmpFloat S man _ a b => FVec.lexPartialCmp man t S.ty (S.on t ht a) (S.on t ht b)
  | _, .wrappingSum _ v => Reduce.wrappingSum t v
  | _, .wrappingProduct _ v => Reduce.wrappingProduct t v
  | _, .and _ v => Reduce.and t v
  | _, .or _ v => Reduce.or t v
  | _, .xor _ v => Reduce.xor t v
  | _, .andMask (w := w) _ _ m => Mask.reduceAnd t (Mask.new w m)
  | _, .orMask (w := w) _ _ m => Mask.reduceOr t (Mask.new w m)
  | _, .xorMask (w := w) _ _ m => Mask.reduceXor t (Mask.new w m)
  | _, .maxElement _ s v => Reduce.maxElement t s v
  | _, .minElement _ s v => Reduce.minElement t s v
  | _, .maxElementF _ man pick v => FVec.maxElement man pick t v
  | _, .minElementF _ man pick v => FVec.minElement man pick t v
  | _, .countOnes _ _ s v => PackedSimd.countOnes t s v
  | _, .countZeros _ _ s v => PackedSimd.countZeros t s v
  | _, .leadingZeros _ _ s v => PackedSimd.leadingZeros t s v
  | _, .trailingZeros _ _ s v => PackedSimd.trailingZeros t s v
  | _, .shuffle1Dyn S v idx _ => do return S.off t ht (← PackedSimd.shuffle1Dyn t S.ty (S.on t ht v) (S.on t ht idx))
  | _, .shuffle1DynNonU S v idx _ => do return S.off t ht (← PackedSimd.shuffle1DynNonU t S.ty (S.on t ht v) (S.on t ht idx))
  | _, .swapBytes S v => do return S.off t ht (← compiled (PackedSimd.swapBytes t S.ty (S.on t ht v)))
  | _, .hash H v st => .ok (PackedSimd.hash t.endian H v st)
  | _, .fromArray a => .ok (PackedSimd.fromArray t.endian a)
  | _, .toArray v => .ok (PackedSimd.toArray t.endian v)

/-- Programs: calls, sequencing with arbitrary code in between, and loops, which need not end. -/
inductive Prog (p : Nat) : Type → Type 1
  | ret {α : Type} (a : α) : Prog p α
  | call {α : Type} (c : Call p α) : Prog p α
  | seq {α β : Type} (x : Prog p β) (f : β → Prog p α) : Prog p α
  | loop {σ α : Type} (body : σ → Prog p (σ ⊕ α)) (s : σ) : Prog p α

/-- `Runs sem prog r`: the program ends with the result (or fault) `r` when the calls do what `sem` says. -/
inductive Runs {p : Nat} (sem : {β : Type} → Call p β → R β) : {α : Type} → Prog p α → R α → Prop
  | ret {α : Type} (a : α) : Runs sem (.ret a) (.ok a)
  | call {α : Type} (c : Call p α) : Runs sem (.call c) (sem c)
  | seqOk {α β : Type} {x : Prog p β} {f : β → Prog p α} {b : β} {r : R α} : Runs sem x (.ok b) → Runs sem (f b) r → Runs sem (.seq x f) r
  | seqFault {α β : Type} {x : Prog p β} {f : β → Prog p α} {e : Fault} : Runs sem x (.error e) → Runs sem (.seq x f) (.error e)
  | loopNext {σ α : Type} {body : σ → Prog p (σ ⊕ α)} {s s' : σ} {r : R α} :
      Runs sem (body s) (.ok (.inl s')) → Runs sem (.loop body s') r → Runs sem (.loop body s) r
  | loopDone {σ α : Type} {body : σ → Prog p (σ ⊕ α)} {s : σ} {a : α} : Runs sem (body s) (.ok (.inr a)) → Runs sem (.loop body s) (.ok a)
  | loopFault {σ α : Type} {body : σ → Prog p (σ ⊕ α)} {s : σ} {e : Fault} : Runs sem (body s) (.error e) → Runs sem (.loop body s) (.error e)

/-- The program ends with `r` on target `t`. -/
def RunsOn {p : Nat} (t : Target) (ht : t.ptrBytes = p) {α : Type} (prog : Prog p α) (r : R α) : Prop := Runs (Call.run t ht) prog r

end PackedSimd.Portable
