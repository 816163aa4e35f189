import Verif.Model.Portable
import Verif.Spec.Order
/-
What the calls of `Model/Portable.lean` mean, without any reference to a target.
-/
namespace PackedSimd.Spec
open Portable

/-- Lengths of runs of zero bits. -/
def zerosBelow {w : Nat} (x : BitVec w) : Nat := ((List.range w).takeWhile fun j => !x.getLsbD j).length
def zerosAbove {w : Nat} (x : BitVec w) : Nat := ((List.range w).takeWhile fun j => !x.getLsbD (w - 1 - j)).length
/-- Number of one bits. -/
def onesIn {w : Nat} (x : BitVec w) : Nat := (List.range w).countP fun j => x.getLsbD j
/-- The extremum of the lanes as numbers. -/
def extremum (f : Int → Int → Int) : List Int → Int
  | [] => 0
  | x :: xs => xs.foldl f x
/-- The value of a reduction from left to right. -/
def reduceL {α : Type} (f : α → α → α) (d : α) : List α → α
  | [] => d
  | x :: xs => xs.foldl f x
/-- Lanes compare equal as numbers (not NaN, `-0 = 0`). -/
def sameNumbers {w n : Nat} (man : Nat) (a b : Vec (BitVec w) n) : Bool :=
  (a.toList.zip b.toList).all fun x => decide (valueOf man x.1 ≠ .nan ∧ valueOf man x.1 = valueOf man x.2)

/-- The meaning of a call. -/
def meaning {p : Nat} : {β : Type} → Call p β → R β
  | _, .code r => r
  | _, .all _ m => .ok (m.toList.all id)
  | _, .any _ m => .ok (m.toList.any id)
  | _, .none _ m => .ok (m.toList.all fun b => !b)
  | _, .eqInt _ a b => .ok (decide (a = b))
  | _, .neInt _ a b => .ok (decide (a ≠ b))
  | _, .cmpInt _ s a b => .ok (arrayCompare (laneVals s a) (laneVals s b))
  | _, .eqMask _ a b => .ok (decide (a = b))
  | _, .cmpMask _ a b => .ok (arrayCompare (boolVals a.toList) (boolVals b.toList))
  | _, .eqFloat _ man _ a b => .ok (sameNumbers man a b)
  | _, .neFloat _ man _ a b => .ok (!sameNumbers man a b)
  | _, .cmpFloat _ man _ a b => .ok (arrayPartialCompare FVal.cmp (a.toList.map (valueOf man)) (b.toList.map (valueOf man)))
  | _, .wrappingSum _ v => .ok (BitVec.ofInt _ (laneVals false v).sum)
  | _, .wrappingProduct _ v => .ok (BitVec.ofInt _ (laneVals false v).prod)
  | _, .and _ v => .ok (reduceL (· &&& ·) 0 v.toList)
  | _, .or _ v => .ok (reduceL (· ||| ·) 0 v.toList)
  | _, .xor _ v => .ok (reduceL (· ^^^ ·) 0 v.toList)
  | _, .andMask _ _ m => .ok (m.toList.all id)
  | _, .orMask _ _ m => .ok (m.toList.any id)
  | _, .xorMask _ _ m => .ok (m.toList.countP id % 2 == 1)
  | _, .maxElement _ s v => .ok (BitVec.ofInt _ (extremum max (laneVals s v)))
  | _, .minElement _ s v => .ok (BitVec.ofInt _ (extremum min (laneVals s v)))
  | _, .maxElementF _ man pick v => .ok (reduceL (Flt.maxNum man pick) 0 v.toList)
  | _, .minElementF _ man pick v => .ok (reduceL (Flt.minNum man pick) 0 v.toList)
  | _, .countOnes _ _ _ v => .ok (v.map fun x => BitVec.ofNat _ (onesIn x))
  | _, .countZeros (w := w) _ _ _ v => .ok (v.map fun x => BitVec.ofNat _ (w - onesIn x))
  | _, .leadingZeros _ _ _ v => .ok (v.map fun x => BitVec.ofNat _ (zerosAbove x))
  | _, .trailingZeros _ _ _ v => .ok (v.map fun x => BitVec.ofNat _ (zerosBelow x))
  | _, .shuffle1Dyn _ v idx h => .ok (Vector.ofFn fun i => v[idx[i].toNat]'(h i))
  | _, .shuffle1DynNonU _ v idx h => .ok (Vector.ofFn fun i => v[idx[i].toNat]'(h i))
  | _, .swapBytes S v => .ok (fromBytes .little S.k S.ty.lanes (toBytes .little v).reverse)
  | _, .hash (n := n) H v st => .ok (v.toList.foldl H.writeElem (H.writeLengthPrefix st n))
  | _, .fromArray a => .ok a
  | _, .toArray v => .ok v

/-- A step-counting interpreter for programs, written without looking at the relation `Runs`: `none` means out of steps; a fault stops everything. -/
def interp {p : Nat} (sem : {β : Type} → Call p β → R β) : Nat → {α : Type} → Prog p α → Option (R α)
  | 0, _, _ => none
  | _ + 1, _, .ret a => some (.ok a)
  | _ + 1, _, .call c => some (sem c)
  | f + 1, _, .seq x g =>
    match interp sem f x with
    | none => none
    | some (.error e) => some (.error e)
    | some (.ok b) => interp sem f (g b)
  | f + 1, _, .loop body s =>
    match interp sem f (body s) with
    | none => none
    | some (.error e) => some (.error e)
    | some (.ok (.inr a)) => some (.ok a)
    | some (.ok (.inl s')) => interp sem f (.loop body s')

end PackedSimd.Spec
