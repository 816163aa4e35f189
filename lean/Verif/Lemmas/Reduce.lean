import Verif.Model.Reduce
import Verif.Lemmas.Lanes
import Verif.Lemmas.IntVal
import Verif.Spec.Order
import Mathlib.Algebra.BigOperators.Group.List.Basic
/-
Folds over lanes.
-/
namespace PackedSimd
open Intr Spec

variable {α : Type} {w n : Nat}

/-- A loop of the form `for i in lo..hi` whose body never faults is a left fold. -/
theorem forRange_ok {σ : Type} (body : σ → Nat → R σ) (g : σ → Nat → σ) :
    ∀ (lo hi : Nat) (s : σ), (∀ s i, lo ≤ i → i < hi → body s i = .ok (g s i)) →
      forRange lo hi body s = .ok ((List.range' lo (hi - lo)).foldl g s) := by
  intro lo hi s h
  unfold forRange
  have : ∀ (L : List Nat) (s : σ), (∀ i ∈ L, lo ≤ i ∧ i < hi) → L.foldlM body s = .ok (L.foldl g s) := by
    intro L
    induction L with
    | nil => intro s _; rfl
    | cons i L ih =>
      intro s hL
      rw [List.foldlM_cons, h s i (hL i (by simp)).1 (hL i (by simp)).2]
      exact ih _ (fun j hj => hL j (by simp [hj]))
  exact this _ _ (fun i hi' => by rw [List.mem_range'_1] at hi'; omega)

theorem toList_eq_cons (v : Vec α n) (h : 0 < n) :
    v.toList = v[0] :: (List.range' 1 (n - 1)).map (fun i => if h : i < n then v[i] else v[0]) := by
  apply List.ext_getElem
  · simp; omega
  · intro i h1 h2
    have h1' : i < n := by simpa using h1
    rw [Vector.getElem_toList]
    cases i with
    | zero => rfl
    | succ i => simp [show 1 + i = i + 1 by omega, h1']

theorem laneLoop_eq [LaneCount n] (op : α → α → α) (v : Vec α n) : Reduce.laneLoop op v = simdReduce op v := by
  have h0 : 0 < n := LaneCount.pos
  unfold Reduce.laneLoop
  rw [extract_of_lt v h0]
  show forRange 1 n _ v[0] = _
  rw [forRange_ok _ (fun x i => op x (if h : i < n then v[i] else v[0]))]
  · unfold simdReduce
    rw [toList_eq_cons v h0]
    simp only [List.foldl_map]
  · intro s i _ hi
    rw [extract_of_lt v hi]
    simp [hi, pure, Except.pure, bind, Except.bind]

theorem simdReduce_cons (op : α → α → α) (v : Vec α n) {x : α} {xs : List α} (h : v.toList = x :: xs) :
    simdReduce op v = .ok (xs.foldl op x) := by
  unfold simdReduce; rw [h]

theorem mask_laneLoop_eq [LaneCount n] (op : Bool → Bool → Bool) (v : Vec (BitVec w) n) :
    Mask.laneLoop op v = simdReduce op (v.map (fun x => x != 0#w)) := by
  rw [← laneLoop_eq]
  have h0 : 0 < n := LaneCount.pos
  unfold Mask.laneLoop Reduce.laneLoop
  rw [Mask.extract_of_lt v h0, extract_of_lt _ h0, Vector.getElem_map]
  show forRange 1 n _ _ = forRange 1 n _ _
  rw [forRange_ok _ (fun x i => op x (if h : i < n then v[i] != 0#w else false)),
    forRange_ok _ (fun x i => op x (if h : i < n then v[i] != 0#w else false))]
  · intro s i _ hi
    rw [extract_of_lt _ hi]
    simp [hi, pure, Except.pure, bind, Except.bind]
  · intro s i _ hi
    rw [Mask.extract_of_lt v hi]
    simp [hi, pure, Except.pure, bind, Except.bind]

/-! Sum and product modulo `2^w`. -/

theorem foldl_add_ofInt (s : Bool) : ∀ (L : List (BitVec w)) (z : Int),
    L.foldl (· + ·) (BitVec.ofInt w z) = BitVec.ofInt w (z + (L.map (val s)).sum)
  | [], z => by simp
  | x :: L, z => by
    rw [List.foldl_cons]
    have : BitVec.ofInt w z + x = BitVec.ofInt w (z + val s x) := by
      rw [BitVec.ofInt_add, ofInt_val]
    rw [this, foldl_add_ofInt s L]
    simp [Int.add_assoc]

theorem foldl_mul_ofInt (s : Bool) : ∀ (L : List (BitVec w)) (z : Int),
    L.foldl (· * ·) (BitVec.ofInt w z) = BitVec.ofInt w (z * (L.map (val s)).prod)
  | [], z => by simp
  | x :: L, z => by
    rw [List.foldl_cons]
    have : BitVec.ofInt w z * x = BitVec.ofInt w (z * val s x) := by
      rw [BitVec.ofInt_mul, ofInt_val]
    rw [this, foldl_mul_ofInt s L]
    simp [Int.mul_assoc]

theorem simdReduce_add (s : Bool) (v : Vec (BitVec w) n) (h : 0 < n) :
    simdReduce (· + ·) v = .ok (BitVec.ofInt w ((v.toList.map (val s)).sum)) := by
  have := toList_eq_cons v h
  rw [simdReduce_cons _ _ this, this]
  congr 1
  rw [← ofInt_val s v[0], foldl_add_ofInt s]
  simp [ofInt_val]

theorem simdReduce_mul (s : Bool) (v : Vec (BitVec w) n) (h : 0 < n) :
    simdReduce (· * ·) v = .ok (BitVec.ofInt w ((v.toList.map (val s)).prod)) := by
  have := toList_eq_cons v h
  rw [simdReduce_cons _ _ this, this]
  congr 1
  rw [← ofInt_val s v[0], foldl_mul_ofInt s]
  simp [ofInt_val]

theorem tree_eval_add (s : Bool) : ∀ T : Tree (BitVec w),
    T.eval (· + ·) = BitVec.ofInt w ((T.leaves.map (val s)).sum)
  | .leaf x => by simp [Tree.eval, Tree.leaves, ofInt_val]
  | .node l r => by
    rw [Tree.eval, tree_eval_add s l, tree_eval_add s r, Tree.leaves, List.map_append, List.sum_append, BitVec.ofInt_add]

theorem tree_eval_mul (s : Bool) : ∀ T : Tree (BitVec w),
    T.eval (· * ·) = BitVec.ofInt w ((T.leaves.map (val s)).prod)
  | .leaf x => by simp [Tree.eval, Tree.leaves, ofInt_val]
  | .node l r => by
    rw [Tree.eval, tree_eval_mul s l, tree_eval_mul s r, Tree.leaves, List.map_append, List.prod_append, BitVec.ofInt_mul]

/-- The leaves of the documented balanced tree are the elements in order. -/
theorem balanced_leaves (f : Nat → α) : ∀ d i, (balanced f d i).leaves = (List.range' i (2 ^ d)).map f
  | 0, i => by simp [balanced, Tree.leaves]
  | d + 1, i => by
    rw [balanced, Tree.leaves, balanced_leaves f d, balanced_leaves f d, ← List.map_append, Nat.pow_succ, Nat.mul_two,
      List.range'_append_1]

/-! Bitwise folds. -/

theorem foldl_bit (op : BitVec w → BitVec w → BitVec w) (bop : Bool → Bool → Bool)
    (h : ∀ x y j, j < w → (op x y).getLsbD j = bop (x.getLsbD j) (y.getLsbD j)) (j : Nat) (hj : j < w) :
    ∀ (L : List (BitVec w)) (x : BitVec w), (L.foldl op x).getLsbD j = (L.map (·.getLsbD j)).foldl bop (x.getLsbD j)
  | [], x => rfl
  | y :: L, x => by
    rw [List.foldl_cons, foldl_bit op bop h j hj L, h _ _ _ hj]; rfl

theorem foldl_and_all : ∀ (L : List Bool) (x : Bool), L.foldl (· && ·) x = (x :: L).all id
  | [], x => by simp
  | y :: L, x => by rw [List.foldl_cons, foldl_and_all L]; simp [Bool.and_assoc]

theorem foldl_or_any : ∀ (L : List Bool) (x : Bool), L.foldl (· || ·) x = (x :: L).any id
  | [], x => by simp
  | y :: L, x => by rw [List.foldl_cons, foldl_or_any L]; simp [Bool.or_assoc]

theorem foldl_xor_parity : ∀ (L : List Bool) (x : Bool), L.foldl Bool.xor x = decide ((x :: L).count true % 2 = 1)
  | [], x => by cases x <;> decide
  | y :: L, x => by
    rw [List.foldl_cons, foldl_xor_parity L, decide_eq_decide]
    cases x <;> cases y <;> simp <;> omega

/-! Minimum / maximum. -/

theorem foldl_pick (op : BitVec w → BitVec w → BitVec w) (r : BitVec w → BitVec w → Prop)
    (hpick : ∀ x y, op x y = x ∨ op x y = y) (hl : ∀ x y, r x (op x y)) (hr : ∀ x y, r y (op x y))
    (htr : ∀ x y z, r x y → r y z → r x z) (hrefl : ∀ x, r x x) :
    ∀ (L : List (BitVec w)) (x : BitVec w), L.foldl op x ∈ x :: L ∧ ∀ y ∈ x :: L, r y (L.foldl op x)
  | [], x => by simp [hrefl]
  | y :: L, x => by
    obtain ⟨h1, h2⟩ := foldl_pick op r hpick hl hr htr hrefl L (op x y)
    rw [List.foldl_cons]
    constructor
    · rcases List.mem_cons.1 h1 with h | h
      · rcases hpick x y with e | e
        · rw [h, e]; simp
        · rw [h, e]; simp
      · simp [h]
    · intro z hz
      rcases List.mem_cons.1 hz with rfl | hz
      · exact htr _ _ _ (hl _ y) (h2 _ (by simp))
      · rcases List.mem_cons.1 hz with rfl | hz
        · exact htr _ _ _ (hr x _) (h2 _ (by simp))
        · exact h2 z (by simp [hz])

/-! Folding whole vectors. -/

theorem foldl_zipWith_lane {β : Type} (op : α → β → α) (n : Nat) (i : Nat) (hi : i < n) :
    ∀ (L : List (Vec β n)) (a : Vec α n),
      (L.foldl (fun a b => Vector.zipWith op a b) a)[i] = (L.map (fun v => v[i])).foldl op a[i]
  | [], a => rfl
  | b :: L, a => by
    rw [List.foldl_cons, foldl_zipWith_lane op n i hi L]; simp

end PackedSimd
