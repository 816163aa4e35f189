import Verif.Lemmas.Reduce
import Verif.Props.Compare
/-
C23, C24, C25, C48 (integers).
-/
namespace PackedSimd.Props
open PackedSimd Spec Intr

variable {w n : Nat}

/-! ## C23 -/

/-- `wrapping_sum` is the exact sum of the lanes, wrapped, on every target. -/
theorem C23_sum [LaneCount n] (t : Target) (s : Bool) (v : Vec (BitVec w) n) :
    ∃ r, Reduce.wrappingSum t v = .ok r ∧ WrapsTo s w ((laneVals s v).sum) r := by
  refine ⟨BitVec.ofInt w ((laneVals s v).sum), ?_, wrapsTo_iff.2 rfl⟩
  unfold Reduce.wrappingSum
  split
  · congr 1
    unfold simdReduceOrdered laneVals
    have := foldl_add_ofInt (w := w) s v.toList 0
    simpa using this
  · rw [laneLoop_eq, simdReduce_add s v LaneCount.pos, laneVals]

/-- `wrapping_product` is the exact product of the lanes, wrapped, on every target. -/
theorem C23_product [LaneCount n] (t : Target) (s : Bool) (v : Vec (BitVec w) n) :
    ∃ r, Reduce.wrappingProduct t v = .ok r ∧ WrapsTo s w ((laneVals s v).prod) r := by
  refine ⟨BitVec.ofInt w ((laneVals s v).prod), ?_, wrapsTo_iff.2 rfl⟩
  unfold Reduce.wrappingProduct
  split
  · congr 1
    unfold simdReduceOrdered laneVals
    have := foldl_mul_ofInt (w := w) s v.toList 1
    rw [Int.one_mul] at this
    exact this
  · rw [laneLoop_eq, simdReduce_mul s v LaneCount.pos, laneVals]

/-- The result is that of any bracketing of any permutation of the lanes. -/
theorem C23_any_order [LaneCount n] (t : Target) (v : Vec (BitVec w) n) (T : Tree (BitVec w)) (hT : T.leaves.Perm v.toList) :
    Reduce.wrappingSum t v = .ok (T.eval (· + ·)) ∧ Reduce.wrappingProduct t v = .ok (T.eval (· * ·)) := by
  obtain ⟨r, hr, h⟩ := C23_sum t false v
  obtain ⟨q, hq, h'⟩ := C23_product t false v
  rw [hr, hq, tree_eval_add false, tree_eval_mul false, wrapsTo_iff.1 h, wrapsTo_iff.1 h', laneVals,
    (hT.map (val false)).sum_eq, (hT.map (val false)).prod_eq]
  exact ⟨rfl, rfl⟩

/-- In particular the documented balanced tree. -/
theorem C23_documented_tree (d : Nat) [LaneCount (2 ^ d)] (t : Target) (v : Vec (BitVec w) (2 ^ d)) :
    Reduce.wrappingSum t v = .ok ((balanced (fun i => v.toList.getD i 0#w) d 0).eval (· + ·)) ∧
    Reduce.wrappingProduct t v = .ok ((balanced (fun i => v.toList.getD i 0#w) d 0).eval (· * ·)) := by
  apply C23_any_order
  rw [balanced_leaves]
  apply List.Perm.of_eq
  apply List.ext_getElem
  · simp
  · intro i h1 h2
    have : i < 2 ^ d := by simpa using h2
    simp [this]

example : Reduce.wrappingSum armNeon #v[(200 : BitVec 8), 100, 3, 4] = .ok 51 ∧
    Reduce.wrappingProduct { armNeon with arch := .aarch64 } #v[(200 : BitVec 8), 100, 3, 4] = .ok 128 := by decide +kernel

/-! ## C24 -/

theorem C24_and [LaneCount n] (t : Target) (v : Vec (BitVec w) n) :
    ∃ r, Reduce.and t v = .ok r ∧ ∀ j, j < w → (r.getLsbD j = true ↔ ∀ i (h : i < n), v[i].getLsbD j = true) := by
  have e : Reduce.and t v = simdReduce (· &&& ·) v := by unfold Reduce.and; split; rfl; rw [laneLoop_eq]
  refine ⟨_, e.trans (simdReduce_cons _ _ (toList_eq_cons v LaneCount.pos)), ?_⟩
  intro j hj
  rw [foldl_bit _ (· && ·) (by simp) j hj, foldl_and_all, ← List.map_cons (f := fun x : BitVec w => x.getLsbD j),
    ← toList_eq_cons, all_id_iff]
  simp only [List.mem_map, Vector.mem_toList_iff, Vector.mem_iff_getElem]
  constructor
  · intro h i hi; exact h _ ⟨_, ⟨i, hi, rfl⟩, rfl⟩
  · rintro h _ ⟨_, ⟨i, hi, rfl⟩, rfl⟩; exact h i hi

theorem C24_or [LaneCount n] (t : Target) (v : Vec (BitVec w) n) :
    ∃ r, Reduce.or t v = .ok r ∧ ∀ j, j < w → (r.getLsbD j = true ↔ ∃ i, ∃ h : i < n, v[i].getLsbD j = true) := by
  have e : Reduce.or t v = simdReduce (· ||| ·) v := by unfold Reduce.or; split; rfl; rw [laneLoop_eq]
  refine ⟨_, e.trans (simdReduce_cons _ _ (toList_eq_cons v LaneCount.pos)), ?_⟩
  intro j hj
  rw [foldl_bit _ (· || ·) (by simp) j hj, foldl_or_any, ← List.map_cons (f := fun x : BitVec w => x.getLsbD j),
    ← toList_eq_cons, List.any_eq_true]
  simp only [List.mem_map, Vector.mem_toList_iff, Vector.mem_iff_getElem]
  constructor
  · rintro ⟨_, ⟨_, ⟨i, hi, rfl⟩, rfl⟩, h⟩; exact ⟨i, hi, h⟩
  · rintro ⟨i, hi, h⟩; exact ⟨_, ⟨_, ⟨i, hi, rfl⟩, rfl⟩, h⟩

/-- Bit `j` of `xor()` is set iff an odd number of lanes have bit `j` set. -/
theorem C24_xor [LaneCount n] (t : Target) (v : Vec (BitVec w) n) :
    ∃ r, Reduce.xor t v = .ok r ∧
      ∀ j, j < w → (r.getLsbD j = true ↔ (v.toList.countP (fun x => x.getLsbD j)) % 2 = 1) := by
  have e : Reduce.xor t v = simdReduce (· ^^^ ·) v := by unfold Reduce.xor; split; rfl; rw [laneLoop_eq]
  refine ⟨_, e.trans (simdReduce_cons _ _ (toList_eq_cons v LaneCount.pos)), ?_⟩
  intro j hj
  rw [foldl_bit _ Bool.xor (by simp) j hj, foldl_xor_parity, ← List.map_cons (f := fun x : BitVec w => x.getLsbD j),
    ← toList_eq_cons, decide_eq_true_eq, List.count, List.countP_map]
  have : ((fun x => x == true) ∘ fun x : BitVec w => x.getLsbD j) = fun x => x.getLsbD j := by
    funext x; simp
  rw [this]

/-- Reductions of a mask: conjunction, disjunction, parity of the truth values, on every target. -/
theorem C24_mask [LaneCount n] (hw : 0 < w) (t : Target) (m : Vec (BitVec w) n) (f : Nat → Bool) (hm : Denotes m f) :
    (∃ r, Mask.reduceAnd t m = .ok r ∧ (r = true ↔ ∀ i, i < n → f i = true)) ∧
    (∃ r, Mask.reduceOr t m = .ok r ∧ (r = true ↔ ∃ i, i < n ∧ f i = true)) ∧
    (∃ r, Mask.reduceXor t m = .ok r ∧ (r = true ↔ ((List.range n).countP f) % 2 = 1)) := by
  have h0 : 0 < n := LaneCount.pos
  let fv : Vec Bool n := Vector.ofFn fun i => f i.val
  have hmap : m.map (fun x => x != 0#w) = fv := by
    rw [denotes_vec hm]; ext i hi : 1; simp [fv, maskBits_ne_zero hw]
  have hfl : fv.toList = (List.range n).map f := by
    apply List.ext_getElem <;> simp [fv]
  have hfold : ∀ (op : BitVec w → BitVec w → BitVec w) (bop : Bool → Bool → Bool),
      (∀ x y, op (maskBits w x) (maskBits w y) = maskBits w (bop x y)) →
      Mask.convert (simdReduce op m) = simdReduce bop fv := by
    intro op bop h
    have hl : m.toList = fv.toList.map (maskBits w) := by
      rw [denotes_vec hm]; exact Vector.toList_map
    rw [simdReduce_cons _ _ (toList_eq_cons fv h0)]
    have h2 := congrArg (List.map (maskBits w)) (toList_eq_cons fv h0)
    rw [← hl, List.map_cons] at h2
    rw [simdReduce_cons _ _ h2]
    show Except.ok _ = _
    congr 1
    have : ∀ (L : List Bool) (x : Bool), (L.map (maskBits w)).foldl op (maskBits w x) = maskBits w (L.foldl bop x) := by
      intro L
      induction L with
      | nil => intro x; rfl
      | cons y L ih => intro x; rw [List.map_cons, List.foldl_cons, h, ih]; rfl
    rw [this, maskBits_ne_zero hw]
  have bits : ∀ (op : BitVec w → BitVec w → BitVec w) (bop : Bool → Bool → Bool),
      (∀ (x y : BitVec w) j, j < w → (op x y).getLsbD j = bop (x.getLsbD j) (y.getLsbD j)) →
      ∀ x y, op (maskBits w x) (maskBits w y) = maskBits w (bop x y) := by
    intro op bop h x y
    apply isMaskLane_iff.1
    intro j hj; rw [h _ _ _ hj, getLsbD_maskBits _ hj, getLsbD_maskBits _ hj]
  refine ⟨⟨((List.range n).map f).all id, ?_, ?_⟩, ⟨((List.range n).map f).any id, ?_, ?_⟩,
    ⟨decide (((List.range n).map f).count true % 2 = 1), ?_, ?_⟩⟩
  · have e : Mask.reduceAnd t m = simdReduce (· && ·) fv := by
      unfold Mask.reduceAnd; split
      · exact hfold _ _ (bits _ _ (by simp))
      · rw [mask_laneLoop_eq, hmap]
    rw [e, simdReduce_cons _ _ (toList_eq_cons fv h0), foldl_and_all, ← toList_eq_cons, hfl]
  · simp
  · have e : Mask.reduceOr t m = simdReduce (· || ·) fv := by
      unfold Mask.reduceOr; split
      · exact hfold _ _ (bits _ _ (by simp))
      · rw [mask_laneLoop_eq, hmap]
    rw [e, simdReduce_cons _ _ (toList_eq_cons fv h0), foldl_or_any, ← toList_eq_cons, hfl]
  · simp
  · have e : Mask.reduceXor t m = simdReduce Bool.xor fv := by
      unfold Mask.reduceXor; split
      · exact hfold _ _ (bits _ _ (by simp))
      · rw [mask_laneLoop_eq, hmap]
    rw [e, simdReduce_cons _ _ (toList_eq_cons fv h0), foldl_xor_parity, ← toList_eq_cons, hfl]
  · rw [decide_eq_true_eq, List.count, List.countP_map]
    have : ((fun x => x == true) ∘ f) = f := by funext x; simp
    rw [this]

example : Reduce.xor armNeon #v[(0b1100 : BitVec 8), 0b1010, 0b1001, 0] = .ok 0b1111 ∧
    Mask.reduceXor armNeon #v[(0xff : BitVec 8), 0, 0xff, 0xff] = .ok true := by decide +kernel

/-! ## C25 -/

theorem C25_max [LaneCount n] (t : Target) (s : Bool) (v : Vec (BitVec w) n) :
    ∃ r, Reduce.maxElement t s v = .ok r ∧ (∃ i, ∃ h : i < n, v[i] = r) ∧ ∀ i (h : i < n), val s v[i] ≤ val s r := by
  have e : Reduce.maxElement t s v = simdReduce (Reduce.scalarMax s) v := by
    unfold Reduce.maxElement; split; rw [laneLoop_eq]; rfl
  have key := foldl_pick (Reduce.scalarMax (w := w) s) (fun x y => val s x ≤ val s y)
    (fun x y => by unfold Reduce.scalarMax; split <;> simp)
    (fun x y => by
      unfold Reduce.scalarMax; split
      · exact Int.le_refl _
      · rename_i h; rw [laneLt_iff] at h; omega)
    (fun x y => by
      unfold Reduce.scalarMax; split
      · rename_i h; rw [laneLt_iff] at h; omega
      · exact Int.le_refl _)
    (fun _ _ _ => Int.le_trans) (fun _ => Int.le_refl _)
    ((List.range' 1 (n - 1)).map (fun i => if h : i < n then v[i] else v[0]'LaneCount.pos)) (v[0]'LaneCount.pos)
  rw [← toList_eq_cons] at key
  refine ⟨_, e.trans (simdReduce_cons _ _ (toList_eq_cons v LaneCount.pos)), ?_, ?_⟩
  · exact Vector.mem_iff_getElem.1 (Vector.mem_toList_iff.1 key.1)
  · intro i h
    exact key.2 _ (Vector.mem_toList_iff.2 (Vector.getElem_mem h))

theorem C25_min [LaneCount n] (t : Target) (s : Bool) (v : Vec (BitVec w) n) :
    ∃ r, Reduce.minElement t s v = .ok r ∧ (∃ i, ∃ h : i < n, v[i] = r) ∧ ∀ i (h : i < n), val s r ≤ val s v[i] := by
  have e : Reduce.minElement t s v = simdReduce (Reduce.scalarMin s) v := by
    unfold Reduce.minElement; split; rw [laneLoop_eq]; rfl
  have key := foldl_pick (Reduce.scalarMin (w := w) s) (fun x y => val s y ≤ val s x)
    (fun x y => by unfold Reduce.scalarMin; split <;> simp)
    (fun x y => by
      unfold Reduce.scalarMin; split
      · rename_i h; rw [laneLt_iff] at h; omega
      · exact Int.le_refl _)
    (fun x y => by
      unfold Reduce.scalarMin; split
      · exact Int.le_refl _
      · rename_i h; rw [laneLt_iff] at h; omega)
    (fun _ _ _ h1 h2 => Int.le_trans h2 h1) (fun _ => Int.le_refl _)
    ((List.range' 1 (n - 1)).map (fun i => if h : i < n then v[i] else v[0]'LaneCount.pos)) (v[0]'LaneCount.pos)
  rw [← toList_eq_cons] at key
  refine ⟨_, e.trans (simdReduce_cons _ _ (toList_eq_cons v LaneCount.pos)), ?_, ?_⟩
  · exact Vector.mem_iff_getElem.1 (Vector.mem_toList_iff.1 key.1)
  · intro i h
    exact key.2 _ (Vector.mem_toList_iff.2 (Vector.getElem_mem h))

example : Reduce.maxElement armNeon true #v[(200 : BitVec 8), 100, 3, 4] = .ok 100 ∧
    Reduce.minElement x64Avx true #v[(200 : BitVec 8), 100, 3, 4] = .ok 200 := by decide +kernel

/-! ## C48 -/

/-- Lane `i` of the sum (product) of an iterator of vectors is the wrapped sum (product) of lane `i` over all items. -/
theorem C48_sum_product (s : Bool) (items : List (Vec (BitVec w) n)) (i : Nat) (h : i < n) :
    WrapsTo s w ((items.map fun v => val s v[i]).sum) (iterSum items)[i] ∧
    WrapsTo s w ((items.map fun v => val s v[i]).prod) (iterProduct items)[i] := by
  rw [wrapsTo_iff, wrapsTo_iff]
  constructor
  · unfold iterSum
    have := foldl_zipWith_lane (fun x y : BitVec w => x + y) n i h items (splat n 0#w)
    refine this.trans ?_
    have h2 := foldl_add_ofInt (w := w) s (items.map fun v => v[i]) 0
    simp only [splat]
    simpa [Function.comp_def] using h2
  · unfold iterProduct
    have := foldl_zipWith_lane (fun x y : BitVec w => x * y) n i h items (splat n (BitVec.ofNat w 1))
    refine this.trans ?_
    have h2 := foldl_mul_ofInt (w := w) s (items.map fun v => v[i]) 1
    simp only [splat]
    rw [Int.one_mul] at h2
    simpa [Function.comp_def] using h2

/-- The order of the items does not matter. -/
theorem C48_order_independent (items items' : List (Vec (BitVec w) n)) (hp : items.Perm items') :
    iterSum items = iterSum items' ∧ iterProduct items = iterProduct items' := by
  constructor <;> ext i h : 1
  · have a := (C48_sum_product false items i h).1
    have b := (C48_sum_product false items' i h).1
    rw [wrapsTo_iff] at a b
    rw [a, b, (hp.map _).sum_eq]
  · have a := (C48_sum_product false items i h).2
    have b := (C48_sum_product false items' i h).2
    rw [wrapsTo_iff] at a b
    rw [a, b, (hp.map _).prod_eq]

example : iterSum [#v[(200 : BitVec 8), 1], #v[100, 2]] = #v[44, 3] ∧
    iterProduct ([] : List (Vec (BitVec 8) 2)) = #v[1, 1] := by decide +kernel

end PackedSimd.Props
