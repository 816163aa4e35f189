import Verif.Spec.Portable
import Verif.Props.Shuffle
import Verif.Props.BitManip
import Verif.Props.Float
import Verif.Props.Slices
import Verif.Props.Reduce
import Verif.Props.MulAdd
/-
C115: programs behave the same on every target.
-/
namespace PackedSimd.Props
open PackedSimd.Portable Spec Intr

variable {p : Nat}

/-! ### Helper facts -/

theorem maskNew_denotes {w n : Nat} (m : Vec Bool n) : Denotes (Mask.new w m) fun i => if h : i < n then m[i] else true := by
  intro i hi
  dsimp only
  rw [dif_pos hi]
  unfold Mask.new
  rw [Vector.getElem_ofFn]
  show IsMaskLane (Mask.boolToInternal w m[i]) m[i]
  cases m[i] <;> intro j hj <;> simp [Mask.boolToInternal, hj]

theorem bool_of_iff {r b : Bool} (h : r = true ↔ b = true) : r = b := by
  cases r <;> cases b <;> simp_all

theorem all_vec {α : Type} {n : Nat} (m : Vec α n) (f : α → Bool) : m.toList.all f = true ↔ ∀ i (h : i < n), f m[i] = true := by
  rw [List.all_eq_true]
  constructor
  · intro h i hi; exact h _ (by rw [Vector.mem_toList_iff]; exact Vector.getElem_mem hi)
  · intro h x hx
    rw [Vector.mem_toList_iff, Vector.mem_iff_getElem] at hx
    obtain ⟨i, hi, rfl⟩ := hx
    exact h i hi

theorem any_vec {α : Type} {n : Nat} (m : Vec α n) (f : α → Bool) : m.toList.any f = true ↔ ∃ i, ∃ h : i < n, f m[i] = true := by
  rw [List.any_eq_true]
  constructor
  · rintro ⟨x, hx, h⟩
    rw [Vector.mem_toList_iff, Vector.mem_iff_getElem] at hx
    obtain ⟨i, hi, rfl⟩ := hx
    exact ⟨i, hi, h⟩
  · rintro ⟨i, hi, h⟩; exact ⟨_, by rw [Vector.mem_toList_iff]; exact Vector.getElem_mem hi, h⟩

theorem run_all (t : Target) (ht : t.Supported) (ty : MaskTy) (m : Vec Bool ty.lanes) : Mask.all t ty (Mask.new _ m) = .ok (m.toList.all id) := by
  obtain ⟨r, hr, h⟩ := C22_all t ht ty _ _ (maskNew_denotes m)
  rw [hr]; congr 1
  apply bool_of_iff
  rw [h, all_vec]
  exact ⟨fun h i hi => by simpa [hi] using h i hi, fun h i hi => by simpa [hi] using h i hi⟩

theorem run_any (t : Target) (ht : t.Supported) (ty : MaskTy) (m : Vec Bool ty.lanes) : Mask.any t ty (Mask.new _ m) = .ok (m.toList.any id) := by
  obtain ⟨r, hr, h⟩ := C22_any t ht ty _ _ (maskNew_denotes m)
  rw [hr]; congr 1
  apply bool_of_iff
  rw [h, any_vec]
  exact ⟨fun ⟨i, hi, h⟩ => ⟨i, hi, by simpa [hi] using h⟩, fun ⟨i, hi, h⟩ => ⟨i, hi, by simpa [hi] using h⟩⟩

theorem run_none (t : Target) (ht : t.Supported) (ty : MaskTy) (m : Vec Bool ty.lanes) :
    Mask.none t ty (Mask.new _ m) = .ok (m.toList.all fun b => !b) := by
  obtain ⟨r, hr, h⟩ := C22_none t ht ty _ _ (maskNew_denotes m)
  rw [hr]; congr 1
  apply bool_of_iff
  rw [h, all_vec]
  exact ⟨fun h i hi => by simpa [hi] using h i hi, fun h i hi => by simpa [hi] using h i hi⟩

theorem run_eqInt (t : Target) (ht : t.Supported) (ty : MaskTy) (a b : Vec (BitVec (8 * ty.laneBytes t)) ty.lanes) :
    intEq t ty a b = .ok (decide (a = b)) ∧ intNe t ty a b = .ok (decide (a ≠ b)) := by
  obtain ⟨e, d, he, hd, h1, rfl⟩ := C19_eq_ne t ty ht a b
  have : e = decide (a = b) := by
    apply bool_of_iff
    rw [h1, decide_eq_true_iff]
    exact ⟨fun h => Vector.ext h, fun h i hi => by rw [h]⟩
  rw [he, hd, this]
  exact ⟨rfl, by simp⟩

theorem maskNew_inj {w n : Nat} (hw : 0 < w) (a b : Vec Bool n) : Mask.new w a = Mask.new w b ↔ a = b := by
  refine ⟨fun h => ?_, fun h => by rw [h]⟩
  have ha := maskNew_denotes (w := w) a
  have hb := maskNew_denotes (w := w) b
  ext i hi : 1
  have h1 := ha i hi
  have h2 := hb i hi
  dsimp only at h1 h2
  rw [dif_pos hi] at h1 h2
  simp only [h] at h1
  exact (h1 0 hw).symm.trans (h2 0 hw)

theorem run_eqMask (t : Target) (ht : t.Supported) (ty : MaskTy) (a b : Vec Bool ty.lanes) :
    intEq t ty (Mask.new _ a) (Mask.new _ b) = .ok (decide (a = b)) := by
  rw [(run_eqInt t ht ty _ _).1]
  congr 1
  have := laneBytes_pos ht ty
  exact decide_eq_decide.2 (maskNew_inj (by omega) a b)

theorem map_lanes {n : Nat} (m : Vec Bool n) : (List.range n).map (fun i => if h : i < n then m[i] else true) = m.toList := by
  apply List.ext_getElem
  · simp
  · intro i h1 h2
    simp only [List.length_map, List.length_range] at h1
    simp [h1]

theorem run_cmpMask (t : Target) (ht : t.Supported) (ty : MaskTy) (a b : Vec Bool ty.lanes) :
    lexCmp t ty true true (Mask.new _ a) (Mask.new _ b) = .ok (arrayCompare (boolVals a.toList) (boolVals b.toList)) := by
  have := (C20_mask t ty ht _ _ _ _ (maskNew_denotes a) (maskNew_denotes b)).1
  rw [map_lanes, map_lanes] at this
  exact this

theorem run_eqFloat (t : Target) (ht : t.Supported) (ty : MaskTy) (man : Nat) (hf : Format (8 * ty.laneBytes t) man)
    (a b : Vec (BitVec (8 * ty.laneBytes t)) ty.lanes) :
    FVec.partialEq man t ty a b = .ok (sameNumbers man a b) ∧ FVec.partialNe man t ty a b = .ok (!sameNumbers man a b) := by
  obtain ⟨e, he, hn, h⟩ := C19_float t ty ht hf a b
  have : e = sameNumbers man a b := by
    apply bool_of_iff
    rw [h]
    unfold sameNumbers
    rw [List.all_eq_true]
    constructor
    · intro h x hx
      obtain ⟨i, hi, rfl⟩ := List.mem_iff_getElem.1 hx
      simp only [List.length_zip, Vector.length_toList, Nat.min_self] at hi
      simpa using h i hi
    · intro h i hi
      have := h (a[i], b[i]) (List.mem_iff_getElem.2 ⟨i, by simpa using hi, by simp⟩)
      simpa using this
  rw [he, hn, this]
  exact ⟨rfl, rfl⟩

theorem reduce_left {α : Type} {n : Nat} (hn : 0 < n) (op : α → α → α) (d : α) (v : Vec α n) : simdReduce op v = .ok (reduceL op d v.toList) := by
  rw [simdReduce_cons _ _ (toList_eq_cons v hn), toList_eq_cons v hn]
  rfl

theorem extremum_fold {w : Nat} (s : Bool) (op : BitVec w → BitVec w → BitVec w) (f : Int → Int → Int) (h : ∀ x y, val s (op x y) = f (val s x) (val s y)) :
    ∀ (l : List (BitVec w)) (x : BitVec w), val s (l.foldl op x) = (l.map (val s)).foldl f (val s x)
  | [], _ => rfl
  | y :: l, x => by rw [List.foldl_cons, extremum_fold s op f h l, h]; rfl

theorem run_extremum {w n : Nat} (hn : 0 < n) (s : Bool) (op : BitVec w → BitVec w → BitVec w) (f : Int → Int → Int)
    (h : ∀ x y, val s (op x y) = f (val s x) (val s y)) (v : Vec (BitVec w) n) :
    simdReduce op v = .ok (BitVec.ofInt w (extremum f (laneVals s v))) := by
  rw [reduce_left hn op 0 v]
  unfold laneVals
  rw [toList_eq_cons v hn]
  show Except.ok (List.foldl op _ _) = Except.ok (BitVec.ofInt w (List.foldl f _ _))
  rw [← extremum_fold s op f h, ofInt_val]

theorem val_max {w : Nat} (s : Bool) (x y : BitVec w) : val s (Reduce.scalarMax s x y) = max (val s x) (val s y) := by
  unfold Reduce.scalarMax
  simp only [laneLt_iff]
  split <;> omega

theorem val_min {w : Nat} (s : Bool) (x y : BitVec w) : val s (Reduce.scalarMin s x y) = min (val s x) (val s y) := by
  unfold Reduce.scalarMin
  simp only [laneLt_iff]
  split <;> omega

theorem takeWhile_length {f : Nat → Bool} {w z : Nat} (hz : z ≤ w) (h1 : ∀ j, j < z → f j = true) (h2 : z < w → f z = false) :
    ((List.range w).takeWhile f).length = z := by
  obtain ⟨d, rfl⟩ := Nat.exists_eq_add_of_le hz
  rw [List.range_add, List.takeWhile_append_of_pos (by intro x hx; exact h1 x (List.mem_range.1 hx))]
  cases d with
  | zero => simp
  | succ d =>
    rw [List.range_succ_eq_map, List.map_cons, List.takeWhile_cons_of_neg (by simpa using h2 (by omega))]
    simp

theorem run_counts {w n : Nat} [LaneCount n] (hw : 8 ≤ w ∧ w ≤ 128) (t : Target) (s : Bool) (v : Vec (BitVec w) n) :
    PackedSimd.countOnes t s v = .ok (v.map fun x => BitVec.ofNat _ (onesIn x)) ∧
    PackedSimd.countZeros t s v = .ok (v.map fun x => BitVec.ofNat _ (w - onesIn x)) ∧
    PackedSimd.leadingZeros t s v = .ok (v.map fun x => BitVec.ofNat _ (zerosAbove x)) ∧
    PackedSimd.trailingZeros t s v = .ok (v.map fun x => BitVec.ofNat _ (zerosBelow x)) := by
  have hc := counts_spec t s hw.1 hw.2 v
  have hn := (counts_spec t s hw.1 hw.2 (Ops.not v)).1
  have ones : ∀ x : BitVec w, popcountNat w x.toNat = onesIn x := fun x => popcountNat_eq w x.toNat
  refine ⟨?_, ?_, ?_, ?_⟩
  · refine hc.1.trans ?_
    simp only [ones]
  · refine hn.trans ?_
    congr 1
    ext i hi : 1
    simp only [Vector.getElem_map, ones]
    congr 1
    have e : (Ops.not v)[i] = ~~~v[i] := by
      simp [Ops.not, Ops.bitxor, simdXor, splat]
    rw [e]
    unfold onesIn
    have h1 := List.length_eq_countP_add_countP (fun j => v[i].getLsbD j) (l := List.range w)
    rw [List.length_range] at h1
    have h2 : (List.range w).countP (fun j => (~~~v[i]).getLsbD j) = (List.range w).countP (fun a => ¬v[i].getLsbD a = true) := by
      apply List.countP_congr
      intro j hj
      simp [List.mem_range.1 hj]
    rw [h2]
    omega
  · refine hc.2.1.trans ?_
    congr 2
    funext x
    have h := clzNat_spec w x.toNat x.isLt
    exact congrArg _ (takeWhile_length h.1 (fun j hj => by simp [BitVec.getLsbD, h.2.1 j hj]) (fun hl => by simp [BitVec.getLsbD, h.2.2 hl])).symm
  · refine hc.2.2.trans ?_
    congr 2
    funext x
    have h := ctzNat_spec w x.toNat
    exact congrArg _ (takeWhile_length h.1 (fun j hj => by simp [BitVec.getLsbD, h.2.1 j hj]) (fun hl => by simp [BitVec.getLsbD, h.2.2 hl])).symm

theorem run_maskReduce {w n : Nat} [LaneCount n] (hw : 0 < w) (t : Target) (m : Vec Bool n) :
    Mask.reduceAnd t (Mask.new w m) = .ok (m.toList.all id) ∧ Mask.reduceOr t (Mask.new w m) = .ok (m.toList.any id) ∧
    Mask.reduceXor t (Mask.new w m) = .ok (m.toList.countP id % 2 == 1) := by
  obtain ⟨⟨r1, e1, h1⟩, ⟨r2, e2, h2⟩, ⟨r3, e3, h3⟩⟩ := C24_mask hw t _ _ (maskNew_denotes (w := w) m)
  rw [e1, e2, e3]
  refine ⟨?_, ?_, ?_⟩ <;> congr 1 <;> apply bool_of_iff
  · rw [h1, all_vec]
    exact ⟨fun h i hi => by simpa [hi] using h i hi, fun h i hi => by simpa [hi] using h i hi⟩
  · rw [h2, any_vec]
    exact ⟨fun ⟨i, hi, h⟩ => ⟨i, hi, by simpa [hi] using h⟩, fun ⟨i, hi, h⟩ => ⟨i, hi, by simpa [hi] using h⟩⟩
  · rw [h3, ← map_lanes m, List.countP_map, beq_iff_eq]
    rfl

theorem run_swapBytes (t : Target) (ht : t.Supported) (ty : MaskTy) (v : Vec (BitVec (8 * ty.laneBytes t)) ty.lanes) :
    swapBytes t ty v = some (fromBytes .little (ty.laneBytes t) ty.lanes (toBytes .little v).reverse) := by
  obtain ⟨r, hr, h⟩ := swapBytes_lane t ht ty v
  obtain ⟨q, hq, h'⟩ := swapBytes_lane { t with endian := .little } ht ty v
  have e := (swapBytes_bytes { t with endian := .little } ht ty v).symm.trans hq
  have hrq : r = q := by
    ext i hi : 1
    apply BitVec.eq_of_getLsbD_eq
    intro j hj
    have d : j = 8 * (j / 8) + j % 8 := by omega
    have d1 : j / 8 < ty.laneBytes t := by omega
    have a1 := h i hi (j / 8) (j % 8) d1 (by omega)
    have a2 := h' i hi (j / 8) (j % 8) d1 (by omega)
    rw [← d] at a1 a2
    exact a1.trans a2.symm
  rw [hr, hrq]
  refine Eq.trans (b := (some (fromBytes .little (ty.laneBytes t) ty.lanes _) : Option (Vec (BitVec (8 * ty.laneBytes t)) ty.lanes))) e.symm ?_
  congr 2
  ext i hi : 1
  rw [Vector.getElem_ofFn]
  exact (Vector.getElem_reverse hi).symm

/-! ### C115 -/

/-- Every call does on every supported target what the target-free meaning says. -/
theorem C115_call (t : Target) (ht : t.ptrBytes = p) (hs : t.Supported) {β : Type} (c : Call p β) : Call.run t ht c = meaning c := by
  cases c with
  | code r => rfl
  | all ty m => exact run_all t hs ty m
  | any ty m => exact run_any t hs ty m
  | none ty m => exact run_none t hs ty m
  | eqInt S a b =>
    obtain ⟨ty, k, hk⟩ := S; obtain rfl := hk t ht
    exact (run_eqInt t hs ty a b).1
  | neInt S a b =>
    obtain ⟨ty, k, hk⟩ := S; obtain rfl := hk t ht
    exact (run_eqInt t hs ty a b).2
  | cmpInt S s a b =>
    obtain ⟨ty, k, hk⟩ := S; obtain rfl := hk t ht
    exact (C20_int t ty hs s a b).1
  | eqMask ty a b => exact run_eqMask t hs ty a b
  | cmpMask ty a b => exact run_cmpMask t hs ty a b
  | eqFloat S man hf a b =>
    obtain ⟨ty, k, hk⟩ := S; obtain rfl := hk t ht
    exact (run_eqFloat t hs ty man hf a b).1
  | neFloat S man hf a b =>
    obtain ⟨ty, k, hk⟩ := S; obtain rfl := hk t ht
    exact (run_eqFloat t hs ty man hf a b).2
  | cmpFloat S man hf a b =>
    obtain ⟨ty, k, hk⟩ := S; obtain rfl := hk t ht
    exact (C21_lex t ty hs hf a b).1
  | wrappingSum hn v =>
    obtain ⟨r, hr, h⟩ := C23_sum t false v
    exact hr.trans (congrArg _ (wrapsTo_iff.1 h))
  | wrappingProduct hn v =>
    obtain ⟨r, hr, h⟩ := C23_product t false v
    exact hr.trans (congrArg _ (wrapsTo_iff.1 h))
  | and hn v =>
    show Reduce.and t v = _
    unfold Reduce.and; rw [laneLoop_eq, ite_self, reduce_left LaneCount.pos _ 0]; rfl
  | or hn v =>
    show Reduce.or t v = _
    unfold Reduce.or; rw [laneLoop_eq, ite_self, reduce_left LaneCount.pos _ 0]; rfl
  | xor hn v =>
    show Reduce.xor t v = _
    unfold Reduce.xor; rw [laneLoop_eq, ite_self, reduce_left LaneCount.pos _ 0]; rfl
  | andMask hn hw m => exact (run_maskReduce hw t m).1
  | orMask hn hw m => exact (run_maskReduce hw t m).2.1
  | xorMask hn hw m => exact (run_maskReduce hw t m).2.2
  | maxElement hn s v =>
    show Reduce.maxElement t s v = _
    unfold Reduce.maxElement; rw [laneLoop_eq, ite_self, run_extremum LaneCount.pos s _ max (val_max s)]; rfl
  | minElement hn s v =>
    show Reduce.minElement t s v = _
    unfold Reduce.minElement; rw [laneLoop_eq, ite_self, run_extremum LaneCount.pos s _ min (val_min s)]; rfl
  | maxElementF hn man pick v =>
    show FVec.maxElement man pick t v = _
    unfold FVec.maxElement; rw [laneLoop_eq, ite_self, reduce_left LaneCount.pos _ 0]; rfl
  | minElementF hn man pick v =>
    show FVec.minElement man pick t v = _
    unfold FVec.minElement; rw [laneLoop_eq, ite_self, reduce_left LaneCount.pos _ 0]; rfl
  | countOnes hn hw s v => exact (run_counts hw t s v).1
  | countZeros hn hw s v => exact (run_counts hw t s v).2.1
  | leadingZeros hn hw s v => exact (run_counts hw t s v).2.2.1
  | trailingZeros hn hw s v => exact (run_counts hw t s v).2.2.2
  | shuffle1Dyn S v idx h =>
    obtain ⟨ty, k, hk⟩ := S; obtain rfl := hk t ht
    obtain ⟨r, hr, hv⟩ := C30_unsigned t ty hs v idx (fun k hk => h ⟨k, hk⟩)
    show (PackedSimd.shuffle1Dyn t ty v idx >>= fun x => .ok x) = _
    rw [hr]
    show Except.ok r = Except.ok _
    congr 1
    ext i hi : 1
    rw [hv i hi, Vector.getElem_ofFn]; rfl
  | shuffle1DynNonU S v idx h =>
    obtain ⟨ty, k, hk⟩ := S; obtain rfl := hk t ht
    obtain ⟨r, hr, hv⟩ := C30_other_types t ty hs v idx (fun k hk => h ⟨k, hk⟩)
    show (PackedSimd.shuffle1DynNonU t ty v idx >>= fun x => .ok x) = _
    rw [hr]
    show Except.ok r = Except.ok _
    congr 1
    ext i hi : 1
    rw [hv i hi, Vector.getElem_ofFn]; rfl
  | swapBytes S v =>
    obtain ⟨ty, k, hk⟩ := S; obtain rfl := hk t ht
    show (compiled (PackedSimd.swapBytes t ty v) >>= fun x => .ok x) = _
    rw [run_swapBytes t hs ty v]; rfl
  | hash H v st =>
    show Except.ok (PackedSimd.hash t.endian H v st) = _
    rw [C08_hash_eq_array_hash]
    show Except.ok _ = Except.ok _
    congr 2
    apply List.ext_getElem <;> simp
  | fromArray a =>
    show Except.ok (PackedSimd.fromArray t.endian a) = Except.ok a
    unfold PackedSimd.fromArray; rw [transmute_self]
  | toArray v =>
    show Except.ok (PackedSimd.toArray t.endian v) = Except.ok v
    unfold PackedSimd.toArray; rw [transmute_self]

/-- A program ends with at most one result. -/
theorem runs_deterministic {sem : {β : Type} → Call p β → R β} {α : Type} {prog : Prog p α} {r : R α} (h : Runs sem prog r) :
    ∀ r', Runs sem prog r' → r = r' := by
  induction h with
  | ret a => intro r' h; cases h; rfl
  | call c => intro r' h; cases h; rfl
  | seqOk h1 h2 i1 i2 =>
    intro r' h
    cases h with
    | seqOk a b => obtain rfl := Except.ok.inj (i1 _ a); exact i2 _ b
    | seqFault a => cases i1 _ a
  | seqFault h1 i1 =>
    intro r' h
    cases h with
    | seqOk a b => cases i1 _ a
    | seqFault a => cases i1 _ a; rfl
  | loopNext h1 h2 i1 i2 =>
    intro r' h
    cases h with
    | loopNext a b => obtain rfl := Sum.inl.inj (Except.ok.inj (i1 _ a)); exact i2 _ b
    | loopDone a => cases i1 _ a
    | loopFault a => cases i1 _ a
  | loopDone h1 i1 =>
    intro r' h
    cases h with
    | loopNext a b => cases i1 _ a
    | loopDone a => cases i1 _ a; rfl
    | loopFault a => cases i1 _ a
  | loopFault h1 i1 =>
    intro r' h
    cases h with
    | loopNext a b => cases i1 _ a
    | loopDone a => cases i1 _ a
    | loopFault a => cases i1 _ a; rfl

theorem interp_mono (sem : {β : Type} → Call p β → R β) :
    ∀ (f : Nat) {α : Type} (prog : Prog p α) (r : R α), interp sem f prog = some r → interp sem (f + 1) prog = some r := by
  intro f
  induction f with
  | zero => intro α prog r h; cases h
  | succ f ih =>
    intro α prog r h
    cases prog with
    | ret a => exact h
    | call c => exact h
    | seq x g =>
      rw [interp] at h ⊢
      cases hx : interp sem f x with
      | none => rw [hx] at h; cases h
      | some y =>
        rw [hx] at h
        rw [ih x y hx]
        cases y with
        | error e => exact h
        | ok b => exact ih _ _ h
    | loop body s =>
      rw [interp] at h ⊢
      cases hx : interp sem f (body s) with
      | none => rw [hx] at h; cases h
      | some y =>
        rw [hx] at h
        rw [ih _ y hx]
        rcases y with e | (s' | a)
        · exact h
        · exact ih _ _ h
        · exact h

theorem interp_le (sem : {β : Type} → Call p β → R β) {f g : Nat} (hfg : f ≤ g) {α : Type} {prog : Prog p α} {r : R α}
    (h : interp sem f prog = some r) : interp sem g prog = some r := by
  induction hfg with
  | refl => exact h
  | step _ ih => exact interp_mono sem _ _ _ ih

/-- `Runs` is what a step-counting interpreter computes with enough steps. -/
theorem C115_runs (sem : {β : Type} → Call p β → R β) {α : Type} (prog : Prog p α) (r : R α) :
    Runs sem prog r ↔ ∃ steps, interp sem steps prog = some r := by
  constructor
  · intro h
    induction h with
    | ret a => exact ⟨1, rfl⟩
    | call c => exact ⟨1, rfl⟩
    | seqOk _ _ i1 i2 =>
      obtain ⟨f, h1⟩ := i1; obtain ⟨g, h2⟩ := i2
      refine ⟨max f g + 1, ?_⟩
      rw [interp, interp_le sem (Nat.le_max_left f g) h1]
      exact interp_le sem (Nat.le_max_right f g) h2
    | seqFault _ i1 =>
      obtain ⟨f, h1⟩ := i1
      exact ⟨f + 1, by rw [interp, h1]⟩
    | loopNext _ _ i1 i2 =>
      obtain ⟨f, h1⟩ := i1; obtain ⟨g, h2⟩ := i2
      refine ⟨max f g + 1, ?_⟩
      rw [interp, interp_le sem (Nat.le_max_left f g) h1]
      exact interp_le sem (Nat.le_max_right f g) h2
    | loopDone _ i1 =>
      obtain ⟨f, h1⟩ := i1
      exact ⟨f + 1, by rw [interp, h1]⟩
    | loopFault _ i1 =>
      obtain ⟨f, h1⟩ := i1
      exact ⟨f + 1, by rw [interp, h1]⟩
  · rintro ⟨f, h⟩
    induction f generalizing α with
    | zero => cases h
    | succ f ih =>
      cases prog with
      | ret a => cases h; exact .ret a
      | call c => cases h; exact .call c
      | seq x g =>
        rw [interp] at h
        cases hx : interp sem f x with
        | none => rw [hx] at h; cases h
        | some y =>
          rw [hx] at h
          cases y with
          | error e => cases h; exact .seqFault (ih _ _ hx)
          | ok b => exact .seqOk (ih _ _ hx) (ih _ _ h)
      | loop body s =>
        rw [interp] at h
        cases hx : interp sem f (body s) with
        | none => rw [hx] at h; cases h
        | some y =>
          rw [hx] at h
          rcases y with e | (s' | a)
          · cases h; exact .loopFault (ih _ _ hx)
          · exact .loopNext (ih _ _ hx) (ih _ _ h)
          · cases h; exact .loopDone (ih _ _ hx)

/-- C115, programs: every program over these calls ends on every supported target exactly with the result it ends with when its calls mean what the
target-free specification says. -/
theorem C115_program (t : Target) (ht : t.ptrBytes = p) (hs : t.Supported) {α : Type} (prog : Prog p α) (r : R α) :
    RunsOn t ht prog r ↔ Runs meaning prog r := by
  have e : (fun {β : Type} (c : Call p β) => Call.run t ht c) = (fun {β : Type} (c : Call p β) => meaning c) := by
    funext β c; exact C115_call t ht hs c
  unfold RunsOn
  exact Iff.of_eq (congrArg (fun s : {β : Type} → Call p β → R β => Runs s prog r) e)

/-- C115: two supported targets with the same pointer width, whatever their architecture, byte order and target features, run every program to the same
result; a program that does not end on one does not end on the other; and the result is unique. -/
theorem C115_portable (t u : Target) (ht : t.ptrBytes = p) (hu : u.ptrBytes = p) (hs : t.Supported) (hs' : u.Supported) {α : Type} (prog : Prog p α) :
    (∀ r, RunsOn t ht prog r ↔ RunsOn u hu prog r) ∧ (∀ r r', RunsOn t ht prog r → RunsOn u hu prog r' → r = r') :=
  ⟨fun r => (C115_program t ht hs prog r).trans (C115_program u hu hs' prog r).symm,
   fun _ r' h h' => runs_deterministic h r' ((C115_program t ht hs prog r').2 ((C115_program u hu hs' prog r').1 h'))⟩

/-! ### A program, run on two targets -/

/-- `u32x4` on 8-byte-pointer targets. -/
def u32x4Shape : Shape 8 := ⟨.m32x4, 4, fun _ _ => rfl⟩
/-- `usizex2`: the lane width is the pointer width. -/
def usizex2Shape : Shape 8 := ⟨.msizex2, 8, fun _ h => h⟩

/-- Count the rotations (by `shuffle1_dyn`) of `v` until it is the smaller of `v` and `w` again, and add the sum of its lanes. -/
def rotations (v w : Vec (BitVec 32) 4) : Prog 8 (BitVec 32) :=
  .seq (.call (.wrappingSum (inferInstanceAs (LaneCount 4)) v)) fun sum =>
  .loop (fun st : BitVec 32 × Vec (BitVec 32) 4 =>
    .seq (.call (.shuffle1Dyn u32x4Shape st.2 (show Vec (BitVec 32) 4 from #v[1, 2, 3, 0]) (by decide))) fun r =>
    .seq (.call (.cmpInt u32x4Shape false r w)) fun o =>
    .ret (if o = .lt then .inr (st.1 + sum) else .inl (st.1 + 1, r))) (1, v)

/-- It ends on a little-endian AVX target and on a big-endian one, with the same result. -/
example : RunsOn x64Avx rfl (rotations #v[5, 9, 2, 7] #v[3, 0, 0, 0]) (.ok 25) ∧ RunsOn s390 rfl (rotations #v[5, 9, 2, 7] #v[3, 0, 0, 0]) (.ok 25) := by
  have key : Runs meaning (rotations #v[5, 9, 2, 7] #v[3, 0, 0, 0]) (.ok 25) := by
    refine .seqOk (b := (23 : BitVec 32)) ?_ ?_
    · have := Runs.call (sem := meaning) (p := 8) (.wrappingSum (inferInstanceAs (LaneCount 4)) (#v[5, 9, 2, 7] : Vec (BitVec 32) 4))
      have e : meaning (p := 8) (.wrappingSum (inferInstanceAs (LaneCount 4)) (#v[5, 9, 2, 7] : Vec (BitVec 32) 4)) = .ok 23 := by decide +kernel
      rw [e] at this; exact this
    · refine .loopNext (s' := ((2 : BitVec 32), #v[9, 2, 7, 5])) ?_ (.loopDone ?_)
      · exact .seqOk (.call _) (.seqOk (.call _) (.ret _))
      · exact .seqOk (.call _) (.seqOk (.call _) (.ret _))
  exact ⟨(C115_program _ _ (.inr rfl) _ _).2 key, (C115_program _ _ (.inr rfl) _ _).2 key⟩

/-! ### What has to be left out -/

/-- The calls left out of `Call` are left out for a reason: targets with the same pointer width disagree on the sign of a zero float sum, on an index of
`shuffle1_dyn` that is out of range, on `to_be` / `to_le`, and on a reinterpretation between lanes of different widths. -/
theorem C115_left_out :
    (FVec.sum 23 x64Avx #v[(0x80000000 : BitVec 32), 0x80000000] = .ok 0 ∧
      FVec.sum 23 { x64Avx with arch := .aarch64 } #v[(0x80000000 : BitVec 32), 0x80000000] = .ok 0x80000000) ∧
    (Shuf.u8x16 x64Avx (splat 16 7#8) (splat 16 16#8) = .ok (splat 16 7#8) ∧ Shuf.u8x16 s390 (splat 16 7#8) (splat 16 16#8) = .error .panic) ∧
    ((toBe x64Avx .m32x2 #v[0x11223344, 5]).map (fun v => v.toList.map BitVec.toNat) = some [0x05000000, 0x44332211] ∧ (toBe s390 .m32x2 #v[0x11223344, 5]).map (fun v => v.toList.map BitVec.toNat) = some [0x11223344, 5]) ∧
    ((toLe x64Avx .m32x2 #v[0x11223344, 5]).map (fun v => v.toList.map BitVec.toNat) = some [0x11223344, 5] ∧ (toLe s390 .m32x2 #v[0x11223344, 5]).map (fun v => v.toList.map BitVec.toNat) = some [0x05000000, 0x44332211]) ∧
    (transmute x64Avx.endian 1 2 (by decide) (#v[0x1122] : Vec (BitVec (8 * 2)) 1) = #v[0x22, 0x11] ∧
      transmute s390.endian 1 2 (by decide) (#v[0x1122] : Vec (BitVec (8 * 2)) 1) = #v[0x11, 0x22]) := by
  refine ⟨?_, ?_, ?_, ?_, ?_⟩ <;> decide +kernel

/-- And the pointer width is part of the hypothesis: `usize` lanes are wider on 64-bit targets, so `u32::MAX + 1` in a `usizex2` lane exists only there. -/
theorem C115_pointer_width : MaskTy.laneBytes x64Avx .msizex2 ≠ MaskTy.laneBytes armNeon .msizex2 := by decide +kernel

end PackedSimd.Props
