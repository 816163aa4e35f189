import Verif.Lemmas.Compare
import Verif.Props.Arith
import Verif.Props.MaskReduce
import Verif.Props.Slices
/-
C18 (integers, masks), C19, C20, C27, C28, C55.
-/

namespace PackedSimd.Props
open PackedSimd Spec Intr

variable {w n : Nat}

/-! ## C18: vertical comparisons -/

/-- Integer lanes: each comparison produces a valid mask whose lane `i` is the comparison of the lane values. -/
theorem C18_int (s : Bool) (a b : Vec (BitVec w) n) (i : Nat) (h : i < n) :
    IsMaskLane (Cmp.eq a b)[i] (decide (val s a[i] = val s b[i])) ∧
    IsMaskLane (Cmp.ne a b)[i] (decide (val s a[i] ≠ val s b[i])) ∧
    IsMaskLane (Cmp.lt false s a b)[i] (decide (val s a[i] < val s b[i])) ∧
    IsMaskLane (Cmp.le false s a b)[i] (decide (val s a[i] ≤ val s b[i])) ∧
    IsMaskLane (Cmp.gt false s a b)[i] (decide (val s a[i] > val s b[i])) ∧
    IsMaskLane (Cmp.ge false s a b)[i] (decide (val s a[i] ≥ val s b[i])) := by
  have heq : ∀ x y : BitVec w, (x == y) = decide (val s x = val s y) := fun x y => by
    rw [Bool.eq_iff_iff, beq_iff_eq, decide_eq_true_eq]
    exact ⟨fun h => by rw [h], val_injective⟩
  have hlt : ∀ x y : BitVec w, laneLt s x y = decide (val s x < val s y) := fun x y => by
    rw [Bool.eq_iff_iff, laneLt_iff, decide_eq_true_eq]
  have hle : ∀ x y : BitVec w, laneLe s x y = decide (val s x ≤ val s y) := fun x y => by
    rw [Bool.eq_iff_iff, laneLe_iff, decide_eq_true_eq]
  simp only [isMaskLane_iff, Cmp.eq, Cmp.ne, Cmp.lt, Cmp.le, Cmp.gt, Cmp.ge, simdEq, simdNe, simdLt, simdLe, simdGt, simdGe,
    Bool.false_eq_true, if_false, Vector.getElem_zipWith, bne, heq, hlt, hle, gt_iff_lt, ge_iff_le, true_and, and_true]
  simp

/-- Mask lanes: compared as truth values with `false < true`. -/
theorem C18_mask (hw : 0 < w) (a b : Vec (BitVec w) n) (f g : Nat → Bool) (ha : Denotes a f) (hb : Denotes b g) :
    Denotes (Cmp.eq a b) (fun i => f i == g i) ∧ Denotes (Cmp.ne a b) (fun i => f i != g i) ∧
    Denotes (Cmp.lt true true a b) (fun i => !f i && g i) ∧ Denotes (Cmp.le true true a b) (fun i => !f i || g i) ∧
    Denotes (Cmp.gt true true a b) (fun i => f i && !g i) ∧ Denotes (Cmp.ge true true a b) (fun i => f i || !g i) := by
  have hinj : ∀ x y : Bool, (maskBits w x == maskBits w y) = (x == y) := fun x y => by
    rw [Bool.eq_iff_iff, beq_iff_eq, beq_iff_eq]
    constructor
    · intro h
      have := congrArg (fun z : BitVec w => z != 0#w) h
      simpa [maskBits_ne_zero hw] using this
    · intro h; rw [h]
  have hv : ∀ x : Bool, val true (maskBits w x) = if x then -1 else 0 := fun x => by
    cases x
    · simp [val_true, maskBits]
    · simp [val_true, maskBits, BitVec.toInt_allOnes]; omega
  have hlt : ∀ x y : Bool, laneLt true (maskBits w x) (maskBits w y) = (x && !y) := fun x y => by
    rw [Bool.eq_iff_iff, laneLt_iff, hv, hv]; cases x <;> cases y <;> decide
  have hle : ∀ x y : Bool, laneLe true (maskBits w x) (maskBits w y) = (x || !y) := fun x y => by
    rw [Bool.eq_iff_iff, laneLe_iff, hv, hv]; cases x <;> cases y <;> decide
  refine ⟨?_, ?_, ?_, ?_, ?_, ?_⟩ <;> intro i hi <;> rw [isMaskLane_iff] <;>
    simp only [Cmp.eq, Cmp.ne, Cmp.lt, Cmp.le, Cmp.gt, Cmp.ge, simdEq, simdNe, simdLt, simdLe, simdGt, simdGe, if_true,
      Vector.getElem_zipWith, isMaskLane_of_denotes ha hi, isMaskLane_of_denotes hb hi, bne, hinj, hlt, hle] <;>
    first
      | rfl
      | (cases f i <;> cases g i <;> rfl)

/-- i8 lanes `-1 < 1` but u8 lanes `255 > 1`. -/
example : Cmp.lt false true #v[(0xff : BitVec 8)] #v[1] = #v[0xff] ∧
    Cmp.lt false false #v[(0xff : BitVec 8)] #v[1] = #v[0] := by decide +kernel

/-! ## C19: == and != -/

section
variable (t : Target) (ht : t.Supported) (ty : MaskTy)

/-- `a == b` is true iff all lanes are equal; `a != b` iff some lane differs; on every supported target. -/
theorem C19_eq_ne (ht : t.Supported) (a b : Vec (BitVec (8 * ty.laneBytes t)) ty.lanes) :
    ∃ e d, intEq t ty a b = .ok e ∧ intNe t ty a b = .ok d ∧
      (e = true ↔ ∀ i (h : i < ty.lanes), a[i] = b[i]) ∧ d = !e := by
  have hE : Denotes (Cmp.eq a b) (fun i => if h : i < ty.lanes then a[i] == b[i] else true) := by
    intro i hi
    simp only [hi, dif_pos, isMaskLane_iff, Cmp.eq, simdEq, Vector.getElem_zipWith]
  have hN : Denotes (Cmp.ne a b) (fun i => if h : i < ty.lanes then a[i] != b[i] else true) := by
    intro i hi
    simp only [hi, dif_pos, isMaskLane_iff, Cmp.ne, simdNe, Vector.getElem_zipWith]
  obtain ⟨e, he, he'⟩ := C22_all t ht ty _ _ hE
  obtain ⟨d, hd, hd'⟩ := C22_any t ht ty _ _ hN
  have k1 : e = true ↔ ∀ i (h : i < ty.lanes), a[i] = b[i] := by
    rw [he']
    constructor
    · intro h i hi; have := h i hi; simpa [hi] using this
    · intro h i hi; rw [dif_pos hi, h i hi]; exact beq_self_eq_true _
  refine ⟨e, d, he, hd, k1, ?_⟩
  have k2 : d = true ↔ ¬ e = true := by
    rw [hd', k1]
    constructor
    · rintro ⟨i, hi, h⟩ hall; simp [hi, hall i hi] at h
    · intro h
      apply Classical.byContradiction
      intro hne
      apply h
      intro i hi
      apply Classical.byContradiction
      intro hab
      exact hne ⟨i, hi, by simp [hi, hab]⟩
  clear k1 he he' hd hd' hE hN
  cases e <;> cases d <;> simp_all

/-- `==` is equality of the vectors: reflexive, symmetric, transitive. -/
theorem C19_equivalence (ht : t.Supported) (a b c : Vec (BitVec (8 * ty.laneBytes t)) ty.lanes) :
    intEq t ty a a = .ok true ∧ intEq t ty a b = intEq t ty b a ∧
    (intEq t ty a b = .ok true → intEq t ty b c = .ok true → intEq t ty a c = .ok true) := by
  have key : ∀ a b : Vec (BitVec (8 * ty.laneBytes t)) ty.lanes, intEq t ty a b = .ok (decide (a = b)) := by
    intro a b
    obtain ⟨e, d, he, -, hiff, -⟩ := C19_eq_ne t ty ht a b
    rw [he]
    congr 1
    rw [Bool.eq_iff_iff, hiff, decide_eq_true_eq]
    exact ⟨fun h => by ext i hi : 1; exact h i hi, fun h i hi => by rw [h]⟩
  rw [key, key, key, key, key]
  refine ⟨by simp, by simp [eq_comm], ?_⟩
  simp only [Except.ok.injEq, decide_eq_true_eq]
  intro h1 h2; rw [h1, h2]

/-- For masks: `==` compares truth values. -/
theorem C19_mask (ht : t.Supported) (a b : Vec (BitVec (8 * ty.laneBytes t)) ty.lanes) (f g : Nat → Bool)
    (ha : Denotes a f) (hb : Denotes b g) :
    ∃ e, intEq t ty a b = .ok e ∧ (e = true ↔ ∀ i, i < ty.lanes → f i = g i) := by
  obtain ⟨e, d, he, -, hiff, -⟩ := C19_eq_ne t ty ht a b
  refine ⟨e, he, hiff.trans ?_⟩
  have hw : 0 < 8 * ty.laneBytes t := by have := laneBytes_pos ht ty; omega
  constructor
  · intro h i hi
    have := congrArg (fun z : BitVec (8 * ty.laneBytes t) => z != 0#_) (h i hi)
    simpa only [isMaskLane_of_denotes ha hi, isMaskLane_of_denotes hb hi, maskBits_ne_zero hw] using this
  · intro h i hi
    rw [isMaskLane_of_denotes ha hi, isMaskLane_of_denotes hb hi, h i hi]

example : intEq armNeon .m32x4 #v[1, 2, 3, 4] #v[1, 2, 3, 5] = .ok false ∧
    intNe armNeon .m32x4 #v[1, 2, 3, 4] #v[1, 2, 3, 5] = .ok true := by decide +kernel

/-! ## C20: lexicographic order -/

/-- For integers: every comparison operator of `lex_ord` is the comparison of the arrays of lane values. -/
theorem C20_int (ht : t.Supported) (s : Bool) (a b : Vec (BitVec (8 * ty.laneBytes t)) ty.lanes) :
    lexCmp t ty false s a b = .ok (arrayCompare (laneVals s a) (laneVals s b)) ∧
    lexPartialCmp t ty false s a b = .ok (some (arrayCompare (laneVals s a) (laneVals s b))) ∧
    lexLt t ty false s a b = .ok (arrayCompare (laneVals s a) (laneVals s b) == .lt) ∧
    lexGt t ty false s a b = .ok (arrayCompare (laneVals s a) (laneVals s b) == .gt) ∧
    lexLe t ty false s a b = .ok (arrayCompare (laneVals s a) (laneVals s b) != .gt) ∧
    lexGe t ty false s a b = .ok (arrayCompare (laneVals s a) (laneVals s b) != .lt) := by
  let pc : BitVec (8 * ty.laneBytes t) → BitVec (8 * ty.laneBytes t) → Option Ordering := fun x y =>
    some (if val s x < val s y then .lt else if val s y < val s x then .gt else .eq)
  have hw : 0 < 8 * ty.laneBytes t := by have := laneBytes_pos ht ty; omega
  have hE : ∀ i (h : i < ty.lanes), IsMaskLane (Cmp.eq a b)[i] (pc a[i] b[i] == some .eq) := by
    intro i h
    have := (C18_int s a b i h).1
    rw [isMaskLane_iff] at this ⊢
    rw [this]; congr 1
    rw [Bool.eq_iff_iff, decide_eq_true_eq, beq_iff_eq, Option.some.injEq]
    constructor
    · intro h; simp [h]
    · intro h; split at h
      · cases h
      · split at h
        · cases h
        · omega
  have hL : ∀ i (h : i < ty.lanes), IsMaskLane (Cmp.lt false s a b)[i] (pc a[i] b[i] == some .lt) := by
    intro i h
    have := (C18_int s a b i h).2.2.1
    rw [isMaskLane_iff] at this ⊢
    rw [this]; congr 1
    rw [Bool.eq_iff_iff, decide_eq_true_eq, beq_iff_eq, Option.some.injEq]
    constructor
    · intro h; simp [h]
    · intro h; split at h
      · assumption
      · split at h <;> cases h
  have hG : ∀ i (h : i < ty.lanes), IsMaskLane (Cmp.gt false s a b)[i] (pc a[i] b[i] == some .gt) := by
    intro i h
    have := (C18_int s a b i h).2.2.2.2.1
    rw [isMaskLane_iff] at this ⊢
    rw [this]; congr 1
    rw [Bool.eq_iff_iff, decide_eq_true_eq, beq_iff_eq, Option.some.injEq]
    constructor
    · intro h; have h' : ¬ val s a[i] < val s b[i] := by omega
      rw [if_neg h', if_pos h]
    · intro h; split at h
      · cases h
      · split at h
        · assumption
        · cases h
  have heq : ∃ r, intEq t ty a b = .ok r ∧ (r = true ↔ ∀ i (h : i < ty.lanes), pc a[i] b[i] = some .eq) := by
    obtain ⟨e, -, he, -, hiff, -⟩ := C19_eq_ne t ty ht a b
    refine ⟨e, he, hiff.trans ?_⟩
    constructor
    · intro h i hi; simp [pc, h i hi]
    · intro h i hi
      have h1 := h i hi
      simp only [pc, Option.some.injEq] at h1
      apply val_injective (s := s)
      split at h1
      · cases h1
      · split at h1
        · cases h1
        · omega
  have key := lex_all_spec hw pc a b _ _ _ _ hE hL hG heq
  have hl := lexCompare_spec hw pc .lt (by decide) a b _ _ hE hL
  have hg := lexCompare_spec hw pc .gt (by decide) a b _ _ hE hG
  rw [arrayCompare_of_partial pc (val s) (fun _ _ => rfl)] at key hl hg
  obtain ⟨k1, k2, k3⟩ := key
  have kpc : lexPartialCmp t ty false s a b = .ok (some (arrayCompare (laneVals s a) (laneVals s b))) := k1
  refine ⟨by unfold lexCmp; rw [kpc]; rfl, kpc, ?_, ?_, ?_, ?_⟩
  · refine hl.trans (congrArg _ ?_); unfold laneVals; generalize arrayCompare _ _ = q; cases q <;> rfl
  · refine hg.trans (congrArg _ ?_); unfold laneVals; generalize arrayCompare _ _ = q; cases q <;> rfl
  · refine k2.trans (congrArg _ ?_); unfold laneVals; generalize arrayCompare _ _ = q; cases q <;> rfl
  · refine k3.trans (congrArg _ ?_); unfold laneVals; generalize arrayCompare _ _ = q; cases q <;> rfl

/-- For masks: every comparison operator of `lex_ord` is the comparison of the arrays of truth values (`false < true`). -/
theorem C20_mask (ht : t.Supported) (a b : Vec (BitVec (8 * ty.laneBytes t)) ty.lanes) (f g : Nat → Bool)
    (ha : Denotes a f) (hb : Denotes b g) :
    let A := boolVals ((List.range ty.lanes).map f)
    let B := boolVals ((List.range ty.lanes).map g)
    lexCmp t ty true true a b = .ok (arrayCompare A B) ∧
    lexPartialCmp t ty true true a b = .ok (some (arrayCompare A B)) ∧
    lexLt t ty true true a b = .ok (arrayCompare A B == .lt) ∧
    lexGt t ty true true a b = .ok (arrayCompare A B == .gt) ∧
    lexLe t ty true true a b = .ok (arrayCompare A B != .gt) ∧
    lexGe t ty true true a b = .ok (arrayCompare A B != .lt) := by
  intro A B
  let bv : Bool → Int := fun b => if b then 1 else 0
  let pc : Bool → Bool → Option Ordering := fun x y =>
    some (if bv x < bv y then .lt else if bv y < bv x then .gt else .eq)
  have hw : 0 < 8 * ty.laneBytes t := by have := laneBytes_pos ht ty; omega
  let a' : Vec Bool ty.lanes := Vector.ofFn fun i => f i.val
  let b' : Vec Bool ty.lanes := Vector.ofFn fun i => g i.val
  obtain ⟨c1, -, c3, -, c5, -⟩ := C18_mask hw a b f g ha hb
  have hE : ∀ i (h : i < ty.lanes), IsMaskLane (Cmp.eq a b)[i] (pc a'[i] b'[i] == some .eq) := by
    intro i h
    have := c1 i h
    dsimp only at this
    have e : (f i == g i) = (pc a'[i] b'[i] == some .eq) := by
      simp only [a', b', Vector.getElem_ofFn]; cases f i <;> cases g i <;> rfl
    rwa [e] at this
  have hL : ∀ i (h : i < ty.lanes), IsMaskLane (Cmp.lt true true a b)[i] (pc a'[i] b'[i] == some .lt) := by
    intro i h
    have := c3 i h
    dsimp only at this
    have e : (!f i && g i) = (pc a'[i] b'[i] == some .lt) := by
      simp only [a', b', Vector.getElem_ofFn]; cases f i <;> cases g i <;> rfl
    rwa [e] at this
  have hG : ∀ i (h : i < ty.lanes), IsMaskLane (Cmp.gt true true a b)[i] (pc a'[i] b'[i] == some .gt) := by
    intro i h
    have := c5 i h
    dsimp only at this
    have e : (f i && !g i) = (pc a'[i] b'[i] == some .gt) := by
      simp only [a', b', Vector.getElem_ofFn]; cases f i <;> cases g i <;> rfl
    rwa [e] at this
  have heq : ∃ r, intEq t ty a b = .ok r ∧ (r = true ↔ ∀ i (h : i < ty.lanes), pc a'[i] b'[i] = some .eq) := by
    obtain ⟨e, he, hiff⟩ := C19_mask t ty ht a b f g ha hb
    refine ⟨e, he, hiff.trans ?_⟩
    simp only [a', b', Vector.getElem_ofFn]
    constructor
    · intro h i hi; rw [h i hi]; cases g i <;> rfl
    · intro h i hi
      have h1 := h i hi
      revert h1
      cases f i <;> cases g i <;> simp [pc, bv]
  have key := lex_all_spec hw pc a' b' _ _ _ _ hE hL hG heq
  have hl := lexCompare_spec hw pc .lt (by decide) a' b' _ _ hE hL
  have hg := lexCompare_spec hw pc .gt (by decide) a' b' _ _ hE hG
  rw [arrayCompare_of_partial pc bv (fun _ _ => rfl)] at key hl hg
  have eA : a'.toList.map bv = A := by
    apply List.ext_getElem <;> simp [a', A, boolVals, bv]
  have eB : b'.toList.map bv = B := by
    apply List.ext_getElem <;> simp [b', B, boolVals, bv]
  rw [eA, eB] at key hl hg
  obtain ⟨k1, k2, k3⟩ := key
  have kpc : lexPartialCmp t ty true true a b = .ok (some (arrayCompare A B)) := k1
  refine ⟨by unfold lexCmp; rw [kpc]; rfl, kpc, ?_, ?_, ?_, ?_⟩
  · refine hl.trans (congrArg _ ?_); generalize arrayCompare A B = q; cases q <;> rfl
  · refine hg.trans (congrArg _ ?_); generalize arrayCompare A B = q; cases q <;> rfl
  · refine k2.trans (congrArg _ ?_); generalize arrayCompare A B = q; cases q <;> rfl
  · refine k3.trans (congrArg _ ?_); generalize arrayCompare A B = q; cases q <;> rfl

/-- The order on integer vectors is total, consistent with `==`, antisymmetric and transitive (and `cmp` never reaches the
unreachable branch, since it always returns). -/
theorem C20_total_order (ht : t.Supported) (s : Bool) (a b c : Vec (BitVec (8 * ty.laneBytes t)) ty.lanes) :
    (∃ o, lexCmp t ty false s a b = .ok o ∧ lexCmp t ty false s b a = .ok o.swap) ∧
    (lexCmp t ty false s a b = .ok .eq ↔ a = b) ∧
    (lexCmp t ty false s a b = .ok .lt → lexCmp t ty false s b c = .ok .lt → lexCmp t ty false s a c = .ok .lt) := by
  rw [(C20_int t ty ht s a b).1, (C20_int t ty ht s b a).1, (C20_int t ty ht s b c).1, (C20_int t ty ht s a c).1]
  refine ⟨⟨_, rfl, by rw [arrayCompare_swap]⟩, ?_, ?_⟩
  · rw [Except.ok.injEq, arrayCompare_eq_iff, laneVals, laneVals]
    constructor
    · intro h
      have := List.map_inj_right (f := val s) (fun x y hxy => val_injective hxy) |>.1 h
      exact Vector.toList_inj.1 this
    · intro h; rw [h]
  · simp only [Except.ok.injEq]
    exact arrayCompare_trans

/-- First lane decides, later lanes are ignored; signed versus unsigned. -/
example : lexCmp armNeon .m32x4 false true #v[0xffffffff, 9, 9, 9] #v[0, 0, 0, 0] = .ok .lt ∧
    lexCmp armNeon .m32x4 false false #v[0xffffffff, 0, 0, 0] #v[0, 9, 9, 9] = .ok .gt ∧
    lexCmp armNeon .m32x4 true true #v[0, 0xffffffff, 0, 0] #v[0xffffffff, 0, 0, 0] = .ok .lt := by decide +kernel

/-! ## C55 -/

/-- `==`, `cmp`, array equality and hashing are consistent. -/
theorem C55_consistent {σ : Type} (ht : t.Supported) (s : Bool) (a b : Vec (BitVec (8 * ty.laneBytes t)) ty.lanes)
    (H : Hasher σ (BitVec (8 * ty.laneBytes t))) (st : σ) :
    (intEq t ty a b = .ok true ↔ toArray t.endian a = toArray t.endian b) ∧
    (intEq t ty a b = .ok true ↔ lexCmp t ty false s a b = .ok .eq) ∧
    (intEq t ty a b = .ok true → hash t.endian H a st = hash t.endian H b st) := by
  obtain ⟨e, -, he, -, hiff, -⟩ := C19_eq_ne t ty ht a b
  have hv : (∀ i (h : i < ty.lanes), a[i] = b[i]) ↔ a = b :=
    ⟨fun h => by ext i hi : 1; exact h i hi, fun h i hi => by rw [h]⟩
  rw [(C20_total_order t ty ht s a b a).2.1, he, Except.ok.injEq, hiff, hv]
  refine ⟨⟨fun h => by rw [h], fun h => ?_⟩, Iff.rfl, fun h => by rw [h]⟩
  have e1 := (C07_array_roundtrip t.endian a a).2.2.2
  have e2 := (C07_array_roundtrip t.endian b b).2.2.2
  rw [← e1, h, e2]

/-- The same for masks, whose lanes are hashed as Booleans. -/
theorem C55_consistent_mask {σ : Type} (ht : t.Supported) (a b : Vec (BitVec (8 * ty.laneBytes t)) ty.lanes) (f g : Nat → Bool)
    (ha : Denotes a f) (hb : Denotes b g) (H : Hasher σ Bool) (st : σ) :
    (intEq t ty a b = .ok true ↔ toArray t.endian a = toArray t.endian b) ∧
    (intEq t ty a b = .ok true → hash t.endian ⟨H.writeLengthPrefix, fun st x => MaskLane.hash H x st⟩ a st = hash t.endian ⟨H.writeLengthPrefix, fun st x => MaskLane.hash H x st⟩ b st) ∧
    (intEq t ty a b = .ok true ↔ lexCmp t ty true true a b = .ok .eq) := by
  refine ⟨(C55_consistent (σ := Unit) t ty ht true a b ⟨fun _ _ => (), fun _ _ => ()⟩ ()).1, (C55_consistent t ty ht true a b _ st).2.2, ?_⟩
  obtain ⟨e, he, hiff⟩ := C19_mask t ty ht a b f g ha hb
  rw [(C20_mask t ty ht a b f g ha hb).1, he, Except.ok.injEq, Except.ok.injEq, hiff, arrayCompare_eq_iff]
  constructor
  · intro h
    congr 1
    apply List.map_congr_left
    intro i hi; exact h i (List.mem_range.1 hi)
  · intro h i hi
    have := congrArg (fun l : List Int => l[i]?) h
    simp only [boolVals, List.map_map, List.getElem?_map, List.getElem?_range hi, Option.map_some, Option.some.injEq,
      Function.comp_apply] at this
    revert this; cases f i <;> cases g i <;> simp

end

/-! ## C27: bitmask -/

theorem bitNum_testBit : ∀ (L : List Bool) (i : Nat), (bitNum L).testBit i = L.getD i false
  | [], i => by simp [bitNum]
  | b :: L, i => by
    have e1 : bitNum (b :: L) = 2 * bitNum L + (if b then 1 else 0) := by
      show (if b then 1 else 0) + 2 * bitNum L = _; omega
    rw [e1]
    cases i with
    | zero => cases b <;> simp [Nat.testBit_zero]
    | succ i =>
      rw [Nat.testBit_succ]
      have : (2 * bitNum L + if b = true then 1 else 0) / 2 = bitNum L := by split <;> omega
      rw [this, bitNum_testBit L i]; rfl

/-- Bit `i` of the bitmask is the sign bit of lane `i`; bits beyond the lane count are zero. -/
theorem C27_bitmask (r : Nat) (hr : n ≤ r) (v : Vec (BitVec w) n) :
    (∀ i (h : i < n), (bitmask r v).getLsbD i = v[i].getLsbD (w - 1)) ∧
    (∀ i, n ≤ i → (bitmask r v).getLsbD i = false) := by
  have e : bitmask r v = BitVec.ofNat r (bitNum (v.toList.map BitVec.msb)) := by
    simp only [bitmask, simdBitmask, bitNum, List.foldr_map]
  constructor
  · intro i h
    rw [e, BitVec.getLsbD_ofNat, bitNum_testBit]
    have hi : i < r := by omega
    simp only [hi, decide_true, Bool.true_and, List.getD_eq_getElem?_getD, List.getElem?_map,
      List.getElem?_eq_getElem (show i < v.toList.length by simpa using h), Vector.getElem_toList, Option.map_some,
      Option.getD_some, BitVec.msb_eq_getLsbD_last]
  · intro i h
    rw [e, BitVec.getLsbD_ofNat, bitNum_testBit, List.getD_eq_getElem?_getD,
      List.getElem?_eq_none (by simpa using h)]
    simp

/-- For masks, bit `i` is the truth value of lane `i`, and a mask is determined by its bitmask. -/
theorem C27_mask (hw : 0 < w) (r : Nat) (hr : n ≤ r) (a b : Vec (BitVec w) n) (f g : Nat → Bool) (ha : Denotes a f)
    (hb : Denotes b g) :
    (∀ i, i < n → (bitmask r a).getLsbD i = f i) ∧ (bitmask r a = bitmask r b ↔ a = b) := by
  have key : ∀ (a : Vec (BitVec w) n) f, Denotes a f → ∀ i, i < n → (bitmask r a).getLsbD i = f i := by
    intro a f ha i hi
    rw [(C27_bitmask r hr a).1 i hi]
    exact ha i hi (w - 1) (by omega)
  refine ⟨key a f ha, ⟨fun h => ?_, fun h => by rw [h]⟩⟩
  ext i hi : 1
  have h1 := key a f ha i hi
  rw [h, key b g hb i hi] at h1
  rw [isMaskLane_of_denotes ha hi, isMaskLane_of_denotes hb hi, h1]

example : bitmask 8 #v[(0x80 : BitVec 8), 0x7f, 0xff, 1] = 0b0101 := by decide +kernel

/-! ## C28: select -/

/-- `m.select(a, b)` takes lane `i` of `a` where the mask is true, of `b` otherwise (any lane type, any mask lane width). -/
theorem C28_select {α : Type} (hw : 0 < w) (m : Vec (BitVec w) n) (f : Nat → Bool) (hm : Denotes m f) (a b : Vec α n) :
    ∃ r, select m a b = .ok r ∧ ∀ i (h : i < n), (f i = true → r[i] = a[i]) ∧ (f i = false → r[i] = b[i]) := by
  refine ⟨_, by rw [denotes_vec hm]; exact select_spec _ hw a b, ?_⟩
  intro i h
  constructor <;> intro hf <;> simp [hf]

/-- Selecting with the negated mask swaps the arguments. -/
theorem C28_select_not {α : Type} (hw : 0 < w) (m : Vec (BitVec w) n) (hm : ValidMask m) (a b : Vec α n) :
    select (Mask.not m) a b = select m b a := by
  obtain ⟨f, rfl⟩ := validMask_iff_exists.1 hm
  have hd : Denotes (f.map (maskBits w)) (fun i => if h : i < n then f[i] else false) := by
    intro i hi; simp [hi, isMaskLane_maskBits]
  have hn := (C17_mask_ops _ _ _ _ hd hd).1
  rw [denotes_vec hn, select_spec _ hw, select_spec _ hw]
  congr 1
  ext i hi : 1
  simp
  cases f[i] <;> simp

example : select #v[(0xffff : BitVec 16), 0] #v[1, 2] #v[3, 4] = .ok #v[1, 4] := by decide +kernel

end PackedSimd.Props
