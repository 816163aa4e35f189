import Verif.Lemmas.IntVal

namespace PackedSimd
open Intr Spec

variable {w n : Nat}

theorem toInt_intMin' (hw : 0 < w) : 2 * (BitVec.intMin w).toInt = -(2 ^ w : Int) := by
  rw [BitVec.toInt_intMin]
  have : (2 : Nat) ^ w = 2 * 2 ^ (w - 1) := by
    rw [← Nat.pow_succ']; congr 1; omega
  have h1 : 0 < 2 ^ (w-1) := Nat.two_pow_pos _
  rw [Nat.mod_eq_of_lt (by omega)]
  have e : ((2 ^ w : Nat) : Int) = (2 : Int) ^ w := by simp
  have e1 : ((2 ^ (w-1) : Nat) : Int) = (2 : Int) ^ (w-1) := by simp
  omega

theorem divBad_iff {s : Bool} {x y : BitVec w} :
    divBad s x y = true ↔ DivUndefined s w (val s x) (val s y) := by
  have hy0 : y = 0#w ↔ val s y = 0 := by
    constructor
    · rintro rfl; cases s <;> simp [val_true, val_false]
    · intro h; apply val_injective (s := s); rw [h]; cases s <;> simp [val_true, val_false]
  unfold divBad DivUndefined
  simp only [Bool.or_eq_true, Bool.and_eq_true, beq_iff_eq]
  rw [← hy0]
  rcases Nat.eq_zero_or_pos w with hw | hw
  · subst hw
    have : y = 0#0 := BitVec.eq_of_toNat_eq (by have := y.isLt; simp at this ⊢; exact this)
    simp [this]
  · apply or_congr Iff.rfl
    cases s
    · simp
    · simp only [val_true, true_and]
      apply and_congr
      · constructor
        · rintro rfl; exact toInt_intMin' hw
        · intro h; apply BitVec.eq_of_toInt_eq
          have := toInt_intMin' hw
          omega
      · have hm : (BitVec.allOnes w).toInt = -1 := by simp [hw]
        constructor
        · rintro rfl; exact hm
        · intro h; apply BitVec.eq_of_toInt_eq; omega

theorem truncDiv_tdiv_tmod (a b : Int) (hb : b ≠ 0) : TruncDiv a b (a.tdiv b) (a.tmod b) := by
  refine ⟨?_, ?_, ?_, ?_⟩
  · have := Int.mul_tdiv_add_tmod a b; rw [Int.mul_comm]; omega
  · rw [Int.natAbs_tmod]; exact Nat.mod_lt _ (by omega)
  · intro h; exact Int.tmod_nonneg _ h
  · intro h
    have h2 := Int.tmod_nonneg b (a := -a) (by omega)
    rw [Int.neg_tmod] at h2; omega

/-- Truncated division is unique. -/
theorem truncDiv_unique {a b q r q' r' : Int} (h : TruncDiv a b q r) (h' : TruncDiv a b q' r') :
    q = q' ∧ r = r' := by
  obtain ⟨h1, h2, h3, h4⟩ := h
  obtain ⟨h1', h2', h3', h4'⟩ := h'
  have hb : b ≠ 0 := by rintro rfl; simp at h2
  have hd : (q - q') * b = r' - r := by rw [Int.sub_mul]; omega
  have hlt : (r' - r).natAbs < b.natAbs := by
    rcases Int.le_total 0 a with ha | ha
    · have := h3 ha; have := h3' ha; omega
    · have := h4 ha; have := h4' ha; omega
  have hq : q - q' = 0 := by
    have := Int.natAbs_mul (q - q') b
    rw [hd] at this
    rcases Nat.eq_zero_or_pos (q - q').natAbs with h0 | h0
    · omega
    · have : b.natAbs ≤ (q - q').natAbs * b.natAbs := Nat.le_mul_of_pos_left _ h0
      omega
  rw [hq, Int.zero_mul] at hd
  omega

theorem val_sdiv_udiv {s : Bool} {x y : BitVec w} (h : ¬ DivUndefined s w (val s x) (val s y)) :
    val s (if s then x.sdiv y else x.udiv y) = (val s x).tdiv (val s y) := by
  cases s
  · simp only [Bool.false_eq_true, if_false, val_false]
    rw [BitVec.udiv_eq, BitVec.toNat_udiv]
    exact (Int.ofNat_tdiv _ _)
  · simp only [if_true, val_true]
    rw [BitVec.toInt_sdiv_of_ne_or_ne]
    rw [← divBad_iff] at h
    simp only [divBad, Bool.or_eq_true, Bool.and_eq_true, beq_iff_eq, true_and, not_or, not_and] at h
    by_cases hx : x = BitVec.intMin w
    · right; rw [BitVec.neg_one_eq_allOnes]; exact h.2 hx
    · exact Or.inl hx

theorem val_srem_umod {s : Bool} {x y : BitVec w} :
    val s (if s then x.srem y else x.umod y) = (val s x).tmod (val s y) := by
  cases s
  · simp only [Bool.false_eq_true, if_false, val_false]
    rw [BitVec.umod_eq, BitVec.toNat_umod]
    exact (Int.ofNat_tmod _ _)
  · simp only [if_true, val_true]
    rw [BitVec.toInt_srem]

theorem ofInt_val_shl (s : Bool) (x : BitVec w) (k : Nat) : BitVec.ofInt w (val s x * 2 ^ k) = x <<< k := by
  rw [BitVec.ofInt_mul, ofInt_val]
  have : BitVec.ofInt w ((2:Int) ^ k) = BitVec.twoPow w k := by
    rw [BitVec.twoPow_eq]
    rw [show (2:Int)^k = ((2^k : Nat) : Int) by simp, BitVec.ofInt_natCast]
    apply BitVec.eq_of_toNat_eq
    simp [BitVec.toNat_ofNat, Nat.shiftLeft_eq]
  rw [this, BitVec.mul_twoPow_eq_shiftLeft]

theorem val_shr (s : Bool) (x : BitVec w) (k : Nat) :
    val s (if s then x.sshiftRight k else x >>> k) = val s x / 2 ^ k := by
  cases s
  · simp only [Bool.false_eq_true, if_false, val_false, BitVec.toNat_ushiftRight, Nat.shiftRight_eq_div_pow]
    simp
  · simp only [if_true, val_true, BitVec.toInt_sshiftRight, Int.shiftRight_eq_div_pow]
    simp

/-- Every vector operator is exactly the scalar operator in every lane, and is undefined exactly
when it is undefined in some lane. -/
theorem vecOp_spec (op : BinOp) (s : Bool) (a b : Vec (BitVec w) n) :
    ((∃ i, ∃ h : i < n, ScalarUndefined op s a[i] b[i]) → vecOp op s a b = .error .ub) ∧
    ((¬ ∃ i, ∃ h : i < n, ScalarUndefined op s a[i] b[i]) →
      ∃ r, vecOp op s a b = .ok r ∧ ∀ i (h : i < n), ScalarResult op s a[i] b[i] r[i]) := by
  have hdiv : (Vector.zipWith (divBad s) a b).any id = true ↔
      ∃ i, ∃ h : i < n, DivUndefined s w (val s a[i]) (val s b[i]) := by
    simp [Vector.any_eq_true, divBad_iff]
  have hsh : b.any (fun y => decide (w ≤ y.toNat)) = true ↔ ∃ i, ∃ h : i < n, w ≤ b[i].toNat := by
    simp [Vector.any_eq_true]
  cases op <;> simp only [ScalarUndefined, vecOp, ScalarResult, wrapsTo_iff]
  case add => simpa [Ops.add, simdAdd] using fun i h => (ofInt_val_add s _ _).symm
  case sub => simpa [Ops.sub, simdSub] using fun i h => (ofInt_val_sub s _ _).symm
  case mul => simpa [Ops.mul, simdMul] using fun i h => (ofInt_val_mul s _ _).symm
  case and => simp [Ops.bitand, simdAnd]
  case or => simp [Ops.bitor, simdOr]
  case xor => simp [Ops.bitxor, simdXor]
  case div =>
    constructor
    · intro h; simp only [Ops.div, simdDiv]; rw [if_pos (hdiv.2 h)]
    · intro h
      refine ⟨Vector.zipWith (fun x y => if s then x.sdiv y else x.udiv y) a b, ?_, ?_⟩
      · simp only [Ops.div, simdDiv]; rw [if_neg (by rw [hdiv]; exact h)]
      · intro i hi
        have hu : ¬ DivUndefined s w (val s a[i]) (val s b[i]) := fun hh => h ⟨i, hi, hh⟩
        refine ⟨(val s a[i]).tmod (val s b[i]), ?_⟩
        rw [Vector.getElem_zipWith, val_sdiv_udiv hu]
        exact truncDiv_tdiv_tmod _ _ (fun h0 => hu (Or.inl h0))
  case rem =>
    constructor
    · intro h; simp only [Ops.rem, simdRem]; rw [if_pos (hdiv.2 h)]
    · intro h
      refine ⟨Vector.zipWith (fun x y => if s then x.srem y else x.umod y) a b, ?_, ?_⟩
      · simp only [Ops.rem, simdRem]; rw [if_neg (by rw [hdiv]; exact h)]
      · intro i hi
        have hu : ¬ DivUndefined s w (val s a[i]) (val s b[i]) := fun hh => h ⟨i, hi, hh⟩
        refine ⟨(val s a[i]).tdiv (val s b[i]), ?_⟩
        rw [Vector.getElem_zipWith, val_srem_umod]
        exact truncDiv_tdiv_tmod _ _ (fun h0 => hu (Or.inl h0))
  case shl =>
    constructor
    · intro h; simp [Ops.shl, simdShl, hsh.2 h]
    · intro h
      refine ⟨Vector.zipWith (fun x y => x <<< y.toNat) a b, ?_, ?_⟩
      · simp only [Ops.shl, simdShl]; rw [if_neg (by rw [hsh]; exact h)]
      · intro i hi
        rw [Vector.getElem_zipWith, ofInt_val_shl]
  case shr =>
    constructor
    · intro h; simp [Ops.shr, simdShr, hsh.2 h]
    · intro h
      refine ⟨Vector.zipWith (fun x y => if s then x.sshiftRight y.toNat else x >>> y.toNat) a b, ?_, ?_⟩
      · simp only [Ops.shr, simdShr]; rw [if_neg (by rw [hsh]; exact h)]
      · intro i hi
        rw [Vector.getElem_zipWith, val_shr]

end PackedSimd
