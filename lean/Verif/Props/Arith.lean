import Verif.Lemmas.Ops
/-
C09, C10, C11, C12, C13, C14, C16 (integers), C17: lane-wise operators.
-/

namespace PackedSimd.Props
open PackedSimd Spec

variable {w n : Nat}

/-- `WrapsTo` pins down the lane: there is exactly one lane value that an exact integer wraps to. -/
theorem wrapsTo_unique (s : Bool) (z : Int) : ∃ x : BitVec w, WrapsTo s w z x ∧ ∀ y, WrapsTo s w z y → y = x :=
  ⟨BitVec.ofInt w z, wrapsTo_iff.2 rfl, fun _ h => wrapsTo_iff.1 h⟩

/-! ## C09 -/

theorem C09_add (s : Bool) (a b : Vec (BitVec w) n) (i : Nat) (h : i < n) :
    WrapsTo s w (val s a[i] + val s b[i]) (Ops.add a b)[i] := by
  rw [wrapsTo_iff, ofInt_val_add]; simp [Ops.add, Intr.simdAdd]

theorem C09_sub (s : Bool) (a b : Vec (BitVec w) n) (i : Nat) (h : i < n) :
    WrapsTo s w (val s a[i] - val s b[i]) (Ops.sub a b)[i] := by
  rw [wrapsTo_iff, ofInt_val_sub]; simp [Ops.sub, Intr.simdSub]

theorem C09_mul (s : Bool) (a b : Vec (BitVec w) n) (i : Nat) (h : i < n) :
    WrapsTo s w (val s a[i] * val s b[i]) (Ops.mul a b)[i] := by
  rw [wrapsTo_iff, ofInt_val_mul]; simp [Ops.mul, Intr.simdMul]

/-- i8: 100 + 100 wraps to -56 (a concrete wrapping case). -/
example : WrapsTo true 8 (100 + 100) (Ops.add #v[(100 : BitVec 8)] #v[100])[0] :=
  C09_add true #v[(100 : BitVec 8)] #v[100] 0 (by decide)
example : val true ((Ops.add #v[(100 : BitVec 8)] #v[100])[0]) = -56 := by decide +kernel

/-! ## C10 -/

/-- `/` is truncated division where defined; undefined exactly when some lane divides by zero or overflows. -/
theorem C10_div (s : Bool) (a b : Vec (BitVec w) n) :
    ((∃ i, ∃ h : i < n, DivUndefined s w (val s a[i]) (val s b[i])) → Ops.div s a b = .error .ub) ∧
    ((¬ ∃ i, ∃ h : i < n, DivUndefined s w (val s a[i]) (val s b[i])) →
      ∃ r, Ops.div s a b = .ok r ∧
        ∀ i (h : i < n), ∃ m, TruncDiv (val s a[i]) (val s b[i]) (val s r[i]) m) :=
  vecOp_spec .div s a b

/-- `%` is the matching remainder. -/
theorem C10_rem (s : Bool) (a b : Vec (BitVec w) n) :
    ((∃ i, ∃ h : i < n, DivUndefined s w (val s a[i]) (val s b[i])) → Ops.rem s a b = .error .ub) ∧
    ((¬ ∃ i, ∃ h : i < n, DivUndefined s w (val s a[i]) (val s b[i])) →
      ∃ r, Ops.rem s a b = .ok r ∧
        ∀ i (h : i < n), ∃ q, TruncDiv (val s a[i]) (val s b[i]) q (val s r[i])) :=
  vecOp_spec .rem s a b

/-- Whenever both are defined, `a = (a / b) * b + a % b` in every lane, with `|a % b| < |b|` and `a % b` taking
the sign of `a`. -/
theorem C10_div_rem (s : Bool) (a b q r : Vec (BitVec w) n)
    (hq : Ops.div s a b = .ok q) (hr : Ops.rem s a b = .ok r) (i : Nat) (h : i < n) :
    TruncDiv (val s a[i]) (val s b[i]) (val s q[i]) (val s r[i]) := by
  have hn : ¬ ∃ i, ∃ h : i < n, DivUndefined s w (val s a[i]) (val s b[i]) := by
    intro hh; rw [(C10_div s a b).1 hh] at hq; cases hq
  obtain ⟨q', hq', h1⟩ := (C10_div s a b).2 hn
  obtain ⟨r', hr', h2⟩ := (C10_rem s a b).2 hn
  rw [hq] at hq'; rw [hr] at hr'
  cases hq'; cases hr'
  obtain ⟨m, hm⟩ := h1 i h
  obtain ⟨k, hk⟩ := h2 i h
  obtain ⟨_, e2⟩ := truncDiv_unique hm hk
  rw [← e2]; exact hm

example : Ops.div true #v[(-7 : BitVec 8), 7] #v[2, -2] = .ok #v[-3, -3] ∧
    Ops.rem true #v[(-7 : BitVec 8), 7] #v[2, -2] = .ok #v[-1, 1] := by decide +kernel
example : Ops.div true #v[(-128 : BitVec 8)] #v[-1] = .error .ub := by decide +kernel

/-! ## C11 -/

/-- `v op x`: every lane is the scalar result of `lane op x`, undefined exactly when that is. -/
theorem C11_vector_scalar (op : BinOp) (s : Bool) (a : Vec (BitVec w) n) (x : BitVec w)
    (hop : op ≠ .shl ∧ op ≠ .shr) :
    ∃ out, vecScalarOp op s a x = some out ∧
    ((∃ i, ∃ h : i < n, ScalarUndefined op s a[i] x) → out = .error .ub) ∧
    ((¬ ∃ i, ∃ h : i < n, ScalarUndefined op s a[i] x) →
      ∃ r, out = .ok r ∧ ∀ i (h : i < n), ScalarResult op s a[i] x r[i]) := by
  have key := vecOp_spec op s a (splat n x)
  simp only [splat, Vector.getElem_ofFn] at key
  refine ⟨vecOp op s a (splat n x), ?_, key⟩
  cases op <;> first | rfl | simp at hop

/-- `x op v`: every lane is the scalar result of `x op lane` (operands not swapped). -/
theorem C11_scalar_vector (op : BinOp) (s : Bool) (x : BitVec w) (a : Vec (BitVec w) n)
    (hop : op ≠ .shl ∧ op ≠ .shr) :
    ∃ out, scalarVecOp op s x a = some out ∧
    ((∃ i, ∃ h : i < n, ScalarUndefined op s x a[i]) → out = .error .ub) ∧
    ((¬ ∃ i, ∃ h : i < n, ScalarUndefined op s x a[i]) →
      ∃ r, out = .ok r ∧ ∀ i (h : i < n), ScalarResult op s x a[i] r[i]) := by
  have key := vecOp_spec op s (splat n x) a
  simp only [splat, Vector.getElem_ofFn] at key
  refine ⟨vecOp op s (splat n x) a, ?_, key⟩
  cases op <;> first | rfl | simp at hop

/-- The assigning operators store exactly what the binary operator returns (and fault when it faults). -/
theorem C11_assign {σ τ : Type} (op : σ → τ → R σ) (self : σ) (other : τ) :
    Ops.assign op self other = op self other := by
  unfold Ops.assign
  cases op self other <;> rfl

/-- `v << k` with a `u32` amount below the lane width: multiplication by `2^k` in every lane. -/
theorem C11_C14_shl_u32 (s : Bool) (a : Vec (BitVec w) n) (k : BitVec 32) (hk : k.toNat < w) :
    ∃ r, Ops.shlU32 a k = .ok r ∧ ∀ i (h : i < n), WrapsTo s w (val s a[i] * 2 ^ k.toNat) r[i] := by
  have hk2 : (k.setWidth w).toNat = k.toNat := by
    rw [BitVec.toNat_setWidth]; exact Nat.mod_eq_of_lt (Nat.lt_trans hk Nat.lt_two_pow_self)
  have key := (vecOp_spec .shl s a (splat n (k.setWidth w))).2 (by
    rintro ⟨i, h, hu⟩
    simp only [ScalarUndefined, splat, Vector.getElem_ofFn, hk2] at hu
    omega)
  simp only [ScalarResult, splat, Vector.getElem_ofFn, hk2] at key
  exact key

/-- `v >> k` with a `u32` amount below the lane width: floor division by `2^k` in every lane. -/
theorem C11_C14_shr_u32 (s : Bool) (a : Vec (BitVec w) n) (k : BitVec 32) (hk : k.toNat < w) :
    ∃ r, Ops.shrU32 s a k = .ok r ∧ ∀ i (h : i < n), val s r[i] = val s a[i] / 2 ^ k.toNat := by
  have hk2 : (k.setWidth w).toNat = k.toNat := by
    rw [BitVec.toNat_setWidth]; exact Nat.mod_eq_of_lt (Nat.lt_trans hk Nat.lt_two_pow_self)
  have key := (vecOp_spec .shr s a (splat n (k.setWidth w))).2 (by
    rintro ⟨i, h, hu⟩
    simp only [ScalarUndefined, splat, Vector.getElem_ofFn, hk2] at hu
    omega)
  simp only [ScalarResult, splat, Vector.getElem_ofFn, hk2] at key
  exact key

example : scalarVecOp .sub false (10 : BitVec 8) #v[1, 2, 3] = some (.ok #v[9, 8, 7]) := by decide +kernel
example : vecScalarOp .sub false #v[(1 : BitVec 8), 2, 3] 10 = some (.ok #v[247, 248, 249]) := by decide +kernel
/-- Observation (not claimed by any property): a `u32` amount is first narrowed to the lane type, so
`u8x2 << 257` behaves as `<< 1` instead of being rejected. -/
example : Ops.shlU32 #v[(3 : BitVec 8), 5] 257 = .ok #v[6, 10] := by decide +kernel

/-! ## C12 -/

theorem ofInt_neg_one_mul (x : BitVec w) : BitVec.ofInt w (-1) * x = -x := by
  rw [BitVec.ofInt_neg]; simp

theorem C12_neg (s : Bool) (a : Vec (BitVec w) n) (i : Nat) (h : i < n) :
    WrapsTo s w (-(val s a[i])) (Ops.neg a)[i] := by
  rw [wrapsTo_iff, ofInt_val_neg]
  simp [Ops.neg, Ops.mul, Intr.simdMul, splat, ofInt_neg_one_mul]

theorem C12_neg_neg (a : Vec (BitVec w) n) : Ops.neg (Ops.neg a) = a := by
  ext i h : 1
  simp [Ops.neg, Ops.mul, Intr.simdMul, splat, ofInt_neg_one_mul]

theorem C12_add_neg (a : Vec (BitVec w) n) : Ops.add a (Ops.neg a) = splat n 0 := by
  ext i h : 1
  simp only [Ops.neg, Ops.mul, Intr.simdMul, splat, Ops.add, Intr.simdAdd, Vector.getElem_zipWith,
    Vector.getElem_ofFn]
  rw [ofInt_neg_one_mul]; exact BitVec.add_right_neg _

example : Ops.neg #v[(-128 : BitVec 8), 5] = #v[-128, -5] := by decide +kernel

/-! ## C13 -/

theorem C13_bitwise (a b : Vec (BitVec w) n) (i : Nat) (h : i < n) (j : Nat) (hj : j < w) :
    ((Ops.not a)[i].getLsbD j = !(a[i].getLsbD j)) ∧
    ((Ops.bitand a b)[i].getLsbD j = (a[i].getLsbD j && b[i].getLsbD j)) ∧
    ((Ops.bitor a b)[i].getLsbD j = (a[i].getLsbD j || b[i].getLsbD j)) ∧
    ((Ops.bitxor a b)[i].getLsbD j = Bool.xor (a[i].getLsbD j) (b[i].getLsbD j)) := by
  simp [Ops.not, Ops.bitand, Ops.bitor, Ops.bitxor, Intr.simdXor, Intr.simdAnd, Intr.simdOr, splat, hj]

example : Ops.not #v[(0b10 : BitVec 4), 0b1111] = #v[0b1101, 0] := by decide +kernel

/-! ## C14 -/

/-- `a << b`: defined iff every amount is below the width; then multiplication by a power of two with wrap-around. -/
theorem C14_shl (s : Bool) (a b : Vec (BitVec w) n) :
    ((∃ i, ∃ _ : i < n, w ≤ b[i].toNat) → Ops.shl a b = .error .ub) ∧
    ((∀ i (_ : i < n), b[i].toNat < w) →
      ∃ r, Ops.shl a b = .ok r ∧ ∀ i (h : i < n), WrapsTo s w (val s a[i] * 2 ^ b[i].toNat) r[i]) := by
  have key := vecOp_spec .shl s a b
  refine ⟨key.1, fun h => key.2 ?_⟩
  rintro ⟨i, hi, hu⟩
  have := h i hi
  simp only [ScalarUndefined] at hu; omega

/-- `a >> b`: floor division by a power of two, for signed and unsigned lanes. -/
theorem C14_shr (s : Bool) (a b : Vec (BitVec w) n) :
    ((∃ i, ∃ _ : i < n, w ≤ b[i].toNat) → Ops.shr s a b = .error .ub) ∧
    ((∀ i (_ : i < n), b[i].toNat < w) →
      ∃ r, Ops.shr s a b = .ok r ∧ ∀ i (h : i < n), val s r[i] = val s a[i] / 2 ^ b[i].toNat) := by
  have key := vecOp_spec .shr s a b
  refine ⟨key.1, fun h => key.2 ?_⟩
  rintro ⟨i, hi, hu⟩
  have := h i hi
  simp only [ScalarUndefined] at hu; omega

example : Ops.shr true #v[(-7 : BitVec 8), -7] #v[1, 7] = .ok #v[-4, -1] := by decide +kernel
example : Ops.shr false #v[(0x80 : BitVec 8)] #v[8] = .error .ub := by decide +kernel

/-! ## C16 (integer vectors) -/

theorem laneLt_iff (s : Bool) (x y : BitVec w) : Intr.laneLt s x y = true ↔ val s x < val s y := by
  cases s
  · simp [Intr.laneLt, BitVec.ult_eq_decide, val_false]
  · simp [Intr.laneLt, BitVec.slt_eq_decide, val_true]

theorem laneLe_iff (s : Bool) (x y : BitVec w) : Intr.laneLe s x y = true ↔ val s x ≤ val s y := by
  cases s
  · simp [Intr.laneLe, BitVec.ule_eq_decide, val_false]
  · simp [Intr.laneLe, BitVec.sle_eq_decide, val_true]

theorem select_spec {α : Type} (f : Vec Bool n) (hw : 0 < w) (a b : Vec α n) :
    select (f.map (Intr.maskBits w)) a b = .ok (Vector.ofFn fun i => if f[i] then a[i] else b[i]) := by
  unfold select Intr.simdSelect
  rw [if_pos]
  · congr 2; funext i
    simp [maskBits_ne_zero hw]
  · simp [Vector.all_eq_true, legalMaskLane_maskBits]

/-- `min` / `max` succeed and return in each lane one of the two operands, the smaller / larger one. -/
theorem C16_min (hw : 0 < w) (s : Bool) (a b : Vec (BitVec w) n) :
    ∃ r, Ops.min s a b = .ok r ∧ ∀ i (h : i < n), val s r[i] = min (val s a[i]) (val s b[i]) := by
  have e : Cmp.lt false s a b = (Vector.zipWith (Intr.laneLt s) a b).map (Intr.maskBits w) := by
    ext i h : 1; simp [Cmp.lt, Intr.simdLt]
  refine ⟨_, by unfold Ops.min; rw [e, select_spec _ hw], ?_⟩
  intro i h
  simp only [Vector.getElem_ofFn, Fin.getElem_fin, Vector.getElem_zipWith, laneLt_iff]
  split <;> omega

theorem C16_max (hw : 0 < w) (s : Bool) (a b : Vec (BitVec w) n) :
    ∃ r, Ops.max s a b = .ok r ∧ ∀ i (h : i < n), val s r[i] = max (val s a[i]) (val s b[i]) := by
  have e : Cmp.gt false s a b = (Vector.zipWith (fun x y => Intr.laneLt s y x) a b).map (Intr.maskBits w) := by
    ext i h : 1; simp [Cmp.gt, Intr.simdGt]
  refine ⟨_, by unfold Ops.max; rw [e, select_spec _ hw], ?_⟩
  intro i h
  simp only [Vector.getElem_ofFn, Fin.getElem_fin, Vector.getElem_zipWith, laneLt_iff]
  split <;> omega

/-- Commutativity, associativity, idempotence of `min` and `max` as operations on whole vectors. -/
theorem C16_laws (hw : 0 < w) (s : Bool) (a b c : Vec (BitVec w) n) :
    Ops.min s a b = Ops.min s b a ∧ Ops.max s a b = Ops.max s b a ∧
    (Ops.min s a b >>= fun x => Ops.min s x c) = (Ops.min s b c >>= fun x => Ops.min s a x) ∧
    (Ops.max s a b >>= fun x => Ops.max s x c) = (Ops.max s b c >>= fun x => Ops.max s a x) ∧
    Ops.min s a a = .ok a ∧ Ops.max s a a = .ok a := by
  have ext' : ∀ {x y : Vec (BitVec w) n}, (∀ i (h : i < n), val s x[i] = val s y[i]) → x = y := by
    intro x y h; ext i hi : 1; exact val_injective (h i hi)
  have hmin := fun x y => C16_min (n := n) hw s x y
  have hmax := fun x y => C16_max (n := n) hw s x y
  refine ⟨?_, ?_, ?_, ?_, ?_, ?_⟩
  · obtain ⟨r1, e1, h1⟩ := hmin a b
    obtain ⟨r2, e2, h2⟩ := hmin b a
    rw [e1, e2]; exact congrArg Except.ok (ext' (fun i h => by have := h1 i h; have := h2 i h; omega))
  · obtain ⟨r1, e1, h1⟩ := hmax a b
    obtain ⟨r2, e2, h2⟩ := hmax b a
    rw [e1, e2]; exact congrArg Except.ok (ext' (fun i h => by have := h1 i h; have := h2 i h; omega))
  · obtain ⟨r1, e1, h1⟩ := hmin a b
    obtain ⟨r2, e2, h2⟩ := hmin b c
    obtain ⟨r3, e3, h3⟩ := hmin r1 c
    obtain ⟨r4, e4, h4⟩ := hmin a r2
    rw [e1, e2]
    show Ops.min s r1 c = Ops.min s a r2
    rw [e3, e4]; exact congrArg Except.ok (ext' (fun i h => by have := h3 i h; have := h4 i h; have := h1 i h; have := h2 i h; omega))
  · obtain ⟨r1, e1, h1⟩ := hmax a b
    obtain ⟨r2, e2, h2⟩ := hmax b c
    obtain ⟨r3, e3, h3⟩ := hmax r1 c
    obtain ⟨r4, e4, h4⟩ := hmax a r2
    rw [e1, e2]
    show Ops.max s r1 c = Ops.max s a r2
    rw [e3, e4]; exact congrArg Except.ok (ext' (fun i h => by have := h3 i h; have := h4 i h; have := h1 i h; have := h2 i h; omega))
  · obtain ⟨r1, e1, h1⟩ := hmin a a
    rw [e1]; exact congrArg Except.ok (ext' (fun i h => by have := h1 i h; omega))
  · obtain ⟨r1, e1, h1⟩ := hmax a a
    rw [e1]; exact congrArg Except.ok (ext' (fun i h => by have := h1 i h; omega))

example : Ops.min true #v[(-1 : BitVec 8), 3] #v[1, 2] = .ok #v[-1, 2] ∧
    Ops.min false #v[(-1 : BitVec 8), 3] #v[1, 2] = .ok #v[1, 2] := by decide +kernel

/-! ## C17 -/

theorem isMaskLane_of_denotes {v : Vec (BitVec w) n} {f : Nat → Bool} (h : Denotes v f) {i : Nat} (hi : i < n) :
    v[i] = Intr.maskBits w (f i) := isMaskLane_iff.1 (h i hi)

/-- The mask operators compute the Boolean operators of the lanes. -/
theorem C17_mask_ops (a b : Vec (BitVec w) n) (f g : Nat → Bool) (ha : Denotes a f) (hb : Denotes b g) :
    Denotes (Mask.not a) (fun i => !f i) ∧
    Denotes (Mask.bitand a b) (fun i => f i && g i) ∧
    Denotes (Mask.bitor a b) (fun i => f i || g i) ∧
    Denotes (Mask.bitxor a b) (fun i => Bool.xor (f i) (g i)) := by
  refine ⟨?_, ?_, ?_, ?_⟩ <;> intro i hi j hj <;>
    simp [Mask.not, Mask.bitand, Mask.bitor, Mask.bitxor, Intr.simdXor, Intr.simdAnd, Intr.simdOr, Mask.splat,
      isMaskLane_of_denotes ha hi, isMaskLane_of_denotes hb hi, hj]

/-- The same with a scalar `bool` on either side. -/
theorem C17_mask_scalar_ops (a : Vec (BitVec w) n) (f : Nat → Bool) (ha : Denotes a f) (x : Bool) :
    Denotes (Mask.bitandVS a x) (fun i => f i && x) ∧ Denotes (Mask.bitandSV x a) (fun i => x && f i) ∧
    Denotes (Mask.bitorVS a x) (fun i => f i || x) ∧ Denotes (Mask.bitorSV x a) (fun i => x || f i) ∧
    Denotes (Mask.bitxorVS a x) (fun i => Bool.xor (f i) x) ∧
    Denotes (Mask.bitxorSV x a) (fun i => Bool.xor x (f i)) := by
  have hs : Denotes (Mask.splat w n x) (fun _ => x) := by
    intro i hi; simpa [Mask.splat] using isMaskLane_maskBits x
  have h1 := C17_mask_ops a _ f _ ha hs
  have h2 := C17_mask_ops _ a _ f hs ha
  exact ⟨h1.2.1, h2.2.1, h1.2.2.1, h2.2.2.1, h1.2.2.2, h2.2.2.2⟩

/-- What `Denotes` means at the API: `extract` returns the Boolean. -/
theorem C17_extract_of_denotes [LaneCount n] (hw : 0 < w) (a : Vec (BitVec w) n) (f : Nat → Bool)
    (ha : Denotes a f) (i : Nat) (hi : i < n) : Mask.extract a i = .ok (f i) := by
  rw [Mask.extract_of_lt _ hi, isMaskLane_of_denotes ha hi, maskBits_ne_zero hw]

example : Denotes (Mask.new 16 #v[true, false]) (fun i => i == 0) := by
  intro i hi
  rw [isMaskLane_iff]
  match i, hi with
  | 0, _ => rfl
  | 1, _ => rfl

end PackedSimd.Props
