import Verif.Lemmas.Convert
/-
Conversions between vector types: C35 (`From`), C36 (integer `cast`), C37 (mask `cast`), C59, C60 (float `cast`), C61 (available casts).

`p` is the size of a pointer in bytes; the tables in `Model/Tables.lean` list every impl of the crate (`Listed`, `Casts`).
-/
namespace PackedSimd.Props
open PackedSimd Spec Intr Cast

variable {p : Nat}

/-! ## C35: `From` -/

/-- `From` between numeric vectors preserves the number in every lane. -/
theorem C35_numeric (hp : p = 4 ∨ p = 8) (dst src : VTy) (h : Listed Tables.fromTable dst src) (hk : src.elem.kind ≠ .mask)
    (x : Vec (BitVec (src.elem.bits p)) src.lanes) :
    src.lanes = dst.lanes ∧ dst.elem.kind ≠ .mask ∧ ∃ y, fromVector p dst.elem src.elem x = .ok y ∧
      ∀ i (hi : i < src.lanes), (numberOf p dst.elem y[i]).Same (numberOf p src.elem x[i]) := by
  obtain ⟨r, hr, rfl, hs⟩ := h
  obtain ⟨hl, hc⟩ := fromTable_cond r hr src hs
  rcases hc with ⟨h1, -⟩ | ⟨-, h2, h4, h8⟩
  · exact absurd h1 hk
  · have hll : losslessB p r.1.elem src.elem = true := by rcases hp with rfl | rfl <;> assumption
    refine ⟨hl, h2, ?_⟩
    have hlane := fun z => castLane_lossless hll z
    refine ⟨x.map fun z => Classical.choose (hlane z), simdCast_ok _ _ _ _ _ fun z => (Classical.choose_spec (hlane z)).1, ?_⟩
    intro i hi
    rw [Vector.getElem_map]
    exact (Classical.choose_spec (hlane x[i])).2

/-- `From` between masks preserves the truth value of every lane (and gives a valid mask). -/
theorem C35_mask (hp : p = 4 ∨ p = 8) (dst src : VTy) (h : Listed Tables.fromTable dst src) (hk : src.elem.kind = .mask)
    (x : Vec (BitVec (src.elem.bits p)) src.lanes) (b : Nat → Bool) (hx : Denotes x b) :
    src.lanes = dst.lanes ∧ dst.elem.kind = .mask ∧ ∃ y, fromVector p dst.elem src.elem x = .ok y ∧ Denotes y b := by
  obtain ⟨r, hr, rfl, hs⟩ := h
  obtain ⟨hl, hc⟩ := fromTable_cond r hr src hs
  rcases hc with ⟨-, h2⟩ | ⟨h1, -, -, -⟩
  · exact ⟨hl, h2, simdCast_mask hp hk (by rw [h2]; decide) x b hx⟩
  · exact absurd hk h1

/-- The table provides every lossless conversion between fixed-width numeric types of equal lane count. -/
theorem C35_complete : ∀ a ∈ Tables.vectorTypes, ∀ b ∈ Tables.vectorTypes, a.ty ≠ b.ty → a.ty.lanes = b.ty.lanes →
    a.ty.elem.kind ≠ .mask → b.ty.elem.kind ≠ .mask → a.ty.elem.bytes 4 = a.ty.elem.bytes 8 → b.ty.elem.bytes 4 = b.ty.elem.bytes 8 →
    losslessB 4 a.ty.elem b.ty.elem = true → Tables.fromTable.any (fun r => r.1 == a.ty && r.2.contains b.ty) = true := by
  decide +kernel

/-- u16 65535 becomes f32 65535 exactly; i8 -1 becomes i16 -1; a mask lane stays true. -/
example : fromVector 8 .f32 .u16 #v[(0xffff : BitVec 16), 1] = .ok #v[0x477fff00, 0x3f800000] ∧
    fromVector 8 .i16 .i8 #v[(0xff : BitVec 8), 1] = .ok #v[0xffff, 1] ∧
    fromVector 8 .m8 .m64 #v[(0xffffffffffffffff : BitVec 64), 0] = .ok #v[0xff, 0] ∧
    Listed Tables.fromTable ⟨.f32, 2⟩ ⟨.u16, 2⟩ ∧ Listed Tables.fromTable ⟨.m8, 2⟩ ⟨.m64, 2⟩ := by
  unfold Listed; decide +kernel

/-! ## C61: available casts -/

/-- `cast` is available between any two different vector types of the crate with the same number of lanes, by exactly one impl; and only between
such types. -/
theorem C61_available (a b : VectorRow) (ha : a ∈ Tables.vectorTypes) (hb : b ∈ Tables.vectorTypes) (hne : a.ty ≠ b.ty) :
    (∃ f, Casts p a.ty b.ty f) ↔ a.ty.lanes = b.ty.lanes := by
  constructor
  · rintro ⟨f, h⟩
    cases h with
    | cast h => obtain ⟨r, hr, e, hs⟩ := h; rw [← e]; exact (castTables_lanes.1 r hr _ hs).symm
    | mask h => obtain ⟨r, hr, e, hs⟩ := h; rw [← e]; exact (castTables_lanes.2 r hr _ hs).1.symm
  · intro hl
    have := castTable_complete a ha b hb hl hne
    cases h1 : Tables.castTable.any (fun r => r.1 == a.ty && r.2.contains b.ty) with
    | true => exact ⟨_, .cast ((listed_iff _ _ _).2 h1)⟩
    | false =>
      rw [h1] at this
      exact ⟨_, .mask ((listed_iff _ _ _).2 (by simpa using this))⟩

/-- Casting a vector to its own type is always possible, gives the vector itself, and no second implementation interferes. -/
theorem C61_reflexive (v : VTy) : (∀ x : v.Val p, fromCastRefl x = x) ∧ ¬ ∃ f, Casts p v v f := by
  refine ⟨fun _ => rfl, ?_⟩
  have h1 : ∀ r ∈ Tables.castTable, r.1 ∉ r.2 := by decide +kernel
  have h2 : ∀ r ∈ Tables.castMaskTable, r.1 ∉ r.2 := by decide +kernel
  rintro ⟨f, h⟩
  cases h with
  | cast h => obtain ⟨r, hr, e, hs⟩ := h; exact h1 r hr (by rw [e]; exact hs)
  | mask h => obtain ⟨r, hr, e, hs⟩ := h; exact h2 r hr (by rw [e]; exact hs)

/-- No pair of types has two impls, so `cast` is a function of the two types. -/
theorem C61_unique (a b : VectorRow) (ha : a ∈ Tables.vectorTypes) (hb : b ∈ Tables.vectorTypes) (hne : a.ty ≠ b.ty)
    (f g : Vec (BitVec (b.ty.elem.bits p)) b.ty.lanes → R (Vec (BitVec (a.ty.elem.bits p)) b.ty.lanes)) (hf : Casts p a.ty b.ty f)
    (hg : Casts p a.ty b.ty g) : f = g := by
  have hl := (C61_available (p := p) a b ha hb hne).1 ⟨f, hf⟩
  have := castTable_complete a ha b hb hl hne
  cases hf with
  | cast h1 =>
    cases hg with
    | cast _ => rfl
    | mask h2 => rw [(listed_iff _ _ _).1 h1, (listed_iff _ _ _).1 h2] at this; cases this
  | mask h1 =>
    cases hg with
    | cast h2 => rw [(listed_iff _ _ _).1 h1, (listed_iff _ _ _).1 h2] at this; cases this
    | mask _ => rfl

/-- The types and casts meant. -/
example : (∃ f, Casts 8 ⟨.f32, 4⟩ ⟨.usize, 4⟩ f) ∧ (∃ f, Casts 8 ⟨.m8, 2⟩ ⟨.f64, 2⟩ f) :=
  ⟨⟨_, .cast (by unfold Listed; decide +kernel)⟩, ⟨_, .mask (by unfold Listed; decide +kernel)⟩⟩

/-! ## C36: integer casts -/

/-- Between integer vectors, each lane is the target value congruent to the source value modulo `2^width`. -/
theorem C36_int {dst src : VTy} {cast} (h : Casts p dst src cast) (hs : src.elem.kind = .sint ∨ src.elem.kind = .uint)
    (hd : dst.elem.kind = .sint ∨ dst.elem.kind = .uint) (x : Vec (BitVec (src.elem.bits p)) src.lanes) :
    src.lanes = dst.lanes ∧ ∃ y, cast x = .ok y ∧
      ∀ i (hi : i < src.lanes), WrapsTo (dst.elem.kind == .sint) (dst.elem.bits p) (val (src.elem.kind == .sint) x[i]) y[i] := by
  obtain ⟨rfl, hl⟩ := casts_numeric h (by rcases hd with e | e <;> rw [e] <;> decide)
  refine ⟨hl, _, simdCast_ok p _ _ x _ (castLane_int p (by rcases hs with e | e <;> rw [e] <;> decide)
    (by rcases hd with e | e <;> rw [e] <;> decide)), ?_⟩
  intro i hi
  rw [Vector.getElem_map, resize_eq, wrapsTo_iff]
  have : src.elem.signed = (src.elem.kind == .sint) := by
    rcases hs with e | e <;> simp [Elem.signed, e]
  rw [this]

/-- In particular: same width is a no-op on the bits, narrowing keeps the low bits, and widening preserves the value of the lane
if the target is signed like the source, or signed and wider. -/
theorem C36_cases {dst src : VTy} {cast} (h : Casts p dst src cast) (hs : src.elem.kind = .sint ∨ src.elem.kind = .uint)
    (hd : dst.elem.kind = .sint ∨ dst.elem.kind = .uint) (x : Vec (BitVec (src.elem.bits p)) src.lanes) :
    ∃ y, cast x = .ok y ∧ ∀ i (hi : i < src.lanes),
      (dst.elem.bits p ≤ src.elem.bits p → y[i].toNat = x[i].toNat % 2 ^ dst.elem.bits p) ∧
      (src.elem.bits p ≤ dst.elem.bits p → src.elem.kind = .uint → y[i].toNat = x[i].toNat) ∧
      (src.elem.bits p ≤ dst.elem.bits p → src.elem.kind = .sint → val true y[i] = val true x[i]) := by
  obtain ⟨hl, y, hy, hl⟩ := C36_int h hs hd x
  refine ⟨y, hy, ?_⟩
  intro i hi
  have e := wrapsTo_iff.1 (hl i hi)
  rw [← resize_eq] at e
  rw [e]
  unfold resize
  refine ⟨?_, ?_, ?_⟩
  · intro hw
    cases hk : (src.elem.kind == Kind.sint)
    · simp
    · simp [BitVec.signExtend_eq_setWidth_of_le _ hw]
  · intro hw hk
    rw [hk]
    simp only [show (Kind.uint == Kind.sint) = false from rfl, Bool.false_eq_true, if_false]
    rw [BitVec.toNat_setWidth]
    exact Nat.mod_eq_of_lt (Nat.lt_of_lt_of_le x[i].isLt (Nat.pow_le_pow_right (by decide) hw))
  · intro hw hk
    rw [hk]
    exact val_resize true true _ _ (inRange_mono (val_inRange _ _) hw (.inl rfl))

/-- Widening and narrowing back is the identity. -/
theorem C36_round_trip {a b : VTy} {up down} (hup : Casts p b a up) (hdown : Casts p a b down)
    (ha : a.elem.kind = .sint ∨ a.elem.kind = .uint) (hb : b.elem.kind = .sint ∨ b.elem.kind = .uint) (hw : a.elem.bits p ≤ b.elem.bits p)
    (x : Vec (BitVec (a.elem.bits p)) a.lanes) :
    ∃ hl : a.lanes = b.lanes, ∃ y z, up x = .ok y ∧ down (y.cast hl) = .ok z ∧ z = x.cast hl := by
  obtain ⟨hl, y, hy, hyl⟩ := C36_int hup ha hb x
  obtain ⟨-, z, hz, hzl⟩ := C36_int hdown hb ha (y.cast hl)
  refine ⟨hl, y, z, hy, hz, ?_⟩
  ext i hi : 1
  have e1 := wrapsTo_iff.1 (hyl i (by omega))
  have e2 := wrapsTo_iff.1 (hzl i hi)
  rw [e2]
  simp only [Vector.getElem_cast]
  rw [e1]
  -- both conversions only depend on the source value modulo the narrower power of two
  have hx : x[i] = BitVec.ofInt (a.elem.bits p) (val (a.elem.kind == .sint) x[i]) := (ofInt_val _ _).symm
  generalize val (a.elem.kind == Kind.sint) x[i] = v at hx
  rw [hx]
  symm
  apply (wrapsTo_iff (s := false)).1
  refine ⟨val_inRange _ _, ?_⟩
  have h1 : (2 ^ a.elem.bits p : Int) ∣ val false (BitVec.ofInt (a.elem.bits p) v) - v := ((wrapsTo_iff (s := false)).2 rfl).2
  have h2 : (2 ^ b.elem.bits p : Int) ∣ val (b.elem.kind == .sint) (BitVec.ofInt (b.elem.bits p) v) - v :=
    ((wrapsTo_iff (s := (b.elem.kind == .sint))).2 rfl).2
  have h3 : (2 ^ a.elem.bits p : Int) ∣ val (b.elem.kind == .sint) (BitVec.ofInt (b.elem.bits p) v) - v :=
    Int.dvd_trans ⟨2 ^ (b.elem.bits p - a.elem.bits p), by rw [← Int.pow_add]; congr 1; omega⟩ h2
  have := Int.dvd_sub h1 h3
  rw [show ∀ a b c : Int, a - c - (b - c) = a - b from by intros; omega] at this
  exact this

/-- Sign extension, truncation and reinterpretation. -/
example : fromCast 8 .u32 .i8 #v[(0x80 : BitVec 8), 0x7f] = .ok #v[0xffffff80, 0x7f] ∧
    fromCast 8 .i32 .u8 #v[(0x80 : BitVec 8), 0x7f] = .ok #v[0x80, 0x7f] ∧
    fromCast 8 .i8 .u32 #v[(0x180 : BitVec 32), 0x7f] = .ok #v[0x80, 0x7f] ∧ Listed Tables.castTable ⟨.u32, 2⟩ ⟨.i8, 2⟩ := by
  unfold Listed; decide +kernel

/-! ## C37: casts from and to masks -/

/-- Casting any vector to a mask type other than `m128x1` gives a valid mask which is true exactly in the lanes different from zero.
Missing from the full claim: targets `m128x1`, for which it is false (`C37_m128x1_fails`). -/
theorem C37_to_mask_partial (hp : p = 4 ∨ p = 8) {dst src : VTy} {cast} (h : Casts p dst src cast) (hd : dst.elem.kind = .mask)
    (hne : dst ≠ ⟨.m128, 1⟩) (x : Vec (BitVec (src.elem.bits p)) src.lanes) :
    src.lanes = dst.lanes ∧ ∃ y b, cast x = .ok y ∧ Denotes y b ∧
      ∀ i (hi : i < src.lanes), b i = true ↔ Nonzero p src.elem x[i] := by
  have tbl : ∀ r ∈ Tables.castTable, r.1.elem.kind = .mask → r.1 = ⟨.m128, 1⟩ := by decide +kernel
  cases h with
  | cast h =>
    obtain ⟨r, hr, rfl, hs⟩ := h
    exact absurd (tbl r hr hd) hne
  | mask h =>
    obtain ⟨r, hr, rfl, hs⟩ := h
    obtain ⟨b, hb, hd'⟩ := neDefault_denotes x
    obtain ⟨y, hy, hyd⟩ := select_splat (bits_pos hp _) _ _ hd'
    exact ⟨(castTables_lanes.2 r hr _ hs).1, y, b, hy, hyd, hb⟩

/-- The excluded case: casting `i128x1` to `m128x1` copies the bits, so 1 gives an invalid mask. -/
theorem C37_m128x1_fails : ∃ cast, Casts p ⟨.m128, 1⟩ ⟨.i128, 1⟩ cast ∧ ∃ x y, cast x = .ok y ∧ ¬ ValidMask y := by
  refine ⟨_, .cast (by unfold Listed; decide +kernel), #v[(1 : BitVec 128)], #v[(1 : BitVec 128)], ?_, ?_⟩
  · have : fromCast 8 .m128 .i128 #v[(1 : BitVec 128)] = .ok #v[(1 : BitVec 128)] := by decide +kernel
    exact this
  intro h
  obtain ⟨b, hb⟩ := h 0 (by decide)
  have h0 : (1#128).getLsbD 0 = b := hb 0 (by show 0 < 128; decide)
  have h1 : (1#128).getLsbD 1 = b := hb 1 (by show 1 < 128; decide)
  clear hb
  revert h0 h1
  cases b <;> decide

/-- Casting a valid mask to an integer vector gives all ones (`-1`, or the maximum of an unsigned type) / zero in each lane. -/
theorem C37_mask_to_int (hp : p = 4 ∨ p = 8) {dst src : VTy} {cast} (h : Casts p dst src cast) (hs : src.elem.kind = .mask)
    (hd : dst.elem.kind = .sint ∨ dst.elem.kind = .uint) (x : Vec (BitVec (src.elem.bits p)) src.lanes) (b : Nat → Bool) (hx : Denotes x b) :
    ∃ y, cast x = .ok y ∧ ∀ i (hi : i < src.lanes),
      val (dst.elem.kind == .sint) y[i] = if b i then (if dst.elem.kind = .sint then -1 else 2 ^ dst.elem.bits p - 1) else 0 := by
  obtain ⟨rfl, hl⟩ := casts_numeric h (by rcases hd with e | e <;> rw [e] <;> decide)
  obtain ⟨y, hy, hy'⟩ := simdCast_mask hp hs (show dst.elem.kind ≠ .float by rcases hd with e | e <;> rw [e] <;> decide) x b hx
  refine ⟨y, hy, ?_⟩
  intro i hi
  rw [isMaskLane_iff.1 (hy' i hi)]
  have hpos := Nat.two_pow_pos (dst.elem.bits p)
  have e : ((2 ^ dst.elem.bits p : Nat) : Int) = 2 ^ dst.elem.bits p := by simp
  have hb := bits_pos hp dst.elem
  have h2 : 2 ≤ 2 ^ dst.elem.bits p := Nat.le_trans (by decide) (Nat.pow_le_pow_right (n := 2) (by decide) hb)
  have hones : (BitVec.allOnes (dst.elem.bits p)).toNat = 2 ^ dst.elem.bits p - 1 := by simp
  cases b i
  · simp only [maskBits, Bool.false_eq_true, if_false]
    unfold val
    simp
  · simp only [maskBits, if_true]
    unfold val
    rw [hones]
    rcases hd with hk | hk
    · rw [hk]
      simp only [beq_self_eq_true, Bool.true_and, if_true, decide_eq_true_eq]
      rw [if_pos (by omega)]; omega
    · rw [hk]
      simp only [show (Kind.uint == Kind.sint) = false from rfl, Bool.false_and, Bool.false_eq_true, if_false, reduceCtorEq]
      omega

/-- Casting a valid mask to a float vector gives -1.0 / 0.0 in each lane. -/
theorem C37_mask_to_float (hp : p = 4 ∨ p = 8) {dst src : VTy} {cast} (h : Casts p dst src cast) (hs : src.elem.kind = .mask)
    (hd : dst.elem.kind = .float) (x : Vec (BitVec (src.elem.bits p)) src.lanes) (b : Nat → Bool) (hx : Denotes x b) :
    ∃ y, cast x = .ok y ∧ ∀ i (hi : i < src.lanes), (numberOf p dst.elem y[i]).Same (.rat (if b i then -1 else 0) 1) := by
  obtain ⟨rfl, hl⟩ := casts_numeric h (by rw [hd]; decide)
  have hsg : src.elem.signed = true := by simp [Elem.signed, hs]
  have hlane : ∀ z, castLane p dst.elem src.elem z = .ok (Flt.fromInt (dst.elem.bits p) dst.elem.man z.toInt) := by
    intro z; unfold castLane; simp only [hs, hd, hsg, if_true]
  refine ⟨_, simdCast_ok p _ _ x _ hlane, ?_⟩
  intro i hi
  have hb := bits_pos hp src.elem
  have hv : (x[i]).toInt = if b i then -1 else 0 := by
    rw [isMaskLane_iff.1 (hx i hi)]
    cases b i
    · simp [maskBits]
    · simp only [maskBits, if_true]
      rw [BitVec.toInt_allOnes, if_pos hb]
  have hbnd : 2 ^ (dst.elem.man + 1) * 2 ^ low (dst.elem.bits p) dst.elem.man < magUnits dst.elem.man (infMag (dst.elem.bits p) dst.elem.man) := by
    revert hd
    rcases hp with rfl | rfl <;> cases dst.elem <;> decide +kernel
  rw [Vector.getElem_map, numberOf_float hd, hv, fromInt_exact (format_of_float hd) _ _ hbnd]
  · cases b i <;> simp [Num.Same]
  · have := Nat.two_pow_pos (dst.elem.man + 1)
    cases b i <;> simp <;> omega

/-- NaN and any non-zero integer give true, -0.0 gives false; and back: true gives 255 as `u8`, -1.0 as `f32`. -/
example : fromCastMask 8 .m8 .f32 #v[(0x7fc00000 : BitVec 32), 0x80000000] = .ok #v[0xff, 0] ∧
    fromCastMask 8 .m64 .u16 #v[(0x100 : BitVec 16), 0] = .ok #v[0xffffffffffffffff, 0] ∧
    fromCast 8 .u8 .m32 #v[(0xffffffff : BitVec 32), 0] = .ok #v[0xff, 0] ∧
    fromCast 8 .f32 .m16 #v[(0xffff : BitVec 16), 0] = .ok #v[0xbf800000, 0] := by decide +kernel

/-! ## C59, C60: casts from and to floats -/

/-- Integer to float: round to nearest, ties to even. -/
theorem C59_int_to_float {dst src : VTy} {cast} (h : Casts p dst src cast) (hs : src.elem.kind = .sint ∨ src.elem.kind = .uint)
    (hd : dst.elem.kind = .float) (x : Vec (BitVec (src.elem.bits p)) src.lanes) :
    ∃ y, cast x = .ok y ∧ ∀ i (hi : i < src.lanes),
      RoundsTo dst.elem.man (.frac (val (src.elem.kind == .sint) x[i] * 2 ^ low (dst.elem.bits p) dst.elem.man) 1) y[i] := by
  obtain ⟨rfl, hl⟩ := casts_numeric h (by rw [hd]; decide)
  have hlane : ∀ z, castLane p dst.elem src.elem z = .ok (Flt.fromInt (dst.elem.bits p) dst.elem.man (val (src.elem.kind == .sint) z)) := by
    intro z
    unfold castLane
    rcases hs with e | e
    · simp only [e, hd, Elem.signed, if_true]; rw [show (Kind.sint == Kind.sint) = true from rfl, val_true]
    · simp only [e, hd, Elem.signed, if_false, Bool.false_eq_true]; rw [show (Kind.uint == Kind.sint) = false from rfl, val_false]
  refine ⟨_, simdCast_ok p _ _ x _ hlane, ?_⟩
  intro i hi
  rw [Vector.getElem_map]
  exact fromInt_rounds (format_of_float hd) _

/-- Float to float: NaN and infinities are kept, finite numbers are rounded to nearest, ties to even, keeping the sign. -/
theorem C59_float_to_float {dst src : VTy} {cast} (h : Casts p dst src cast) (hs : src.elem.kind = .float)
    (hd : dst.elem.kind = .float) (x : Vec (BitVec (src.elem.bits p)) src.lanes) :
    ∃ y, cast x = .ok y ∧ ∀ i (hi : i < src.lanes),
      (valueOf src.elem.man x[i] = .nan → valueOf dst.elem.man y[i] = .nan) ∧
      (∀ s, valueOf src.elem.man x[i] = .inf s → valueOf dst.elem.man y[i] = .inf s) ∧
      (∀ z, valueOf src.elem.man x[i] = .num z → isNeg y[i] = isNeg x[i] ∧
        RoundsTo dst.elem.man (.frac (z * 2 ^ low (dst.elem.bits p) dst.elem.man) (2 ^ low (src.elem.bits p) src.elem.man)) y[i]) := by
  obtain ⟨rfl, hl⟩ := casts_numeric h (by rw [hd]; decide)
  have hlane : ∀ z, castLane p dst.elem src.elem z = .ok (Flt.convert src.elem.man (dst.elem.bits p) dst.elem.man z) := by
    intro z; unfold castLane; simp only [hs, hd]
  refine ⟨_, simdCast_ok p _ _ x _ hlane, ?_⟩
  intro i hi
  rw [Vector.getElem_map]
  obtain ⟨h1, h2, h3⟩ := convert_spec (man := src.elem.man) (format_of_float (p := p) hd) x[i]
  exact ⟨h1, h2, fun z hz => ⟨(h3 z hz).2, (h3 z hz).1⟩⟩

/-- `f32` to `f64` is lossless. -/
theorem C59_f32_to_f64 {n : Nat} {cast} (h : Casts p ⟨.f64, n⟩ ⟨.f32, n⟩ cast) (x : Vec (BitVec 32) n) :
    ∃ y, cast x = .ok y ∧ ∀ i (hi : i < n), (numberOf p .f64 y[i]).Same (numberOf p .f32 x[i]) := by
  obtain ⟨rfl, -⟩ := casts_numeric h (show Elem.f64.kind ≠ .mask by decide)
  have hll : losslessB p .f64 .f32 = true := by
    show losslessB 8 .f64 .f32 = true
    decide +kernel
  have hlane := fun z => castLane_lossless hll z
  refine ⟨x.map fun z => Classical.choose (hlane z), simdCast_ok p Elem.f64 Elem.f32 x _ fun z => (Classical.choose_spec (hlane z)).1, ?_⟩
  intro i hi
  have e : (x.map fun z => Classical.choose (hlane z))[i] = Classical.choose (hlane x[i]) := Vector.getElem_map ..
  rw [show (Vector.map (fun z => Classical.choose (hlane z)) x)[i] = Classical.choose (hlane x[i]) from e]
  exact (Classical.choose_spec (hlane x[i])).2

/-- Float to integer: if every lane is finite and its value, rounded toward zero, fits the target type, that is the result. -/
theorem C59_float_to_int {dst src : VTy} {cast} (h : Casts p dst src cast) (hs : src.elem.kind = .float)
    (hd : dst.elem.kind = .sint ∨ dst.elem.kind = .uint) (x : Vec (BitVec (src.elem.bits p)) src.lanes) (z : Nat → Int)
    (hx : ∀ i (hi : i < src.lanes), valueOf src.elem.man x[i] = .num (z i) ∧
      InRange (dst.elem.kind == .sint) (dst.elem.bits p) ((z i).tdiv (2 ^ low (src.elem.bits p) src.elem.man))) :
    ∃ y, cast x = .ok y ∧ ∀ i (hi : i < src.lanes),
      val (dst.elem.kind == .sint) y[i] = (z i).tdiv (2 ^ low (src.elem.bits p) src.elem.man) := by
  obtain ⟨rfl, hl⟩ := casts_numeric h (by rcases hd with e | e <;> rw [e] <;> decide)
  have hlane : ∀ z, castLane p dst.elem src.elem z = Flt.toInt src.elem.man (dst.elem.kind == .sint) (dst.elem.bits p) z := by
    intro z; unfold castLane
    rcases hd with e | e <;> simp only [hs, e, Elem.signed] <;> rfl
  unfold fromCast simdCast
  rcases lanesOrUb_cases (x.map (castLane p dst.elem src.elem)) with ⟨y, hy, hyl⟩ | ⟨-, i, hi, f, hf⟩
  · refine ⟨y, hy, ?_⟩
    intro i hi
    have := hyl i hi
    rw [Vector.getElem_map, hlane] at this
    obtain ⟨w, hw, hv⟩ := (toInt_spec (man := src.elem.man) (dst.elem.kind == .sint) (dst.elem.bits p) x[i]).2.2.1 _ (hx i hi).1 (hx i hi).2
    rw [this] at hw
    cases hw
    exact hv
  · exfalso
    rw [Vector.getElem_map, hlane] at hf
    obtain ⟨w, hw, hv⟩ := (toInt_spec (man := src.elem.man) (dst.elem.kind == .sint) (dst.elem.bits p) x[i]).2.2.1 _ (hx i hi).1 (hx i hi).2
    rw [hw] at hf; cases hf

/-- Casting never has undefined behaviour, except from float to integer vectors. -/
theorem C60_defined_partial (hp : p = 4 ∨ p = 8) {dst src : VTy} {cast} (h : Casts p dst src cast)
    (hns : src.elem.kind ≠ .float ∨ dst.elem.kind = .float ∨ dst.elem.kind = .mask)
    (x : Vec (BitVec (src.elem.bits p)) src.lanes) : ∃ y, cast x = .ok y := by
  cases h with
  | mask h =>
    obtain ⟨b, hb, hd'⟩ := neDefault_denotes x
    obtain ⟨y, hy, -⟩ := select_splat (bits_pos hp _) _ _ hd'
    exact ⟨y, hy⟩
  | cast h =>
    have tbl : ∀ r ∈ Tables.castTable, r.1.elem.kind = .mask → ∀ s ∈ r.2, s.elem.kind ≠ .float := by decide +kernel
    have hlane : ∃ g : BitVec (src.elem.bits p) → BitVec (dst.elem.bits p), ∀ z, castLane p dst.elem src.elem z = .ok (g z) := by
      by_cases hs : src.elem.kind = .float
      · by_cases hd : dst.elem.kind = .float
        · exact ⟨fun z => Flt.convert src.elem.man (dst.elem.bits p) dst.elem.man z, fun z => by unfold castLane; simp only [hs, hd]⟩
        · rcases hns with h' | h' | h'
          · exact absurd hs h'
          · exact absurd h' hd
          · obtain ⟨r, hr, rfl, hss⟩ := h
            exact absurd hs (tbl r hr h' _ hss)
      · by_cases hd : dst.elem.kind = .float
        · refine ⟨fun z => Flt.fromInt (dst.elem.bits p) dst.elem.man (if src.elem.signed then z.toInt else z.toNat), fun z => ?_⟩
          unfold castLane
          rw [hd]
          cases hk : src.elem.kind <;> first | exact absurd hk hs | rfl
        · exact ⟨_, castLane_int p hs hd⟩
    obtain ⟨g, hg⟩ := hlane
    exact ⟨_, simdCast_ok p _ _ x g hg⟩

/-- The excluded case: a lane that is NaN, infinite, or out of the target's range makes the (safe) cast undefined. -/
theorem C60_float_to_int_fails {dst src : VTy} {cast} (h : Casts p dst src cast) (hs : src.elem.kind = .float)
    (hd : dst.elem.kind = .sint ∨ dst.elem.kind = .uint) (x : Vec (BitVec (src.elem.bits p)) src.lanes) (i : Nat) (hi : i < src.lanes)
    (hx : ∀ z, valueOf src.elem.man x[i] = .num z →
      ¬ InRange (dst.elem.kind == .sint) (dst.elem.bits p) (z.tdiv (2 ^ low (src.elem.bits p) src.elem.man))) :
    cast x = .error .ub := by
  obtain ⟨rfl, hl⟩ := casts_numeric h (by rcases hd with e | e <;> rw [e] <;> decide)
  have hlane : ∀ z, castLane p dst.elem src.elem z = Flt.toInt src.elem.man (dst.elem.kind == .sint) (dst.elem.bits p) z := by
    intro z; unfold castLane
    rcases hd with e | e <;> simp only [hs, e, Elem.signed] <;> rfl
  obtain ⟨t1, t2, -, t4⟩ := toInt_spec (man := src.elem.man) (dst.elem.kind == .sint) (dst.elem.bits p) x[i]
  apply lanesOrUb_ub hi (f := .ub)
  rw [Vector.getElem_map, hlane]
  cases hv : valueOf src.elem.man x[i] with
  | nan => exact t1 hv
  | inf s => exact t2 s hv
  | num z => exact t4 z hv (hx z hv)

/-- 2.75 and -2.75 to 2 and -2; 1e10 to `u32`: undefined; 16777217 rounds to 16777216.0; 1.0f64 + 2^-24 rounds to even. -/
example : fromCast 8 .i32 .f32 #v[(0x40300000 : BitVec 32), 0xc0300000] = .ok #v[2, 0xfffffffe] ∧
    fromCast 8 .u32 .f32 #v[(0x501502f9 : BitVec 32), 0] = .error .ub ∧
    fromCast 8 .f32 .u32 #v[(16777217 : BitVec 32), 1] = .ok #v[0x4b800000, 0x3f800000] ∧
    fromCast 8 .f32 .f64 #v[(0x3ff0000010000000 : BitVec 64), 0x7ff0000000000000] = .ok #v[0x3f800000, 0x7f800000] ∧
    fromCast 8 .f64 .f32 #v[(1 : BitVec 32), 0xbf800000] = .ok #v[0x36a0000000000000, 0xbff0000000000000] := by decide +kernel

end PackedSimd.Props
