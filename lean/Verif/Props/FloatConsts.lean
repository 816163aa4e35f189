import Verif.Lemmas.FloatConsts
/-
C110: the associated constants of the float vector types are what their names and documentation say.
-/
namespace PackedSimd.Props
open Spec Math FConsts

/-- Every lane satisfies `P`. -/
def EveryLane {ty : FVTy} (v : FV ty) (P : FLane ty.elem → Prop) : Prop := ∀ (i : Nat) (_ : i < ty.lanes), P v[i]

theorem everyLane_splat {ty : FVTy} {x : FLane ty.elem} {P : FLane ty.elem → Prop} (h : P x) : EveryLane (splat ty.lanes x : FV ty) P := by
  intro i hi
  rw [show (splat ty.lanes x : FV ty)[i] = x from Vector.getElem_ofFn hi]
  exact h

/-- **C110** The mathematical constants: for every float vector type, every lane of each constant is the lane-type float nearest to the real number
of its name (strictly nearer than any other float). -/
theorem C110_real (ty : FVTy) : ∀ p ∈ ([
    (PI ty, Real.pi),
    (FRAC_PI_2 ty, Real.pi / 2),
    (FRAC_PI_3 ty, Real.pi / 3),
    (FRAC_PI_4 ty, Real.pi / 4),
    (FRAC_PI_6 ty, Real.pi / 6),
    (FRAC_PI_8 ty, Real.pi / 8),
    (FRAC_1_PI ty, 1 / Real.pi),
    (FRAC_2_PI ty, 2 / Real.pi),
    (FRAC_2_SQRT_PI ty, 2 / √Real.pi),
    (SQRT_2 ty, √2),
    (FRAC_1_SQRT_2 ty, 1 / √2),
    (E ty, Real.exp 1),
    (LOG2_E ty, Real.logb 2 (Real.exp 1)),
    (LOG10_E ty, Real.logb 10 (Real.exp 1)),
    (LN_2 ty, Real.log 2),
    (LN_10 ty, Real.log 10)] : List (FV ty × ℝ)),
    EveryLane p.1 fun x => Nearest ty.elem.man x p.2 := by
  simp only [List.forall_mem_cons]
  exact ⟨everyLane_splat (nearest_PI _), everyLane_splat (nearest_FRAC_PI_2 _), everyLane_splat (nearest_FRAC_PI_3 _), everyLane_splat (nearest_FRAC_PI_4 _), everyLane_splat (nearest_FRAC_PI_6 _), everyLane_splat (nearest_FRAC_PI_8 _), everyLane_splat (nearest_FRAC_1_PI _), everyLane_splat (nearest_FRAC_2_PI _), everyLane_splat (nearest_FRAC_2_SQRT_PI _), everyLane_splat (nearest_SQRT_2 _), everyLane_splat (nearest_FRAC_1_SQRT_2 _), everyLane_splat (nearest_E _), everyLane_splat (nearest_LOG2_E _), everyLane_splat (nearest_LOG10_E _), everyLane_splat (nearest_LN_2 _), everyLane_splat (nearest_LN_10 _), fun _ h => absurd h (by simp)⟩

theorem magUnits_max {f : FTy} {y : FLane f} {z : Int} (hy : valueOf f.man y = .num z) : z.natAbs ≤ magUnits f.man (infMag (8 * f.bytes) f.man - 1) := by
  obtain ⟨c, hc, hcz⟩ := representable_units hy
  rw [← hcz]
  exact magUnits_le (by omega)

/-- **C110** `MAX` is the greatest finite float. -/
theorem C110_max (ty : FVTy) : EveryLane (MAX ty) fun x => ∃ z, valueOf ty.elem.man x = .num z ∧ ∀ (y : FLane ty.elem) (z' : Int), valueOf ty.elem.man y = .num z' → z' ≤ z := by
  refine everyLane_splat ⟨magUnits ty.elem.man (infMag (8 * ty.elem.bytes) ty.elem.man - 1), ?_, fun y z' h => ?_⟩
  · cases ty.elem <;> decide +kernel
  · have := magUnits_max h
    omega

/-- **C110** `MIN` is the least finite float. -/
theorem C110_min (ty : FVTy) : EveryLane (MIN ty) fun x => ∃ z, valueOf ty.elem.man x = .num z ∧ ∀ (y : FLane ty.elem) (z' : Int), valueOf ty.elem.man y = .num z' → z ≤ z' := by
  refine everyLane_splat ⟨-magUnits ty.elem.man (infMag (8 * ty.elem.bytes) ty.elem.man - 1), ?_, fun y z' h => ?_⟩
  · cases ty.elem <;> decide +kernel
  · have := magUnits_max h
    omega

/-- **C110** `MIN_POSITIVE` is the least positive normal float. -/
theorem C110_min_positive (ty : FVTy) : EveryLane (MIN_POSITIVE ty) fun x => Normal ty.elem.man x ∧ ∃ z, valueOf ty.elem.man x = .num z ∧ 0 < z ∧
    ∀ (y : FLane ty.elem) (z' : Int), Normal ty.elem.man y → valueOf ty.elem.man y = .num z' → 0 < z' → z ≤ z' := by
  refine everyLane_splat ⟨?_, magUnits ty.elem.man (2 ^ ty.elem.man), ?_, ?_, fun y z' hn h hz => ?_⟩
  · cases ty.elem
    · exact ⟨by decide +kernel, by decide +kernel⟩
    · exact ⟨by decide +kernel, by decide +kernel⟩
  · cases ty.elem <;> decide +kernel
  · cases ty.elem <;> decide +kernel
  · obtain ⟨h1, h2⟩ := hn
    have hm := magUnits_le (man := ty.elem.man) h1
    unfold valueOf at h
    rw [if_neg (by omega), if_neg (by omega)] at h
    injection h with h
    split at h <;> omega

/-- **C110** `EPSILON` is the distance from 1 to the next larger float: `1 + EPSILON` is a float and there is none in between. -/
theorem C110_epsilon (ty : FVTy) : EveryLane (EPSILON ty) fun x => ∃ z, valueOf ty.elem.man x = .num z ∧ 0 < z ∧
    (∃ y : FLane ty.elem, valueOf ty.elem.man y = .num (2 ^ low (8 * ty.elem.bytes) ty.elem.man + z)) ∧
    ∀ (y : FLane ty.elem) (z' : Int), valueOf ty.elem.man y = .num z' → ¬(2 ^ low (8 * ty.elem.bytes) ty.elem.man < z' ∧ z' < 2 ^ low (8 * ty.elem.bytes) ty.elem.man + z) := by
  have key : ∀ (f : FTy) (b : Nat) (z : Int), magUnits f.man b = 2 ^ low (8 * f.bytes) f.man → (magUnits f.man (b + 1) : Int) = 2 ^ low (8 * f.bytes) f.man + z →
      ∀ (y : FLane f) (z' : Int), valueOf f.man y = .num z' → ¬(2 ^ low (8 * f.bytes) f.man < z' ∧ z' < 2 ^ low (8 * f.bytes) f.man + z) := by
    intro f b z h1 h2 y z' hy ⟨h3, h4⟩
    obtain ⟨c, hc, hcz⟩ := representable_units hy
    have hp : (0 : Int) < 2 ^ low (8 * f.bytes) f.man := Int.pow_pos (by decide)
    zify at h1
    rcases Nat.lt_or_ge b c with h | h
    · have := magUnits_le (man := f.man) (show b + 1 ≤ c from h)
      omega
    · have := magUnits_le (man := f.man) h
      omega
  apply everyLane_splat
  cases ty.elem
  · exact ⟨2 ^ 126, by decide +kernel, by decide +kernel, ⟨(0x3F800001 : BitVec 32), by decide +kernel⟩, key .f32 0x3F800000 _ (by decide +kernel) (by decide +kernel)⟩
  · exact ⟨2 ^ 1022, by decide +kernel, by decide +kernel, ⟨(0x3FF0000000000001 : BitVec 64), by decide +kernel⟩,
      key .f64 0x3FF0000000000000 _ (by decide +kernel) (by decide +kernel)⟩

/-- **C110** `NAN`, `INFINITY` and `NEG_INFINITY`. -/
theorem C110_special (ty : FVTy) : EveryLane (NAN ty) (fun x => valueOf ty.elem.man x = .nan) ∧ EveryLane (INFINITY ty) (fun x => valueOf ty.elem.man x = .inf false) ∧
    EveryLane (NEG_INFINITY ty) (fun x => valueOf ty.elem.man x = .inf true) := by
  refine ⟨everyLane_splat ?_, everyLane_splat ?_, everyLane_splat ?_⟩ <;> cases ty.elem <;> decide +kernel

/-- **C110** The constants the other modules use are these: the infinities of `is_infinite` and the `PI` of `sin_pi`, `cos_pi` and `sin_cos_pi`. -/
theorem C110_uses (ty : FVTy) : INFINITY ty = FVec.infinity (8 * ty.elem.bytes) ty.lanes ty.elem.man ∧
    NEG_INFINITY ty = FVec.negInfinity (8 * ty.elem.bytes) ty.lanes ty.elem.man ∧ PI ty = splat ty.lanes (Math.pi ty.elem) := by
  have h : ∀ f : FTy, (Core.INFINITY f).toNat = (Flt.mk (8 * f.bytes) false (infMag (8 * f.bytes) f.man)).toNat ∧
      (Core.NEG_INFINITY f).toNat = (Flt.mk (8 * f.bytes) true (infMag (8 * f.bytes) f.man)).toNat ∧ (Core.PI f).toNat = (Math.pi f).toNat := by
    intro f
    cases f <;> exact ⟨by decide +kernel, by decide +kernel, by decide +kernel⟩
  obtain ⟨h1, h2, h3⟩ := h ty.elem
  exact ⟨congrArg (splat ty.lanes) (BitVec.eq_of_toNat_eq h1), congrArg (splat ty.lanes) (BitVec.eq_of_toNat_eq h2), congrArg (splat ty.lanes) (BitVec.eq_of_toNat_eq h3)⟩

/-- The lane bits of some constants of `f32x4` and `f64x2`. -/
example : ((PI ⟨.f32, 4⟩)[3]).toNat = 0x40490FDB ∧ ((LN_2 ⟨.f64, 2⟩)[1]).toNat = 0x3FE62E42FEFA39EF ∧ ((MAX ⟨.f32, 4⟩)[0]).toNat = 0x7F7FFFFF ∧
    ((EPSILON ⟨.f64, 2⟩)[0]).toNat = 0x3CB0000000000000 := by decide +kernel

/-- Being nearest excludes the neighbours: the float after π is not the nearest one. -/
example : ¬Nearest 23 (0x40490FDC : BitVec 32) Real.pi := by
  rintro ⟨z, hz, h⟩
  obtain ⟨z', hz', h'⟩ := nearest_PI .f32
  have e1 : z = 13176796 * 2 ^ 127 := by
    have : valueOf 23 (0x40490FDC : BitVec 32) = .num (13176796 * 2 ^ 127) := by decide +kernel
    rw [this] at hz; injection hz with hz; exact hz.symm
  have e2 : z' = 13176795 * 2 ^ 127 := by
    have : valueOf FTy.f32.man (Core.PI .f32) = .num (13176795 * 2 ^ 127) := by decide +kernel
    rw [this] at hz'; injection hz' with hz'; exact hz'.symm
  have hne : z' ≠ z := by rw [e1, e2]; decide +kernel
  exact lt_asymm (h _ z' hz' hne) (h' _ z hz hne.symm)

end PackedSimd.Props
