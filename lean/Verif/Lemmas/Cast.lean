import Verif.Model.Cast
import Verif.Spec.Convert
import Verif.Lemmas.IntVal
import Verif.Lemmas.FloatOps
import Verif.Lemmas.Compare
/-
Lemmas about `simd_cast` and the conversion tables.
-/
namespace PackedSimd
open Intr Spec

theorem lanesOrUb_ok {α : Type} {n : Nat} {v : Vec (R α) n} {y : Vec α n} (h : ∀ i (hi : i < n), v[i] = .ok y[i]) :
    lanesOrUb v = .ok y := by
  unfold lanesOrUb
  have hs : ∀ i : Fin n, (v[i]).toOption.isSome := by
    intro i
    have := h i.1 i.2
    rw [show v[i] = v[i.1] from rfl, this]; rfl
  rw [dif_pos hs]
  congr 1
  ext i hi
  simp only [Vector.getElem_ofFn]
  have := h i hi
  simp only [Fin.getElem_fin, this, Except.toOption, Option.get_some]

theorem lanesOrUb_ub {α : Type} {n : Nat} {v : Vec (R α) n} {i : Nat} (hi : i < n) {f : Fault} (h : v[i] = .error f) :
    lanesOrUb v = .error .ub := by
  unfold lanesOrUb
  rw [dif_neg]
  intro hs
  have := hs ⟨i, hi⟩
  rw [show v[(⟨i, hi⟩ : Fin n)] = v[i] from rfl, h] at this
  cases this

theorem eq_ok_get {α : Type} (x : R α) (h : x.toOption.isSome) : x = .ok (x.toOption.get h) := by
  cases x with
  | error f => cases h
  | ok z => rfl

theorem lanesOrUb_cases {α : Type} {n : Nat} (v : Vec (R α) n) :
    (∃ y : Vec α n, lanesOrUb v = .ok y ∧ ∀ i (hi : i < n), v[i] = .ok y[i]) ∨
    (lanesOrUb v = .error .ub ∧ ∃ i, ∃ hi : i < n, ∃ f, v[i] = .error f) := by
  by_cases h : ∀ i : Fin n, (v[i]).toOption.isSome
  · left
    let y : Vec α n := Vector.ofFn fun i => (v[i]).toOption.get (h i)
    have hy : ∀ i (hi : i < n), v[i] = .ok y[i] := by
      intro i hi
      simp only [y, Vector.getElem_ofFn]
      exact eq_ok_get _ (h ⟨i, hi⟩)
    exact ⟨y, lanesOrUb_ok hy, hy⟩
  · right
    obtain ⟨i, hi⟩ := Classical.not_forall.1 h
    have : ∃ f, v[i.1] = .error f := by
      cases hv : v[i.1] with
      | error f => exact ⟨f, rfl⟩
      | ok z => exact absurd (by rw [show v[i] = v[i.1] from rfl, hv]; rfl) hi
    obtain ⟨f, hf⟩ := this
    exact ⟨lanesOrUb_ub i.2 hf, i.1, i.2, f, hf⟩

theorem simdCast_ok (p : Nat) (dst src : Elem) {n : Nat} (v : Vec (BitVec (src.bits p)) n)
    (g : BitVec (src.bits p) → BitVec (dst.bits p)) (h : ∀ x, castLane p dst src x = .ok (g x)) :
    simdCast p dst src v = .ok (v.map g) := by
  apply lanesOrUb_ok
  intro i hi
  simp [h]

/-- Integer resize. -/
def resize {w : Nat} (s : Bool) (w' : Nat) (x : BitVec w) : BitVec w' := if s then x.signExtend w' else x.setWidth w'

theorem resize_eq {w : Nat} (s : Bool) (w' : Nat) (x : BitVec w) : resize s w' x = BitVec.ofInt w' (val s x) := by
  unfold resize
  cases s
  · rw [val_false]
    apply BitVec.eq_of_toNat_eq
    simp
  · rw [val_true]; rfl

theorem castLane_int (p : Nat) {dst src : Elem} (hs : src.kind ≠ .float) (hd : dst.kind ≠ .float) (x : BitVec (src.bits p)) :
    castLane p dst src x = .ok (resize src.signed (dst.bits p) x) := by
  unfold castLane resize
  cases hk : src.kind <;> cases hk' : dst.kind <;> first | exact absurd hk hs | exact absurd hk' hd | rfl

/-! ### Floats -/

theorem int_natAbs_mul_pow (z : Int) (k : Nat) : (z * 2 ^ k).natAbs = z.natAbs * 2 ^ k := by
  rw [Int.natAbs_mul, Int.natAbs_pow]; rfl

theorem fromInt_rounds {w man : Nat} (hf : Format w man) (z : Int) :
    RoundsTo man (.frac (z * 2 ^ low w man) 1) (Flt.fromInt w man z) := by
  have hp : (0 : Int) < 2 ^ low w man := Int.pow_pos (by decide)
  have := roundsTo_mk hf (z * 2 ^ low w man) 1 (by decide) (decide (z < 0)) (by
    intro _
    rw [decide_eq_decide]
    constructor
    · intro h; exact Int.mul_neg_of_neg_of_pos h hp
    · intro h
      apply Classical.byContradiction
      intro h'
      have := Int.mul_nonneg (Int.not_lt.1 h') (Int.le_of_lt hp)
      omega)
  rw [int_natAbs_mul_pow] at this
  exact this

/-- An integer whose magnitude fits the significand converts exactly. -/
theorem fromInt_exact {w man : Nat} (hf : Format w man) (z : Int) (hz : z.natAbs ≤ 2 ^ (man + 1))
    (hb : 2 ^ (man + 1) * 2 ^ low w man < magUnits man (infMag w man)) :
    valueOf man (Flt.fromInt w man z) = .num (z * 2 ^ low w man) := by
  apply value_of_exact hf (den := 1)
  · have := fromInt_rounds hf z
    rwa [show (z * 2 ^ low w man) * ((1 : Nat) : Int) = z * 2 ^ low w man from Int.mul_one _]
  · exact representable_of _ _ hz (Nat.lt_of_le_of_lt (Nat.mul_le_mul_right _ hz) hb)

theorem convert_spec {w man w' man' : Nat} (hf' : Format w' man') (x : BitVec w) :
    (valueOf man x = .nan → valueOf man' (Flt.convert man w' man' x) = .nan) ∧
    (∀ s, valueOf man x = .inf s → valueOf man' (Flt.convert man w' man' x) = .inf s) ∧
    (∀ z, valueOf man x = .num z → RoundsTo man' (.frac (z * 2 ^ low w' man') (2 ^ low w man)) (Flt.convert man w' man' x) ∧
      isNeg (Flt.convert man w' man' x) = isNeg x) := by
  unfold Flt.convert
  rcases lane_cases (man := man) x with ⟨a1, a3, a4, a2⟩ | ⟨a1, a3, a4, a2⟩ | ⟨a1, a3, a4, a2⟩ <;> rw [a2, a1, a3]
  · refine ⟨fun _ => valueOf_qnan hf', fun s h => (by cases h), fun z h => (by cases h)⟩
  · refine ⟨fun h => (by cases h), fun s h => ?_, fun z h => (by cases h)⟩
    cases h
    exact valueOf_inf hf' _
  · refine ⟨fun h => (by cases h), fun s h => (by cases h), fun z h => ?_⟩
    have hz := FVal.num.inj h
    have hp : (0 : Int) < 2 ^ low w' man' := Int.pow_pos (by decide)
    have hd := Nat.two_pow_pos (low w man)
    have e : (z * 2 ^ low w' man').natAbs = magUnits man (magBits x) * 2 ^ low w' man' := by
      rw [int_natAbs_mul_pow, ← hz, units_natAbs]
    simp only [Bool.false_eq_true, if_false]
    rw [← e]
    refine ⟨roundsTo_mk hf' _ _ hd _ ?_, (magBits_round hf' _ _ _ hd).2⟩
    intro hne
    unfold Flt.units at hz
    cases hn : isNeg x <;> rw [hn] at hz <;> simp at hz
    · symm; rw [decide_eq_false_iff_not, Int.not_lt, ← hz]
      exact Int.mul_nonneg (Int.natCast_nonneg _) (Int.le_of_lt hp)
    · symm; rw [decide_eq_true_iff]
      apply Int.mul_neg_of_neg_of_pos _ hp
      have : z ≠ 0 := fun h0 => hne (by rw [h0, Int.zero_mul])
      omega

/-- Conversion to a format with at least the precision and range is exact. -/
theorem convert_exact {w man w' man' : Nat} (hf' : Format w' man') (hm : man ≤ man') (hl : low w man ≤ low w' man')
    (hb : magUnits man (infMag w man) * 2 ^ (low w' man' - low w man) ≤ magUnits man' (infMag w' man')) (x : BitVec w) (z : Int)
    (hz : valueOf man x = .num z) :
    valueOf man' (Flt.convert man w' man' x) = .num (z * 2 ^ (low w' man' - low w man)) := by
  obtain ⟨h, -⟩ := (convert_spec hf' x).2.2 z hz
  have e : z * 2 ^ low w' man' = z * 2 ^ (low w' man' - low w man) * ((2 ^ low w man : Nat) : Int) := by
    have : (2 : Int) ^ low w' man' = 2 ^ (low w' man' - low w man) * 2 ^ low w man := by
      rw [← Int.pow_add]; congr 1; omega
    rw [this, Int.mul_assoc]; congr 1
  rw [e] at h
  apply value_of_exact hf' h
  obtain ⟨b, hb1, hb2⟩ := representable_units hz
  obtain ⟨s, q, rfl, hq, hsq⟩ := exists_mk (man := man) b
  have hqle : q ≤ 2 ^ (man + 1) := Nat.le_of_lt hq
  rw [magUnits_mk hqle hsq] at hb2
  have hlt : q * 2 ^ s < magUnits man (infMag w man) := by
    rw [← magUnits_mk hqle hsq]; exact magUnits_lt_iff.2 hb1
  have hqm : q ≤ 2 ^ (man' + 1) := Nat.le_trans hqle (Nat.pow_le_pow_right (by decide) (by omega))
  obtain ⟨c, hc⟩ := exists_mag (man := man') (s + (low w' man' - low w man)) q hqm
  refine ⟨c, ?_, ?_⟩
  · apply magUnits_lt_iff.1
    rw [hc, Nat.pow_add, ← Nat.mul_assoc]
    exact Nat.lt_of_lt_of_le (Nat.mul_lt_mul_of_pos_right hlt (Nat.two_pow_pos _)) hb
  · rw [hc, int_natAbs_mul_pow, ← hb2, Nat.pow_add, Nat.mul_assoc]

/-- `fptosi` / `fptoui`: truncation if representable, else undefined. -/
theorem toInt_spec {w man : Nat} (s : Bool) (w' : Nat) (x : BitVec w) :
    (valueOf man x = .nan → Flt.toInt man s w' x = .error .ub) ∧
    (∀ neg, valueOf man x = .inf neg → Flt.toInt man s w' x = .error .ub) ∧
    (∀ z, valueOf man x = .num z → InRange s w' (z.tdiv (2 ^ low w man)) →
      ∃ y, Flt.toInt man s w' x = .ok y ∧ val s y = z.tdiv (2 ^ low w man)) ∧
    (∀ z, valueOf man x = .num z → ¬ InRange s w' (z.tdiv (2 ^ low w man)) → Flt.toInt man s w' x = .error .ub) := by
  unfold Flt.toInt
  rcases lane_cases (man := man) x with ⟨a1, a3, a4, a2⟩ | ⟨a1, a3, a4, a2⟩ | ⟨a1, a3, a4, a2⟩ <;> rw [a2, a1, a3]
  · refine ⟨fun _ => rfl, fun s h => (by cases h), fun z h => (by cases h), fun z h => (by cases h)⟩
  · refine ⟨fun h => (by cases h), fun s h => rfl, fun z h => (by cases h), fun z h => (by cases h)⟩
  · have hz : (if isNeg x = true then -((magUnits man (magBits x) / 2 ^ low w man : Nat) : Int) else ((magUnits man (magBits x) / 2 ^ low w man : Nat) : Int)) =
        (Flt.units man x).tdiv (2 ^ low w man) := by
      unfold Flt.units
      have e : ((2 : Int) ^ low w man) = ((2 ^ low w man : Nat) : Int) := by simp
      cases isNeg x
      · simp only [Bool.false_eq_true, if_false]
        rw [e]; exact (Int.ofNat_tdiv _ _).symm
      · simp only [if_true]
        rw [e, Int.neg_tdiv, ← Int.ofNat_tdiv]
    simp only [Bool.or_self, Bool.false_eq_true, if_false]
    rw [hz]
    have hcond : (if s = true then decide (-(2 ^ w' : Int) ≤ 2 * (Flt.units man x).tdiv (2 ^ low w man)) && decide (2 * (Flt.units man x).tdiv (2 ^ low w man) < 2 ^ w')
        else decide (0 ≤ (Flt.units man x).tdiv (2 ^ low w man)) && decide ((Flt.units man x).tdiv (2 ^ low w man) < 2 ^ w')) = true ↔
        InRange s w' ((Flt.units man x).tdiv (2 ^ low w man)) := by
      unfold InRange
      cases s <;> simp
    refine ⟨fun h => (by cases h), fun s h => (by cases h), fun z h => ?_, fun z h => ?_⟩
    · cases h
      intro hr
      rw [if_pos (hcond.2 hr)]
      refine ⟨_, rfl, ?_⟩
      have hw : WrapsTo s w' ((Flt.units man x).tdiv (2 ^ low w man)) (BitVec.ofInt w' ((Flt.units man x).tdiv (2 ^ low w man))) := wrapsTo_iff.2 rfl
      obtain ⟨h1, k, hk⟩ := hw
      revert hk hr h1
      generalize val s (BitVec.ofInt w' ((Flt.units man x).tdiv (2 ^ low w man))) = a
      generalize (Flt.units man x).tdiv (2 ^ low w man) = b
      generalize hP : (2 : Int) ^ w' = P
      have hPpos : 0 < P := by rw [← hP]; exact Int.pow_pos (by decide)
      intro hr h1 hk
      have hkk : k = 0 := by
        have : a - b < P ∧ -P < a - b := by
          unfold InRange at hr h1
          rw [hP] at hr h1
          cases s <;> simp at hr h1 <;> omega
        rw [hk] at this
        have h2 : k < 1 := by
          apply Int.lt_of_mul_lt_mul_left (a := P) _ (Int.le_of_lt hPpos); omega
        have h3 : -1 < k := by
          apply Int.lt_of_mul_lt_mul_left (a := P) _ (Int.le_of_lt hPpos); omega
        omega
      rw [hkk] at hk; omega
    · cases h
      intro hr
      rw [if_neg (fun h => hr (hcond.1 h))]

end PackedSimd
