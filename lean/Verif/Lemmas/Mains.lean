import Verif.Model.Examples.Mains
import Verif.Spec.Decimal
import Verif.Lemmas.FloatError
import Mathlib.Tactic.Ring
import Mathlib.Tactic.Linarith
import Mathlib.Tactic.FieldSimp
import Mathlib.Tactic.Positivity
import Mathlib.Tactic.NormNum
/-
Lemmas on reading and writing decimals, for C125.
-/
namespace PackedSimd.Ex.Mains
open Spec PackedSimd

theorem digitChar_toNat (d : Fin 10) : (digitChar d).toNat = 48 + d.val := by
  revert d; decide +kernel

theorem digit_eq (d : Fin 10) : digit d.val = digitChar d := by
  revert d; decide +kernel

theorem digit_mod (k : Nat) : digit (k % 10) = digitChar ⟨k % 10, Nat.mod_lt _ (by omega)⟩ := digit_eq ⟨k % 10, Nat.mod_lt _ (by omega)⟩

theorem digitChar_inj {a b : Fin 10} (h : digitChar a = digitChar b) : a = b := by
  have := congrArg Char.toNat h
  rw [digitChar_toNat, digitChar_toNat] at this
  omega

theorem toDigit_digitChar (d : Fin 10) : toDigit (digitChar d) = some d.val := by
  unfold toDigit
  rw [digitChar_toNat, if_pos (by omega)]
  congr 1; omega

theorem toDigit_some {c : Char} {d : Nat} (h : toDigit c = some d) : ∃ e : Fin 10, c = digitChar e ∧ e.val = d := by
  unfold toDigit at h
  split at h
  · rename_i hc
    cases h
    refine ⟨⟨c.toNat - 48, by omega⟩, ?_, rfl⟩
    apply Char.ext
    apply UInt32.toNat_inj.1
    show c.toNat = (digitChar _).toNat
    rw [digitChar_toNat]
    show c.toNat = 48 + (c.toNat - 48)
    omega
  · cases h

/-- The number written by digits that follow the number `a`. -/
def valueFrom (a : Nat) (ds : List (Fin 10)) : Nat := ds.foldl (fun a d => 10 * a + d.val) a

theorem le_valueFrom (ds : List (Fin 10)) : ∀ a, a ≤ valueFrom a ds := by
  induction ds with
  | nil => intro a; exact Nat.le_refl _
  | cons d ds ih =>
    intro a
    refine Nat.le_trans ?_ (ih (10 * a + d.val))
    omega

theorem valueFrom_append (a : Nat) (ds es : List (Fin 10)) : valueFrom a (ds ++ es) = valueFrom (valueFrom a ds) es := by
  unfold valueFrom; rw [List.foldl_append]

theorem valueFrom_eq (ds : List (Fin 10)) : ∀ a, valueFrom a ds = a * 10 ^ ds.length + natValue ds := by
  induction ds with
  | nil => intro a; simp [valueFrom, natValue]
  | cons d ds ih =>
    intro a
    have h1 : valueFrom a (d :: ds) = valueFrom (10 * a + d.val) ds := rfl
    have h2 : natValue (d :: ds) = valueFrom (10 * 0 + d.val) ds := rfl
    rw [h1, h2, ih, ih, List.length_cons, pow_succ]
    ring

theorem parseLoop_ok (t : Target) (ds : List (Fin 10)) : ∀ a, a < 2 ^ (8 * t.ptrBytes) →
    parseLoop t a (ds.map digitChar) = if valueFrom a ds < 2 ^ (8 * t.ptrBytes) then some (valueFrom a ds) else none := by
  induction ds with
  | nil => intro a ha; simp [parseLoop, valueFrom, ha]
  | cons d ds ih =>
    intro a ha
    rw [List.map_cons, parseLoop, toDigit_digitChar]
    dsimp only
    have hv : valueFrom a (d :: ds) = valueFrom (a * 10 + d.val) ds := by
      show valueFrom (10 * a + d.val) ds = _
      rw [Nat.mul_comm]
    have hle := le_valueFrom ds (a * 10 + d.val)
    rw [hv]
    by_cases h1 : a * 10 < 2 ^ (8 * t.ptrBytes)
    · rw [if_pos h1]
      by_cases h2 : a * 10 + d.val < 2 ^ (8 * t.ptrBytes)
      · rw [if_pos h2, ih _ h2]
      · rw [if_neg h2, if_neg (by omega)]
    · rw [if_neg h1, if_neg (by omega)]

theorem parseLoop_some (t : Target) (s : List Char) : ∀ a v, parseLoop t a s = some v → ∃ ds : List (Fin 10), s = ds.map digitChar := by
  induction s with
  | nil => intro a v _; exact ⟨[], rfl⟩
  | cons c cs ih =>
    intro a v h
    rw [parseLoop] at h
    cases hd : toDigit c with
    | none => rw [hd] at h; cases h
    | some d =>
      rw [hd] at h
      dsimp only at h
      obtain ⟨e, he, -⟩ := toDigit_some hd
      split at h
      · split at h
        · obtain ⟨ds, hds⟩ := ih _ _ h
          exact ⟨e :: ds, by rw [he, hds]; rfl⟩
        · cases h
      · cases h

theorem digitChar_ne_plus (d : Fin 10) : digitChar d ≠ '+' := by
  revert d; decide +kernel

/-- `usize::from_str` accepts the decimal numerals of the numbers that fit, and nothing else. -/
theorem parseUsize_iff (t : Target) (s : List Char) (v : Nat) : parseUsize t s = some v ↔ Numeral s v ∧ v < 2 ^ (8 * t.ptrBytes) := by
  have hp : (0 : Nat) < 2 ^ (8 * t.ptrBytes) := Nat.pow_pos (by omega)
  have key : ∀ ds : List (Fin 10), parseLoop t 0 (ds.map digitChar) = some v ↔ natValue ds = v ∧ v < 2 ^ (8 * t.ptrBytes) := by
    intro ds
    rw [parseLoop_ok t ds 0 hp]
    show (if natValue ds < _ then some (natValue ds) else none) = some v ↔ _
    split
    · rename_i h
      rw [Option.some.injEq]
      exact ⟨fun e => ⟨e, e ▸ h⟩, fun e => e.1⟩
    · rename_i h
      exact ⟨fun e => (by cases e), fun e => absurd (e.1 ▸ e.2) h⟩
  have noplus : ∀ ds : List (Fin 10), ∀ cs, '+' :: cs ≠ ds.map digitChar := by
    intro ds cs h
    cases ds with
    | nil => cases h
    | cons d ds => rw [List.map_cons, List.cons.injEq] at h; exact digitChar_ne_plus d h.1.symm
  match s with
  | [] =>
    refine ⟨fun h => (by cases h), fun h => ?_⟩
    obtain ⟨⟨ds, hne, -, h | h⟩, -⟩ := h
    · cases ds with
      | nil => exact absurd rfl hne
      | cons d ds => cases h
    · cases h
  | c :: cs =>
    by_cases hc : c = '+'
    · subst hc
      show (if cs = [] then none else parseLoop t 0 cs) = some v ↔ _
      constructor
      · intro h
        split at h
        · cases h
        · rename_i hne
          obtain ⟨ds, hds⟩ := parseLoop_some t cs 0 v h
          rw [hds] at h
          obtain ⟨h1, h2⟩ := (key ds).1 h
          exact ⟨⟨ds, fun e => hne (by rw [hds, e]; rfl), h1, .inr (by rw [hds])⟩, h2⟩
      · rintro ⟨⟨ds, hne, hv, h | h⟩, hlt⟩
        · exact absurd h (noplus ds cs)
        · rw [List.cons.injEq] at h
          rw [h.2, if_neg (fun e => hne (List.map_eq_nil_iff.1 e))]
          exact (key ds).2 ⟨hv, hlt⟩
    · have e : parseUsize t (c :: cs) = parseLoop t 0 (c :: cs) := by
        unfold parseUsize
        split
        · rename_i h; cases h
        · rename_i h; rw [List.cons.injEq] at h; exact absurd h.1 hc
        · rfl
      rw [e]
      constructor
      · intro h
        obtain ⟨ds, hds⟩ := parseLoop_some t _ 0 v h
        rw [hds] at h
        obtain ⟨h1, h2⟩ := (key ds).1 h
        exact ⟨⟨ds, fun e => (by rw [e] at hds; cases hds), h1, .inl hds⟩, h2⟩
      · rintro ⟨⟨ds, hne, hv, h | h⟩, hlt⟩
        · rw [h]; exact (key ds).2 ⟨hv, hlt⟩
        · rw [List.cons.injEq] at h; exact absurd h.1 hc

/-! ### Writing -/

theorem natValue_append (ds : List (Fin 10)) (d : Fin 10) : natValue (ds ++ [d]) = 10 * natValue ds + d.val := by
  unfold natValue; rw [List.foldl_append]; rfl

theorem showNat_ok (n : Nat) : ShowsNat (showNat n) n := by
  induction n using Nat.strongRecOn with
  | _ n ih =>
    rw [showNat]
    split
    · rename_i h
      refine ⟨[⟨n, h⟩], ⟨by simp, fun e => ?_⟩, ?_, ?_⟩
      · simp only [List.head?_cons, Option.some.injEq] at e; rw [e]
      · show 10 * 0 + n = n; omega
      · rw [digit_eq ⟨n, h⟩]; rfl
    · rename_i h
      obtain ⟨ds, ⟨hne, hz⟩, hv, hs⟩ := ih (n / 10) (Nat.div_lt_self (by omega) (by omega))
      refine ⟨ds ++ [⟨n % 10, Nat.mod_lt _ (by omega)⟩], ⟨by simp, fun e => ?_⟩, ?_, ?_⟩
      · rw [List.head?_append_of_ne_nil _ hne] at e
        rw [hz e] at hv
        have : natValue [0] = 0 := rfl
        omega
      · rw [natValue_append, hv]; show 10 * (n / 10) + n % 10 = n; omega
      · rw [hs, digit_mod, List.map_append]; rfl

theorem showInt_ok (z : Int) : ShowsInt (showInt z) z := by
  unfold ShowsInt showInt
  by_cases h : z < 0
  · rw [if_pos h, if_pos h]; exact ⟨_, rfl, showNat_ok _⟩
  · rw [if_neg h, if_neg h]; exact showNat_ok _

theorem padded_ok (w : Nat) : ∀ k, ∃ ds : List (Fin 10), ds.length = w ∧ natValue ds = k % 10 ^ w ∧ padded w k = ds.map digitChar := by
  induction w with
  | zero => intro k; exact ⟨[], rfl, by rw [pow_zero, Nat.mod_one]; rfl, rfl⟩
  | succ w ih =>
    intro k
    obtain ⟨ds, h1, h2, h3⟩ := ih (k / 10)
    refine ⟨ds ++ [⟨k % 10, Nat.mod_lt _ (by omega)⟩], by simp [h1], ?_, ?_⟩
    · rw [natValue_append, h2]
      show 10 * (k / 10 % 10 ^ w) + k % 10 = k % 10 ^ (w + 1)
      rw [pow_succ, Nat.mul_comm (10 ^ w) 10, Nat.mod_mul]
      omega
    · rw [padded, h3, digit_mod, List.map_append]; rfl

theorem nearest_ok (st : Style) (num den : Nat) (hd : 0 < den) :
    2 * (nearest st num den * den) ≤ 2 * num + den ∧ 2 * num ≤ 2 * (nearest st num den * den) + den := by
  have h1 := Nat.div_add_mod num den
  have h2 := Nat.mod_lt num hd
  have e0 : num / den * den = den * (num / den) := Nat.mul_comm _ _
  have e1 : (num / den + 1) * den = den * (num / den) + den := by ring
  unfold nearest
  dsimp only
  split
  · rw [e0]; omega
  · split
    · rw [e1]; omega
    · split
      · rw [e1]; omega
      · rcases Nat.mod_two_eq_zero_or_one (num / den) with h | h <;> rw [h]
        · rw [Nat.add_zero, e0]; omega
        · rw [e1]; omega

/-- The text of a finite float is the nearest number with nine decimals. -/
theorem fixed9_ok (st : Style) (x : BitVec 64) (hx : IsFinite 52 x) :
    ∃ q : ℚ, Shows9 (fixed9 st x) q ∧ |(q : ℝ) - realVal 52 x| ≤ 1 / 2 / 10 ^ 9 := by
  have hm := (finite_iff x).1 hx
  have hnn : Flt.isNaN 52 x = false := by unfold Flt.isNaN; simp; omega
  have hni : Flt.isInf 52 x = false := by unfold Flt.isInf; simp; omega
  unfold fixed9
  rw [hnn, hni]
  dsimp only [Bool.false_eq_true, if_false]
  rw [if_neg (by simp), if_neg (by simp)]
  have hv := realVal_num (valueOf_finite hx)
  have hz : magBits x = 0 → magUnits 52 (magBits x) = 0 := by
    intro h; rw [h]; rfl
  generalize hM : magUnits 52 (magBits x) = M at hv hz ⊢
  have hD : 0 < 2 ^ low 64 52 := Nat.pow_pos (by omega)
  have hcast : ((2 : ℝ) ^ low 64 52) = ((2 ^ low 64 52 : Nat) : ℝ) := by push_cast; rfl
  rw [hcast] at hv
  generalize 2 ^ low 64 52 = D at hD hv ⊢
  obtain ⟨n1, n2⟩ := nearest_ok st (M * 10 ^ 9) D hD
  have hk0 : M = 0 → nearest st (M * 10 ^ 9) D = 0 := by
    intro h
    rw [h]
    have : 0 < D := hD
    unfold nearest
    dsimp only
    rw [Nat.zero_mul, Nat.zero_mod, Nat.zero_div, if_pos (by omega)]
  generalize hk : nearest st (M * 10 ^ 9) D = k at n1 n2 hk0 ⊢
  obtain ⟨ip, hip, hiv, his⟩ := showNat_ok (k / 10 ^ 9)
  obtain ⟨fp, hfl, hfv, hfs⟩ := padded_ok 9 k
  refine ⟨_, ⟨isNeg x && (st.negZero || decide (magBits x ≠ 0)), ip, fp, hip, hfl, by rw [his, hfs], rfl⟩, ?_⟩
  have hval : ((natValue ip : ℝ) + natValue fp / 10 ^ 9) = k / 10 ^ 9 := by
    rw [hiv, hfv]
    have h := Nat.div_add_mod k (10 ^ 9)
    have h' : ((10 ^ 9 * (k / 10 ^ 9) + k % 10 ^ 9 : Nat) : ℝ) = (k : ℝ) := by rw [h]
    rw [← h']
    push_cast
    ring
  have hD' : (0 : ℝ) < D := by exact_mod_cast hD
  have m1 : 2 * ((k : ℝ) * D) ≤ 2 * (M * 10 ^ 9) + D := by exact_mod_cast n1
  have m2 : 2 * ((M : ℝ) * 10 ^ 9) ≤ 2 * (k * D) + D := by exact_mod_cast n2
  have main : |(k : ℝ) / 10 ^ 9 - M / D| ≤ 1 / 2 / 10 ^ 9 := by
    have e : (k : ℝ) / 10 ^ 9 - M / D = (k * D - M * 10 ^ 9) / (D * 10 ^ 9) := by field_simp
    rw [e, abs_div, abs_of_pos (show (0 : ℝ) < D * 10 ^ 9 by positivity), div_le_iff₀ (by positivity)]
    have e2 : (1 : ℝ) / 2 / 10 ^ 9 * (D * 10 ^ 9) = D / 2 := by ring
    rw [e2, abs_le]
    constructor <;> linarith
  push_cast
  rw [hval, hv]
  cases hs : isNeg x with
  | false =>
    simp only [Bool.false_and, Bool.false_eq_true, if_false, Rat.cast_one, one_mul, Int.cast_natCast]
    exact main
  | true =>
    by_cases hzero : magBits x = 0
    · have hM0 := hz hzero
      rw [hk0 hM0, hM0]
      simp only [Nat.cast_zero, zero_div, mul_zero, neg_zero, ite_self, Int.cast_zero, sub_zero, abs_zero]
      positivity
    · rw [show (true && (st.negZero || decide (magBits x ≠ 0))) = true by simp [hzero]]
      simp only [if_true, Rat.cast_neg, Rat.cast_one, Int.cast_neg, Int.cast_natCast]
      rw [show ((-1 : ℝ) * (k / 10 ^ 9) - -(M : ℝ) / D) = -((k : ℝ) / 10 ^ 9 - M / D) by ring, abs_neg]
      exact main

/-- NaN is written `NaN`. -/
theorem fixed9_nan (st : Style) (x : BitVec 64) (hx : valueOf 52 x = .nan) : fixed9 st x = ['N', 'a', 'N'] := by
  have h : infMag 64 52 < magBits x := by
    unfold valueOf at hx
    split at hx
    · assumption
    · split at hx <;> cases hx
  unfold fixed9
  rw [if_pos (by unfold Flt.isNaN; simp; exact h)]

/-- An infinity is written `inf` or `-inf`. -/
theorem fixed9_inf (st : Style) (x : BitVec 64) (neg : Bool) (hx : valueOf 52 x = .inf neg) :
    fixed9 st x = (if neg then ['-'] else []) ++ ['i', 'n', 'f'] := by
  unfold valueOf at hx
  split at hx
  · cases hx
  · rename_i h1
    split at hx
    · rename_i h2
      cases hx
      unfold fixed9
      rw [if_neg (by unfold Flt.isNaN; simp; omega), if_pos (by unfold Flt.isInf; simp; exact h2)]
    · cases hx

end PackedSimd.Ex.Mains
