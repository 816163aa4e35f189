import Verif.Lemmas.FloatError
import Verif.Spec.Sum
/-
The error of a floating-point sum, whatever the order of the additions.
-/
namespace PackedSimd
open Spec

variable {w man : Nat}

theorem finite_of_add (hf : Format w man) {x y : BitVec w} (h : IsFinite man (Flt.add man x y)) : IsFinite man x ∧ IsFinite man y := by
  obtain ⟨z, hz⟩ := h
  have hr := add_rounds hf x y
  unfold exactAdd at hr
  unfold IsFinite
  rcases hx : valueOf man x with _ | p | a
  · rw [hx] at hr
    exact absurd (hz.symm.trans hr) (by simp)
  · rcases hy : valueOf man y with _ | q | b <;> rw [hx, hy] at hr <;> dsimp only at hr
    · exact absurd (hz.symm.trans hr) (by simp)
    · split at hr <;> exact absurd (hz.symm.trans hr) (by simp)
    · exact absurd (hz.symm.trans hr) (by simp)
  · rcases hy : valueOf man y with _ | q | b <;> rw [hx, hy] at hr <;> dsimp only at hr
    · exact absurd (hz.symm.trans hr) (by simp)
    · exact absurd (hz.symm.trans hr) (by simp)
    · exact ⟨⟨a, rfl⟩, ⟨b, rfl⟩⟩

/-- Adding a zero changes nothing. -/
theorem add_zero_real (hf : Format w man) {x y : BitVec w} {z : Int} (hx : valueOf man x = .num z) (hy : valueOf man y = .num 0) :
    valueOf man (Flt.add man x y) = .num z ∧ valueOf man (Flt.add man y x) = .num z := by
  have hz := representable_units hx
  constructor
  · have := add_exact hf hx hy (by rw [Int.add_zero]; exact hz)
    rwa [Int.add_zero] at this
  · have := add_exact hf hy hx (by rw [Int.zero_add]; exact hz)
    rwa [Int.zero_add] at this

theorem absSum_nonneg (l : List (BitVec w)) : 0 ≤ absSum man l := by
  unfold absSum
  apply List.sum_nonneg
  intro x hx
  obtain ⟨y, -, rfl⟩ := List.mem_map.1 hx
  exact abs_nonneg _

theorem abs_realSum_le (l : List (BitVec w)) : |realSum man l| ≤ absSum man l := by
  unfold realSum absSum
  induction l with
  | nil => simp
  | cons x l ih =>
    rw [List.map_cons, List.map_cons, List.sum_cons, List.sum_cons]
    exact (abs_add_le _ _).trans (by linarith)

theorem unitRoundoff_pos : 0 < unitRoundoff man := by unfold unitRoundoff; positivity

/-- `g k` is the error factor after `k` roundings. -/
theorem growth_step {g : Nat → ℝ} {u a1 a2 s1 s2 S1 S2 r : ℝ} {n1 n2 : Nat} (hg : ∀ k, g k = (1 + u) ^ k - 1) (hu : 0 < u) (h1 : 1 ≤ n1) (h2 : 1 ≤ n2)
    (hS1 : |s1| ≤ S1) (hS2 : |s2| ≤ S2) (e1 : |a1 - s1| ≤ g (n1 - 1) * S1) (e2 : |a2 - s2| ≤ g (n2 - 1) * S2) (er : |r - (a1 + a2)| ≤ u * |a1 + a2|) :
    |r - (s1 + s2)| ≤ g (n1 + n2 - 1) * (S1 + S2) := by
  have hmono : ∀ a b, a ≤ b → g a ≤ g b := by
    intro a b hab
    rw [hg, hg]
    have := pow_le_pow_right₀ (show (1 : ℝ) ≤ 1 + u by linarith) hab
    linarith
  have hstep : (1 + u) * g (n1 + n2 - 2) + u = g (n1 + n2 - 1) := by
    rw [hg, hg, show n1 + n2 - 1 = n1 + n2 - 2 + 1 by omega, pow_succ]
    ring
  have m1 := hmono (n1 - 1) (n1 + n2 - 2) (by omega)
  have m2 := hmono (n2 - 1) (n1 + n2 - 2) (by omega)
  have p1 : 0 ≤ S1 := (abs_nonneg _).trans hS1
  have p2 : 0 ≤ S2 := (abs_nonneg _).trans hS2
  have q1 : |a1 - s1| ≤ g (n1 + n2 - 2) * S1 := e1.trans (mul_le_mul_of_nonneg_right m1 p1)
  have q2 : |a2 - s2| ≤ g (n1 + n2 - 2) * S2 := e2.trans (mul_le_mul_of_nonneg_right m2 p2)
  have d1 : |(a1 + a2) - (s1 + s2)| ≤ g (n1 + n2 - 2) * (S1 + S2) := by
    rw [show a1 + a2 - (s1 + s2) = (a1 - s1) + (a2 - s2) by ring]
    exact (abs_add_le _ _).trans (by linarith)
  have d2 : |a1 + a2| ≤ g (n1 + n2 - 2) * (S1 + S2) + (S1 + S2) := by
    have := abs_add_le (a1 + a2 - (s1 + s2)) (s1 + s2)
    rw [sub_add_cancel] at this
    have := abs_add_le s1 s2
    linarith
  have d3 : |r - (s1 + s2)| ≤ |r - (a1 + a2)| + |(a1 + a2) - (s1 + s2)| := by
    have := abs_add_le (r - (a1 + a2)) ((a1 + a2) - (s1 + s2))
    rwa [sub_add_sub_cancel] at this
  have d4 : u * |a1 + a2| ≤ u * (g (n1 + n2 - 2) * (S1 + S2) + (S1 + S2)) := mul_le_mul_of_nonneg_left d2 hu.le
  calc |r - (s1 + s2)| ≤ u * (g (n1 + n2 - 2) * (S1 + S2) + (S1 + S2)) + g (n1 + n2 - 2) * (S1 + S2) := by linarith
    _ = ((1 + u) * g (n1 + n2 - 2) + u) * (S1 + S2) := by ring
    _ = _ := by rw [hstep]

/-- The error of a finite floating-point sum, in any order. -/
theorem sumOf_error (hf : Format w man) {l : List (BitVec w)} {r : BitVec w} (h : SumOf (Flt.add man) (Flt.fromInt w man 0) l r) (hr : IsFinite man r) :
    |realVal man r - realSum man l| ≤ ((1 + unitRoundoff man) ^ (l.length - 1) - 1) * absSum man l ∧ (l = [] → valueOf man r = .num 0) := by
  induction h with
  | empty => exact ⟨by simp [realVal_num (valueOf_zero hf), realSum, absSum], fun _ => valueOf_zero hf⟩
  | single x => exact ⟨by simp [realSum, absSum], by simp⟩
  | @perm l l' a hp _ ih =>
    obtain ⟨i1, i2⟩ := ih hr
    refine ⟨?_, fun h => i2 (by subst h; exact hp.eq_nil)⟩
    unfold realSum absSum at i1 ⊢
    rwa [(hp.map (realVal man)).sum_eq, (hp.map fun x => |realVal man x|).sum_eq, hp.length_eq] at i1
  | @add l1 l2 a b _ _ ih1 ih2 =>
    obtain ⟨ha, hb⟩ := finite_of_add hf hr
    obtain ⟨e1, z1⟩ := ih1 ha
    obtain ⟨e2, z2⟩ := ih2 hb
    by_cases h1 : l1 = []
    · obtain ⟨z, hz⟩ := hb
      have hv := (add_zero_real hf hz (z1 h1)).2
      subst h1
      rw [List.nil_append, realVal_num hv, ← realVal_num hz]
      exact ⟨e2, fun h => by rw [hv, ← hz, z2 h]⟩
    by_cases h2 : l2 = []
    · obtain ⟨z, hz⟩ := ha
      have hv := (add_zero_real hf hz (z2 h2)).1
      subst h2
      rw [List.append_nil, realVal_num hv, ← realVal_num hz]
      exact ⟨e1, fun h => by rw [hv, ← hz, z1 h]⟩
    refine ⟨?_, fun h => absurd (List.append_eq_nil_iff.1 h).1 h1⟩
    have er := (flt_add hf ha hb).2.1 hr
    have := growth_step (g := fun k => (1 + unitRoundoff man) ^ k - 1) (fun _ => rfl) unitRoundoff_pos
      (List.length_pos_iff.2 h1) (List.length_pos_iff.2 h2) (abs_realSum_le l1) (abs_realSum_le l2) e1 e2 er
    unfold realSum absSum at this ⊢
    rw [List.map_append, List.map_append, List.sum_append, List.sum_append, List.length_append]
    exact this

/-- Finite summands whose absolute values add up to little enough have a finite sum, in any order. -/
theorem sumOf_finite (hf : Format w man) {l : List (BitVec w)} {r : BitVec w} (h : SumOf (Flt.add man) (Flt.fromInt w man 0) l r)
    (hl : ∀ x ∈ l, IsFinite man x) (hs : (1 + unitRoundoff man) ^ (l.length - 1) * absSum man l < overflow w man) : IsFinite man r := by
  have hu := unitRoundoff_pos (man := man)
  induction h with
  | empty => exact ⟨0, valueOf_zero hf⟩
  | single x => exact hl x (by simp)
  | @perm l l' a hp _ ih =>
    refine ih (fun x hx => hl x (hp.mem_iff.1 hx)) ?_
    unfold absSum at hs ⊢
    rwa [(hp.map fun x => |realVal man x|).sum_eq, hp.length_eq]
  | @add l1 l2 a b s1 s2 ih1 ih2 =>
    have hpow : ∀ i j : Nat, i ≤ j → (1 + unitRoundoff man) ^ i ≤ (1 + unitRoundoff man) ^ j := fun i j hij =>
      pow_le_pow_right₀ (by linarith) hij
    have hS : absSum man (l1 ++ l2) = absSum man l1 + absSum man l2 := by
      unfold absSum; rw [List.map_append, List.sum_append]
    have n1 := absSum_nonneg (man := man) l1
    have n2 := absSum_nonneg (man := man) l2
    rw [hS, List.length_append] at hs
    have p0 : 0 ≤ (1 + unitRoundoff man) ^ (l1.length + l2.length - 1) := by positivity
    have ha : IsFinite man a := by
      refine ih1 (fun x hx => hl x (List.mem_append_left _ hx)) (lt_of_le_of_lt ?_ hs)
      calc _ ≤ (1 + unitRoundoff man) ^ (l1.length + l2.length - 1) * absSum man l1 := mul_le_mul_of_nonneg_right (hpow _ _ (by omega)) n1
        _ ≤ _ := mul_le_mul_of_nonneg_left (by linarith) p0
    have hb : IsFinite man b := by
      refine ih2 (fun x hx => hl x (List.mem_append_right _ hx)) (lt_of_le_of_lt ?_ hs)
      calc _ ≤ (1 + unitRoundoff man) ^ (l1.length + l2.length - 1) * absSum man l2 := mul_le_mul_of_nonneg_right (hpow _ _ (by omega)) n2
        _ ≤ _ := mul_le_mul_of_nonneg_left (by linarith) p0
    rw [(flt_add hf ha hb).1]
    refine lt_of_le_of_lt ?_ hs
    have b1 := (sumOf_error hf s1 ha).1
    have b2 := (sumOf_error hf s2 hb).1
    have c1 : |realVal man a| ≤ (1 + unitRoundoff man) ^ (l1.length - 1) * absSum man l1 := by
      have := abs_add_le (realVal man a - realSum man l1) (realSum man l1)
      rw [sub_add_cancel] at this
      have := abs_realSum_le (man := man) l1
      linarith
    have c2 : |realVal man b| ≤ (1 + unitRoundoff man) ^ (l2.length - 1) * absSum man l2 := by
      have := abs_add_le (realVal man b - realSum man l2) (realSum man l2)
      rw [sub_add_cancel] at this
      have := abs_realSum_le (man := man) l2
      linarith
    have d1 := mul_le_mul_of_nonneg_right (hpow (l1.length - 1) (l1.length + l2.length - 1) (by omega)) n1
    have d2 := mul_le_mul_of_nonneg_right (hpow (l2.length - 1) (l1.length + l2.length - 1) (by omega)) n2
    have := abs_add_le (realVal man a) (realVal man b)
    linarith

theorem sumOf_finite_mem (hf : Format w man) {l : List (BitVec w)} {r : BitVec w} (h : SumOf (Flt.add man) (Flt.fromInt w man 0) l r) (hr : IsFinite man r) :
    ∀ x ∈ l, IsFinite man x := by
  induction h with
  | empty => simp
  | single x => simpa using hr
  | perm hp _ ih => exact fun x hx => ih hr x (hp.mem_iff.2 hx)
  | add _ _ ih1 ih2 =>
    obtain ⟨ha, hb⟩ := finite_of_add hf hr
    intro x hx
    rcases List.mem_append.1 hx with h | h
    · exact ih1 ha x h
    · exact ih2 hb x h

theorem finite_of_mul (hf : Format w man) {x y : BitVec w} (h : IsFinite man (Flt.mul man x y)) : IsFinite man x ∧ IsFinite man y := by
  obtain ⟨z, hz⟩ := h
  have hr := mul_rounds hf x y
  unfold exactMul at hr
  unfold IsFinite
  rcases hx : valueOf man x with _ | p | a
  · rw [hx] at hr
    exact absurd (hz.symm.trans hr) (by simp)
  · rcases hy : valueOf man y with _ | q | b <;> rw [hx, hy] at hr <;> dsimp only at hr
    · exact absurd (hz.symm.trans hr) (by simp)
    · exact absurd (hz.symm.trans hr) (by simp)
    · split at hr <;> exact absurd (hz.symm.trans hr) (by simp)
  · rcases hy : valueOf man y with _ | q | b <;> rw [hx, hy] at hr <;> dsimp only at hr
    · exact absurd (hz.symm.trans hr) (by simp)
    · split at hr <;> exact absurd (hz.symm.trans hr) (by simp)
    · exact ⟨⟨a, rfl⟩, ⟨b, rfl⟩⟩

theorem tiny_pos : 0 < tiny w man := by unfold tiny; positivity

theorem products_error (hf : Format w man) : ∀ (a b : List (BitVec w)), a.length = b.length →
    (∀ x ∈ List.zipWith (Flt.mul man) a b, IsFinite man x) →
    |realSum man (List.zipWith (Flt.mul man) a b) - realDot man a b| ≤ unitRoundoff man * absDot man a b + a.length * tiny w man ∧
    absSum man (List.zipWith (Flt.mul man) a b) ≤ (1 + unitRoundoff man) * absDot man a b + a.length * tiny w man := by
  intro a
  induction a with
  | nil => intro b _ _; simp [realSum, absSum, realDot, absDot]
  | cons x a ih =>
    intro b hlen hfin
    rcases b with _ | ⟨y, b⟩
    · simp at hlen
    obtain ⟨i1, i2⟩ := ih b (by simpa using hlen) (fun z hz => hfin z (by simp [hz]))
    have hp : IsFinite man (Flt.mul man x y) := hfin _ (by simp)
    obtain ⟨hx, hy⟩ := finite_of_mul hf hp
    have e := (flt_mul hf hx hy).2.1 hp
    have ht := tiny_pos (w := w) (man := man)
    have hu := unitRoundoff_pos (man := man)
    have hv : 0 ≤ unitRoundoff man * |realVal man x * realVal man y| := by positivity
    have e' : |realVal man (Flt.mul man x y) - realVal man x * realVal man y| ≤ unitRoundoff man * |realVal man x * realVal man y| + tiny w man :=
      e.trans (max_le (by linarith) (by linarith))
    unfold realSum absSum realDot absDot at *
    simp only [List.zipWith_cons_cons, List.map_cons, List.sum_cons, List.length_cons, Nat.cast_add, Nat.cast_one]
    constructor
    · have h1 := abs_add_le (realVal man (Flt.mul man x y) - realVal man x * realVal man y)
        ((List.map (realVal man) (List.zipWith (Flt.mul man) a b)).sum - (List.zipWith (fun x y => realVal man x * realVal man y) a b).sum)
      rw [show realVal man (Flt.mul man x y) - realVal man x * realVal man y +
        ((List.map (realVal man) (List.zipWith (Flt.mul man) a b)).sum - (List.zipWith (fun x y => realVal man x * realVal man y) a b).sum) =
        realVal man (Flt.mul man x y) + (List.map (realVal man) (List.zipWith (Flt.mul man) a b)).sum -
        (realVal man x * realVal man y + (List.zipWith (fun x y => realVal man x * realVal man y) a b).sum) by ring] at h1
      linarith
    · have h1 := abs_add_le (realVal man (Flt.mul man x y) - realVal man x * realVal man y) (realVal man x * realVal man y)
      rw [sub_add_cancel] at h1
      linarith

theorem dot_error (hf : Format w man) {a b : List (BitVec w)} (hlen : a.length = b.length) {r : BitVec w}
    (h : SumOf (Flt.add man) (Flt.fromInt w man 0) (List.zipWith (Flt.mul man) a b) r) (hr : IsFinite man r) :
    |realVal man r - realDot man a b| ≤ ((1 + unitRoundoff man) ^ a.length - 1) * absDot man a b +
      a.length * (1 + unitRoundoff man) ^ (a.length - 1) * tiny w man := by
  have e1 := (sumOf_error hf h hr).1
  obtain ⟨e2, e3⟩ := products_error hf a b hlen (sumOf_finite_mem hf h hr)
  rw [List.length_zipWith, ← hlen, Nat.min_self] at e1
  have hu := unitRoundoff_pos (man := man)
  rcases Nat.eq_zero_or_pos a.length with h0 | h0
  · rw [h0] at e1 e2 ⊢
    simp at e1 e2 ⊢
    have ha : a = [] := List.length_eq_zero_iff.1 h0
    subst ha
    simp [realSum, realDot] at e1 ⊢
    exact e1
  · obtain ⟨m, hm⟩ : ∃ m, a.length = m + 1 := ⟨a.length - 1, by omega⟩
    rw [hm] at e2 e3
    rw [hm, Nat.add_sub_cancel] at e1
    rw [hm, Nat.add_sub_cancel]
    have hg : 0 ≤ (1 + unitRoundoff man) ^ m - 1 := by
      have := one_le_pow₀ (n := m) (show (1 : ℝ) ≤ 1 + unitRoundoff man by linarith)
      linarith
    have f1 := mul_le_mul_of_nonneg_left e3 hg
    have f2 := abs_add_le (realVal man r - realSum man (List.zipWith (Flt.mul man) a b)) (realSum man (List.zipWith (Flt.mul man) a b) - realDot man a b)
    rw [sub_add_sub_cancel] at f2
    rw [pow_succ]
    push_cast at e2 e3 f1 ⊢
    linarith

end PackedSimd
