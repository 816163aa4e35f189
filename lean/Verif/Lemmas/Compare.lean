import Verif.Model.Compare
import Verif.Lemmas.MaskReduce
import Verif.Spec.Order

namespace PackedSimd
open Intr Spec

variable {α : Type} {w n : Nat}

instance (ty : MaskTy) : LaneCount ty.lanes := ⟨lanes_pos ty, by cases ty <;> decide⟩

theorem lexLoop_spec [LaneCount n] (hw : 0 < w) (pc : α → α → Option Ordering) (o : Ordering) (ho : o ≠ .eq)
    (a b : Vec α n) (mcmp meq : Vec (BitVec w) n)
    (hE : ∀ i (h : i < n), IsMaskLane meq[i] (pc a[i] b[i] == some .eq))
    (hC : ∀ i (h : i < n), IsMaskLane mcmp[i] (pc a[i] b[i] == some o)) :
    ∀ m k, k + m = n → Cmp.lexLoop mcmp meq (List.range' k m) =
      .ok (arrayPartialCompare pc (a.toList.drop k) (b.toList.drop k) == some o) := by
  intro m
  induction m with
  | zero =>
    intro k hk
    rw [List.drop_of_length_le (by simp; omega), List.drop_of_length_le (by simp; omega)]
    simp only [List.range'_zero, Cmp.lexLoop, arrayPartialCompare]
    cases o <;> simp at ho ⊢ <;> rfl
  | succ m ih =>
    intro k hk
    have hkn : k < n := by omega
    have ea : a.toList.drop k = a[k] :: a.toList.drop (k + 1) := by
      rw [List.drop_eq_getElem_cons (by simpa using hkn)]; simp
    have eb : b.toList.drop k = b[k] :: b.toList.drop (k + 1) := by
      rw [List.drop_eq_getElem_cons (by simpa using hkn)]; simp
    rw [List.range'_succ, Cmp.lexLoop, Mask.extract_of_lt _ hkn, Mask.extract_of_lt _ hkn, isMaskLane_iff.1 (hE k hkn),
      isMaskLane_iff.1 (hC k hkn), maskBits_ne_zero hw, maskBits_ne_zero hw, ea, eb, arrayPartialCompare]
    show (if (pc a[k] b[k] == some .eq) = true then _ else _) = _
    by_cases he : pc a[k] b[k] = some .eq
    · rw [if_pos (by simpa using he), if_pos he]
      exact ih (k + 1) (by omega)
    · rw [if_neg (by simpa using he), if_neg he]

theorem lexCompare_spec [LaneCount n] (hw : 0 < w) (pc : α → α → Option Ordering) (o : Ordering) (ho : o ≠ .eq)
    (a b : Vec α n) (mcmp meq : Vec (BitVec w) n)
    (hE : ∀ i (h : i < n), IsMaskLane meq[i] (pc a[i] b[i] == some .eq))
    (hC : ∀ i (h : i < n), IsMaskLane mcmp[i] (pc a[i] b[i] == some o)) :
    Cmp.lexCompare mcmp meq = .ok (arrayPartialCompare pc a.toList b.toList == some o) := by
  have := lexLoop_spec hw pc o ho a b mcmp meq hE hC n 0 (by omega)
  simpa [Cmp.lexCompare, List.range_eq_range'] using this

theorem arrayPartialCompare_eq (pc : α → α → Option Ordering) : ∀ (xs ys : List α) (_ : xs.length = ys.length),
    (arrayPartialCompare pc xs ys = some .eq ↔
      ∀ i (h : i < xs.length) (h' : i < ys.length), pc xs[i] ys[i] = some .eq)
  | [], [], _ => by simp [arrayPartialCompare]
  | x :: xs, y :: ys, hl => by
    have ih := arrayPartialCompare_eq pc xs ys (by simpa using hl)
    rw [arrayPartialCompare]
    constructor
    · intro h i hi hi'
      by_cases he : pc x y = some .eq
      · rw [if_pos he] at h
        cases i with
        | zero => exact he
        | succ i => exact ih.1 h i _ _
      · rw [if_neg he] at h; exact absurd h he
    · intro h
      have h0 : pc x y = some .eq := h 0 (by simp) (by simp)
      rw [if_pos h0]
      exact ih.2 fun i hi hi' => h (i + 1) (by simpa using hi) (by simpa using hi')

theorem arrayPartialCompare_eq_vec (pc : α → α → Option Ordering) (a b : Vec α n) :
    (arrayPartialCompare pc a.toList b.toList = some .eq ↔ ∀ i (h : i < n), pc a[i] b[i] = some .eq) := by
  rw [arrayPartialCompare_eq pc _ _ (by simp)]
  constructor
  · intro h i hi
    have := h i (by simpa using hi) (by simpa using hi)
    rwa [Vector.getElem_toList, Vector.getElem_toList] at this
  · intro h i hi hi'
    rw [Vector.getElem_toList, Vector.getElem_toList]
    exact h i (by simpa using hi)

/-- All the ordering operators, from the masks of the vertical comparisons. -/
theorem lex_all_spec [LaneCount n] (hw : 0 < w) (pc : α → α → Option Ordering) (a b : Vec α n)
    (meq mlt mgt : Vec (BitVec w) n) (eqr : R Bool)
    (hE : ∀ i (h : i < n), IsMaskLane meq[i] (pc a[i] b[i] == some .eq))
    (hL : ∀ i (h : i < n), IsMaskLane mlt[i] (pc a[i] b[i] == some .lt))
    (hG : ∀ i (h : i < n), IsMaskLane mgt[i] (pc a[i] b[i] == some .gt))
    (heq : ∃ r, eqr = .ok r ∧ (r = true ↔ ∀ i (h : i < n), pc a[i] b[i] = some .eq)) :
    Cmp.lexPartialCmp eqr (Cmp.lexCompare mlt meq) (Cmp.lexCompare mgt meq) =
      .ok (arrayPartialCompare pc a.toList b.toList) ∧
    Cmp.lexOrEq (Cmp.lexCompare mlt meq) eqr =
      .ok (arrayPartialCompare pc a.toList b.toList == some .lt || arrayPartialCompare pc a.toList b.toList == some .eq) ∧
    Cmp.lexOrEq (Cmp.lexCompare mgt meq) eqr =
      .ok (arrayPartialCompare pc a.toList b.toList == some .gt || arrayPartialCompare pc a.toList b.toList == some .eq) := by
  rw [lexCompare_spec hw pc .lt (by decide) a b mlt meq hE hL, lexCompare_spec hw pc .gt (by decide) a b mgt meq hE hG]
  obtain ⟨r, rfl, hr⟩ := heq
  rw [← arrayPartialCompare_eq_vec] at hr
  have hrb : r = (arrayPartialCompare pc a.toList b.toList == some .eq) := by
    rw [Bool.eq_iff_iff, hr]; simp
  rw [hrb]
  generalize arrayPartialCompare pc a.toList b.toList = q
  rcases q with _ | (_ | _ | _) <;> exact ⟨rfl, rfl, rfl⟩

theorem arrayCompare_of_partial (pc : α → α → Option Ordering) (v : α → Int)
    (h : ∀ x y, pc x y = some (if v x < v y then .lt else if v y < v x then .gt else .eq)) :
    ∀ xs ys : List α, arrayPartialCompare pc xs ys = some (arrayCompare (xs.map v) (ys.map v))
  | [], [] => rfl
  | [], _ :: _ => rfl
  | _ :: _, [] => rfl
  | x :: xs, y :: ys => by
    rw [arrayPartialCompare, h, List.map_cons, List.map_cons, arrayCompare]
    by_cases h1 : v x < v y
    · simp [h1]
    · by_cases h2 : v y < v x
      · simp [h1, h2]
      · simp only [h1, h2, if_false, if_true]
        exact arrayCompare_of_partial pc v h xs ys

/-! `arrayCompare` is a total order. -/

theorem arrayCompare_refl : ∀ xs, arrayCompare xs xs = .eq
  | [] => rfl
  | x :: xs => by simp [arrayCompare, arrayCompare_refl xs]

theorem arrayCompare_eq_iff : ∀ {xs ys}, arrayCompare xs ys = .eq ↔ xs = ys
  | [], [] => by simp [arrayCompare]
  | [], _ :: _ => by simp [arrayCompare]
  | _ :: _, [] => by simp [arrayCompare]
  | x :: xs, y :: ys => by
    rw [arrayCompare]
    by_cases h1 : x < y
    · simp [h1]; omega
    · by_cases h2 : y < x
      · simp [h1, h2]; omega
      · have : x = y := by omega
        simp [this, arrayCompare_eq_iff]

theorem arrayCompare_swap : ∀ xs ys, arrayCompare ys xs = (arrayCompare xs ys).swap
  | [], [] => rfl
  | [], _ :: _ => rfl
  | _ :: _, [] => rfl
  | x :: xs, y :: ys => by
    rw [arrayCompare, arrayCompare]
    by_cases h1 : x < y
    · have : ¬ y < x := by omega
      simp [h1, this]
    · by_cases h2 : y < x
      · simp [h1, h2]
      · simp [h1, h2, arrayCompare_swap xs ys]

theorem arrayCompare_trans : ∀ {xs ys zs}, arrayCompare xs ys = .lt → arrayCompare ys zs = .lt → arrayCompare xs zs = .lt
  | [], [], _ => by simp [arrayCompare]
  | [], _ :: _, [] => by simp [arrayCompare]
  | [], _ :: _, _ :: _ => by simp [arrayCompare]
  | _ :: _, [], _ => by simp [arrayCompare]
  | x :: xs, y :: ys, [] => by simp [arrayCompare]
  | x :: xs, y :: ys, z :: zs => by
    have ih := @arrayCompare_trans xs ys zs
    simp only [arrayCompare]
    intro h1 h2
    by_cases a1 : x < y <;> by_cases a2 : y < x <;> by_cases b1 : y < z <;> by_cases b2 : z < y <;>
      simp only [a1, a2, b1, b2, if_true, if_false] at h1 h2 <;>
      first
        | (exact absurd h1 (by decide)) | (exact absurd h2 (by decide)) | omega
        | (have c1 : x < z := by omega
           simp [c1])
        | (have c1 : ¬ x < z := by omega
           have c2 : ¬ z < x := by omega
           simp only [c1, c2, if_false]
           exact ih h1 h2)

end PackedSimd
