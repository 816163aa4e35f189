import Verif.Lemmas.Fannkuch
import Verif.Lemmas.Stencil
import Verif.Lemmas.Triangle
import Verif.Lemmas.Spectral
import Verif.Lemmas.Shuffle
import Verif.Model.Examples.Fannkuch
import Mathlib.Algebra.BigOperators.Intervals
import Mathlib.Algebra.Order.BigOperators.Group.Finset
import Mathlib.Tactic.Ring
/-
Lemmas for C78-C81: the scalar program.
-/
namespace PackedSimd.Ex.Fannkuch
open Nat PackedSimd Options

theorem lift_ok {α : Type} (a : α) : lift (.ok a) = .ok a := rfl

theorem D_ok_bind {β γ : Type} (b : β) (k : β → D γ) : (Except.ok b >>= k) = k b := rfl

/-- A loop whose measure decreases ends within that many iterations. -/
theorem whileN_rule {σ : Type} {cond : σ → R Bool} {body : σ → D σ} (Inv : Nat → σ → Prop) (hc : ∀ m s, Inv m s → ∃ b, cond s = .ok b)
    (hb : ∀ m s, Inv m s → cond s = .ok true → ∃ m' s', m' < m ∧ body s = .ok s' ∧ Inv m' s') :
    ∀ fuel m s, Inv m s → m ≤ fuel → ∃ m' s', whileN cond body fuel s = .ok s' ∧ Inv m' s' ∧ cond s' = .ok false ∧ m' ≤ m ∧
      (cond s = .ok true → m' < m) := by
  intro fuel
  induction fuel with
  | zero =>
    intro m s hI hm
    obtain ⟨b, hs⟩ := hc m s hI
    cases b with
    | false => exact ⟨m, s, by rw [whileN, hs]; rfl, hI, hs, Nat.le_refl _, fun h => by rw [hs] at h; cases h⟩
    | true =>
      obtain ⟨m', _, h, _⟩ := hb m s hI hs
      omega
  | succ fuel ih =>
    intro m s hI hm
    obtain ⟨b, hs⟩ := hc m s hI
    cases b with
    | false => exact ⟨m, s, by rw [whileN, hs]; rfl, hI, hs, Nat.le_refl _, fun h => by rw [hs] at h; cases h⟩
    | true =>
      obtain ⟨m', s', hlt, e, hI'⟩ := hb m s hI hs
      obtain ⟨m'', s'', e', hI'', hf, hle, _⟩ := ih m' s' hI' (by omega)
      refine ⟨m'', s'', ?_, hI'', hf, by omega, fun _ => by omega⟩
      rw [whileN, hs, lift_ok, D_ok_bind, if_pos rfl, e, D_ok_bind, e']

/-! ### `i32` sums -/

/-- `v` fits in `i32`. -/
def Fits (v : Int) : Prop := -2 ^ 31 ≤ v ∧ v < 2 ^ 31

theorem Fits.bmod {v : Int} (h : Fits v) : v.bmod (2 ^ 32) = v := by
  obtain ⟨h1, h2⟩ := h
  exact Int.bmod_eq_of_le_mul_two (by omega) (by omega)

theorem i32_bmod {dbg : Bool} {v : Int} (h : dbg = false ∨ Fits v) : i32 dbg v = .ok (v.bmod (2 ^ 32)) := by
  by_cases hv : Fits v
  · rw [hv.bmod]; exact i32_ok hv
  · rcases h with rfl | h
    · exact (if_neg hv).trans rfl
    · exact absurd h hv

theorem i32_acc {dbg : Bool} {a b : Int} (h : dbg = false ∨ (Fits a ∧ Fits (a + b))) :
    i32 dbg (a.bmod (2 ^ 32) + b) = .ok ((a + b).bmod (2 ^ 32)) := by
  rcases h with rfl | ⟨h1, h2⟩
  · rw [i32_bmod (.inl rfl), Int.bmod_add_bmod]
  · rw [h1.bmod, i32_bmod (.inr h2)]

theorem asI32_small {v : Nat} (h : v < 2 ^ 31) : asI32 v = v := Fits.bmod ⟨by omega, by omega⟩

theorem u32_ok {dbg : Bool} {v : Nat} (h : v < 2 ^ 32) : u32 dbg v = .ok v := if_pos h

theorem asUsize_nat {t : Target} (v : Nat) : asUsize t (v : Int) = v := by
  rw [asUsize_nonneg (by omega)]
  omega

theorem lset_lt {β : Type} (l : List β) {k : Nat} (x : β) (h : k < l.length) : lset l k x = .ok (l.set k x) := if_pos h

/-! ### Rotating and counting -/

theorem rotate_fold (prev : Int) : ∀ l : List Int,
    l.foldr (fun v (acc : List Int × Int) => (acc.2 :: acc.1, v)) ([], prev) = ((l ++ [prev]).tail, (l ++ [prev]).headD prev)
  | [] => rfl
  | a :: l => by
    rw [List.foldr_cons, rotate_fold prev l]
    cases l <;> rfl

theorem rotate_ok {x : List Int} (h : x ≠ []) : rotate x = .ok (x.rotate 1) := by
  cases x with
  | nil => exact absurd rfl h
  | cons a l =>
    unfold rotate
    rw [lget_lt _ (by simp), R_ok_bind, rotate_fold, List.rotate_cons_succ, List.rotate_zero]
    rfl

theorem onPrefix_rotate {i : Nat} {p : List Int} (h : i + 1 ≤ p.length) : onPrefix (i + 1) rotate p = .ok (rotN i 1 p) := by
  unfold onPrefix
  rw [if_pos h, rotate_ok (by intro hc; have := congrArg List.length hc; rw [List.length_take, List.length_nil] at this; omega), R_ok_bind]
  rfl

/-- The counters held by an array. -/
def Cnt (cnt : List Int) (c : Nat → Nat) : Prop := cnt.length = 16 ∧ ∀ j, j < 16 → cnt[j]? = some (c j : Int)

theorem Cnt.set {cnt : List Int} {c : Nat → Nat} (h : Cnt cnt c) {i : Nat} (hi : i < 16) (v : Nat) : Cnt (cnt.set i (v : Int)) (Function.update c i v) := by
  refine ⟨by rw [List.length_set]; exact h.1, fun j hj => ?_⟩
  rw [List.getElem?_set]
  by_cases hij : i = j
  · subst hij
    rw [if_pos rfl, if_pos (by rw [h.1]; exact hi), Function.update_self]
  · rw [if_neg hij, Function.update_of_ne (Ne.symm hij)]
    exact h.2 j hj

theorem Cnt.get {cnt : List Int} {c : Nat → Nat} (h : Cnt cnt c) {i : Nat} (hi : i < 16) : lget cnt i = .ok (c i : Int) := by
  have hl : i < cnt.length := by rw [h.1]; exact hi
  rw [lget_lt _ hl]
  have := h.2 i hi
  rw [List.getElem?_eq_getElem hl] at this
  exact congrArg Except.ok (Option.some.inj this)

theorem nextLoop_ok {dbg : Bool} : ∀ (r i : Nat) (p : List Int) (cnt : List Int) (c : Nat → Nat) (q : List Int) (c' : Nat → Nat), i + r ≤ 16 → p.length = 16 → Cnt cnt c →
    advance i r (p, c) = some (q, c') → ∃ cnt', nextLoop dbg (List.range' i r) (p, cnt) = .ok (q, cnt') ∧ Cnt cnt' c'
  | 0, _, _, _, _, _, _, _, _, _, h => by cases h
  | r + 1, i, p, cnt, c, q, c', hir, hp, hc, h => by
    have hi : i < 16 := by omega
    rw [List.range'_succ, nextLoop, onPrefix_rotate (by omega), R_ok_bind, hc.get hi, R_ok_bind]
    rw [advance] at h
    by_cases hci : i ≤ c i
    · rw [if_pos (show (c i : Int) ≥ i by omega), lset_lt _ _ (by rw [hc.1]; exact hi), R_ok_bind]
      rw [if_pos hci] at h
      exact nextLoop_ok r (i + 1) _ _ _ q c' (by omega) (by rw [length_rotN]; exact hp) (hc.set hi 0) h
    · rw [if_neg (show ¬ (c i : Int) ≥ i by omega), i32_ok ⟨by omega, by omega⟩, R_ok_bind, lset_lt _ _ (by rw [hc.1]; exact hi), R_ok_bind]
      rw [if_neg hci] at h
      cases h
      exact ⟨_, rfl, hc.set hi (c i + 1)⟩

/-! ### Flips -/

/-- The cards as `i32`. -/
def enc (p : List Nat) : List Int := p.map fun (x : Nat) => (x : Int)

theorem head_enc {p : List Nat} {k : Nat} (h : p.head? = some k) (b : List Int) : lget (enc p ++ b) 0 = .ok (k : Int) := by
  cases p with
  | nil => cases h
  | cons a l =>
    cases h
    exact lget_lt _ (by simp [enc])

theorem head_le {p : List Nat} {k n : Nat} (hp : p.Perm (cards n)) (h : p.head? = some k) : 1 ≤ k ∧ k ≤ n ∧ p.length = n := by
  have := mem_cards.1 (hp.mem_iff.1 (List.mem_of_mem_head? (by rw [h]; rfl)))
  exact ⟨this.1, this.2, by rw [hp.length_eq, length_cards]⟩

theorem headD_eq {p : List Nat} {k : Nat} (h : p.head? = some k) : p.headD 1 = k := by
  cases p with
  | nil => cases h
  | cons a l => cases h; rfl

theorem flipStep_ok {t : Target} {dbg : Bool} {p : List Nat} {n k : Nat} (hp : p.Perm (cards n)) (h : p.head? = some k) (b : List Int) {f : Int} (hf : Fits (f + 1)) :
    flipStep t dbg (enc p ++ b, f) = .ok (enc (flip p) ++ b, f + 1) := by
  obtain ⟨h1, h2, h3⟩ := head_le hp h
  unfold flipStep
  rw [head_enc h, R_ok_bind, asUsize_nat]
  unfold onPrefix
  have hl : k ≤ (enc p).length := by rw [enc, List.length_map]; omega
  rw [if_pos (by rw [List.length_append]; omega), R_ok_bind, List.take_append_of_le_length hl, List.drop_append_of_le_length hl]
  show (do return (_, ← i32 dbg (f + 1))) = _
  rw [i32_ok hf, R_ok_bind]
  unfold flip enc
  rw [headD_eq h, List.map_append, List.map_reverse, List.map_take, List.map_drop, List.append_assoc]
  rfl

theorem flipLoop_gen {t : Target} {dbg : Bool} {n : Nat} (b : List Int) {p : List Nat} {m : Nat} (h : Flips p m) : p.Perm (cards n) → ∀ (f : Nat) (fuel : Nat), m ≤ fuel →
    f + m < 2 ^ 31 → ∃ q, whileN (fun s => do return (← lget s.1 0) != 1) (fun s => lift (flipStep t dbg s)) fuel (enc p ++ b, (f : Int)) = .ok (q, ((f + m : Nat) : Int)) := by
  induction h with
  | @done p h =>
    intro hp f fuel _ _
    refine ⟨enc p ++ b, ?_⟩
    cases fuel <;> (rw [whileN, head_enc h]; rfl)
  | @step p k m h h1 _ ih =>
    intro hp f fuel hfu hb
    obtain ⟨g, rfl⟩ : ∃ g, fuel = g + 1 := ⟨fuel - 1, by omega⟩
    obtain ⟨q, e⟩ := ih ((flip_perm p).trans hp) (f + 1) g (by omega) (by omega)
    refine ⟨q, ?_⟩
    rw [whileN, head_enc h]
    show (if (((k : Int) != 1) = true) then _ else _) = _
    rw [if_pos (by rw [bne_iff_ne]; omega), flipStep_ok hp h b ⟨by omega, by omega⟩, lift_ok, D_ok_bind, show ((f : Int) + 1) = ((f + 1 : Nat) : Int) by omega, e,
      show f + 1 + m = f + (m + 1) by omega]

theorem flipLoop_ok {t : Target} {dbg : Bool} {n : Nat} (b : List Int) {p : List Nat} {m : Nat} (h : Flips p m) (hp : p.Perm (cards n)) {fuel : Nat} (hf : m ≤ fuel)
    (hm : m < 2 ^ 31) : ∃ q, flipLoop t dbg fuel (enc p ++ b) = .ok (q, (m : Int)) := by
  obtain ⟨q, e⟩ := flipLoop_gen (t := t) (dbg := dbg) b h hp 0 fuel hf (by omega)
  rw [Nat.zero_add] at e
  exact ⟨q, e⟩

/-! ### Sums -/

/-- The terms `lo ≤ j < hi` of the checksum. -/
def S (F : Nat → Nat) (lo hi : Nat) : Int := ∑ j ∈ Finset.Ico lo hi, (-1) ^ j * (F j : Int)

theorem S_self (F : Nat → Nat) (a : Nat) : S F a a = 0 := by unfold S; rw [Finset.Ico_self, Finset.sum_empty]

theorem S_succ (F : Nat → Nat) {a b : Nat} (h : a ≤ b) : S F a (b + 1) = S F a b + (-1) ^ b * (F b : Int) := Finset.sum_Ico_succ_top h _

theorem S_add (F : Nat → Nat) {a b c : Nat} (h : a ≤ b) (h' : b ≤ c) : S F a b + S F b c = S F a c := Finset.sum_Ico_consecutive _ h h'

theorem sign_even {j : Nat} (h : j % 2 = 0) (v : Int) : (-1) ^ j * v = v := by
  rw [Even.neg_one_pow (Nat.even_iff.2 h), one_mul]

theorem sign_odd {j : Nat} (h : ¬ j % 2 = 0) (v : Int) : (-1) ^ j * v = -v := by
  rw [Odd.neg_one_pow (Nat.odd_iff.2 (by omega)), neg_one_mul]

theorem term_abs (F : Nat → Nat) (j : Nat) : |(-1) ^ j * (F j : Int)| = F j := by
  by_cases h : j % 2 = 0
  · rw [sign_even h, abs_of_nonneg (by omega)]
  · rw [sign_odd h, abs_neg, abs_of_nonneg (by omega)]

theorem S_abs {F : Nat → Nat} {B hi : Nat} (hF : ∀ j, j < hi → F j ≤ B) (lo : Nat) : |S F lo hi| ≤ (hi - lo : Nat) * (B : Int) := by
  refine (Finset.abs_sum_le_sum_abs _ _).trans ?_
  have := Finset.sum_le_card_nsmul (Finset.Ico lo hi) (fun j => |(-1) ^ j * (F j : Int)|) (B : Int) (by
    intro j hj
    rw [term_abs]
    exact_mod_cast hF j (Finset.mem_Ico.1 hj).2)
  rw [Nat.card_Ico, nsmul_eq_mul] at this
  exact this

end PackedSimd.Ex.Fannkuch
