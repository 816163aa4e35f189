import Verif.Spec.Fannkuch
import Mathlib.Data.List.Perm.Basic
import Mathlib.Tactic.Linarith
import Mathlib.Logic.Function.Basic
/-
Combinatorics for C78-C81: flips terminate, and the numbering of the permutations.
-/
namespace PackedSimd.Ex.Fannkuch
open Nat

variable {α β : Type}

/-! ### Flips -/

theorem Flips.unique {p : List Nat} {m m' : Nat} (h : Flips p m) : Flips p m' → m = m' := by
  induction h generalizing m' with
  | done h1 =>
    intro h
    cases h with
    | done => rfl
    | step h2 h3 _ => rw [h1] at h2; cases h2; exact absurd rfl h3
  | step h1 h2 _ ih =>
    intro h
    cases h with
    | done h3 => rw [h1] at h3; cases h3; exact absurd rfl h2
    | step _ _ h5 => rw [ih h5]

theorem flip_perm (p : List Nat) : (flip p).Perm p := by
  unfold flip
  exact ((List.reverse_perm _).append_right _).trans (by rw [List.take_append_drop])

/-- The part of the potential below position `n`: `2^(i-1)` for every card in its place `i ≥ 1` (counting from 0). -/
def pot (p : List Nat) : Nat → Nat
  | 0 => 0
  | n + 1 => pot p n + if 1 ≤ n ∧ p[n]? = some (n + 1) then 2 ^ (n - 1) else 0

theorem pot_lt (p : List Nat) : ∀ n, pot p n < 2 ^ (n - 1)
  | 0 => Nat.one_pos
  | 1 => by simp [pot]
  | n + 2 => by
    have h := pot_lt p (n + 1)
    have e : pot p (n + 2) ≤ pot p (n + 1) + 2 ^ n := by
      show pot p (n + 1) + (if 1 ≤ n + 1 ∧ p[n + 1]? = some (n + 1 + 1) then 2 ^ (n + 1 - 1) else 0) ≤ _
      split
      · exact Nat.le_refl _
      · exact Nat.add_le_add_left (Nat.zero_le _) _
    rw [Nat.add_sub_cancel] at h
    rw [show n + 2 - 1 = n + 1 by omega, Nat.pow_succ]
    omega

theorem pot_congr {p q : List Nat} {a b : Nat} (hab : a ≤ b) (h : ∀ i, a ≤ i → p[i]? = q[i]?) : pot q b + pot p a = pot p b + pot q a := by
  induction b with
  | zero =>
    have : a = 0 := by omega
    subst this; rfl
  | succ b ih =>
    by_cases hb : a = b + 1
    · subst hb; omega
    · have := ih (by omega)
      simp only [pot, h b (by omega)]
      omega

theorem flip_get {p : List Nat} {k : Nat} (hk : p.head? = some k) (hlen : k ≤ p.length) (h1 : 1 ≤ k) :
    (flip p)[k - 1]? = some k ∧ ∀ i, k ≤ i → (flip p)[i]? = p[i]? := by
  have hd : p.headD 1 = k := by
    cases p with
    | nil => cases hk
    | cons a l => simpa using hk
  unfold flip
  rw [hd]
  constructor
  · rw [List.getElem?_append_left (by simp; omega), List.getElem?_reverse (by simp; omega), List.getElem?_take, if_pos (by simp; omega)]
    rw [List.head?_eq_getElem?] at hk
    rw [← hk]
    congr 1
    simp
    omega
  · intro i hi
    rw [List.getElem?_append_right (by simp; omega), List.getElem?_drop]
    congr 1
    simp
    omega

theorem pot_flip {p : List Nat} {k n : Nat} (hk : p.head? = some k) (h2 : 2 ≤ k) (hkn : k ≤ n) (hlen : n ≤ p.length) (hnd : p.Nodup) : pot p n < pot (flip p) n := by
  obtain ⟨f1, f2⟩ := flip_get hk (by omega) (by omega)
  have e := pot_congr hkn f2
  obtain ⟨j, rfl⟩ : ∃ j, k = j + 2 := ⟨k - 2, by omega⟩
  have hne : p[j + 1]? ≠ some (j + 2) := by
    intro hc
    rw [List.head?_eq_getElem?] at hk
    have := (List.getElem?_inj (i := 0) (j := j + 1) (by omega) hnd).1 (by rw [hk, hc])
    omega
  have b := pot_lt p (j + 1)
  have e1 : pot p (j + 2) = pot p (j + 1) := by
    show pot p (j + 1) + _ = _
    rw [if_neg (fun h => hne h.2), Nat.add_zero]
  have e2 : pot (flip p) (j + 2) = pot (flip p) (j + 1) + 2 ^ j := by
    show pot (flip p) (j + 1) + _ = _
    rw [if_pos ⟨by omega, f1⟩]
    rfl
  rw [Nat.add_sub_cancel] at b
  rw [e1, e2] at e
  omega

theorem mem_cards {n x : Nat} : x ∈ cards n ↔ 1 ≤ x ∧ x ≤ n := by
  unfold cards
  rw [List.mem_range'_1]
  omega

theorem nodup_cards (n : Nat) : (cards n).Nodup := List.nodup_range'

theorem length_cards (n : Nat) : (cards n).length = n := List.length_range'

theorem flips_exists {n : Nat} (hn : 1 ≤ n) : ∀ (d : Nat) (p : List Nat), p.Perm (cards n) → 2 ^ (n - 1) ≤ pot p n + 1 + d → ∃ m, m ≤ d ∧ Flips p m := by
  intro d
  induction d with
  | zero =>
    intro p hp hd
    have hlen : p.length = n := by rw [hp.length_eq, length_cards]
    obtain ⟨k, l, rfl⟩ : ∃ k l, p = k :: l := by
      cases p with
      | nil => simp at hlen; omega
      | cons k l => exact ⟨k, l, rfl⟩
    have hk := mem_cards.1 (hp.mem_iff.1 (List.mem_cons_self))
    by_cases h1 : k = 1
    · exact ⟨0, Nat.le_refl _, .done (by rw [h1]; rfl)⟩
    · have := pot_flip (p := k :: l) (k := k) (n := n) rfl (by omega) hk.2 (by omega) (hp.nodup_iff.2 (nodup_cards n))
      have := pot_lt (flip (k :: l)) n
      omega
  | succ d ih =>
    intro p hp hd
    have hlen : p.length = n := by rw [hp.length_eq, length_cards]
    obtain ⟨k, l, rfl⟩ : ∃ k l, p = k :: l := by
      cases p with
      | nil => simp at hlen; omega
      | cons k l => exact ⟨k, l, rfl⟩
    have hk := mem_cards.1 (hp.mem_iff.1 (List.mem_cons_self))
    by_cases h1 : k = 1
    · exact ⟨0, Nat.zero_le _, .done (by rw [h1]; rfl)⟩
    · have := pot_flip (p := k :: l) (k := k) (n := n) rfl (by omega) hk.2 (by omega) (hp.nodup_iff.2 (nodup_cards n))
      obtain ⟨m, hm, hf⟩ := ih (flip (k :: l)) ((flip_perm _).trans hp) (by omega)
      exact ⟨m + 1, by omega, .step rfl h1 hf⟩

theorem flips_bound {n : Nat} (hn : 1 ≤ n) {p : List Nat} (hp : p.Perm (cards n)) : ∃ m, m < 2 ^ (n - 1) ∧ Flips p m := by
  obtain ⟨m, hm, hf⟩ := flips_exists hn (2 ^ (n - 1) - 1) p hp (by omega)
  have := Nat.two_pow_pos (n - 1)
  exact ⟨m, by omega, hf⟩

/-! ### Rotations of a prefix -/

/-- Rotate the first `m + 1` elements left by `j`. -/
def rotN (m j : Nat) (p : List α) : List α := (p.take (m + 1)).rotate j ++ p.drop (m + 1)

theorem length_rotN (m j : Nat) (p : List α) : (rotN m j p).length = p.length := by
  unfold rotN
  rw [List.length_append, List.length_rotate, ← List.length_append, List.take_append_drop]

theorem rotN_perm (m j : Nat) (p : List α) : (rotN m j p).Perm p := by
  unfold rotN
  exact ((List.rotate_perm _ _).append_right _).trans (by rw [List.take_append_drop])

theorem take_rotN {m : Nat} (j : Nat) {p : List α} (h : m + 1 ≤ p.length) : (rotN m j p).take (m + 1) = (p.take (m + 1)).rotate j := by
  unfold rotN
  rw [List.take_left' (by rw [List.length_rotate, List.length_take]; omega)]

theorem drop_rotN {m : Nat} (j : Nat) {p : List α} (h : m + 1 ≤ p.length) : (rotN m j p).drop (m + 1) = p.drop (m + 1) := by
  unfold rotN
  rw [List.drop_left' (by rw [List.length_rotate, List.length_take]; omega)]

theorem rotN_rotN {m : Nat} (i j : Nat) {p : List α} (h : m + 1 ≤ p.length) : rotN m j (rotN m i p) = rotN m (i + j) p := by
  show ((rotN m i p).take (m + 1)).rotate j ++ (rotN m i p).drop (m + 1) = _
  rw [take_rotN i h, drop_rotN i h, List.rotate_rotate]
  rfl

theorem rotN_full {m : Nat} {p : List α} (h : m + 1 ≤ p.length) : rotN m (m + 1) p = p := by
  unfold rotN
  have : (p.take (m + 1)).length = m + 1 := by rw [List.length_take]; omega
  have e := List.rotate_length (p.take (m + 1))
  rw [this] at e
  rw [e, List.take_append_drop]

theorem rotN_zero (m : Nat) (p : List α) : rotN m 0 p = p := by
  unfold rotN
  rw [List.rotate_zero, List.take_append_drop]

theorem nthPerm_succ (m k : Nat) (p : List α) : nthPerm (m + 1) k p = nthPerm m (k % m !) (rotN m (k / m !) p) := rfl

theorem rotN_map (f : α → β) (m j : Nat) (p : List α) : rotN m j (p.map f) = (rotN m j p).map f := by
  unfold rotN
  rw [← List.map_take, ← List.map_rotate, ← List.map_drop, ← List.map_append]

theorem nthPerm_map (f : α → β) : ∀ (m k : Nat) (p : List α), nthPerm m k (p.map f) = (nthPerm m k p).map f
  | 0, _, _ => rfl
  | m + 1, k, p => by rw [nthPerm_succ, nthPerm_succ, rotN_map, nthPerm_map f m]

theorem rotN_append {m : Nat} (j : Nat) {a : List α} (h : m + 1 ≤ a.length) (b : List α) : rotN m j (a ++ b) = rotN m j a ++ b := by
  unfold rotN
  rw [List.take_append_of_le_length h, List.drop_append_of_le_length h, List.append_assoc]

theorem length_nthPerm : ∀ (m k : Nat) (p : List α), (nthPerm m k p).length = p.length
  | 0, _, _ => rfl
  | m + 1, k, p => by rw [nthPerm_succ, length_nthPerm m, length_rotN]

theorem nthPerm_append : ∀ {m : Nat} (k : Nat) {a : List α}, m ≤ a.length → ∀ b : List α, nthPerm m k (a ++ b) = nthPerm m k a ++ b
  | 0, _, _, _, _ => rfl
  | m + 1, k, a, h, b => by
    rw [nthPerm_succ, nthPerm_succ, rotN_append _ h, nthPerm_append _ (by rw [length_rotN]; omega)]

theorem nthPerm_perm : ∀ (m k : Nat) (p : List α), (nthPerm m k p).Perm p
  | 0, _, _ => .refl _
  | m + 1, k, p => (nthPerm_perm m _ _).trans (rotN_perm m _ p)

/-- Positions from `m` on are not touched. -/
theorem nthPerm_drop : ∀ (m k : Nat) (p : List α), m ≤ p.length → ∀ i, m ≤ i → (nthPerm m k p)[i]? = p[i]?
  | 0, _, _, _, _, _ => rfl
  | m + 1, k, p, h, i, hi => by
    rw [nthPerm_succ, nthPerm_drop m _ _ (by rw [length_rotN]; omega) i (by omega)]
    have := drop_rotN (k / m !) h
    have e := congrArg (fun l => l[i - (m + 1)]?) this
    simp only [List.getElem?_drop] at e
    rwa [show m + 1 + (i - (m + 1)) = i by omega] at e

theorem rotN_last {m j : Nat} {p : List α} (h : m + 1 ≤ p.length) : (rotN m j p)[m]? = p[(m + j) % (m + 1)]? := by
  have hl : (p.take (m + 1)).length = m + 1 := by rw [List.length_take]; omega
  unfold rotN
  rw [List.getElem?_append_left (by rw [List.length_rotate, hl]; omega), List.getElem?_rotate (by rw [hl]; omega), hl, List.getElem?_take,
    if_pos (Nat.mod_lt _ (by omega))]

theorem mod_inj {m i j : Nat} (hi : i ≤ m) (hj : j ≤ m) (h : (m + i) % (m + 1) = (m + j) % (m + 1)) : i = j := by
  have f : ∀ x, x ≤ m → (m + x) % (m + 1) = if x = 0 then m else x - 1 := by
    intro x hx
    split
    · subst_vars; exact Nat.mod_eq_of_lt (by omega)
    · rw [show m + x = (x - 1) + (m + 1) by omega, Nat.add_mod_right, Nat.mod_eq_of_lt (by omega)]
  rw [f i hi, f j hj] at h
  split at h <;> split at h <;> omega

/-- Different numbers give different permutations. -/
theorem nthPerm_inj : ∀ {m k l : Nat} {p : List α}, p.Nodup → m ≤ p.length → k < m ! → l < m ! → nthPerm m k p = nthPerm m l p → k = l
  | 0, k, l, _, _, _, hk, hl, _ => by simp at hk hl; omega
  | m + 1, k, l, p, hnd, hlen, hk, hl, h => by
    have hpos := Nat.factorial_pos m
    rw [Nat.factorial_succ] at hk hl
    have hk' : k / m ! < m + 1 := Nat.div_lt_of_lt_mul (by rw [Nat.mul_comm]; exact hk)
    have hl' : l / m ! < m + 1 := Nat.div_lt_of_lt_mul (by rw [Nat.mul_comm]; exact hl)
    rw [nthPerm_succ, nthPerm_succ] at h
    have e : (nthPerm m (k % m !) (rotN m (k / m !) p))[m]? = (nthPerm m (l % m !) (rotN m (l / m !) p))[m]? := by rw [h]
    rw [nthPerm_drop m _ _ (by rw [length_rotN]; omega) m (Nat.le_refl m), nthPerm_drop m _ _ (by rw [length_rotN]; omega) m (Nat.le_refl m),
      rotN_last hlen, rotN_last hlen] at e
    have hm := Nat.mod_lt (m + k / m !) (show 0 < m + 1 by omega)
    have e' := (List.getElem?_inj (by omega) hnd).1 e
    have e'' := mod_inj (by omega) (by omega) e'
    rw [e''] at h
    have := nthPerm_inj ((rotN_perm m _ p).nodup_iff.2 hnd) (by rw [length_rotN]; omega) (Nat.mod_lt _ hpos) (Nat.mod_lt _ hpos) h
    rw [← Nat.div_add_mod k (m !), ← Nat.div_add_mod l (m !), e'', this]

/-- Every rearrangement of the first `m` elements has a number. -/
theorem nthPerm_surj : ∀ {m : Nat} {p q : List α}, m ≤ p.length → q.Perm p → (∀ i, m ≤ i → q[i]? = p[i]?) → ∃ k, k < m ! ∧ nthPerm m k p = q
  | 0, p, q, _, _, h => ⟨0, by decide, List.ext_getElem? fun i => (h i (Nat.zero_le i)).symm⟩
  | m + 1, p, q, hlen, hp, h => by
    have hpos := Nat.factorial_pos m
    have hql : q.length = p.length := hp.length_eq
    have hd : q.drop (m + 1) = p.drop (m + 1) := by
      apply List.ext_getElem?
      intro i
      rw [List.getElem?_drop, List.getElem?_drop, h _ (by omega)]
    have ht : (q.take (m + 1)).Perm (p.take (m + 1)) := by
      rw [← List.take_append_drop (m + 1) q, ← List.take_append_drop (m + 1) p, hd] at hp
      exact (List.perm_append_right_iff _).1 hp
    have hmem : q[m] ∈ p.take (m + 1) := ht.mem_iff.1 (by
      rw [List.mem_iff_getElem?]
      exact ⟨m, by rw [List.getElem?_take, if_pos (by omega), List.getElem?_eq_getElem (by omega)]⟩)
    obtain ⟨i, hi⟩ := List.mem_iff_getElem?.1 hmem
    have him : i < m + 1 := by
      have := (List.getElem?_eq_some_iff.1 hi).1
      rw [List.length_take] at this
      omega
    rw [List.getElem?_take, if_pos him] at hi
    obtain ⟨j, hj, hji⟩ : ∃ j, j < m + 1 ∧ (m + j) % (m + 1) = i := by
      by_cases him' : i = m
      · exact ⟨0, by omega, by rw [Nat.add_zero, Nat.mod_eq_of_lt (by omega), him']⟩
      · exact ⟨i + 1, by omega, by rw [show m + (i + 1) = i + (m + 1) by omega, Nat.add_mod_right, Nat.mod_eq_of_lt him]⟩
    obtain ⟨r, hr, e⟩ := nthPerm_surj (m := m) (p := rotN m j p) (q := q) (by rw [length_rotN]; omega) (hp.trans (rotN_perm m j p).symm) (by
      intro x hx
      by_cases hxm : x = m
      · rw [hxm, rotN_last hlen, hji, hi, List.getElem?_eq_getElem (by omega)]
      · rw [h x (by omega)]
        have e := congrArg (fun l => l[x - (m + 1)]?) (drop_rotN j hlen)
        simp only [List.getElem?_drop] at e
        rw [show m + 1 + (x - (m + 1)) = x by omega] at e
        exact e.symm)
    refine ⟨m ! * j + r, ?_, ?_⟩
    · rw [Nat.factorial_succ, Nat.mul_comm (m + 1)]
      calc m ! * j + r < m ! * j + m ! := by omega
        _ = m ! * (j + 1) := by rw [Nat.mul_add, Nat.mul_one]
        _ ≤ m ! * (m + 1) := Nat.mul_le_mul_left _ (by omega)
    · rw [nthPerm_succ, Nat.mul_add_mod, Nat.mod_eq_of_lt hr, Nat.mul_add_div hpos, Nat.div_eq_of_lt hr, Nat.add_zero]
      exact e

/-! ### Counting through the permutations -/

/-- Counter values at permutation `k`. -/
def digits : Nat → Nat → (Nat → Nat) → Nat → Nat
  | 0, _, c => c
  | m + 1, k, c => digits m (k % m !) (Function.update c m (k / m !))

/-- From position `i` on, `r` positions left: rotate, and either carry or stop. -/
def advance : Nat → Nat → List α × (Nat → Nat) → Option (List α × (Nat → Nat))
  | _, 0, _ => none
  | i, r + 1, (p, c) =>
    if i ≤ c i then advance (i + 1) r (rotN i 1 p, Function.update c i 0) else some (rotN i 1 p, Function.update c i (c i + 1))

theorem digits_zero : ∀ (m : Nat) (c : Nat → Nat), (∀ j, j < m → c j = 0) → digits m 0 c = c
  | 0, _, _ => rfl
  | m + 1, c, h => by
    rw [digits, Nat.zero_mod, Nat.zero_div, Function.update_eq_self_iff.2 (h m (by omega)).symm]
    exact digits_zero m c (fun j hj => h j (by omega))

theorem nthPerm_zero : ∀ (m : Nat) (p : List α), nthPerm m 0 p = p
  | 0, _ => rfl
  | m + 1, p => by rw [nthPerm_succ, Nat.zero_mod, Nat.zero_div, rotN_zero, nthPerm_zero m]

/-- Advancing goes through the numbers in order, and after the last permutation of the first `m` elements carries into position `m`. -/
theorem advance_block {n : Nat} : ∀ (m : Nat), 1 ≤ m → m ≤ n → ∀ (p : List α) (c : Nat → Nat), m ≤ p.length → (∀ j, j < m → c j = 0) → ∀ k, k < m ! →
    advance 1 (n - 1) (nthPerm m k p, digits m k c) =
      if k + 1 < m ! then some (nthPerm m (k + 1) p, digits m (k + 1) c) else advance m (n - m) (p, c)
  | 0, h, _, _, _, _, _, _, _ => by omega
  | 1, _, _, p, c, _, hc, k, hk => by
    have : k = 0 := by simpa using hk
    subst this
    rw [nthPerm_zero, digits_zero 1 c hc, if_neg (by decide)]
  | m + 2, _, hn, p, c, hlen, hc, k, hk => by
    have hpos := Nat.factorial_pos (m + 1)
    have hk' := hk
    rw [Nat.factorial_succ] at hk'
    have hj : k / (m + 1)! < m + 2 := Nat.div_lt_of_lt_mul (by rw [Nat.mul_comm]; exact hk')
    have hr := Nat.mod_lt k hpos
    have hdm := Nat.div_add_mod k ((m + 1)!)
    rw [nthPerm_succ, digits, advance_block (m + 1) (by omega) (by omega) _ _ (by rw [length_rotN]; omega)
      (fun j hj => by rw [Function.update_of_ne (by omega)]; exact hc j (by omega)) _ hr]
    by_cases h1 : k % (m + 1)! + 1 < (m + 1)!
    · have e1 : (k + 1) / (m + 1)! = k / (m + 1)! := by
        rw [show k + 1 = (m + 1)! * (k / (m + 1)!) + (k % (m + 1)! + 1) by omega, Nat.mul_add_div hpos, Nat.div_eq_of_lt h1, Nat.add_zero]
      have e2 : (k + 1) % (m + 1)! = k % (m + 1)! + 1 := by
        rw [show k + 1 = (m + 1)! * (k / (m + 1)!) + (k % (m + 1)! + 1) by omega, Nat.mul_add_mod, Nat.mod_eq_of_lt h1]
      have h2 : k + 1 < (m + 2)! := by
        rw [Nat.factorial_succ]
        calc k + 1 < (m + 1)! * (k / (m + 1)!) + (m + 1)! := by omega
          _ = (m + 1)! * (k / (m + 1)! + 1) := by rw [Nat.mul_add, Nat.mul_one]
          _ ≤ (m + 1)! * (m + 2) := Nat.mul_le_mul_left _ (by omega)
          _ = _ := Nat.mul_comm _ _
      rw [if_pos h1, if_pos h2, nthPerm_succ (m + 1) (k + 1), show digits (m + 2) (k + 1) c = digits (m + 1) ((k + 1) % (m + 1)!) (Function.update c (m + 1) ((k + 1) / (m + 1)!)) from rfl, e1, e2]
    · have e3 : k + 1 = (m + 1)! * (k / (m + 1)! + 1) := by rw [Nat.mul_add, Nat.mul_one]; omega
      rw [if_neg h1, show n - (m + 1) = (n - (m + 2)) + 1 by omega]
      simp only [advance, Function.update_self, Function.update_idem]
      rw [rotN_rotN _ _ (by omega)]
      by_cases h3 : m + 1 ≤ k / (m + 1)!
      · have h4 : k / (m + 1)! = m + 1 := by omega
        have h5 : ¬ k + 1 < (m + 2)! := by
          rw [e3, h4, Nat.factorial_succ (m + 1), Nat.mul_comm]
          omega
        rw [if_pos h3, if_neg h5, h4, rotN_full (by omega), Function.update_eq_self_iff.2 (hc (m + 1) (by omega)).symm]
      · have h5 : k + 1 < (m + 2)! := by
          rw [e3, Nat.factorial_succ (m + 1), Nat.mul_comm]
          exact Nat.mul_lt_mul_of_pos_right (by omega) hpos
        have e4 : (k + 1) / (m + 1)! = k / (m + 1)! + 1 := by
          conv_lhs => rw [e3]
          exact Nat.mul_div_cancel_left _ hpos
        have e5 : (k + 1) % (m + 1)! = 0 := by
          conv_lhs => rw [e3]
          exact Nat.mul_mod_right _ _
        rw [if_neg h3, if_pos h5, nthPerm_succ, digits, e4, e5, nthPerm_zero, digits_zero]
        intro j hj
        rw [Function.update_of_ne (by omega)]
        exact hc j (by omega)

end PackedSimd.Ex.Fannkuch
