import Verif.Model.BitManip
import Verif.Lemmas.Shuffle
import Verif.Lemmas.IntVal
/-
Lemmas about bit counting.
-/
namespace PackedSimd
open Intr

theorem popcountNat_eq : ∀ (w x : Nat), popcountNat w x = (List.range w).countP fun j => x.testBit j
  | 0, _ => rfl
  | w + 1, x => by
    rw [popcountNat, popcountNat_eq w (x / 2), List.range_succ_eq_map, List.countP_cons, List.countP_map]
    have : ((fun j => x.testBit j) ∘ Nat.succ) = fun j => (x / 2).testBit j := by
      funext j; simp [Nat.testBit_succ]
    rw [this, Nat.testBit_zero]
    by_cases h : x % 2 = 1 <;> simp [h] <;> omega

theorem popcountNat_le (w x : Nat) : popcountNat w x ≤ w := by
  rw [popcountNat_eq]
  exact Nat.le_trans List.countP_le_length (by simp)

theorem ctzNat_spec : ∀ (w x : Nat), ctzNat w x ≤ w ∧ (∀ j, j < ctzNat w x → x.testBit j = false) ∧
    (ctzNat w x < w → x.testBit (ctzNat w x) = true)
  | 0, _ => ⟨Nat.le_refl _, fun j h => by simp [ctzNat] at h, fun h => by omega⟩
  | w + 1, x => by
    obtain ⟨h1, h2, h3⟩ := ctzNat_spec w (x / 2)
    rw [ctzNat]
    split
    · rename_i h
      refine ⟨by omega, fun j hj => by omega, fun _ => by rw [Nat.testBit_zero]; simp [h]⟩
    · rename_i h
      refine ⟨by omega, fun j hj => ?_, fun hlt => ?_⟩
      · cases j with
        | zero => rw [Nat.testBit_zero]; simp [h]
        | succ j => rw [Nat.testBit_succ]; exact h2 j (by omega)
      · rw [Nat.add_comm, Nat.testBit_succ]; exact h3 (by omega)

theorem clzNat_spec : ∀ (w x : Nat), x < 2 ^ w → clzNat w x ≤ w ∧ (∀ j, j < clzNat w x → x.testBit (w - 1 - j) = false) ∧
    (clzNat w x < w → x.testBit (w - 1 - clzNat w x) = true)
  | 0, _, _ => ⟨Nat.le_refl _, fun j h => by simp [clzNat] at h, fun h => by omega⟩
  | w + 1, x, hx => by
    rw [clzNat]
    split
    · rename_i h
      refine ⟨by omega, fun j hj => by omega, fun _ => ?_⟩
      show x.testBit (w + 1 - 1 - 0) = true
      rw [Nat.add_sub_cancel, Nat.sub_zero, Nat.testBit_eq_decide_div_mod_eq]
      rw [Nat.pow_succ] at hx
      have : x / 2 ^ w = 1 := by
        apply Nat.div_eq_of_lt_le <;> omega
      simp [this]
    · rename_i h
      have hlt : x < 2 ^ w := by omega
      obtain ⟨h1, h2, h3⟩ := clzNat_spec w x hlt
      refine ⟨by omega, fun j hj => ?_, fun hl => ?_⟩
      · cases j with
        | zero => rw [Nat.add_sub_cancel, Nat.sub_zero]; exact Nat.testBit_lt_two_pow hlt
        | succ j =>
          have := h2 j (by omega)
          rwa [show w + 1 - 1 - (j + 1) = w - 1 - j by omega]
      · have := h3 (by omega)
        rwa [show w + 1 - 1 - (1 + clzNat w x) = w - 1 - clzNat w x by omega]

end PackedSimd
