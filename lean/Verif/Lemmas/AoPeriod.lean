import Verif.Lemmas.AoRandom
import Mathlib.Dynamics.PeriodicPts.Defs
import Mathlib.Data.Nat.Prime.Basic
import Mathlib.Data.List.Prime
import Mathlib.NumberTheory.LucasLehmer
import Mathlib.Tactic.NormNum.Prime
/-
The period of the generator of examples/aobench/src/random.rs.  A register is a linear map over the two-element field; its powers are computed
by repeated squaring of 32x32 matrices, each matrix being one number of 1024 bits.
-/
namespace PackedSimd.Ex.AoRandom
open Spec

/-! ### Linear maps and their matrices -/

/-- A map that respects exclusive or. -/
def Additive (f : BitVec 32 → BitVec 32) : Prop := ∀ a b, f (a ^^^ b) = f a ^^^ f b

theorem Additive.zero {f : BitVec 32 → BitVec 32} (hf : Additive f) : f 0 = 0 := by
  have := hf 0 0
  rwa [BitVec.xor_self, BitVec.xor_self] at this

theorem Additive.comp {f g : BitVec 32 → BitVec 32} (hf : Additive f) (hg : Additive g) : Additive (f ∘ g) := fun a b => by
  show f (g (a ^^^ b)) = _
  rw [hg, hf]; rfl

theorem Additive.iterate {f : BitVec 32 → BitVec 32} (hf : Additive f) (n : Nat) : Additive f^[n] := by
  induction n with
  | zero => exact fun _ _ => rfl
  | succ n ih => rw [Function.iterate_succ']; exact hf.comp ih

theorem lstep_additive (mask : BitVec 32) (q s d : Nat) : Additive (lstep mask q s d) := by
  intro a b
  have h : (a ^^^ b) &&& mask = (a &&& mask) ^^^ (b &&& mask) := by
    apply BitVec.eq_of_getLsbD_eq
    intro i hi
    simp only [BitVec.getLsbD_xor, BitVec.getLsbD_and]
    cases a.getLsbD i <;> cases b.getLsbD i <;> cases mask.getLsbD i <;> rfl
  unfold lstep
  rw [h, BitVec.shiftLeft_xor_distrib, BitVec.shiftLeft_xor_distrib]
  simp only [BitVec.ushiftRight_xor_distrib]
  ac_rfl

/-- The first `k` columns of the matrix of `f`. -/
def tab (f : BitVec 32 → BitVec 32) : Nat → Nat
  | 0 => 0
  | k + 1 => tab f k + (f (BitVec.ofNat 32 (2 ^ k))).toNat * 2 ^ (32 * k)

/-- Column `k`. -/
def col (m k : Nat) : Nat := (m >>> (32 * k)) % 2 ^ 32

/-- The sum of the columns chosen by the bits below `k` of `z`. -/
def ap (m z : Nat) : Nat → Nat
  | 0 => 0
  | k + 1 => ap m z k ^^^ (col m k * ((z >>> k) % 2))

/-- The bits `0, 32, .., 32 (k - 1)`. -/
def mask (k : Nat) : Nat := match k with
  | 0 => 0
  | k + 1 => mask k ||| 2 ^ (32 * k)

/-- The sum over the bits below `k`: column `k` of the first matrix, wherever the second has bit `k`. -/
def mulRows (w a b : Nat) : Nat → Nat
  | 0 => 0
  | k + 1 => mulRows w a b k ^^^ (((b >>> k) &&& w) * col a k)

/-- The product of two matrices. -/
def mulM (w a b : Nat) : Nat := mulRows w a b 32

theorem tab_lt (f : BitVec 32 → BitVec 32) (k : Nat) : tab f k < 2 ^ (32 * k) := by
  induction k with
  | zero => exact Nat.one_pos
  | succ k ih =>
    have h := (f (BitVec.ofNat 32 (2 ^ k))).isLt
    have e : (2 : Nat) ^ (32 * (k + 1)) = 2 ^ 32 * 2 ^ (32 * k) := by rw [← Nat.pow_add]; congr 1; omega
    have h2 : ((f (BitVec.ofNat 32 (2 ^ k))).toNat + 1) * 2 ^ (32 * k) ≤ 2 ^ 32 * 2 ^ (32 * k) := Nat.mul_le_mul_right _ h
    rw [Nat.add_mul] at h2
    unfold tab
    rw [e]; omega

theorem col_tab (f : BitVec 32 → BitVec 32) {i k : Nat} (h : i < k) : col (tab f k) i = (f (BitVec.ofNat 32 (2 ^ i))).toNat := by
  induction k with
  | zero => omega
  | succ k ih =>
    unfold col tab
    rw [Nat.shiftRight_eq_div_pow]
    by_cases e : i = k
    · subst e
      rw [Nat.add_mul_div_right _ _ (Nat.two_pow_pos _), Nat.div_eq_of_lt (tab_lt f i), Nat.zero_add, Nat.mod_eq_of_lt (BitVec.isLt _)]
    · have e1 : (2 : Nat) ^ (32 * k) = 2 ^ (32 * (k - 1 - i)) * 2 ^ 32 * 2 ^ (32 * i) := by
        rw [← Nat.pow_add, ← Nat.pow_add]; congr 1; omega
      rw [e1, ← Nat.mul_assoc, Nat.add_mul_div_right _ _ (Nat.two_pow_pos _), ← Nat.mul_assoc, Nat.add_mul_mod_self_right]
      have := ih (by omega)
      unfold col at this
      rwa [Nat.shiftRight_eq_div_pow] at this

theorem ofNat_xor (a b : Nat) : BitVec.ofNat 32 (a ^^^ b) = BitVec.ofNat 32 a ^^^ BitVec.ofNat 32 b := by
  apply BitVec.eq_of_toNat_eq
  rw [BitVec.toNat_xor, BitVec.toNat_ofNat, BitVec.toNat_ofNat, BitVec.toNat_ofNat]
  exact Nat.xor_mod_two_pow

theorem mod_succ (z k : Nat) : z % 2 ^ (k + 1) = z % 2 ^ k ^^^ (2 ^ k * ((z >>> k) % 2)) := by
  apply Nat.eq_of_testBit_eq
  intro i
  rw [Nat.testBit_xor, Nat.testBit_mod_two_pow, Nat.testBit_mod_two_pow, Nat.testBit_two_pow_mul]
  have h2 : (2 : Nat) = 2 ^ 1 := rfl
  rw [h2, Nat.testBit_mod_two_pow, Nat.testBit_shiftRight]
  by_cases h : i < k
  · have h1 : i < k + 1 := by omega
    have h3 : ¬ k ≤ i := by omega
    simp [h, h1, h3]
  · by_cases h1 : i = k
    · subst h1; simp
    · have h3 : ¬ i < k + 1 := by omega
      have h4 : ¬ (i - k < 1) := by omega
      simp [h, h3, h4]

theorem ap_tab {f : BitVec 32 → BitVec 32} (hf : Additive f) (z : Nat) {k : Nat} (hk : k ≤ 32) :
    ap (tab f 32) z k = (f (BitVec.ofNat 32 (z % 2 ^ k))).toNat := by
  induction k with
  | zero =>
    rw [Nat.pow_zero, Nat.mod_one, show BitVec.ofNat 32 0 = 0 from rfl, hf.zero]; rfl
  | succ k ih =>
    unfold ap
    rw [ih (by omega), col_tab f (by omega), mod_succ, ofNat_xor, hf, BitVec.toNat_xor]
    congr 1
    rcases Nat.mod_two_eq_zero_or_one (z >>> k) with h | h
    · rw [h, Nat.mul_zero, Nat.mul_zero, show BitVec.ofNat 32 0 = 0 from rfl, hf.zero]; rfl
    · rw [h, Nat.mul_one, Nat.mul_one]

theorem ap_tab_full {f : BitVec 32 → BitVec 32} (hf : Additive f) (z : BitVec 32) : ap (tab f 32) z.toNat 32 = (f z).toNat := by
  rw [ap_tab hf _ (Nat.le_refl _), Nat.mod_eq_of_lt z.isLt, BitVec.ofNat_toNat, BitVec.setWidth_eq]

theorem tab_xor_additive {f g : BitVec 32 → BitVec 32} (hf : Additive f) (hg : Additive g) : Additive fun z => f z ^^^ g z := by
  intro a b
  simp only [hf a b, hg a b]
  ac_rfl

theorem tab_xor (f g : BitVec 32 → BitVec 32) (k : Nat) : tab (fun z => f z ^^^ g z) k = tab f k ^^^ tab g k := by
  induction k with
  | zero => exact (Nat.xor_self 0).symm
  | succ k ih =>
    rw [tab, tab, tab, ih, BitVec.toNat_xor]
    apply Nat.eq_of_testBit_eq
    intro i
    have hx : tab f k ^^^ tab g k < 2 ^ (32 * k) := Nat.xor_lt_two_pow (tab_lt f k) (tab_lt g k)
    rw [Nat.testBit_xor, Nat.add_comm, Nat.mul_comm, Nat.testBit_two_pow_mul_add _ hx, Nat.add_comm (tab f k), Nat.mul_comm _ (2 ^ (32 * k)),
      Nat.testBit_two_pow_mul_add _ (tab_lt f k), Nat.add_comm (tab g k), Nat.mul_comm _ (2 ^ (32 * k)), Nat.testBit_two_pow_mul_add _ (tab_lt g k)]
    by_cases h : i < 32 * k
    · rw [if_pos h, if_pos h, if_pos h, Nat.testBit_xor]
    · rw [if_neg h, if_neg h, if_neg h, Nat.testBit_xor]

/-- Bit `k` of the columns of `b`. -/
def sel (b k : Nat) : Nat → Nat
  | 0 => 0
  | j + 1 => sel b k j + (b.testBit (32 * j + k)).toNat * 2 ^ (32 * j)

theorem sel_lt (b k j : Nat) : sel b k j < 2 ^ (32 * j) := by
  induction j with
  | zero => exact Nat.one_pos
  | succ j ih =>
    have e : (2 : Nat) ^ (32 * (j + 1)) = 2 ^ 32 * 2 ^ (32 * j) := by rw [← Nat.pow_add]; congr 1; omega
    have h2 : ((b.testBit (32 * j + k)).toNat + 1) * 2 ^ (32 * j) ≤ 2 ^ 32 * 2 ^ (32 * j) :=
      Nat.mul_le_mul_right _ (by have := Bool.toNat_le (b.testBit (32 * j + k)); omega)
    rw [Nat.add_mul] at h2
    rw [sel, e]; omega

theorem and_two_pow (x i : Nat) : x &&& 2 ^ i = (x.testBit i).toNat * 2 ^ i := by
  apply Nat.eq_of_testBit_eq
  intro j
  rw [Nat.testBit_and, Nat.testBit_two_pow, Nat.mul_comm, Nat.testBit_two_pow_mul]
  by_cases h : i = j
  · subst h; cases x.testBit i <;> simp
  · rw [decide_eq_false h, Bool.and_false]
    by_cases h2 : i ≤ j
    · cases x.testBit i
      · simp
      · have : j - i ≠ 0 := by omega
        have e : (1 : Nat).testBit (j - i) = false := Nat.testBit_lt_two_pow (Nat.lt_of_lt_of_le Nat.one_lt_two (Nat.le_self_pow this 2))
        simp [e]
    · simp [h2]

theorem sel_eq (b k j : Nat) : (b >>> k) &&& mask j = sel b k j := by
  induction j with
  | zero => exact Nat.and_zero _
  | succ j ih =>
    rw [mask, Nat.and_or_distrib_left, ih, sel, and_two_pow, Nat.testBit_shiftRight, Nat.add_comm k, Nat.mul_comm _ (2 ^ (32 * j)),
      Nat.add_comm (sel b k j), Nat.two_pow_add_eq_or_of_lt (sel_lt b k j), Nat.or_comm]

theorem tab_bit (g : BitVec 32 → BitVec 32) (c : BitVec 32) {k : Nat} (hk : k < 32) {j : Nat} (hj : j ≤ 32) :
    tab (fun z => if (g z).getLsbD k then c else 0) j = sel (tab g 32) k j * c.toNat := by
  induction j with
  | zero => exact (Nat.zero_mul _).symm
  | succ j ih =>
    have h := col_tab g (i := j) (k := 32) (by omega)
    have hb : (tab g 32).testBit (32 * j + k) = (g (BitVec.ofNat 32 (2 ^ j))).getLsbD k := by
      have : (col (tab g 32) j).testBit k = (g (BitVec.ofNat 32 (2 ^ j))).getLsbD k := by rw [h]; rfl
      rw [← this, col, Nat.testBit_mod_two_pow, Nat.testBit_shiftRight]
      simp [hk]
    rw [tab, ih (by omega), sel, hb, Nat.add_mul]
    congr 1
    cases (g (BitVec.ofNat 32 (2 ^ j))).getLsbD k
    · simp
    · simp [Nat.mul_comm]

/-- The low `k` bits. -/
def lowB (k : Nat) (z : BitVec 32) : BitVec 32 := BitVec.ofNat 32 (z.toNat % 2 ^ k)

theorem lowB_succ (k : Nat) (z : BitVec 32) : lowB (k + 1) z = lowB k z ^^^ (if z.getLsbD k then BitVec.ofNat 32 (2 ^ k) else 0) := by
  unfold lowB
  rw [mod_succ, ofNat_xor]
  congr 1
  have : z.getLsbD k = z.toNat.testBit k := rfl
  rw [this, Nat.testBit_eq_decide_div_mod_eq, Nat.shiftRight_eq_div_pow]
  rcases Nat.mod_two_eq_zero_or_one (z.toNat / 2 ^ k) with h | h
  · rw [h]; simp
  · rw [h]; simp

theorem mulRows_tab {f : BitVec 32 → BitVec 32} (hf : Additive f) (g : BitVec 32 → BitVec 32) {k : Nat} (hk : k ≤ 32) :
    mulRows (mask 32) (tab f 32) (tab g 32) k = tab (fun z => f (lowB k (g z))) 32 := by
  induction k with
  | zero =>
    have : (fun z => f (lowB 0 (g z))) = fun z => if (g z).getLsbD 0 then (0 : BitVec 32) else 0 := by
      funext z
      rw [lowB, Nat.pow_zero, Nat.mod_one, ite_self]
      exact hf.zero
    rw [this, tab_bit g 0 (by omega) (Nat.le_refl _)]
    exact (Nat.mul_zero _).symm
  | succ k ih =>
    have : (fun z => f (lowB (k + 1) (g z))) = fun z => f (lowB k (g z)) ^^^ (if (g z).getLsbD k then f (BitVec.ofNat 32 (2 ^ k)) else 0) := by
      funext z
      rw [lowB_succ, hf]
      congr 1
      split
      · rfl
      · exact hf.zero
    rw [mulRows, ih (by omega), this, tab_xor, tab_bit g _ (by omega) (Nat.le_refl _), sel_eq, col_tab f (by omega)]

theorem mulM_tab {f : BitVec 32 → BitVec 32} (hf : Additive f) (g : BitVec 32 → BitVec 32) : mulM (mask 32) (tab f 32) (tab g 32) = tab (f ∘ g) 32 := by
  rw [mulM, mulRows_tab hf g (Nat.le_refl _)]
  congr 1
  funext z
  rw [lowB, Nat.mod_eq_of_lt (BitVec.isLt _), BitVec.ofNat_toNat, BitVec.setWidth_eq]; rfl

theorem eq_of_tab {f g : BitVec 32 → BitVec 32} (hf : Additive f) (hg : Additive g) (h : tab f 32 = tab g 32) (z : BitVec 32) : f z = g z := by
  apply BitVec.eq_of_toNat_eq
  rw [← ap_tab_full hf, ← ap_tab_full hg, h]

/-- `force n k = k n`, with `n` evaluated first. -/
def force (n : Nat) (k : Nat → Nat) : Nat := match n with
  | 0 => k 0
  | n + 1 => k (n + 1)
theorem force_eq (n : Nat) (k : Nat → Nat) : force n k = k n := by cases n <;> rfl

/-- `a ^ n * b` for matrices, by repeated squaring. -/
def powM (w : Nat) : Nat → Nat → Nat → Nat → Nat
  | 0, _, _, b => b
  | fuel + 1, n, a, b => force (if n % 2 = 1 then mulM w a b else b) fun b => force (mulM w a a) fun a => powM w fuel (n / 2) a b

theorem powM_tab {fuel : Nat} : ∀ {n : Nat} {f : BitVec 32 → BitVec 32}, Additive f → ∀ {g : BitVec 32 → BitVec 32}, Additive g →
    n < 2 ^ fuel → powM (mask 32) fuel n (tab f 32) (tab g 32) = tab (f^[n] ∘ g) 32 := by
  induction fuel with
  | zero =>
    intro n f _ g _ h
    have : n = 0 := by omega
    subst this; rfl
  | succ fuel ih =>
    intro n f hf g hg h
    unfold powM
    rw [force_eq, force_eq, mulM_tab hf f, mulM_tab hf g]
    have e : f ∘ f = f^[2] := rfl
    have hlt : n / 2 < 2 ^ fuel := by rw [Nat.pow_succ] at h; omega
    by_cases hn : n % 2 = 1
    · rw [if_pos hn, ih (hf.comp hf) (hf.comp hg) hlt, e, ← Function.iterate_mul, ← Function.comp_assoc, ← Function.iterate_succ]
      congr 3; omega
    · rw [if_neg hn, ih (hf.comp hf) hg hlt, e, ← Function.iterate_mul]
      congr 3; omega

/-! ### The period of one register -/

/-- Steps of `f` after the first one repeat after `p` steps. -/
theorem period_of_tab {f : BitVec 32 → BitVec 32} (hf : Additive f) {p fuel : Nat} (hp : p < 2 ^ fuel)
    (h : powM (mask 32) fuel p (tab f 32) (tab f 32) = tab f 32) (z : BitVec 32) : f^[p] (f z) = f z := by
  rw [powM_tab hf hf hp] at h
  exact eq_of_tab ((hf.iterate p).comp hf) hf h z

/-- The computation of `f^a + 1` and of its power `p + 1`, applied after `f`. -/
def freeM (fuel a p m i : Nat) : Nat := force m fun m => force (mask 32) fun w => force (powM w fuel a m i ^^^ i) fun c => powM w fuel (p + 1) c m

/-- If a power of `f^a + 1` is the identity after one step of `f`, no step of `f` is left unchanged by `f^a` but zero. -/
theorem free_of_tab {f : BitVec 32 → BitVec 32} (hf : Additive f) {a p fuel : Nat} (ha : a < 2 ^ fuel) (hp1 : p + 1 < 2 ^ fuel)
    (h : freeM fuel a p (tab f 32) (tab id 32) = tab f 32) (z : BitVec 32) (hz : f^[a] (f z) = f z) : f z = 0 := by
  have hid : Additive id := fun _ _ => rfl
  have hc : Additive (fun z => f^[a] z ^^^ id z) := tab_xor_additive (hf.iterate a) hid
  rw [freeM, force_eq, force_eq, force_eq, powM_tab hf hid ha, Function.comp_id, ← tab_xor, powM_tab hc hf hp1] at h
  have e := eq_of_tab ((hc.iterate (p + 1)).comp hf) hf h z
  rw [← e, Function.comp, Function.iterate_succ]
  simp only [Function.comp, hz, id, BitVec.xor_self]
  exact (hc.iterate p).zero

/-- The computation of `f^(p+1)`. -/
def cycleM (fuel p m : Nat) : Nat := force m fun m => force (mask 32) fun w => powM w fuel p m m

def reg0 : BitVec 32 → BitVec 32 := lstep (u 4294967294) 6 18 (31 - 18)
def reg1 : BitVec 32 → BitVec 32 := lstep (u 4294967288) 2 2 (29 - 2)
def reg2 : BitVec 32 → BitVec 32 := lstep (u 4294967280) 13 7 (28 - 7)
def reg3 : BitVec 32 → BitVec 32 := lstep (u 4294967168) 3 13 (25 - 13)

theorem cycle0 : cycleM 32 (2 ^ 31 - 1) (tab reg0 32) = tab reg0 32 := by decide +kernel
theorem cycle1 : cycleM 32 (2 ^ 29 - 1) (tab reg1 32) = tab reg1 32 := by decide +kernel
theorem cycle2 : cycleM 32 (2 ^ 28 - 1) (tab reg2 32) = tab reg2 32 := by decide +kernel
theorem cycle3 : cycleM 32 (2 ^ 25 - 1) (tab reg3 32) = tab reg3 32 := by decide +kernel

theorem free0 : ∀ q ∈ [2147483647], freeM 32 ((2 ^ 31 - 1) / q) (2 ^ 31 - 2) (tab reg0 32) (tab id 32) = tab reg0 32 := by decide +kernel
theorem free1 : ∀ q ∈ [233, 1103, 2089], freeM 32 ((2 ^ 29 - 1) / q) (2 ^ 29 - 2) (tab reg1 32) (tab id 32) = tab reg1 32 := by decide +kernel
theorem free2 : ∀ q ∈ [3, 5, 29, 43, 113, 127], freeM 32 ((2 ^ 28 - 1) / q) (2 ^ 28 - 2) (tab reg2 32) (tab id 32) = tab reg2 32 := by
  decide +kernel
theorem free3 : ∀ q ∈ [31, 601, 1801], freeM 32 ((2 ^ 25 - 1) / q) (2 ^ 25 - 2) (tab reg3 32) (tab id 32) = tab reg3 32 := by decide +kernel

/-- What is needed of a register: `p` is the period of every state but zero, and the low 23 bits of the states determine them. -/
structure Register (f : BitVec 32 → BitVec 32) (p : Nat) : Prop where
  add : Additive f
  cycle : ∀ z, f^[p] (f z) = f z
  least : ∀ z m, f^[m] (f z) = f z → f z = 0 ∨ p ∣ m
  seen : ∀ z, (∀ t, f^[t] (f z) &&& 0x7fffff#32 = 0) → f z = 0

/-- A proper divisor of `p` divides `p / q` for a prime factor `q` of `p`. -/
theorem proper_divisor {p d : Nat} (hp : 0 < p) {qs : List Nat} (hprod : p = qs.prod) (hq : ∀ q ∈ qs, q.Prime) (hd : d ∣ p) (hne : d ≠ p) :
    ∃ q ∈ qs, d ∣ p / q := by
  obtain ⟨e, rfl⟩ := hd
  have he : e ≠ 1 := by rintro rfl; exact hne (Nat.mul_one d).symm
  obtain ⟨q, hqp, hqe⟩ := Nat.exists_prime_and_dvd he
  have hmem : q ∈ qs := by
    have h1 : q ∣ qs.prod := hprod ▸ hqe.mul_left d
    obtain ⟨a, ha, hqa⟩ := (Prime.dvd_prod_iff (Nat.Prime.prime hqp)).1 h1
    rwa [(Nat.prime_dvd_prime_iff_eq hqp (hq a ha)).1 hqa]
  refine ⟨q, hmem, ?_⟩
  obtain ⟨c, rfl⟩ := hqe
  rw [← Nat.mul_assoc, Nat.mul_comm d q, Nat.mul_assoc, Nat.mul_div_cancel_left _ hqp.pos]
  exact Nat.dvd_mul_right _ _

theorem least_of_free {f : BitVec 32 → BitVec 32} {p : Nat} (hp : 0 < p) {qs : List Nat} (hprod : p = qs.prod) (hq : ∀ q ∈ qs, q.Prime)
    (hc : ∀ z, f^[p] (f z) = f z) (hfree : ∀ q ∈ qs, ∀ z, f^[p / q] (f z) = f z → f z = 0) (z : BitVec 32) (m : Nat)
    (h : f^[m] (f z) = f z) : f z = 0 ∨ p ∣ m := by
  have h1 : Function.IsPeriodicPt f p (f z) := hc z
  have h2 : Function.IsPeriodicPt f m (f z) := h
  have hd : Function.minimalPeriod f (f z) ∣ p := h1.minimalPeriod_dvd
  by_cases e : Function.minimalPeriod f (f z) = p
  · right; rw [← e]; exact h2.minimalPeriod_dvd
  · left
    obtain ⟨q, hq1, hq2⟩ := proper_divisor hp hprod hq hd e
    exact hfree q hq1 z ((Function.isPeriodicPt_minimalPeriod f (f z)).trans_dvd hq2)

/-- The register after `t + 1` steps shows its sequence. -/
theorem iterate_seq {mask : BitVec 32} {k q s : Nat} (hs : s < k) (hk : k ≤ 32) (hq : q ≤ k - s) (hk2 : 31 - (k - s) + q < k)
    (hm : ∀ p, p < 32 → mask.getMsbD p = decide (p < k)) (z : BitVec 32) : ∃ x, Lfsr k q x ∧ StartsWith k x z ∧
    ∀ t p, p < 32 → ((lstep mask q s (k - s))^[t] (lstep mask q s (k - s) z)).getMsbD p = x (s * (t + 1) + p) := by
  have hqk : q < k := by omega
  refine ⟨lseq k q z.getMsbD, lseq_lfsr hqk _, fun p hp => lseq_lt hp, ?_⟩
  intro t
  induction t with
  | zero =>
    intro p hp
    rw [Function.iterate_zero, id, lstep_seq hs hk hq hk2 hm (lseq_lfsr hqk z.getMsbD) (z := z) (m := 0)
      (fun p hp => by rw [Nat.zero_add, lseq_lt hp]) hp]
    congr 1
  | succ t ih =>
    intro p hp
    rw [Function.iterate_succ', Function.comp, lstep_seq hs hk hq hk2 hm (lseq_lfsr hqk z.getMsbD) (m := s * (t + 1))
      (fun p hp => ih p (by omega)) hp]
    congr 1

/-- If the low 23 bits of all states are zero, the register is. -/
theorem seen_of_seq {mask : BitVec 32} {k q s : Nat} (hs0 : 0 < s) (hs23 : s ≤ 23) (hs : s < k) (hk : k ≤ 32) (hq : q ≤ k - s)
    (hq0 : 0 < q) (hk2 : 31 - (k - s) + q < k) (hm : ∀ p, p < 32 → mask.getMsbD p = decide (p < k)) (z : BitVec 32)
    (h : ∀ t, (lstep mask q s (k - s))^[t] (lstep mask q s (k - s) z) &&& 0x7fffff#32 = 0) : lstep mask q s (k - s) z = 0 := by
  obtain ⟨x, hx, hst, hb⟩ := iterate_seq hs hk hq hk2 hm z
  have hqk : q < k := by omega
  -- the bits seen
  have h1 : ∀ t p, 9 ≤ p → p < 32 → x (s * (t + 1) + p) = false := by
    intro t p hp hp2
    rw [← hb t p hp2]
    have := congrArg (fun v : BitVec 32 => v.getMsbD p) (h t)
    simp only [BitVec.getMsbD_and] at this
    have hmk : ∀ p, p < 32 → 9 ≤ p → (0x7fffff#32).getMsbD p = true := by decide +kernel
    rw [hmk p hp2 hp, Bool.and_true] at this
    rw [this]
    exact BitVec.getMsbD_zero
  have h2 : ∀ n, s + 9 ≤ n → x n = false := by
    intro n hn
    have e : n = s * ((n - 9) / s - 1 + 1) + (9 + (n - 9) % s) := by
      have hd : 1 ≤ (n - 9) / s := (Nat.le_div_iff_mul_le hs0).2 (by omega)
      rw [Nat.sub_add_cancel hd]
      have := Nat.div_add_mod (n - 9) s
      omega
    rw [e]
    exact h1 _ _ (by omega) (by have := Nat.mod_lt (n - 9) hs0; omega)
  -- and backwards
  have h3 : ∀ j n, s + 9 - n = j → x n = false := by
    intro j
    induction j using Nat.strongRecOn with
    | ind j ih =>
      intro n hj
      by_cases hn : s + 9 ≤ n
      · exact h2 n hn
      · have e := hx n
        rw [ih (s + 9 - (n + k)) (by omega) (n + k) rfl, ih (s + 9 - (n + q)) (by omega) (n + q) rfl, Bool.xor_false] at e
        exact e.symm
  apply BitVec.eq_of_getMsbD_eq
  intro p hp
  have := hb 0 p hp
  rw [Function.iterate_zero, id] at this
  rw [this, h3 _ _ rfl]
  exact BitVec.getMsbD_zero.symm

theorem register_of {mask : BitVec 32} {k q s p : Nat} (hs0 : 0 < s) (hs23 : s ≤ 23) (hs : s < k) (hk : k ≤ 32) (hq : q ≤ k - s)
    (hq0 : 0 < q) (hk2 : 31 - (k - s) + q < k) (hm : ∀ p, p < 32 → mask.getMsbD p = decide (p < k)) (hp : 0 < p) (hp32 : p < 2 ^ 32)
    {qs : List Nat} (hprod : p = qs.prod) (hprime : ∀ q ∈ qs, q.Prime)
    (hcycle : cycleM 32 p (tab (lstep mask q s (k - s)) 32) = tab (lstep mask q s (k - s)) 32)
    (hfree : ∀ a ∈ qs, freeM 32 (p / a) (p - 1) (tab (lstep mask q s (k - s)) 32) (tab id 32) = tab (lstep mask q s (k - s)) 32) :
    Register (lstep mask q s (k - s)) p := by
  have ha := lstep_additive mask q s (k - s)
  have hc : ∀ z, (lstep mask q s (k - s))^[p] (lstep mask q s (k - s) z) = lstep mask q s (k - s) z := fun z =>
    period_of_tab ha hp32 (by rwa [cycleM, force_eq, force_eq] at hcycle) z
  refine ⟨ha, hc, least_of_free hp hprod hprime hc fun a h z => ?_, seen_of_seq hs0 hs23 hs hk hq hq0 hk2 hm⟩
  exact free_of_tab ha (Nat.lt_of_le_of_lt (Nat.div_le_self _ _) hp32) (by omega) (hfree a h) z

theorem primes0 : ∀ q ∈ [2147483647], Nat.Prime q := by
  have h : (mersenne 31).Prime := lucas_lehmer_sufficiency _ (by norm_num) (by norm_num)
  intro q hq
  rw [List.mem_singleton.1 hq]
  exact h
theorem primes1 : ∀ q ∈ [233, 1103, 2089], Nat.Prime q := by simp only [List.forall_mem_cons]; norm_num
theorem primes2 : ∀ q ∈ [3, 5, 29, 43, 113, 127], Nat.Prime q := by simp only [List.forall_mem_cons]; norm_num
theorem primes3 : ∀ q ∈ [31, 601, 1801], Nat.Prime q := by simp only [List.forall_mem_cons]; norm_num

theorem register0 : Register reg0 (2 ^ 31 - 1) :=
  register_of (by omega) (by omega) (by omega) (by omega) (by omega) (by omega) (by omega) mask0 (by omega) (by omega) (by decide) primes0 cycle0
    free0
theorem register1 : Register reg1 (2 ^ 29 - 1) :=
  register_of (by omega) (by omega) (by omega) (by omega) (by omega) (by omega) (by omega) mask1 (by omega) (by omega) (by decide) primes1 cycle1
    free1
theorem register2 : Register reg2 (2 ^ 28 - 1) :=
  register_of (by omega) (by omega) (by omega) (by omega) (by omega) (by omega) (by omega) mask2 (by omega) (by omega) (by decide) primes2 cycle2
    free2
theorem register3 : Register reg3 (2 ^ 25 - 1) :=
  register_of (by omega) (by omega) (by omega) (by omega) (by omega) (by omega) (by omega) mask3 (by omega) (by omega) (by decide) primes3 cycle3
    free3

/-! ### Four registers combined -/

/-- The sequence of states of a register. -/
def states (f : BitVec 32 → BitVec 32) (z : BitVec 32) (t : Nat) : BitVec 32 := f^[t] (f z)

/-- What changes from one element to the one `n` places later. -/
def diff (n : Nat) (x : Nat → BitVec 32) (t : Nat) : BitVec 32 := x (t + n) ^^^ x t

section
variable {f : BitVec 32 → BitVec 32} {p : Nat}

theorem diff_states (hf : Register f p) (z : BitVec 32) (n : Nat) : diff n (states f z) = states f (f^[n] z ^^^ z) := by
  funext t
  unfold diff states
  rw [hf.add, hf.add.iterate, Function.iterate_add_apply, ← Function.iterate_succ_apply, ← Function.iterate_succ_apply' f n z]

theorem diff_period (hf : Register f p) (z : BitVec 32) : diff p (states f z) = fun _ => 0 := by
  funext t
  unfold diff states
  rw [Function.iterate_add_apply, hf.cycle, BitVec.xor_self]; rfl

theorem states_zero (hf : Register f p) {z : BitVec 32} (h : f z = 0) : states f z = fun _ => 0 := by
  funext t
  unfold states
  rw [h, (hf.add.iterate t).zero]

theorem diff_zero (hf : Register f p) {z : BitVec 32} {n : Nat} (h : f (f^[n] z ^^^ z) = 0) : f z = 0 ∨ p ∣ n := by
  apply hf.least
  have := diff_states hf z n
  rw [states_zero hf h] at this
  have := congrFun this 0
  unfold diff states at this
  rw [Nat.zero_add] at this
  exact (BitVec.xor_eq_zero_iff.1 this)

end

theorem diff_xor (n : Nat) (x y : Nat → BitVec 32) : diff n (fun t => x t ^^^ y t) = fun t => diff n x t ^^^ diff n y t := by
  funext t; simp only [diff]; ac_rfl

/-- If the low bits of the combination repeat after `m` steps, then so does the first register. -/
theorem combined {a b c d : BitVec 32 → BitVec 32} {pa pb pc pd : Nat} (ha : Register a pa) (hb : Register b pb) (hc : Register c pc)
    (hd : Register d pd) (hpb : ¬ pa ∣ pb) (hpc : ¬ pa ∣ pc) (hpd : ¬ pa ∣ pd) (za zb zc zd : BitVec 32) (m : Nat)
    (h : ∀ t, diff m (fun t => states a za t ^^^ states b zb t ^^^ states c zc t ^^^ states d zd t) t &&& 0x7fffff#32 = 0) :
    a za = 0 ∨ pa ∣ m := by
  have step : ∀ (n : Nat) {x : Nat → BitVec 32}, (∀ t, x t &&& 0x7fffff#32 = 0) → ∀ t, diff n x t &&& 0x7fffff#32 = 0 := by
    intro n x hx t
    have e : ∀ u v : BitVec 32, (u ^^^ v) &&& 0x7fffff#32 = (u &&& 0x7fffff#32) ^^^ (v &&& 0x7fffff#32) := by
      intro u v
      apply BitVec.eq_of_getLsbD_eq
      intro i hi
      simp only [BitVec.getLsbD_xor, BitVec.getLsbD_and]
      cases u.getLsbD i <;> cases v.getLsbD i <;> simp
    rw [diff, e, hx, hx]; rfl
  have xz : ∀ v : BitVec 32, v ^^^ 0 = v := fun v => BitVec.xor_zero
  simp only [diff_xor, diff_states ha, diff_states hb, diff_states hc, diff_states hd] at h
  have h1 := step pb h
  simp only [diff_xor, diff_states ha, diff_period hb, diff_states hc, diff_states hd, xz] at h1
  have h2 := step pc h1
  simp only [diff_xor, diff_states ha, diff_period hc, diff_states hd, xz] at h2
  have h3 := step pd h2
  simp only [diff_xor, diff_states ha, diff_period hd, xz] at h3
  have e1 := (diff_zero ha (ha.seen _ h3)).resolve_right hpd
  have e2 := (diff_zero ha e1).resolve_right hpc
  have e3 := (diff_zero ha e2).resolve_right hpb
  exact diff_zero ha e3

/-! ### The generator -/

theorem after_z0 (r : Rng) (t : Nat) : (r.after t).z0 = reg0^[t] r.z0 := by
  induction t with
  | zero => rfl
  | succ t ih => rw [Rng.after, gen_z0, ih, Function.iterate_succ_apply']; rfl
theorem after_z1 (r : Rng) (t : Nat) : (r.after t).z1 = reg1^[t] r.z1 := by
  induction t with
  | zero => rfl
  | succ t ih => rw [Rng.after, gen_z1, ih, Function.iterate_succ_apply']; rfl
theorem after_z2 (r : Rng) (t : Nat) : (r.after t).z2 = reg2^[t] r.z2 := by
  induction t with
  | zero => rfl
  | succ t ih => rw [Rng.after, gen_z2, ih, Function.iterate_succ_apply']; rfl
theorem after_z3 (r : Rng) (t : Nat) : (r.after t).z3 = reg3^[t] r.z3 := by
  induction t with
  | zero => rfl
  | succ t ih => rw [Rng.after, gen_z3, ih, Function.iterate_succ_apply']; rfl

/-- The outputs in terms of the registers. -/
theorem out_states (r : Rng) (t : Nat) :
    (r.after t).genU32.1 = states reg0 r.z0 t ^^^ states reg1 r.z1 t ^^^ states reg2 r.z2 t ^^^ states reg3 r.z3 t := by
  rw [gen_out, gen_z0, gen_z1, gen_z2, gen_z3, after_z0, after_z1, after_z2, after_z3]
  unfold states
  rw [← Function.iterate_succ_apply, ← Function.iterate_succ_apply, ← Function.iterate_succ_apply, ← Function.iterate_succ_apply,
    Function.iterate_succ_apply', Function.iterate_succ_apply', Function.iterate_succ_apply', Function.iterate_succ_apply']
  rfl

theorem num_inj {a b : Nat} (h : FVal.num ((a : Int) * 2 ^ 126) = FVal.num ((b : Int) * 2 ^ 126)) : a = b :=
  Int.ofNat.inj (Int.eq_of_mul_eq_mul_right (by decide) (FVal.num.inj h))

/-- The numbers are equal exactly when the low 23 bits of the outputs are. -/
theorem gen_eq_iff (r s : Rng) : r.gen.1 = s.gen.1 ↔ (r.genU32.1 ^^^ s.genU32.1) &&& 0x7fffff#32 = 0 := by
  have e : ∀ v : BitVec 32, v &&& ((u 1 <<< 23) - u 1) = v &&& 0x7fffff#32 := fun v => by
    rw [show ((u 1 <<< 23) - u 1 : BitVec 32) = 0x7fffff#32 from by decide +kernel]
  have ex : (r.genU32.1 ^^^ s.genU32.1) &&& 0x7fffff#32 = (r.genU32.1 &&& 0x7fffff#32) ^^^ (s.genU32.1 &&& 0x7fffff#32) := by
    apply BitVec.eq_of_getLsbD_eq
    intro i hi
    simp only [BitVec.getLsbD_xor, BitVec.getLsbD_and]
    cases r.genU32.1.getLsbD i <;> cases s.genU32.1.getLsbD i <;> simp
  rw [ex]
  refine Iff.trans ?_ BitVec.xor_eq_zero_iff.symm
  constructor
  · intro h
    have h1 := gen_value (r.genU32.1 &&& ((u 1 <<< 23) - u 1)) (by rw [low_mask]; omega)
    have h2 := gen_value (s.genU32.1 &&& ((u 1 <<< 23) - u 1)) (by rw [low_mask]; omega)
    have h3 : valueOf 23 r.gen.1 = valueOf 23 s.gen.1 := by rw [h]
    rw [← e, ← e]
    apply BitVec.eq_of_toNat_eq
    exact num_inj (h1.symm.trans (h3.trans h2))
  · intro h
    simp only [Rng.gen, e, h]

theorem step_zero_iff {mask : BitVec 32} {k q s : Nat} (hs : s < k) (hk : k ≤ 32) (hq0 : 0 < q) (hq : q ≤ k - s) (hk2 : 31 - (k - s) + q < k)
    (hm : ∀ p, p < 32 → mask.getMsbD p = decide (p < k)) (z : BitVec 32) : lstep mask q s (k - s) z = 0 ↔ z.toNat < 2 ^ (32 - k) := by
  rw [← empty_iff hk]
  constructor
  · intro h
    exact lstep_alive hs hk hq0 hq hm (fun p hp => by rw [h]; exact BitVec.getMsbD_zero)
  · intro h
    apply BitVec.eq_of_getMsbD_eq
    intro p hp
    rw [lstep_bit hs hk hq hm z hp]
    split
    · rw [h _ (by omega)]; exact BitVec.getMsbD_zero.symm
    · rw [h _ (by omega), h _ (by omega)]; exact BitVec.getMsbD_zero.symm

theorem reg0_zero (z : BitVec 32) : reg0 z = 0 ↔ ¬ 1 < z.toNat := by
  rw [reg0, step_zero_iff (by omega) (by omega) (by omega) (by omega) (by omega) mask0]; omega
theorem reg1_zero (z : BitVec 32) : reg1 z = 0 ↔ ¬ 7 < z.toNat := by
  rw [reg1, step_zero_iff (by omega) (by omega) (by omega) (by omega) (by omega) mask1]; omega
theorem reg2_zero (z : BitVec 32) : reg2 z = 0 ↔ ¬ 15 < z.toNat := by
  rw [reg2, step_zero_iff (by omega) (by omega) (by omega) (by omega) (by omega) mask2]; omega
theorem reg3_zero (z : BitVec 32) : reg3 z = 0 ↔ ¬ 127 < z.toNat := by
  rw [reg3, step_zero_iff (by omega) (by omega) (by omega) (by omega) (by omega) mask3]; omega

/-- A register repeats after any multiple of its cycle, which is 1 if it is empty. -/
theorem states_repeat {f : BitVec 32 → BitVec 32} {p : Nat} (hf : Register f p) {z : BitVec 32} {P : Nat} (h : f z = 0 ∨ p ∣ P) (t : Nat) :
    states f z (t + P) = states f z t := by
  rcases h with h | ⟨c, rfl⟩
  · rw [states_zero hf h]
  · induction c with
    | zero => rfl
    | succ c ih =>
      rw [Nat.mul_succ, ← Nat.add_assoc, ← ih]
      exact BitVec.xor_eq_zero_iff.1 (congrFun (diff_period hf z) (t + p * c))

/-- If the numbers repeat after `m` calls, `m` is a multiple of the cycle. -/
theorem cycle_dvd (r : Rng) (m : Nat) (h : ∀ t, (r.after (t + m)).gen.1 = (r.after t).gen.1) : lfsrCycle r.z0 r.z1 r.z2 r.z3 ∣ m := by
  have h' : ∀ t, ((r.after (t + m)).genU32.1 ^^^ (r.after t).genU32.1) &&& 0x7fffff#32 = 0 := fun t => (gen_eq_iff _ _).1 (h t)
  simp only [out_states] at h'
  have p1 : ∀ a b c d : BitVec 32, b ^^^ a ^^^ c ^^^ d = a ^^^ b ^^^ c ^^^ d := by intro a b c d; ac_rfl
  have p2 : ∀ a b c d : BitVec 32, c ^^^ a ^^^ b ^^^ d = a ^^^ b ^^^ c ^^^ d := by intro a b c d; ac_rfl
  have p3 : ∀ a b c d : BitVec 32, d ^^^ a ^^^ b ^^^ c = a ^^^ b ^^^ c ^^^ d := by intro a b c d; ac_rfl
  have d0 := combined register0 register1 register2 register3 (by decide) (by decide) (by decide) r.z0 r.z1 r.z2 r.z3 m h'
  have d1 := combined register1 register0 register2 register3 (by decide) (by decide) (by decide) r.z1 r.z0 r.z2 r.z3 m (fun t => by
    rw [show (fun t => states reg1 r.z1 t ^^^ states reg0 r.z0 t ^^^ states reg2 r.z2 t ^^^ states reg3 r.z3 t) =
      fun t => states reg0 r.z0 t ^^^ states reg1 r.z1 t ^^^ states reg2 r.z2 t ^^^ states reg3 r.z3 t from funext fun t => p1 _ _ _ _]
    exact h' t)
  have d2 := combined register2 register0 register1 register3 (by decide) (by decide) (by decide) r.z2 r.z0 r.z1 r.z3 m (fun t => by
    rw [show (fun t => states reg2 r.z2 t ^^^ states reg0 r.z0 t ^^^ states reg1 r.z1 t ^^^ states reg3 r.z3 t) =
      fun t => states reg0 r.z0 t ^^^ states reg1 r.z1 t ^^^ states reg2 r.z2 t ^^^ states reg3 r.z3 t from funext fun t => p2 _ _ _ _]
    exact h' t)
  have d3 := combined register3 register0 register1 register2 (by decide) (by decide) (by decide) r.z3 r.z0 r.z1 r.z2 m (fun t => by
    rw [show (fun t => states reg3 r.z3 t ^^^ states reg0 r.z0 t ^^^ states reg1 r.z1 t ^^^ states reg2 r.z2 t) =
      fun t => states reg0 r.z0 t ^^^ states reg1 r.z1 t ^^^ states reg2 r.z2 t ^^^ states reg3 r.z3 t from funext fun t => p3 _ _ _ _]
    exact h' t)
  rw [reg0_zero] at d0
  rw [reg1_zero] at d1
  rw [reg2_zero] at d2
  rw [reg3_zero] at d3
  have c : ∀ {P : Prop} [Decidable P] {p : Nat}, ¬ P ∨ p ∣ m → (if P then p else 1) ∣ m := by
    intro P _ p h
    split
    · rename_i hP; exact h.resolve_left (fun hn => hn hP)
    · exact Nat.one_dvd m
  have co : ∀ {P Q : Prop} [Decidable P] [Decidable Q] {a b : Nat}, Nat.Coprime a b → Nat.Coprime (if P then a else 1) (if Q then b else 1) := by
    intro P Q _ _ a b h
    split <;> split
    · exact h
    · exact Nat.coprime_one_right _
    · exact Nat.coprime_one_left _
    · exact Nat.coprime_one_left _
  unfold lfsrCycle
  refine Nat.Coprime.mul_dvd_of_dvd_of_dvd ?_ (Nat.Coprime.mul_dvd_of_dvd_of_dvd ?_ (Nat.Coprime.mul_dvd_of_dvd_of_dvd ?_ (c d0) (c d1)) (c d2)) (c d3)
  · exact Nat.Coprime.mul_left (Nat.Coprime.mul_left (co (by decide)) (co (by decide))) (co (by decide))
  · exact Nat.Coprime.mul_left (co (by decide)) (co (by decide))
  · exact co (by decide)

theorem cycle_pos (z0 z1 z2 z3 : BitVec 32) : 0 < lfsrCycle z0 z1 z2 z3 := by
  have c : ∀ {P : Prop} [Decidable P] {p : Nat}, 0 < p → 0 < (if P then p else 1) := by
    intro P _ p h; split <;> omega
  unfold lfsrCycle
  exact Nat.mul_pos (Nat.mul_pos (Nat.mul_pos (c (by decide)) (c (by decide))) (c (by decide))) (c (by decide))

theorem cycle_out (r : Rng) (t : Nat) : (r.after (t + lfsrCycle r.z0 r.z1 r.z2 r.z3)).genU32.1 = (r.after t).genU32.1 := by
  have c : ∀ {P : Prop} [Decidable P] {p m : Nat}, (if P then p else 1) ∣ m → ¬ P ∨ p ∣ m := by
    intro P _ p m h
    split at h
    · exact .inr h
    · rename_i h2; exact .inl h2
  rw [out_states, out_states]
  rw [states_repeat register0, states_repeat register1, states_repeat register2, states_repeat register3]
  · rw [reg3_zero]; exact c (Nat.dvd_mul_left _ _)
  · rw [reg2_zero]; exact c (Nat.dvd_mul_right_of_dvd (Nat.dvd_mul_left _ _) _)
  · rw [reg1_zero]; exact c (Nat.dvd_mul_right_of_dvd (Nat.dvd_mul_right_of_dvd (Nat.dvd_mul_left _ _) _) _)
  · rw [reg0_zero]; exact c (Nat.dvd_mul_right_of_dvd (Nat.dvd_mul_right_of_dvd (Nat.dvd_mul_right _ _) _) _)

/-- A repetition of a tail of a sequence that repeats is a repetition of the sequence. -/
theorem tail_repeats {α : Type} {x : Nat → α} {P : Nat} (hP : 0 < P) (hx : ∀ t, x (t + P) = x t) {m T : Nat} (h : ∀ t, T ≤ t → x (t + m) = x t)
    (t : Nat) : x (t + m) = x t := by
  have hk : ∀ k t, x (t + k * P) = x t := by
    intro k
    induction k with
    | zero => intro t; rw [Nat.zero_mul, Nat.add_zero]
    | succ k ih => intro t; rw [Nat.succ_mul, ← Nat.add_assoc, hx, ih]
  have := h (t + T * P) (Nat.le_trans (Nat.le_mul_of_pos_right T hP) (Nat.le_add_left _ _))
  rw [hk, show t + T * P + m = t + m + T * P by omega, hk] at this
  exact this

end PackedSimd.Ex.AoRandom
