import Verif.Lemmas.FannkuchSimd
import Verif.Props.MaskReduce
/-
C78-C81: examples/fannkuch_redux.
-/
namespace PackedSimd.Ex.Fannkuch
open Nat PackedSimd PackedSimd.Props

/-! ### C78: flipping ends -/

/-- Any arrangement of the cards `1..n` is flipped to one with 1 on top, in a number of flips that it determines and that is less than `2^(n-1)`. -/
theorem C78_flips_end {n : Nat} (hn : 1 ≤ n) {p : List Nat} (hp : p.Perm (cards n)) : ∃ m, m < 2 ^ (n - 1) ∧ Flips p m ∧ ∀ m', Flips p m' → m' = m := by
  obtain ⟨m, hm, h⟩ := flips_bound hn hp
  exact ⟨m, hm, h, fun m' h' => h'.unique h⟩

/-- The flipping loop of the scalar program counts exactly these flips, whatever lies beyond the first `n` elements of the array. -/
theorem C78_scalar (t : Target) (dbg : Bool) {n : Nat} (hn : 1 ≤ n) (hn' : n ≤ 16) {p : List Nat} (hp : p.Perm (cards n)) (rest : List Int) {fuel : Nat} (hf : 2 ^ (n - 1) ≤ fuel) :
    ∃ m q, Flips p m ∧ flipLoop t dbg fuel (p.map (fun (x : Nat) => (x : Int)) ++ rest) = .ok (q, (m : Int)) := by
  obtain ⟨m, hm, h⟩ := flips_bound hn hp
  have : 2 ^ (n - 1) ≤ 2 ^ 15 := Nat.pow_le_pow_right (by omega) (by omega)
  obtain ⟨q, e⟩ := flipLoop_ok (t := t) (dbg := dbg) rest h hp (fuel := fuel) (by omega) (by omega)
  exact ⟨m, q, h, e⟩

/-- So does the flipping loop of the SIMD program, with the masks it builds for itself, on every target. -/
theorem C78_simd (t : Target) (ht : t.Supported) (dbg : Bool) {n : Nat} (hn : 1 ≤ n) (hn' : n ≤ 16) {p : List Nat} (hp : p.Perm (cards n)) {M : Masks} {s0 : U8x16}
    (hM : popmasks (splat 16 0) = .ok (M, s0)) (v : U8x16) (hv : ∀ (i : Nat) (hi : i < 16) (x : Nat), p[i]? = some x → v[i] = BitVec.ofNat 8 (x - 1)) {fuel : Nat} (hf : 2 ^ (n - 1) ≤ fuel) :
    ∃ m w x, Flips p m ∧ flipLoopSimd t dbg M fuel (v, v[0], 0) = .ok (w, x, (m : Int)) := by
  obtain ⟨m, hm, h⟩ := flips_bound hn hp
  obtain ⟨M', s', e, hM'⟩ := masks_ok
  rw [hM] at e
  obtain ⟨rfl, -⟩ := Prod.mk.inj (Except.ok.inj e)
  have : 2 ^ (n - 1) ≤ 2 ^ 15 := Nat.pow_le_pow_right (by omega) (by omega)
  have hl : p.length = n := by rw [hp.length_eq, length_cards]
  have henc : Enc v p := by
    refine ⟨v.toList.drop n, ?_⟩
    conv_lhs => rw [← List.take_append_drop n v.toList]
    congr 1
    apply List.ext_getElem?
    intro i
    by_cases hi : i < n
    · have hx : p[i]? = some (p[i]'(by omega)) := List.getElem?_eq_getElem (by omega)
      rw [List.getElem?_take, if_pos hi, toList_get? _ (by omega), hv i (by omega) _ hx, encB, List.getElem?_map, hx]
      rfl
    · rw [List.getElem?_take, if_neg hi, List.getElem?_eq_none]
      rw [encB, List.length_map]
      omega
  obtain ⟨w, x, e⟩ := flipLoopSimd_ok ht (dbg := dbg) hM' hn' h hp 0 (v, v[0], 0) fuel ⟨henc, rfl, rfl⟩ (by omega) (by omega)
  rw [Nat.zero_add] at e
  exact ⟨m, w, x, h, e⟩

example : (List.Perm [3, 1, 2, 5, 4] (cards 5)) ∧ Flips [3, 1, 2] 2 :=
  ⟨by decide, .step rfl (by decide) (.step (k := 2) rfl (by decide) (.done rfl))⟩
example : ∃ M s, popmasks (splat 16 0) = .ok (M, s) := by obtain ⟨M, s, h, _⟩ := masks_ok; exact ⟨M, s, h⟩
example : (iota[0], iota[3]) = (BitVec.ofNat 8 (1 - 1), BitVec.ofNat 8 (4 - 1)) := by decide +kernel

/-! ### C79: every arrangement exactly once -/

/-- The numbering used: every arrangement has exactly one number below `n!`, and every number gives an arrangement. -/
theorem C79_numbering (n : Nat) : (∀ k, (nthPerm n k (cards n)).Perm (cards n)) ∧
    ∀ p, p.Perm (cards n) → ∃ k, k < n ! ∧ nthPerm n k (cards n) = p ∧ ∀ l, l < n ! → nthPerm n l (cards n) = p → l = k := by
  refine ⟨fun k => nthPerm_perm n k _, fun p hp => ?_⟩
  have hl := hp.length_eq
  obtain ⟨k, hk, e⟩ := nthPerm_surj (m := n) (Nat.le_of_eq (length_cards n).symm) hp (fun i hi => by
    rw [List.getElem?_eq_none (by rw [hl, length_cards]; exact hi), List.getElem?_eq_none (by rw [length_cards]; exact hi)])
  exact ⟨k, hk, e, fun l hl e' => nthPerm_inj (nodup_cards n) (Nat.le_of_eq (length_cards n).symm) hl hk (by rw [e, e'])⟩

/-- Calling `next` `j` times. -/
def nexts (dbg : Bool) (P : Perm) : Nat → R Perm
  | 0 => .ok P
  | j + 1 => do (← nexts dbg P j).next dbg

/-- The generator of the scalar program, put at number `k` and advanced `j` times, holds arrangement number `k + j` in the first `n` elements and its number. -/
theorem C79_generator (t : Target) (ht : t.Supported) (dbg : Bool) {n : Nat} (h1 : 1 ≤ n) (hn : n ≤ 12) {k j : Nat} (h : k + j < n !) :
    ∃ P Q R, Perm.new dbg n = .ok P ∧ P.get t dbg k = .ok Q ∧ nexts dbg Q j = .ok R ∧ R.permcount = k + j ∧
      R.perm.take n = (nthPerm n (k + j) (cards n)).map fun (x : Nat) => (x : Int) := by
  have hsm := fact_small hn
  obtain ⟨P, e, hP, hc⟩ := new_ok (dbg := dbg) hn
  obtain ⟨Q, e0, g0, c0, p0, d0⟩ := get_ok ht (dbg := dbg) h1 hn hP hc (show k < (n !) by omega)
  rw [asI32_small (by omega)] at e0
  have key : ∀ i, k + i < (n !) → ∃ R, nexts dbg Q i = .ok R ∧ At n (k + i) R := by
    intro i
    induction i with
    | zero => intro _; exact ⟨Q, rfl, g0.len, c0, fun _ => p0, fun _ => d0⟩
    | succ i ih =>
      intro hi
      obtain ⟨R, e1, hR⟩ := ih (by omega)
      obtain ⟨R', e2, hR'⟩ := next_ok (dbg := dbg) h1 (by omega) hR (by omega) (by omega)
      exact ⟨R', by rw [nexts, e1, R_ok_bind, e2], hR'⟩
  obtain ⟨R, e1, hR⟩ := key j h
  refine ⟨P, Q, R, e, e0, e1, hR.count, ?_⟩
  obtain ⟨b, hb⟩ := nth_base (show n ≤ 16 by omega) (k + j)
  rw [hR.perm_eq h, hb, enc, List.map_append, List.take_left' (by rw [List.length_map, length_nthPerm, length_cards])]

example : (List.range 6).map (fun k => nthPerm 3 k (cards 3)) = [[1, 2, 3], [2, 1, 3], [2, 3, 1], [3, 2, 1], [3, 1, 2], [1, 3, 2]] := by decide

/-! ### C80: the answer -/

theorem counts_exist {n : Nat} (h1 : 1 ≤ n) : ∃ fl : List Nat → Nat, (∀ p, p.Perm (cards n) → Flips p (fl p)) ∧ Counts n (fun j => fl (nthPerm n j (cards n))) := by
  classical
  refine ⟨fun p => if h : p.Perm (cards n) then Classical.choose (flips_bound h1 h) else 0, fun p hp => ?_, ⟨fun j hj => ?_, fun j hj => ?_⟩⟩
  · simp only [dif_pos hp]
    exact (Classical.choose_spec (flips_bound h1 hp)).2
  · have hp := nthPerm_perm n j (cards n)
    simp only [dif_pos hp]
    exact (Classical.choose_spec (flips_bound h1 hp)).2
  · have hp := nthPerm_perm n j (cards n)
    simp only [dif_pos hp]
    exact (Classical.choose_spec (flips_bound h1 hp)).1

theorem answer_of {n : Nat} {fl : List Nat → Nat} (hfl : ∀ p, p.Perm (cards n) → Flips p (fl p)) {mf : Nat} (h : MaxOver (fun j => fl (nthPerm n j (cards n))) 0 n ! mf) :
    Answer n (S (fun j => fl (nthPerm n j (cards n))) 0 n !) mf := by
  refine ⟨fl, hfl, fun p hp => ?_, ?_, ?_⟩
  · obtain ⟨k, hk, e, _⟩ := (C79_numbering n).2 p hp
    have := h.1 k (Nat.zero_le k) hk
    dsimp only at this
    rwa [e] at this
  · rcases h.2 with h0 | ⟨j, _, hj, e⟩
    · have hpos := Nat.factorial_pos n
      have := h.1 0 (Nat.le_refl 0) hpos
      dsimp only at this
      refine ⟨_, nthPerm_perm n 0 _, ?_⟩
      omega
    · exact ⟨_, nthPerm_perm n j _, e⟩
  · unfold S
    rw [Finset.range_eq_Ico]

theorem fits_of {n : Nat} (hn : n ≤ 10) {F : Nat → Nat} (hF : Counts n F) : (∀ a b, b ≤ n ! → Fits (S F a b)) ∧ NoOverflow n F := by
  have hsm : n ! ≤ 3628800 := (Nat.factorial_le hn).trans (by decide)
  have hpw : 2 ^ (n - 1) ≤ 2 ^ 9 := Nat.pow_le_pow_right (by omega) (by omega)
  have hb : ∀ j, j < n ! → F j ≤ 512 := fun j hj => by have := hF.bound j hj; omega
  have hS : ∀ a b, b ≤ n ! → |S F a b| ≤ 3628800 * 512 := by
    intro a b hbn
    refine (S_abs (fun j hj => hb j (by omega)) a).trans ?_
    have : ((b - a : Nat) : Int) ≤ 3628800 := by omega
    exact Int.mul_le_mul_of_nonneg_right this (by decide)
  have hp : ∀ js : List Nat, (∀ j ∈ js, j < n !) → |pend F js| ≤ js.length * 512 := by
    intro js
    induction js with
    | nil => intro _; exact le_refl _
    | cons j js ih =>
      intro h
      have h1 := ih (fun j' hj' => h j' (List.mem_cons_of_mem _ hj'))
      have h2 := hb j (h j List.mem_cons_self)
      have h3 := term_abs F j
      rw [pend_cons, List.length_cons]
      have h4 := abs_add_le ((-1) ^ j * (F j : Int)) (pend F js)
      rw [h3] at h4
      push_cast
      omega
  refine ⟨fun a b hbn => ?_, fun K js hK hl hjs => ?_⟩
  · have := abs_le.1 (hS a b hbn)
    exact ⟨by omega, by omega⟩
  · have h1 := abs_le.1 (hS 0 (K + 1) hK)
    have h2 := abs_le.1 (hp js hjs)
    have : (js.length : Int) ≤ 60 := by omega
    exact ⟨by omega, by omega⟩

/-- There is only one answer. -/
theorem answer_unique {n : Nat} {c c' : Int} {m m' : Nat} (h : Answer n c m) (h' : Answer n c' m') : c = c' ∧ m = m' := by
  obtain ⟨fl, f1, f2, ⟨p, f3, f4⟩, f5⟩ := h
  obtain ⟨fl', g1, g2, ⟨p', g3, g4⟩, g5⟩ := h'
  have e : ∀ p, p.Perm (cards n) → fl p = fl' p := fun p hp => (f1 p hp).unique (g1 p hp)
  constructor
  · rw [f5, g5]
    exact Finset.sum_congr rfl fun k _ => by rw [e _ (nthPerm_perm n k _)]
  · have h1 := g2 p f3
    have h2 := f2 p' g3
    rw [e p' g3] at h2
    rw [← e p f3] at h1
    omega

/-- The SIMD program ends and returns the answer: for up to 16 cards without overflow checks (the checksum wraps around), for up to 10 with them. -/
theorem C80_simd (t : Target) (ht : t.Supported) (dbg : Bool) {n : Nat} (h1 : 1 ≤ n) (hn : n ≤ 16) (hd : dbg = false ∨ n ≤ 10) :
    ∃ c m, Answer n c m ∧ ∃ enough, ∀ fuel, enough ≤ fuel → fannkuchRedux t dbg fuel n 0 = .ok (c.bmod (2 ^ 32), (m : Int)) := by
  obtain ⟨fl, hfl, hF⟩ := counts_exist h1
  have hS : dbg = false ∨ NoOverflow n (fun j => fl (nthPerm n j (cards n))) := hd.imp id fun h => (fits_of h hF).2
  obtain ⟨mf, -, hm⟩ := simdRun_ok ht (dbg := dbg) h1 hn hS hF (Nat.le_refl (fuelFor n))
  refine ⟨_, mf, answer_of hfl hm, fuelFor n, fun fuel hfu => ?_⟩
  obtain ⟨mf', e, hm'⟩ := simdRun_ok ht (dbg := dbg) h1 hn hS hF hfu
  rw [(answer_unique (answer_of hfl hm) (answer_of hfl hm')).2]
  exact e

/-- The scalar program, with any number of threads that divides the number of arrangements, does so for up to 12 cards. -/
theorem C80_scalar (t : Target) (ht : t.Supported) (dbg : Bool) {n threads : Nat} (h1 : 1 ≤ n) (hn : n ≤ 12) (hth : threads ∣ n !) (hd : dbg = false ∨ n ≤ 10) :
    ∃ c m, Answer n c m ∧ ∃ enough, ∀ fuel, enough ≤ fuel → scalarRun t dbg fuel threads n = .ok (c.bmod (2 ^ 32), (m : Int)) := by
  obtain ⟨fl, hfl, hF⟩ := counts_exist h1
  have hS : dbg = false ∨ ∀ a b, b ≤ n ! → Fits (S (fun j => fl (nthPerm n j (cards n))) a b) := hd.imp id fun h => (fits_of h hF).1
  obtain ⟨mf, -, hm⟩ := scalarRun_ok ht (dbg := dbg) h1 hn hth hF hS (fuel := n ! + 2 ^ (n - 1)) (Nat.le_add_right _ _) (Nat.le_add_left _ _)
  refine ⟨_, mf, answer_of hfl hm, n ! + 2 ^ (n - 1), fun fuel hfu => ?_⟩
  obtain ⟨mf', e, hm'⟩ := scalarRun_ok ht (dbg := dbg) h1 hn hth hF hS ((Nat.le_add_right _ _).trans hfu) ((Nat.le_add_left _ _).trans hfu)
  rw [(answer_unique (answer_of hfl hm) (answer_of hfl hm')).2]
  exact e

/-- So the two programs, whatever the targets they are built for, print the same numbers. -/
theorem C80_agree (t t' : Target) (ht : t.Supported) (ht' : t'.Supported) (dbg : Bool) {n : Nat} (h1 : 1 ≤ n) (hn : n ≤ 12) (hd : dbg = false ∨ n ≤ 10) :
    ∃ r enough, ∀ fuel, enough ≤ fuel → fannkuchRedux t dbg fuel n 0 = .ok r ∧ fannkuchRedux t' dbg fuel n 1 = .ok r := by
  obtain ⟨c, m, ha, e1, h⟩ := C80_simd t ht dbg h1 (by omega) hd
  obtain ⟨c', m', ha', e2, h'⟩ := C80_scalar t' ht' dbg h1 hn (Nat.one_dvd _) hd
  obtain ⟨rfl, rfl⟩ := answer_unique ha ha'
  exact ⟨_, e1 + e2, fun fuel hf => ⟨h fuel (by omega), h' fuel (by omega)⟩⟩

example : fannkuchRedux x64Avx true 200 4 0 = .ok (4, 4) ∧ fannkuchRedux armNeon true 200 4 0 = .ok (4, 4) ∧ fannkuchRedux armNeon true 200 4 1 = .ok (4, 4) := by decide +kernel

/-! ### C81: the numbers of cards `main` accepts -/

/-- For 3 to 12 cards `main` prints the answer with both algorithms (with overflow checks: for 3 to 10).  For 13 and 14 cards this holds of the SIMD algorithm only, see
`C81_debug_fails` and `C81_release_fails`; with any other argument the program panics. -/
theorem C81_main_partial (t : Target) (ht : t.Supported) (dbg : Bool) {n : Nat} (h3 : 3 ≤ n) (hn : n ≤ 14) (hd : dbg = false ∨ n ≤ 10) {alg : Nat} (halg : alg = 0 ∨ (alg = 1 ∧ n ≤ 12)) :
    ∃ c m, Answer n c m ∧ ∃ enough, ∀ fuel, enough ≤ fuel → main t dbg fuel n alg = .ok (c.bmod (2 ^ 32), (m : Int)) := by
  rcases halg with rfl | ⟨rfl, h12⟩
  · obtain ⟨c, m, ha, e, h⟩ := C80_simd t ht dbg (show 1 ≤ n by omega) (by omega) hd
    exact ⟨c, m, ha, e, fun fuel hf => by rw [main, if_pos ⟨h3, hn⟩, h fuel hf]⟩
  · obtain ⟨c, m, ha, e, h⟩ := C80_scalar t ht dbg (show 1 ≤ n by omega) h12 (Nat.one_dvd _) hd
    exact ⟨c, m, ha, e, fun fuel hf => by rw [main, if_pos ⟨h3, hn⟩]; exact h fuel hf⟩

theorem C81_rejected (t : Target) (dbg : Bool) (fuel : Nat) {n alg : Nat} (h : n < 3 ∨ 14 < n ∨ 1 < alg) : main t dbg fuel n alg = .error (.fault .panic) := by
  unfold main
  split
  · unfold fannkuchRedux
    match alg, h with
    | 0, h => omega
    | 1, h => omega
    | _ + 2, _ => rfl
  · rfl

/-- With overflow checks the scalar algorithm panics for 13 and 14 cards, though `main` accepts them: `13!` does not fit in `u32`. -/
theorem C81_debug_fails (t : Target) (fuel : Nat) : main t true fuel 13 1 = .error (.fault .panic) ∧ main t true fuel 14 1 = .error (.fault .panic) := by
  have h13 : Perm.new true 13 = .error .panic := by decide +kernel
  have h14 : Perm.new true 14 = .error .panic := by decide +kernel
  constructor
  · show scalarRun t true fuel 1 13 = _
    unfold scalarRun
    rw [h13]
    rfl
  · show scalarRun t true fuel 1 14 = _
    unfold scalarRun
    rw [h14]
    rfl

theorem release_facts (n : Nat) (fact : List Nat) (max : Nat) (h : (decide (Perm.new false n = .ok ⟨List.replicate 16 0, fact, n, 0, List.replicate 16 0⟩) && decide (lget fact n = .ok max) &&
    (List.range n).all fun i => match lget fact i with | .ok f => decide (asI32 f ≠ 0) | .error _ => false) = true) :
    Perm.new false n = .ok ⟨List.replicate 16 0, fact, n, 0, List.replicate 16 0⟩ ∧ lget fact n = .ok max ∧ ∀ i, 1 ≤ i → i < n → ∃ f, lget fact i = .ok f ∧ asI32 f ≠ 0 := by
  rw [Bool.and_eq_true, Bool.and_eq_true, decide_eq_true_eq, decide_eq_true_eq, List.all_eq_true] at h
  refine ⟨h.1.1, h.1.2, fun i _ hi => ?_⟩
  have := h.2 i (List.mem_range.2 hi)
  cases e : lget fact i with
  | ok f =>
    rw [e] at this
    exact ⟨f, rfl, of_decide_eq_true this⟩
  | error _ =>
    rw [e] at this
    cases this

/-- Without them it looks at the first 1 932 053 504 of the 6 227 020 800 arrangements of 13 cards, and the first 1 278 945 280 of the 87 178 291 200 of 14 cards, and returns the checksum and
the largest number of flips of those. -/
theorem C81_release_fails (t : Target) (ht : t.Supported) : ∀ nk ∈ [(13, 1932053504), (14, 1278945280)], nk.2 < nk.1 ! ∧
    ∃ fl : List Nat → Nat, (∀ p, p.Perm (cards nk.1) → Flips p (fl p)) ∧ ∃ enough, ∀ fuel, enough ≤ fuel →
      ∃ m : Nat, main t false fuel nk.1 1 = .ok ((∑ k ∈ Finset.range nk.2, (-1) ^ k * (fl (nthPerm nk.1 k (cards nk.1)) : Int)).bmod (2 ^ 32), (m : Int)) ∧
        (∀ k, k < nk.2 → fl (nthPerm nk.1 k (cards nk.1)) ≤ m) ∧ ∃ k, k < nk.2 ∧ fl (nthPerm nk.1 k (cards nk.1)) = m := by
  have gen : ∀ n max fact, 3 ≤ n → n ≤ 14 → (decide (Perm.new false n = .ok ⟨List.replicate 16 0, fact, n, 0, List.replicate 16 0⟩) && decide (lget fact n = .ok max) &&
      (List.range n).all fun i => match lget fact i with | .ok f => decide (asI32 f ≠ 0) | .error _ => false) = true → 0 < max → max < 2 ^ 31 → max < n ! → max < n ! ∧
    ∃ fl : List Nat → Nat, (∀ p, p.Perm (cards n) → Flips p (fl p)) ∧ ∃ enough, ∀ fuel, enough ≤ fuel →
      ∃ m : Nat, main t false fuel n 1 = .ok ((∑ k ∈ Finset.range max, (-1) ^ k * (fl (nthPerm n k (cards n)) : Int)).bmod (2 ^ 32), (m : Int)) ∧
        (∀ k, k < max → fl (nthPerm n k (cards n)) ≤ m) ∧ ∃ k, k < max ∧ fl (nthPerm n k (cards n)) = m := by
    intro n max fact h3 hn hdec hpos hlt hle
    obtain ⟨a, b, c⟩ := release_facts n fact max hdec
    obtain ⟨fl, hfl, hF⟩ := counts_exist (show 1 ≤ n by omega)
    refine ⟨hle, fl, hfl, max + 2 ^ (n - 1), fun fuel hfu => ?_⟩
    obtain ⟨m, e, hm⟩ := scalarRun_first ht (show 1 ≤ n by omega) (by omega) a b c hpos (Nat.le_of_lt hle) hlt hF ((Nat.le_add_right _ _).trans hfu) ((Nat.le_add_left _ _).trans hfu)
    refine ⟨m, ?_, fun k hk => hm.1 k (Nat.zero_le k) hk, ?_⟩
    · rw [main, if_pos ⟨h3, hn⟩, Finset.range_eq_Ico]
      exact e
    · rcases hm.2 with h0 | ⟨j, _, hj, e⟩
      · have := hm.1 0 (Nat.le_refl 0) hpos
        exact ⟨0, hpos, by dsimp only at this; omega⟩
      · exact ⟨j, hj, e⟩
  intro nk hnk
  simp only [List.mem_cons, List.not_mem_nil, or_false] at hnk
  rcases hnk with rfl | rfl
  · exact gen 13 1932053504 [1, 1, 2, 6, 24, 120, 720, 5040, 40320, 362880, 3628800, 39916800, 479001600, 1932053504, 1, 1] (by decide) (by decide) (by decide +kernel) (by decide) (by decide)
      (by decide +kernel)
  · exact gen 14 1278945280 [1, 1, 2, 6, 24, 120, 720, 5040, 40320, 362880, 3628800, 39916800, 479001600, 1932053504, 1278945280, 1] (by decide) (by decide) (by decide +kernel) (by decide)
      (by decide) (by decide +kernel)

example : (13 !, 14 !) = (6227020800, 87178291200) := by decide +kernel

end PackedSimd.Ex.Fannkuch
