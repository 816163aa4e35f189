import Verif.Lemmas.Sums
import Verif.Lemmas.FloatOps
import Verif.Props.Slices
import Verif.Props.Float
import Verif.Props.MaskReduce
/-
C49, C50, C51: the documented slice reduction and the slice_sum and dot_product examples.
-/
namespace PackedSimd.Props
open PackedSimd Spec Ex Intr

variable {α : Type} {n k w man : Nat}

/-! ## C49, integers -/

theorem SumOf_wraps (s : Bool) {l : List (BitVec w)} {a : BitVec w} (h : SumOf (· + ·) 0#w l a) :
    WrapsTo s w (l.map (val s)).sum a := by
  rw [wrapsTo_iff]
  induction h with
  | empty => simp
  | single x => simp [ofInt_val]
  | add _ _ ih1 ih2 => rw [List.map_append, List.sum_append, BitVec.ofInt_add, ← ih1, ← ih2]
  | perm hp _ ih => rw [ih, (hp.map _).sum_eq]

/-- The loop of `reduce` adds up the vectors it loads. -/
theorem reduce_loop (t : Target) (m : Mem) (x : Slice) (xs : List (BitVec (8 * k))) (hlen : x.len = xs.length)
    (hm : HoldsElems t.endian m x.addr xs) : ∀ (L : List Nat) (vs : List (Vec (BitVec (8 * k)) n)) (acc : Vec (BitVec (8 * k)) n),
    (∀ i ∈ L, i ≤ xs.length) → (L.map fun i => xs.drop i).mapM (fromSlice n) = .ok vs →
    L.foldlM (fun sum i => do
        let s ← if i ≤ x.len then (.ok (⟨x.addr + i * k, x.len - i⟩ : Slice) : R Slice) else .error .panic
        return Ops.add sum (← SliceIO.fromSliceUnaligned t.endian k n m s)) acc = .ok (vs.foldl Ops.add acc) := by
  intro L
  induction L with
  | nil =>
    intro vs acc _ h
    rw [List.map_nil, List.mapM_nil] at h
    injection h with h; subst h; rfl
  | cons i L ih =>
    intro vs acc hL h
    rw [List.map_cons, List.mapM_cons] at h
    have hi := hL i (by simp)
    have hold : HoldsElems t.endian m (x.addr + i * k) (xs.drop i) := by
      intro j hj
      have := hm (i + j) (by rw [List.length_drop] at hj; omega)
      rw [List.getElem_drop]
      have e : x.addr + i * k + j * k = x.addr + (i + j) * k := by rw [Nat.add_mul, Nat.add_assoc]
      rw [e]; exact this
    obtain ⟨c1, c2⟩ := C05_from_slice_unaligned (n := n) t.endian m ⟨x.addr + i * k, x.len - i⟩ (xs.drop i)
      (by simp [hlen]) hold
    by_cases hn : n ≤ (xs.drop i).length
    · obtain ⟨v, hv, hv'⟩ := c1 hn
      have e : fromSlice n (xs.drop i) = .ok v := by
        unfold fromSlice
        rw [dif_pos hn]
        congr 1
        ext j hj : 1
        rw [hv' j hj]; simp
      rw [e] at h
      rw [R_ok_bind] at h
      cases hr : (L.map fun i => xs.drop i).mapM (fromSlice n) with
      | error f => rw [hr] at h; cases h
      | ok us =>
        rw [hr, R_ok_bind] at h
        injection h with h; subst h
        rw [List.foldlM_cons, if_pos (by omega), R_ok_bind]
        simp only [hv, R_ok_bind]
        exact ih us (Ops.add acc v) (fun j hj => hL j (by simp [hj])) hr
    · have e : fromSlice n (xs.drop i) = .error .panic := by unfold fromSlice; rw [dif_neg hn]
      rw [e] at h; cases h

/-- The documented reduction over a slice returns the wrapping sum of all elements of the slice — whatever its address, whatever the byte
order — and panics exactly when the length is not a multiple of the number of lanes. -/
theorem C49_reduce [LaneCount n] (t : Target) (s : Bool) (m : Mem) (x : Slice) (xs : List (BitVec (8 * k))) (hlen : x.len = xs.length)
    (hm : HoldsElems t.endian m x.addr xs) :
    (xs.length % n = 0 → ∃ r, Ex.reduce t k n m x = .ok r ∧ WrapsTo s (8 * k) (xs.map (val s)).sum r) ∧
    (xs.length % n ≠ 0 → Ex.reduce t k n m x = .error .panic) := by
  constructor
  · intro h0
    obtain ⟨vs, h1, _, h3⟩ := load_chunks (n := n) LaneCount.pos (xs.length / n) xs (Nat.div_mul_le_self _ _)
    rw [take_all h0] at h3
    let A : Arith (BitVec (8 * k)) := ⟨0#_, (· + ·), (· * ·)⟩
    obtain ⟨r, h4, h5⟩ := vsum_rows t A vs (Ex.iterSum A n vs) (iterSum_lane A vs)
    refine ⟨r, ?_, SumOf_wraps s (by rw [← h3]; exact h5)⟩
    unfold Ex.reduce
    rw [hlen, if_pos h0]
    have hL : List.range' 0 (xs.length / n) n = (List.range (xs.length / n)).map (fun j => j * n) := by
      apply List.ext_getElem
      · simp
      · intro i _ _; simp [Nat.mul_comm]
    have := reduce_loop (n := n) t m x xs hlen hm (List.range' 0 (xs.length / n) n) vs (splat n 0#(8 * k)) (by
      intro i hi
      rw [hL] at hi
      obtain ⟨j, hj, rfl⟩ := List.mem_map.1 hi
      have : j < xs.length / n := by simpa using hj
      exact Nat.le_trans (Nat.mul_le_mul_right n (Nat.le_of_lt this)) (Nat.div_mul_le_self _ _))
      (by rw [hL, List.map_map]; exact h1)
    rw [hlen] at this
    rw [this, R_ok_bind]
    exact h4
  · intro h0
    unfold Ex.reduce
    rw [hlen, if_neg h0]

/-- Little-endian memory holding 1, 2, ..., 8 as `i32` from address 12. -/
def mem8 : Mem := fun a => if 12 ≤ a ∧ a < 44 then some (if a % 4 = 0 then BitVec.ofNat 8 ((a - 12) / 4 + 1) else 0) else none

example : Ex.reduce x64Avx 4 4 mem8 ⟨12, 8⟩ = .ok 36#32 ∧ Ex.reduce armNeon 4 4 mem8 ⟨12, 8⟩ = .ok 36#32 ∧
    Ex.reduce x64Avx 4 4 mem8 ⟨12, 7⟩ = .error .panic := by decide +kernel

/-! ## C49, floats -/

/-- The vertical and the horizontal slice sum add up exactly the elements of the slice, each once, for every lane arithmetic and length; they
panic exactly when the length is not a multiple of the number of lanes. -/
theorem C49_slice_sums [LaneCount n] (t : Target) (A : Arith α) (x : List α) :
    (x.length % n = 0 → (∃ r, sumVer t A n x = .ok r ∧ SumOf A.add A.zero x r) ∧ (∃ r, sumHor t A n x = .ok r ∧ SumOf A.add A.zero x r)) ∧
    (x.length % n ≠ 0 → sumVer t A n x = .error .panic ∧ sumHor t A n x = .error .panic) := by
  constructor
  · intro h0
    obtain ⟨vs, h1, _, h3⟩ := chunksExact_load (n := n) LaneCount.pos x
    rw [take_all h0] at h3
    constructor
    · obtain ⟨r, h4, h5⟩ := vsum_rows t A vs (Ex.iterSum A n vs) (iterSum_lane A vs)
      refine ⟨r, ?_, h3 ▸ h5⟩
      unfold sumVer
      rw [if_pos h0, h1, R_ok_bind]; exact h4
    · obtain ⟨ps, h4, h5, h6⟩ := vsums_sumOf t A vs
      refine ⟨_, by unfold sumHor; rw [if_pos h0, h1, R_ok_bind, h4, R_ok_bind]; rfl, ?_⟩
      have := SumOf.foldl ps A.zero [] .empty h5
      rw [h6, h3] at this
      simpa [scalarSum] using this
  · intro h0
    simp [sumVer, sumHor, h0]

/-- In exact arithmetic both return the sum of the slice. -/
theorem C49_exact [LaneCount n] {M : Type} [AddCommMonoid M] (t : Target) (mul : M → M → M) (x : List M) (h : x.length % n = 0) :
    sumVer t ⟨0, (· + ·), mul⟩ n x = .ok x.sum ∧ sumHor t ⟨0, (· + ·), mul⟩ n x = .ok x.sum := by
  obtain ⟨⟨r1, h1, h2⟩, ⟨r2, h3, h4⟩⟩ := (C49_slice_sums t (⟨0, (· + ·), mul⟩ : Arith M) x).1 h
  rw [h1, h3, SumOf.eq_sum h2, SumOf.eq_sum h4]
  exact ⟨rfl, rfl⟩

/-- Sums of floats that are multiples `z x * 2^k` of one power of two and whose magnitudes add up to at most `2^(man+1)` are exact in any order. -/
theorem SumOf_float_exact (hf : Format w man) (k : Nat) (hk : 2 ^ (man + 1) * 2 ^ k < magUnits man (infMag w man)) (z : BitVec w → Int)
    {l : List (BitVec w)} {a : BitVec w} (h : SumOf (Flt.add man) (Flt.fromInt w man 0) l a) :
    (∀ x ∈ l, valueOf man x = .num (z x * 2 ^ k)) → (l.map fun x => (z x).natAbs).sum ≤ 2 ^ (man + 1) →
      valueOf man a = .num ((l.map z).sum * 2 ^ k) := by
  induction h with
  | empty => intro _ _; simpa using valueOf_zero hf
  | single x => intro h _; simpa using h x (by simp)
  | @add l r a b _ _ ih1 ih2 =>
    intro h hs
    simp only [List.mem_append, List.map_append, List.sum_append] at h hs ⊢
    rw [Int.add_mul]
    have h1 := ih1 (fun x hx => h x (.inl hx)) (by omega)
    have h2 := ih2 (fun x hx => h x (.inr hx)) (by omega)
    apply add_exact hf h1 h2
    rw [← Int.add_mul]
    have a1 := natAbs_sum_le z l
    have a2 := natAbs_sum_le z r
    have hb : (((l.map z).sum + (r.map z).sum).natAbs) ≤ 2 ^ (man + 1) := by omega
    exact representable_of _ _ hb (Nat.lt_of_le_of_lt (Nat.mul_le_mul_right _ hb) hk)
  | @perm l l' a hp _ ih =>
    intro h hs
    rw [← (hp.map z).sum_eq]
    exact ih (fun x hx => h x (hp.mem_iff.1 hx)) (by rw [(hp.map _).sum_eq]; exact hs)

/-- In IEEE arithmetic both return a float whose value is the exact sum, if the elements are integer multiples of one power of two with a total
magnitude of at most `2^(man+1)` of it (so for instance all integers, up to a total magnitude of `2^24` for `f32`). -/
theorem C49_float_exact [LaneCount n] (hf : Format w man) (t : Target) (x : List (BitVec w)) (h : x.length % n = 0) (k : Nat)
    (hk : 2 ^ (man + 1) * 2 ^ k < magUnits man (infMag w man)) (z : BitVec w → Int)
    (hz : ∀ y ∈ x, valueOf man y = .num (z y * 2 ^ k)) (hs : (x.map fun y => (z y).natAbs).sum ≤ 2 ^ (man + 1)) :
    ∃ r r', sumVer t (fltArith w man) n x = .ok r ∧ sumHor t (fltArith w man) n x = .ok r' ∧
      valueOf man r = .num ((x.map z).sum * 2 ^ k) ∧ valueOf man r' = .num ((x.map z).sum * 2 ^ k) := by
  obtain ⟨⟨r1, h1, h2⟩, ⟨r2, h3, h4⟩⟩ := (C49_slice_sums t (fltArith w man) x).1 h
  exact ⟨r1, r2, h1, h3, SumOf_float_exact hf k hk z h2 hz hs, SumOf_float_exact hf k hk z h4 hz hs⟩

example : sumVer x64Avx (⟨0, (· + ·), (· * ·)⟩ : Arith Int) 4 [1, -2, 3, 4, 5, 6, 7, 9] = .ok 33 ∧
    sumHor armNeon (⟨0, (· + ·), (· * ·)⟩ : Arith Int) 4 [1, -2, 3, 4, 5, 6, 7, 9] = .ok 33 ∧
    sumHor armNeon (⟨0, (· + ·), (· * ·)⟩ : Arith Int) 4 [1, -2, 3] = .error .panic := by decide +kernel
-- f32: 1.0, 2.0, 2.0, 2^25, vertically and horizontally
example : sumVer x64Avx (fltArith 32 23) 2 [0x3f800000, 0x40000000, 0x40000000, 0x4c000000] = .ok 0x4c000001#32 ∧
    sumHor x64Avx (fltArith 32 23) 2 [0x3f800000, 0x40000000, 0x40000000, 0x4c000000] = .ok 0x4c000001#32 := by decide +kernel

/-! ## C50 -/

/-- The elements `sum_ver_par` adds up when the first aligned element has index `i`: those before it, and as many whole vectors as fit after it;
this holds for every way the parallel iterator splits its work. -/
theorem C50_sums [LaneCount n] (t : Target) (A : Arith α) (elemBytes align : Nat) (sched : Sched) (addr : Nat) (x : List α) (i : Nat)
    (h : x.length % n = 0) (hi : firstAligned addr elemBytes align x.length = some i) :
    ∃ r, sumVerPar t A n elemBytes align sched addr x = .ok r ∧
      SumOf A.add A.zero (x.take (i + (x.length - i) / n * n)) r := by
  obtain ⟨vs, h1, _, h3⟩ := load_chunks (n := n) LaneCount.pos ((x.drop i).length / n) (x.drop i) (Nat.div_mul_le_self _ _)
  obtain ⟨r, h4, h5⟩ := vsum_rows t A vs (parSum A n sched vs) (parSum_lane A n sched vs)
  refine ⟨A.add (scalarSum A (x.take i)) r, ?_, ?_⟩
  · unfold sumVerPar
    rw [if_pos h, hi]
    simp only [h1, R_ok_bind, h4]; rfl
  · rw [List.take_add]
    have := SumOf.add (scalarSum_sumOf A (x.take i)) h5
    rw [h3, List.length_drop] at this
    exact this

theorem firstAligned_eq (a e n len : Nat) (hn : 0 < n) (he : 0 < e) (hlen : (n - a % n) % n < len) :
    firstAligned (a * e) e (n * e) len = some ((n - a % n) % n) := by
  have key : ∀ j, ((a * e + j * e) % (n * e) == 0) = ((a + j) % n == 0) := by
    intro j
    rw [← Nat.add_mul, Nat.mul_mod_mul_right]
    have : (a + j) % n * e = 0 ↔ (a + j) % n = 0 := by
      rw [Nat.mul_eq_zero]; omega
    rw [Bool.eq_iff_iff]; simpa using this
  have hm := Nat.mod_lt a hn
  have hd : a = n * (a / n) + a % n := (Nat.div_add_mod a n).symm
  unfold firstAligned
  rw [List.find?_range_eq_some]
  simp only [key]
  refine ⟨?_, by simpa using hlen, ?_⟩
  · have e1 : (a + (n - a % n) % n) % n = (a % n + (n - a % n)) % n := by simp [Nat.add_mod]
    rw [e1, show a % n + (n - a % n) = n by omega]; simp
  · intro j hj
    have h1 : j < n - a % n := by
      rcases Nat.eq_zero_or_pos (a % n) with h0 | h0
      · rw [h0, Nat.sub_zero, Nat.mod_self] at hj; omega
      · rw [Nat.mod_eq_of_lt (by omega)] at hj; omega
    have h2 : 0 < a % n := by
      rcases Nat.eq_zero_or_pos (a % n) with h0 | h0
      · rw [h0, Nat.sub_zero, Nat.mod_self] at hj; omega
      · exact h0
    have : (a + j) % n = a % n + j := by
      rw [Nat.add_mod, Nat.mod_eq_of_lt (a := j) (by omega), Nat.mod_eq_of_lt (by omega)]
    simp [this]; omega

/-- The full claim holds for slices whose start is aligned for the vector type: every non-empty slice of an accepted length is summed
completely, for every schedule.  Missing: all other start addresses (`C50_misaligned_fails`) and the empty slice (`C50_empty_fails`). -/
theorem C50_aligned_partial [LaneCount n] (t : Target) (A : Arith α) (e a : Nat) (he : 0 < e) (sched : Sched) (x : List α)
    (h : x.length % n = 0) (hne : x ≠ []) (ha : a % n = 0) :
    ∃ r, sumVerPar t A n e (n * e) sched (a * e) x = .ok r ∧ SumOf A.add A.zero x r := by
  have hx : 0 < x.length := List.length_pos_iff.2 hne
  have h0 : (n - a % n) % n = 0 := by rw [ha]; simp
  obtain ⟨r, h1, h2⟩ := C50_sums t A e (n * e) sched (a * e) x 0 h
    (by have := firstAligned_eq a e n x.length LaneCount.pos he (by omega); rwa [h0] at this)
  refine ⟨r, h1, ?_⟩
  rw [Nat.zero_add, Nat.sub_zero, take_all h] at h2
  exact h2

/-- For every start address that is element-aligned but not vector-aligned (`f32x8` needs 32-byte alignment, the allocation of a `Vec<f32>`
guarantees 4), and every non-empty slice of an accepted length, `sum_ver_par` leaves out the last `a % n` elements (`a` is the start address
counted in elements). -/
theorem C50_misaligned_fails [LaneCount n] (t : Target) (A : Arith α) (e a : Nat) (he : 0 < e) (sched : Sched) (x : List α)
    (h : x.length % n = 0) (hne : x ≠ []) (ha : a % n ≠ 0) :
    ∃ r, sumVerPar t A n e (n * e) sched (a * e) x = .ok r ∧ SumOf A.add A.zero (x.take (x.length - a % n)) r := by
  have hn : 0 < n := LaneCount.pos
  have hx : 0 < x.length := List.length_pos_iff.2 hne
  have hm := Nat.mod_lt a hn
  have hge : n ≤ x.length := Nat.le_of_dvd hx (Nat.dvd_of_mod_eq_zero h)
  have h0 : (n - a % n) % n = n - a % n := Nat.mod_eq_of_lt (by omega)
  obtain ⟨r, h1, h2⟩ := C50_sums t A e (n * e) sched (a * e) x (n - a % n) h
    (by have := firstAligned_eq a e n x.length hn he (by omega); rwa [h0] at this)
  refine ⟨r, h1, ?_⟩
  obtain ⟨q, hq⟩ := Nat.dvd_of_mod_eq_zero h
  obtain ⟨p, rfl⟩ : ∃ p, q = p + 1 := ⟨q - 1, by rcases q with _ | q <;> simp_all⟩
  have hL : x.length = p * n + n := by rw [hq, Nat.mul_add, Nat.mul_comm]; simp
  have e1 : (x.length - (n - a % n)) / n = p := by
    rw [hL, show p * n + n - (n - a % n) = a % n + p * n by omega, Nat.add_mul_div_right _ _ hn, Nat.div_eq_of_lt hm, Nat.zero_add]
  rw [e1] at h2
  rwa [show x.length - a % n = n - a % n + p * n by omega]

/-- The empty slice has an accepted length (0), but `sum_ver_par` panics on it. -/
theorem C50_empty_fails (t : Target) (A : Arith α) (e align : Nat) (sched : Sched) (addr : Nat) :
    sumVerPar t A n e align sched addr [] = .error .panic := by
  simp [sumVerPar, firstAligned]

-- f32x8, 24 elements 1..24, starting 32-byte aligned and 4 bytes later (the last element, 24, is lost)
example : sumVerPar x64Avx (⟨0, (· + ·), (· * ·)⟩ : Arith Nat) 8 4 32 (.split 1 .seq (.split 1 .seq .seq)) 64 (List.range' 1 24) = .ok 300 ∧
    sumVerPar x64Avx (⟨0, (· + ·), (· * ·)⟩ : Arith Nat) 8 4 32 (.split 1 .seq .seq) 68 (List.range' 1 24) = .ok 276 ∧
    sumVerPar armNeon (⟨0, (· + ·), (· * ·)⟩ : Arith Nat) 8 4 32 (.split 5 .seq .seq) 76 (List.range' 1 24) = .ok 231 := by decide +kernel

/-! ## C51 -/

/-- For every arithmetic and all slices the vectorised dot product adds up exactly the products of corresponding elements, as does the scalar
one; the panics are those of the length checks. -/
theorem C51_sums [LaneCount n] (t : Target) (A : Arith α) (a b : List α) :
    (a.length = b.length →
      (∃ r, dotScalar A a b = .ok r ∧ SumOf A.add A.zero (List.zipWith A.mul a b) r) ∧
      (a.length % n = 0 → ∃ r, dotSimd t A n a b = .ok r ∧ SumOf A.add A.zero (List.zipWith A.mul a b) r) ∧
      (a.length % n ≠ 0 → dotSimd t A n a b = .error .panic)) ∧
    (a.length ≠ b.length → dotScalar A a b = .error .panic ∧ dotSimd t A n a b = .error .panic) := by
  refine ⟨fun hab => ⟨?_, fun h0 => ?_, fun h0 => ?_⟩, fun hab => ?_⟩
  · refine ⟨_, if_pos hab, ?_⟩
    have : (a.zip b).map (fun v => A.mul v.1 v.2) = List.zipWith A.mul a b := by
      rw [List.zip_eq_zipWith, List.map_zipWith]
    rw [this]
    exact scalarSum_sumOf A _
  · obtain ⟨va, h1, h2, h3⟩ := chunksExact_load (n := n) LaneCount.pos a
    obtain ⟨vb, h1', h2', h3'⟩ := chunksExact_load (n := n) LaneCount.pos b
    rw [take_all h0] at h3
    rw [take_all (hab ▸ h0)] at h3'
    obtain ⟨r, h4, h5⟩ := vsum_rows t A ((va.zip vb).map fun v => vmul A v.1 v.2) _ (iterSum_lane A _)
    refine ⟨r, ?_, ?_⟩
    · unfold dotSimd
      rw [if_pos hab, if_pos h0, h1, R_ok_bind, h1', R_ok_bind]
      exact h4
    · unfold vmul at h5
      rw [rows_zip A.mul va vb (by rw [h2, h2', hab]), h3, h3'] at h5
      exact h5
  · unfold dotSimd; rw [if_pos hab, if_neg h0]
  · unfold dotScalar dotSimd; rw [if_neg hab, if_neg hab]; exact ⟨rfl, rfl⟩

/-- In exact arithmetic both return the dot product. -/
theorem C51_exact [LaneCount n] {M : Type} [AddCommMonoid M] (t : Target) (mul : M → M → M) (a b : List M) (hab : a.length = b.length)
    (h : a.length % n = 0) :
    dotSimd t ⟨0, (· + ·), mul⟩ n a b = .ok (List.zipWith mul a b).sum ∧ dotScalar ⟨0, (· + ·), mul⟩ a b = .ok (List.zipWith mul a b).sum := by
  obtain ⟨⟨r1, h1, h2⟩, h3, _⟩ := (C51_sums (n := n) t (⟨0, (· + ·), mul⟩ : Arith M) a b).1 hab
  obtain ⟨r2, h3, h4⟩ := h3 h
  rw [h1, h3, SumOf.eq_sum h2, SumOf.eq_sum h4]
  exact ⟨rfl, rfl⟩

/-- In IEEE arithmetic both return the same value, that of the exact sum of the (rounded) products, if these are integer multiples of one power
of two of bounded total magnitude. -/
theorem C51_float_exact [LaneCount n] (hf : Format w man) (t : Target) (a b : List (BitVec w)) (hab : a.length = b.length)
    (h : a.length % n = 0) (k : Nat) (hk : 2 ^ (man + 1) * 2 ^ k < magUnits man (infMag w man)) (z : BitVec w → Int)
    (hz : ∀ y ∈ List.zipWith (Flt.mul man) a b, valueOf man y = .num (z y * 2 ^ k))
    (hs : ((List.zipWith (Flt.mul man) a b).map fun y => (z y).natAbs).sum ≤ 2 ^ (man + 1)) :
    ∃ r r', dotSimd t (fltArith w man) n a b = .ok r ∧ dotScalar (fltArith w man) a b = .ok r' ∧
      valueOf man r = .num (((List.zipWith (Flt.mul man) a b).map z).sum * 2 ^ k) ∧
      valueOf man r' = .num (((List.zipWith (Flt.mul man) a b).map z).sum * 2 ^ k) := by
  obtain ⟨⟨r1, h1, h2⟩, h3, _⟩ := (C51_sums (n := n) t (fltArith w man) a b).1 hab
  obtain ⟨r2, h3, h4⟩ := h3 h
  exact ⟨r2, r1, h3, h1, SumOf_float_exact hf k hk z h4 hz hs, SumOf_float_exact hf k hk z h2 hz hs⟩

example : dotSimd x64Avx (⟨0, (· + ·), (· * ·)⟩ : Arith Int) 4 [1, 2, 3, 4, 1, 2, 3, 4] [1, 1, -1, 1, 1, 1, 1, 5] = .ok 30 ∧
    dotScalar (⟨0, (· + ·), (· * ·)⟩ : Arith Int) [1, 2, 3, 4, 1, 2, 3, 4] [1, 1, -1, 1, 1, 1, 1, 5] = .ok 30 ∧
    dotSimd x64Avx (⟨0, (· + ·), (· * ·)⟩ : Arith Int) 4 [1, 2, 3] [1, 1, -1] = .error .panic ∧
    dotSimd x64Avx (⟨0, (· + ·), (· * ·)⟩ : Arith Int) 4 [1, 2, 3, 4] [1, 1, -1] = .error .panic := by decide +kernel
-- the repository's own f32 test case [1,2,3,4] . [1,2,3,4] = 30
example : dotSimd x64Avx (fltArith 32 23) 4 [0x3f800000, 0x40000000, 0x40400000, 0x40800000] [0x3f800000, 0x40000000, 0x40400000, 0x40800000]
    = .ok 0x41f00000#32 := by decide +kernel

end PackedSimd.Props
