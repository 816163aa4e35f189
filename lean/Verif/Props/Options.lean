import Verif.Lemmas.Options
import Verif.Lemmas.FloatLaws
import Verif.Lemmas.FloatOps
import Verif.Props.MaskReduce
import Mathlib.Algebra.Field.Basic
import Mathlib.Algebra.BigOperators.Group.Finset.Basic
import Mathlib.Data.Nat.Choose.Sum
import Mathlib.Tactic.Ring
import Mathlib.Tactic.LinearCombination
import Mathlib.Algebra.Order.Ring.Rat
/-
C69-C73: the option-pricing example.
-/
namespace PackedSimd.Props
open PackedSimd Ex Ex.Options Spec

variable {α β : Type} {n : Nat}

/-! ## C69: the vector kernels price every lane as the scalar kernels do -/

/-- Black–Scholes: every lane of the result is exactly (bit for bit, for floats) the scalar result for that lane, in every arithmetic in which
multiplying by the literal -1 is the same as unary minus as far as a product can tell. -/
theorem C69_black_scholes [Add α] [Sub α] [Mul α] [Div α] [Neg α] (F : Fns α) (hneg : ∀ x y : α, F.lit (-1) * x * y = -x * y)
    (s x t r v : Vec α n) :
    ∃ w, blackScholesSimd F s x t r v = .ok w ∧ ∀ i (h : i < n), blackScholesScalar F s[i] x[i] t[i] r[i] v[i] = .ok w[i] :=
  blackScholes_lane F hneg s x t r v

/-- IEEE binary32 is such an arithmetic, whatever `exp`, `ln`, `sqrt`, .. compute. -/
theorem f32_neg (F : Fns F32) (hlit : F.lit (-1) = ⟨Flt.fromInt 32 23 (-1)⟩) (x y : F32) : F.lit (-1) * x * y = -x * y := by
  have hf : Format 32 23 := ⟨by decide, by decide⟩
  rw [hlit]
  obtain ⟨x⟩ := x
  obtain ⟨y⟩ := y
  show F32.mk (Flt.mul 23 (Flt.mul 23 (Flt.fromInt 32 23 (-1)) x) y) = F32.mk (Flt.mul 23 (Flt.negate x) y)
  congr 1
  cases hx : Flt.isNaN 23 x
  · congr 1
    obtain ⟨h1, h2⟩ := mul_minus_one hf x hx
    obtain ⟨h3, h4⟩ := negate_spec hf x
    exact eq_of_sign_mag hf (by rw [h2, h4]) (by rw [h1, h3])
  · have h1 : Flt.mul 23 (Flt.fromInt 32 23 (-1)) x = Flt.qnan 32 23 := by
      unfold Flt.mul; simp [hx]
    have h2 : Flt.isNaN 23 (Flt.negate x) = true := by
      unfold Flt.isNaN at hx ⊢
      rw [(negate_spec hf x).1]; exact hx
    have h3 : Flt.isNaN 23 (Flt.qnan 32 23) = true := by decide
    rw [h1]
    unfold Flt.mul
    simp [h2, h3]

theorem C69_black_scholes_f32 (F : Fns F32) (hlit : F.lit (-1) = ⟨Flt.fromInt 32 23 (-1)⟩) (s x t r v : Vec F32 n) :
    ∃ w, blackScholesSimd F s x t r v = .ok w ∧ ∀ i (h : i < n), blackScholesScalar F s[i] x[i] t[i] r[i] v[i] = .ok w[i] :=
  blackScholes_lane F (f32_neg F hlit) s x t r v

/-- Binomial lattice: the vector kernel multiplies by `1 / disc` where the scalar one divides by `disc`; whenever that makes no difference (in
particular in exact arithmetic) every lane of the result is the scalar result for that lane. -/
theorem C69_binomial [Add α] [Sub α] [Mul α] [Div α] (F : Fns α) (hinv : ∀ a b : α, a * (F.lit 1 / b) = a / b) {N : Nat} (hN : 0 < N)
    (s x t r v : Vec α n) :
    ∃ w, binomialSimd F N s x t r v = .ok w ∧ ∀ i (h : i < n), binomialScalar F N s[i] x[i] t[i] r[i] v[i] = .ok w[i] := by
  obtain ⟨w, h1, h2⟩ := binomialSimd_lane F hN s x t r v
  refine ⟨w, h1, fun i h => ?_⟩
  rw [binomialScalar_ok F hN, h2 i h]
  simp only [hinv]

/-! ## C70: the drivers -/

theorem priced_unique {g : α → α → α → α → α → α} {I : Input α} {result out out' : List α} {count : Nat}
    (h : Priced g I result count out) (h' : Priced g I result count out') : out = out' := by
  apply List.ext_getElem?
  intro j
  by_cases hj : j < count
  · obtain ⟨s, x, t, r, v, e1, e2, e3, e4, e5, e⟩ := h.price j hj
    obtain ⟨s', x', t', r', v', e1', e2', e3', e4', e5', e'⟩ := h'.price j hj
    rw [e1] at e1'; rw [e2] at e2'; rw [e3] at e3'; rw [e4] at e4'; rw [e5] at e5'
    cases e1'; cases e2'; cases e3'; cases e4'; cases e5'
    rw [e, e']
  · rw [h.rest j (by omega), h'.rest j (by omega)]

/-- The scalar driver: if the slices have at least `count` elements it prices the first `count` options, leaves the rest of `result` alone and
returns the sum of `result`. -/
theorem C70_scalar (B : Arith β) (widen : α → β) {kernel : α → α → α → α → α → R α} {g : α → α → α → α → α → α}
    (hk : ∀ s x t r v, kernel s x t r v = .ok (g s x t r v)) {I : Input α} {result : List α} {count : Nat} (hI : Long I count)
    (hr : count ≤ result.length) :
    ∃ out sum, runScalar B widen kernel I result count = .ok (out, sum) ∧ Priced g I result count out ∧ SumOf B.add B.zero (out.map widen) sum := by
  obtain ⟨out, h1, h2, h3, h4⟩ := scalarLoop_ok hk hI hr
  refine ⟨out, sumScalar B widen out, ?_, ⟨h2, h3, h4⟩, sumScalar_sumOf B widen out⟩
  unfold runScalar
  rw [h1]
  rfl

/-- The vectorised driver, for a kernel acting lane by lane: the same, if moreover `count` and the length of `result` are multiples of the number
of lanes; otherwise it panics. -/
theorem C70_serial [LaneCount n] (t : Target) (dbg : Bool) (B : Arith β) (widen : α → β)
    {kernel : Vec α n → Vec α n → Vec α n → Vec α n → Vec α n → R (Vec α n)} {g : α → α → α → α → α → α}
    (hk : ∀ s x t r v, ∃ w, kernel s x t r v = .ok w ∧ ∀ l (hl : l < n), w[l] = g s[l] x[l] t[l] r[l] v[l])
    {I : Input α} {result : List α} {count : Nat} (hI : Long I count) (hr : count ≤ result.length) :
    (count % n = 0 → result.length % n = 0 →
      ∃ out sum, runSerial t dbg B widen kernel I result count = .ok (out, sum) ∧ Priced g I result count out ∧
        SumOf B.add B.zero (out.map widen) sum) ∧
    (count % n ≠ 0 ∨ result.length % n ≠ 0 → runSerial t dbg B widen kernel I result count = .error .panic) := by
  have hn : 0 < n := LaneCount.pos
  have loop : count % n = 0 → ∃ out, (List.range' 0 (count / n) n).foldlM (fun result i => block dbg kernel I i i result) result = .ok out ∧
      Priced g I result count out := by
    intro hc
    have hq : count / n * n = count := Nat.div_mul_cancel (Nat.dvd_of_mod_eq_zero hc)
    have hb : ∀ b, b < count / n → b * n + n ≤ count := by
      intro b hb
      calc b * n + n = (b + 1) * n := by rw [Nat.add_mul, Nat.one_mul]
        _ ≤ count / n * n := Nat.mul_le_mul_right _ hb
        _ = count := hq
    obtain ⟨out, h1, h2, h3, h4⟩ := blocks_ok (dbg := dbg) hn hk (I := I) (fun b => b * n) (List.range (count / n)) result (by
      intro b hb'
      have := hb b (by simpa using hb')
      obtain ⟨k1, k2, k3, k4, k5⟩ := hI
      exact ⟨⟨by omega, by omega, by omega, by omega, by omega⟩, by omega⟩)
    have hmem : ∀ j, j / n ∈ List.range (count / n) ↔ j < count := by
      intro j
      rw [List.mem_range, Nat.div_lt_iff_lt_mul hn, hq]
    refine ⟨out, ?_, h2, fun j hj => ?_, fun j hj => ?_⟩
    · rw [range'_mul, List.foldlM_map]
      exact h1
    · have := h3 j ((hmem j).2 hj)
      rwa [Nat.div_add_mod' j n] at this
    · exact h4 j (fun hc => absurd ((hmem j).1 hc) (by omega))
  constructor
  · intro hc hl
    obtain ⟨out, h1, h2⟩ := loop hc
    obtain ⟨sum, h3, h4⟩ := sumSlice_ok (n := n) t dbg B widen out (by rw [h2.length]; exact hl)
    refine ⟨out, sum, ?_, h2, h4⟩
    unfold runSerial
    rw [if_pos hc, h1, R_ok_bind, h3]
    rfl
  · intro h
    unfold runSerial
    by_cases hc : count % n = 0
    · rw [if_pos hc]
      obtain ⟨out, h1, h2⟩ := loop hc
      rw [h1, R_ok_bind]
      unfold sumSlice
      rw [if_neg (by rw [h2.length]; simpa [hc] using h)]
      rfl
    · rw [if_neg hc]

/-- The state the benchmark starts from, for any number of options: `result` gets `count` times the price of the same option (spot 100, strike 98, two years, rate
0.02, volatility 5) if the number of lanes divides `count`; otherwise the vectorised driver panics and only the scalar one prices them. -/
theorem C70_new_state [LaneCount n] (t : Target) (dbg : Bool) (B : Arith β) (widen : α → β) (F : Fns α) {ks : α → α → α → α → α → R α}
    {kernel : Vec α n → Vec α n → Vec α n → Vec α n → Vec α n → R (Vec α n)} {g : α → α → α → α → α → α}
    (hs : ∀ s x t r v, ks s x t r v = .ok (g s x t r v))
    (hk : ∀ s x t r v, ∃ w, kernel s x t r v = .ok w ∧ ∀ l (hl : l < n), w[l] = g s[l] x[l] t[l] r[l] v[l]) (count : Nat) :
    let prices := List.replicate count (g (F.lit 100) (F.lit 98) (F.lit 2) (F.lit 0.02) (F.lit 5))
    (∃ sum, runScalar B widen ks (stateNew F count).1 (stateNew F count).2 count = .ok (prices, sum) ∧ SumOf B.add B.zero (prices.map widen) sum) ∧
    (n ∣ count → ∃ sum, runSerial t dbg B widen kernel (stateNew F count).1 (stateNew F count).2 count = .ok (prices, sum) ∧
      SumOf B.add B.zero (prices.map widen) sum) ∧
    (¬ n ∣ count → runSerial t dbg B widen kernel (stateNew F count).1 (stateNew F count).2 count = .error .panic) := by
  intro prices
  have hI : Long (stateNew F count).1 count := by constructor <;> simp [stateNew]
  have hr : (stateNew F count).2.length = count := by simp [stateNew]
  have hp : Priced g (stateNew F count).1 (stateNew F count).2 count prices := by
    refine ⟨by simp [prices, hr], fun j hj => ?_, fun j hj => ?_⟩
    · refine ⟨F.lit 100, F.lit 98, F.lit 2, F.lit 0.02, F.lit 5, ?_, ?_, ?_, ?_, ?_, ?_⟩ <;> simp [stateNew, prices, hj]
    · rw [List.getElem?_eq_none (by simpa [prices] using hj), List.getElem?_eq_none (by omega)]
  refine ⟨?_, fun h => ?_, fun h => ?_⟩
  · obtain ⟨out, sum, h1, h2, h3⟩ := C70_scalar B widen hs hI (Nat.le_of_eq hr.symm)
    rw [priced_unique h2 hp] at h1 h3
    exact ⟨sum, h1, h3⟩
  · have h := Nat.mod_eq_zero_of_dvd h
    obtain ⟨out, sum, h1, h2, h3⟩ := (C70_serial t dbg B widen hk hI (Nat.le_of_eq hr.symm)).1 h (by rw [hr]; exact h)
    rw [priced_unique h2 hp] at h1 h3
    exact ⟨sum, h1, h3⟩
  · exact (C70_serial t dbg B widen hk hI (Nat.le_of_eq hr.symm)).2 (Or.inl fun h' => h (Nat.dvd_of_mod_eq_zero h'))

/-- Black–Scholes in `f32`: the scalar and the vectorised program leave bit-identical results, and return sums of exactly these results (in
different orders). -/
theorem C70_black_scholes [LaneCount n] (t : Target) (dbg : Bool) (F : Fns F32) (hlit : F.lit (-1) = ⟨Flt.fromInt 32 23 (-1)⟩) (B : Arith β)
    (widen : F32 → β) (I : Input F32) (result : List F32) (count : Nat) (hI : Long I count) (hr : count ≤ result.length)
    (hc : count % n = 0) (hl : result.length % n = 0) :
    ∃ out sum sum', runScalar B widen (blackScholesScalar F) I result count = .ok (out, sum) ∧
      runSerial (n := n) t dbg B widen (blackScholesSimd F) I result count = .ok (out, sum') ∧
      SumOf B.add B.zero (out.map widen) sum ∧ SumOf B.add B.zero (out.map widen) sum' := by
  let g : F32 → F32 → F32 → F32 → F32 → F32 := fun s x t r v =>
    let d1 := (F.ln (s / x) + (r + v * v * F.lit 0.5) * t) / (v * F.sqrt t)
    s * cndScalar F d1 - x * F.exp (-r * t) * cndScalar F (d1 - v * F.sqrt t)
  obtain ⟨out, sum, h1, h2, h3⟩ := C70_scalar B widen (kernel := blackScholesScalar F) (g := g) (fun _ _ _ _ _ => rfl) hI hr
  obtain ⟨out', sum', h4, h5, h6⟩ := (C70_serial (n := n) t dbg B widen (kernel := blackScholesSimd F) (g := g) (fun s x t r v => by
    obtain ⟨w, e1, e2⟩ := C69_black_scholes_f32 F hlit s x t r v
    exact ⟨w, e1, fun l hl => (Except.ok.inj (e2 l hl)).symm⟩) hI hr).1 hc hl
  have := priced_unique h5 h2
  subst this
  exact ⟨out', sum, sum', h1, h4, h3, h6⟩

/-- In exact arithmetic (a field for the prices and a commutative monoid for the sum) the scalar and the vectorised binomial programs have the same
effect and the same result; the same holds for Black–Scholes if the literal -1 is the field's. -/
theorem C70_exact {K : Type} [Field K] [AddCommMonoid β] [Mul β] [LaneCount n] (t : Target) (dbg : Bool) (F : Fns K) (h1 : F.lit 1 = 1)
    (hm1 : F.lit (-1) = -1) (widen : K → β) (I : Input K) (result : List K) (count : Nat) (hI : Long I count) (hr : count ≤ result.length)
    (hc : count % n = 0) (hl : result.length % n = 0) :
    (∃ r, runScalar ⟨0, (· + ·), (· * ·)⟩ widen (binomialScalar F 64) I result count = .ok r ∧
      runSerial (n := n) t dbg ⟨0, (· + ·), (· * ·)⟩ widen (binomialSimd F 64) I result count = .ok r) ∧
    (∃ r, runScalar ⟨0, (· + ·), (· * ·)⟩ widen (blackScholesScalar F) I result count = .ok r ∧
      runSerial (n := n) t dbg ⟨0, (· + ·), (· * ·)⟩ widen (blackScholesSimd F) I result count = .ok r) := by
  have main : ∀ (ks : K → K → K → K → K → R K) (kv : Vec K n → Vec K n → Vec K n → Vec K n → Vec K n → R (Vec K n)) (g : K → K → K → K → K → K),
      (∀ s x t r v, ks s x t r v = .ok (g s x t r v)) →
      (∀ s x t r v, ∃ w, kv s x t r v = .ok w ∧ ∀ i (h : i < n), ks s[i] x[i] t[i] r[i] v[i] = .ok w[i]) →
      ∃ r, runScalar ⟨0, (· + ·), (· * ·)⟩ widen ks I result count = .ok r ∧
        runSerial (n := n) t dbg ⟨0, (· + ·), (· * ·)⟩ widen kv I result count = .ok r := by
    intro ks kv g hs hv
    obtain ⟨out, sum, h1, h2, h3⟩ := C70_scalar ⟨0, (· + ·), (· * ·)⟩ widen hs hI hr
    obtain ⟨out', sum', h4, h5, h6⟩ := (C70_serial (n := n) t dbg ⟨0, (· + ·), (· * ·)⟩ widen (kernel := kv) (g := g) (fun s x t r v => by
      obtain ⟨w, e1, e2⟩ := hv s x t r v
      exact ⟨w, e1, fun l hl => (Except.ok.inj ((hs _ _ _ _ _).symm.trans (e2 l hl))).symm⟩) hI hr).1 hc hl
    have := priced_unique h5 h2
    subst this
    have : sum = sum' := (SumOf.eq_sum h3).trans (SumOf.eq_sum h6).symm
    subst this
    exact ⟨_, h1, h4⟩
  constructor
  · exact main _ _ _ (fun s x t r v => binomialScalar_ok F (by decide) s x t r v)
      (fun s x t r v => C69_binomial F (fun a b => by rw [h1, mul_one_div]) (by decide) s x t r v)
  · exact main _ _ _ (fun s x t r v => rfl) (fun s x t r v => C69_black_scholes F (fun x y => by rw [hm1]; ring) s x t r v)

/-! ## C71: the parallel driver -/

/-- What the parallel driver does, in whatever order its tasks run: element `j` of `result` becomes the price of option `j / lanes + j % lanes`
(instead of option `j`), for the whole of `result` (whatever `count` is). -/
theorem C71_parallel_reads [LaneCount n] (t : Target) (dbg : Bool) (B : Arith β) (widen : α → β)
    {kernel : Vec α n → Vec α n → Vec α n → Vec α n → Vec α n → R (Vec α n)} {g : α → α → α → α → α → α}
    (hk : ∀ s x t r v, ∃ w, kernel s x t r v = .ok w ∧ ∀ l (hl : l < n), w[l] = g s[l] x[l] t[l] r[l] v[l])
    {I : Input α} {result : List α} {count : Nat} (hI : Long I (result.length / n + n - 1)) (hc : count % n = 0) (hl : result.length % n = 0)
    {order : List Nat} (ho : order.Perm (List.range (result.length / n))) :
    ∃ out sum, runParallel t dbg B widen kernel order I result count = .ok (out, sum) ∧ out.length = result.length ∧
      (∀ j, j < result.length → PriceAt g I (j / n + j % n) out[j]?) ∧ sumSlice t dbg B widen n out = .ok sum ∧
      SumOf B.add B.zero (out.map widen) sum := by
  have hn : 0 < n := LaneCount.pos
  have hq : result.length / n * n = result.length := Nat.div_mul_cancel (Nat.dvd_of_mod_eq_zero hl)
  obtain ⟨out, h1, h2, h3, h4⟩ := blocks_ok (dbg := dbg) hn hk (I := I) id order result (by
    intro b hb
    have hb : b < result.length / n := by simpa using ho.mem_iff.1 hb
    obtain ⟨k1, k2, k3, k4, k5⟩ := hI
    refine ⟨⟨?_, ?_, ?_, ?_, ?_⟩, ?_⟩
    iterate 5 (show b + n ≤ _; omega)
    calc b * n + n = (b + 1) * n := by rw [Nat.add_mul, Nat.one_mul]
      _ ≤ result.length / n * n := Nat.mul_le_mul_right _ hb
      _ = result.length := hq)
  obtain ⟨sum, h5, h6⟩ := sumSlice_ok (n := n) t dbg B widen out (by rw [h2]; exact hl)
  refine ⟨out, sum, ?_, h2, fun j hj => ?_, h5, h6⟩
  · unfold runParallel
    rw [if_pos hc]
    have h1' : order.foldlM (fun result i => block dbg kernel I i (i * n) result) result = .ok out := h1
    rw [h1', R_ok_bind, h5]
    rfl
  · refine h3 j (ho.mem_iff.2 ?_)
    rw [List.mem_range, Nat.div_lt_iff_lt_mul hn, hq]
    exact hj

/-- **C71** (only for inputs that are all the same, such as those of the example's `State::new`): in whatever order its tasks run, the parallel
driver has the same effect and result as the serial one. -/
theorem C71_constant_partial [LaneCount n] (t : Target) (dbg : Bool) (B : Arith β) (widen : α → β)
    {kernel : Vec α n → Vec α n → Vec α n → Vec α n → Vec α n → R (Vec α n)} {g : α → α → α → α → α → α}
    (hk : ∀ s x t r v, ∃ w, kernel s x t r v = .ok w ∧ ∀ l (hl : l < n), w[l] = g s[l] x[l] t[l] r[l] v[l])
    (s x tt r v : α) {result : List α} {count : Nat} (hr : result.length = count) (hc : count % n = 0)
    {order : List Nat} (ho : order.Perm (List.range (result.length / n))) :
    let I : Input α := ⟨List.replicate count s, List.replicate count x, List.replicate count tt, List.replicate count r, List.replicate count v⟩
    runParallel t dbg B widen kernel order I result count = runSerial t dbg B widen kernel I result count := by
  intro I
  have hn : 0 < n := LaneCount.pos
  have hL : ∀ m, m ≤ count → Long I m := by
    intro m hm
    exact ⟨by simpa [I] using hm, by simpa [I] using hm, by simpa [I] using hm, by simpa [I] using hm, by simpa [I] using hm⟩
  by_cases h0 : count = 0
  · have : result = [] := List.eq_nil_of_length_eq_zero (by omega)
    subst this
    have : order = [] := by
      have := ho.length_eq
      simp at this
      exact this
    subst this
    subst h0
    unfold runParallel runSerial
    rw [Nat.zero_div]
    rfl
  have hlen : result.length / n + n - 1 ≤ count := by
    rw [hr]
    obtain ⟨q, hq⟩ := Nat.dvd_of_mod_eq_zero hc
    have hq0 : 0 < q := by rcases Nat.eq_zero_or_pos q with h | h; · subst h; omega
                           · exact h
    rw [hq, Nat.mul_div_cancel_left _ hn]
    obtain ⟨a, rfl⟩ : ∃ a, n = a + 1 := ⟨n - 1, by omega⟩
    obtain ⟨b, rfl⟩ : ∃ b, q = b + 1 := ⟨q - 1, by omega⟩
    have : (a + 1) * (b + 1) = a * b + a + b + 1 := by ring
    omega
  obtain ⟨out, sum, h1, h2, h3, h4, _⟩ := C71_parallel_reads t dbg B widen hk (I := I) (hL _ hlen) hc (by rw [hr]; exact hc) ho
  obtain ⟨out', sum', h5, h6, _⟩ := (C70_serial t dbg B widen hk (I := I) (result := result) (hL _ (Nat.le_refl _)) (by omega)).1 hc (by rw [hr]; exact hc)
  have hpr : ∀ i y, PriceAt g I i y → y = some (g s x tt r v) := by
    rintro i y ⟨a, b, c, d, e, e1, e2, e3, e4, e5, rfl⟩
    have key : ∀ {z w : α}, (List.replicate count z)[i]? = some w → w = z := by
      intro z w h
      obtain ⟨_, h⟩ := List.getElem?_eq_some_iff.1 h
      rw [← h, List.getElem_replicate]
    rw [key e1, key e2, key e3, key e4, key e5]
  have : out = out' := by
    apply List.ext_getElem?
    intro j
    by_cases hj : j < count
    · rw [hpr _ _ (h3 j (by omega)), hpr _ _ (h6.price j hj)]
    · rw [List.getElem?_eq_none (by omega), List.getElem?_eq_none (by rw [h6.length]; omega)]
  subst this
  rw [h1, h5]
  have : sum = sum' := by
    unfold runSerial at h5
    rw [if_pos hc] at h5
    cases hh : (List.range' 0 (count / n) n).foldlM (fun result i => block dbg kernel I i i result) result with
    | error e => rw [hh] at h5; cases h5
    | ok o =>
      rw [hh, R_ok_bind] at h5
      cases hs : sumSlice t dbg B widen n o with
      | error e => rw [hs] at h5; cases h5
      | ok z =>
        rw [hs] at h5
        have := Except.ok.inj h5
        cases this
        rw [hs] at h4
        exact (Except.ok.inj h4).symm
  rw [this]

/-- Exact arithmetic with simple stand-ins for the library functions. -/
def toyFns : Fns Rat := ⟨id, fun x => if x < 0 then -x else x, fun _ => 1, id, id, fun a _ => a, fun a b => if a < b then b else a, fun a b => b < a⟩

def toyInput : Input Rat :=
  ⟨(List.range 16).map fun i => (i : Rat) + 1, List.replicate 16 1, List.replicate 16 1, List.replicate 16 1, List.replicate 16 1⟩

/-- **C71 fails**: with sixteen different options the parallel program gets different prices, whatever the order of its tasks. -/
theorem C71_parallel_fails : ∃ (F : Fns Rat) (I : Input Rat), Long I 16 ∧ ∀ order : List Nat, order.Perm (List.range 2) → ∃ out out' sum sum',
    runSerial (n := 8) x64Avx true ⟨0, (· + ·), (· * ·)⟩ id (blackScholesSimd F) I (List.replicate 16 0) 16 = .ok (out, sum) ∧
    runParallel (n := 8) x64Avx true ⟨0, (· + ·), (· * ·)⟩ id (blackScholesSimd F) order I (List.replicate 16 0) 16 = .ok (out', sum') ∧
    out[8]? ≠ out'[8]? := by
  refine ⟨toyFns, toyInput, by decide, fun order ho => ?_⟩
  let g : Rat → Rat → Rat → Rat → Rat → Rat := fun s x t r v => match blackScholesScalar toyFns s x t r v with | .ok y => y | .error _ => 0
  have hk : ∀ s x t r v : Vec Rat 8, ∃ w, blackScholesSimd toyFns s x t r v = .ok w ∧ ∀ l (hl : l < 8), w[l] = g s[l] x[l] t[l] r[l] v[l] := by
    intro s x t r v
    obtain ⟨w, e1, e2⟩ := C69_black_scholes toyFns (fun x y => by show (-1 : Rat) * x * y = _; ring) s x t r v
    exact ⟨w, e1, fun l hl => by simp only [g, e2 l hl]⟩
  obtain ⟨out, sum, h1, h2, _⟩ := (C70_serial (n := 8) x64Avx true ⟨0, (· + ·), (· * ·)⟩ (id : Rat → Rat) hk (I := toyInput)
    (result := List.replicate 16 0) (count := 16) (by decide) (by decide)).1 (by decide) (by decide)
  obtain ⟨out', sum', h3, _, h4, _⟩ := C71_parallel_reads (n := 8) x64Avx true ⟨0, (· + ·), (· * ·)⟩ (id : Rat → Rat) hk (I := toyInput)
    (result := List.replicate 16 0) (count := 16) (by decide) (by decide) (by decide) (order := order) ho
  refine ⟨out, out', sum, sum', h1, h3, fun he => ?_⟩
  obtain ⟨s, x, t, r, v, e1, e2, e3, e4, e5, e6⟩ := h2.price 8 (by decide)
  obtain ⟨s', x', t', r', v', e1', e2', e3', e4', e5', e6'⟩ := h4 8 (by decide)
  have k : ∀ {y : Rat} {i : Nat}, i < 16 → (List.replicate 16 (1 : Rat))[i]? = some y → y = 1 := by
    intro y i hi h
    rw [List.getElem?_replicate, if_pos hi] at h
    exact (Option.some.inj h).symm
  rw [k (by decide) e2, k (by decide) e3, k (by decide) e4, k (by decide) e5] at e6
  rw [k (by decide) e2', k (by decide) e3', k (by decide) e4', k (by decide) e5'] at e6'
  have e1 : some (9 : Rat) = some s := by rw [← e1]; decide +kernel
  have e1' : some (2 : Rat) = some s' := by rw [← e1']; decide +kernel
  cases e1
  cases e1'
  rw [e6, e6'] at he
  revert he
  decide +kernel

/-! ## C72: what the binomial kernel computes -/

section lattice
variable {K : Type} [Field K]

theorem level_closed (p q disc : K) (v : Nat → K) : ∀ m k,
    level (fun a b => (q * a + p * b) / disc) v m k =
      (∑ i ∈ Finset.range (m + 1), (m.choose i : K) * p ^ i * q ^ (m - i) * v (k + i)) / disc ^ m
  | 0, k => by simp [level]
  | m + 1, k => by
    rw [level, level_closed p q disc v m k, level_closed p q disc v m (k + 1)]
    have h := Finset.sum_antidiagonal_choose_succ_mul (fun i j => p ^ i * q ^ j * v (k + i)) m
    rw [Finset.Nat.sum_antidiagonal_eq_sum_range_succ (fun i j => ((m + 1).choose i : K) * (p ^ i * q ^ j * v (k + i))),
      Finset.Nat.sum_antidiagonal_eq_sum_range_succ (fun i j => (m.choose i : K) * (p ^ i * q ^ (j + 1) * v (k + i))),
      Finset.Nat.sum_antidiagonal_eq_sum_range_succ (fun i j => (m.choose j : K) * (p ^ (i + 1) * q ^ j * v (k + (i + 1))))] at h
    have h1 : ∑ i ∈ Finset.range (m + 1 + 1), ((m + 1).choose i : K) * p ^ i * q ^ (m + 1 - i) * v (k + i) =
        q * (∑ i ∈ Finset.range (m + 1), (m.choose i : K) * p ^ i * q ^ (m - i) * v (k + i)) +
        p * (∑ i ∈ Finset.range (m + 1), (m.choose i : K) * p ^ i * q ^ (m - i) * v (k + 1 + i)) := by
      rw [Finset.mul_sum, Finset.mul_sum]
      refine Eq.trans (Finset.sum_congr rfl fun i _ => by ring) (h.trans (congrArg₂ (· + ·) (Finset.sum_congr rfl fun i _ => by ring)
        (Finset.sum_congr rfl fun i hi => ?_)))
      rw [Nat.choose_symm (by have := Finset.mem_range.1 hi; omega), show k + 1 + i = k + (i + 1) by omega]
      ring
    rw [h1, pow_succ, mul_div_assoc', mul_div_assoc', ← add_div, div_div]

/-- In exact arithmetic the binomial kernel returns the expected payoff of the put over the binomial distribution of up-moves with probability
`pu`, discounted once per step: `(∑ i, C(63, i) puⁱ (1 - pu)⁶³⁻ⁱ max(0, x - s u²ⁱ⁻⁶⁴)) / disc⁶³`. -/
theorem C72_binomial (F : Fns K) (h1 : F.lit 1 = 1) (s x t r v : K) :
    let dt := t / F.lit 64
    let u := F.exp (v * F.sqrt dt)
    let disc := F.exp (r * dt)
    let pu := (disc - 1 / u) / (u - 1 / u)
    binomialScalar F 64 s x t r v = .ok
      ((∑ i ∈ Finset.range 64, (Nat.choose 63 i : K) * pu ^ i * (1 - pu) ^ (63 - i) *
        F.max (F.lit 0) (x - s * F.powf u (F.lit ((2 * (i : Int) - 64 : Int) : Rat)))) / disc ^ 63) := by
  intro dt u disc pu
  rw [binomialScalar_ok F (by decide)]
  unfold binomialValue
  rw [show (64 : Nat) - 1 = 63 from rfl]
  have := level_closed pu (1 - pu) disc (fun i => F.max (F.lit 0) (x - s * F.powf u (F.lit ((2 * (i : Int) - 64 : Int) : Rat)))) 63 0
  rw [show (63 : Nat) + 1 = 64 from rfl] at this
  simp only [Nat.zero_add] at this
  rw [← this]
  simp only [h1]
  rfl

/-- The up-probability is the risk-neutral one: the expected growth of the stock in one step is the growth of the bank account. -/
theorem C72_risk_neutral (u disc : K) (hu : u - 1 / u ≠ 0) :
    let pu := (disc - 1 / u) / (u - 1 / u)
    pu * u + (1 - pu) * (1 / u) = disc := by
  intro pu
  have : pu * (u - 1 / u) = disc - 1 / u := div_mul_cancel₀ _ hu
  linear_combination this

end lattice

/-- The approximation of the normal distribution is symmetric: `cnd(x) = 1 - cnd(-x)` for `x > 0`, exactly, also in floats. -/
theorem C72_cnd_symmetric [Add α] [Sub α] [Mul α] [Div α] [Neg α] (F : Fns α) (x : α) (habs : F.abs (-x) = F.abs x)
    (hx : F.gt x (F.lit 0) = true) (hx' : F.gt (-x) (F.lit 0) = false) : cndScalar F x = F.lit 1 - cndScalar F (-x) := by
  simp only [cndScalar, habs, hx, hx', if_true, Bool.false_eq_true, if_false]

/-! ## C73: slices shorter than `count` -/

/-- **C73 fails**: whenever some slice has fewer than `count` elements, the (safe) vectorised function has undefined behaviour in a build
without debug assertions; with them it panics. -/
theorem C73_short_fails [LaneCount n] (t : Target) (dbg : Bool) (B : Arith β) (widen : α → β)
    {kernel : Vec α n → Vec α n → Vec α n → Vec α n → Vec α n → R (Vec α n)} {g : α → α → α → α → α → α}
    (hk : ∀ s x t r v, ∃ w, kernel s x t r v = .ok w ∧ ∀ l (hl : l < n), w[l] = g s[l] x[l] t[l] r[l] v[l])
    {I : Input α} {result : List α} {count : Nat} (hc : count % n = 0) (h : ¬ (Long I count ∧ count ≤ result.length)) :
    runSerial t dbg B widen kernel I result count = .error (if dbg then .panic else .ub) := by
  have hn : 0 < n := LaneCount.pos
  have hq : count / n * n = count := Nat.div_mul_cancel (Nat.dvd_of_mod_eq_zero hc)
  -- the first block that does not fit
  have hex : ∃ b, ¬ (Long I (b * n + n) ∧ b * n + n ≤ result.length) := by
    refine ⟨count, fun hh => h ?_⟩
    obtain ⟨⟨k1, k2, k3, k4, k5⟩, k6⟩ := hh
    have : count ≤ count * n := Nat.le_mul_of_pos_right _ hn
    exact ⟨⟨by omega, by omega, by omega, by omega, by omega⟩, by omega⟩
  obtain ⟨b, hb, hmin⟩ : ∃ b, ¬ (Long I (b * n + n) ∧ b * n + n ≤ result.length) ∧ ∀ c, c < b → Long I (c * n + n) ∧ c * n + n ≤ result.length := by
    classical
    exact ⟨Nat.find hex, Nat.find_spec hex, fun c hc => not_not.1 (Nat.find_min hex hc)⟩
  have hbq : b < count / n := by
    by_contra hge
    have hge : count / n ≤ b := by omega
    apply h
    rcases Nat.eq_zero_or_pos (count / n) with h0 | hp
    · have : count = 0 := by rw [h0] at hq; omega
      subst this
      exact ⟨⟨by omega, by omega, by omega, by omega, by omega⟩, by omega⟩
    · have := hmin (count / n - 1) (by omega)
      have e : (count / n - 1) * n + n = count := by
        rw [← Nat.succ_mul, Nat.succ_eq_add_one, Nat.sub_add_cancel hp, hq]
      rwa [e] at this
  have hfit : Long I (b * n) ∧ b * n ≤ result.length := by
    rcases Nat.eq_zero_or_pos b with h0 | hp
    · subst h0; exact ⟨⟨by omega, by omega, by omega, by omega, by omega⟩, by omega⟩
    · have := hmin (b - 1) (by omega)
      rwa [← Nat.succ_mul, Nat.succ_eq_add_one, Nat.sub_add_cancel hp] at this
  obtain ⟨out, h1, h2, _⟩ := blocks_ok (dbg := dbg) hn hk (I := I) (fun b => b * n) (List.range b) result
    (fun c hc => hmin c (by simpa using hc))
  have hbl := block_short (dbg := dbg) (fun s x t r v => (hk s x t r v).imp fun _ h => h.1) (I := I) (i := b * n) (o := b * n) (result := out) hfit.1
    (by rw [h2]; exact hfit.2) (by rw [h2]; exact hb)
  have hsplit : List.range (count / n) = List.range b ++ b :: (List.range (count / n - (b + 1))).map (b + 1 + ·) := by
    rw [show List.range b ++ b :: (List.range (count / n - (b + 1))).map (b + 1 + ·) =
      List.range b ++ [b] ++ (List.range (count / n - (b + 1))).map (b + 1 + ·) by simp, ← List.range_succ, ← List.range_add]
    congr 1
    omega
  unfold runSerial
  rw [if_pos hc, range'_mul, List.foldlM_map, hsplit, List.foldlM_append, h1, R_ok_bind, List.foldlM_cons, hbl]
  rfl

/-- The scalar function panics instead. -/
theorem C73_scalar_partial (B : Arith β) (widen : α → β) {kernel : α → α → α → α → α → R α} {g : α → α → α → α → α → α}
    (hk : ∀ s x t r v, kernel s x t r v = .ok (g s x t r v)) {I : Input α} {result : List α} {count : Nat}
    (h : ¬ (Long I count ∧ count ≤ result.length)) : runScalar B widen kernel I result count = .error .panic := by
  -- the first index that does not fit
  have hex : ∃ b, ¬ (Long I (b + 1) ∧ b + 1 ≤ result.length) := by
    refine ⟨count, fun hh => h ?_⟩
    obtain ⟨⟨k1, k2, k3, k4, k5⟩, k6⟩ := hh
    exact ⟨⟨by omega, by omega, by omega, by omega, by omega⟩, by omega⟩
  obtain ⟨b, hb, hmin⟩ : ∃ b, ¬ (Long I (b + 1) ∧ b + 1 ≤ result.length) ∧ ∀ c, c < b → Long I (c + 1) ∧ c + 1 ≤ result.length := by
    classical
    exact ⟨Nat.find hex, Nat.find_spec hex, fun c hc => not_not.1 (Nat.find_min hex hc)⟩
  have hfit : Long I b ∧ b ≤ result.length := by
    rcases Nat.eq_zero_or_pos b with h0 | hp
    · subst h0; exact ⟨⟨by omega, by omega, by omega, by omega, by omega⟩, by omega⟩
    · have := hmin (b - 1) (by omega)
      rwa [Nat.sub_add_cancel hp] at this
  have hbq : b < count := by
    by_contra hge
    apply h
    obtain ⟨⟨k1, k2, k3, k4, k5⟩, k6⟩ := hfit
    exact ⟨⟨by omega, by omega, by omega, by omega, by omega⟩, by omega⟩
  obtain ⟨out, h1, h2, _⟩ := scalarLoop_ok hk hfit.1 hfit.2
  unfold forRange at h1
  unfold runScalar forRange
  rw [show List.range' 0 (count - 0) = List.range' 0 (b - 0) ++ b :: List.range' (b + 1) (count - (b + 1)) by
    rw [← List.range'_succ, show count - 0 = (b - 0) + (count - (b + 1) + 1) by omega, ← List.range'_append]; simp,
    List.foldlM_append, h1, R_ok_bind, List.foldlM_cons]
  have lg : ∀ l : List α, ¬ b < l.length → lget l b = .error .panic := fun l hl => by unfold lget; rw [dif_neg hl]
  have hsome : ¬ b < I.sa.length ∨ ¬ b < I.xa.length ∨ ¬ b < I.ta.length ∨ ¬ b < I.ra.length ∨ ¬ b < I.va.length ∨ ¬ b < result.length := by
    by_contra hh
    simp only [not_or, not_not] at hh
    obtain ⟨k1, k2, k3, k4, k5, k6⟩ := hh
    exact hb ⟨⟨by omega, by omega, by omega, by omega, by omega⟩, by omega⟩
  have step : (do
      let s ← lget I.sa b
      let x ← lget I.xa b
      let t ← lget I.ta b
      let r ← lget I.ra b
      let v ← lget I.va b
      lset out b (← kernel s x t r v)) = (.error .panic : R (List α)) := by
    by_cases k1 : b < I.sa.length
    swap; · rw [lg _ k1]; rfl
    by_cases k2 : b < I.xa.length
    swap; · rw [lget_lt _ k1, lg _ k2]; rfl
    by_cases k3 : b < I.ta.length
    swap; · rw [lget_lt _ k1, lget_lt _ k2, lg _ k3]; rfl
    by_cases k4 : b < I.ra.length
    swap; · rw [lget_lt _ k1, lget_lt _ k2, lget_lt _ k3, lg _ k4]; rfl
    by_cases k5 : b < I.va.length
    swap; · rw [lget_lt _ k1, lget_lt _ k2, lget_lt _ k3, lget_lt _ k4, lg _ k5]; rfl
    rw [lget_lt _ k1, lget_lt _ k2, lget_lt _ k3, lget_lt _ k4, lget_lt _ k5]
    simp only [R_ok_bind, hk]
    unfold lset
    rw [if_neg (by rw [h2]; simpa [k1, k2, k3, k4, k5] using hsome)]
  rw [step]
  rfl

/-- **C73** (only with debug assertions): no undefined behaviour, whatever the lengths. -/
theorem C73_debug_partial [LaneCount n] (t : Target) (B : Arith β) (widen : α → β)
    {kernel : Vec α n → Vec α n → Vec α n → Vec α n → Vec α n → R (Vec α n)} {g : α → α → α → α → α → α}
    (hk : ∀ s x t r v, ∃ w, kernel s x t r v = .ok w ∧ ∀ l (hl : l < n), w[l] = g s[l] x[l] t[l] r[l] v[l])
    (I : Input α) (result : List α) (count : Nat) : runSerial t true B widen kernel I result count ≠ .error .ub := by
  by_cases hc : count % n = 0
  · by_cases h : Long I count ∧ count ≤ result.length
    · by_cases hl : result.length % n = 0
      · obtain ⟨out, sum, h1, _⟩ := (C70_serial t true B widen hk h.1 h.2).1 hc hl
        rw [h1]; simp
      · rw [(C70_serial t true B widen hk h.1 h.2).2 (.inr hl)]; simp
    · rw [C73_short_fails t true B widen hk hc h]; simp
  · unfold runSerial; rw [if_neg hc]; simp

/-! ### Concrete cases -/

-- hypotheses of C69 and C70 are met by exact arithmetic; sixteen options on x86-64 are priced
example : (∀ x y : Rat, toyFns.lit (-1) * x * y = -x * y) ∧ (∀ a b : Rat, a * (toyFns.lit 1 / b) = a / b) ∧ Long toyInput 16 :=
  ⟨fun x y => by show (-1 : Rat) * x * y = _; ring, fun a b => by show a * (1 / b) = _; ring, by decide⟩
example : ((runSerial (n := 8) x64Avx false ⟨0, (· + ·), (· * ·)⟩ id (blackScholesSimd toyFns) toyInput (List.replicate 16 0) 16).toOption.map
    (fun r => r.1[8]?)) =
    some (some (3151615381961760150798823697769488522422871083180639673508815779314750001900533594498939 /
      409528241926248267095261288606309830853770044455971651654783666737053003947049750000000)) := by decide +kernel
-- one input too short, without and with debug assertions
example : (match runSerial (n := 8) x64Avx false ⟨0, (· + ·), (· * ·)⟩ id (blackScholesSimd toyFns) { toyInput with ra := [1, 2] } (List.replicate 16 0) 16 with
    | .error e => some e | .ok _ => none) = some .ub := by decide +kernel
-- small lattices
example : (binomialScalar { toyFns with exp := (· + 1) } 3 1 9 3 1 3).toOption = some (5 / 4) := by decide +kernel
example : ((binomialSimd (n := 2) { toyFns with exp := (· + 1) } 3 #v[1, 1] #v[9, 8] #v[3, 6] #v[1, 1] #v[3, 2]).toOption) = some #v[5 / 4, 1 / 3] := by
  decide +kernel

end PackedSimd.Props
