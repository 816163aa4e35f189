import Verif.Spec.Options
import Verif.Lemmas.Sums
import Verif.Lemmas.Triangle
import Verif.Lemmas.Math
import Verif.Lemmas.Spectral
/-
Helper lemmas for C69-C73.
-/
namespace PackedSimd.Ex.Options
open PackedSimd Mandel

variable {α β : Type} {n : Nat}

/-! ### Loads, stores, blocks -/

theorem loadAt_ok {dbg : Bool} {xs : List α} {i : Nat} (h : i + n ≤ xs.length) :
    ∃ v : Vec α n, loadAt dbg n xs i = .ok v ∧ ∀ l (hl : l < n), xs[i + l]? = some v[l] := by
  refine ⟨Vector.ofFn fun l => xs[i + l.val], ?_, fun l hl => ?_⟩
  · unfold loadAt
    rw [if_pos (by omega), dif_pos h]
  · simp [List.getElem?_eq_getElem (show i + l < xs.length by omega)]

theorem storeAt_ok {dbg : Bool} {v : Vec α n} {xs : List α} {i : Nat} (h : i + n ≤ xs.length) :
    ∃ out, storeAt dbg v xs i = .ok out ∧ out.length = xs.length ∧
      ∀ j, out[j]? = if j < i then xs[j]? else if hj : j - i < n then some v[j - i] else xs[j]? := by
  refine ⟨xs.take i ++ v.toList ++ xs.drop (i + n), ?_, ?_, fun j => ?_⟩
  · unfold storeAt
    rw [if_pos (by omega), if_pos h]
  · simp; omega
  · by_cases h1 : j < i
    · rw [if_pos h1, List.append_assoc, List.getElem?_append_left (by simp; omega), List.getElem?_take_of_lt h1]
    · rw [if_neg h1]
      by_cases h2 : j - i < n
      · rw [dif_pos h2, List.getElem?_append_left (by simp; omega), List.getElem?_append_right (by simp; omega), List.getElem?_eq_getElem (by simp; omega)]
        simp [show min i xs.length = i by omega]
      · rw [dif_neg h2, List.getElem?_append_right (by simp; omega), List.getElem?_drop]
        congr 1
        simp; omega

theorem block_ok {dbg : Bool} {kernel : Vec α n → Vec α n → Vec α n → Vec α n → Vec α n → R (Vec α n)} {g : α → α → α → α → α → α}
    (hk : ∀ s x t r v, ∃ w, kernel s x t r v = .ok w ∧ ∀ l (hl : l < n), w[l] = g s[l] x[l] t[l] r[l] v[l])
    {I : Input α} {i o : Nat} {result : List α} (hI : Long I (i + n)) (ho : o + n ≤ result.length) :
    ∃ out, block dbg kernel I i o result = .ok out ∧ out.length = result.length ∧
      (∀ j, o ≤ j → j < o + n → PriceAt g I (i + (j - o)) out[j]?) ∧ ∀ j, ¬ (o ≤ j ∧ j < o + n) → out[j]? = result[j]? := by
  obtain ⟨h1, h2, h3, h4, h5⟩ := hI
  obtain ⟨s, e1, p1⟩ := loadAt_ok (dbg := dbg) h1
  obtain ⟨x, e2, p2⟩ := loadAt_ok (dbg := dbg) h2
  obtain ⟨t, e3, p3⟩ := loadAt_ok (dbg := dbg) h3
  obtain ⟨r, e4, p4⟩ := loadAt_ok (dbg := dbg) h4
  obtain ⟨v, e5, p5⟩ := loadAt_ok (dbg := dbg) h5
  obtain ⟨w, e6, p6⟩ := hk s x t r v
  obtain ⟨out, e7, hlen, p7⟩ := storeAt_ok (dbg := dbg) (v := w) ho
  refine ⟨out, ?_, hlen, fun j hj1 hj2 => ?_, fun j hj => ?_⟩
  · unfold block
    simp only [e1, e2, e3, e4, e5, e6, R_ok_bind, e7]
  · have hl : j - o < n := by omega
    refine ⟨s[j - o], x[j - o], t[j - o], r[j - o], v[j - o], p1 _ hl, p2 _ hl, p3 _ hl, p4 _ hl, p5 _ hl, ?_⟩
    rw [p7, if_neg (by omega), dif_pos hl, p6]
  · rw [p7]
    by_cases h : j < o
    · rw [if_pos h]
    · rw [if_neg h, dif_neg (by omega)]

/-- Running any list of blocks. -/
theorem blocks_ok {dbg : Bool} {kernel : Vec α n → Vec α n → Vec α n → Vec α n → Vec α n → R (Vec α n)} {g : α → α → α → α → α → α}
    (hn : 0 < n) (hk : ∀ s x t r v, ∃ w, kernel s x t r v = .ok w ∧ ∀ l (hl : l < n), w[l] = g s[l] x[l] t[l] r[l] v[l])
    {I : Input α} (inp : Nat → Nat) : ∀ (order : List Nat) (result : List α), (∀ b ∈ order, Long I (inp b + n) ∧ b * n + n ≤ result.length) →
    ∃ out, order.foldlM (fun result b => block dbg kernel I (inp b) (b * n) result) result = .ok out ∧ out.length = result.length ∧
      (∀ j, j / n ∈ order → PriceAt g I (inp (j / n) + j % n) out[j]?) ∧ ∀ j, j / n ∉ order → out[j]? = result[j]?
  | [], result, _ => ⟨result, rfl, rfl, fun j h => by simp at h, fun _ _ => rfl⟩
  | b :: order, result, h => by
    obtain ⟨hI, hb⟩ := h b (by simp)
    obtain ⟨r1, e1, l1, p1, q1⟩ := block_ok (dbg := dbg) hk hI hb
    obtain ⟨out, e2, l2, p2, q2⟩ := blocks_ok (dbg := dbg) hn hk inp order r1 (fun c hc => by rw [l1]; exact h c (by simp [hc]))
    have key : ∀ j, j / n = b ↔ b * n ≤ j ∧ j < b * n + n := by
      intro j
      rw [Nat.div_eq_iff hn]
      omega
    refine ⟨out, ?_, by rw [l2, l1], fun j hj => ?_, fun j hj => ?_⟩
    · rw [List.foldlM_cons, e1]
      exact e2
    · by_cases hm : j / n ∈ order
      · exact p2 j hm
      · have hjb : j / n = b := by simpa [hm] using hj
        rw [q2 j hm, hjb]
        have := p1 j ((key j).1 hjb).1 ((key j).1 hjb).2
        have e : j - b * n = j % n := by
          have := Nat.div_add_mod j n
          rw [hjb, Nat.mul_comm] at this
          omega
        rwa [e] at this
    · simp only [List.mem_cons, not_or] at hj
      rw [q2 j hj.2, q1 j (fun hc => hj.1 ((key j).2 hc))]

/-! ### The sum -/

theorem range'_mul (q n : Nat) : List.range' 0 q n = (List.range q).map (· * n) := by
  apply List.ext_getElem
  · simp
  · intro i h1 h2
    simp [Nat.mul_comm]

theorem sumLoop {dbg : Bool} (B : Arith β) (widen : α → β) (x : List α) (init : Vec β n) : ∀ q, q * n ≤ x.length →
    ∃ vs : List (Vec α n), (vs.map Vector.toList).flatten = x.take (q * n) ∧
      (List.range' 0 q n).foldlM (fun sum i => do
        let v ← loadAt dbg n x i
        return vadd B sum (v.map widen)) init = Except.ok (ε := Fault) ((vs.map fun v => v.map widen).foldl (vadd B) init)
  | 0, _ => ⟨[], by simp, rfl⟩
  | q + 1, h => by
    rw [Nat.add_mul, Nat.one_mul] at h
    obtain ⟨vs, h1, h2⟩ := sumLoop B widen x init q (by omega)
    obtain ⟨v, e, p⟩ := loadAt_ok (dbg := dbg) (i := q * n) h
    refine ⟨vs ++ [v], ?_, ?_⟩
    · rw [List.map_append, List.flatten_append, h1, Nat.add_mul, Nat.one_mul, List.take_add]
      congr 1
      apply List.ext_getElem?
      intro l
      by_cases hl : l < n
      · rw [List.getElem?_take_of_lt hl, List.getElem?_drop, p l hl]
        simp [hl]
      · rw [List.getElem?_eq_none (by simp; omega), List.getElem?_eq_none (by simp; omega)]
    · rw [List.range'_concat, List.foldlM_append, h2, R_ok_bind, List.foldlM_cons, Nat.zero_add, Nat.mul_comm n q, e, R_ok_bind, List.map_append, List.foldl_append]
      rfl

theorem sumSlice_ok [LaneCount n] (t : Target) (dbg : Bool) (B : Arith β) (widen : α → β) (x : List α) (hx : x.length % n = 0) :
    ∃ r, sumSlice t dbg B widen n x = .ok r ∧ Spec.SumOf B.add B.zero (x.map widen) r := by
  have hq : x.length / n * n = x.length := Nat.div_mul_cancel (Nat.dvd_of_mod_eq_zero hx)
  obtain ⟨vs, h1, h2⟩ := sumLoop (dbg := dbg) B widen x (splat n B.zero) (x.length / n) (by omega)
  rw [hq, List.take_length] at h1
  obtain ⟨r, h3, h4⟩ := vsum_rows t B (vs.map fun v => v.map widen) (iterSum B n (vs.map fun v => v.map widen))
    (fun i hi => iterSum_lane B _ i hi)
  refine ⟨r, ?_, ?_⟩
  · unfold sumSlice
    rw [if_pos hx, h2]
    exact h3
  · have : ((vs.map fun v => v.map widen).map Vector.toList).flatten = x.map widen := by
      rw [← h1, List.map_flatten, List.map_map, List.map_map]
      congr 1
      apply List.map_congr_left
      intro v _
      exact Vector.toList_map ..
    rwa [this] at h4

theorem sumScalar_sumOf (B : Arith β) (widen : α → β) (x : List α) : Spec.SumOf B.add B.zero (x.map widen) (sumScalar B widen x) := by
  have := scalarSum_sumOf B (x.map widen)
  unfold scalarSum at this
  rwa [List.foldl_map] at this

theorem lget_some {l : List α} {i : Nat} {x : α} (h : l[i]? = some x) : lget l i = .ok x := by
  obtain ⟨h1, h2⟩ := List.getElem?_eq_some_iff.1 h
  unfold lget
  rw [dif_pos h1, h2]

/-- The loop of the scalar drivers. -/
theorem scalarLoop_ok {kernel : α → α → α → α → α → R α} {g : α → α → α → α → α → α} (hk : ∀ s x t r v, kernel s x t r v = .ok (g s x t r v))
    {I : Input α} {result : List α} {count : Nat} (hI : Long I count) (hr : count ≤ result.length) :
    ∃ out, forRange 0 count (fun result i => do
        let s ← lget I.sa i
        let x ← lget I.xa i
        let t ← lget I.ta i
        let r ← lget I.ra i
        let v ← lget I.va i
        lset result i (← kernel s x t r v)) result = Except.ok (ε := Fault) out ∧ out.length = result.length ∧
      (∀ j, j < count → PriceAt g I j out[j]?) ∧ ∀ j, count ≤ j → out[j]? = result[j]? := by
  obtain ⟨out, h1, h2, h3, h4⟩ := forRange_inv (fun i (out : List α) => out.length = result.length ∧
      (∀ j, j < i → PriceAt g I j out[j]?) ∧ ∀ j, i ≤ j → out[j]? = result[j]?)
    (fun result i => do
        let s ← lget I.sa i
        let x ← lget I.xa i
        let t ← lget I.ta i
        let r ← lget I.ra i
        let v ← lget I.va i
        lset result i (← kernel s x t r v)) (Nat.zero_le count) (init := result) ⟨rfl, fun j h => absurd h (by omega), fun _ _ => rfl⟩ (by
      rintro i out _ hi ⟨hl, hp, hq⟩
      obtain ⟨h1, h2, h3, h4, h5⟩ := hI
      refine ⟨out.set i (g I.sa[i] I.xa[i] I.ta[i] I.ra[i] I.va[i]), ?_, by simp [hl], fun j hj => ?_, fun j hj => ?_⟩
      · simp only [lget_lt _ (show i < I.sa.length by omega), lget_lt _ (show i < I.xa.length by omega), lget_lt _ (show i < I.ta.length by omega),
          lget_lt _ (show i < I.ra.length by omega), lget_lt _ (show i < I.va.length by omega), R_ok_bind, hk]
        unfold lset
        rw [if_pos (by omega)]
      · by_cases h : j = i
        · subst h
          refine ⟨_, _, _, _, _, List.getElem?_eq_getElem (by omega), List.getElem?_eq_getElem (by omega), List.getElem?_eq_getElem (by omega),
            List.getElem?_eq_getElem (by omega), List.getElem?_eq_getElem (by omega), ?_⟩
          rw [List.getElem?_set_self (by omega)]
        · rw [List.getElem?_set_ne (by omega)]
          exact hp j (by omega)
      · rw [List.getElem?_set_ne (by omega)]
        exact hq j (by omega))
  exact ⟨out, h1, h2, h3, h4⟩

/-! ### Short slices -/

theorem loadAt_short {dbg : Bool} {xs : List α} {i : Nat} (h1 : i ≤ xs.length) (h2 : ¬ i + n ≤ xs.length) :
    loadAt dbg n xs i = .error (if dbg then .panic else .ub) := by
  unfold loadAt
  rw [if_pos h1, dif_neg h2]

theorem loadAt_cases {dbg : Bool} {xs : List α} {i : Nat} (h1 : i ≤ xs.length) :
    (∃ v : Vec α n, loadAt dbg n xs i = .ok v) ∧ i + n ≤ xs.length ∨ loadAt dbg n xs i = .error (if dbg then .panic else .ub) ∧ ¬ i + n ≤ xs.length := by
  by_cases h2 : i + n ≤ xs.length
  · obtain ⟨v, h, _⟩ := loadAt_ok (dbg := dbg) h2
    exact .inl ⟨⟨v, h⟩, h2⟩
  · exact .inr ⟨loadAt_short h1 h2, h2⟩

theorem block_short {dbg : Bool} {kernel : Vec α n → Vec α n → Vec α n → Vec α n → Vec α n → R (Vec α n)}
    (hk : ∀ s x t r v, ∃ w, kernel s x t r v = .ok w)
    {I : Input α} {i o : Nat} {result : List α} (hI : Long I i) (ho : o ≤ result.length) (h : ¬ (Long I (i + n) ∧ o + n ≤ result.length)) :
    block dbg kernel I i o result = .error (if dbg then .panic else .ub) := by
  obtain ⟨h1, h2, h3, h4, h5⟩ := hI
  unfold block
  rcases loadAt_cases (n := n) (dbg := dbg) h1 with ⟨⟨s, e1⟩, k1⟩ | ⟨e1, _⟩
  swap; · rw [e1]; rfl
  rcases loadAt_cases (n := n) (dbg := dbg) h2 with ⟨⟨x, e2⟩, k2⟩ | ⟨e2, _⟩
  swap; · rw [e1, e2]; rfl
  rcases loadAt_cases (n := n) (dbg := dbg) h3 with ⟨⟨t, e3⟩, k3⟩ | ⟨e3, _⟩
  swap; · rw [e1, e2, e3]; rfl
  rcases loadAt_cases (n := n) (dbg := dbg) h4 with ⟨⟨r, e4⟩, k4⟩ | ⟨e4, _⟩
  swap; · rw [e1, e2, e3, e4]; rfl
  rcases loadAt_cases (n := n) (dbg := dbg) h5 with ⟨⟨v, e5⟩, k5⟩ | ⟨e5, _⟩
  swap; · rw [e1, e2, e3, e4, e5]; rfl
  obtain ⟨w, e6⟩ := hk s x t r v
  rw [e1, e2, e3, e4, e5]
  simp only [R_ok_bind, e6]
  unfold storeAt
  rw [if_pos ho, if_neg (fun hc => h ⟨⟨k1, k2, k3, k4, k5⟩, hc⟩)]

/-! ### The binomial lattice -/

/-- Value of node `k` after `m` steps back from the leaves `v`. -/
def level {β : Type} (f : β → β → β) (v : Nat → β) : Nat → Nat → β
  | 0, k => v k
  | m + 1, k => f (level f v m k) (level f v m (k + 1))

theorem inner_ok {β : Type} {N : Nat} (f : β → β → β) (body : Vector β N → Nat → R (Vector β N))
    (hb : ∀ vs k, body vs k = (do let a ← aget vs k; let b ← aget vs (k + 1); aset vs k (f a b)))
    (v : Nat → β) (m j : Nat) (vs : Vector β N) (hj : j < N) (h : ∀ k (hk : k < N), k ≤ j → vs[k] = level f v m k) :
    ∃ out, forRange 0 j body vs = .ok out ∧ (∀ k (hk : k < N), k < j → out[k] = level f v (m + 1) k) ∧ ∀ k (hk : k < N), j ≤ k → out[k] = vs[k] := by
  obtain ⟨out, h1, h2, h3⟩ := forRange_inv (fun i (out : Vector β N) => (∀ k (hk : k < N), k < i → out[k] = level f v (m + 1) k) ∧
      ∀ k (hk : k < N), i ≤ k → out[k] = vs[k]) body (Nat.zero_le j) (init := vs) ⟨fun k _ h => absurd h (by omega), fun _ _ _ => rfl⟩ (by
    rintro i out _ hi ⟨hp, hq⟩
    refine ⟨out.set i (f out[i] out[i + 1]), ?_, fun k hk hki => ?_, fun k hk hki => ?_⟩
    · rw [hb, aget_lt _ (show i < N by omega), aget_lt _ (show i + 1 < N by omega)]
      simp only [R_ok_bind]
      rw [aset_lt]
    · rw [Vector.getElem_set]
      by_cases hki' : i = k
      · subst hki'
        rw [if_pos rfl, hq i hk (Nat.le_refl _), hq (i + 1) (by omega) (by omega), h i hk (by omega), h (i + 1) (by omega) (by omega)]
        rfl
      · rw [if_neg hki']
        exact hp k hk (by omega)
    · rw [Vector.getElem_set, if_neg (by omega)]
      exact hq k hk (by omega))
  exact ⟨out, h1, h2, h3⟩

theorem outer_ok {β : Type} {N : Nat} (f : β → β → β) (body : Vector β N → Nat → R (Vector β N))
    (hb : ∀ vs k, body vs k = (do let a ← aget vs k; let b ← aget vs (k + 1); aset vs k (f a b))) (v : Nat → β) (hN : 0 < N) :
    ∀ (j m : Nat) (vs : Vector β N), j + 1 ≤ N → (∀ k (hk : k < N), k ≤ j → vs[k] = level f v m k) →
    ∃ out, (List.range (j + 1)).reverse.foldlM (fun vs j => forRange 0 j body vs) vs = .ok out ∧ out[0] = level f v (m + j) 0
  | 0, m, vs, _, h => ⟨vs, rfl, h 0 hN (Nat.le_refl _)⟩
  | j + 1, m, vs, hj, h => by
    obtain ⟨r, h1, h2, _⟩ := inner_ok f body hb v m (j + 1) vs (by omega) h
    obtain ⟨out, h4, h5⟩ := outer_ok f body hb v hN j (m + 1) r (by omega) (fun k hk hkj => h2 k hk (by omega))
    refine ⟨out, ?_, by rw [h5, show m + 1 + j = m + (j + 1) by omega]⟩
    rw [List.range_succ, List.reverse_append, List.reverse_singleton, List.singleton_append, List.foldlM_cons, h1]
    exact h4

theorem lattice_ok {β : Type} {N : Nat} (hN : 0 < N) (f : β → β → β) (body : Vector β N → Nat → R (Vector β N))
    (hb : ∀ vs k, body vs k = (do let a ← aget vs k; let b ← aget vs (k + 1); aset vs k (f a b))) (v : Nat → β) :
    (do let vs ← (List.range N).reverse.foldlM (fun vs j => forRange 0 j body vs) (Vector.ofFn fun k : Fin N => v k.val)
        aget vs 0) = Except.ok (ε := Fault) (level f v (N - 1) 0) := by
  obtain ⟨j, rfl⟩ : ∃ j, N = j + 1 := ⟨N - 1, by omega⟩
  obtain ⟨out, h1, h2⟩ := outer_ok f body hb v hN j 0 (Vector.ofFn fun k : Fin (j + 1) => v k.val) (Nat.le_refl _) (fun k hk _ => by
    simp [level])
  rw [h1]
  simp only [R_ok_bind]
  rw [aget_lt _ hN, h2]
  simp

theorem level_congr {β : Type} (f f' : β → β → β) (v v' : Nat → β) (hf : ∀ a b, f a b = f' a b) (hv : ∀ k, v k = v' k) :
    ∀ m k, level f v m k = level f' v' m k
  | 0, k => hv k
  | m + 1, k => by rw [level, level, level_congr f f' v v' hf hv m k, level_congr f f' v v' hf hv m (k + 1), hf]

theorem level_lane (f : Vec α n → Vec α n → Vec α n) (g : α → α → α) (v : Nat → Vec α n) (v' : Nat → α) (l : Nat) (hl : l < n)
    (hf : ∀ a b : Vec α n, (f a b)[l] = g a[l] b[l]) (hv : ∀ k, (v k)[l] = v' k) : ∀ m k, (level f v m k)[l] = level g v' m k
  | 0, k => hv k
  | m + 1, k => by rw [level, level, hf, level_lane f g v v' l hl hf hv m k, level_lane f g v v' l hl hf hv m (k + 1)]

section kernels
variable [Add α] [Sub α] [Mul α] [Div α] (F : Fns α)

theorem vneg_get (v : Vec α n) (i : Nat) (h : i < n) : (vneg F v)[i] = F.lit (-1) * v[i] := by
  rw [vneg, vmul_get, splat_get]

theorem cnd_lane [Neg α] (hneg : ∀ x y : α, F.lit (-1) * x * y = -x * y) (x : Vec α n) (i : Nat) (h : i < n) :
    (cndSimd F x)[i] = cndScalar F x[i] := by
  simp only [cndSimd, cndScalar, Vector.getElem_ofFn, Fin.getElem_fin, Vector.getElem_zipWith, vadd_get, vsub_get, vmul_get, vdiv_get, splat_get,
    Vector.getElem_map, vneg_get, hneg]

theorem blackScholes_lane [Neg α] (hneg : ∀ x y : α, F.lit (-1) * x * y = -x * y) (s x t r v : Vec α n) :
    ∃ w, blackScholesSimd F s x t r v = .ok w ∧ ∀ i (h : i < n), blackScholesScalar F s[i] x[i] t[i] r[i] v[i] = .ok w[i] := by
  refine ⟨_, rfl, fun i h => ?_⟩
  unfold blackScholesScalar
  simp only [vadd_get, vsub_get, vmul_get, vdiv_get, splat_get, Vector.getElem_map, vneg_get, hneg, cnd_lane F hneg]

/-- The price computed by `binomial_put`, with the discounting `f pu disc` of one step. -/
def binomialValue (f : α → α → α → α → α) (N : Nat) (s x t r v : α) : α :=
  let dt := t / F.lit N
  let u := F.exp (v * F.sqrt dt)
  let d := F.lit 1 / u
  let disc := F.exp (r * dt)
  let pu := (disc - d) / (u - d)
  level (f pu disc) (fun j => F.max (F.lit 0) (x - s * F.powf u (F.lit ((2 * (j : Int) - N : Int) : Rat)))) (N - 1) 0

theorem binomialScalar_ok {N : Nat} (hN : 0 < N) (s x t r v : α) : binomialScalar F N s x t r v =
    .ok (binomialValue F (fun pu disc a b => ((F.lit 1 - pu) * a + pu * b) / disc) N s x t r v) := by
  unfold binomialScalar binomialValue
  exact lattice_ok hN _ _ (fun vs k => rfl) (fun j => F.max (F.lit 0) (x - s * F.powf _ (F.lit ((2 * (j : Int) - N : Int) : Rat))))

theorem binomialSimd_lane {N : Nat} (hN : 0 < N) (s x t r v : Vec α n) :
    ∃ w, binomialSimd F N s x t r v = .ok w ∧ ∀ i (h : i < n),
      w[i] = binomialValue F (fun pu disc a b => ((F.lit 1 - pu) * a + pu * b) * (F.lit 1 / disc)) N s[i] x[i] t[i] r[i] v[i] := by
  unfold binomialSimd
  refine ⟨_, lattice_ok hN _ _ (fun vs k => rfl) (fun j => Vector.zipWith F.max (splat n (F.lit 0)) (x - s * Vector.zipWith F.powf _ (splat n
      (F.lit ((2 * (j : Int) - N : Int) : Rat))))), fun i h => ?_⟩
  unfold binomialValue
  refine level_lane _ _ _ _ i h (fun a b => ?_) (fun k => ?_) _ _ <;>
  simp only [vadd_get, vsub_get, vmul_get, vdiv_get, splat_get, Vector.getElem_map, Vector.getElem_zipWith]

end kernels

end PackedSimd.Ex.Options
