import Verif.Lemmas.FannkuchRun
/-
Lemmas for C79, C80: `Perm::get`, `next`, `work` and `fannkuch_redux` of scalar.rs.
-/
namespace PackedSimd.Ex.Fannkuch
open Nat PackedSimd Options

theorem rotN_get {α : Type} {m j x : Nat} {p : List α} (h : m + 1 ≤ p.length) (hx : x < m + 1) : (rotN m j p)[x]? = p[(x + j) % (m + 1)]? := by
  have hl : (p.take (m + 1)).length = m + 1 := by rw [List.length_take]; omega
  unfold rotN
  rw [List.getElem?_append_left (by rw [List.length_rotate, hl]; omega), List.getElem?_rotate (by rw [hl]; omega), hl, List.getElem?_take,
    if_pos (Nat.mod_lt _ (by omega))]

theorem rotN_get_ge {α : Type} {m j x : Nat} {p : List α} (h : m + 1 ≤ p.length) (hx : ¬ x < m + 1) : (rotN m j p)[x]? = p[x]? := by
  have e := congrArg (fun l => l[x - (m + 1)]?) (drop_rotN j h)
  simp only [List.getElem?_drop] at e
  rwa [show m + 1 + (x - (m + 1)) = x by omega] at e

theorem getRow_ok {t : Target} (ht : t.Supported) {dbg : Bool} {i d : Nat} (hi : i + 1 ≤ 16) (hd : d ≤ i) {q : List Nat} (hq : q.length = 16) (hb : ∀ x ∈ q, x < 256)
    (pp : List Nat) :
    getRow t dbg i d (((enc q).take (i + 1)).map (fun v => (v % 256).toNat) ++ pp) (enc q) = .ok (enc (rotN i d q)) := by
  have hpp : ((enc q).take (i + 1)).map (fun v => (v % 256).toNat) = q.take (i + 1) := by
    unfold enc
    rw [← List.map_take, List.map_map]
    conv_rhs => rw [← List.map_id (q.take (i + 1))]
    apply List.map_congr_left
    intro x hx
    have := hb x (List.mem_of_mem_take hx)
    simp only [Function.comp, id]
    omega
  have hlen : (enc q).length = 16 := by rw [enc, List.length_map]; exact hq
  have hmod : ∀ j, j < i + 1 → (if j + d ≤ i then j + d else j + d - i - 1) = (j + d) % (i + 1) := by
    intro j hj
    split
    · rw [Nat.mod_eq_of_lt (by omega)]
    · rw [show j + d = (j + d - i - 1) + (i + 1) by omega, Nat.add_mod_right, Nat.mod_eq_of_lt (by omega)]
      omega
  rw [hpp]
  unfold getRow
  obtain ⟨r, e, hr1, hr2⟩ := forRange_inv (fun j (r : List Int) => r.length = 16 ∧ ∀ x, r[x]? = if x < j then (enc q)[(x + d) % (i + 1)]? else (enc q)[x]?)
    (fun perm j => do
      let k ← usize t dbg (j + d)
      let v ← if k ≤ i then lget (q.take (i + 1) ++ pp) k else lget (q.take (i + 1) ++ pp) (k - i - 1)
      lset perm j (v : Int)) (lo := 0) (hi := i + 1) (init := enc q) (Nat.zero_le _) ⟨hlen, fun x => by rw [if_neg (by omega)]⟩ (by
    intro j s _ hj ⟨h1, h2⟩
    have hus : j + d < 2 ^ (8 * t.ptrBytes) := by rcases ht with h | h <;> rw [h] <;> omega
    have hm : (j + d) % (i + 1) < i + 1 := Nat.mod_lt _ (by omega)
    have hlt : (j + d) % (i + 1) < (q.take (i + 1) ++ pp).length := by rw [List.length_append, List.length_take]; omega
    have e1 : (if j + d ≤ i then lget (q.take (i + 1) ++ pp) (j + d) else lget (q.take (i + 1) ++ pp) (j + d - i - 1)) =
        .ok (q[(j + d) % (i + 1)]'(by omega)) := by
      rw [← apply_ite (lget (q.take (i + 1) ++ pp)), hmod j hj, lget_lt _ hlt]
      congr 1
      rw [List.getElem_append_left (by rw [List.length_take]; omega), List.getElem_take]
    refine ⟨s.set j ((q[(j + d) % (i + 1)]'(by omega) : Nat) : Int), ?_, by rw [List.length_set]; exact h1, fun x => ?_⟩
    · rw [usize_ok hus, R_ok_bind]
      dsimp only
      by_cases hle : j + d ≤ i
      · rw [if_pos hle] at e1 ⊢
        rw [e1, R_ok_bind, lset_lt _ _ (by omega)]
      · rw [if_neg hle] at e1 ⊢
        rw [e1, R_ok_bind, lset_lt _ _ (by omega)]
    rw [List.getElem?_set]
    by_cases hx : j = x
    · subst hx
      rw [if_pos rfl, if_pos (by omega), if_pos (by omega), enc, List.getElem?_map, List.getElem?_eq_getElem (by omega)]
      rfl
    · rw [if_neg hx, h2 x]
      by_cases hx' : x < j
      · rw [if_pos hx', if_pos (by omega)]
      · rw [if_neg hx', if_neg (by omega)])
  rw [e]
  congr 1
  apply List.ext_getElem?
  intro x
  rw [hr2 x, show enc (rotN i d q) = rotN i d (enc q) from (rotN_map _ _ _ _).symm]
  by_cases hx : x < i + 1
  · rw [if_pos hx, rotN_get (by omega) hx]
  · rw [if_neg hx, rotN_get_ge (by omega) hx]

/-- The factorials a generator holds. -/
def Facts (n : Nat) (fact : List Nat) : Prop := fact.length = 16 ∧ ∀ i, i ≤ n → fact[i]? = some i !

theorem Facts.get {n : Nat} {fact : List Nat} (h : Facts n fact) {i : Nat} (hi : i ≤ n) : lget fact i = .ok i ! := by
  obtain ⟨hl, e⟩ := List.getElem?_eq_some_iff.1 (h.2 i hi)
  rw [lget_lt _ hl, e]

theorem fact_small {i : Nat} (hi : i ≤ 12) : i ! < 2 ^ 31 :=
  Nat.lt_of_le_of_lt (Nat.factorial_le hi) (by decide)

theorem getStep_ok {t : Target} (ht : t.Supported) {dbg : Bool} {n i k : Nat} (hn : n ≤ 12) (hi : i < n) (hk : k < (i + 1)!) {fact : List Nat} (hf : Facts n fact)
    {cnt : List Int} (hc : cnt.length = 16) {q : List Nat} (hq : q.length = 16) (hb : ∀ x ∈ q, x < 256) (pp : List Nat) :
    ∃ pp', getStep t dbg fact ((k : Int), cnt, enc q, pp) i = .ok (((k % i ! : Nat) : Int), cnt.set i ((k / i ! : Nat) : Int), enc (rotN i (k / i !) q), pp') := by
  have hpos := Nat.factorial_pos i
  have hsm := fact_small (show i ≤ 12 by omega)
  have hd : k / i ! ≤ i := by
    rw [Nat.factorial_succ] at hk
    have := Nat.div_lt_of_lt_mul (show k < i ! * (i + 1) by rw [Nat.mul_comm]; exact hk)
    omega
  refine ⟨((enc q).take (i + 1)).map (fun v => (v % 256).toNat) ++ pp.drop (i + 1), ?_⟩
  unfold getStep
  dsimp only
  rw [hf.get (by omega), R_ok_bind, asI32_small hsm]
  have hdr : divRem (k : Int) (i ! : Nat) = .ok (((k / i ! : Nat) : Int), ((k % i ! : Nat) : Int)) := by
    unfold divRem
    rw [if_neg (by omega)]
    rfl
  rw [hdr, R_ok_bind]
  dsimp only
  rw [lset_lt _ _ (by omega), R_ok_bind, if_pos (by rw [enc, List.length_map]; omega), asUsize_nat, getRow_ok ht (by omega) hd hq hb, R_ok_bind]
  rfl

theorem get_fold {t : Target} (ht : t.Supported) {dbg : Bool} {n : Nat} (hn : n ≤ 12) {fact : List Nat} (hf : Facts n fact) : ∀ (m k : Nat) (cnt : List Int) (c : Nat → Nat)
    (q pp : List Nat), m < n → k < (m + 1)! → Cnt cnt c → c 0 = 0 → q.length = 16 → (∀ x ∈ q, x < 256) →
    ∃ k' cnt' pp', ((List.range' 1 m).reverse).foldlM (getStep t dbg fact) ((k : Int), cnt, enc q, pp) = .ok (k', cnt', enc (nthPerm (m + 1) k q), pp') ∧
      Cnt cnt' (digits (m + 1) k c) := by
  intro m
  induction m with
  | zero =>
    intro k cnt c q pp _ hk hc h0 _ _
    have : k = 0 := by simpa using hk
    subst this
    exact ⟨_, cnt, pp, by rw [nthPerm_zero]; rfl, by rw [digits_zero 1 c (fun j hj => by rw [show j = 0 by omega]; exact h0)]; exact hc⟩
  | succ m ih =>
    intro k cnt c q pp hm hk hc h0 hq hb
    obtain ⟨pp', e⟩ := getStep_ok ht (dbg := dbg) hn hm hk hf hc.1 hq hb pp
    obtain ⟨k', cnt', pp'', e', hc'⟩ := ih (k % (m + 1)!) _ _ (rotN (m + 1) (k / (m + 1)!) q) pp' (by omega) (Nat.mod_lt _ (Nat.factorial_pos _))
      (hc.set (i := m + 1) (by omega) (k / (m + 1)!)) (by rw [Function.update_of_ne (by omega)]; exact h0) (by rw [length_rotN]; exact hq)
      (fun x hx => hb x ((rotN_perm _ _ _).mem_iff.1 hx))
    refine ⟨k', cnt', pp'', ?_, hc'⟩
    rw [List.range'_concat, List.reverse_append, List.reverse_singleton, List.singleton_append, List.foldlM_cons, show 1 + 1 * m = m + 1 by omega, e, R_ok_bind, e']
    rfl

/-- A generator for `n` cards. -/
structure Gen (n : Nat) (P : Perm) : Prop where
  n_eq : P.n = n
  facts : Facts n P.fact
  len : P.perm.length = 16

theorem new_ok {dbg : Bool} {n : Nat} (hn : n ≤ 12) : ∃ P, Perm.new dbg n = .ok P ∧ Gen n P ∧ P.cnt = List.replicate 16 0 := by
  unfold Perm.new
  obtain ⟨f, e, h1, h2⟩ := forRange_inv (fun i (f : List Nat) => f.length = 16 ∧ ∀ j, j < i → f[j]? = some j !)
    (fun fact i => do
      let f ← lget fact (i - 1)
      lset fact i (← u32 dbg (f * i))) (lo := 1) (hi := n + 1) (init := List.replicate 16 1) (by omega)
    ⟨by rw [List.length_replicate], fun j hj => by rw [show j = 0 by omega]; rfl⟩ (by
    intro i s h1 hi ⟨hl, hs⟩
    obtain ⟨hx, e⟩ := List.getElem?_eq_some_iff.1 (hs (i - 1) (by omega))
    have hf : (i - 1)! * i = i ! := by rw [Nat.mul_comm]; exact Nat.mul_factorial_pred (by omega)
    refine ⟨s.set i (i !), ?_, by rw [List.length_set]; exact hl, fun j hj => ?_⟩
    · have := fact_small (show i ≤ 12 by omega)
      rw [lget_lt _ hx, R_ok_bind, e, hf, u32_ok (by omega), R_ok_bind, lset_lt _ _ (by omega)]
    · rw [List.getElem?_set]
      by_cases hij : i = j
      · subst hij
        rw [if_pos rfl, if_pos (by omega)]
      · rw [if_neg hij]
        exact hs j (by omega))
  rw [e, R_ok_bind]
  exact ⟨_, rfl, ⟨rfl, ⟨h1, fun i hi => h2 i (by omega)⟩, by rw [List.length_replicate]⟩, rfl⟩

theorem cnt_zero : Cnt (List.replicate 16 0) (fun _ => 0) := ⟨by rw [List.length_replicate], fun j hj => by rw [List.getElem?_replicate, if_pos hj]; try rfl⟩

theorem base_eq {P : Perm} (h : P.perm.length = 16) : ((List.range P.perm.length).map fun (i : Nat) => (i : Int) + 1) = enc (cards 16) := by
  rw [h]
  rfl

theorem nth_base {n : Nat} (hn : n ≤ 16) (k : Nat) : ∃ b, nthPerm n k (cards 16) = nthPerm n k (cards n) ++ b := by
  refine ⟨List.range' (1 + n) (16 - n), ?_⟩
  rw [show cards 16 = cards n ++ List.range' (1 + n) (16 - n) from by unfold cards; rw [List.range'_append_1, show n + (16 - n) = 16 by omega],
    nthPerm_append k (Nat.le_of_eq (length_cards n).symm)]

/-- `get(k)` puts the generator at permutation `k`. -/
theorem get_ok {t : Target} (ht : t.Supported) {dbg : Bool} {n k : Nat} (h1 : 1 ≤ n) (hn : n ≤ 12) {P : Perm} (hP : Gen n P) (hc : P.cnt = List.replicate 16 0) (hk : k < n !) :
    ∃ P', P.get t dbg (asI32 k) = .ok P' ∧ Gen n P' ∧ P'.permcount = k ∧ P'.perm = enc (nthPerm n k (cards 16)) ∧ Cnt P'.cnt (digits n k fun _ => 0) := by
  have hsm := fact_small hn
  obtain ⟨m, rfl⟩ : ∃ m, n = m + 1 := ⟨n - 1, by omega⟩
  unfold Perm.get
  rw [base_eq hP.len, asI32_small (by omega), hc, hP.n_eq, Nat.add_sub_cancel]
  dsimp only
  obtain ⟨k', cnt', pp', e, h⟩ := get_fold ht (dbg := dbg) hn hP.facts m k _ _ (cards 16) (List.replicate 16 0) (by omega) hk cnt_zero rfl (length_cards 16)
    (fun x hx => by have := mem_cards.1 hx; omega)
  rw [e, R_ok_bind]
  refine ⟨_, rfl, ⟨rfl, hP.facts, ?_⟩, ?_, rfl, h⟩
  · show (enc _).length = 16
    rw [enc, List.length_map, length_nthPerm, length_cards]
  · show ((k : Int) % 2 ^ 32).toNat = k
    omega

/-- The generator is at permutation `k`, if there is one. -/
structure At (n k : Nat) (P : Perm) : Prop where
  len : P.perm.length = 16
  count : P.permcount = k
  perm_eq : k < n ! → P.perm = enc (nthPerm n k (cards 16))
  cnt_eq : k < n ! → Cnt P.cnt (digits n k fun _ => 0)

/-- `next` moves on to the next permutation. -/
theorem next_ok {dbg : Bool} {n k : Nat} (h1 : 1 ≤ n) (hn : n ≤ 15) {P : Perm} (hP : At n k P) (hk : k < n !) (hk' : k + 1 < 2 ^ 32) :
    ∃ P', P.next dbg = .ok P' ∧ At n (k + 1) P' := by
  have hadv : ∃ q c', advance 1 15 (enc (nthPerm n k (cards 16)), digits n k fun _ => 0) = some (q, c') ∧ q.length = 16 ∧
      (k + 1 < n ! → q = enc (nthPerm n (k + 1) (cards 16)) ∧ c' = digits n (k + 1) fun _ => 0) := by
    have e := advance_block (n := 16) n h1 (by omega) (enc (cards 16)) (fun _ => 0) (by rw [enc, List.length_map, length_cards]; omega) (fun _ _ => rfl) k hk
    rw [show enc (nthPerm n k (cards 16)) = nthPerm n k (enc (cards 16)) from (nthPerm_map _ _ _ _).symm,
      show enc (nthPerm n (k + 1) (cards 16)) = nthPerm n (k + 1) (enc (cards 16)) from (nthPerm_map _ _ _ _).symm, e]
    by_cases hk' : k + 1 < (n !)
    · exact ⟨_, _, if_pos hk', by rw [length_nthPerm, enc, List.length_map, length_cards], fun _ => ⟨rfl, rfl⟩⟩
    · refine ⟨rotN n 1 (enc (cards 16)), Function.update (fun _ => 0) n 1, ?_, by rw [length_rotN, enc, List.length_map, length_cards], fun h => absurd h hk'⟩
      rw [if_neg hk', show 16 - n = (15 - n) + 1 by omega, advance, if_neg (by omega)]
  obtain ⟨q, c', e, hq, hn'⟩ := hadv
  obtain ⟨cnt', e', hc'⟩ := nextLoop_ok (dbg := dbg) 15 1 _ P.cnt _ q c' (by omega) (by rw [enc, List.length_map, length_nthPerm, length_cards]) (hP.cnt_eq hk) e
  unfold Perm.next nextPermutation
  rw [hP.len]
  have e'' := hP.perm_eq hk
  rw [e'', e', R_ok_bind]
  dsimp only
  rw [hP.count, u32_ok (by omega), R_ok_bind]
  exact ⟨_, rfl, ⟨hq, rfl, fun h => (hn' h).1, fun h => by rw [← (hn' h).2]; exact hc'⟩⟩

/-- `m` is the largest of the numbers `F j`, `lo ≤ j < hi` (or 0 if there are none). -/
def MaxOver (F : Nat → Nat) (lo hi m : Nat) : Prop := (∀ j, lo ≤ j → j < hi → F j ≤ m) ∧ (m = 0 ∨ ∃ j, lo ≤ j ∧ j < hi ∧ F j = m)

theorem MaxOver.succ {F : Nat → Nat} {lo hi m : Nat} (h : MaxOver F lo hi m) (hle : lo ≤ hi) : MaxOver F lo (hi + 1) (Max.max m (F hi)) := by
  refine ⟨fun j h1 h2 => ?_, ?_⟩
  · by_cases hj : j = hi
    · subst hj; omega
    · have := h.1 j h1 (by omega); omega
  · by_cases hm : m ≤ F hi
    · exact .inr ⟨hi, hle, by omega, by omega⟩
    · rcases h.2 with h0 | ⟨j, h1, h2, h3⟩
      · omega
      · exact .inr ⟨j, h1, by omega, by omega⟩

theorem MaxOver.join {F : Nat → Nat} {a b c m m' : Nat} (h : MaxOver F a b m) (h' : MaxOver F b c m') (hab : a ≤ b) (hbc : b ≤ c) : MaxOver F a c (Max.max m m') := by
  refine ⟨fun j h1 h2 => ?_, ?_⟩
  · by_cases hj : j < b
    · have := h.1 j h1 hj; omega
    · have := h'.1 j (by omega) h2; omega
  · by_cases hm : m ≤ m'
    · rcases h'.2 with h0 | ⟨j, h1, h2, h3⟩
      · exact .inl (by omega)
      · exact .inr ⟨j, by omega, h2, by omega⟩
    · rcases h.2 with h0 | ⟨j, h1, h2, h3⟩
      · omega
      · exact .inr ⟨j, h1, by omega, by omega⟩

/-- The numbers of flips of all permutations. -/
structure Counts (n : Nat) (F : Nat → Nat) : Prop where
  flips : ∀ j, j < n ! → Flips (nthPerm n j (cards n)) (F j)
  bound : ∀ j, j < n ! → F j < 2 ^ (n - 1)

/-- `work` on the permutations `lo .. hi`, given that `get` finds the first one. -/
theorem work_from {t : Target} {dbg : Bool} {n lo hi : Nat} (h1 : 1 ≤ n) (hn : n ≤ 15) {P P0 : Perm} (e0 : P.get t dbg (asI32 lo) = .ok P0) (h0 : At n lo P0)
    {F : Nat → Nat} (hF : Counts n F) (hlo : lo < hi) (hhi : hi ≤ n !) (hhi' : hi < 2 ^ 31) (hS : dbg = false ∨ ∀ a b, b ≤ n ! → Fits (S F a b)) {fuel : Nat} (hfu : hi ≤ fuel)
    (hfu' : 2 ^ (n - 1) ≤ fuel) :
    ∃ mf : Nat, work t dbg fuel P lo hi = .ok ((S F lo hi).bmod (2 ^ 32), (mf : Int)) ∧ MaxOver F lo hi mf := by
  have hpw : 2 ^ (n - 1) ≤ 2 ^ 14 := Nat.pow_le_pow_right (by omega) (by omega)
  unfold work
  rw [e0, lift_ok, D_ok_bind]
  obtain ⟨m', s', e, ⟨k, mf, hk1, hk2, hm, hAt, hcs, hmf, hmax⟩, hcond, _⟩ := whileN_rule (cond := fun (s : Perm × Int × Int) => (pure (decide (s.1.permcount < hi % 2 ^ 32)) : R Bool)) (body := workStep t dbg fuel)
    (fun m s => ∃ k mf, lo ≤ k ∧ k ≤ hi ∧ m = hi - k ∧ At n k s.1 ∧ s.2.1 = (S F lo k).bmod (2 ^ 32) ∧ s.2.2 = ((mf : Nat) : Int) ∧ MaxOver F lo k mf)
    (fun m s _ => ⟨_, rfl⟩) (by
      rintro m ⟨P, cs, mfi⟩ ⟨k, mf, hk1, hk2, hm, hAt, hcs, hmf, hmax⟩ hcond
      simp only at hAt hcs hmf
      have hcond : P.permcount < hi % 2 ^ 32 := by
        have := Except.ok.inj hcond
        exact of_decide_eq_true this
      rw [hAt.count, Nat.mod_eq_of_lt (by omega)] at hcond
      have hkn : k < n ! := by omega
      obtain ⟨b, hb⟩ := nth_base (show n ≤ 16 by omega) k
      have hFk := hF.bound k hkn
      obtain ⟨q, eq⟩ := flipLoop_ok (t := t) (dbg := dbg) (enc b) (hF.flips k hkn) (nthPerm_perm n k (cards n)) (fuel := fuel) (by omega) (by omega)
      obtain ⟨P', eP, hP'⟩ := next_ok (dbg := dbg) h1 hn hAt hkn (by omega)
      refine ⟨hi - (k + 1), (P', (S F lo (k + 1)).bmod (2 ^ 32), ((Max.max mf (F k) : Nat) : Int)), by omega, ?_,
        ⟨k + 1, Max.max mf (F k), by omega, by omega, rfl, hP', rfl, rfl, hmax.succ hk1⟩⟩
      unfold workStep
      dsimp only
      have hp := hAt.perm_eq hkn
      rw [hb] at hp
      rw [hp, show enc (nthPerm n k (cards n) ++ b) = enc (nthPerm n k (cards n)) ++ enc b from List.map_append, eq, D_ok_bind]
      dsimp only
      have rest : (do
          let checksum ← lift (i32 dbg (cs + (-1) ^ k * (F k : Int)))
          let P ← lift (Perm.next dbg P)
          pure (P, checksum, Max.max mfi (F k : Int)) : D (Perm × Int × Int)) = .ok (P', (S F lo (k + 1)).bmod (2 ^ 32), ((Max.max mf (F k) : Nat) : Int)) := by
        rw [hcs, i32_acc (by
          rcases hS with h | h
          · exact .inl h
          · exact .inr ⟨h lo k (by omega), by rw [← S_succ F hk1]; exact h lo (k + 1) (by omega)⟩), lift_ok, D_ok_bind, eP, lift_ok, D_ok_bind, ← S_succ F hk1, hmf]
        show Except.ok _ = Except.ok _
        congr 3
        omega
      rw [hAt.count]
      by_cases h2 : k % 2 = 0
      · rw [sign_even h2] at rest
        rw [if_pos h2]
        exact rest
      · rw [sign_odd h2] at rest
        rw [if_neg h2, i32_ok ⟨by omega, by omega⟩, lift_ok]
        exact rest) fuel (hi - lo) (P0, 0, 0)
      ⟨lo, 0, by omega, by omega, rfl, h0, by rw [S_self]; rfl, rfl, fun j _ _ => by omega, .inl rfl⟩ (by omega)
  have hcond : ¬ s'.1.permcount < hi % 2 ^ 32 := of_decide_eq_false (Except.ok.inj hcond)
  rw [hAt.count, Nat.mod_eq_of_lt (by omega)] at hcond
  have : k = hi := by omega
  subst this
  rw [e, D_ok_bind]
  exact ⟨mf, by rw [← hcs, ← hmf]; rfl, hmax⟩

@[inherit_doc work_from] theorem work_ok {t : Target} (ht : t.Supported) {dbg : Bool} {n lo hi : Nat} (h1 : 1 ≤ n) (hn : n ≤ 12) {P : Perm} (hP : Gen n P) (hc : P.cnt = List.replicate 16 0)
    {F : Nat → Nat} (hF : Counts n F) (hlo : lo < hi) (hhi : hi ≤ n !) (hS : dbg = false ∨ ∀ a b, b ≤ n ! → Fits (S F a b)) {fuel : Nat} (hfu : n ! ≤ fuel) (hfu' : 2 ^ (n - 1) ≤ fuel) :
    ∃ mf : Nat, work t dbg fuel P lo hi = .ok ((S F lo hi).bmod (2 ^ 32), (mf : Int)) ∧ MaxOver F lo hi mf := by
  have hsm := fact_small hn
  obtain ⟨P0, e0, g0, c0, p0, d0⟩ := get_ok ht (dbg := dbg) h1 hn hP hc (show lo < (n !) by omega)
  exact work_from h1 (by omega) e0 ⟨g0.len, c0, fun _ => p0, fun _ => d0⟩ hF hlo hhi (by omega) hS (by omega) hfu'

/-- `get(0)` needs no factorials, only that none of the numbers in their place is zero as an `i32`. -/
theorem get_zero {t : Target} (ht : t.Supported) {dbg : Bool} {fact : List Nat} : ∀ (m : Nat) (pp : List Nat), m < 16 → (∀ i, 1 ≤ i → i ≤ m → ∃ f, lget fact i = .ok f ∧ asI32 f ≠ 0) →
    ∃ pp', ((List.range' 1 m).reverse).foldlM (getStep t dbg fact) ((0 : Int), List.replicate 16 0, enc (cards 16), pp) = .ok ((0 : Int), List.replicate 16 0, enc (cards 16), pp') := by
  intro m
  induction m with
  | zero => intro pp _ _; exact ⟨pp, rfl⟩
  | succ m ih =>
    intro pp hm hf
    obtain ⟨f, e1, e2⟩ := hf (m + 1) (by omega) (by omega)
    have hrow := getRow_ok ht (dbg := dbg) (i := m + 1) (d := 0) (q := cards 16) (by omega) (by omega) (length_cards 16) (fun x hx => by have := mem_cards.1 hx; omega) (pp.drop (m + 1 + 1))
    rw [rotN_zero] at hrow
    have hstep : getStep t dbg fact ((0 : Int), List.replicate 16 0, enc (cards 16), pp) (m + 1) =
        .ok ((0 : Int), List.replicate 16 0, enc (cards 16), ((enc (cards 16)).take (m + 1 + 1)).map (fun v => (v % 256).toNat) ++ pp.drop (m + 1 + 1)) := by
      unfold getStep
      dsimp only
      have hdr : divRem 0 (asI32 f) = .ok (0, 0) := by
        unfold divRem
        rw [if_neg (by omega), Int.zero_tdiv, Int.zero_tmod]
      rw [e1, R_ok_bind, hdr, R_ok_bind]
      dsimp only
      rw [lset_lt _ _ (by rw [List.length_replicate]; omega), R_ok_bind, if_pos (by rw [enc, List.length_map, length_cards]; omega), show asUsize t 0 = 0 from asUsize_nat 0, hrow, R_ok_bind,
        List.set_replicate_self]
      rfl
    obtain ⟨pp', e⟩ := ih (((enc (cards 16)).take (m + 1 + 1)).map (fun v => (v % 256).toNat) ++ pp.drop (m + 1 + 1)) (by omega) (fun i h1 h2 => hf i h1 (by omega))
    refine ⟨pp', ?_⟩
    rw [List.range'_concat, List.reverse_append, List.reverse_singleton, List.singleton_append, List.foldlM_cons, show 1 + 1 * m = m + 1 by omega, hstep, R_ok_bind, e]

/-- One thread, whatever the number of permutations it takes on. -/
theorem scalarRun_first {t : Target} (ht : t.Supported) {n max : Nat} {fact : List Nat} (h1 : 1 ≤ n) (hn : n ≤ 15)
    (hnew : Perm.new false n = .ok ⟨List.replicate 16 0, fact, n, 0, List.replicate 16 0⟩) (hmax : lget fact n = .ok max) (hf : ∀ i, 1 ≤ i → i < n → ∃ f, lget fact i = .ok f ∧ asI32 f ≠ 0)
    (hpos : 0 < max) (hle : max ≤ n !) (hlt : max < 2 ^ 31) {F : Nat → Nat} (hF : Counts n F) {fuel : Nat} (hfu : max ≤ fuel) (hfu' : 2 ^ (n - 1) ≤ fuel) :
    ∃ mf : Nat, scalarRun t false fuel 1 n = .ok ((S F 0 max).bmod (2 ^ 32), (mf : Int)) ∧ MaxOver F 0 max mf := by
  obtain ⟨pp', eg⟩ := get_zero ht (dbg := false) (fact := fact) (n - 1) (List.replicate 16 0) (by omega) (fun i a b => hf i a (by omega))
  have hget : Perm.get t false ⟨List.replicate 16 0, fact, n, 0, List.replicate 16 0⟩ (asI32 0) = .ok ⟨List.replicate 16 0, fact, n, 0, enc (cards 16)⟩ := by
    unfold Perm.get
    rw [base_eq (by rw [List.length_replicate])]
    dsimp only
    rw [show asI32 0 = 0 from rfl, eg, R_ok_bind]
    rfl
  obtain ⟨mf, e, hm⟩ := work_from (lo := 0) h1 hn hget ⟨by rw [enc, List.length_map, length_cards], rfl, fun _ => by rw [nthPerm_zero], fun _ => by
    rw [digits_zero _ _ (fun _ _ => rfl)]; exact cnt_zero⟩ hF hpos hle hlt (.inl rfl) hfu hfu'
  refine ⟨mf, ?_, hm⟩
  unfold scalarRun
  rw [hnew, lift_ok, D_ok_bind, Perm.max, hmax, lift_ok, D_ok_bind]
  dsimp only
  rw [Nat.div_one, if_neg (by omega), show List.range 1 = [0] from rfl, List.map_singleton, List.foldlM_cons, Nat.zero_mul, Nat.zero_add, u32_ok (by omega), lift_ok]
  simp only [D_ok_bind, Nat.min_self]
  rw [e]
  simp only [D_ok_bind]
  rw [Int.zero_add, i32_bmod (.inl rfl), Int.bmod_bmod, lift_ok]
  show Except.ok _ = Except.ok _
  congr 2

/-- `fannkuch_redux` with any number of threads that divides the number of permutations. -/
theorem scalarRun_ok {t : Target} (ht : t.Supported) {dbg : Bool} {n m : Nat} (h1 : 1 ≤ n) (hn : n ≤ 12) (hm : m ∣ n !)
    {F : Nat → Nat} (hF : Counts n F) (hS : dbg = false ∨ ∀ a b, b ≤ n ! → Fits (S F a b)) {fuel : Nat} (hfu : n ! ≤ fuel) (hfu' : 2 ^ (n - 1) ≤ fuel) :
    ∃ mf : Nat, scalarRun t dbg fuel m n = .ok ((S F 0 n !).bmod (2 ^ 32), (mf : Int)) ∧ MaxOver F 0 n ! mf := by
  have hsm := fact_small hn
  have hpos := Nat.factorial_pos n
  obtain ⟨P, e, hP, hc⟩ := new_ok (dbg := dbg) hn
  have hm0 : 0 < m := Nat.pos_of_dvd_of_pos hm hpos
  have hkm : n ! / m * m = n ! := Nat.div_mul_cancel hm
  have hk0 : n ! / m ≠ 0 := by
    intro h
    rw [h] at hkm
    omega
  have hq0 : 0 < n ! / m := Nat.pos_of_ne_zero hk0
  unfold scalarRun
  rw [e, lift_ok, D_ok_bind, Perm.max, hP.n_eq, hP.facts.get (Nat.le_refl n), lift_ok, D_ok_bind]
  dsimp only
  rw [if_neg hk0]
  have key : ∀ r, r ≤ m → ∃ mf : Nat, ((List.range r).map (· * (n ! / m))).foldlM (fun (acc : Int × Int) j => do
      let hi ← lift (u32 dbg (j + n ! / m))
      let (cs, mf) ← work t dbg fuel P j (min hi n !)
      return (← lift (i32 dbg (acc.1 + cs)), Max.max acc.2 mf)) ((0 : Int), (0 : Int)) = Except.ok (ε := Stop) ((S F 0 (r * (n ! / m))).bmod (2 ^ 32), (mf : Int)) ∧
      MaxOver F 0 (r * (n ! / m)) mf := by
    intro r
    induction r with
    | zero =>
      intro _
      refine ⟨0, ?_, fun j _ _ => by omega, .inl rfl⟩
      rw [Nat.zero_mul, S_self]
      rfl
    | succ r ih =>
      intro hr
      obtain ⟨mf, e1, hmax⟩ := ih (by omega)
      have hle : (r + 1) * (n ! / m) ≤ n ! := by
        conv_rhs => rw [← hkm, Nat.mul_comm]
        exact Nat.mul_le_mul_right _ hr
      have hs : (r + 1) * (n ! / m) = r * (n ! / m) + n ! / m := Nat.succ_mul _ _
      obtain ⟨mf', e2, hmax'⟩ := work_ok ht (dbg := dbg) h1 hn hP hc hF (lo := r * (n ! / m)) (hi := (r + 1) * (n ! / m)) (by rw [hs]; exact Nat.lt_add_of_pos_right hq0) hle hS hfu hfu'
      refine ⟨Max.max mf mf', ?_, hmax.join hmax' (Nat.zero_le _) (by rw [hs]; exact Nat.le_add_right _ _)⟩
      have hus : r * (n ! / m) + n ! / m < 2 ^ 32 := by omega
      rw [List.range_succ, List.map_append, List.foldlM_append, e1, D_ok_bind, List.map_singleton, List.foldlM_cons, u32_ok hus, lift_ok]
      simp only [D_ok_bind]
      rw [← hs, Nat.min_eq_left hle, e2]
      simp only [D_ok_bind]
      have hadd : i32 dbg ((S F 0 (r * (n ! / m))).bmod (2 ^ 32) + (S F (r * (n ! / m)) ((r + 1) * (n ! / m))).bmod (2 ^ 32)) = .ok ((S F 0 ((r + 1) * (n ! / m))).bmod (2 ^ 32)) := by
        rw [← S_add F (Nat.zero_le (r * (n ! / m))) (show r * (n ! / m) ≤ (r + 1) * (n ! / m) by omega)]
        rcases hS with h | h
        · subst h
          rw [i32_bmod (.inl rfl), Int.bmod_add_bmod, Int.add_bmod_bmod]
        · have f1 := h 0 (r * (n ! / m)) (by omega)
          have f2 := h (r * (n ! / m)) ((r + 1) * (n ! / m)) hle
          have f3 := h 0 ((r + 1) * (n ! / m)) hle
          rw [← S_add F (Nat.zero_le (r * (n ! / m))) (show r * (n ! / m) ≤ (r + 1) * (n ! / m) by omega)] at f3
          rw [f1.bmod, f2.bmod, i32_bmod (.inr f3)]
      rw [hadd, lift_ok]
      show Except.ok _ = Except.ok _
      congr 2
      omega
  obtain ⟨mf, e1, h⟩ := key m (Nat.le_refl m)
  rw [Nat.mul_comm, hkm] at e1 h
  exact ⟨mf, e1, h⟩

end PackedSimd.Ex.Fannkuch
