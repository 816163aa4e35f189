import Verif.Lemmas.FannkuchScalar
import Verif.Lemmas.Lanes
/-
Lemmas for C79, C80: simd.rs of fannkuch_redux.
-/
namespace PackedSimd.Ex.Fannkuch
open Nat PackedSimd Options

/-! ### Masks -/

/-- Mask `k` of the first kind reverses the first `k + 1` lanes, mask `k` of the second rotates them. -/
structure GoodMasks (M : Masks) : Prop where
  flip : ∀ (k : Nat) (hk : k < 16) (i : Nat) (hi : i < 16), M.flip[k][i].toNat = if i ≤ k then k - i else i
  rot : ∀ (k : Nat) (hk : k < 16) (i : Nat) (hi : i < 16), M.rot[k][i].toNat = if i < k then i + 1 else if i = k then 0 else i

theorem masks_ok : ∃ M s, popmasks (splat 16 0) = .ok (M, s) ∧ GoodMasks M := by
  have h : (match popmasks (splat 16 0) with
    | .ok (M, _) => decide (∀ k i : Fin 16, (M.flip[k.val][i.val]).toNat = (if i.val ≤ k.val then k.val - i.val else i.val) ∧
        (M.rot[k.val][i.val]).toNat = if i.val < k.val then i.val + 1 else if i.val = k.val then 0 else i.val)
    | .error _ => false) = true := by decide +kernel
  split at h
  · rename_i M s e
    have h := of_decide_eq_true h
    exact ⟨M, s, e, fun k hk i hi => (h ⟨k, hk⟩ ⟨i, hi⟩).1, fun k hk i hi => (h ⟨k, hk⟩ ⟨i, hi⟩).2⟩
  · cases h

theorem toList_get? (v : U8x16) {i : Nat} (h : i < 16) : v.toList[i]? = some v[i] := by
  rw [Vector.getElem?_toList, Vector.getElem?_eq_getElem h]

theorem toList_get?_none (v : U8x16) {i : Nat} (h : 16 ≤ i) : v.toList[i]? = none := by
  rw [List.getElem?_eq_none]
  rw [Vector.length_toList]
  exact h

theorem shuf_rev {t : Target} (ht : t.Supported) {M : Masks} (hM : GoodMasks M) (v : U8x16) {k : Nat} (hk : k < 16) :
    ∃ v', Shuf.u8x16 t v M.flip[k] = .ok v' ∧ v'.toList = (v.toList.take (k + 1)).reverse ++ v.toList.drop (k + 1) := by
  refine ⟨_, Shuf.u8x16_spec t ht v _ (fun i hi => by rw [hM.flip k hk i hi]; split <;> omega), ?_⟩
  apply List.ext_getElem?
  intro i
  have hl : (v.toList.take (k + 1)).length = k + 1 := by rw [List.length_take, Vector.length_toList]; omega
  by_cases hi : i < 16
  · rw [toList_get? _ hi, Vector.getElem_ofFn]
    simp only [hM.flip k hk i hi]
    by_cases hik : i ≤ k
    · simp only [if_pos hik]
      have e : ((v.toList.take (k + 1)).reverse ++ v.toList.drop (k + 1))[i]? = v.toList[k - i]? := by
        rw [List.getElem?_append_left (by rw [List.length_reverse, hl]; omega), List.getElem?_reverse (by rw [hl]; omega), hl, List.getElem?_take, if_pos (by omega),
          show k + 1 - 1 - i = k - i by omega]
      rw [e, toList_get? _ (by omega)]
    · simp only [if_neg hik]
      rw [List.getElem?_append_right (by rw [List.length_reverse, hl]; omega), List.length_reverse, hl, List.getElem?_drop, show k + 1 + (i - (k + 1)) = i by omega,
        toList_get? _ hi]
  · rw [toList_get?_none _ (by omega), List.getElem?_eq_none]
    rw [List.length_append, List.length_reverse, hl, List.length_drop, Vector.length_toList]
    omega

theorem shuf_rot {t : Target} (ht : t.Supported) {M : Masks} (hM : GoodMasks M) (v : U8x16) {k : Nat} (hk : k < 16) :
    ∃ v', Shuf.u8x16 t v M.rot[k] = .ok v' ∧ v'.toList = rotN k 1 v.toList := by
  refine ⟨_, Shuf.u8x16_spec t ht v _ (fun i hi => by rw [hM.rot k hk i hi]; split <;> [omega; (split <;> omega)]), ?_⟩
  apply List.ext_getElem?
  intro i
  have hl : k + 1 ≤ v.toList.length := by rw [Vector.length_toList]; omega
  by_cases hi : i < 16
  · rw [toList_get? _ hi, Vector.getElem_ofFn]
    simp only [hM.rot k hk i hi]
    by_cases h1 : i < k
    · simp only [if_pos h1]
      rw [rotN_get hl (by omega), Nat.mod_eq_of_lt (by omega), toList_get? _ (by omega)]
    · by_cases h2 : i = k
      · simp only [if_neg h1, if_pos h2]
        have e : (i + 1) % (k + 1) = 0 := by rw [h2, Nat.mod_self]
        rw [rotN_get hl (by omega), e, toList_get? _ (by omega)]
      · simp only [if_neg h1, if_neg h2]
        rw [rotN_get_ge hl (by omega), toList_get? _ hi]
  · rw [toList_get?_none _ (by omega), List.getElem?_eq_none]
    rw [length_rotN, Vector.length_toList]
    omega

/-! ### Flips -/

/-- The cards as bytes counting from 0. -/
def encB (p : List Nat) : List (BitVec 8) := p.map fun x => BitVec.ofNat 8 (x - 1)

/-- The first lanes of `v` hold the cards `p`. -/
def Enc (v : U8x16) (p : List Nat) : Prop := ∃ b, v.toList = encB p ++ b

theorem Enc.get {v : U8x16} {p : List Nat} (h : Enc v p) {i x : Nat} (hi : i < 16) (hx : p[i]? = some x) : v[i] = BitVec.ofNat 8 (x - 1) := by
  obtain ⟨b, e⟩ := h
  have hl : i < p.length := (List.getElem?_eq_some_iff.1 hx).1
  have := toList_get? v hi
  rw [e, List.getElem?_append_left (by rw [encB, List.length_map]; exact hl), encB, List.getElem?_map, hx] at this
  exact (Option.some.inj this).symm

theorem Enc.head {v : U8x16} {p : List Nat} (h : Enc v p) {k : Nat} (hk : p.head? = some k) : v[0] = BitVec.ofNat 8 (k - 1) :=
  h.get (by omega) (by rw [← List.head?_eq_getElem?]; exact hk)

theorem ofNat8_toNat {k : Nat} (h : k ≤ 16) : (BitVec.ofNat 8 (k - 1)).toNat = k - 1 := by
  rw [BitVec.toNat_ofNat, Nat.mod_eq_of_lt (by omega)]

theorem ofNat8_zero {k : Nat} (h : k ≤ 16) (h1 : 1 ≤ k) : BitVec.ofNat 8 (k - 1) = 0#8 ↔ k = 1 := by
  constructor
  · intro e
    have := congrArg BitVec.toNat e
    rw [ofNat8_toNat h, BitVec.toNat_ofNat] at this
    omega
  · rintro rfl; rfl

/-- Where a flipping loop is: at the cards `p` after `f` flips. -/
structure FS (p : List Nat) (f : Nat) (s : U8x16 × BitVec 8 × Int) : Prop where
  enc : Enc s.1 p
  term : s.2.1 = s.1[0]
  count : s.2.2 = (f : Int)

theorem flipSimd_ok {t : Target} (ht : t.Supported) {dbg : Bool} {M : Masks} (hM : GoodMasks M) {n : Nat} (hn : n ≤ 16) {p : List Nat} (hp : p.Perm (cards n)) {f : Nat}
    {s : U8x16 × BitVec 8 × Int} (h : FS p f s) {k : Nat} (hk : p.head? = some k) (hf : f + 1 < 2 ^ 31) :
    ∃ s', flipSimd t dbg M s = .ok s' ∧ FS (flip p) (f + 1) s' := by
  obtain ⟨h1, h2, h3⟩ := head_le hp hk
  have hk16 : k - 1 < 16 := by omega
  obtain ⟨v', e, hv'⟩ := shuf_rev ht hM s.1 hk16
  have hs : s.2.1.toNat = k - 1 := by rw [h.term, h.enc.head hk, ofNat8_toNat (by omega)]
  refine ⟨(v', v'[0], s.2.2 + 1), ?_, ⟨?_, rfl, by rw [h.count]; rfl⟩⟩
  · unfold flipSimd
    rw [hs, aget_lt _ hk16, R_ok_bind, e, R_ok_bind, extract_of_lt _ (by omega), R_ok_bind, h.count, i32_ok ⟨by omega, by omega⟩, R_ok_bind]
    rfl
  · obtain ⟨b, eb⟩ := h.enc
    refine ⟨b, ?_⟩
    have hl : k ≤ (encB p).length := by rw [encB, List.length_map]; omega
    rw [hv', eb, show k - 1 + 1 = k by omega, List.take_append_of_le_length hl, List.drop_append_of_le_length hl]
    unfold flip encB
    rw [headD_eq hk, List.map_append, List.map_reverse, List.map_take, List.map_drop, List.append_assoc]

theorem flips_head {p : List Nat} {m : Nat} (h : Flips p m) : ∃ k, p.head? = some k := by
  cases h with
  | done h => exact ⟨_, h⟩
  | step h _ _ => exact ⟨_, h⟩

theorem term_zero {n : Nat} (hn : n ≤ 16) {p : List Nat} (hp : p.Perm (cards n)) {f : Nat} {s : U8x16 × BitVec 8 × Int} (h : FS p f s) {k : Nat} (hk : p.head? = some k) :
    s.2.1 = 0#8 ↔ k = 1 := by
  obtain ⟨h1, h2, h3⟩ := head_le hp hk
  rw [h.term, h.enc.head hk]
  exact ofNat8_zero (by omega) h1

theorem flipLoopSimd_ok {t : Target} (ht : t.Supported) {dbg : Bool} {M : Masks} (hM : GoodMasks M) {n : Nat} (hn : n ≤ 16) {p : List Nat} {m : Nat} (h : Flips p m) :
    p.Perm (cards n) → ∀ (f : Nat) (s : U8x16 × BitVec 8 × Int) (fuel : Nat), FS p f s → m ≤ fuel → f + m < 2 ^ 31 →
    ∃ v x, flipLoopSimd t dbg M fuel s = .ok (v, x, ((f + m : Nat) : Int)) := by
  induction h with
  | @done p h =>
    intro hp f s fuel hs _ _
    refine ⟨s.1, s.2.1, ?_⟩
    have hz := (term_zero hn hp hs h).2 rfl
    unfold flipLoopSimd
    rw [Nat.add_zero, ← hs.count]
    cases fuel <;> (rw [whileN]; show (if (s.2.1 != 0#8) = true then _ else _) = _; rw [if_neg (by rw [hz]; decide)]; rfl)
  | @step p k m h h1 _ ih =>
    intro hp f s fuel hs hfu hb
    obtain ⟨g, rfl⟩ : ∃ g, fuel = g + 1 := ⟨fuel - 1, by omega⟩
    obtain ⟨s', es, hs'⟩ := flipSimd_ok ht (dbg := dbg) hM hn hp hs h (by omega)
    obtain ⟨v, x, e⟩ := ih ((flip_perm p).trans hp) (f + 1) s' g hs' (by omega) (by omega)
    refine ⟨v, x, ?_⟩
    unfold flipLoopSimd at e ⊢
    rw [whileN]
    show (if (s.2.1 != 0#8) = true then _ else _) = _
    rw [if_pos (by rw [bne_iff_ne]; exact fun hc => h1 ((term_zero hn hp hs h).1 hc)), es, lift_ok, D_ok_bind, e, show f + 1 + m = f + (m + 1) by omega]

/-! ### Buffered permutations -/

variable {n : Nat} {F : Nat → Nat}

/-- `e` holds permutation number `j`. -/
structure EntryAt (n j : Nat) (e : Entry) : Prop where
  lt : j < (n !)
  enc : Enc e.perm (nthPerm n j (cards n))
  start : e.start = e.perm[0]
  odd : e.odd = 0#16 ↔ j % 2 = 0

/-- The terms of the checksum of the permutations in `js`. -/
def pend (F : Nat → Nat) (js : List Nat) : Int := (js.map fun j => (-1) ^ j * (F j : Int)).sum

theorem pend_cons (j : Nat) (js : List Nat) : pend F (j :: js) = (-1) ^ j * (F j : Int) + pend F js := by
  unfold pend
  rw [List.map_cons, List.sum_cons]

theorem pend_snoc (j : Nat) (js : List Nat) : pend F (js ++ [j]) = pend F js + (-1) ^ j * (F j : Int) := by
  unfold pend
  rw [List.map_append, List.sum_append, List.map_singleton, List.sum_singleton]

/-- The state accounts for the permutations `0 ..= K` except those in `js`. -/
structure Acc (F : Nat → Nat) (K : Nat) (js : List Nat) (st : State) : Prop where
  sum : st.checksum = (S F 0 (K + 1) - pend F js).bmod (2 ^ 32)
  max : ∃ mf : Nat, st.maxflips = (mf : Int) ∧ (∀ j, j ≤ K → F j ≤ mf ∨ j ∈ js) ∧ (mf = 0 ∨ ∃ j, j ≤ K ∧ F j = mf)

/-- No checksum that can occur overflows. -/
def NoOverflow (n : Nat) (F : Nat → Nat) : Prop := ∀ K js, K < (n !) → js.length ≤ 60 → (∀ j ∈ js, j < (n !)) → Fits (S F 0 (K + 1) - pend F js)

theorem tally_ok {dbg : Bool} (hS : dbg = false ∨ NoOverflow n F) (hF : Counts n F) (hn : n ≤ 16) {K j : Nat} {js : List Nat} {st : State} (h : Acc F K (j :: js) st) (hK : K < (n !))
    (hjK : j ≤ K) (hlen : (j :: js).length ≤ 60) (hjs : ∀ j' ∈ js, j' < (n !)) {e : Entry} (he : EntryAt n j e) :
    ∃ st', tally dbg st e (F j : Int) = .ok st' ∧ Acc F K js st' ∧ st'.s = st.s := by
  have hpw : 2 ^ (n - 1) ≤ 2 ^ 15 := Nat.pow_le_pow_right (by omega) (by omega)
  have hFj := hF.bound j he.lt
  obtain ⟨mf, hmf, hm1, hm2⟩ := h.max
  have hsum : S F 0 (K + 1) - pend F js = (S F 0 (K + 1) - pend F (j :: js)) + (-1) ^ j * (F j : Int) := by rw [pend_cons]; ring
  have hacc : i32 dbg (st.checksum + (-1) ^ j * (F j : Int)) = .ok ((S F 0 (K + 1) - pend F js).bmod (2 ^ 32)) := by
    rw [h.sum, hsum]
    apply i32_acc
    rcases hS with hd | hd
    · exact .inl hd
    · rw [← hsum]
      have hjs' : ∀ j' ∈ j :: js, j' < (n !) := by
        intro j' hj'
        rcases List.mem_cons.1 hj' with rfl | hj'
        · exact he.lt
        · exact hjs j' hj'
      exact .inr ⟨hd K _ hK hlen hjs', hd K js hK (by rw [List.length_cons] at hlen; omega) hjs⟩
  refine ⟨{ st with maxflips := if (F j : Int) > st.maxflips then (F j : Int) else st.maxflips, checksum := (S F 0 (K + 1) - pend F js).bmod (2 ^ 32) }, ?_,
    ⟨rfl, Max.max mf (F j), ?_, fun i hi => ?_, ?_⟩, rfl⟩
  · unfold tally
    by_cases h2 : j % 2 = 0
    · rw [sign_even h2] at hacc
      rw [if_pos (he.odd.2 h2)]
      dsimp only
      show (do
        let c ← i32 dbg (st.checksum + (F j : Int))
        pure _) = _
      rw [hacc]
      rfl
    · rw [sign_odd h2] at hacc
      rw [if_neg (fun hc => h2 (he.odd.1 hc)), i32_ok ⟨by omega, by omega⟩]
      dsimp only
      show (do
        let c ← i32 dbg (st.checksum + -(F j : Int))
        pure _) = _
      rw [hacc]
      rfl
  · show (if (F j : Int) > st.maxflips then (F j : Int) else st.maxflips) = _
    rw [hmf]
    split <;> omega
  · rcases hm1 i hi with hx | hx
    · exact .inl (by omega)
    · rcases List.mem_cons.1 hx with rfl | hx
      · exact .inl (by omega)
      · exact .inr hx
  · by_cases hle : mf ≤ F j
    · exact .inr ⟨j, hjK, by omega⟩
    · rcases hm2 with h0 | ⟨i, h1, h2⟩
      · omega
      · exact .inr ⟨i, h1, by omega⟩

theorem EntryAt.fs {j : Nat} {e : Entry} (h : EntryAt n j e) : FS (nthPerm n j (cards n)) 0 (e.perm, e.start, 0) := ⟨h.enc, h.start, rfl⟩

/-- The buffer holds the permutations `js`. -/
structure Buf (n K : Nat) (js : List Nat) (perms : Vector Entry 60) : Prop where
  len : js.length ≤ 60
  le : ∀ j ∈ js, j ≤ K
  entry : ∀ (x : Nat) (hx : x < js.length), EntryAt n js[x] (perms[x]'(by omega))

theorem Buf.lt {K : Nat} {js : List Nat} {perms : Vector Entry 60} (h : Buf n K js perms) : ∀ j ∈ js, j < (n !) := by
  intro j hj
  obtain ⟨x, hx, rfl⟩ := List.mem_iff_getElem.1 hj
  exact (h.entry x hx).lt

theorem singleStep_ok {t : Target} (ht : t.Supported) {dbg : Bool} {M : Masks} (hM : GoodMasks M) (hn : n ≤ 16) (hS : dbg = false ∨ NoOverflow n F) (hF : Counts n F) {K : Nat} (hK : K < (n !))
    {js : List Nat} {perms : Vector Entry 60} (hb : Buf n K js perms) {fuel : Nat} (hfu : 2 ^ (n - 1) ≤ fuel) {k : Nat} {st : State} (hk : k < js.length) (h : Acc F K (js.drop k) st) :
    ∃ st', singleStep t dbg M fuel perms (k, st) = .ok (k + 1, st') ∧ Acc F K (js.drop (k + 1)) st' ∧ st'.s = st.s := by
  have hpw : 2 ^ (n - 1) ≤ 2 ^ 15 := Nat.pow_le_pow_right (by omega) (by omega)
  have he := hb.entry k hk
  have hFk := hF.bound _ he.lt
  have hlen := hb.len
  rw [List.drop_eq_getElem_cons hk] at h
  obtain ⟨v, x, e⟩ := flipLoopSimd_ok ht (dbg := dbg) hM hn (hF.flips _ he.lt) (nthPerm_perm n _ _) 0 _ fuel he.fs (by omega) (by omega)
  obtain ⟨st', e', h', hs⟩ := tally_ok hS hF hn h hK (hb.le _ (List.getElem_mem hk)) (by rw [← List.drop_eq_getElem_cons hk, List.length_drop]; omega)
    (fun j hj => hb.lt j (List.mem_of_mem_drop hj)) he
  refine ⟨st', ?_, h', hs⟩
  unfold singleStep
  dsimp only
  rw [aget_lt _ (by omega), lift_ok, D_ok_bind, e, D_ok_bind]
  dsimp only
  rw [Nat.zero_add, e', lift_ok, D_ok_bind]
  rfl

theorem pairStep_ok {t : Target} (ht : t.Supported) {dbg : Bool} {M : Masks} (hM : GoodMasks M) (hn : n ≤ 16) (hS : dbg = false ∨ NoOverflow n F) (hF : Counts n F) {K : Nat} (hK : K < (n !))
    {js : List Nat} {perms : Vector Entry 60} (hb : Buf n K js perms) {fuel : Nat} (hfu : 2 ^ (n - 1) ≤ fuel) {k : Nat} {st : State} (hk : k + 1 < js.length) (h : Acc F K (js.drop k) st) :
    ∃ st', pairStep t dbg M fuel perms (k, st) = .ok (k + 2, st') ∧ Acc F K (js.drop (k + 2)) st' ∧ st'.s = st.s := by
  have hpw : 2 ^ (n - 1) ≤ 2 ^ 15 := Nat.pow_le_pow_right (by omega) (by omega)
  have hk0 : k < js.length := by omega
  have he1 := hb.entry k hk0
  have he2 := hb.entry (k + 1) hk
  have hF1 := hF.bound _ he1.lt
  have hF2 := hF.bound _ he2.lt
  have hlen := hb.len
  rw [List.drop_eq_getElem_cons hk0] at h
  obtain ⟨st1, e1, h1, hs1⟩ := tally_ok hS hF hn h hK (hb.le _ (List.getElem_mem hk0)) (by rw [← List.drop_eq_getElem_cons hk0, List.length_drop]; omega)
    (fun j hj => hb.lt j (List.mem_of_mem_drop hj)) he1
  rw [List.drop_eq_getElem_cons hk] at h1
  obtain ⟨st2, e2, h2, hs2⟩ := tally_ok hS hF hn h1 hK (hb.le _ (List.getElem_mem hk)) (by rw [← List.drop_eq_getElem_cons hk, List.length_drop]; omega)
    (fun j hj => hb.lt j (List.mem_of_mem_drop hj)) he2
  refine ⟨st2, ?_, h2, by rw [hs2, hs1]⟩
  obtain ⟨m', s', e, ⟨p, q, x, y, f, g, hp, hq, fp, fq, sp, sq, hx, hy, hm⟩, _, _⟩ := whileN_rule
    (cond := fun (s : (U8x16 × BitVec 8 × Int) × (U8x16 × BitVec 8 × Int)) => (pure (s.1.2.1 != 0#8 && s.2.2.1 != 0#8) : R Bool))
    (body := fun s => do return (← lift (flipSimd t dbg M s.1), ← lift (flipSimd t dbg M s.2)))
    (fun m s => ∃ p q x y f g, p.Perm (cards n) ∧ q.Perm (cards n) ∧ Flips p x ∧ Flips q y ∧ FS p f s.1 ∧ FS q g s.2 ∧ f + x = F js[k] ∧ g + y = F js[k + 1] ∧ m = x)
    (fun m s _ => ⟨_, rfl⟩) (by
      rintro m s ⟨p, q, x, y, f, g, hp, hq, fp, fq, sp, sq, hx, hy, hm⟩ hcond
      have hcond : (s.1.2.1 != 0#8 && s.2.2.1 != 0#8) = true := Except.ok.inj hcond
      rw [Bool.and_eq_true, bne_iff_ne, bne_iff_ne] at hcond
      cases fp with
      | done hd => exact absurd ((term_zero hn hp sp hd).2 rfl) hcond.1
      | @step _ k1 x hk1 hne1 fp =>
        cases fq with
        | done hd => exact absurd ((term_zero hn hq sq hd).2 rfl) hcond.2
        | @step _ k2 y hk2 hne2 fq =>
          obtain ⟨a, ea, ha⟩ := flipSimd_ok ht (dbg := dbg) hM hn hp sp hk1 (by omega)
          obtain ⟨b, eb, hb⟩ := flipSimd_ok ht (dbg := dbg) hM hn hq sq hk2 (by omega)
          refine ⟨x, (a, b), by omega, ?_, flip p, flip q, x, y, f + 1, g + 1, (flip_perm p).trans hp, (flip_perm q).trans hq, fp, fq, ha, hb, by omega, by omega, rfl⟩
          rw [ea, lift_ok, D_ok_bind, eb, lift_ok, D_ok_bind]
          rfl) fuel (F js[k]) (((perms[k]'(by omega)).perm, (perms[k]'(by omega)).start, 0), ((perms[k + 1]'(by omega)).perm, (perms[k + 1]'(by omega)).start, 0))
      ⟨_, _, _, _, 0, 0, nthPerm_perm n _ _, nthPerm_perm n _ _, hF.flips _ he1.lt, hF.flips _ he2.lt, he1.fs, he2.fs, by omega, by omega, rfl⟩ (by omega)
  obtain ⟨v1, x1, ev1⟩ := flipLoopSimd_ok ht (dbg := dbg) hM hn fp hp f _ fuel sp (by omega) (by omega)
  obtain ⟨v2, x2, ev2⟩ := flipLoopSimd_ok ht (dbg := dbg) hM hn fq hq g _ fuel sq (by omega) (by omega)
  unfold pairStep
  dsimp only
  rw [aget_lt _ (by omega), lift_ok, D_ok_bind, aget_lt _ (by omega), lift_ok, D_ok_bind, e, D_ok_bind]
  rw [ev1, D_ok_bind]
  dsimp only
  rw [ev2, D_ok_bind, hx, hy, e1, lift_ok, D_ok_bind, e2, lift_ok, D_ok_bind]
  rfl

/-! ### Generating -/

/-- The counters held by the array. -/
def CntV (v : Vector Nat 16) (c : Nat → Nat) : Prop := ∀ (j : Nat) (hj : j < 16), v[j] = c j

theorem CntV.set {v : Vector Nat 16} {c : Nat → Nat} (h : CntV v c) {i : Nat} (hi : i < 16) (x : Nat) : CntV (v.set i x) (Function.update c i x) := by
  intro j hj
  rw [Vector.getElem_set]
  by_cases hij : i = j
  · subst hij
    rw [if_pos rfl, Function.update_self]
  · rw [if_neg hij, Function.update_of_ne (Ne.symm hij)]
    exact h j hj

/-- The variables of `tk` once the permutations `0 ..= K` have been generated, those in `js` still in the buffer, starting from the lanes `base`. -/
structure GI (n : Nat) (F : Nat → Nat) (base : List (BitVec 8)) (K : Nat) (js : List Nat) (T : Tk) : Prop where
  lt : K < (n !)
  ile : T.i ≤ n
  adv : ∃ c, CntV T.c c ∧ advance T.i (n - T.i) (T.st.s.toList, c) = advance 1 (n - 1) (nthPerm n K base, digits n K fun _ => 0)
  odd : T.odd = if K % 2 = 0 then 0#16 else -1#16
  len : js.length = T.permMax
  buf : Buf n K js T.perms
  acc : Acc F K js T.st

theorem flip_head {p : List Nat} {k x : Nat} (hk : p.head? = some k) (h1 : 1 ≤ k) (hlen : k ≤ p.length) (hx : p[k - 1]? = some x) : (flip p).head? = some x := by
  unfold flip
  rw [headD_eq hk, List.head?_append, List.head?_reverse, List.getLast?_eq_getElem?, List.length_take, Nat.min_eq_left hlen, List.getElem?_take, if_pos (by omega), hx]
  rfl

theorem Acc.skip {K : Nat} {js : List Nat} {st : State} (h : Acc F K js st) (h0 : F (K + 1) = 0) : Acc F (K + 1) js st := by
  obtain ⟨mf, h1, h2, h3⟩ := h.max
  refine ⟨?_, mf, h1, fun j hj => ?_, ?_⟩
  · rw [h.sum, S_succ F (Nat.zero_le (K + 1)), h0, Int.natCast_zero, mul_zero, add_zero]
  · by_cases e : j = K + 1
    · subst e; exact .inl (by omega)
    · exact h2 j (by omega)
  · rcases h3 with h3 | ⟨j, h3, h4⟩
    · exact .inl h3
    · exact .inr ⟨j, by omega, h4⟩

theorem Acc.push {K : Nat} {js : List Nat} {st : State} (h : Acc F K js st) : Acc F (K + 1) (js ++ [K + 1]) st := by
  obtain ⟨mf, h1, h2, h3⟩ := h.max
  refine ⟨?_, mf, h1, fun j hj => ?_, ?_⟩
  · rw [h.sum, S_succ F (Nat.zero_le (K + 1)), pend_snoc]
    congr 1
    ring
  · by_cases e : j = K + 1
    · subst e; exact .inr (List.mem_append_right _ (List.mem_singleton.2 rfl))
    · rcases h2 j (by omega) with h2 | h2
      · exact .inl h2
      · exact .inr (List.mem_append_left _ h2)
  · rcases h3 with h3 | ⟨j, h3, h4⟩
    · exact .inl h3
    · exact .inr ⟨j, by omega, h4⟩

theorem Buf.mono {K : Nat} {js : List Nat} {perms : Vector Entry 60} (h : Buf n K js perms) : Buf n (K + 1) js perms :=
  ⟨h.len, fun j hj => by have := h.le j hj; omega, h.entry⟩

theorem Buf.push {K : Nat} {js : List Nat} {perms : Vector Entry 60} (h : Buf n K js perms) (hl : js.length < 60) {e : Entry} (he : EntryAt n (K + 1) e) :
    Buf n (K + 1) (js ++ [K + 1]) (perms.set js.length e) := by
  refine ⟨by rw [List.length_append, List.length_singleton]; omega, fun j hj => ?_, fun x hx => ?_⟩
  · rcases List.mem_append.1 hj with hj | hj
    · have := h.le j hj; omega
    · rw [List.mem_singleton.1 hj]
  · rw [List.length_append, List.length_singleton] at hx
    by_cases hxl : x = js.length
    · subst hxl
      rw [List.getElem_concat_length rfl, Vector.getElem_set, if_pos rfl]
      exact he
    · rw [List.getElem_append_left (by omega), Vector.getElem_set, if_neg (Ne.symm hxl)]
      exact h.entry x (by omega)

/-- A measure of what is left to do. -/
def left (n K i : Nat) : Nat := ((n !) - 1 - K) * (n + 1) + (n - i)

theorem left_next {n K i : Nat} (h1 : 1 ≤ n) (h : K + 1 < (n !)) : left n (K + 1) 1 < left n K i := by
  unfold left
  rw [show (n !) - 1 - K = ((n !) - 1 - (K + 1)) + 1 by omega, Nat.add_mul, Nat.one_mul]
  omega

theorem genStep_ok {t : Target} (ht : t.Supported) {dbg : Bool} {M : Masks} (hM : GoodMasks M) (h1 : 1 ≤ n) (hn : n ≤ 16) (hS : dbg = false ∨ NoOverflow n F) (hF : Counts n F)
    {b : List (BitVec 8)} {K : Nat} {js : List Nat} {T : Tk} (h : GI n F (encB (cards n) ++ b) K js T) (hi : T.i < n) (hl : T.permMax < 60) :
    ∃ T' K' js', genStep t dbg M T = .ok T' ∧ GI n F (encB (cards n) ++ b) K' js' T' ∧ left n K' T'.i < left n K T.i := by
  have hi16 : T.i < 16 := by omega
  obtain ⟨c, hc, hadv⟩ := h.adv
  obtain ⟨v, ev, hv⟩ := shuf_rot ht hM T.st.s hi16
  have hrot : T.st.rotate t M T.i = .ok { T.st with s := v } := by
    unfold State.rotate
    rw [aget_lt _ hi16, R_ok_bind, ev, R_ok_bind]
    rfl
  unfold genStep
  rw [hrot, R_ok_bind, aget_lt _ hi16, R_ok_bind, hc T.i hi16]
  rw [show n - T.i = (n - (T.i + 1)) + 1 by omega, advance] at hadv
  by_cases hci : T.i ≤ c T.i
  · rw [if_pos hci] at hadv
    rw [if_pos hci, aset_lt _ _ hi16, R_ok_bind]
    refine ⟨_, K, js, rfl, ⟨h.lt, hi, ⟨Function.update c T.i 0, hc.set hi16 0, ?_⟩, h.odd, h.len, h.buf, ⟨h.acc.sum, h.acc.max⟩⟩, ?_⟩
    · show advance (T.i + 1) (n - (T.i + 1)) (v.toList, _) = _
      rw [hv]
      exact hadv
    · show left n K (T.i + 1) < left n K T.i
      unfold left
      omega
  · have hblk := advance_block (n := n) n h1 (Nat.le_refl n) (encB (cards n) ++ b) (fun _ => 0) (by rw [List.length_append, encB, List.length_map, length_cards]; omega) (fun _ _ => rfl) K h.lt
    rw [if_neg hci, hblk] at hadv
    have hK : K + 1 < ((n !)) := by
      by_contra hcon
      rw [if_neg hcon, Nat.sub_self] at hadv
      cases hadv
    rw [if_pos hK] at hadv
    obtain ⟨hs, hd⟩ := Prod.mk.inj (Option.some.inj hadv)
    rw [if_neg hci, aset_lt _ _ hi16, R_ok_bind]
    dsimp only
    have hlist : v.toList = encB (nthPerm n (K + 1) (cards n)) ++ b := by
      rw [hv, hs, nthPerm_append _ (by rw [encB, List.length_map, length_cards])]
      unfold encB
      rw [nthPerm_map]
    have henc : Enc v (nthPerm n (K + 1) (cards n)) := ⟨b, hlist⟩
    have hpp := nthPerm_perm n (K + 1) (cards n)
    have hfl := hF.flips (K + 1) hK
    obtain ⟨k, hk⟩ := flips_head hfl
    obtain ⟨k1, k2, k3⟩ := head_le hpp hk
    have hv0 := henc.head hk
    have hadv' : ∃ c', CntV (T.c.set T.i (c T.i + 1)) c' ∧ advance 1 (n - 1) (v.toList, c') =
        advance 1 (n - 1) (nthPerm n (K + 1) (encB (cards n) ++ b), digits n (K + 1) fun _ => 0) :=
      ⟨_, hc.set hi16 _, by rw [hv, hs, hd]⟩
    have hodd : ~~~T.odd = if (K + 1) % 2 = 0 then 0#16 else -1#16 := by
      rw [h.odd]
      by_cases h2 : K % 2 = 0
      · rw [if_pos h2, if_neg (by omega)]; decide
      · rw [if_neg h2, if_pos (by omega)]; decide
    have hodd0 : ~~~T.odd = 0#16 ↔ (K + 1) % 2 = 0 := by
      rw [hodd]
      split
      · simp [*]
      · simp [*]
    rw [aget_lt _ (by omega), R_ok_bind, hv0]
    by_cases hz : k = 1
    · rw [if_neg (by rw [not_not]; exact (ofNat8_zero (by omega) k1).2 hz)]
      have hF0 : F (K + 1) = 0 := hfl.unique (.done (by rw [hk, hz]))
      have ha := h.acc.skip hF0
      exact ⟨_, K + 1, js, rfl, ⟨hK, h1, hadv', hodd, h.len, h.buf.mono, ⟨ha.sum, ha.max⟩⟩, left_next h1 hK⟩
    · rw [if_pos (fun hc => hz ((ofNat8_zero (by omega) k1).1 hc)), ofNat8_toNat (by omega), aget_lt _ (show k - 1 < 16 by omega), R_ok_bind]
      have hx : (nthPerm n (K + 1) (cards n))[k - 1]? = some ((nthPerm n (K + 1) (cards n))[k - 1]'(by omega)) := List.getElem?_eq_getElem (by omega)
      have hxm := mem_cards.1 (hpp.mem_iff.1 (List.getElem_mem (l := nthPerm n (K + 1) (cards n)) (n := k - 1) (by omega)))
      rw [henc.get (show k - 1 < 16 by omega) hx]
      by_cases hone : (nthPerm n (K + 1) (cards n))[k - 1]'(by omega) = 1
      · rw [if_pos ((ofNat8_zero (by omega) hxm.1).2 hone)]
        have hF1 : F (K + 1) = 1 := hfl.unique (.step hk hz (.done (by rw [flip_head hk k1 (by omega) hx, hone])))
        have hterm : (if ~~~T.odd = 0#16 then (1 : Int) else -1) = (-1) ^ (K + 1) * (F (K + 1) : Int) := by
          rw [hF1]
          by_cases h2 : (K + 1) % 2 = 0
          · rw [if_pos (hodd0.2 h2), sign_even h2]; rfl
          · rw [if_neg (fun hc => h2 (hodd0.1 hc)), sign_odd h2]; rfl
        have hsum : S F 0 (K + 1 + 1) - pend F js = (S F 0 (K + 1) - pend F js) + (-1) ^ (K + 1) * (F (K + 1) : Int) := by
          rw [S_succ F (Nat.zero_le (K + 1))]; ring
        have hacc : i32 dbg (T.st.checksum + if ~~~T.odd = 0#16 then (1 : Int) else -1) = .ok ((S F 0 (K + 1 + 1) - pend F js).bmod (2 ^ 32)) := by
          rw [hterm, h.acc.sum, hsum]
          apply i32_acc
          rcases hS with hd | hd
          · exact .inl hd
          · rw [← hsum]
            exact .inr ⟨hd K js h.lt h.buf.len h.buf.lt, hd (K + 1) js hK h.buf.len h.buf.lt⟩
        rw [hacc, R_ok_bind]
        obtain ⟨mf, m1, m2, m3⟩ := h.acc.max
        refine ⟨_, K + 1, js, rfl, ⟨hK, h1, hadv', hodd, h.len, h.buf.mono, ⟨rfl, if mf = 0 then 1 else mf, ?_, fun j hj => ?_, ?_⟩⟩, left_next h1 hK⟩
        · show (if T.st.maxflips = 0 then (1 : Int) else T.st.maxflips) = _
          rw [m1]
          split <;> split <;> omega
        · by_cases e : j = K + 1
          · subst e; rw [hF1]; left; split <;> omega
          · rcases m2 j (by omega) with m2 | m2
            · left; split <;> omega
            · exact .inr m2
        · right
          split
          · exact ⟨K + 1, Nat.le_refl _, hF1⟩
          · rcases m3 with m3 | ⟨j, m3, m4⟩
            · exact absurd m3 (by assumption)
            · exact ⟨j, by omega, m4⟩
      · rw [if_neg (fun hc => hone ((ofNat8_zero (by omega) hxm.1).1 hc)), aset_lt _ _ hl, R_ok_bind]
        have ha := h.acc.push
        have hlen := h.len
        have hbuf := h.buf.push (e := ⟨v, BitVec.ofNat 8 (k - 1), ~~~T.odd⟩) (by omega) ⟨hK, henc, hv0.symm, hodd0⟩
        simp only [hlen] at hbuf
        exact ⟨_, K + 1, js ++ [K + 1], rfl, ⟨hK, h1, hadv', hodd, by rw [List.length_append, List.length_singleton]; show _ = T.permMax + 1; omega, hbuf, ⟨ha.sum, ha.max⟩⟩, left_next h1 hK⟩

theorem tkStep_ok {t : Target} (ht : t.Supported) {dbg : Bool} {M : Masks} (hM : GoodMasks M) (h1 : 1 ≤ n) (hn : n ≤ 16) (hS : dbg = false ∨ NoOverflow n F) (hF : Counts n F)
    {b : List (BitVec 8)} {K : Nat} {T : Tk} (h : GI n F (encB (cards n) ++ b) K [] T) (hi : T.i < n) {fuel : Nat} (hf1 : left n K T.i ≤ fuel) (hf2 : 60 ≤ fuel)
    (hf3 : 2 ^ (n - 1) ≤ fuel) : ∃ T' K', tkStep t dbg M fuel n T = .ok T' ∧ GI n F (encB (cards n) ++ b) K' [] T' ∧ left n K' T'.i < left n K T.i := by
  have hpm : T.permMax = 0 := h.len.symm
  obtain ⟨m1, T1, e1, ⟨K1, js, g1, hm1⟩, c1, _, hlt⟩ := whileN_rule (cond := fun (T : Tk) => (pure (decide (T.i < n) && decide (T.permMax < 60)) : R Bool)) (body := fun T => lift (genStep t dbg M T))
    (fun m T => ∃ K js, GI n F (encB (cards n) ++ b) K js T ∧ m = left n K T.i) (fun m s _ => ⟨_, rfl⟩) (by
      rintro m s ⟨K, js, g, rfl⟩ hcond
      have hcond : (decide (s.i < n) && decide (s.permMax < 60)) = true := Except.ok.inj hcond
      rw [Bool.and_eq_true, decide_eq_true_eq, decide_eq_true_eq] at hcond
      obtain ⟨T', K', js', e, g', hl⟩ := genStep_ok ht (dbg := dbg) hM h1 hn hS hF g hcond.1 hcond.2
      exact ⟨_, T', hl, by rw [e]; rfl, K', js', g', rfl⟩) fuel (left n K T.i) T ⟨K, [], h, rfl⟩ hf1
  have hlt := hlt (by
    show Except.ok _ = Except.ok _
    rw [decide_eq_true hi, decide_eq_true (by omega)]
    rfl)
  have hlen := g1.len
  have hb60 := g1.buf.len
  obtain ⟨m2, s2, e2, ⟨k2, a2, b2, d2⟩, c2, _⟩ := whileN_rule (cond := fun (s : Nat × State) => (pure (decide (s.1 < max 1 T1.permMax - 1)) : R Bool)) (body := pairStep t dbg M fuel T1.perms)
    (fun m s => s.1 ≤ T1.permMax ∧ m = T1.permMax - s.1 ∧ Acc F K1 (js.drop s.1) s.2 ∧ s.2.s = T1.st.s) (fun m s _ => ⟨_, rfl⟩) (by
      rintro m ⟨k, st⟩ ⟨hk, hm, ha, hs⟩ hcond
      simp only at hk hm ha hs
      have hcond : k < max 1 T1.permMax - 1 := of_decide_eq_true (Except.ok.inj hcond)
      obtain ⟨st', e, ha', hs'⟩ := pairStep_ok ht (dbg := dbg) hM hn hS hF g1.lt g1.buf hf3 (k := k) (by omega) ha
      exact ⟨T1.permMax - (k + 2), (k + 2, st'), by omega, e, by omega, rfl, ha', by rw [hs', hs]⟩) fuel T1.permMax (0, T1.st)
    ⟨Nat.zero_le _, rfl, g1.acc, rfl⟩ (by omega)
  obtain ⟨m3, s3, e3, ⟨k3, a3, b3, d3⟩, c3, _⟩ := whileN_rule (cond := fun (s : Nat × State) => (pure (decide (s.1 < T1.permMax)) : R Bool)) (body := singleStep t dbg M fuel T1.perms)
    (fun m s => s.1 ≤ T1.permMax ∧ m = T1.permMax - s.1 ∧ Acc F K1 (js.drop s.1) s.2 ∧ s.2.s = T1.st.s) (fun m s _ => ⟨_, rfl⟩) (by
      rintro m ⟨k, st⟩ ⟨hk, hm, ha, hs⟩ hcond
      simp only at hk hm ha hs
      have hcond : k < T1.permMax := of_decide_eq_true (Except.ok.inj hcond)
      obtain ⟨st', e, ha', hs'⟩ := singleStep_ok ht (dbg := dbg) hM hn hS hF g1.lt g1.buf hf3 (k := k) (by omega) ha
      exact ⟨T1.permMax - (k + 1), (k + 1, st'), by omega, e, by omega, rfl, ha', by rw [hs', hs]⟩) fuel (T1.permMax - s2.1) s2
    ⟨k2, rfl, b2, d2⟩ (by omega)
  have c3 : ¬ s3.1 < T1.permMax := of_decide_eq_false (Except.ok.inj c3)
  rw [List.drop_eq_nil_of_le (by omega)] at b3
  refine ⟨{ T1 with st := s3.2, permMax := 0 }, K1, ?_, ⟨g1.lt, g1.ile, ?_, g1.odd, rfl, ⟨by simp, fun j hj => by simp at hj, fun x hx => by simp at hx⟩, b3⟩, by rw [hm1] at hlt; exact hlt⟩
  · unfold tkStep
    rw [e1, D_ok_bind, e2, D_ok_bind]
    dsimp only
    rw [e3, D_ok_bind]
    rfl
  · show ∃ c, CntV T1.c c ∧ advance T1.i (n - T1.i) (s3.2.s.toList, c) = _
    rw [d3]
    exact g1.adv

theorem rotN_one {α : Type} (p : List α) : rotN 0 1 p = p := by
  cases p with
  | nil => rfl
  | cons a l =>
    show [a].rotate 1 ++ l = _
    rw [List.rotate_cons_succ]
    rfl

/-- Iterations enough for every loop of the program. -/
def fuelFor (n : Nat) : Nat := (n !) * (n + 1) + 60 + 2 ^ (n - 1)

theorem simdRun_ok {t : Target} (ht : t.Supported) {dbg : Bool} (h1 : 1 ≤ n) (hn : n ≤ 16) (hS : dbg = false ∨ NoOverflow n F) (hF : Counts n F) {fuel : Nat} (hfu : fuelFor n ≤ fuel) :
    ∃ mf : Nat, simdRun t dbg fuel n = .ok ((S F 0 (n !)).bmod (2 ^ 32), (mf : Int)) ∧ MaxOver F 0 (n !) mf := by
  have hpos := Nat.factorial_pos n
  obtain ⟨M, s, eM, hM⟩ := masks_ok
  obtain ⟨v, ev, hv⟩ := forRange_inv (fun i (s : U8x16) => ∀ (j : Nat) (hj : j < 16), j < i → s[j] = BitVec.ofNat 8 j)
    (fun s i => aset s i (BitVec.ofNat 8 i)) (lo := 0) (hi := n) (init := s) (Nat.zero_le _) (fun j _ h => by omega) (by
    intro i s _ hi hs
    refine ⟨_, aset_lt _ _ (by omega), fun j hj hji => ?_⟩
    rw [Vector.getElem_set]
    by_cases hij : i = j
    · subst hij; rw [if_pos rfl]
    · rw [if_neg hij]
      exact hs j hj (by omega))
  have hbase : v.toList = encB (cards n) ++ v.toList.drop n := by
    conv_lhs => rw [← List.take_append_drop n v.toList]
    congr 1
    apply List.ext_getElem?
    intro i
    by_cases hi : i < n
    · rw [List.getElem?_take, if_pos hi, toList_get? _ (by omega), hv i (by omega) hi, encB, List.getElem?_map, cards, List.getElem?_range' hi]
      show some _ = some _
      congr 2
      omega
    · rw [List.getElem?_take, if_neg hi, List.getElem?_eq_none]
      rw [encB, List.length_map, length_cards]
      omega
  unfold simdRun
  rw [eM, lift_ok, D_ok_bind]
  dsimp only
  rw [ev, lift_ok, D_ok_bind]
  unfold tk
  have hhead : ∃ k, (cards n).head? = some k := ⟨1, by unfold cards; rw [show n = (n - 1) + 1 by omega, List.range'_succ]; rfl⟩
  have hF0 : F 0 = 0 := by
    have := hF.flips 0 hpos
    rw [nthPerm_zero] at this
    exact this.unique (.done (by unfold cards; rw [show n = (n - 1) + 1 by omega, List.range'_succ]; rfl))
  have hleft : left n 0 0 ≤ (n !) * (n + 1) := by
    unfold left
    have : (n !) * (n + 1) = ((n !) - 1 - 0) * (n + 1) + (n + 1) := by
      conv_lhs => rw [show (n !) = ((n !) - 1 - 0) + 1 by omega, Nat.add_mul, Nat.one_mul]
    omega
  unfold fuelFor at hfu
  have h2 := Nat.two_pow_pos (n - 1)
  have g0 : GI n F (encB (cards n) ++ v.toList.drop n) 0 [] { st := ⟨v, 0, 0, 0⟩, perms := Vector.replicate 60 ⟨splat 16 0, 0, 0⟩, i := 0, c := Vector.replicate 16 0, permMax := 0, odd := 0 } := by
    refine ⟨hpos, Nat.zero_le n, ⟨fun _ => 0, fun j hj => by rw [Vector.getElem_replicate], ?_⟩, rfl, rfl, ⟨by simp, fun j hj => by simp at hj, fun x hx => by simp at hx⟩,
      ⟨?_, 0, rfl, fun j hj => ?_, .inl rfl⟩⟩
    · show advance 0 (n - 0) (v.toList, fun _ => 0) = _
      rw [nthPerm_zero, digits_zero _ _ (fun _ _ => rfl), ← hbase, show n - 0 = (n - 1) + 1 by omega, advance, if_pos (Nat.le_refl 0), Function.update_eq_self_iff.2 rfl]
      rw [rotN_one]
    · rw [S_succ F (Nat.le_refl 0), S_self, hF0]; rfl
    · rw [show j = 0 by omega, hF0]; exact .inl (Nat.le_refl 0)
  obtain ⟨m', T, e, ⟨K, g, hm⟩, hc, _⟩ := whileN_rule (cond := fun (T : Tk) => (pure (decide (T.i < n)) : R Bool)) (body := tkStep t dbg M fuel n)
    (fun m T => ∃ K, GI n F (encB (cards n) ++ v.toList.drop n) K [] T ∧ m = left n K T.i ∧ m ≤ fuel) (fun m s _ => ⟨_, rfl⟩) (by
      rintro m T ⟨K, g, rfl, hle⟩ hcond
      have hcond : T.i < n := of_decide_eq_true (Except.ok.inj hcond)
      obtain ⟨T', K', e, g', hl⟩ := tkStep_ok ht (dbg := dbg) hM h1 hn hS hF g hcond hle (by omega) (by omega)
      exact ⟨_, T', hl, e, K', g', rfl, by omega⟩) fuel (left n 0 0) _ ⟨0, g0, rfl, by omega⟩ (by omega)
  have hc : ¬ T.i < n := of_decide_eq_false (Except.ok.inj hc)
  have hin : T.i = n := by have := g.ile; omega
  have hK : K + 1 = (n !) := by
    obtain ⟨c, _, hadv⟩ := g.adv
    have hblk := advance_block (n := n) n h1 (Nat.le_refl n) (encB (cards n) ++ v.toList.drop n) (fun _ => 0) (by rw [List.length_append, encB, List.length_map, length_cards]; omega) (fun _ _ => rfl) K g.lt
    rw [hin, Nat.sub_self, hblk] at hadv
    by_contra hcon
    rw [if_pos (by have := g.lt; omega)] at hadv
    cases hadv
  obtain ⟨mf, m1, m2, m3⟩ := g.acc.max
  refine ⟨mf, ?_, fun j _ hj => ?_, ?_⟩
  · dsimp only
    rw [e, D_ok_bind, ← m1]
    have := g.acc.sum
    rw [hK, show pend F [] = 0 from rfl, Int.sub_zero] at this
    rw [← this]
    rfl
  · rcases m2 j (by omega) with h | h
    · exact h
    · simp at h
  · rcases m3 with h | ⟨j, h, h'⟩
    · exact .inl h
    · exact .inr ⟨j, Nat.zero_le j, by omega, h'⟩

end PackedSimd.Ex.Fannkuch
