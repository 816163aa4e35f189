import Verif.Model.Testing
import Verif.Props.Float
import Verif.Props.ScalarMask
/-
C121: the checks through which the crate tests its lexicographic comparisons.
-/
namespace PackedSimd.Props
open PackedSimd Spec Intr Testing

section generic
variable {V E : Type}

theorem assert_ok (b : Bool) : Testing.assert (.ok b) = if b then .ok () else .error .panic := by cases b <;> rfl
theorem assertNot_ok (b : Bool) : Testing.assertNot (.ok b) = if b then .error .panic else .ok () := by cases b <;> rfl

theorem slicePartialCmp_eq (pc : E → E → Option Ordering) : ∀ xs ys : List E, xs.length = ys.length → slicePartialCmp pc xs ys = arrayPartialCompare pc xs ys
  | [], [], _ => rfl
  | x :: xs, y :: ys, h => by
    have ih := slicePartialCmp_eq pc xs ys (by simpa using h)
    unfold slicePartialCmp arrayPartialCompare
    rcases pc x y with _ | (_ | _ | _)
    · rfl
    · rfl
    · exact ih
    · rfl

theorem padded_take (d : E) (l : List E) : (padded d l).take l.length = l := by
  unfold padded
  rw [List.take_left']
  rfl

/-- If the operators are the ones of a partial order `c` (compared with itself, a vector may be unordered), the check passes exactly if the expected
outcome is `c`'s, it is not "unordered", and both vectors equal themselves. -/
theorem testCmp_eq (o : Ops V) (c : V → V → Option Ordering) (n : Nat) (hn : n ≤ 64) (lanes : V → List E) (pc : E → E → Option Ordering) (d : E) (a b : V)
    (P : V → Prop) (ha : P a) (hb : P b) (hl : ∀ x, (lanes x).length = n) (hpc : ∀ x y, P x → P y → arrayPartialCompare pc (lanes x) (lanes y) = c x y)
    (heq : ∀ x y, P x → P y → o.eq x y = .ok (c x y == some .eq)) (hne : ∀ x y, P x → P y → o.ne x y = .ok (c x y != some .eq))
    (hlt : ∀ x y, P x → P y → o.lt x y = .ok (c x y == some .lt)) (hle : ∀ x y, P x → P y → o.le x y = .ok (c x y == some .lt || c x y == some .eq))
    (hgt : ∀ x y, P x → P y → o.gt x y = .ok (c x y == some .gt)) (hge : ∀ x y, P x → P y → o.ge x y = .ok (c x y == some .gt || c x y == some .eq))
    (hcmp : ∀ x y, P x → P y → o.cmp x y = .ok (c x y)) (hsw : c b a = (c a b).map Ordering.swap)
    (hraa : c a a = some .eq ∨ c a a = none) (hrbb : c b b = some .eq ∨ c b b = none)
    (hrefl : c a b = some .eq → c a a = some .eq ∧ c b b = some .eq) (exp : Option Ordering) :
    testCmp o n lanes pc d a b exp = if exp = c a b ∧ exp ≠ none ∧ c a a = some .eq ∧ c b b = some .eq then .ok () else .error .panic := by
  have e1 : slicePartialCmp pc ((padded d (lanes a)).take n) ((padded d (lanes b)).take n) = c a b := by
    conv => lhs; rw [← hl a]; arg 2; rw [padded_take]
    rw [hl a, ← hl b, padded_take, slicePartialCmp_eq _ _ _ (by rw [hl, hl]), hpc _ _ ha hb]
  have n1 : (decide (n ≤ 64)) = true := by simpa using hn
  unfold testCmp
  dsimp only
  rw [e1, n1, hcmp a b ha hb]
  unfold testLe testLt assertSame
  simp only [heq _ _ ha hb, hne _ _ ha hb, hlt _ _ ha hb, hgt _ _ ha hb, hle _ _ ha hb, hge _ _ ha hb, heq _ _ hb ha, hne _ _ hb ha, hlt _ _ hb ha,
    hgt _ _ hb ha, hle _ _ hb ha, hge _ _ hb ha, hlt _ _ ha ha, hgt _ _ ha ha, hle _ _ ha ha, hlt _ _ hb hb, hgt _ _ hb hb, hle _ _ hb hb, hsw,
    assert_ok, assertNot_ok]
  generalize c a b = r at *
  generalize c a a = ra at *
  generalize c b b = rb at *
  rcases exp with _ | (_ | _ | _) <;> rcases r with _ | (_ | _ | _) <;> first
    | rfl
    | (rcases hraa with rfl | rfl <;> rcases hrbb with rfl | rfl <;> first | rfl | (have := hrefl rfl; simp at this))

end generic

variable (t : Target) (ty : MaskTy)

theorem lanes_le (ty : MaskTy) : ty.lanes ≤ 64 := by cases ty <;> decide

/-- Integer vectors of every type: the check passes exactly if the expected outcome is the order of the two vectors as arrays of numbers. -/
theorem C121_int (ht : t.Supported) (s : Bool) (a b : Vec (BitVec (8 * ty.laneBytes t)) ty.lanes) (exp : Option Ordering) :
    testCmpInt t ty s a b exp = if exp = some (arrayCompare (laneVals s a) (laneVals s b)) then .ok () else .error .panic := by
  have hself : ∀ x : Vec (BitVec (8 * ty.laneBytes t)) ty.lanes, arrayCompare (laneVals s x) (laneVals s x) = .eq := fun x => arrayCompare_eq_iff.2 rfl
  have hpc : ∀ xs ys : List (BitVec (8 * ty.laneBytes t)), arrayPartialCompare (intElemCmp s) xs ys = some (arrayCompare (xs.map (val s)) (ys.map (val s))) := by
    intro xs
    induction xs with
    | nil => intro ys; cases ys <;> rfl
    | cons x xs ih =>
      intro ys
      cases ys with
      | nil => rfl
      | cons y ys =>
        simp only [List.map_cons, arrayPartialCompare, arrayCompare, ih, intElemCmp, laneLt_iff]
        by_cases h1 : val s x < val s y
        · simp [h1]
        · by_cases h2 : x = y
          · subst h2; simp
          · have h3 : val s y < val s x := by
              have : val s x ≠ val s y := fun h => h2 (val_injective h)
              omega
            simp [h1, h2, h3]
  have hord : ∀ r : Ordering, (r != .gt) = (some r == some Ordering.lt || some r == some .eq) ∧ (r != .lt) = (some r == some Ordering.gt || some r == some .eq) := by decide
  have heq : ∀ x y : Vec (BitVec (8 * ty.laneBytes t)) ty.lanes, intEq t ty x y = .ok (some (arrayCompare (laneVals s x) (laneVals s y)) == some .eq) ∧
      intNe t ty x y = .ok (some (arrayCompare (laneVals s x) (laneVals s y)) != some .eq) := by
    intro x y
    obtain ⟨e, dd, he, hd, hiff, hde⟩ := C19_eq_ne t ty ht x y
    have hk : e = (some (arrayCompare (laneVals s x) (laneVals s y)) == some .eq) := by
      rw [Bool.eq_iff_iff, hiff, beq_iff_eq, Option.some.injEq, ← Except.ok.injEq (ε := Fault), ← (C20_int t ty ht s x y).1, (C20_total_order t ty ht s x y y).2.1]
      exact ⟨fun h => by ext i hi : 1; exact h i hi, fun h i hi => by rw [h]⟩
    rw [he, hd, hde, hk]
    exact ⟨rfl, rfl⟩
  unfold testCmpInt
  rw [testCmp_eq (intOps t ty false s) (fun x y => some (arrayCompare (laneVals s x) (laneVals s y))) ty.lanes (lanes_le ty) Vector.toList (intElemCmp s) 0 a b
    (fun _ => True) trivial trivial (fun x => x.length_toList) (fun x y _ _ => hpc _ _) (fun x y _ _ => (heq x y).1) (fun x y _ _ => (heq x y).2)
    (fun x y _ _ => (C20_int t ty ht s x y).2.2.1) (fun x y _ _ => ((C20_int t ty ht s x y).2.2.2.2.1).trans (by rw [(hord _).1]))
    (fun x y _ _ => (C20_int t ty ht s x y).2.2.2.1) (fun x y _ _ => ((C20_int t ty ht s x y).2.2.2.2.2).trans (by rw [(hord _).2]))
    (fun x y _ _ => (C20_int t ty ht s x y).2.1) (by rw [arrayCompare_swap]; rfl) (Or.inl (by rw [hself])) (Or.inl (by rw [hself]))
    (fun _ => ⟨by rw [hself], by rw [hself]⟩)]
  simp only [hself, and_true]
  congr 1
  rw [eq_iff_iff]
  exact ⟨fun h => h.1, fun h => ⟨h, by rw [h]; simp⟩⟩

/-- Mask vectors: as arrays of truth values, `false` below `true`. -/
theorem C121_mask (ht : t.Supported) (a b : Vec (BitVec (8 * ty.laneBytes t)) ty.lanes) (f g : Nat → Bool) (ha : Denotes a f) (hb : Denotes b g)
    (exp : Option Ordering) :
    testCmpMask t ty a b exp = if exp = some (arrayCompare (boolVals ((List.range ty.lanes).map f)) (boolVals ((List.range ty.lanes).map g))) then .ok ()
      else .error .panic := by
  have hw : 0 < 8 * ty.laneBytes t := by have := laneBytes_pos ht ty; omega
  let bs : Vec (BitVec (8 * ty.laneBytes t)) ty.lanes → List Int := fun x => boolVals (x.toList.map MaskLane.test)
  have hbs : ∀ x f, Denotes x f → bs x = boolVals ((List.range ty.lanes).map f) := by
    intro x f hx
    show boolVals _ = _
    congr 1
    apply List.ext_getElem (by simp)
    intro i h1 h2
    have hi : i < ty.lanes := by simpa using h2
    simp only [List.getElem_map, Vector.getElem_toList, List.getElem_range]
    rw [isMaskLane_of_denotes hx hi]
    exact maskBits_ne_zero hw _
  have hself : ∀ x, arrayCompare (bs x) (bs x) = .eq := fun x => arrayCompare_eq_iff.2 rfl
  have hpc : ∀ xs ys : List (BitVec (8 * ty.laneBytes t)), (∀ x ∈ xs, ∃ p, IsMaskLane x p) → (∀ y ∈ ys, ∃ q, IsMaskLane y q) →
      arrayPartialCompare MaskLane.partialCmp xs ys = some (arrayCompare (boolVals (xs.map MaskLane.test)) (boolVals (ys.map MaskLane.test))) := by
    intro xs
    induction xs with
    | nil => intro ys _ _; cases ys <;> rfl
    | cons x xs ih =>
      intro ys hx hy
      cases ys with
      | nil => rfl
      | cons y ys =>
        obtain ⟨p, hp⟩ := hx x (by simp)
        obtain ⟨q, hq⟩ := hy y (by simp)
        have ih' := ih ys (fun z hz => hx z (by simp [hz])) (fun z hz => hy z (by simp [hz]))
        have hc := (C56_compare hw x y p q hp hq).2.2.2.2.2.2.1
        have h1 : MaskLane.test x = p := by rw [(isMaskLane_iff).1 hp]; exact maskBits_ne_zero hw _
        have h2 : MaskLane.test y = q := by rw [(isMaskLane_iff).1 hq]; exact maskBits_ne_zero hw _
        unfold boolVals at ih' ⊢
        simp only [List.map_cons, arrayPartialCompare, arrayCompare, ih', hc, h1, h2]
        cases p <;> cases q <;> rfl
  have hlane : ∀ x f, Denotes x f → ∀ y ∈ (x : Vec (BitVec (8 * ty.laneBytes t)) ty.lanes).toList, ∃ p, IsMaskLane y p := by
    intro x f hx y hy
    obtain ⟨i, hi, rfl⟩ := List.getElem_of_mem hy
    have hi' : i < ty.lanes := by simpa using hi
    exact ⟨f i, by rw [Vector.getElem_toList, isMaskLane_iff]; exact isMaskLane_of_denotes hx hi'⟩
  have hord : ∀ r : Ordering, (r != .gt) = (some r == some Ordering.lt || some r == some .eq) ∧ (r != .lt) = (some r == some Ordering.gt || some r == some .eq) := by decide
  have H : ∀ x y, (∃ f, Denotes x f) → (∃ g, Denotes y g) →
      lexPartialCmp t ty true true x y = .ok (some (arrayCompare (bs x) (bs y))) ∧ lexLt t ty true true x y = .ok (arrayCompare (bs x) (bs y) == .lt) ∧
      lexGt t ty true true x y = .ok (arrayCompare (bs x) (bs y) == .gt) ∧ lexLe t ty true true x y = .ok (arrayCompare (bs x) (bs y) != .gt) ∧
      lexGe t ty true true x y = .ok (arrayCompare (bs x) (bs y) != .lt) := by
    rintro x y ⟨f, hf⟩ ⟨g, hg⟩
    have := C20_mask t ty ht x y f g hf hg
    rw [← hbs x f hf, ← hbs y g hg] at this
    exact this.2
  have heq : ∀ x y, (∃ f, Denotes x f) → (∃ g, Denotes y g) → intEq t ty x y = .ok (some (arrayCompare (bs x) (bs y)) == some .eq) ∧
      intNe t ty x y = .ok (some (arrayCompare (bs x) (bs y)) != some .eq) := by
    intro x y hx hy
    obtain ⟨e, dd, he, hd, -, hde⟩ := C19_eq_ne t ty ht x y
    have h := (H x y hx hy).1
    have h2 := (H x y hx hy).2.1
    have h3 := (H x y hx hy).2.2.1
    unfold lexPartialCmp Cmp.lexPartialCmp at h
    rw [h2, h3, he] at h
    rw [he, hd, hde]
    generalize arrayCompare (bs x) (bs y) = r at *
    cases e <;> cases r <;> first | exact ⟨rfl, rfl⟩ | cases h
  unfold testCmpMask
  rw [testCmp_eq (intOps t ty true true) (fun x y => some (arrayCompare (bs x) (bs y))) ty.lanes (lanes_le ty) Vector.toList MaskLane.partialCmp _ a b
    (fun x => ∃ f, Denotes x f) ⟨f, ha⟩ ⟨g, hb⟩ (fun x => x.length_toList) (fun x y ⟨f, hf⟩ ⟨g, hg⟩ => hpc _ _ (hlane x f hf) (hlane y g hg))
    (fun x y h1 h2 => (heq x y h1 h2).1) (fun x y h1 h2 => (heq x y h1 h2).2)
    (fun x y h1 h2 => (H x y h1 h2).2.1) (fun x y h1 h2 => ((H x y h1 h2).2.2.2.1).trans (by rw [(hord _).1]))
    (fun x y h1 h2 => (H x y h1 h2).2.2.1) (fun x y h1 h2 => ((H x y h1 h2).2.2.2.2).trans (by rw [(hord _).2]))
    (fun x y h1 h2 => (H x y h1 h2).1) (by rw [arrayCompare_swap]; rfl) (Or.inl (by rw [hself])) (Or.inl (by rw [hself]))
    (fun _ => ⟨by rw [hself], by rw [hself]⟩)]
  simp only [hself, and_true]
  rw [hbs a f ha, hbs b g hb]
  congr 1
  rw [eq_iff_iff]
  exact ⟨fun h => h.1, fun h => ⟨h, by rw [h]; simp⟩⟩

/-- Float vectors: the check passes exactly if the expected outcome is the order of the two vectors as arrays of numbers, they are not unordered,
and no lane is NaN.  Missing: unordered vectors, and ordered ones with a NaN after the deciding lane, are rejected (`C121_nan_fails`). -/
theorem C121_float_partial {man : Nat} (ht : t.Supported) (hf : Format (8 * ty.laneBytes t) man) (a b : Vec (BitVec (8 * ty.laneBytes t)) ty.lanes)
    (exp : Option Ordering) :
    testCmpFlt man t ty a b exp = if exp = arrayPartialCompare FVal.cmp (a.toList.map (valueOf man)) (b.toList.map (valueOf man)) ∧ exp ≠ none ∧
      (∀ i (h : i < ty.lanes), valueOf man a[i] ≠ .nan) ∧ (∀ i (h : i < ty.lanes), valueOf man b[i] ≠ .nan) then .ok () else .error .panic := by
  let c : Vec (BitVec (8 * ty.laneBytes t)) ty.lanes → Vec (BitVec (8 * ty.laneBytes t)) ty.lanes → Option Ordering := fun x y =>
    arrayPartialCompare FVal.cmp (x.toList.map (valueOf man)) (y.toList.map (valueOf man))
  have H := fun x y => C21_lex t ty ht hf x y
  have heq : ∀ x y, FVec.partialEq man t ty x y = .ok (c x y == some .eq) ∧ FVec.partialNe man t ty x y = .ok (c x y != some .eq) := by
    intro x y
    obtain ⟨e, he, hd, -⟩ := C19_float t ty ht hf x y
    have h := (H x y).1
    have h2 := (H x y).2.1
    have h3 := (H x y).2.2.1
    unfold FVec.lexPartialCmp Cmp.lexPartialCmp at h
    rw [h2, h3, he] at h
    rw [he, hd]
    show _ = Except.ok (c x y == _) ∧ _
    have hc : arrayPartialCompare FVal.cmp (x.toList.map (valueOf man)) (y.toList.map (valueOf man)) = c x y := rfl
    rw [hc] at h
    generalize c x y = r at *
    rcases r with _ | (_ | _ | _) <;> cases e <;> first | exact ⟨rfl, rfl⟩ | cases h
  have hcs : ∀ x y : FVal, y.cmp x = (x.cmp y).map Ordering.swap := by
    intro x y
    rcases x with _ | (_ | _) | p <;> rcases y with _ | (_ | _) | q <;> try rfl
    show some (compare q p) = some (compare p q).swap
    unfold compare
    simp only [instOrdInt, compareOfLessAndEq]
    rcases Int.lt_trichotomy p q with h | h | h
    · rw [if_neg (by omega), if_neg (by omega), if_pos h]; rfl
    · simp [h]
    · rw [if_pos h, if_neg (by omega), if_neg (by omega)]; rfl
  have hsw : ∀ xs ys : List FVal, arrayPartialCompare FVal.cmp ys xs = (arrayPartialCompare FVal.cmp xs ys).map Ordering.swap := by
    intro xs
    induction xs with
    | nil => intro ys; cases ys <;> rfl
    | cons x xs ih =>
      intro ys
      cases ys with
      | nil => rfl
      | cons y ys =>
        simp only [arrayPartialCompare, hcs x y]
        rcases x.cmp y with _ | (_ | _ | _)
        · rfl
        · rfl
        · exact ih ys
        · rfl
  have hpc : ∀ xs ys : List (BitVec (8 * ty.laneBytes t)), arrayPartialCompare (fltElemCmp man) xs ys =
      arrayPartialCompare FVal.cmp (xs.map (valueOf man)) (ys.map (valueOf man)) := by
    intro xs
    induction xs with
    | nil => intro ys; cases ys <;> rfl
    | cons x xs ih =>
      intro ys
      cases ys with
      | nil => rfl
      | cons y ys =>
        have : fltElemCmp man x y = (valueOf man x).cmp (valueOf man y) := by
          unfold fltElemCmp
          rw [olt_iff hf, oeq_iff hf, ogt_iff hf]
          rcases (valueOf man x).cmp (valueOf man y) with _ | (_ | _ | _) <;> rfl
        simp only [List.map_cons, arrayPartialCompare, ih, this]
  have hself : ∀ x, c x x = some .eq ↔ ∀ i (h : i < ty.lanes), valueOf man x[i] ≠ .nan := by
    intro x
    rw [← C19_float_reflexive t ty ht hf x, (heq x x).1, Except.ok.injEq, beq_iff_eq]
  have hsn : ∀ x, c x x = some .eq ∨ c x x = none := by
    intro x
    have h := hsw (x.toList.map (valueOf man)) (x.toList.map (valueOf man))
    change c x x = (c x x).map _ at h
    generalize c x x = r at h ⊢
    rcases r with _ | (_ | _ | _)
    · exact Or.inr rfl
    · cases h
    · exact Or.inl rfl
    · cases h
  have hrefl : c a b = some .eq → c a a = some .eq ∧ c b b = some .eq := by
    intro h
    obtain ⟨e, he, -, hiff⟩ := C19_float t ty ht hf a b
    rw [(heq a b).1, h] at he
    cases he
    have := hiff.1 rfl
    rw [hself, hself]
    exact ⟨fun i hi => (this i hi).1, fun i hi => (this i hi).2 ▸ (this i hi).1⟩
  unfold testCmpFlt
  rw [testCmp_eq (fltOps man t ty) c ty.lanes (lanes_le ty) Vector.toList (fltElemCmp man) 0 a b
    (fun _ => True) trivial trivial (fun x => x.length_toList) (fun x y _ _ => hpc _ _) (fun x y _ _ => (heq x y).1) (fun x y _ _ => (heq x y).2)
    (fun x y _ _ => (H x y).2.1) (fun x y _ _ => (H x y).2.2.2.1) (fun x y _ _ => (H x y).2.2.1) (fun x y _ _ => (H x y).2.2.2.2)
    (fun x y _ _ => (H x y).1) (hsw _ _) (hsn a) (hsn b) hrefl]
  simp only [hself]
  rfl

/-- Whatever the comparison operators, if the check passes then the outcome is that of the elements as slices, and the operators it looks at agree
with it.  Missing: agreement of the operators it does not look at (`C121_sound_fails`). -/
theorem C121_sound_partial {V E : Type} (o : Ops V) (n : Nat) (lanes : V → List E) (pc : E → E → Option Ordering) (d : E) (a b : V) (exp : Option Ordering)
    (hl : ∀ x, (lanes x).length = n) (h : testCmp o n lanes pc d a b exp = .ok ()) :
    o.cmp a b = .ok exp ∧ exp = arrayPartialCompare pc (lanes a) (lanes b) ∧
      (exp = some .lt → o.lt a b = .ok true ∧ o.gt b a = .ok true ∧ o.le a b = .ok true ∧ o.ge b a = .ok true ∧ o.eq a b = .ok false ∧
        o.lt a a = .ok false ∧ o.gt b b = .ok false ∧ o.le a a = .ok true ∧ o.le b b = .ok true) ∧
      (exp = some .gt → o.lt b a = .ok true ∧ o.gt a b = .ok true ∧ o.le b a = .ok true ∧ o.ge a b = .ok true ∧ o.eq b a = .ok false ∧
        o.lt b b = .ok false ∧ o.gt a a = .ok false ∧ o.le a a = .ok true ∧ o.le b b = .ok true) ∧
      (exp = some .eq → o.eq a b = .ok true ∧ o.ne a b = .ok false ∧ o.lt a b = .ok false ∧ o.lt b a = .ok false ∧ o.gt a b = .ok false ∧
        o.gt b a = .ok false ∧ o.le a b = .ok true ∧ o.ge b a = .ok true ∧ o.le b a = .ok true ∧ o.ge a b = .ok true) ∧
      (exp = none → o.eq a b = .ok false ∧ o.ne a b = .ok false) := by
  have A : ∀ (e : R Bool) (f : R Unit), (Testing.assert e >>= fun _ => f) = .ok () ↔ e = .ok true ∧ f = .ok () := by
    intro e f
    rcases e with _ | (_ | _) <;> simp [Testing.assert, bind, Except.bind, pure, Except.pure]
  have N : ∀ (e : R Bool) (f : R Unit), (Testing.assertNot e >>= fun _ => f) = .ok () ↔ e = .ok false ∧ f = .ok () := by
    intro e f
    rcases e with _ | (_ | _) <;> simp [Testing.assertNot, bind, Except.bind, pure, Except.pure]
  have S : ∀ (p q : Option Ordering) (f : R Unit), (Testing.assertSame p q >>= fun _ => f) = .ok () ↔ p = q ∧ f = .ok () := by
    intro p q f
    unfold Testing.assertSame
    split <;> simp_all [bind, Except.bind]
  have A' : ∀ e : R Bool, Testing.assert e = .ok () ↔ e = .ok true := by
    intro e
    rcases e with _ | (_ | _) <;> simp [Testing.assert, bind, Except.bind, pure, Except.pure]
  have N' : ∀ e : R Bool, Testing.assertNot e = .ok () ↔ e = .ok false := by
    intro e
    rcases e with _ | (_ | _) <;> simp [Testing.assertNot, bind, Except.bind, pure, Except.pure]
  have LT : ∀ x y f, (testLt o x y >>= fun _ => f) = .ok () → testLt o x y = .ok () ∧ f = .ok () := by
    intro x y f h
    cases hx : testLt o x y with
    | error e => rw [hx] at h; cases h
    | ok u => rw [hx] at h; exact ⟨rfl, h⟩
  have LE : ∀ x y f, (testLe o x y >>= fun _ => f) = .ok () → testLe o x y = .ok () ∧ f = .ok () := by
    intro x y f h
    cases hx : testLe o x y with
    | error e => rw [hx] at h; cases h
    | ok u => rw [hx] at h; exact ⟨rfl, h⟩
  have lt' : ∀ x y, testLt o x y = .ok () → o.lt x y = .ok true ∧ o.gt y x = .ok true ∧ o.le x y = .ok true ∧ o.ge y x = .ok true ∧ o.eq x y = .ok false ∧
        o.lt x x = .ok false ∧ o.gt y y = .ok false ∧ o.le x x = .ok true ∧ o.le y y = .ok true := by
    intro x y h
    unfold testLt at h
    simp only [A, N, A'] at h
    tauto
  have le' : ∀ x y, testLe o x y = .ok () → o.le x y = .ok true ∧ o.ge y x = .ok true := by
    intro x y h
    unfold testLe at h
    simp only [A] at h
    exact ⟨h.1, h.2.1⟩
  unfold testCmp at h
  dsimp only at h
  rw [A] at h
  obtain ⟨-, h⟩ := h
  cases hc : o.cmp a b with
  | error e => rw [hc] at h; cases h
  | ok r =>
    rw [hc] at h
    change (Testing.assertSame _ r >>= fun _ => (Testing.assertSame _ r >>= fun _ => _)) = _ at h
    rw [S, S] at h
    obtain ⟨h1, rfl, h⟩ := h
    rw [← hl a, padded_take, hl a, ← hl b, padded_take, slicePartialCmp_eq _ _ _ (by rw [hl, hl])] at h1
    refine ⟨rfl, h1.symm, ?_, ?_, ?_, ?_⟩
    · rintro rfl
      exact lt' _ _ (LT _ _ _ h).1
    · rintro rfl
      have := lt' _ _ (LT _ _ _ h).1
      tauto
    · rintro rfl
      dsimp only at h
      simp only [A, N] at h
      obtain ⟨e1, e2, e3, e4, e5, e6, h⟩ := h
      obtain ⟨h, h'⟩ := LE _ _ _ h
      exact ⟨e1, e2, e3, e4, e5, e6, (le' _ _ h).1, (le' _ _ h).2, (le' _ _ h').1, (le' _ _ h').2⟩
    · rintro rfl
      dsimp only at h
      simp only [N] at h
      exact ⟨h.1, h.2.1⟩

/-- Two unordered vectors can never be tested: the check fails with the right expectation, on the crate's own comparisons.  So does a pair that is
ordered by its first lanes but has NaN afterwards. -/
theorem C121_nan_fails :
    FVec.lexPartialCmp 23 armNeon .m32x2 #v[0x7fc00000, 0] #v[0, 0] = .ok none ∧
    testCmpFlt 23 armNeon .m32x2 #v[0x7fc00000, 0] #v[0, 0] none = .error .panic ∧
    FVec.lexPartialCmp 23 armNeon .m32x2 #v[0, 0x7fc00000] #v[0x3f800000, 0] = .ok (some .lt) ∧
    testCmpFlt 23 armNeon .m32x2 #v[0, 0x7fc00000] #v[0x3f800000, 0] (some .lt) = .error .panic := by decide +kernel

/-- Comparisons of numbers, except that `!=` is always false and `<` and `>` hold between any two different numbers. -/
def sloppyOps : Ops Nat :=
  ⟨fun a b => .ok (a == b), fun _ _ => .ok false, fun a b => .ok (a != b), fun a b => .ok (a ≤ b), fun a b => .ok (a != b), fun a b => .ok (a ≥ b),
    fun a b => .ok (some (compare a b))⟩

/-- For different vectors the check never looks at `!=`, nor at `b < a` when `a < b`: wrong operators pass. -/
theorem C121_sound_fails :
    testCmp sloppyOps 1 (fun a => [a]) (fun a b => some (compare a b)) 0 3 5 (some .lt) = .ok () ∧
    sloppyOps.ne 3 5 = .ok false ∧ sloppyOps.lt 5 3 = .ok true := by decide +kernel

/-- What the tests in partial_ord.rs:76-85 check, on one type. -/
example : testCmpInt armNeon .m32x4 true #v[0, 0, 0, 0] #v[1, 1, 1, 1] (some .lt) = .ok () ∧
    testCmpInt armNeon .m32x4 true #v[1, 1, 1, 1] #v[0, 0, 0, 0] (some .gt) = .ok () ∧
    testCmpInt armNeon .m32x4 true #v[0, 0, 0, 0] #v[1, 1, 1, 1] (some .gt) = .error .panic ∧
    testCmpMask armNeon .m32x2 #v[0, -1] #v[-1, 0] (some .lt) = .ok () ∧
    testCmpFlt 23 armNeon .m32x2 #v[0, 0x3f800000] #v[0x80000000, 0x40000000] (some .lt) = .ok () := by decide +kernel

end PackedSimd.Props
