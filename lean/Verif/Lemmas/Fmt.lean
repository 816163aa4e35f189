import Verif.Model.Fmt
import Verif.Spec.Fmt
import Verif.Lemmas.Reduce
/- Formatting. -/
namespace PackedSimd
open Spec Fmt

variable {σ α : Type} {n : Nat}

/-- Continue with `k` after success. -/
def andThenOk (r : Outcome σ) (k : σ → Outcome σ) : Outcome σ := if r.2 then k r.1 else r

theorem andThen_ok (r : Outcome σ) (k : σ → Outcome σ) : andThen r (fun f => .ok (k f)) = .ok (andThenOk r k) := by
  unfold andThen andThenOk; split <;> rfl

theorem runAll_cons (a : σ → σ × Bool) (as : List (σ → σ × Bool)) (s : σ) : runAll (a :: as) s = andThenOk (a s) (runAll as) := by
  unfold andThenOk
  rw [runAll]
  rcases h : a s with ⟨s', b⟩
  cases b <;> rfl

theorem andThenOk_assoc (r : Outcome σ) (k l : σ → Outcome σ) :
    andThenOk (andThenOk r k) l = andThenOk r (fun s => andThenOk (k s) l) := by
  unfold andThenOk
  rcases r with ⟨s, b⟩
  cases b <;> rfl

theorem runAll_append (as bs : List (σ → σ × Bool)) (s : σ) : runAll (as ++ bs) s = andThenOk (runAll as s) (runAll bs) := by
  induction as generalizing s with
  | nil => rfl
  | cons a as ih =>
    rw [List.cons_append, runAll_cons, runAll_cons, andThenOk_assoc]
    congr 1; funext s; exact ih s

theorem foldl_runAll {ι : Type} (acts : ι → List (σ → σ × Bool)) (l : List ι) (r : Outcome σ) :
    l.foldl (fun r i => andThenOk r (runAll (acts i))) r = andThenOk r (runAll (l.flatMap acts)) := by
  induction l generalizing r with
  | nil =>
    rcases r with ⟨s, b⟩
    cases b <;> rfl
  | cons i l ih =>
    rw [List.foldl_cons, ih, andThenOk_assoc, List.flatMap_cons]
    congr 1; funext s; exact (runAll_append _ _ s).symm

theorem foldlM_ok {ι β : Type} (f : β → ι → R β) (g : β → ι → β) (l : List ι) (h : ∀ b i, f b i = .ok (g b i)) (b : β) :
    l.foldlM f b = .ok (l.foldl g b) := by
  induction l generalizing b with
  | nil => rfl
  | cons i l ih => rw [List.foldlM_cons, h]; exact ih _

theorem runAll_single (a : σ → σ × Bool) (s : σ) : runAll [a] s = a s := by
  rw [runAll_cons]; unfold andThenOk
  rcases a s with ⟨s', b⟩
  cases b <;> rfl

theorem between_cons {β : Type} (sep x : β) (xs : List β) : between sep (x :: xs) = x :: xs.flatMap fun y => [sep, y] := by
  induction xs generalizing x with
  | nil => rfl
  | cons y ys ih => rw [between, ih]; rfl

theorem pieces_ok (S : Sink σ) (ps : List (List Char)) (f : σ) :
    ps.foldlM (fun r p => andThen r fun f => .ok (S.writeStr p f)) (f, true) = .ok (runAll (ps.map S.writeStr) f) := by
  rw [foldlM_ok _ (fun r p => andThenOk r (runAll [S.writeStr p])) _ (fun r p => by
    rw [andThen_ok]; congr 2; funext s; exact (runAll_single _ s).symm)]
  rw [foldl_runAll (fun p => [S.writeStr p])]
  congr 1
  show runAll _ f = _
  congr 1
  induction ps with
  | nil => rfl
  | cons p ps ih => rw [List.flatMap_cons, List.map_cons, ih]; rfl

theorem R_ok_bind {β γ : Type} (b : β) (k : β → R γ) : (Except.ok b >>= k) = k b := rfl

theorem fmtLanes_eq (S : Sink σ) (ps : List (List Char)) (hn : 0 < n) (ex : Nat → R α) (v : Vec α n)
    (hex : ∀ i (hi : i < n), ex i = .ok v[i]) (lane : α → σ → Outcome σ) (f : σ) :
    fmtLanes S ps n ex lane f = .ok (runAll (ps.map S.writeStr ++ between (S.writeStr [',', ' ']) (v.toList.map lane) ++ [S.writeStr [')']]) f) := by
  unfold fmtLanes
  rw [pieces_ok, R_ok_bind]
  let x : Nat → α := fun i => if h : i < n then v[i] else v[0]
  rw [forRange_ok _ (fun r i => andThenOk r (runAll ((if i > 0 then [S.writeStr [',', ' ']] else []) ++ [lane (x i)])))]
  · rw [R_ok_bind, andThen_ok, foldl_runAll (fun i => (if i > 0 then [S.writeStr [',', ' ']] else []) ++ [lane (x i)])]
    congr 1
    rw [runAll_append, runAll_append]
    have hrange : List.range' 0 n = 0 :: List.range' 1 (n - 1) := by
      obtain ⟨k, rfl⟩ : ∃ k, n = k + 1 := ⟨n - 1, by omega⟩
      exact List.range'_succ
    have h1 : (List.range' 0 (n - 0)).flatMap (fun i => (if i > 0 then [S.writeStr [',', ' ']] else []) ++ [lane (x i)]) =
        between (S.writeStr [',', ' ']) (v.toList.map lane) := by
      rw [toList_eq_cons v hn, List.map_cons, between_cons, Nat.sub_zero, hrange, List.flatMap_cons]
      have h0 : x 0 = v[0] := by simp [x]
      simp only [Nat.lt_irrefl, gt_iff_lt, if_false, List.nil_append, h0, List.singleton_append, Nat.zero_add, List.map_map]
      congr 1
      rw [List.flatMap_map]
      apply List.flatMap_congr
      intro i hi
      rw [List.mem_range'_1] at hi
      rw [if_pos (show 0 < i by omega)]
      rfl
    rw [h1]
    congr 1
    funext s
    exact (runAll_single _ s).symm
  · rintro ⟨s, b⟩ i - hi
    cases b with
    | false => rfl
    | true =>
      have hx : ex i = .ok (x i) := by rw [hex i hi]; simp [x, hi]
      by_cases h0 : i > 0
      · rw [if_pos h0, List.singleton_append]
        simp only [andThen, if_true, if_pos h0, hx, R_ok_bind]
        show (if (S.writeStr [',', ' '] s).2 then Except.ok (lane (x i) (S.writeStr [',', ' '] s).1) else Except.ok (S.writeStr [',', ' '] s)) = Except.ok (runAll _ s)
        rw [runAll_cons]
        unfold andThenOk
        split
        · rw [runAll_single]
        · rfl
      · rw [if_neg h0, List.nil_append]
        simp only [andThen, if_true, if_neg h0, hx, R_ok_bind]
        exact congrArg Except.ok (runAll_single _ s).symm

/-- Writing to a string. -/
def stringSink : Sink (List Char) := ⟨fun p s => (s ++ p, true)⟩

theorem runAll_string (ps : List (List Char)) (s : List Char) : runAll (ps.map stringSink.writeStr) s = (s ++ ps.flatten, true) := by
  induction ps generalizing s with
  | nil => simp [runAll]
  | cons p ps ih =>
    rw [List.map_cons, runAll_cons]
    show runAll _ (s ++ p) = _
    rw [ih, List.flatten_cons, List.append_assoc]

theorem map_between {β γ : Type} (f : β → γ) (sep : β) (l : List β) : between (f sep) (l.map f) = (between sep l).map f := by
  cases l with
  | nil => rfl
  | cons x xs => rw [List.map_cons, between_cons, between_cons, List.map_cons, List.flatMap_map, List.map_flatMap]; rfl

/-- Splitting at the first comma. -/
theorem comma_split {a b : List Char} (ha : ',' ∉ a) (hb : ',' ∉ b) {r s : List Char} (h : a ++ ',' :: r = b ++ ',' :: s) : a = b ∧ r = s := by
  induction a generalizing b with
  | nil =>
    cases b with
    | nil => exact ⟨rfl, (List.cons.inj h).2⟩
    | cons c b =>
      have := (List.cons.inj h).1
      exact absurd (by rw [← this]; simp) hb
  | cons c a ih =>
    cases b with
    | nil =>
      have := (List.cons.inj h).1
      exact absurd (by rw [this]; simp) ha
    | cons d b =>
      obtain ⟨e1, e2⟩ := List.cons.inj h
      obtain ⟨e3, e4⟩ := ih (fun h => ha (by simp [h])) (fun h => hb (by simp [h])) e2
      exact ⟨by rw [e1, e3], e4⟩

theorem commaList_cons (x : List Char) (y : List Char) (r : List (List Char)) :
    commaList (x :: y :: r) = x ++ ',' :: ' ' :: commaList (y :: r) := by
  simp [commaList, between]

theorem commaList_inj : ∀ (l l' : List (List Char)), l.length = l'.length → (∀ x ∈ l, ',' ∉ x) → (∀ x ∈ l', ',' ∉ x) →
    commaList l = commaList l' → l = l' := by
  intro l
  induction l with
  | nil => intro l' hl _ _ _; exact (List.length_eq_zero_iff.1 hl.symm).symm
  | cons x xs ih =>
    intro l' hl h1 h2 h
    cases l' with
    | nil => simp at hl
    | cons x' xs' =>
      cases xs with
      | nil =>
        cases xs' with
        | nil => simpa [commaList, between] using h
        | cons y' r' => simp at hl
      | cons y r =>
        cases xs' with
        | nil => simp at hl
        | cons y' r' =>
          rw [commaList_cons, commaList_cons] at h
          obtain ⟨e1, e2⟩ := comma_split (h1 x (by simp)) (h2 x' (by simp)) h
          rw [e1, ih (y' :: r') (by simpa using hl) (fun z hz => h1 z (by simp [hz])) (fun z hz => h2 z (by simp [hz])) (List.cons.inj e2).2]

theorem digitChar_inj {a b : Nat} (ha : a < 16) (hb : b < 16) (h : Nat.digitChar a = Nat.digitChar b) : a = b := by
  have : ∀ a : Fin 16, ∀ b : Fin 16, Nat.digitChar a = Nat.digitChar b → a = b := by decide +kernel
  exact congrArg Fin.val (this ⟨a, ha⟩ ⟨b, hb⟩ h)

theorem digitChar_plain {a : Nat} (ha : a < 16) : Nat.digitChar a ≠ ',' ∧ Nat.digitChar a ≠ '-' := by
  have : ∀ a : Fin 16, Nat.digitChar a ≠ ',' ∧ Nat.digitChar a ≠ '-' := by decide +kernel
  exact this ⟨a, ha⟩

theorem toDigits_ne_nil {b m : Nat} (hb : 1 < b) : Nat.toDigits b m ≠ [] := by
  rw [Nat.toDigits_eq_if hb]
  split <;> simp

theorem toDigits_inj {b : Nat} (hb : 1 < b) (hb' : b ≤ 16) : ∀ m m', Nat.toDigits b m = Nat.toDigits b m' → m = m' := by
  intro m
  induction m using Nat.strongRecOn with
  | _ m ih =>
    intro m' h
    rw [Nat.toDigits_eq_if hb, Nat.toDigits_eq_if hb (n := m')] at h
    have hl : m % b < b := Nat.mod_lt _ (by omega)
    have hl' : m' % b < b := Nat.mod_lt _ (by omega)
    split at h
    · split at h
      · exact digitChar_inj (by omega) (by omega) (by simpa using h)
      · exact absurd (congrArg List.length h) (by
          have := List.length_pos_iff.2 (toDigits_ne_nil (m := m' / b) hb)
          rw [List.length_append]; simp only [List.length_singleton]; omega)
    · split at h
      · exact absurd (congrArg List.length h) (by
          have := List.length_pos_iff.2 (toDigits_ne_nil (m := m / b) hb)
          rw [List.length_append]; simp only [List.length_singleton]; omega)
      · obtain ⟨e1, e2⟩ := List.append_inj' h rfl
        have h1 := ih (m / b) (Nat.div_lt_self (by omega) hb) _ e1
        have h2 := digitChar_inj (a := m % b) (b := m' % b) (by omega) (by omega) (by simpa using e2)
        rw [← Nat.div_add_mod m b, ← Nat.div_add_mod m' b, h1, h2]

theorem toDigits_plain {b : Nat} (hb : 1 < b) (hb' : b ≤ 16) : ∀ m c, c ∈ Nat.toDigits b m → c ≠ ',' ∧ c ≠ '-' := by
  intro m
  induction m using Nat.strongRecOn with
  | _ m ih =>
    intro c hc
    rw [Nat.toDigits_eq_if hb] at hc
    have hl : m % b < b := Nat.mod_lt _ (by omega)
    split at hc
    · rw [List.mem_singleton.1 hc]; exact digitChar_plain (by omega)
    · rcases List.mem_append.1 hc with hc | hc
      · exact ih _ (Nat.div_lt_self (by omega) hb) c hc
      · rw [List.mem_singleton.1 hc]; exact digitChar_plain (by omega)

theorem decimal_plain (z : Int) : ',' ∉ decimal z := by
  intro h
  rcases List.mem_append.1 h with h | h
  · split at h <;> simp at h
  · exact (toDigits_plain (by decide) (by decide) _ _ h).1 rfl

theorem decimal_inj (z z' : Int) (h : decimal z = decimal z') : z = z' := by
  unfold decimal digits at h
  have key : ∀ m m', ['-'] ++ Nat.toDigits 10 m ≠ Nat.toDigits 10 m' := fun m m' h =>
    (toDigits_plain (b := 10) (by decide) (by decide) m' '-' (by rw [← h]; simp)).2 rfl
  by_cases h1 : z < 0 <;> by_cases h2 : z' < 0
  · rw [if_pos h1, if_pos h2] at h
    have := toDigits_inj (by decide) (by decide) _ _ (List.append_cancel_left h)
    omega
  · rw [if_pos h1, if_neg h2] at h; exact absurd h (key _ _)
  · rw [if_neg h1, if_pos h2] at h; exact absurd h.symm (key _ _)
  · rw [if_neg h1, if_neg h2] at h
    have := toDigits_inj (by decide) (by decide) _ _ (List.append_cancel_left h)
    omega

end PackedSimd
