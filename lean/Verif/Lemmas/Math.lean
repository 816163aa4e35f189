import Verif.Model.Math
import Verif.Lemmas.Bytes
import Verif.Lemmas.Lanes
import Verif.Lemmas.Fmt
/-
Every strategy for evaluating a math method computes the library function lane by lane.
-/
namespace PackedSimd.Math

variable {k n : Nat}

/-! ### Bytes of lists of lanes -/

/-- Bytes of a list of lanes. -/
def enc (e : Endian) (xs : List (BitVec (8 * k))) : List Byte := xs.flatMap fun x => (laneBytes e x).toList

theorem enc_append (e : Endian) (xs ys : List (BitVec (8 * k))) : enc e (xs ++ ys) = enc e xs ++ enc e ys := by
  simp [enc]

@[simp] theorem length_enc (e : Endian) (xs : List (BitVec (8 * k))) : (enc e xs).length = xs.length * k := by
  induction xs with
  | nil => simp [enc]
  | cons x xs ih =>
    have : enc e (x :: xs) = (laneBytes e x).toList ++ enc e xs := by simp [enc]
    rw [this, List.length_append, ih, Vector.length_toList, List.length_cons, Nat.add_mul]; omega

theorem getElem?_enc (e : Endian) (xs : List (BitVec (8 * k))) (i j : Nat) (hj : j < k) :
    (enc e xs)[i * k + j]? = (xs[i]?).map fun x => (laneBytes e x)[j] := by
  induction xs generalizing i with
  | nil => simp [enc]
  | cons x xs ih =>
    have h : enc e (x :: xs) = (laneBytes e x).toList ++ enc e xs := by simp [enc]
    rw [h]
    cases i with
    | zero =>
      rw [Nat.zero_mul, Nat.zero_add, List.getElem?_append_left (by simpa using hj)]
      simp [hj]
    | succ i =>
      rw [List.getElem?_append_right (by rw [Vector.length_toList, Nat.add_mul]; omega), Vector.length_toList,
        show (i + 1) * k + j - k = i * k + j by rw [Nat.add_mul]; omega, ih]
      simp

theorem bytesOf_eq (e : Endian) (v : Vec (BitVec (8 * k)) n) : bytesOf e v = enc e v.toList := by
  apply List.ext_getElem?
  intro p
  by_cases hp : p < n * k
  · have hk : 0 < k := Nat.pos_of_ne_zero fun h0 => by subst h0; simp at hp
    have hi : p / k < n := Nat.div_lt_of_lt_mul (Nat.mul_comm n k ▸ hp)
    have hj := Nat.mod_lt p hk
    have e1 : p / k * k + p % k = p := by rw [Nat.mul_comm]; exact Nat.div_add_mod p k
    have h1 := getElem_toBytes e v hi hj
    have h2 := getElem?_enc e v.toList (p / k) (p % k) hj
    rw [e1] at h2
    simp only [e1] at h1
    rw [h2]
    simp [bytesOf, hp, hi, h1]
  · rw [List.getElem?_eq_none (by simp [bytesOf]; omega), List.getElem?_eq_none (by simp; omega)]

@[simp] theorem length_bytesOf (e : Endian) (v : Vec (BitVec (8 * k)) n) : (bytesOf e v).length = n * k := by
  simp [bytesOf]

theorem decode_bytesOf (e : Endian) (v : Vec (BitVec (8 * k)) n) : decode e k n (bytesOf e v) = .ok v := by
  rw [decode, dif_pos (by simp)]
  have : (⟨(bytesOf e v).toArray, by simp⟩ : Vector Byte (n * k)) = toBytes e v := by
    apply Vector.toList_inj.mp; simp [bytesOf]
  rw [this, fromBytes_toBytes]

theorem decode_enc (e : Endian) (xs : List (BitVec (8 * k))) (v : Vec (BitVec (8 * k)) n) (h : xs = v.toList) :
    decode e k n (enc e xs) = .ok v := by
  rw [h, ← bytesOf_eq, decode_bytesOf]

theorem enc_drop (e : Endian) (xs : List (BitVec (8 * k))) (m : Nat) : (enc e xs).drop (m * k) = enc e (xs.drop m) := by
  induction m generalizing xs with
  | zero => simp
  | succ m ih =>
    cases xs with
    | nil => simp [enc]
    | cons x xs =>
      have h : enc e (x :: xs) = (laneBytes e x).toList ++ enc e xs := by simp [enc]
      rw [h, List.drop_succ_cons, ← ih, Nat.add_mul, Nat.one_mul, Nat.add_comm, ← List.drop_drop, List.drop_left' (by simp)]

theorem enc_take (e : Endian) (xs : List (BitVec (8 * k))) (m : Nat) : (enc e xs).take (m * k) = enc e (xs.take m) := by
  induction m generalizing xs with
  | zero => simp [enc]
  | succ m ih =>
    cases xs with
    | nil => simp [enc]
    | cons x xs =>
      have h : enc e (x :: xs) = (laneBytes e x).toList ++ enc e xs := by simp [enc]
      have h' : enc e (x :: xs.take m) = (laneBytes e x).toList ++ enc e (xs.take m) := by simp [enc]
      rw [h, List.take_succ_cons, h', ← ih, List.take_append, Vector.length_toList, List.take_of_length_le (by simp [Nat.add_mul]),
        show (m + 1) * k - k = m * k by rw [Nat.add_mul]; omega]

/-- Lanes `j*h .. (j+1)*h`. -/
def slice (v : Vec α n) (j h : Nat) (hn : (j + 1) * h ≤ n) : Vec α h :=
  Vector.ofFn fun i => v[j * h + i.val]'(by have := i.2; rw [Nat.add_mul] at hn; omega)

theorem toList_slice (v : Vec α n) (j h : Nat) (hn : (j + 1) * h ≤ n) : (slice v j h hn).toList = (v.toList.drop (j * h)).take h := by
  rw [Nat.add_mul] at hn
  apply List.ext_getElem
  · simp; omega
  · intro i h1 h2
    simp [slice]

theorem part_bytesOf (e : Endian) (v : Vec (BitVec (8 * k)) n) (j h : Nat) (hn : (j + 1) * h ≤ n) :
    part (h * k) j (bytesOf e v) = bytesOf e (slice v j h hn) := by
  rw [bytesOf_eq, bytesOf_eq, toList_slice, part, ← Nat.mul_assoc, enc_drop, enc_take]

/-! ### Library calls -/

variable (t : Target) (W : World)

theorem mapM_ok {α β : Type} (f : α → R β) (g : α → β) (xs : List α) (h : ∀ x ∈ xs, f x = .ok (g x)) : xs.mapM f = .ok (xs.map g) := by
  induction xs with
  | nil => rfl
  | cons x xs ih =>
    rw [List.mapM_cons, h x (by simp), R_ok_bind, ih (fun y hy => h y (by simp [hy])), R_ok_bind]; rfl

/-- A library call on vectors of the function's own type. -/
theorem call_ok (f : Fn) (hisa : Isa.enabled t f.lib.isa = true) (xs : List (Vec (FLane f.elem) f.lib.lanes)) :
    call t W f (xs.map (bytesOf t.endian)) =
      .ok (bytesOf t.endian (Vector.ofFn fun i : Fin f.lib.lanes => laneFn W f (xs.map (·[i])))) := by
  rw [call, if_pos hisa, List.mapM_map]
  rw [mapM_ok (decode t.endian f.elem.bytes f.lib.lanes ∘ bytesOf t.endian) id xs (fun x _ => decode_bytesOf _ x), R_ok_bind]
  simp

theorem call_ok' (el : FTy) (lib : Lib) (m : Nat) (hm : lib.lanes = m) (hisa : Isa.enabled t lib.isa = true) (xs : List (Vec (FLane el) m)) :
    call t W ⟨el, lib⟩ (xs.map (bytesOf t.endian)) =
      .ok (bytesOf t.endian (Vector.ofFn fun i : Fin m => laneFn W ⟨el, lib⟩ (xs.map (·[i])))) := by
  subst hm
  exact call_ok t W ⟨el, lib⟩ hisa xs

/-- The lane-wise result. -/
def lanewise {el : FTy} {n : Nat} (S : List (FLane el) → FLane el) (xs : List (Vec (FLane el) n)) : Vec (FLane el) n :=
  Vector.ofFn fun i => S (xs.map (·[i]))

variable (junk : Nat → Nat → Byte) (el : FTy) (lib : Lib) (hisa : Isa.enabled t lib.isa = true)
include hisa

theorem run_vec (xs : List (FV ⟨el, n⟩)) (hl : lib.lanes = n) :
    run t W junk ⟨el, n⟩ xs (.vec ⟨el, lib⟩) = .ok (lanewise (laneFn W ⟨el, lib⟩) xs) := by
  rw [run, call_ok' t W el lib n hl hisa, R_ok_bind, decode_bytesOf]; rfl

omit hisa in
theorem laneBytes_eq_bytesOf (x : BitVec (8 * k)) (e : Endian) : (laneBytes e x).toList = bytesOf e (#v[x] : Vec (BitVec (8 * k)) 1) := by
  rw [bytesOf_eq]; simp [enc]

theorem run_scalar (xs : List (FV ⟨el, n⟩)) (hl : lib.lanes = 1) :
    run t W junk ⟨el, n⟩ xs (.scalar el n ⟨el, lib⟩) = .ok (lanewise (laneFn W ⟨el, lib⟩) xs) := by
  rw [run, mapM_ok _ id xs (fun x _ => decode_bytesOf _ x), R_ok_bind]
  rw [mapM_ok _ (fun i : Fin n => enc t.endian [laneFn W ⟨el, lib⟩ (xs.map (·[i]))]) _ ?_, R_ok_bind]
  · have : ((List.finRange n).map fun i : Fin n => enc t.endian [laneFn W ⟨el, lib⟩ (xs.map (·[i]))]).flatten =
        enc t.endian (lanewise (laneFn W ⟨el, lib⟩) xs).toList := by
      rw [show (lanewise (laneFn W ⟨el, lib⟩) xs).toList = (List.finRange n).map fun i : Fin n => laneFn W ⟨el, lib⟩ (xs.map (·[i])) by
        apply List.ext_getElem <;> simp [lanewise]]
      simp [enc, List.flatMap_def, Function.comp_def]
    rw [this]
    exact decode_enc _ _ _ rfl
  · intro i _
    have : (xs.map id).map (fun s : FV ⟨el, n⟩ => (laneBytes t.endian s[i]).toList) =
        (xs.map fun x : FV ⟨el, n⟩ => (#v[x[i]] : Vec (FLane el) 1)).map (bytesOf t.endian) := by
      simp only [List.map_id, List.map_map]
      apply List.map_congr_left
      intro x _
      exact laneBytes_eq_bytesOf _ _
    rw [this, call_ok' t W el lib 1 hl hisa, bytesOf_eq]
    congr 2
    apply List.ext_getElem <;> simp [Function.comp_def]

theorem call_part (xs : List (FV ⟨el, n⟩)) (j h : Nat) (hn : (j + 1) * h ≤ n) (hl : lib.lanes = h) :
    call t W ⟨el, lib⟩ (xs.map fun x => part (size ⟨el, h⟩) j (bytesOf t.endian x)) =
      .ok (bytesOf t.endian (slice (lanewise (laneFn W ⟨el, lib⟩) xs) j h hn)) := by
  have : (xs.map fun x : FV ⟨el, n⟩ => part (size ⟨el, h⟩) j (bytesOf t.endian x)) =
      (xs.map fun x : FV ⟨el, n⟩ => slice x j h hn).map (bytesOf t.endian) := by
    rw [List.map_map]
    apply List.map_congr_left
    intro x _
    exact part_bytesOf _ _ _ _ _
  rw [this, call_ok' t W el lib h hl hisa]
  congr 2
  ext i hi : 1
  simp [slice, lanewise, Function.comp_def]

omit hisa in
theorem toList_eq_slices2 (v : Vec α (2 * h)) :
    (slice v 0 h (by omega)).toList ++ (slice v 1 h (by omega)).toList = v.toList := by
  simp only [toList_slice]
  rw [Nat.zero_mul, List.drop_zero, Nat.one_mul, List.take_of_length_le (l := v.toList.drop h) (by simp; omega), List.take_append_drop]

omit hisa in
theorem toList_eq_slices4 (v : Vec α (4 * h)) :
    (slice v 0 h (by omega)).toList ++ (slice v 1 h (by omega)).toList ++ (slice v 2 h (by omega)).toList ++ (slice v 3 h (by omega)).toList =
      v.toList := by
  simp only [toList_slice]
  apply List.ext_getElem
  · simp; omega
  · intro i h1 h2
    simp only [Vector.length_toList] at h2
    simp only [List.getElem_append, List.getElem_take, List.getElem_drop, List.length_append, List.length_take, List.length_drop, Vector.length_toList]
    split
    · split
      · split
        · simp
        · congr 1; omega
      · congr 1; omega
    · congr 1; omega

theorem run_halves (h : Nat) (xs : List (FV ⟨el, 2 * h⟩)) (hl : lib.lanes = h) :
    run t W junk ⟨el, 2 * h⟩ xs (.halves ⟨el, h⟩ ⟨el, lib⟩) = .ok (lanewise (laneFn W ⟨el, lib⟩) xs) := by
  rw [run, if_pos (by simp [splits, size, Nat.mul_assoc]), call_part t W el lib hisa xs 0 h (by omega) hl, R_ok_bind,
    call_part t W el lib hisa xs 1 h (by omega) hl, R_ok_bind, bytesOf_eq, bytesOf_eq, ← enc_append]
  exact decode_enc _ _ _ (toList_eq_slices2 _)

theorem run_quarters (h : Nat) (xs : List (FV ⟨el, 4 * h⟩)) (hl : lib.lanes = h) :
    run t W junk ⟨el, 4 * h⟩ xs (.quarters ⟨el, h⟩ ⟨el, lib⟩) = .ok (lanewise (laneFn W ⟨el, lib⟩) xs) := by
  rw [run, if_pos (by simp [splits, size, Nat.mul_assoc]), call_part t W el lib hisa xs 0 h (by omega) hl, R_ok_bind,
    call_part t W el lib hisa xs 1 h (by omega) hl, R_ok_bind, call_part t W el lib hisa xs 2 h (by omega) hl, R_ok_bind,
    call_part t W el lib hisa xs 3 h (by omega) hl, R_ok_bind]
  simp only [bytesOf_eq, ← enc_append]
  exact decode_enc _ _ _ (toList_eq_slices4 _)

omit hisa in
/-- A padded vector is some vector of twice the length whose low half is the given one. -/
theorem padded_eq (e : Endian) (ju : Nat → Byte) (v : FV ⟨el, n⟩) :
    ∃ u : FV ⟨el, 2 * n⟩, padded e ju v = bytesOf e u ∧ ∀ i (h : i < n), u[i]'(show i < 2 * n by omega) = v[i] := by
  have hlen : (padded e ju v).length = 2 * n * el.bytes := by
    simp [padded, size, Nat.mul_assoc]; omega
  let bs : Vector Byte (2 * n * el.bytes) := ⟨(padded e ju v).toArray, by simpa using hlen⟩
  refine ⟨fromBytes e el.bytes (2 * n) bs, ?_, ?_⟩
  · show _ = (toBytes e _).toList
    rw [toBytes_fromBytes]; simp [bs]
  · intro i hi
    have h2 : slice (fromBytes e el.bytes (2 * n) bs) 0 n (by omega) = v := by
      have h3 := part_bytesOf e (fromBytes e el.bytes (2 * n) bs) 0 n (by omega)
      have h4 : part (n * el.bytes) 0 (bytesOf e (fromBytes e el.bytes (2 * n) bs)) = bytesOf e v := by
        show part _ _ (toBytes e _).toList = _
        rw [toBytes_fromBytes]
        simp [bs, part, padded]
      rw [h4] at h3
      have := congrArg (decode e el.bytes n) h3
      rw [decode_bytesOf, decode_bytesOf] at this
      exact (Except.ok.inj this).symm
    have h5 := congrArg (fun u : Vec (FLane el) n => u[i]) h2
    simpa [slice] using h5

theorem run_twice (xs : List (FV ⟨el, n⟩)) (hl : lib.lanes = 2 * n) :
    run t W junk ⟨el, n⟩ xs (.twice ⟨el, 2 * n⟩ ⟨el, lib⟩) = .ok (lanewise (laneFn W ⟨el, lib⟩) xs) := by
  have hp : ∃ us : List (FV ⟨el, 2 * n⟩), (xs.mapIdx fun a x => padded t.endian (junk a) x) = us.map (bytesOf t.endian) ∧
      ∀ i (h : i < n), us.map (fun u : FV ⟨el, 2 * n⟩ => u[i]'(show i < 2 * n by omega)) = xs.map fun x : FV ⟨el, n⟩ => x[i]'(show i < n from h) := by
    induction xs generalizing junk with
    | nil => exact ⟨[], by simp⟩
    | cons x xs ih =>
      obtain ⟨u, hu, hu'⟩ := padded_eq el t.endian (junk 0) x
      obtain ⟨us, hus, hus'⟩ := ih (fun a => junk (a + 1))
      refine ⟨u :: us, ?_, ?_⟩
      · rw [List.mapIdx_cons, List.map_cons, hu, hus]
      · intro i h
        rw [List.map_cons, List.map_cons, hu' i h, hus' i h]
  obtain ⟨us, h1, h2⟩ := hp
  rw [run, if_pos (by simp [splits, size, Nat.mul_assoc]), h1, call_ok' t W el lib (2 * n) hl hisa, R_ok_bind,
    show size ⟨el, n⟩ = n * el.bytes from rfl, part_bytesOf _ _ 0 n (by omega), decode_bytesOf]
  congr 1
  ext i hi : 1
  simp only [slice, lanewise, Vector.getElem_ofFn, Nat.zero_mul, Nat.zero_add]
  congr 1
  exact h2 i hi

end PackedSimd.Math
