import Verif.Model.MaskReduce
import Verif.Lemmas.Bytes

namespace PackedSimd
open Intr

/-- Byte image of the mask with the given lane truth values, `k` bytes per lane. -/
def enc (k : Nat) (L : List Bool) : List Byte := L.flatMap fun b => List.replicate k (maskBits 8 b)

@[simp] theorem enc_nil (k : Nat) : enc k [] = [] := rfl
theorem enc_cons (k : Nat) (b : Bool) (L : List Bool) : enc k (b :: L) = List.replicate k (maskBits 8 b) ++ enc k L := rfl
theorem enc_append (k : Nat) (L M : List Bool) : enc k (L ++ M) = enc k L ++ enc k M := by simp [enc]

@[simp] theorem enc_length (k : Nat) (L : List Bool) : (enc k L).length = L.length * k := by
  induction L with
  | nil => simp
  | cons b L ih => simp [enc_cons, ih, Nat.add_mul]; omega

theorem enc_mul (k j : Nat) (L : List Bool) : enc (k * j) L = enc k (L.flatMap (List.replicate j)) := by
  induction L with
  | nil => rfl
  | cons b L ih =>
    rw [enc_cons, ih, List.flatMap_cons, enc_append]
    congr 1
    clear ih
    induction j with
    | zero => simp
    | succ j ihj => rw [List.replicate_succ, enc_cons, ← ihj, List.replicate_append_replicate, Nat.mul_succ, Nat.add_comm]

theorem all_replicate (j : Nat) (hj : 0 < j) (L : List Bool) :
    (L.flatMap (List.replicate j)).all id = L.all id ∧ (L.flatMap (List.replicate j)).any id = L.any id := by
  constructor <;>
  · induction L with
    | nil => rfl
    | cons b L ih =>
      rw [List.flatMap_cons]
      simp only [List.all_append, List.any_append, List.all_cons, List.any_cons, ih]
      congr 1
      simp [List.all_replicate, List.any_replicate]
      omega

theorem flatMap_replicate_length (j : Nat) (L : List Bool) : (L.flatMap (List.replicate j)).length = L.length * j := by
  induction L with
  | nil => simp
  | cons b L ih => simp only [List.flatMap_cons, List.length_append, List.length_replicate, ih, List.length_cons, Nat.add_mul]; omega

theorem enc_take (k : Nat) (L : List Bool) (m : Nat) : (enc k L).take (m * k) = enc k (L.take m) := by
  by_cases h : m ≤ L.length
  · conv => lhs; rw [← List.take_append_drop m L, enc_append]
    rw [List.take_append_of_le_length (by simp [Nat.min_eq_left h])]
    rw [List.take_of_length_le (by simp [Nat.min_eq_left h])]
  · rw [List.take_of_length_le (by simp; exact Nat.mul_le_mul_right k (by omega)), List.take_of_length_le (by omega)]

theorem enc_drop (k : Nat) (L : List Bool) (m : Nat) : (enc k L).drop (m * k) = enc k (L.drop m) := by
  by_cases h : m ≤ L.length
  · conv => lhs; rw [← List.take_append_drop m L, enc_append]
    rw [List.drop_append_of_le_length (by simp [Nat.min_eq_left h]),
      List.drop_of_length_le (by simp [Nat.min_eq_left h])]
    simp
  · rw [List.drop_of_length_le (by simp; exact Nat.mul_le_mul_right k (by omega)), List.drop_of_length_le (by omega)]
    simp

theorem enc_getD (k : Nat) (L : List Bool) {i j : Nat} (hi : i < L.length) (hj : j < k) :
    (enc k L).getD (i * k + j) 0#8 = maskBits 8 L[i] := by
  induction L generalizing i with
  | nil => simp at hi
  | cons b L ih =>
    rw [enc_cons, List.getD_eq_getElem?_getD]
    cases i with
    | zero => rw [List.getElem?_append_left (by simpa using hj)]; simp [hj]
    | succ i =>
      rw [List.getElem?_append_right (by simp [Nat.add_mul]; omega), ← List.getD_eq_getElem?_getD]
      rw [show (i + 1) * k + j - (List.replicate k (maskBits 8 b)).length = i * k + j by
        simp [Nat.add_mul]; omega]
      simp only [List.length_cons] at hi
      rw [ih (by omega)]; rfl

theorem laneBytes_maskBits (e : Endian) (k : Nat) (b : Bool) :
    laneBytes e (maskBits (8 * k) b) = Vector.replicate k (maskBits 8 b) := by
  ext j hj : 1
  apply BitVec.eq_of_getLsbD_eq
  intro i hi
  rw [getLsbD_laneBytes _ _ hj hi, getLsbD_maskBits]
  · simp [hi]
  · have := bytePos_lt (e := e) hj; omega

theorem laneOfBytes_replicate (e : Endian) (k : Nat) (b : Bool) :
    laneOfBytes e (Vector.replicate k (maskBits 8 b)) = maskBits (8 * k) b := by
  rw [← laneBytes_maskBits e, laneOfBytes_laneBytes]

theorem lanesOfBytes_enc (e : Endian) {k : Nat} (hk : 0 < k) (L : List Bool) :
    lanesOfBytes e k (enc k L) = L.map (maskBits (8 * k)) := by
  unfold lanesOfBytes
  apply List.ext_getElem
  · simp [Nat.mul_div_cancel _ hk]
  · intro i h1 h2
    simp only [List.length_map] at h2
    simp only [List.getElem_ofFn, List.getElem_map]
    rw [← laneOfBytes_replicate e]
    congr 1
    ext j hj : 1
    rw [Vector.getElem_ofFn, enc_getD k L h2 hj, Vector.getElem_replicate]

theorem bytesOfLanes_map (e : Endian) (k : Nat) (L : List Bool) :
    bytesOfLanes e (L.map (maskBits (8 * k))) = enc k L := by
  simp [bytesOfLanes, enc, List.flatMap_map, laneBytes_maskBits]

theorem toBytes_maskVec (e : Endian) (k n : Nat) (hk : 0 < k) (f : Vec Bool n) :
    (toBytes e (f.map (maskBits (8 * k)))).toList = enc k f.toList := by
  apply List.ext_getElem
  · simp
  · intro p h1 h2
    simp only [Vector.length_toList] at h1
    have hi : p / k < n := Nat.div_lt_of_lt_mul (Nat.mul_comm n k ▸ h1)
    have hj : p % k < k := Nat.mod_lt _ hk
    have ep : p / k * k + p % k = p := by rw [Nat.mul_comm]; exact Nat.div_add_mod p k
    have e1 := getElem_toBytes e (f.map (maskBits (8 * k))) hi hj
    have e2 := enc_getD k f.toList (i := p / k) (by simpa using hi) hj
    simp only [ep] at e1 e2
    rw [Vector.getElem_toList, e1, Vector.getElem_map, laneBytes_maskBits, Vector.getElem_replicate]
    rw [List.getD_eq_getElem?_getD, List.getElem?_eq_getElem h2] at e2
    simpa using e2.symm

theorem bytesOfLanes_lanesOfBytes (e : Endian) {k : Nat} (hk : 0 < k) (c : Nat) (bs : List Byte)
    (h : bs.length = c * k) : bytesOfLanes e (lanesOfBytes e k bs) = bs := by
  induction c generalizing bs with
  | zero =>
    have : bs = [] := by simpa using h
    subst this; simp [lanesOfBytes, bytesOfLanes]
  | succ c ih =>
    have hle : k ≤ bs.length := by rw [h, Nat.add_mul]; omega
    have key : lanesOfBytes e k bs = laneOfBytes e (Vector.ofFn fun j : Fin k => bs.getD j.val 0#8) ::
        lanesOfBytes e k (bs.drop k) := by
      unfold lanesOfBytes
      apply List.ext_getElem
      · simp [h, Nat.add_mul, Nat.mul_div_cancel _ hk, Nat.add_div_right _ hk]
      · intro i h1 h2
        cases i with
        | zero => simp
        | succ i =>
          simp only [List.getElem_ofFn, List.getElem_cons_succ]
          congr 2
          funext j
          simp only [List.getD_eq_getElem?_getD, List.getElem?_drop, Nat.add_mul]
          congr 2; omega
    rw [key, bytesOfLanes, List.flatMap_cons]
    have ih' := ih (bs.drop k) (by rw [List.length_drop, h, Nat.add_mul]; omega)
    rw [bytesOfLanes] at ih'
    rw [ih']
    conv => rhs; rw [← List.take_append_drop k bs]
    congr 1
    rw [laneBytes_laneOfBytes]
    apply List.ext_getElem
    · simp [hle]
    · intro i h1 h2
      simp only [Vector.length_toList] at h1
      simp [List.getD_eq_getElem?_getD, List.getElem?_eq_getElem (show i < bs.length by omega)]

theorem lanesOfBytes_eq_replicate (e : Endian) {k : Nat} (hk : 0 < k) (c : Nat) (bs : List Byte)
    (h : bs.length = c * k) (b : Bool) :
    lanesOfBytes e k bs = List.replicate c (maskBits (8 * k) b) ↔ bs = enc k (List.replicate c b) := by
  constructor
  · intro he
    rw [← bytesOfLanes_lanesOfBytes e hk c bs h, he, ← List.map_replicate, bytesOfLanes_map]
  · rintro rfl
    rw [lanesOfBytes_enc e hk, List.map_replicate]

theorem maskBits8_inj {a b : Bool} (h : maskBits 8 a = maskBits 8 b) : a = b := by
  revert h; cases a <;> cases b <;> decide

theorem enc_eq_replicate {k : Nat} (hk : 0 < k) (L : List Bool) (b : Bool) (c k' : Nat)
    (h : L.length * k = c * k') : enc k L = enc k' (List.replicate c b) ↔ ∀ x ∈ L, x = b := by
  have e1 : enc k' (List.replicate c b) = List.replicate (c * k') (maskBits 8 b) := by
    have := enc_mul 1 k' (List.replicate c b)
    clear h
    induction c with
    | zero => simp
    | succ c ih => rw [List.replicate_succ, enc_cons, ih (enc_mul 1 k' _), List.replicate_append_replicate, Nat.add_mul,
        Nat.one_mul, Nat.add_comm]
  rw [e1, ← h]
  clear h e1
  induction L with
  | nil => simp
  | cons a L ih =>
    rw [enc_cons, List.length_cons, Nat.add_mul, Nat.one_mul, Nat.add_comm, ← List.replicate_append_replicate]
    constructor
    · intro h
      have h' := List.append_inj h (by simp)
      intro x hx
      rcases List.mem_cons.1 hx with rfl | hx
      · apply maskBits8_inj
        have := congrArg (fun l : List Byte => l[0]?) h'.1
        simpa [hk] using this
      · exact ih.1 h'.2 x hx
    · intro h
      rw [h a (by simp), ih.2 (fun x hx => h x (by simp [hx]))]

theorem all_id_iff (L : List Bool) : L.all id = true ↔ ∀ x ∈ L, x = true := by simp
theorem any_id_iff (L : List Bool) : L.any id = false ↔ ∀ x ∈ L, x = false := by simp

/-- Comparison of the whole byte image as integers. -/
theorem ints_all (e : Endian) {k k' c : Nat} (hk : 0 < k) (hk' : 0 < k') (L : List Bool) (h : L.length * k = c * k') :
    (lanesOfBytes e k' (enc k L) == List.replicate c (BitVec.allOnes (8 * k'))) = L.all id ∧
    (lanesOfBytes e k' (enc k L) != List.replicate c (0#(8 * k'))) = L.any id := by
  have h1 := lanesOfBytes_eq_replicate e hk' c (enc k L) (by simpa using h)
  have h2 := enc_eq_replicate hk L
  constructor
  · rw [Bool.eq_iff_iff, beq_iff_eq, all_id_iff]
    have := h1 true
    simp only [maskBits, if_true] at this
    rw [this, h2 true c k' h]
  · have h3 : (lanesOfBytes e k' (enc k L) = List.replicate c (0#(8 * k'))) ↔ L.any id = false := by
      have := h1 false
      simp only [maskBits] at this
      rw [any_id_iff, ← h2 false c k' h]
      exact this
    rw [Bool.eq_iff_iff, bne_iff_ne, Ne, h3]; simp

/-! ### movemask -/

def bitNum (L : List Bool) : Nat := L.foldr (fun b acc => (if b then 1 else 0) + 2 * acc) 0

theorem bitNum_lt (L : List Bool) : bitNum L < 2 ^ L.length := by
  induction L with
  | nil => simp [bitNum]
  | cons b L ih =>
    have : bitNum (b :: L) = (if b then 1 else 0) + 2 * bitNum L := rfl
    rw [this, List.length_cons, Nat.pow_succ]
    split <;> omega

theorem bitNum_max (L : List Bool) : bitNum L = 2 ^ L.length - 1 ↔ ∀ x ∈ L, x = true := by
  induction L with
  | nil => simp [bitNum]
  | cons b L ih =>
    have e1 : bitNum (b :: L) = (if b then 1 else 0) + 2 * bitNum L := rfl
    have e2 := bitNum_lt L
    have e3 : 0 < 2 ^ L.length := Nat.two_pow_pos _
    rw [e1, List.length_cons, Nat.pow_succ, List.forall_mem_cons, ← ih]
    cases b <;> simp <;> omega

theorem bitNum_zero (L : List Bool) : bitNum L = 0 ↔ ∀ x ∈ L, x = false := by
  induction L with
  | nil => simp [bitNum]
  | cons b L ih =>
    have e1 : bitNum (b :: L) = (if b then 1 else 0) + 2 * bitNum L := rfl
    rw [e1, List.forall_mem_cons, ← ih]
    cases b <;> simp <;> omega

theorem msb_maskBits {w : Nat} (hw : 0 < w) (b : Bool) : (maskBits w b).msb = b := by
  rw [BitVec.msb_eq_getLsbD_last, getLsbD_maskBits]; omega

theorem movemask_map {w : Nat} (hw : 0 < w) (L : List Bool) :
    x86Movemask (L.map (maskBits w)) = BitVec.ofNat 32 (bitNum L) := by
  unfold x86Movemask bitNum
  rw [List.foldr_map]
  simp only [msb_maskBits hw]

theorem movemask_spec {w : Nat} (hw : 0 < w) (L : List Bool) (h : L.length ≤ 32) :
    (x86Movemask (L.map (maskBits w)) == BitVec.ofNat 32 (2 ^ L.length - 1)) = L.all id ∧
    (x86Movemask (L.map (maskBits w)) != 0#32) = L.any id := by
  have hlt := bitNum_lt L
  have hle : 2 ^ L.length ≤ 2 ^ 32 := Nat.pow_le_pow_right (by omega) h
  rw [movemask_map hw]
  constructor
  · rw [Bool.eq_iff_iff, beq_iff_eq, all_id_iff, ← bitNum_max, ← BitVec.toNat_inj, BitVec.toNat_ofNat, BitVec.toNat_ofNat,
      Nat.mod_eq_of_lt (by omega), Nat.mod_eq_of_lt (by omega)]
  · have : BitVec.ofNat 32 (bitNum L) = 0#32 ↔ L.any id = false := by
      rw [any_id_iff, ← bitNum_zero, ← BitVec.toNat_inj, BitVec.toNat_ofNat, Nat.mod_eq_of_lt (by omega)]
      simp
    rw [Bool.eq_iff_iff, bne_iff_ne, Ne, this]; simp

/-! ### testc / testz -/

theorem testc_spec (k : Nat) (hk : 0 < k) (L : List Bool) :
    ((enc k L).all fun b => (~~~b &&& BitVec.allOnes 8) == 0#8) = L.all id ∧
    (!((enc k L).all fun b => (b &&& b) == 0#8)) = L.any id := by
  constructor
  · induction L with
    | nil => rfl
    | cons b L ih =>
      rw [enc_cons, List.all_append, ih, List.all_cons, List.all_replicate]
      cases b <;> simp [maskBits] <;> omega
  · induction L with
    | nil => rfl
    | cons b L ih =>
      rw [enc_cons, List.all_append, Bool.not_and, ih, List.any_cons, List.all_replicate]
      cases b <;> simp [maskBits] <;> omega

/-! ### simd_reduce_all / any -/

theorem reduceAll_ofList {w : Nat} (ls : List (BitVec w)) (L : List Bool) (hw : 0 < w) (h : ls = L.map (maskBits w)) :
    simdReduceAll (n := ls.toArray.size) ⟨ls.toArray, rfl⟩ = .ok (L.all id) ∧
    simdReduceAny (n := ls.toArray.size) ⟨ls.toArray, rfl⟩ = .ok (L.any id) := by
  have hleg : (Vector.mk ls.toArray rfl : Vector (BitVec w) ls.toArray.size).all legalMaskLane = true := by
    simp only [Vector.all_mk, List.all_toArray, List.all_eq_true]
    subst h
    intro x hx
    obtain ⟨b, _, rfl⟩ := List.mem_map.1 hx
    exact legalMaskLane_maskBits b
  unfold simdReduceAll simdReduceAny
  rw [if_pos hleg, if_pos hleg]
  subst h
  constructor
  · congr 1
    simp only [Vector.all_mk, List.all_toArray, List.all_map]
    congr 1
    funext b; exact maskBits_ne_zero hw b
  · congr 1
    simp only [Vector.any_mk, List.any_toArray, List.any_map]
    congr 1
    funext b; exact maskBits_ne_zero hw b

/-! ### NEON -/

theorem umin_mask {w : Nat} (hw : 0 < w) (a b : Bool) : uminLane (maskBits w a) (maskBits w b) = maskBits w (a && b) := by
  have : 0 < 2 ^ w - 1 := by have := Nat.one_lt_two_pow (n := w) (by omega); omega
  cases a <;> cases b <;> simp [uminLane, maskBits, BitVec.ult, this]

theorem umax_mask {w : Nat} (hw : 0 < w) (a b : Bool) : umaxLane (maskBits w a) (maskBits w b) = maskBits w (a || b) := by
  have : 0 < 2 ^ w - 1 := by have := Nat.one_lt_two_pow (n := w) (by omega); omega
  cases a <;> cases b <;> simp [umaxLane, maskBits, BitVec.ult, this]

theorem pairs_map {α β : Type} (f : α → α → α) (g : β → β → β) (m : β → α) (h : ∀ a b, f (m a) (m b) = m (g a b)) :
    ∀ L : List β, pairs f (L.map m) = (pairs g L).map m
  | [] => rfl
  | [_] => rfl
  | a :: b :: L => by simp [pairs, h, pairs_map f g m h L]

theorem pairs_length {α : Type} (f : α → α → α) : ∀ L : List α, (pairs f L).length = L.length / 2
  | [] => by simp [pairs]
  | [_] => by simp [pairs]
  | a :: b :: L => by simp [pairs, pairs_length f L]; omega

theorem pairs_all : ∀ L : List Bool, L.length % 2 = 0 →
    (pairs (· && ·) L).all id = L.all id ∧ (pairs (· || ·) L).any id = L.any id
  | [], _ => ⟨rfl, rfl⟩
  | [_], h => by simp at h
  | a :: b :: L, h => by
    have ih := pairs_all L (by simp only [List.length_cons] at h; omega)
    simp only [pairs, List.all_cons, List.any_cons, ih, id_eq, Bool.and_assoc, Bool.or_assoc, and_self]

theorem vacross_spec {w : Nat} (hw : 0 < w) (L : List Bool) (h : L ≠ []) :
    vacross uminLane (L.map (maskBits w)) = .ok (maskBits w (L.all id)) ∧
    vacross umaxLane (L.map (maskBits w)) = .ok (maskBits w (L.any id)) := by
  cases L with
  | nil => exact absurd rfl h
  | cons b L =>
    have h1 : ∀ (L : List Bool) b, (L.map (maskBits w)).foldl uminLane (maskBits w b) = maskBits w (b && L.all id) := by
      intro L
      induction L with
      | nil => intro b; simp
      | cons a L ih => intro b; rw [List.map_cons, List.foldl_cons, umin_mask hw, ih, List.all_cons, Bool.and_assoc]; rfl
    have h2 : ∀ (L : List Bool) b, (L.map (maskBits w)).foldl umaxLane (maskBits w b) = maskBits w (b || L.any id) := by
      intro L
      induction L with
      | nil => intro b; simp
      | cons a L ih => intro b; rw [List.map_cons, List.foldl_cons, umax_mask hw, ih, List.any_cons, Bool.or_assoc]; rfl
    exact ⟨congrArg Except.ok (h1 L b), congrArg Except.ok (h2 L b)⟩

/-! ### The dispatch tables are well formed -/

open MaskTy MaskImpl

/-- The implementation chosen for `ty` is well-sized and resolves within `fuel` calls. -/
def resolves (t : Target) : Nat → MaskTy → Bool
  | 0, _ => false
  | fuel + 1, ty =>
    let k := ty.laneBytes t
    let n := ty.lanes
    match maskImpl t ty with
    | asInt k' => n * k == k'
    | asU128s c => n * k == c * 16
    | other ty' => ((k == ty'.laneBytes t && n == ty'.lanes) || (k == ty'.laneBytes t * 2 && n * 2 == ty'.lanes)) && resolves t fuel ty'
    | halves h => (h.laneBytes t == k && n == h.lanes + h.lanes) && resolves t fuel h
    | movemask k' c => Nat.ble c 32 && ((k == k' && n == c) || (k == k' * 2 && n * 2 == c))
    | testcz => true
    | intrinsic => true
    | pairwise h => (h.laneBytes t == k && (n == h.lanes + h.lanes && (h.lanes == 8 || h.lanes == 4 || h.lanes == 2))) && resolves t fuel h
    | acrossVector => true
    | duplicate d => (d.laneBytes t == k && d.lanes == n + n) && resolves t fuel d
    | compileError => false

theorem laneBytes_pos {t : Target} (ht : t.Supported) (ty : MaskTy) : 0 < ty.laneBytes t := by
  cases ty <;> simp only [MaskTy.laneBytes] <;> first | decide | (rcases ht with h | h <;> rw [h] <;> decide)

theorem resolves_all (t : Target) (ht : t.Supported) (ty : MaskTy) : resolves t 8 ty = true := by
  obtain ⟨arch, en, pb, sse, sse2, ssse3, sse42, avx, avx2, v7, neon, ca, sl⟩ := t
  simp only [Target.Supported] at ht
  rcases ht with rfl | rfl <;> cases arch
  case inl.x86 | inl.x86_64 | inr.x86 | inr.x86_64 =>
    cases sse <;> cases sse2 <;> cases avx <;> cases avx2 <;> cases ty <;> rfl
  case inl.arm | inr.arm => cases v7 <;> cases neon <;> cases ca <;> cases ty <;> rfl
  case inl.aarch64 | inr.aarch64 => cases neon <;> cases ty <;> rfl
  all_goals cases ty <;> rfl

theorem lanes_pos (ty : MaskTy) : 0 < ty.lanes := by cases ty <;> decide

/-- Every chosen implementation computes the lane quantifiers. -/
theorem reduce_correct (t : Target) (ht : t.Supported) :
    ∀ (fuel : Nat) (ty : MaskTy), resolves t fuel ty = true → ∀ L : List Bool, L.length = ty.lanes →
      allBytes t fuel ty (enc (ty.laneBytes t) L) = .ok (L.all id) ∧
      anyBytes t fuel ty (enc (ty.laneBytes t) L) = .ok (L.any id) := by
  intro fuel
  induction fuel with
  | zero => intro ty h; simp [resolves] at h
  | succ fuel ih =>
    intro ty hr L hL
    have hk := laneBytes_pos ht ty
    unfold resolves at hr
    unfold allBytes anyBytes
    simp only at hr
    cases hi : maskImpl t ty <;> simp only [hi] at hr ⊢
    case asInt k' =>
      have h := beq_iff_eq.1 hr
      have hn := lanes_pos ty
      have hk' : 0 < k' := by rw [← h]; exact Nat.mul_pos hn hk
      have := ints_all t.endian (c := 1) hk hk' L (by rw [hL, h]; omega)
      rw [← this.1, ← this.2]
      exact ⟨rfl, rfl⟩
    case asU128s c =>
      have h := beq_iff_eq.1 hr
      have := ints_all t.endian (c := c) (k' := 16) hk (by decide) L (by rw [hL, h])
      rw [this.1, this.2]
      exact ⟨rfl, rfl⟩
    case other ty' =>
      simp only [Bool.and_eq_true, Bool.or_eq_true, beq_iff_eq] at hr
      obtain ⟨hq, h4⟩ := hr
      obtain ⟨q, hq0, hmul, hn⟩ : ∃ q, 0 < q ∧ ty.laneBytes t = ty'.laneBytes t * q ∧ ty.lanes * q = ty'.lanes := by
        rcases hq with ⟨a, b⟩ | ⟨a, b⟩
        · exact ⟨1, by decide, by omega, by omega⟩
        · exact ⟨2, by decide, a, b⟩
      have := ih ty' h4 _ ((flatMap_replicate_length q L).trans (by rw [hL, hn]))
      rw [hmul, enc_mul, this.1, this.2, (all_replicate _ hq0 L).1, (all_replicate _ hq0 L).2]
      exact ⟨rfl, rfl⟩
    case halves h =>
      simp only [Bool.and_eq_true, beq_iff_eq] at hr
      obtain ⟨⟨h1, h2⟩, h4⟩ := hr
      have hlen : (enc (ty.laneBytes t) L).length / 2 = h.lanes * ty.laneBytes t := by
        rw [enc_length, hL, h2, Nat.add_mul]; omega
      have i1 := ih h h4 (L.take h.lanes) (by simp; omega)
      have i2 := ih h h4 (L.drop h.lanes) (by simp; omega)
      rw [h1] at i1 i2
      rw [hlen, enc_take, enc_drop, i1.1, i1.2, i2.1, i2.2]
      have e : L = L.take h.lanes ++ L.drop h.lanes := (List.take_append_drop _ _).symm
      constructor
      · conv => rhs; rw [e, List.all_append]
        show (if (L.take h.lanes).all id then _ else _) = _
        cases (L.take h.lanes).all id <;> rfl
      · conv => rhs; rw [e, List.any_append]
        show (if (L.take h.lanes).any id then _ else _) = _
        cases (L.take h.lanes).any id <;> rfl
    case movemask k' c =>
      simp only [Bool.and_eq_true, Bool.or_eq_true, beq_iff_eq, Nat.ble_eq] at hr
      obtain ⟨h4, hq⟩ := hr
      obtain ⟨q, hq0, hmul, hn⟩ : ∃ q, 0 < q ∧ ty.laneBytes t = k' * q ∧ ty.lanes * q = c := by
        rcases hq with ⟨a, b⟩ | ⟨a, b⟩
        · exact ⟨1, by decide, by omega, by omega⟩
        · exact ⟨2, by decide, a, b⟩
      have h1 : 0 < k' := Nat.pos_of_ne_zero fun h0 => by rw [h0] at hmul; omega
      have hl : (L.flatMap (List.replicate q)).length = c := (flatMap_replicate_length q L).trans (by rw [hL, hn])
      have hm := movemask_spec (w := 8 * k') (by omega) _ (hl ▸ h4)
      rw [hmul, enc_mul, lanesOfBytes_enc _ h1, ← (all_replicate _ hq0 L).1, ← (all_replicate _ hq0 L).2, ← hm.1, ← hm.2, hl]
      exact ⟨rfl, rfl⟩
    case testcz =>
      rw [(testc_spec _ hk L).1, (testc_spec _ hk L).2]
      exact ⟨rfl, rfl⟩
    case intrinsic =>
      exact reduceAll_ofList _ L (by omega) (lanesOfBytes_enc t.endian hk L)
    case pairwise h =>
      simp only [Bool.and_eq_true, Bool.or_eq_true, beq_iff_eq] at hr
      obtain ⟨⟨h1, h2, h3⟩, h4⟩ := hr
      replace h3 : h.lanes % 2 = 0 := by omega
      have hlen : (enc (ty.laneBytes t) L).length / 2 = h.lanes * ty.laneBytes t := by
        rw [enc_length, hL, h2, Nat.add_mul]; omega
      have hw : 0 < 8 * ty.laneBytes t := by omega
      have e : L = L.take h.lanes ++ L.drop h.lanes := (List.take_append_drop _ _).symm
      have l1 : (L.take h.lanes).length = h.lanes := by simp; omega
      have l2 : (L.drop h.lanes).length = h.lanes := by simp; omega
      rw [hlen, enc_take, enc_drop, h1, lanesOfBytes_enc _ hk, lanesOfBytes_enc _ hk]
      unfold vpairwise
      rw [pairs_map _ (· && ·) _ (umin_mask hw), pairs_map _ (· && ·) _ (umin_mask hw),
        pairs_map _ (· || ·) _ (umax_mask hw), pairs_map _ (· || ·) _ (umax_mask hw), ← List.map_append, ← List.map_append,
        bytesOfLanes_map, bytesOfLanes_map]
      have i1 := ih h h4 (pairs (· && ·) (L.take h.lanes) ++ pairs (· && ·) (L.drop h.lanes)) (by
        simp only [List.length_append, pairs_length, l1, l2]; omega)
      have i2 := ih h h4 (pairs (· || ·) (L.take h.lanes) ++ pairs (· || ·) (L.drop h.lanes)) (by
        simp only [List.length_append, pairs_length, l1, l2]; omega)
      rw [h1] at i1 i2
      have p1 := pairs_all (L.take h.lanes) (by omega)
      have p2 := pairs_all (L.drop h.lanes) (by omega)
      rw [i1.1, i2.2, List.all_append, List.any_append, p1.1, p1.2, p2.1, p2.2, ← List.all_append, ← List.any_append, ← e]
      exact ⟨rfl, rfl⟩
    case acrossVector =>
      have hne : L ≠ [] := by
        intro h0; have := lanes_pos ty; rw [h0] at hL; simp at hL; omega
      have hv := vacross_spec (w := 8 * ty.laneBytes t) (by omega) L hne
      rw [lanesOfBytes_enc _ hk, hv.1, hv.2]
      have hb := maskBits_ne_zero (w := 8 * ty.laneBytes t) (by omega)
      show Except.ok _ = _ ∧ Except.ok _ = _
      rw [hb, hb]
      exact ⟨rfl, rfl⟩
    case duplicate d =>
      simp only [Bool.and_eq_true, beq_iff_eq] at hr
      obtain ⟨⟨h1, h2⟩, h4⟩ := hr
      have := ih d h4 (L ++ L) (by simp; omega)
      rw [h1, enc_append] at this
      rw [this.1, this.2]
      simp
    case compileError => simp at hr

end PackedSimd
