import Verif.Model.Examples.MandelImage
import Verif.Spec.Netpbm
import Verif.Lemmas.Mandelbrot
/-
Lemmas about the files written by the Mandelbrot example.
-/
namespace PackedSimd.MandelIm
open Ex Ex.Mandel Spec.Netpbm

/-! ### Writing to a file with room for `k` bytes -/

theorem writePieces_capped (k : Nat) (ps : List (List (BitVec 8))) (f : List (BitVec 8)) (hf : f.length ≤ k) :
    writePieces (capped k) ps f = if f.length + ps.flatten.length ≤ k then (f ++ ps.flatten, true) else ((f ++ ps.flatten).take k, false) := by
  induction ps generalizing f with
  | nil => simp [writePieces, hf]
  | cons p ps ih =>
    unfold writePieces
    by_cases h : f.length + p.length ≤ k
    · have : (capped k).writeAll p f = (f ++ p, true) := by simp [capped, h]
      rw [this]
      dsimp only
      rw [if_pos rfl, ih (f ++ p) (by simpa using h)]
      simp only [List.flatten_cons, List.length_append, List.append_assoc, Nat.add_assoc]
    · have : (capped k).writeAll p f = ((f ++ p).take k, false) := by simp [capped, h]
      rw [this]
      dsimp only
      rw [if_neg (by simp), if_neg (by simp only [List.flatten_cons, List.length_append]; omega)]
      rw [List.flatten_cons, ← List.append_assoc, List.take_append_of_le_length (l₁ := f ++ p) (by simp only [List.length_append]; omega)]

/-! ### Reading numbers -/

theorem digit_ofNat {n : Nat} (h : n < 10) : digit? (BitVec.ofNat 8 (48 + n)) = some n := by
  revert n
  decide

theorem readDigits_decimal (n acc : Nat) (rest : List Byte) :
    readDigits acc (decimal n ++ rest) = readDigits (acc * 10 ^ (decimal n).length + n) rest := by
  induction n using Nat.strongRecOn generalizing acc rest with
  | _ n ih =>
    rw [decimal]
    by_cases h : n < 10
    · rw [if_pos h, List.singleton_append, readDigits, digit_ofNat h]
      simp only [List.length_singleton, Nat.pow_one, Nat.mul_comm]
    · rw [if_neg h, List.append_assoc, ih (n / 10) (by omega), List.singleton_append, readDigits, digit_ofNat (Nat.mod_lt _ (by decide))]
      simp only [List.length_append, List.length_singleton, Nat.pow_succ]
      congr 1
      rw [Nat.mul_add, ← Nat.mul_assoc, Nat.mul_comm 10, Nat.mul_assoc, Nat.mul_comm 10]
      omega

theorem decimal_cons (n : Nat) : ∃ b bs d, decimal n = b :: bs ∧ digit? b = some d := by
  induction n using Nat.strongRecOn with
  | _ n ih =>
    rw [decimal]
    by_cases h : n < 10
    · exact ⟨_, [], n, by rw [if_pos h], digit_ofNat h⟩
    · obtain ⟨b, bs, d, h1, h2⟩ := ih (n / 10) (by omega)
      exact ⟨b, bs ++ [_], d, by rw [if_neg h, h1]; rfl, h2⟩

theorem readNumber_decimal (n : Nat) (s : Byte) (hs : isSpace s = true) (rest : List Byte) :
    readNumber (decimal n ++ s :: rest) = some (n, rest) := by
  obtain ⟨b, bs, d, h1, h2⟩ := decimal_cons n
  have hd : digit? s = none := by
    revert hs; revert s; decide +kernel
  have h := readDigits_decimal n 0 (s :: rest)
  rw [h1, List.cons_append, readDigits, h2] at h
  dsimp only at h
  rw [Nat.mul_zero, Nat.zero_add, Nat.zero_mul, Nat.zero_add, readDigits, hd] at h
  rw [h1, List.cons_append, readNumber, h2]
  dsimp only
  rw [h]
  dsimp only
  rw [if_pos hs]

theorem decimal_small : decimal 4 = [52#8] ∧ decimal 6 = [54#8] ∧ decimal 255 = [50#8, 53#8, 53#8] := by
  refine ⟨by rw [decimal]; rfl, by rw [decimal]; rfl, ?_⟩
  rw [decimal, if_neg (by decide), decimal, if_neg (by decide), decimal, if_pos (by decide)]
  rfl

theorem read_header (w h : Nat) (rest : List Byte) :
    readMagic 52 ((header (w, h) false).flatten ++ rest) = some (decimal w ++ 32#8 :: (decimal h ++ 10#8 :: rest)) := by
  unfold header
  dsimp only
  rw [if_neg (by decide), if_neg (by decide), decimal_small.1]
  generalize decimal w = dw
  generalize decimal h = dh
  simp only [List.append_nil, List.cons_append, List.nil_append, List.flatten_cons, List.flatten_nil, List.append_assoc]
  rfl

theorem read_header_color (w h : Nat) (rest : List Byte) :
    readMagic 54 ((header (w, h) true).flatten ++ rest) = some (decimal w ++ 32#8 :: (decimal h ++ 32#8 :: (decimal 255 ++ 10#8 :: rest))) := by
  unfold header
  dsimp only
  rw [if_pos rfl, if_pos rfl, decimal_small.2.1, decimal_small.2.2]
  generalize decimal w = dw
  generalize decimal h = dh
  simp only [List.append_nil, List.cons_append, List.nil_append, List.flatten_cons, List.flatten_nil, List.append_assoc]
  rfl

/-! ### PBM -/

theorem pbmByte_bits : ∀ b0 b1 b2 b3 b4 b5 b6 b7 : Bool, ∀ j, j < 8 →
    ((((((((0 ||| BitVec.ofNat 8 b0.toNat <<< 7) ||| BitVec.ofNat 8 b1.toNat <<< 6) ||| BitVec.ofNat 8 b2.toNat <<< 5) ||| BitVec.ofNat 8 b3.toNat <<< 4) |||
      BitVec.ofNat 8 b4.toNat <<< 3) ||| BitVec.ofNat 8 b5.toNat <<< 2) ||| BitVec.ofNat 8 b6.toNat <<< 1) ||| BitVec.ofNat 8 b7.toNat <<< 0 : BitVec 8).getLsbD (7 - j) =
      [b0, b1, b2, b3, b4, b5, b6, b7].getD j false := by decide +kernel

theorem pbmByte_get (ch : List (BitVec 32)) (hl : ch.length = 8) (j : Nat) (hj : j < 8) :
    (pbmByte ch).getLsbD (7 - j) = (ch.getD j 0 == 50#32) := by
  match ch, hl with
  | [a0, a1, a2, a3, a4, a5, a6, a7], _ =>
    refine (pbmByte_bits (a0 == 50#32) (a1 == 50#32) (a2 == 50#32) (a3 == 50#32) (a4 == 50#32) (a5 == 50#32) (a6 == 50#32) (a7 == 50#32) j hj).trans ?_
    match j, hj with
    | 0, _ | 1, _ | 2, _ | 3, _ | 4, _ | 5, _ | 6, _ | 7, _ => rfl

theorem chunks_length (n : Nat) (hn : 0 < n) (q : Nat) (xs : List (BitVec 32)) (h : xs.length = n * q) : (chunks n xs).length = q := by
  unfold chunks
  rw [List.length_map, List.length_range, h]
  rw [Nat.mul_add_div hn, Nat.div_eq_of_lt (by omega), Nat.add_zero]

theorem pbm_bit (xs : List (BitVec 32)) (m : Nat) (h : xs.length = 8 * m) (k j : Nat) (hk : k < m) (hj : j < 8) :
    (((chunks 8 xs).map pbmByte).getD k 0).getLsbD (7 - j) = (xs.getD (8 * k + j) 0 == 50#32) := by
  have hlen : k < (chunks 8 xs).length := by rw [chunks_length 8 (by decide) m xs h]; exact hk
  rw [List.getD_eq_getElem?_getD, List.getElem?_map, List.getElem?_eq_getElem hlen]
  simp only [Option.map_some, Option.getD_some]
  have hc : (chunks 8 xs)[k] = (xs.drop (k * 8)).take 8 := by simp [chunks]
  rw [hc, pbmByte_get _ (by rw [List.length_take, List.length_drop]; omega) j hj]
  rw [List.getD_eq_getElem?_getD, List.getElem?_take_of_lt hj, List.getElem?_drop, ← List.getD_eq_getElem?_getD, Nat.mul_comm k 8]

/-! ### PPM -/

theorem flatten_three {α : Type} (d : α) (l : List (List α)) (hl : ∀ x ∈ l, x.length = 3) (k c : Nat) (hc : c < 3) :
    l.flatten.getD (3 * k + c) d = (l.getD k []).getD c d := by
  induction l generalizing k with
  | nil => simp
  | cons x l ih =>
    have hx := hl x (List.mem_cons_self ..)
    rw [List.flatten_cons]
    cases k with
    | zero =>
      simp only [Nat.mul_zero, Nat.zero_add, List.getD_eq_getElem?_getD]
      rw [List.getElem?_append_left (by omega)]
      rfl
    | succ k =>
      have := ih (fun y hy => hl y (List.mem_cons_of_mem _ hy)) k
      simp only [List.getD_eq_getElem?_getD] at this ⊢
      rw [List.getElem?_append_right (by omega), hx, show 3 * (k + 1) + c - 3 = 3 * k + c by omega, this]
      rfl

end PackedSimd.MandelIm
