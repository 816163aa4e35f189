import Verif.Lemmas.Mains
import Verif.Props.Fannkuch
import Verif.Props.SpectralFloat
import Verif.Props.Nbody
/-
C125: what the command-line programs of the examples read and print.
-/
namespace PackedSimd.Ex.Mains
open Spec Props PackedSimd

/-- The arguments (after the program's name) ask for size `n` and algorithm `alg`, which is `default` if there is no second argument. Further
arguments are allowed. -/
def Asks (t : Target) (args : List (List Char)) (default n alg : Nat) : Prop :=
  ∃ name a1 rest, args = name :: a1 :: rest ∧ Numeral a1 n ∧ n < 2 ^ (8 * t.ptrBytes) ∧
    match rest with
    | [] => alg = default
    | a2 :: _ => Numeral a2 alg ∧ alg < 2 ^ (8 * t.ptrBytes)

/-! ### Numbers as text -/

/-- C125: an argument is accepted as the number `v` exactly if it is a decimal numeral of `v` and `v` fits in `usize`. -/
theorem C125_parse (t : Target) (s : List Char) (v : Nat) : parseUsize t s = some v ↔ Numeral s v ∧ v < 2 ^ (8 * t.ptrBytes) :=
  parseUsize_iff t s v

/-- C125: a finite `f64` is printed as a number with nine decimals nearest to it; the others as `NaN`, `inf`, `-inf`. -/
theorem C125_fixed (st : Style) (x : BitVec 64) :
    (IsFinite 52 x → ∃ q : ℚ, Shows9 (fixed9 st x) q ∧ |(q : ℝ) - realVal 52 x| ≤ 1 / 2 / 10 ^ 9) ∧
    (valueOf 52 x = .nan → fixed9 st x = ['N', 'a', 'N']) ∧
    ∀ neg, valueOf 52 x = .inf neg → fixed9 st x = (if neg then ['-'] else []) ++ ['i', 'n', 'f'] :=
  ⟨fixed9_ok st x, fixed9_nan st x, fixed9_inf st x⟩

/-- A text shows at most one number, so the number in `C125_fixed` is the one a reader sees. -/
theorem C125_shows_unique (s : List Char) (p q : ℚ) (hp : Shows9 s p) (hq : Shows9 s q) : p = q := by
  obtain ⟨n1, i1, f1, ⟨hn1, -⟩, l1, e1, rfl⟩ := hp
  obtain ⟨n2, i2, f2, ⟨hn2, -⟩, l2, e2, rfl⟩ := hq
  have nodash : ∀ d : Fin 10, digitChar d ≠ '-' := by decide +kernel
  have inj : Function.Injective digitChar := fun a b h => digitChar_inj h
  have strip : ∀ (a b : List (Fin 10)) (r r' : List (Fin 10)), r.length = 9 → r'.length = 9 →
      a.map digitChar ++ ['.'] ++ r.map digitChar = b.map digitChar ++ ['.'] ++ r'.map digitChar → a = b ∧ r = r' := by
    intro a b r r' h h' e
    obtain ⟨e1, e2⟩ := List.append_inj' e (by rw [List.length_map, List.length_map, h, h'])
    exact ⟨List.map_injective_iff.2 inj (List.append_cancel_right e1), List.map_injective_iff.2 inj e2⟩
  have neq : ∀ (a b r r' : List (Fin 10)), a ≠ [] → ¬ (a.map digitChar ++ ['.'] ++ r.map digitChar = '-' :: (b.map digitChar ++ ['.'] ++ r'.map digitChar)) := by
    intro a b r r' ha e
    cases a with
    | nil => exact ha rfl
    | cons d a =>
      simp only [List.map_cons, List.cons_append, List.cons.injEq] at e
      exact nodash d e.1
  rw [e1] at e2
  cases n1 <;> cases n2
  · obtain ⟨a, b⟩ := strip i1 i2 f1 f2 l1 l2 e2
    rw [a, b]
  · exact absurd e2 (neq i1 i2 f1 f2 hn1)
  · exact absurd e2.symm (neq i2 i1 f2 f1 hn2)
  · obtain ⟨a, b⟩ := strip i1 i2 f1 f2 l1 l2 (by simpa using e2)
    rw [a, b]

/-! ### The programs -/

theorem argN_asks {t : Target} {args : List (List Char)} {d n alg : Nat} (h : Asks t args d n alg) : argN t args = .ok n ∧ argAlg t d args = .ok alg := by
  obtain ⟨name, a1, rest, rfl, h1, h2, h3⟩ := h
  have e := (parseUsize_iff t a1 n).2 ⟨h1, h2⟩
  refine ⟨?_, ?_⟩
  · show (match parseUsize t a1 with | none => _ | some n => _) = _
    rw [e]
  · match rest, h3 with
    | [], h3 => exact congrArg Except.ok h3.symm
    | a2 :: _, h3 =>
      show (match parseUsize t a2 with | none => _ | some n => _) = _
      rw [(parseUsize_iff t a2 alg).2 h3]

theorem asks_of_ok {t : Target} {args : List (List Char)} {d n alg : Nat} (h1 : argN t args = .ok n) (h2 : argAlg t d args = .ok alg) : Asks t args d n alg := by
  match args, h1, h2 with
  | [], h1, _ => cases h1
  | [_], h1, _ => cases h1
  | name :: a1 :: rest, h1, h2 =>
    have e1 : parseUsize t a1 = some n := by
      change (match parseUsize t a1 with | none => .error .panic | some n => .ok n : R Nat) = _ at h1
      split at h1
      · cases h1
      · rename_i e; cases h1; exact e
    obtain ⟨p1, p2⟩ := (parseUsize_iff t a1 n).1 e1
    refine ⟨name, a1, rest, rfl, p1, p2, ?_⟩
    match rest, h2 with
    | [], h2 => cases h2; rfl
    | a2 :: _, h2 =>
      change (match parseUsize t a2 with | none => .error .panic | some n => .ok n : R Nat) = _ at h2
      split at h2
      · cases h2
      · rename_i e; cases h2; exact (parseUsize_iff t a2 alg).1 e

theorem arg_panics (t : Target) (args : List (List Char)) (d : Nat) :
    (argN t args = .error .panic ∨ ∃ n, argN t args = .ok n) ∧ (argAlg t d args = .error .panic ∨ ∃ n, argAlg t d args = .ok n) := by
  constructor
  · unfold argN
    split
    · exact .inl rfl
    · split
      · exact .inl rfl
      · exact .inr ⟨_, rfl⟩
  · unfold argAlg
    split
    · exact .inr ⟨_, rfl⟩
    · split
      · exact .inl rfl
      · exact .inr ⟨_, rfl⟩

/-- C125: the fannkuch program asked for 3 to 14 cards (with the scalar algorithm: 12; with overflow checks: 10) ends, having printed the checksum
(as an `i32`) on one line and the largest number of flips on the next. The default is the SIMD algorithm. -/
theorem C125_fannkuch (t : Target) (ht : t.Supported) (dbg : Bool) (args : List (List Char)) {n alg : Nat} (ha : Asks t args 0 n alg) (h3 : 3 ≤ n) (hn : n ≤ 14)
    (hd : dbg = false ∨ n ≤ 10) (halg : alg = 0 ∨ (alg = 1 ∧ n ≤ 12)) :
    ∃ c m, Fannkuch.Answer n c m ∧ ∃ tc tn tm, ShowsInt tc (c.bmod (2 ^ 32)) ∧ ShowsNat tn n ∧ ShowsNat tm m ∧ ∃ enough, ∀ fuel, enough ≤ fuel →
      fannkuch t dbg fuel args = .ok (tc ++ "\nPfannkuchen(".toList ++ tn ++ ") = ".toList ++ tm ++ "\n".toList) := by
  obtain ⟨c, m, hA, enough, h⟩ := Fannkuch.C81_main_partial t ht dbg h3 hn hd halg
  have hm : ShowsNat (showInt (m : Int)) m := by
    have := showInt_ok (m : Int)
    rwa [ShowsInt, if_neg (by omega), Int.natAbs_natCast] at this
  refine ⟨c, m, hA, _, _, _, showInt_ok _, showNat_ok n, hm, enough, fun fuel hf => ?_⟩
  obtain ⟨e1, e2⟩ := argN_asks ha
  unfold fannkuch
  have hN : lift (argN t args) = .ok n := by rw [e1]; rfl
  have hG : lift (argAlg t 0 args) = .ok alg := by rw [e2]; rfl
  rw [hN]
  simp only [Fannkuch.D_ok_bind]
  rw [if_pos ⟨h3, hn⟩, hG]
  simp only [Fannkuch.D_ok_bind, h fuel hf]
  rw [show "\nPfannkuchen(".toList = ['\n'] ++ "Pfannkuchen(".toList from rfl]
  simp only [List.append_assoc]
  rfl

/-- C125: without a numeral as first argument, with a second argument that is none, a size outside 3 to 14 or an algorithm other than 0 and 1, it
panics. -/
theorem C125_fannkuch_rejects (t : Target) (dbg : Bool) (fuel : Nat) (args : List (List Char))
    (h : ∀ n alg, Asks t args 0 n alg → ¬ (3 ≤ n ∧ n ≤ 14 ∧ alg ≤ 1)) : fannkuch t dbg fuel args = .error (.fault .panic) := by
  obtain ⟨p1, p2⟩ := arg_panics t args 0
  unfold fannkuch
  rcases p1 with e1 | ⟨n, e1⟩
  · rw [e1]; rfl
  have hN : lift (argN t args) = .ok n := by rw [e1]; rfl
  rw [hN]
  simp only [Fannkuch.D_ok_bind]
  split
  · rename_i hr
    rcases p2 with e2 | ⟨alg, e2⟩
    · rw [e2]; rfl
    · have hna := h n alg (asks_of_ok e1 e2)
      have hG : lift (argAlg t 0 args) = .ok alg := by rw [e2]; rfl
      rw [hG]
      simp only [Fannkuch.D_ok_bind]
      rw [Fannkuch.C81_rejected t dbg fuel (by omega : n < 3 ∨ 14 < n ∨ 1 < alg)]
      rfl
  · rfl

/-- C125: the spectral-norm program asked for an even size `n` prints one number with nine decimals, within half a unit of the last decimal of a
number that is within a relative error of `(40 n + 234) / 2⁵³` of what ten rounds of the power method give in exact arithmetic. -/
theorem C125_spectral (t : Target) (checks : Bool) (sqrt : F64 → F64) (hsqrt : ∀ x, IsSqrt 52 x.bits (sqrt x).bits) (st : Style) (args : List (List Char))
    {n alg : Nat} (ha : Asks t args 0 n alg) (halg : alg ≤ 1) (h0 : 0 < n) (h2 : n % 2 = 0) (hn : n ≤ 2 ^ 31) (hs : 2 * n * (2 * n) ≤ 2 ^ (8 * t.ptrBytes)) :
    ∃ text q, spectral t checks sqrt st args = .ok (text ++ ['\n']) ∧ Shows9 text q ∧
      (1 - (40 * n + 234) / 2 ^ 53) * exactNorm n ≤ (q : ℝ) + 1 / 2 / 10 ^ 9 ∧
      (1 - (40 * n + 234) / 2 ^ 53) * ((q : ℝ) - 1 / 2 / 10 ^ 9) ≤ exactNorm n := by
  obtain ⟨x, e1, e2, hf, l1, l2⟩ := C119_accurate t checks sqrt hsqrt n h0 h2 hn hs
  obtain ⟨q, hq, hd⟩ := fixed9_ok st x.bits hf
  obtain ⟨a1, a2⟩ := argN_asks ha
  rw [abs_le] at hd
  refine ⟨_, q, ?_, hq, by linarith [hd.1], le_trans (mul_le_mul_of_nonneg_left (by linarith [hd.2]) ?_) l2⟩
  · unfold spectral
    have e : spectralNorm t checks sqrt n alg = .ok x := by
      match alg, halg with
      | 0, _ => exact e2
      | 1, _ => exact e1
    rw [a1, a2]
    simp only [R_ok_bind, e]
    rfl
  · have hn' : (n : ℝ) ≤ 2 ^ 31 := by exact_mod_cast hn
    rw [sub_nonneg, div_le_one (by positivity)]
    linarith [show (40 : ℝ) * 2 ^ 31 + 234 < 2 ^ 53 by norm_num]

/-- C125: for size 0 it prints `NaN`. -/
theorem C125_spectral_zero (t : Target) (checks : Bool) (sqrt : F64 → F64) (hsqrt : ∀ x, IsSqrt 52 x.bits (sqrt x).bits) (st : Style) (args : List (List Char))
    {alg : Nat} (ha : Asks t args 0 0 alg) (halg : alg ≤ 1) : spectral t checks sqrt st args = .ok "NaN\n".toList := by
  obtain ⟨a1, a2⟩ := argN_asks ha
  have hnan : valueOf 52 (sqrt (0 / 0)).bits = .nan := by
    have h := hsqrt (0 / 0)
    unfold IsSqrt at h
    rw [show valueOf 52 ((0 : F64) / 0).bits = .nan by decide +kernel] at h
    exact h
  have e : spectralNorm t checks sqrt 0 alg = .ok (sqrt (0 / 0)) := by
    match alg, halg with
    | 0, _ => rfl
    | 1, _ => rfl
  unfold spectral
  rw [a1, a2]
  simp only [R_ok_bind, e]
  rw [fixed9_nan st _ hnan]
  rfl

/-- C125: it panics without a numeral as first argument, with a second argument that is none, for an odd size, and for an algorithm other than 0
and 1. -/
theorem C125_spectral_rejects (t : Target) (checks : Bool) (sqrt : F64 → F64) (st : Style) (args : List (List Char))
    (h : ∀ n alg, Asks t args 0 n alg → ¬ (n % 2 = 0 ∧ alg ≤ 1)) : spectral t checks sqrt st args = .error .panic := by
  obtain ⟨p1, p2⟩ := arg_panics t args 0
  unfold spectral
  rcases p1 with e1 | ⟨n, e1⟩
  · rw [e1]; rfl
  rcases p2 with e2 | ⟨alg, e2⟩
  · rw [e1, e2]; rfl
  have hna := h n alg (asks_of_ok e1 e2)
  rw [e1, e2]
  simp only [R_ok_bind]
  have e : spectralNorm t checks sqrt n alg = .error .panic := by
    match alg, hna with
    | 0, hna => exact if_neg (fun c => hna ⟨c, by omega⟩)
    | 1, hna => exact if_neg (fun c => hna ⟨c, by omega⟩)
    | _ + 2, _ => rfl
  rw [e]
  rfl

/-- C125: both algorithms print the same text, whatever the size. -/
theorem C125_spectral_same (t : Target) (checks : Bool) (sqrt : F64 → F64) (st : Style) (args args' : List (List Char)) {n : Nat}
    (h : Asks t args 0 n 0) (h' : Asks t args' 0 n 1) : spectral t checks sqrt st args = spectral t checks sqrt st args' := by
  have hn : n < 2 ^ (8 * t.ptrBytes) := by obtain ⟨_, _, _, _, _, hn, _⟩ := h; exact hn
  have e : spectralNorm t checks sqrt n 0 = spectralNorm t checks sqrt n 1 := C67_float t checks _ sqrt n hn
  unfold spectral
  rw [(argN_asks h).1, (argN_asks h).2, (argN_asks h').1, (argN_asks h').2]
  simp only [R_ok_bind, e]

/-- C125: the n-body program prints, on two lines, the energies before and after as `{:.9}` writes them; the default is algorithm 1. -/
theorem C125_nbody (F : Nbody.Fns F64) (t : Target) (st : Style) (args : List (List Char)) {n alg : Nat} (ha : Asks t args 1 n alg) (halg : alg ≤ 1) :
    ∃ before after, Nbody.run F t n alg = .ok (before, after) ∧
      nbody F t st args = .ok (fixed9 st before.bits ++ "\n".toList ++ fixed9 st after.bits ++ "\n".toList) := by
  obtain ⟨⟨b, a⟩, e⟩ := Nbody.C86_total F t n alg (by omega)
  obtain ⟨a1, a2⟩ := argN_asks ha
  refine ⟨b, a, e, ?_⟩
  unfold nbody
  rw [a1, a2]
  simp only [R_ok_bind, e]
  simp only [List.append_assoc]
  rfl

/-- C125: it panics without a numeral as first argument, with a second argument that is none, and for an algorithm other than 0 and 1; for nothing
else. -/
theorem C125_nbody_rejects (F : Nbody.Fns F64) (t : Target) (st : Style) (args : List (List Char)) :
    nbody F t st args = .error .panic ↔ ∀ n alg, Asks t args 1 n alg → 1 < alg := by
  constructor
  · intro h n alg ha
    by_contra hc
    obtain ⟨_, _, -, e⟩ := C125_nbody F t st args ha (by omega)
    rw [e] at h
    cases h
  · intro h
    obtain ⟨p1, p2⟩ := arg_panics t args 1
    unfold nbody
    rcases p1 with e1 | ⟨n, e1⟩
    · rw [e1]; rfl
    rcases p2 with e2 | ⟨alg, e2⟩
    · rw [e1, e2]; rfl
    have hna := h n alg (asks_of_ok e1 e2)
    rw [e1, e2]
    simp only [R_ok_bind]
    rw [Nbody.C85_unknown F t n alg hna]
    rfl

/-! ### Concrete cases -/

/-- `fannkuch 7` and `spectral_norm +0100 1`. -/
theorem asks_seven : Asks x64Avx ["fannkuch".toList, "7".toList] 0 7 0 :=
  ⟨_, _, [], rfl, ⟨[7], by decide, rfl, .inl rfl⟩, by decide, rfl⟩

theorem asks_hundred : Asks x64Avx ["spectral_norm".toList, "+0100".toList, "1".toList] 0 100 1 :=
  ⟨_, _, [_], rfl, ⟨[0, 1, 0, 0], by decide, rfl, .inr rfl⟩, by decide, ⟨[1], by decide, rfl, .inl rfl⟩, by decide⟩

example : ∃ c m, Fannkuch.Answer 7 c m ∧ ∃ tc tn tm, ShowsInt tc (c.bmod (2 ^ 32)) ∧ ShowsNat tn 7 ∧ ShowsNat tm m ∧ ∃ enough, ∀ fuel, enough ≤ fuel →
    fannkuch x64Avx true fuel ["fannkuch".toList, "7".toList] = .ok (tc ++ "\nPfannkuchen(".toList ++ tn ++ ") = ".toList ++ tm ++ "\n".toList) :=
  C125_fannkuch x64Avx (.inr rfl) true _ asks_seven (by omega) (by omega) (.inr (by omega)) (.inl rfl)

example (sqrt : F64 → F64) (hsqrt : ∀ x, IsSqrt 52 x.bits (sqrt x).bits) (st : Style) :
    ∃ text q, spectral x64Avx true sqrt st ["spectral_norm".toList, "+0100".toList, "1".toList] = .ok (text ++ ['\n']) ∧ Shows9 text q ∧
      (1 - (40 * (100 : Nat) + 234) / 2 ^ 53) * exactNorm 100 ≤ (q : ℝ) + 1 / 2 / 10 ^ 9 ∧
      (1 - (40 * (100 : Nat) + 234) / 2 ^ 53) * ((q : ℝ) - 1 / 2 / 10 ^ 9) ≤ exactNorm 100 :=
  C125_spectral x64Avx true sqrt hsqrt st _ asks_hundred (by omega) (by omega) (by omega) (by omega) (by decide)

/-- Texts that are not accepted: empty, a lone sign, a minus sign, a space, an underscore, and a number that does not fit in 64 bits. -/
example : (["", "+", "-1", " 1", "1_0", "18446744073709551616"].map fun s => parseUsize x64Avx s.toList) = List.replicate 6 none ∧
    parseUsize x64Avx "18446744073709551615".toList = some 18446744073709551615 := by decide +kernel

/-- The `f64` nearest to `-0.169075164`, a value (`2⁻¹⁰`) half-way between two decimals in either style, and negative zero. -/
example : fixed9 ⟨false, true⟩ 0xbfc5a44145f9112c#64 = "-0.169075164".toList ∧
    fixed9 ⟨false, true⟩ 0x3f50000000000000#64 = "0.000976562".toList ∧ fixed9 ⟨true, true⟩ 0x3f50000000000000#64 = "0.000976563".toList ∧
    fixed9 ⟨true, false⟩ 0x8000000000000000#64 = "0.000000000".toList ∧
    fixed9 ⟨false, true⟩ 0x8000000000000000#64 = "-0.000000000".toList ∧ fixed9 ⟨true, true⟩ 0x40934a456d5cfaad#64 = "1234.567800000".toList := by decide +kernel

end PackedSimd.Ex.Mains
