import Verif.Model.Examples.Fannkuch
import Verif.Model.Examples.Spectral
import Verif.Model.Examples.Nbody
import Verif.Model.Examples.Matrix
/-
The command-line programs of examples/{fannkuch_redux,spectral_norm,nbody}: how `main.rs` reads the arguments and what it writes to standard output.
The parts of `core` that they use (`usize::from_str`, `Display` of integers, `{:.9}` of `f64`) are modelled from their documentation. Writing to
standard output is taken to succeed.
-/
namespace PackedSimd.Ex.Mains
open Spec (magBits isNeg magUnits low)

/-! ### `core`: reading and writing numbers -/

/-- `char::to_digit(10)`. -/
def toDigit (c : Char) : Option Nat := if 48 ≤ c.toNat ∧ c.toNat ≤ 57 then some (c.toNat - 48) else none

/-- The loop of `usize::from_str`: `checked_mul(10)`, `checked_add(digit)`. -/
def parseLoop (t : Target) : Nat → List Char → Option Nat
  | acc, [] => some acc
  | acc, c :: cs =>
    match toDigit c with
    | none => none
    | some d =>
      if acc * 10 < 2 ^ (8 * t.ptrBytes) then
        if acc * 10 + d < 2 ^ (8 * t.ptrBytes) then parseLoop t (acc * 10 + d) cs else none
      else none

/-- `usize::from_str`: empty text and a lone sign are errors; one leading `+` is skipped; a leading `-` is an invalid digit. -/
def parseUsize (t : Target) (s : List Char) : Option Nat :=
  match s with
  | [] => none
  | '+' :: cs => if cs = [] then none else parseLoop t 0 cs
  | _ => parseLoop t 0 s

/-- A decimal digit. -/
def digit (d : Nat) : Char := Char.ofNat (48 + d)

/-- `Display` of `usize`: decimal digits without leading zeros. -/
def showNat (n : Nat) : List Char := if n < 10 then [digit n] else showNat (n / 10) ++ [digit (n % 10)]

/-- `Display` of `i32`. -/
def showInt (z : Int) : List Char := (if z < 0 then ['-'] else []) ++ showNat z.natAbs

/-- The last `w` decimal digits of `k`, with leading zeros. -/
def padded : Nat → Nat → List Char
  | 0, _ => []
  | w + 1, k => padded w (k / 10) ++ [digit (k % 10)]

/-- What `core` leaves open between versions when it formats a float: a value half-way between two decimals (`up`: away from zero, otherwise to
the even last digit), and whether the sign of `-0.0` is shown. -/
structure Style where
  up : Bool
  negZero : Bool

/-- `num / den` rounded to the nearest integer. -/
def nearest (st : Style) (num den : Nat) : Nat :=
  let q := num / den
  let r := num % den
  if 2 * r < den then q else if den < 2 * r then q + 1 else if st.up then q + 1 else q + q % 2

/-- `{:.9}` of an `f64`. -/
def fixed9 (st : Style) (x : BitVec 64) : List Char :=
  if Flt.isNaN 52 x then ['N', 'a', 'N']
  else if Flt.isInf 52 x then (if isNeg x then ['-'] else []) ++ ['i', 'n', 'f']
  else
    let k := nearest st (magUnits 52 (magBits x) * 10 ^ 9) (2 ^ low 64 52)
    (if isNeg x && (st.negZero || decide (magBits x ≠ 0)) then ['-'] else []) ++ showNat (k / 10 ^ 9) ++ ['.'] ++ padded 9 k

/-! ### The programs -/

/-- `std::env::args().nth(1).expect(..).parse().unwrap()`: the number of the first argument; `args` includes the program's name. -/
def argN (t : Target) (args : List (List Char)) : R Nat :=
  match args[1]? with
  | none => .error .panic
  | some s => match parseUsize t s with
    | none => .error .panic
    | some n => .ok n

/-- `if let Some(v) = std::env::args().nth(2) { v.parse().unwrap() } else { default }`. -/
def argAlg (t : Target) (default : Nat) (args : List (List Char)) : R Nat :=
  match args[2]? with
  | none => .ok default
  | some s => match parseUsize t s with
    | none => .error .panic
    | some n => .ok n

/-- fannkuch_redux/src/main.rs:5-21: `main` and `run`. The range of `n` is asserted (main.rs:13) before the second argument is read; `Fannkuch.main`
makes the same check, and every failure on the way is a panic. -/
def fannkuch (t : Target) (dbg : Bool) (fuel : Nat) (args : List (List Char)) : D (List Char) := do
  let n ← lift (argN t args)
  if 3 ≤ n ∧ n ≤ 14 then
    let alg ← lift (argAlg t 0 args)
    let (checksum, maxflips) ← Fannkuch.main t dbg fuel n alg
    return showInt checksum ++ ['\n'] ++ "Pfannkuchen(".toList ++ showNat n ++ ") = ".toList ++ showInt maxflips ++ ['\n']
  else .error (.fault .panic)

/-- `spectral_norm` (spectral_norm/src/lib.rs:16-22). -/
def spectralNorm (t : Target) (checks : Bool) (sqrt : F64 → F64) (n alg : Nat) : R F64 :=
  match alg with
  | 0 => Spectral.simd t checks (fun k => ⟨Flt.fromInt 64 52 k⟩) sqrt n
  | 1 => Spectral.scalar t checks (fun k => ⟨Flt.fromInt 64 52 k⟩) sqrt n
  | _ => .error .panic

/-- spectral_norm/src/main.rs:4-20. -/
def spectral (t : Target) (checks : Bool) (sqrt : F64 → F64) (st : Style) (args : List (List Char)) : R (List Char) := do
  let n ← argN t args
  let alg ← argAlg t 0 args
  let answer ← spectralNorm t checks sqrt n alg
  return fixed9 st answer.bits ++ ['\n']

/-- nbody/src/main.rs:6-28. -/
def nbody (F : Nbody.Fns F64) (t : Target) (st : Style) (args : List (List Char)) : R (List Char) := do
  let n ← argN t args
  let alg ← argAlg t 1 args
  let (before, after) ← Nbody.run F t n alg
  return fixed9 st before.bits ++ ['\n'] ++ (fixed9 st after.bits ++ ['\n'])

end PackedSimd.Ex.Mains
