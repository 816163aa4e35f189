import Mathlib.Data.Rat.Cast.Defs
/-
Decimal numerals as text: which texts stand for which numbers. Used to say what the command-line programs of the examples read and print (C125).
-/
namespace PackedSimd.Spec

/-- The number written by a row of decimal digits, most significant first. -/
def natValue (ds : List (Fin 10)) : Nat := ds.foldl (fun a d => 10 * a + d.val) 0

/-- The character of a digit. -/
def digitChar (d : Fin 10) : Char := ['0', '1', '2', '3', '4', '5', '6', '7', '8', '9'][d.val]

/-- `s` is an unsigned decimal numeral of `v`: one or more digits, possibly after one `+`; leading zeros are allowed. -/
def Numeral (s : List Char) (v : Nat) : Prop :=
  ∃ ds : List (Fin 10), ds ≠ [] ∧ natValue ds = v ∧ (s = ds.map digitChar ∨ s = '+' :: ds.map digitChar)

/-- A row of digits without superfluous zeros in front. -/
def Plain (ds : List (Fin 10)) : Prop := ds ≠ [] ∧ (ds.head? = some 0 → ds = [0])

/-- `s` is how the natural number `v` is written. -/
def ShowsNat (s : List Char) (v : Nat) : Prop := ∃ ds : List (Fin 10), Plain ds ∧ natValue ds = v ∧ s = ds.map digitChar

/-- `s` is how the integer `z` is written. -/
def ShowsInt (s : List Char) (z : Int) : Prop := if z < 0 then ∃ r, s = '-' :: r ∧ ShowsNat r z.natAbs else ShowsNat s z.natAbs

/-- `s` is a number written with nine digits after the decimal point, and `q` is that number. -/
def Shows9 (s : List Char) (q : ℚ) : Prop :=
  ∃ (neg : Bool) (ip fp : List (Fin 10)), Plain ip ∧ fp.length = 9 ∧
    s = (if neg then ['-'] else []) ++ ip.map digitChar ++ ['.'] ++ fp.map digitChar ∧
    q = (if neg then -1 else 1) * (natValue ip + natValue fp / 10 ^ 9)

end PackedSimd.Spec
