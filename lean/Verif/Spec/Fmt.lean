/-
Specification vocabulary for formatting (C44).
-/
namespace PackedSimd.Spec

/-- Perform actions in order until one fails; the outcome is the last state and whether all succeeded. -/
def runAll {σ : Type} : List (σ → σ × Bool) → σ → σ × Bool
  | [], s => (s, true)
  | a :: as, s => match a s with
    | (s', true) => runAll as s'
    | (s', false) => (s', false)

/-- Put `sep` between the items of a list. -/
def between {β : Type} (sep : β) : List β → List β
  | [] => []
  | [x] => [x]
  | x :: y :: r => x :: sep :: between sep (y :: r)

/-- `l0, l1, …` -/
def commaList (lanes : List (List Char)) : List Char := (between [',', ' '] lanes).flatten

/-- The documented text: `name(l0, l1, …)`. -/
def listing (name : List Char) (lanes : List (List Char)) : List Char := name ++ ['('] ++ commaList lanes ++ [')']

/-- Digits of a natural number in a radix, most significant first, as std prints them with lower-case letters. -/
def digits (radix : Nat) (x : Nat) : List Char := Nat.toDigits radix x

/-- `{}` / `{:?}` of an integer. -/
def decimal (z : Int) : List Char := (if z < 0 then ['-'] else []) ++ digits 10 z.natAbs

end PackedSimd.Spec
