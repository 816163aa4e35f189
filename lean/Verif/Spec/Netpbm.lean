/-
Readers of the binary PBM (P4) and PPM (P6) image formats, from their documentation (netpbm, pbm(5) and ppm(5)).
-/
namespace PackedSimd.Spec.Netpbm

abbrev Byte := BitVec 8

/-- The value of an ASCII digit. -/
def digit? (b : Byte) : Option Nat := if 48 ≤ b.toNat ∧ b.toNat ≤ 57 then some (b.toNat - 48) else none

/-- Blank, tab, line feed or carriage return. -/
def isSpace (b : Byte) : Bool := b == 32 || b == 9 || b == 10 || b == 13

/-- A decimal number, given the value of the digits read so far. -/
def readDigits (acc : Nat) : List Byte → Nat × List Byte
  | [] => (acc, [])
  | b :: bs => match digit? b with
    | some d => readDigits (10 * acc + d) bs
    | none => (acc, b :: bs)

/-- A decimal number of at least one digit and the one character of white space after it. -/
def readNumber : List Byte → Option (Nat × List Byte)
  | [] => none
  | b :: bs => match digit? b with
    | none => none
    | some d => match readDigits d bs with
      | (_, []) => none
      | (n, s :: rest) => if isSpace s then some (n, rest) else none

/-- A magic number `P` and a digit, and white space. -/
def readMagic (d : Byte) : List Byte → Option (List Byte)
  | p :: k :: s :: rest => if p = 80 ∧ k = d ∧ isSpace s then some rest else none
  | _ => none

/-- P4: width, height, raster; each row of `⌈width / 8⌉` bytes, most significant bit first; a set bit is a black pixel.  Answers the rows. -/
def parsePbm (file : List Byte) : Option (Nat × Nat × List (List Bool)) := do
  let file ← readMagic 52 file
  let (w, file) ← readNumber file
  let (h, raster) ← readNumber file
  let rowBytes := (w + 7) / 8
  if raster.length = rowBytes * h then
    some (w, h, (List.range h).map fun i => (List.range w).map fun j => (raster.getD (rowBytes * i + j / 8) 0).getLsbD (7 - j % 8))
  else none

/-- P6 with a maximum value below 256: width, height, maximum, raster of three bytes for each pixel. -/
def parsePpm (file : List Byte) : Option (Nat × Nat × Nat × List (List (Byte × Byte × Byte))) := do
  let file ← readMagic 54 file
  let (w, file) ← readNumber file
  let (h, file) ← readNumber file
  let (m, raster) ← readNumber file
  if m < 256 ∧ raster.length = 3 * (w * h) then
    some (w, h, m, (List.range h).map fun i => (List.range w).map fun j =>
      (raster.getD (3 * (w * i + j)) 0, raster.getD (3 * (w * i + j) + 1) 0, raster.getD (3 * (w * i + j) + 2) 0))
  else none

end PackedSimd.Spec.Netpbm

namespace PackedSimd.Spec

/-- The pixels of a picture, row by row. -/
def pixelRows {α : Type} (w h : Nat) (pixel : Nat → Nat → α) : List (List α) :=
  (List.range h).map fun i => (List.range w).map fun j => pixel i j

/-- The colours of the Mandelbrot picture: black for points that did not escape in 50 steps, otherwise the colour depends on the escape count
modulo 12: three counts dark blue, two light blue, three white, two orange, two (nearly black) green. -/
def escapeColour (count : Nat) : BitVec 8 × BitVec 8 × BitVec 8 :=
  if count = 50 then (0, 0, 0)
  else
    let k := count % 12
    if k < 3 then (0, 7, 100) else if k < 5 then (32, 107, 203) else if k < 8 then (237, 255, 255) else if k < 10 then (255, 170, 0) else (0, 2, 0)

end PackedSimd.Spec
