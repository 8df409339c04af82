import Mathlib.Data.Int.Log
import Mathlib.Algebra.Order.Archimedean.Real.Basic
import Verif.Model.Vtk
/-
Model of how the items streamed into files become characters: `operator<<` of `std::ostream` for text, `int` and `double` with the flags of a new stream (C++11, [ostream.inserters.arithmetic],
[facet.num.put.virtuals]: a `double` is written as by `printf("%.*g", precision, x)`, C11 7.21.6.1), and `std::setprecision(16)` (/repo/src/variable/variable_manager.cpp:87). The digits are those of the exact
value, correctly rounded, ties to even (IEEE 754, 5.12.2, and C11 7.21.6.1 paragraph 13, "recommended practice", which the usual libraries follow).
-/
namespace QK.Format

/-- Nearest integer, ties to even. Machinery of the model, no counterpart in the code. -/
noncomputable def roundEven (y : ℝ) : Int :=
  if Int.fract y < 1 / 2 then ⌊y⌋ else if 1 / 2 < Int.fract y then ⌊y⌋ + 1 else if ⌊y⌋ % 2 = 0 then ⌊y⌋ else ⌊y⌋ + 1

/-- The conversion `%e` of `a > 0` with `P` digits: the digits as a number, and the exponent of the first digit. variable_manager.cpp:87. -/
noncomputable def scientific (P : Nat) (a : ℝ) : Nat × Int :=
  let X := Int.log 10 a
  let d := (roundEven (a * 10 ^ ((P : Int) - 1 - X))).toNat
  if d = 10 ^ P then (10 ^ (P - 1), X + 1) else (d, X)

/-- `%g` removes trailing zeros. variable_manager.cpp:87. -/
def trim (ds : List Char) : List Char := (ds.reverse.dropWhile (· = '0')).reverse

/-- … and the point if no digits follow. variable_manager.cpp:87. -/
def withPoint (a b : List Char) : List Char := if b = [] then a else a ++ '.' :: b

/-- The exponent: a sign and at least two digits. variable_manager.cpp:87. -/
def exponent (X : Int) : List Char :=
  'e' :: (if X < 0 then '-' else '+') :: ((if X.natAbs < 10 then ['0'] else []) ++ Nat.toDigits 10 X.natAbs)

/-- `%g` with precision `P`, given digits and exponent of `%e`: style `f` if -4 ≤ X < P, else style `e`. variable_manager.cpp:87. -/
def general (P : Nat) (d : Nat) (X : Int) : List Char :=
  let ds := Nat.toDigits 10 d
  if X < -4 ∨ (P : Int) ≤ X then withPoint (ds.take 1) (trim (ds.drop 1)) ++ exponent X
  else if X < 0 then withPoint ['0'] (List.replicate (-X - 1).toNat '0' ++ trim ds)
  else withPoint (ds.take (X + 1).toNat) (trim (ds.drop (X + 1).toNat))

/-- The text of a number that is not zero. variable_manager.cpp:87. -/
noncomputable def text (P : Nat) (x : ℝ) : List Char :=
  (if x < 0 then ['-'] else []) ++ general P (scientific P |x|).1 (scientific P |x|).2

/-- `file << i` for an `int`. rectilinear.cpp:60. -/
def intText (i : Int) : List Char := (if i < 0 then ['-'] else []) ++ Nat.toDigits 10 i.natAbs

/-- The characters of an item, `num` giving those of numbers. variable_manager.cpp:82-107. -/
def tokText {α : Type} (num : α → List Char) : Tok α → List Char
  | .text s => s.toList
  | .int i => intText i
  | .num v => num v

/-- The characters of a file. variable_manager.cpp:82-107. -/
def fileText {α : Type} (num : α → List Char) (file : List (Tok α)) : List Char := file.flatMap (tokText num)

/-- variable_manager.cpp:87 `std::setprecision(16)`. -/
def vtkPrecision : Nat := 16

/-- The precision of a new stream, as used by `std::cout` (print.cpp:42). -/
def consolePrecision : Nat := 6

end QK.Format
