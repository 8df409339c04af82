import Mathlib.Analysis.SpecialFunctions.Pow.Real
import Mathlib.Analysis.SpecialFunctions.Trigonometric.Basic
import Mathlib.Data.Real.Sqrt
import Verif.Model.Arith
/-
Exact real arithmetic as an instance of `Arith`. Rounding, overflow to infinity and NaN are not
modelled by this instance. Mathlib's total functions are used for `x / 0` and `sqrt` of a negative
number; theorems whose meaning depends on such a value exclude it by hypothesis.
-/
namespace QK

/-- Truncation towards zero. Machinery of the model, no counterpart in the code. -/
noncomputable def truncReal (x : ℝ) : Int := if 0 ≤ x then ⌊x⌋ else ⌈x⌉

open Classical in
noncomputable instance : Arith ℝ where
  lit q := (q : ℝ)
  ofInt i := (i : ℝ)
  toInt x := if -(2 : Int) ^ 31 ≤ truncReal x ∧ truncReal x < 2 ^ 31 then .ok (truncReal x)
    else .ub "conversion to int out of range"
  sqrt := Real.sqrt
  fabs x := |x|
  exp := Real.exp
  sin := Real.sin
  cos := Real.cos
  cosh := Real.cosh
  tanh := Real.tanh
  pow := fun x y => x ^ y
  lt x y := decide (x < y)
  le x y := decide (x ≤ y)
  feq x y := decide (x = y)

theorem real_lit (q : ℚ) : (Arith.lit q : ℝ) = (q : ℝ) := rfl
theorem real_ofInt (i : Int) : (Arith.ofInt i : ℝ) = (i : ℝ) := rfl
theorem real_lt (x y : ℝ) : (Arith.lt x y = true) ↔ x < y := by simp [Arith.lt]
theorem real_le (x y : ℝ) : (Arith.le x y = true) ↔ x ≤ y := by simp [Arith.le]
theorem real_feq (x y : ℝ) : (Arith.feq x y = true) ↔ x = y := by simp [Arith.feq]
theorem real_sqrt (x : ℝ) : (Arith.sqrt x : ℝ) = Real.sqrt x := rfl
theorem real_fabs (x : ℝ) : (Arith.fabs x : ℝ) = |x| := rfl

example (x y : ℝ) : x * y + x = (y + 1) * x := by ring

end QK
