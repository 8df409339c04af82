import Mathlib.Algebra.Order.Field.Rat
import Mathlib.Tactic.Positivity
import Verif.Spec.Box
/- Specification vocabulary for `range_set`. -/
namespace QK.Spec

/-- The finite numbers of IEEE binary32. -/
def Binary32 (b : ℚ) : Prop := ∃ m e : ℤ, |m| < 2 ^ 24 ∧ -149 ≤ e ∧ e ≤ 104 ∧ b = m * 2 ^ e

/-- Rounding to the nearest number of IEEE binary32, whatever is done with ties, for numbers that are
not so large that they could become infinite. -/
def Nearest32 (rnd : ℚ → ℚ) : Prop := ∀ q, |q| < 2 ^ 127 → Binary32 (rnd q) ∧ ∀ b, Binary32 b → |rnd q - q| ≤ |b - q|

/-- Rounding to IEEE binary32 (to nearest) as far as it is used here: the relative error is at most
`2^-24` for positive numbers that are neither subnormal nor too large, and integers up to `2^24` are
represented exactly. `Nearest32` implies this (`C140_round`). -/
structure Round32 (rnd : ℚ → ℚ) : Prop where
  err : ∀ q, 1 / 2 ^ 126 ≤ q → q < 2 ^ 127 → |rnd q - q| ≤ q / 2 ^ 24
  exact : ∀ z : ℤ, |z| ≤ 2 ^ 24 → rnd z = z

/-- Exact arithmetic is an instance (rounding to binary32 is another). -/
theorem round32_id : Round32 id := by
  refine ⟨fun q h _ => ?_, fun z _ => rfl⟩
  have : (0 : ℚ) ≤ q := le_trans (by positivity) h
  simp only [id, sub_self, abs_zero]
  positivity

/-- `⌈len / n⌉` for natural numbers, as an integer. -/
def ceilDiv (len n : Int) : Int := (len + n - 1) / n

/-- The sizes are in the domain where the float quotient is right. -/
def Small (B : Box) (subs : List Int) : Prop :=
  List.Forall₂ (fun d n => d.1 ≤ d.2 ∧ d.2 - d.1 < 2 ^ 24 ∧ 0 < n ∧ n < 2 ^ 24) B subs

instance (B subs) : Decidable (Small B subs) := by unfold Small; infer_instance

/-- No piece starts beyond the end: `(n - 1)·⌈len/n⌉ ≤ len` in every dimension. -/
def Fits (B : Box) (subs : List Int) : Prop :=
  List.Forall₂ (fun d n => (n - 1) * ceilDiv (d.2 - d.1) n ≤ d.2 - d.1) B subs

instance (B subs) : Decidable (Fits B subs) := by unfold Fits; infer_instance

end QK.Spec
