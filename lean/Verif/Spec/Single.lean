import Verif.Spec.Format
import Verif.Spec.RangeSet
/-
Specification vocabulary for reading a VTK file: a component announced as `float` is read in single precision.
-/
namespace QK.Spec

/-- A finite number of IEEE binary32. -/
def Single (b : ℝ) : Prop := ∃ q : ℚ, Binary32 q ∧ b = q

/-- Rounding to the nearest number of IEEE binary32, whatever is done with ties, for numbers that are not so large that they could become infinite. -/
def NearestSingle (rd : ℝ → ℝ) : Prop := ∀ x, |x| < 2 ^ 127 → Single (rd x) ∧ ∀ b, Single b → |rd x - x| ≤ |b - x|

/-- How a reader that keeps to the type `float` in the announcement of a component gets its values. -/
noncomputable def readSingles (rd : ℝ → ℝ) (s : List Char) (name comp : String) : Option (List (Option ℝ)) := (readBlock s name comp).map fun l => l.map (Option.map rd)

end QK.Spec
