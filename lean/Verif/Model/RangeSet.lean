import Verif.Model.Container
import Mathlib.Data.Rat.Floor
/-
Model of `qk::range_set` (/repo/src/lib/range_set.{h,cpp}): a container of ranges.
-/
namespace QK
namespace RangeSet

/-- range_set.cpp:33 `int(std::ceil(float(length) / float(n)))`. `rnd` rounds a rational number to
`float`. Division by zero gives an infinity or NaN whose conversion to `int` is undefined, as is that of
a number outside the range of `int`. -/
def size (rnd : ℚ → ℚ) (len n : Int) : Res Int :=
  if n = 0 then .ub "float to int conversion out of range"
  else if -2 ^ 31 ≤ ⌈rnd (rnd len / rnd n)⌉ ∧ ⌈rnd (rnd len / rnd n)⌉ < 2 ^ 31 then .ok ⌈rnd (rnd len / rnd n)⌉
  else .ub "float to int conversion out of range"

/-- range_set.cpp:31-34. `ds` are the dimensions of `superRange`, `subs` the array
`numSubdivisions`. -/
def sizes (rnd : ℚ → ℚ) (ds : List (Int × Int)) (subs : List Int) : Res (List Int) :=
  (ds.zip subs).mapM (fun p => size rnd (p.1.2 - p.1.1) p.2)

/-- range_set.cpp:40-43, bounds of the sub-range at position `index`. -/
def bounds : List (Int × Int) → List Int → List Int → List (Int × Int)
  | d :: ds, s :: ss, x :: xs => (d.1 + x * s, min (d.1 + x * s + s) d.2) :: bounds ds ss xs
  | _, _, _ => []

/-- range_set.cpp:24-48 `setup`. The array `numSubdivisions` is read for `num_dims` entries: a
shorter list is undefined behaviour, more entries are ignored. -/
noncomputable def setup (rnd : ℚ → ℚ) (f : IFace Range) (sup : Range) (subs : List Int) : Res (IFace Range) := do
  let sup := sup.copy
  if subs.length < sup.numDims then .ub "array index out of range" else
  let subs := subs.take sup.numDims
  let f ← f.resize .empty (Range.setup (subs.map (fun n => ((0 : Int), n))))
  let ss ← sizes rnd sup.dims subs
  (f.indexer f.rng).forEach (fun i f => f.put i (Range.setup (bounds sup.dims ss i.index))) f

/-- range_set.cpp:14-17 constructor. -/
noncomputable def make (rnd : ℚ → ℚ) (sup : Range) (subs : List Int) : Res (IFace Range) :=
  setup rnd ⟨.empty, []⟩ sup subs

end RangeSet
end QK
