import Verif.Model.Range
/-
Model of `qk::indexer` (/repo/src/lib/indexer.h, /repo/src/lib/indexer.cpp).
`indexer` derives from `range`; the base sub-object is the field `sup`.
`_QK_RANGE_CHECK_` is defined nowhere in /repo, so the checks under it are not compiled.
-/
namespace QK

/-- indexer.h: base `range` (super-range), `_sub_range`, `_linear_index`, `_exists`, `_index`. -/
structure Indexer where
  sup : Range
  sub : Range
  linear : Int
  ex : Bool
  index : List Int
  deriving DecidableEq, Repr

namespace Indexer

/-- indexer.cpp:32-35: `for i: _linear_index += (_index[i]-_lower[i])*_stride[i]`, on the lists of
indices, bounds and strides (all of length `_num_dims`). -/
def linearSum : Int → List Int → List (Int × Int) → List Int → Int
  | acc, x :: xs, d :: ds, s :: ss => linearSum (acc + (x - d.1) * s) xs ds ss
  | acc, _, _, _ => acc

/-- indexer.cpp:18-38, constructor `indexer(sub_range, sup_range)`. -/
def make (sub sup : Range) : Indexer :=
  let base := sup.copy
  let s := sub.copy
  if 0 < base.numDims then
    if base.includes s then
      let index := s.dims.map Prod.fst
      { sup := base, sub := s, linear := linearSum 0 index base.dims base.stride, ex := true,
        index := index }
    else { sup := base, sub := s, linear := 0, ex := false, index := List.replicate base.numDims 0 }
  else { sup := base, sub := s, linear := 0, ex := false, index := [] }

/-- indexer.cpp:9-16, default constructor. -/
def default : Indexer := { sup := .empty, sub := .empty, linear := 0, ex := false, index := [] }

/-- indexer.cpp:87-96 `increment(dim)`. -/
def increment (i : Indexer) (dim : Int) : Res Indexer := do
  let s ← vget i.sup.stride dim
  let x ← vget i.index dim
  let index ← vset i.index dim (x + 1)
  return { i with linear := i.linear + s, index := index }

/-- indexer.cpp:98-107 `decrement(dim)`. -/
def decrement (i : Indexer) (dim : Int) : Res Indexer := do
  let s ← vget i.sup.stride dim
  let x ← vget i.index dim
  let index ← vset i.index dim (x - 1)
  return { i with linear := i.linear - s, index := index }

/-- indexer.cpp:115-128 `recursive_increment_dim(dim)` with `dim = n - 1`. -/
def recInc : Nat → Indexer → Res Indexer
  | 0, i => .ok { i with ex := false }
  | n+1, i => do
    let x ← vget i.index n
    let u ← i.sub.upper n
    if x = u - 1 then
      let l ← i.sub.lower n
      let index ← vset i.index n l
      let len ← i.sub.length n
      let s ← vget i.sup.stride n
      recInc n { i with index := index, linear := i.linear - (len - 1) * s }
    else i.increment n

/-- indexer.cpp:109-113 `next()`, 80-85 `operator++`. -/
def next (i : Indexer) : Res Indexer := recInc i.sup.numDims i

/-- indexer.cpp:135-143 `final_linear_index()`: starts from `volume()` and subtracts
`(upper(i) - _sub_range.upper(i)) * stride(i)` per dimension. The reads of `_sub_range.upper(i)`
are out of bounds if the sub-range has fewer dimensions. -/
def finalLoop : Int → List (Int × Int) → List (Int × Int) → List Int → Res Int
  | acc, d :: ds, e :: es, s :: ss => finalLoop (acc - (d.2 - e.2) * s) ds es ss
  | acc, [], _, _ => .ok acc
  | _, _, _, _ => .ub "vector index out of range"

/-- indexer.cpp:135-143 `final_linear_index()`. -/
def finalLinear (i : Indexer) : Res Int := finalLoop i.sup.volume i.sup.dims i.sub.dims i.sup.stride

/-- The loop `for (idx = ...; idx.exists(); idx.next()) body(idx)` over a state `σ`. bc_periodic.cpp:24 and the like. -/
noncomputable def forEach {σ : Type _} (i : Indexer) (body : Indexer → σ → Res σ) (s : σ) : Res σ :=
  iter (fun p : Indexer × σ =>
    if p.1.ex then do
      let s' ← body p.1 p.2
      let i' ← p.1.next
      return .inl (i', s')
    else .ok (.inr p.2)) (i, s)

end Indexer
end QK
