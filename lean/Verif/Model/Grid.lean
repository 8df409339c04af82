import Verif.Model.Arith
import Verif.Model.Indexer
/-
Model of the grids (/repo/src/grid/grid.{h,cpp}, rectilinear.{h,cpp}, structured.{h,cpp}).
`_QK_RANGE_CHECK_` is defined nowhere, so accesses are unchecked. `structured` does not override the
pure virtual `write_vtk` (structured.h), so no object of it can be created and every grid held by a
manager is rectilinear; its member functions are modelled on their own.
-/
namespace QK

/-- Base `range`, grid.h:43-44 `_startxs`, `_widths`, rectilinear.h:35 `_dxs`. -/
structure Rectilinear (α : Type) where
  rng : Range
  startxs : List α
  widths : List α
  dxs : List α

namespace Rectilinear
variable {α : Type} [Arith α]

/-- Reads the first `n` entries of a C array argument (grid.cpp:40-42). -/
def readArray (n : Nat) (a : List α) : Res (List α) :=
  if n ≤ a.length then .ok (a.take n) else .ub "array argument shorter than num_dims"

/-- grid.cpp:34-45 `setup` and rectilinear.cpp:24-31, the constructor. -/
def make (range : Range) (startxs widths : List α) : Res (Rectilinear α) := do
  let rng := range.copy
  let w ← readArray rng.numDims widths
  let s ← readArray rng.numDims startxs
  let dxs ← (List.range rng.numDims).mapM (fun i : Nat => do
    let wi ← vget w i
    let n ← rng.length i
    return wi / Arith.ofInt n)
  return { rng, startxs := s, widths := w, dxs }

/-- rectilinear.cpp:93-102 `dx`. -/
def dx (g : Rectilinear α) (dim : Int) : Res α := vget g.dxs dim

/-- grid.cpp:47-56. -/
def width (g : Rectilinear α) (dim : Int) : Res α := vget g.widths dim

/-- grid.cpp:59-68. -/
def start (g : Rectilinear α) (dim : Int) : Res α := vget g.startxs dim

/-- rectilinear.cpp:79-91 `centroid`. -/
def centroid (g : Rectilinear α) (dim index : Int) : Res α := do
  let s ← vget g.startxs dim
  let d ← vget g.dxs dim
  return s + (Arith.ofInt index + Arith.lit (1/2)) * d

/-- rectilinear.cpp:71-77 `xc`: writes the centroid into the caller's array; entries of the array
are `none` while uninitialised. -/
def xc (g : Rectilinear α) (index : List Int) (x : List (Option α)) : Res (List (Option α)) :=
  (List.range g.rng.numDims).foldlM (fun x (i : Nat) => do
    let s ← vget g.startxs i
    let k ← vget index i
    let d ← vget g.dxs i
    vset x i (some (s + (Arith.ofInt k + Arith.lit (1/2)) * d))) x

end Rectilinear

/-- Base grid, structured.h:36-37 `_dxs`, `_xcs`. -/
structure Structured (α : Type) where
  rng : Range
  startxs : List α
  widths : List α
  dxs : List (List α)
  xcs : List (List α)

namespace Structured
variable {α : Type} [Arith α]

/-- structured.cpp:147-150: the loop body for `i ≥ 1`, over the remaining widths; `pd` is
`dxs[i-1]`, `pxc` the running centroid. -/
def xcsLoop (pxc pd : α) : List α → List α
  | [] => []
  | d :: ds =>
    let pxc' := pxc + Arith.lit (1/2) * (pd + d)
    pxc' :: xcsLoop pxc' d ds

/-- structured.cpp:133-151 `recalculate_xcs(dim)`. The arrays `_dxs[dim]` and `_xcs[dim]` have
`length(dim)` entries; `dxs[0]` of an empty one is out of bounds. -/
def recalc (g : Structured α) (dim : Int) : Res (Structured α) := do
  let s ← vget g.startxs dim
  let dl ← vget g.dxs dim
  match dl with
  | [] => .ub "vector index out of range"
  | d :: ds =>
    let x0 := s + Arith.lit (1/2) * d
    let xcs ← vset g.xcs dim (x0 :: xcsLoop x0 d ds)
    return { g with xcs }

/-- structured.cpp:24-36, the constructor. -/
def make (range : Range) (startxs widths : List α) : Res (Structured α) := do
  let rng := range.copy
  let w ← Rectilinear.readArray rng.numDims widths
  let s ← Rectilinear.readArray rng.numDims startxs
  let g : Structured α := { rng, startxs := s, widths := w, dxs := List.replicate rng.numDims [],
                            xcs := List.replicate rng.numDims [] }
  (List.range rng.numDims).foldlM (fun g (i : Nat) => do
    let wi ← vget w i
    let n ← rng.length i
    if n < 0 then .throw "std::length_error" else
    let dxs ← vset g.dxs i (List.replicate n.toNat (wi / Arith.ofInt n))
    let xcs ← vset g.xcs i (List.replicate n.toNat (Arith.lit 0))
    recalc { g with dxs, xcs } i) g

/-- structured.cpp:51-54, the loop of `bias_array`: `x` is `xs[i]`; `n` rounds are left. -/
def biasLoop (dV invPow powv : α) : Nat → α → List α
  | 0, _ => []
  | n+1, x =>
    let x' := Arith.pow (Arith.pow x powv + dV) invPow
    (x' - x) :: biasLoop dV invPow powv n x'

/-- structured.cpp:43-55 `bias_array(dxs, size, pow)`; returns the array it fills. The callers' local
array of `size` elements must have positive size. -/
def biasArray (size : Int) (pow : Int) : Res (List α) :=
  if size ≤ 0 then .ub "local array of size 0"
  else .ok (biasLoop (Arith.lit 1 / Arith.ofInt size) (Arith.lit 1 / Arith.ofInt pow) (Arith.ofInt pow)
    size.toNat (Arith.lit 0))

/-- structured.cpp:57-82 `apply_bias_symmetric`: `L` is an `int` (structured.cpp:65), as is the
exponent passed on to `bias_array`. The loop (76-79) fills entries `i` and `N-1-i` for `i < N/2`, i.e.
the list followed by its reverse. -/
def biasSymmetric (g : Structured α) (dim : Int) (pow : α) : Res (Structured α) := do
  let w ← vget g.widths dim
  let L ← Arith.toInt (w / Arith.lit 2)
  let N ← g.rng.length dim
  if N.tmod 2 = 1 then
    .throw "qk::grid::structured::apply_bias_symmetric : Can only bias even grids."
  else
    let p ← Arith.toInt pow
    let nd ← biasArray (α := α) (N.tdiv 2) p
    let half := nd.map (fun v => Arith.ofInt L * v)
    let dxs ← vset g.dxs dim (half ++ half.reverse)
    recalc { g with dxs } dim

/-- structured.cpp:84-103 `apply_bias_linear`: entry `i` is `L * n_dxs[N-1-i]`. -/
def biasLinear (g : Structured α) (dim : Int) (pow : α) : Res (Structured α) := do
  let w ← vget g.widths dim
  let L ← Arith.toInt w
  let N ← g.rng.length dim
  let p ← Arith.toInt pow
  let nd ← biasArray (α := α) N p
  let dxs ← vset g.dxs dim ((nd.map (fun v => Arith.ofInt L * v)).reverse)
  recalc { g with dxs } dim

/-- structured.cpp:105-117 `centroid`. -/
def centroid (g : Structured α) (dim index : Int) : Res α := do
  let l ← vget g.xcs dim
  vget l index

/-- structured.cpp:119-131 `dx`. -/
def dx (g : Structured α) (dim index : Int) : Res α := do
  let l ← vget g.dxs dim
  vget l index

/-- Structured grids that the public interface can produce: construction, then any number of calls of
`apply_bias_symmetric` and `apply_bias_linear` (structured.h:19-24). -/
inductive Made : Structured α → Prop
  | make {r s w g} : make r s w = .ok g → Made g
  | symmetric {g : Structured α} {d p g'} : Made g → biasSymmetric g d p = .ok g' → Made g'
  | linear {g : Structured α} {d p g'} : Made g → biasLinear g d p = .ok g' → Made g'

end Structured
end QK
