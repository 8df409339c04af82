import Verif.Model.Stage
import Verif.Model.Manager
import Verif.Model.Advection
/-
Model of code of /repo that nothing calls: two kernels of the source terms, the function `advection`, `dataset::sync`, `face_basis`.

The loops of the kernels stand under `#pragma omp parallel for`, but their iterations advance pointers declared outside the
loop; with more than one thread that is a data race. They are modelled as they run on one thread.
-/
namespace QK

namespace Source
variable {α : Type} [Arith α]

/-- lorentz_force.cpp:71-114 `low_order_solve`: the bounds `imin`, `imax` (90-91), then rounds that advance the pointers by 5, 6
and 5 elements (107-111). The body (101-104) is that of `low_order_solve_idx`. -/
def lorentzWalk (com : α) (fluid field rhs : Chunk α) : Res (Chunk α) := do
  let fr ← fluid.internal.copy.set (fluid.internal.numDims - 1) 0 1
  let er ← field.internal.copy.set (field.internal.numDims - 1) 0 1
  let fi := fluid.arr.indexer fr
  let ei := field.arr.indexer er
  let last ← fi.finalLinear
  let imin := fi.linear.tdiv 5
  let imax := (last + 1).tdiv 5
  let d ← (List.range (imax - imin).toNat).foldlM
    (fun d k => lorentzAt com fluid.arr.data field.arr.data (fi.linear + 5 * (k : Nat)) (ei.linear + 6 * (k : Nat)) d) rhs.arr.data
  return { rhs with arr := { rhs.arr with data := d } }

/-- current_source.cpp:64-66, one round; `f` is the fluid array, `d` the array of `rhs_data`. -/
def currentAt (mult : α) (f : List α) (pi ei : Int) (d : List α) : Res (List α) := do
  let p0 ← vget f pi
  let d ← addAt d ei 0 (mult * p0)
  let p1 ← vget f (pi + 1)
  let d ← addAt d ei 1 (mult * p1)
  let p2 ← vget f (pi + 2)
  addAt d ei 2 (mult * p2)

/-- current_source.cpp:44-73 `fv_solve`, for two different chunks. -/
def currentWalk (mult : α) (fluid rhs : Chunk α) : Res (Chunk α) := do
  let pr ← fluid.internal.copy.set (fluid.internal.numDims - 1) 0 1
  let er ← rhs.internal.copy.set (rhs.internal.numDims - 1) 0 1
  let pi := fluid.arr.indexer pr
  let ei := rhs.arr.indexer er
  let last ← pi.finalLinear
  let imin := pi.linear.tdiv 5
  let imax := (last + 1).tdiv 5
  let d ← (List.range (imax - imin).toNat).foldlM
    (fun d k => currentAt mult fluid.arr.data (pi.linear + 1 + 5 * (k : Nat)) (ei.linear + 6 * (k : Nat)) d) rhs.arr.data
  return { rhs with arr := { rhs.arr with data := d } }

end Source

namespace Advection
open Prog
variable {α : Type} [Arith α]

/-- ssprk2_advection.cpp:103-107: `stride[0] = 1; stride[i] = stride[i - 1] * totalRange.length(i - 1)`, here from stride `s` on. -/
def colStrides (s : Int) : List (Int × Int) → List Int
  | [] => []
  | d :: ds => s :: colStrides (s * (d.2 - d.1)) ds

/-- ssprk2_advection.cpp:123-126 = 137-140, one direction: the iterations of `advection_iterate`. In the second loop `dt` is `0.5 * dt`. -/
def colSweep (dt : α) (velocity : List α) (grid : Rectilinear α) (r : Range) (dim : Nat) : Res (List (Prog α Unit)) := do
  let v ← vget velocity dim
  let s ← vget (colStrides 1 r.dims) dim
  let offset := (if Arith.lt (Arith.lit 0) v then 1 else -1) * s
  let d ← grid.dx dim
  return iterate (max 0 (2 * offset)) (min r.volume (r.volume - 2 * offset)) offset (dt * v / d)

/-- ssprk2_advection.cpp:116. -/
def copyAt (i : Int) : Prog α Unit := do
  let x ← read (0, i)
  write (1, i) x

/-- ssprk2_advection.cpp:121-127 = 135-141, all directions. -/
def colInout (dt : α) (velocity : List α) (grid : Rectilinear α) (r : Range) (a b : Chunk α) : Res (Chunk α) :=
  (List.range r.numDims).foldlM (fun b dim => do
    let ps ← colSweep dt velocity grid r dim
    FV.runOn ps a b) b

/-- ssprk2_advection.cpp:93-143 `advection`; the pointers are those to the elements of three different chunks. Returns `ns` and `np`.
`int stride[numDims]` is undefined for `numDims = 0`. -/
def advection (grid : Rectilinear α) (r : Range) (dt : α) (velocity : List α) (n ns np : Chunk α) : Res (Chunk α × Chunk α) := do
  if r.numDims = 0 then .ub "array without elements"
  else
    let points := (List.range r.volume.toNat).map (fun i : Nat => (i : Int))
    let ns ← RK.runOut (points.map copyAt) [n] ns
    let ns ← colInout dt velocity grid r n ns
    let np ← RK.runOut (points.map average) [n, ns] np
    let np ← colInout (Arith.lit (1 / 2) * dt) velocity grid r ns np
    return (ns, np)

end Advection

/-- dataset.cpp:36-49 `dataset::sync`. -/
def Var.sync {α : Type} (_ : Var α) : Res (Var α) := .throw "qk::data::dataset::sync : Function really doesn't work yet."

/-- face_basis.h:27-30 and the base class. -/
structure FaceBasis (α : Type) where
  base : Basis
  numDims : Int
  perDim : Int
  points : List α
  weights : List α

namespace FaceBasis
variable {α : Type} [Arith α]

/-- face_basis.cpp:11-17. -/
def default : FaceBasis α := ⟨⟨"face_basis", 0⟩, 0, 0, [], []⟩

/-- face_basis.cpp:24-37 `setup`: the numbers are stored before the check. -/
def setup (numDims perDim : Int) : SM (FaceBasis α) Unit := do
  let b ← SM.get
  SM.set { b with numDims := numDims, perDim := perDim, base := { b.base with points := numDims * perDim } }
  if perDim ≠ 1 then SM.raise "qk::basis::face_basis::setup : Not yet setup for multiple points per dimensions."
  else
    let b ← SM.get
    SM.set { b with points := b.points ++ [Arith.lit 0], weights := b.weights ++ [Arith.lit 1] }

end FaceBasis
end QK
