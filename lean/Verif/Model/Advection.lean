import Verif.Model.Solvers
/-
Model of the advection solver (/repo/src/solver/ssprk2_advection.cpp). The function `advection` (lines 93-143) has no caller; it is in
Model/Unused.lean.
-/
namespace QK

namespace Advection
open Prog
variable {α : Type} [Arith α]

/-- ssprk2_advection.cpp:51-57, the flux from the values `vn`, `vc`, `vp` of three consecutive elements. -/
def dflux (coeff vn vc vp : α) : α :=
  let r := if Arith.feq vp vc then Arith.lit 1 else (vc - vn) / (vp - vc)
  let phi := r * (r + Arith.lit 1) / (r * r + Arith.lit 1)
  coeff * (vc + Arith.lit (1 / 4) * phi * (vp - vn))

/-- ssprk2_advection.cpp:43-64, one iteration; array 0 is `a`, array 1 is `b` (`__restrict__`). -/
def iteration (coeff : α) (s i : Int) : Prog α Unit := do
  let vc ← read (0, i - s)
  let vn ← read (0, i - 2 * s)
  let vp ← read (0, i)
  let f := dflux coeff vn vc vp
  let x ← read (1, i - s)
  write (1, i - s) (x - f)
  let y ← read (1, i)
  write (1, i) (y + f)

/-- ssprk2_advection.cpp:42, the values of `i`. -/
def indices (start stop : Int) : List Int := (List.range (stop - start).toNat).map (fun k : Nat => start + k)

/-- ssprk2_advection.cpp:28-67 `advection_iterate`: the iterations of the parallel loop. -/
def iterate (start stop s : Int) (coeff : α) : List (Prog α Unit) := (indices start stop).map (iteration coeff s)

/-- ssprk2_advection.cpp:73-87, one direction: the arguments of `advection_iterate`. -/
def sweep (dt : α) (velocity : List α) (grid : Rectilinear α) (a : Chunk α) (dim : Nat) : Res (List (Prog α Unit)) := do
  let v ← vget velocity dim
  let s ← vget a.arr.rng.stride dim
  let d ← grid.dx dim
  let coeff := Arith.fabs (dt * v / d)
  if Arith.lt (Arith.lit 0) v then return iterate (2 * s) (a.arr.rng.volume - 1) s coeff
  else return iterate 0 (a.arr.rng.volume - 2 * s) (-s) coeff

/-- ssprk2_advection.cpp:69-90 `advection_inout`, run sequentially (the loop of `advection_iterate` is parallel, see
C57). -/
def inout (dt : α) (velocity : List α) (grid : Rectilinear α) (a b : Chunk α) : Res (Chunk α) :=
  (List.range grid.rng.numDims).foldlM (fun b dim => do
    let ps ← sweep dt velocity grid a dim
    FV.runOn ps a b) b

/-- ssprk2_advection.cpp:208-218 `stage_0`. -/
def stage0 (dt : α) (velocity : List α) (grid : Rectilinear α) (n0 n1 : Chunk α) : Res (Chunk α) := do
  let a ← IFace.fullCopy n0.arr n1.arr
  inout dt velocity grid n0 { n1 with arr := a }

/-- ssprk2_advection.cpp:268, one round; arrays `n`, `ns`, `np`. -/
def average (i : Int) : Prog α Unit := do
  let n ← read (0, i)
  let ns ← read (1, i)
  write (2, i) (Arith.lit (1 / 2) * (n + ns))

/-- ssprk2_advection.cpp:254-271 `stage_1`. The loop reads element `i` before it writes it, so `n2` may be the same
chunk as `n0`. -/
def stage1 (dt : α) (velocity : List α) (grid : Rectilinear α) (n0 n1 n2 : Chunk α) : Res (Chunk α) := do
  let n2 ← RK.runOut ((RK.points n0).map average) [n0, n1] n2
  inout (Arith.lit (1 / 2) * dt) velocity grid n1 n2

end Advection

namespace Solve
open SM
variable {α : Type} [Arith α]

/-- ssprk2_advection.cpp:183-204, the loops over the chunks. `full_copy` of a chunk to itself is a `memcpy` between
overlapping buffers, and `advection_iterate` has `__restrict__` pointers (`aliased`). -/
noncomputable def advectionLoop (velocity : List α) (t : α) (a0 a1 a2 : Nat) (tag : Int) : SM (Mgr α) Unit :=
  if tag = 0 then
    kernelLoop a0 a1 [a0] (fun m cs c1 => do
      aliased (a0 == a1)
      match cs with
      | [c0] => Advection.stage0 t velocity m.grid c0 c1
      | _ => .ub "unreachable")
  else if tag = 1 then
    kernelLoop a0 a2 [a0, a1] (fun m cs c2 => do
      aliased (a1 == a2)
      match cs with
      | [c0, c1] => Advection.stage1 t velocity m.grid c0 c1 c2
      | _ => .ub "unreachable")
  else return ()

/-- ssprk2_advection.cpp:161-206 `ssprk2_advection::solve`. -/
noncomputable def advection (velocity : List α) (ins outs : List VarId) (tag : Int) : SM (Mgr α) Unit :=
  match ins, outs with
  | [i0], [o1, o2] => do
    let _ ← time
    let t ← dt
    let a0 ← inputVar i0
    let a1 ← outputVar o1
    let a2 ← outputVar o2
    advectionLoop velocity t a0 a1 a2 tag
  | [_], _ => raise "qk::solver::ssprk2_advection::solve : Output must contain two variables."
  | _, _ => raise "qk::solver::ssprk2_advection::solve : Input must contain one variable."

end Solve
end QK
