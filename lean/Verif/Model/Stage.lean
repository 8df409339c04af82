import Verif.Model.FiniteVolume
/-
Model of the element-wise time integrators and source terms, on chunks
(/repo/src/solver/ssprk3.cpp, rk1.cpp, lorentz_force.cpp, current_source.cpp).
-/
namespace QK

namespace RK
open Prog
variable {α : Type} [Arith α]

/-- Run iterations in order on the arrays of `ins` (numbered from 0) and `out` (the last number). ssprk3.cpp:60-67 and the like. -/
def runOut (ps : List (Prog α Unit)) (ins : List (Chunk α)) (out : Chunk α) : Res (Chunk α) := do
  let m ← runAll ps (Mem.of (ins.map (fun c => c.arr.data) ++ [out.arr.data]))
  let data ← m.extract ins.length out.arr.data.length
  return { out with arr := { out.arr with data := data } }

/-- The values of `i` in `for (i = 0; i < num_points; i++)`, `num_points = rhs.volume()`
(ssprk3.cpp:63-65, 81-83, 100-102; rk1.cpp:51-52). -/
def points (rhs : Chunk α) : List Int := (List.range rhs.arr.rng.volume.toNat).map (fun i : Nat => (i : Int))

/-- ssprk3.cpp:66, rk1.cpp:53; arrays `n0`, `r`, `n1`. -/
def iter0 (dt : α) (i : Int) : Prog α Unit := do
  let n0 ← read (0, i)
  let r ← read (1, i)
  write (2, i) (n0 + dt * r)

/-- ssprk3.cpp:80, 84; arrays `n0`, `n1`, `r`, `n2`. -/
def iter1 (dt : α) (i : Int) : Prog α Unit := do
  let n0 ← read (0, i)
  let n1 ← read (1, i)
  let r ← read (2, i)
  write (3, i) (Arith.lit (3 / 4) * n0 + Arith.lit (1 / 4) * n1 + Arith.lit (1 / 4) * dt * r)

/-- ssprk3.cpp:103; arrays `n0`, `n2`, `r`, `n3` (the pointer to `q1` is not used). -/
def iter2 (dt : α) (i : Int) : Prog α Unit := do
  let n0 ← read (0, i)
  let n2 ← read (1, i)
  let r ← read (2, i)
  write (3, i) ((n0 + Arith.lit 2 * (n2 + dt * r)) / Arith.lit 3)

/-- ssprk3.cpp:55-68 `ssprk3::stage_0`, rk1.cpp:43-55 `rk1::stage_0`, run sequentially. -/
def stage0 (dt : α) (q0 rhs q1 : Chunk α) : Res (Chunk α) := runOut ((points rhs).map (iter0 dt)) [q0, rhs] q1

/-- ssprk3.cpp:70-86 `stage_1`, run sequentially. -/
def stage1 (dt : α) (q0 q1 rhs q2 : Chunk α) : Res (Chunk α) := runOut ((points rhs).map (iter1 dt)) [q0, q1, rhs] q2

/-- ssprk3.cpp:88-105 `stage_2`, run sequentially. -/
def stage2 (dt : α) (q0 q2 rhs q3 : Chunk α) : Res (Chunk α) := runOut ((points rhs).map (iter2 dt)) [q0, q2, rhs] q3

end RK

namespace Indexer

/-- `while (i.exists() and j.exists()) { body; ++i; ++j; }` (lorentz_force.cpp:40-67, current_source.cpp:35-40). -/
noncomputable def forBoth {σ : Type} (i j : Indexer) (body : Indexer → Indexer → σ → Res σ) (s : σ) : Res σ :=
  iter (fun p : Indexer × Indexer × σ =>
    if p.1.ex && p.2.1.ex then do
      let s' ← body p.1 p.2.1 p.2.2
      let i' ← p.1.next
      let j' ← p.2.1.next
      return .inl (i', j', s')
    else .ok (.inr p.2.2)) (i, j, s)

end Indexer

namespace Source
variable {α : Type} [Arith α]

/-- `p[k] += v` for a pointer `p = rhs_data.data() + base`. lorentz_force.cpp:41-62, current_source.cpp:36. -/
def addAt (d : List α) (base k : Int) (v : α) : Res (List α) := do
  let r ← vget d (base + k)
  vset d (base + k) (r + v)

/-- lorentz_force.cpp:41-62, one round, at the element positions of the two indexers; `f`, `e` are the fluid and
field arrays, `d` the array of `rhs_data`. The pointers are `__restrict__` (aliasing is handled where the solver is
modelled), so the values of `q` and `E` do not change during the round. -/
def lorentzAt (com : α) (f e : List α) (fi ei : Int) (d : List α) : Res (List α) := do
  let q0 ← vget f fi
  let p0 ← vget f (fi + 1)
  let p1 ← vget f (fi + 2)
  let p2 ← vget f (fi + 3)
  let E0 ← vget e ei
  let E1 ← vget e (ei + 1)
  let E2 ← vget e (ei + 2)
  let B0 ← vget e (ei + 3)
  let B1 ← vget e (ei + 4)
  let B2 ← vget e (ei + 5)
  let d ← addAt d fi 1 (com * (q0 * E0 + p1 * B2 - p2 * B1))
  let d ← addAt d fi 2 (com * (q0 * E1 + p2 * B0 - p0 * B2))
  let d ← addAt d fi 3 (com * (q0 * E2 + p0 * B1 - p1 * B0))
  addAt d fi 4 (com * (p0 * E0 + p1 * E1 + p2 * E2))

/-- lorentz_force.cpp:21-68 `low_order_solve_idx`. -/
noncomputable def lorentz (com : α) (fluid field rhs : Chunk α) : Res (Chunk α) := do
  let fr ← fluid.internal.copy.set (fluid.internal.numDims - 1) 0 1
  let er ← field.internal.copy.set (field.internal.numDims - 1) 0 1
  let d ← (fluid.arr.indexer fr).forBoth (field.arr.indexer er)
    (fun i j d => lorentzAt com fluid.arr.data field.arr.data i.linear j.linear d) rhs.arr.data
  return { rhs with arr := { rhs.arr with data := d } }

/-- current_source.cpp:22-42 `fv_solve_idx`. `fluid = none` when the fluid chunk is the chunk `rhs` itself. -/
noncomputable def current (mult : α) (fluid : Option (Chunk α)) (rhs : Chunk α) : Res (Chunk α) := do
  let fc := fluid.getD rhs
  let pr ← fc.internal.copy.set (fc.internal.numDims - 1) 1 4
  let er ← rhs.internal.copy.set (rhs.internal.numDims - 1) 0 3
  let a ← (fc.arr.indexer pr).forBoth (rhs.arr.indexer er)
    (fun i j (a : IFace α) => do
      let r ← a.get j
      let v ← IFace.srcGet (fluid.map (fun c => c.arr)) a i
      a.put j (r + mult * v)) rhs.arr
  return { rhs with arr := a }

/-- current_source.h:20-31 `setup`. -/
def currentSetup (eps0 : α) (charges masses : List α) : Res (List α) :=
  if charges.length ≠ masses.length then
    .throw "qk::solver::current_source::setup : Charges and masses are of different lengths."
  else .ok (List.zipWith (fun c m => -c / m / eps0) charges masses)

end Source
end QK
