import Verif.Model.Par
import Verif.Model.Arith
import Verif.Model.Chunk
import Verif.Model.Grid
/-
Model of the finite-volume kernels of the Euler and Maxwell solvers
(/repo/src/solver/euler.cpp, /repo/src/solver/maxwell.cpp, /repo/src/spatial_solver/functions.h).

Array 0 is `q_data.data()`, array 1 is `rhs_data.data()`; the pointers are `__restrict__` and the two chunks
are different objects (aliasing is handled where the solvers are modelled). An element of `q` that the source
names several times in an iteration is read once.
-/
namespace QK
namespace FV
open Prog
variable {α : Type} [Arith α]

/-- euler.cpp:80-85 = 149-154, maxwell.cpp:124-129 (and the five copies), functions.h:23-28: limited
reconstruction at the wall between `qc` and `qp`; returns `(ql, qr)`. -/
def recon (qn qc qp qpp : α) : α × α :=
  let rl := (qp - qc) / (qc - qn + Arith.lit (1 / 10 ^ 12))
  let rr := (qp - qc) / (qpp - qp + Arith.lit (1 / 10 ^ 12))
  let phil := (rl * rl + rl) / (rl * rl + Arith.lit 1)
  let phir := (rr * rr + rr) / (rr * rr + Arith.lit 1)
  (qc + Arith.lit (1 / 2) * phil * (qc - qn), qp + Arith.lit (1 / 2) * phir * (qp - qpp))

/-- A numerical flux: from the left and right states to the flux vector. euler.cpp:89-132, maxwell.cpp:132-137. -/
abbrev Flux (α : Type) := List α → List α → Res (List α)

/-- The flux through a wall from the four states that start at these indices of `q` (euler.cpp:73-134,
142-203; maxwell.cpp:118-138, 146-166). -/
def wall (n : Nat) (flux : Flux α) (inn ic ip ipp : Int) : Prog α (List α) := do
  let lr ← (List.range n).mapM (fun j : Nat => do
    let qn ← read (0, inn + j)
    let qc ← read (0, ic + j)
    let qp ← read (0, ip + j)
    let qpp ← read (0, ipp + j)
    pure (recon qn qc qp qpp))
  ofRes (flux (lr.map Prod.fst) (lr.map Prod.snd))

/-- One iteration of the parallel kernels: euler.cpp:63-208, maxwell.cpp:110-171, 188-249, 267-328. -/
def iterMp (n : Nat) (flux : Flux α) (d : α) (stride i : Int) : Prog α Unit := do
  let F ← wall n flux (i - stride - stride) (i - stride) i (i + stride)
  (List.range n).forM (fun j : Nat => do
    let r ← read (1, i + j)
    let f ← ofRes (vget F j)
    write (1, i + j) (r + f / d))
  let G ← wall n flux (i - stride) i (i + stride) (i + stride + stride)
  (List.range n).forM (fun j : Nat => do
    let r ← read (1, i + j)
    let f ← ofRes (vget G j)
    write (1, i + j) (r - f / d))

/-- One iteration of the serial kernels: functions.h:15-35 around the flux formulas. -/
def iterFast (n : Nat) (flux : Flux α) (d : α) (stride i : Int) : Prog α Unit := do
  let F ← wall n flux (i - stride) i (i + stride) (i + stride + stride)
  (List.range n).forM (fun j : Nat => do
    let f ← ofRes (vget F j)
    let r ← read (1, i + j)
    write (1, i + j) (r - f / d)
    let r' ← read (1, i + stride + j)
    write (1, i + stride + j) (r' + f / d))

/-- The values of `i` in `for (i = imin; i < imax; i += n)`, for `n ≥ 1`. euler.cpp:61, maxwell.cpp:108. -/
def steps (imin imax : Int) (n : Nat) : List Int :=
  (List.range ((imax - imin + n - 1) / n).toNat).map (fun k : Nat => imin + n * k)

/-- `imin` and `imax` (euler.cpp:53-55, functions.h:11-13). -/
def bounds (q : Chunk α) (r : Range) : Res (Int × Int) := do
  let idx := q.arr.indexer r
  let f ← idx.finalLinear
  return (idx.linear, f + 1)

/-- The iterations of one direction of the parallel kernels (euler.cpp:48-61, maxwell.cpp:99-108). -/
def itersMp (n : Nat) (flux : Flux α) (grid : Rectilinear α) (q : Chunk α) (dim : Nat) : Res (List (Prog α Unit)) := do
  let d ← grid.dx dim
  let stride ← vget q.arr.rng.stride dim
  let r := q.internal.copy
  let r ← r.set (r.numDims - 1) 0 1
  let b ← bounds q r
  return (steps b.1 b.2 n).map (iterMp n flux d stride)

/-- The iterations of one direction of the serial kernels (functions.h:3-14). -/
def itersFast (n : Nat) (flux : Flux α) (grid : Rectilinear α) (q : Chunk α) (dim : Nat) : Res (List (Prog α Unit)) := do
  let d ← grid.dx dim
  let stride ← vget q.arr.rng.stride dim
  let r := q.internal.copy
  let r ← r.expand dim (-1) 0
  let r ← r.set (r.numDims - 1) 0 1
  let b ← bounds q r
  return (steps b.1 b.2 n).map (iterFast n flux d stride)

/-- Run iterations in order on the arrays of `q` and `rhs`. euler.cpp:57-61 (pointers and loop). -/
def runOn (ps : List (Prog α Unit)) (q rhs : Chunk α) : Res (Chunk α) := do
  let m ← runAll ps (Mem.of [q.arr.data, rhs.arr.data])
  let data ← m.extract 1 rhs.arr.data.length
  return { rhs with arr := { rhs.arr with data := data } }

/-- One direction, sequentially. euler.cpp:48-208, maxwell.cpp:99-171. -/
def sweepMp (n : Nat) (flux : Flux α) (grid : Rectilinear α) (q rhs : Chunk α) (dim : Nat) : Res (Chunk α) := do
  let ps ← itersMp n flux grid q dim
  runOn ps q rhs

/-- One direction of the kernels without threads, functions.h:11-32. -/
def sweepFast (n : Nat) (flux : Flux α) (grid : Rectilinear α) (q rhs : Chunk α) (dim : Nat) : Res (Chunk α) := do
  let ps ← itersFast n flux grid q dim
  runOn ps q rhs

end FV

namespace Euler
variable {α : Type} [Arith α]

/-- euler.cpp:89-132 = 158-201 = 228-264: pressures, speeds, physical fluxes and HLL flux in direction
`dim`. `ql`, `qr`, `fl`, `fr`, `F` are arrays of 5. -/
def hll (gamma : α) (dim : Int) (ql qr : List α) : Res (List α) := do
  let g1 := gamma - Arith.lit 1
  match ql, qr with
  | [l0, l1, l2, l3, l4], [r0, r1, r2, r3, r4] =>
    let Pl := g1 * (l4 - Arith.lit (1 / 2) * (l1 * l1 + l2 * l2 + l3 * l3) / l0)
    let Pr := g1 * (r4 - Arith.lit (1 / 2) * (r1 * r1 + r2 * r2 + r3 * r3) / r0)
    let vsl := Arith.sqrt (gamma * Pl / l0)
    let vsr := Arith.sqrt (gamma * Pr / r0)
    let ld ← vget ql (dim + 1)
    let rd ← vget qr (dim + 1)
    let unl := ld / l0
    let unr := rd / r0
    let sll := unl - vsl
    let srr := unr + vsr
    let fl := [ld, l1 * unl, l2 * unl, l3 * unl, (l4 + Pl) * unl]
    let x ← vget fl (dim + 1)
    let fl ← vset fl (dim + 1) (x + Pl)
    let fr := [rd, r1 * unr, r2 * unr, r3 * unr, (r4 + Pr) * unr]
    let y ← vget fr (dim + 1)
    let fr ← vset fr (dim + 1) (y + Pr)
    let flMult : α := Arith.ofBool (Arith.lt (Arith.lit 0) sll)
    let frMult : α := Arith.ofBool (Arith.lt srr (Arith.lit 0))
    let fhllMult : α := Arith.ofBool (Arith.le (Arith.lit 0) srr && Arith.le sll (Arith.lit 0))
    (List.range 5).mapM (fun j : Nat => do
      let flj ← vget fl j
      let frj ← vget fr j
      let qlj ← vget ql j
      let qrj ← vget qr j
      let F := (srr * flj - sll * frj + sll * srr * (qrj - qlj)) / (srr - sll)
      return fhllMult * F + flMult * flj + frMult * frj)
  | _, _ => .ub "arrays of 5"

/-- euler.cpp:29-212 `solve_HLL_mp`, run sequentially. -/
def solveMp (gamma : α) (grid : Rectilinear α) (q rhs : Chunk α) : Res (Chunk α) :=
  (List.range grid.rng.numDims).foldlM (fun (r : Chunk α) (dim : Nat) => FV.sweepMp 5 (hll gamma dim) grid q r dim) rhs

/-- euler.cpp:214-267 `solve_HLL_fast`. -/
def solveFast (gamma : α) (grid : Rectilinear α) (q rhs : Chunk α) : Res (Chunk α) :=
  (List.range grid.rng.numDims).foldlM (fun (r : Chunk α) (dim : Nat) => FV.sweepFast 5 (hll gamma dim) grid q r dim) rhs

end Euler

namespace Maxwell
variable {α : Type} [Arith α]

/-- maxwell.cpp:84-90 and the flux formulas: dim 0: 132-137 = 160-165 = 40-45, dim 1: 210-215 = 238-243 =
53-58, dim 2: 289-294 = 317-322 = 65-70. -/
def rusanov (c : α) (dim : Nat) (ql qr : List α) : Res (List α) :=
  let absc := Arith.fabs c
  let c2 := c * c
  let Ef := Arith.lit (1 / 2) * c2
  let Bf : α := Arith.lit (1 / 2)
  let Edq := -Arith.lit (1 / 2) * absc
  let Bdq := -Arith.lit (1 / 2) * absc
  match ql, qr with
  | [l0, l1, l2, l3, l4, l5], [r0, r1, r2, r3, r4, r5] =>
    match dim with
    | 0 => .ok [Arith.lit 0, Ef * (r5 + l5) + Edq * (r1 - l1), -Ef * (r4 + l4) + Edq * (r2 - l2),
        Arith.lit 0, -Bf * (r2 + l2) + Bdq * (r4 - l4), Bf * (r1 + l1) + Bdq * (r5 - l5)]
    | 1 => .ok [-Ef * (r5 + l5) + Edq * (r0 - l0), Arith.lit 0, Ef * (r3 + l3) + Edq * (r2 - l2),
        Bf * (r2 + l2) + Bdq * (r3 - l3), Arith.lit 0, -Bf * (r0 + l0) + Bdq * (r5 - l5)]
    | _ => .ok [Ef * (r4 + l4) + Edq * (r0 - l0), -Ef * (r3 + l3) + Edq * (r1 - l1), Arith.lit 0,
        -Bf * (r1 + l1) + Bdq * (r3 - l3), Bf * (r0 + l0) + Bdq * (r4 - l4), Arith.lit 0]
  | _, _ => .ub "arrays of 6"

/-- maxwell.cpp:78-332 `solve_rusanov_mp`, run sequentially: directions 0, 1, 2 as far as the grid has them. -/
def solveMp (c : α) (grid : Rectilinear α) (q rhs : Chunk α) : Res (Chunk α) :=
  (List.range (min grid.rng.numDims 3)).foldlM (fun (r : Chunk α) (dim : Nat) => FV.sweepMp 6 (rusanov c dim) grid q r dim) rhs

/-- maxwell.cpp:22-74 `solve_rusanov_fast`. -/
def solveFast (c : α) (grid : Rectilinear α) (q rhs : Chunk α) : Res (Chunk α) :=
  (List.range (min grid.rng.numDims 3)).foldlM (fun (r : Chunk α) (dim : Nat) => FV.sweepFast 6 (rusanov c dim) grid q r dim) rhs

end Maxwell
end QK
