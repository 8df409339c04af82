import Verif.Model.Int32
import Verif.Model.Variable
import Verif.Model.FiniteVolume
import Verif.Model.Advection
/-
`int` arithmetic with overflow, continued from Model/Int32.lean: creation of chunks and variables, and the index computations of
the kernels and of the VTK writer, with every intermediate `int` checked (`i32`). Pointer arithmetic is 64-bit and not concerned.
-/
namespace QK

/-- range.cpp:19-23, 44-48, 166-171: copying a range recomputes the strides. -/
def Range.copy32 (r : Range) : Res Range := Range.setup32 r.dims

namespace Chunk
variable {α : Type}

/-- datachunk.cpp:83-85, extended_datachunk.cpp:45-50 (see `extrudeAll`). -/
def extrudeAll32 : Range → List (Int × Int) → Res Range
  | r, [] => .ok r
  | r, d :: ds => do
    let r ← r.extrude32 d.1 d.2
    extrudeAll32 r ds

end Chunk

/-- indexer_interface.h:77-81 `resize(range)`. -/
def IFace.resize32 {α : Type} (zero : α) (f : IFace α) (r : Range) : Res (IFace α) := do
  let rng ← r.copy32
  let n ← rng.volume32
  let data ← IFace.vresize zero f.data n
  return { rng := rng, data := data }

namespace Chunk
variable {α : Type}

/-- datachunk.cpp:76-89 `datachunk::resize`. -/
def resizeBase32 (zero : α) (c : Chunk α) (mesh dataR : Range) : Res (Chunk α) := do
  let m ← mesh.copy32
  let d ← dataR.copy32
  let range ← m.copy32
  let range ← extrudeAll32 range dataR.dims
  let arr ← c.arr.resize32 zero range
  return { c with mesh := m, dataR := d, arr := arr }

/-- extended_datachunk.cpp:32-35. -/
def expandLoop32 (g : Int) : Nat → Range → Res Range
  | 0, r => .ok r
  | n+1, r => do
    let r ← expandLoop32 g n r
    let g' ← i32 (-g)
    r.expand32 n g' g

/-- extended_datachunk.cpp:57-71, body of the loop over the mesh dimensions. -/
def faces32 (g : Int) (internal : Range) (i : Nat) : Res Faces := do
  let le ← internal.copy32
  let a ← i32 ((← le.lower i) - g)
  let le ← le.set32 i a (← le.lower i)
  let li ← internal.copy32
  let b ← i32 ((← li.lower i) + g)
  let li ← li.set32 i (← li.lower i) b
  let ui ← internal.copy32
  let c ← i32 ((← ui.upper i) - g)
  let ui ← ui.set32 i c (← ui.upper i)
  let ue ← internal.copy32
  let d ← i32 ((← ue.upper i) + g)
  let ue ← ue.set32 i (← ue.upper i) d
  return ⟨le, li, ui, ue⟩

/-- extended_datachunk.cpp:56-72, the loop (copying the ranges into the vectors included). -/
def facesLoop32 (g : Int) (internal : Range) : Nat → Res (List Faces)
  | 0 => .ok []
  | n+1 => do
    let fs ← facesLoop32 g internal n
    let f ← faces32 g internal n
    return fs ++ [f]

/-- extended_datachunk.cpp:27-74 `extended_datachunk::resize`. -/
def resize32 (zero : α) (c : Chunk α) (mesh dataR : Range) (g : Int) : Res (Chunk α) := do
  let ext ← mesh.copy32
  let ext ← expandLoop32 g mesh.numDims ext
  let c ← c.resizeBase32 zero ext dataR
  let internal ← extrudeAll32 .empty mesh.dims
  let internal ← extrudeAll32 internal dataR.dims
  let fs ← facesLoop32 g internal ext.numDims
  return { c with
    ghosts := g, internal := internal,
    lowExt := fs.map Faces.lowExt, lowInt := fs.map Faces.lowInt,
    upInt := fs.map Faces.upInt, upExt := fs.map Faces.upExt }

end Chunk

/-- dataset.cpp:51-82 `dataset::resize` and variable.cpp:28-38 (see `Var.make`). -/
def Var.make32 {α : Type} (zero : α) (name : String) (comps : List String) (basis : Basis) (mesh : Range)
    (g : Int) : Res (Var α) := do
  let meshGlobal ← mesh.copy32
  let d0 ← Range.empty.extrude32 0 basis.points
  let dataR ← d0.extrude32 0 comps.length
  let v ← meshGlobal.volume32
  if v > 0 then
    let chunkR ← Chunk.extrudeAll32 .empty (List.replicate meshGlobal.numDims (0, 1))
    let chunks ← IFace.resize32 Chunk.default ⟨.empty, []⟩ chunkR
    let c ← vget chunks.data 0
    let c ← c.resize32 zero meshGlobal dataR g
    let d ← vset chunks.data 0 c
    return { name, comps, basis, dataR, meshGlobal, chunks := { chunks with data := d } }
  else
    return { name, comps, basis, dataR, meshGlobal, chunks := ⟨.empty, []⟩ }

/-- The values of `i` in `for (int i = imin; i < imax; i += n)`; the loop computes `i + n` after each round (euler.cpp:61,
maxwell.cpp:108, ssprk3.cpp:65, ssprk2_advection.cpp:42). -/
def FV.steps32 (imin imax : Int) (n : Nat) : Res (List Int) :=
  (FV.steps imin imax n).mapM (fun i => do
    let _ ← i32 (i + n)
    return i)

/-- euler.cpp:53-55, functions.h:11-13: `imin` and `imax` (see `FV.bounds`). -/
def FV.bounds32 {α : Type} (q : Chunk α) (r : Range) : Res (Int × Int) := do
  let idx ← Indexer.make32 r q.arr.rng
  let f ← idx.finalLinear32
  let m ← i32 (f + 1)
  return (idx.linear, m)

/-- The values of `i` in one direction of the parallel kernels (see `FV.itersMp`): euler.cpp:51-61, maxwell.cpp:102-108. -/
def FV.countersMp32 {α : Type} (n : Nat) (q : Chunk α) : Res (List Int) := do
  let r ← q.internal.copy32
  let r ← r.set32 (r.numDims - 1) 0 1
  let b ← FV.bounds32 q r
  FV.steps32 b.1 b.2 n

/-- ssprk2_advection.cpp:76-84 and 42-48: the values of `i` in direction `dim` with the indices `i - s`, `i - 2 s` computed from
each, `s` being `downstream_stride`; `up` says whether the velocity is positive. -/
def Advection.counters32 {α : Type} (a : Chunk α) (dim : Nat) (up : Bool) : Res (List (Int × Int × Int)) := do
  let s ← vget a.arr.rng.stride dim
  let v ← a.arr.rng.volume32
  let s2 ← i32 (2 * s)
  let ds ← if up then .ok s else i32 (-s)
  let start := if up then s2 else 0
  let stop ← if up then i32 (v - 1) else i32 (v - s2)
  let is ← FV.steps32 start stop 1
  is.mapM (fun i => do
    let x ← i32 (i - ds)
    let d2 ← i32 (2 * ds)
    let y ← i32 (i - d2)
    return (i, x, y))

/-- datachunk.cpp:44-70: the element index for the mesh position `xs` and the value `off` of `offset`, from the last mesh dimension to
the first; `ds`, `ss` are the bounds and strides of the array (they go on with the dimensions of the data). -/
def Vtk.index32 (off : Int) : List Int → List (Int × Int) → List Int → Res Int
  | x :: xs, d :: ds, s :: ss => do
    let z ← Vtk.index32 off xs ds ss
    let a ← i32 (x - d.1)
    let b ← i32 (a * s)
    i32 (z + b)
  | _, _, _ => .ok off

end QK
