import Verif.Model.Container
/-
Model of `qk::data::datachunk` and `qk::data::extended_datachunk`
(/repo/src/data/datachunk.{h,cpp}, /repo/src/data/extended_datachunk.{h,cpp}).

Element type and its operations are parameters (`double` in the code).
`_internal_range` etc. are members of `extended_datachunk`; both classes are modelled by one
structure, the members of the base class being `mesh`, `dataR`, `arr`.
-/
namespace QK

/-- datachunk.h members `_mesh_range`, `_data_range` and the base container;
extended_datachunk.h:55-62 the ghost count and the named ranges. -/
structure Chunk (α : Type) where
  mesh : Range                    -- `_mesh_range` (of an extended chunk: including ghost layers)
  dataR : Range                   -- `_data_range`
  arr : IFace α
  ghosts : Int := 2               -- extended_datachunk.cpp:15-20 default 2
  internal : Range := .empty
  lowInt : List Range := []
  lowExt : List Range := []
  upInt : List Range := []
  upExt : List Range := []
  deriving DecidableEq, Repr

namespace Chunk
variable {α : Type}

/-- datachunk.cpp:15-19 and extended_datachunk.cpp:15-20: default-constructed (empty) chunk. -/
def default : Chunk α := { mesh := .empty, dataR := .empty, arr := ⟨.empty, []⟩ }

/-- datachunk.cpp:82-85 and extended_datachunk.cpp:45-50: extrude a range by every dimension of
another one. (`lower(i)`/`upper(i)` are read for `i < num_dims()` only.) -/
def extrudeAll (r : Range) (ds : List (Int × Int)) : Range :=
  ds.foldl (fun r d => r.extrude d.1 d.2) r

/-- datachunk.cpp:76-89 `datachunk::resize(mesh_range, data_range)`. -/
def resizeBase (zero : α) (c : Chunk α) (mesh dataR : Range) : Res (Chunk α) := do
  let m := mesh.copy
  let d := dataR.copy
  let range := extrudeAll m.copy dataR.dims
  let arr ← c.arr.resize zero range
  return { c with mesh := m, dataR := d, arr := arr }

/-- datachunk.cpp:26-32 `operator=` for two different objects (self-assignment: see
`Chunk.assignSelf`). -/
noncomputable def assign (zero : α) (dst src : Chunk α) : Res (Chunk α) := do
  let c ← dst.resizeBase zero src.mesh src.dataR
  let arr ← c.arr.pullAll (some src.arr)
  return { c with arr := arr }

/-- datachunk.cpp:26-32 `c = c`: `resize` (76-89) gets references to the chunk's own ranges and assigns them to themselves
(`Range.assignSelf`); the loop 83-85 then reads the already assigned `_data_range` through `data_range`. -/
noncomputable def assignSelf (zero : α) (c : Chunk α) : Res (Chunk α) := do
  let m ← c.mesh.assignSelf
  let d ← c.dataR.assignSelf
  let range := extrudeAll m.copy d.dims
  let arr ← c.arr.resize zero range
  let arr ← arr.pullAll none
  return { c with mesh := m, dataR := d, arr := arr }

/-- extended_datachunk.cpp:32-35: expand dimensions `0 … n-1` by the ghost layers. -/
def expandLoop (g : Int) : Nat → Range → Res Range
  | 0, r => .ok r
  | n+1, r => do
    let r ← expandLoop g n r
    r.expand n (-g) g

/-- extended_datachunk.cpp:56-72, ranges of dimension `i`. -/
structure Faces where
  lowExt : Range
  lowInt : Range
  upInt : Range
  upExt : Range

/-- extended_datachunk.cpp:57-71, body of the loop over the mesh dimensions. -/
def faces (g : Int) (internal : Range) (i : Nat) : Res Faces := do
  let le := internal.copy
  let le ← le.set i ((← le.lower i) - g) (← le.lower i)
  let li := internal.copy
  let li ← li.set i (← li.lower i) ((← li.lower i) + g)
  let ui := internal.copy
  let ui ← ui.set i ((← ui.upper i) - g) (← ui.upper i)
  let ue := internal.copy
  let ue ← ue.set i (← ue.upper i) ((← ue.upper i) + g)
  return ⟨le, li, ui, ue⟩

/-- extended_datachunk.cpp:56-72, the loop over the mesh dimensions `0 … n-1` (`push_back`). -/
def facesLoop (g : Int) (internal : Range) : Nat → Res (List Faces)
  | 0 => .ok []
  | n+1 => do
    let fs ← facesLoop g internal n
    let f ← faces g internal n
    return fs ++ [f]

/-- extended_datachunk.cpp:27-74 `extended_datachunk::resize(mesh_range, data_range, num_ghost_layers)`. -/
def resize (zero : α) (c : Chunk α) (mesh dataR : Range) (g : Int) : Res (Chunk α) := do
  let ext ← expandLoop g mesh.numDims mesh.copy
  let c ← c.resizeBase zero ext dataR
  let internal := extrudeAll (extrudeAll .empty mesh.dims) dataR.dims
  let fs ← facesLoop g internal ext.numDims
  return { c with
    ghosts := g, internal := internal,
    lowExt := fs.map Faces.lowExt, lowInt := fs.map Faces.lowInt,
    upInt := fs.map Faces.upInt, upExt := fs.map Faces.upExt }

/-- datachunk.cpp:91-97 `multiply_by_scalar`; `mul v s` is `v * s`. -/
noncomputable def scale (mul : α → α → α) (c : Chunk α) (r : Range) (s : α) : Res (Chunk α) := do
  let arr ← (c.arr.indexer r).forEach (fun i f => do
    let v ← f.get i
    f.put i (mul v s)) c.arr
  return { c with arr := arr }

/-- `copy_to(chunk, from, chunk, to)` on one chunk (data/functions.h:17-39). -/
noncomputable def copyWithin (c : Chunk α) (fromR toR : Range) : Res (Chunk α) := do
  let arr ← IFace.copyTo none fromR c.arr toR
  return { c with arr := arr }

end Chunk
end QK
