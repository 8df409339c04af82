import Verif.Spec.Contents
import Verif.Model.Chunk
/-
Specification of a chunk with ghost layers and of boundary conditions, cell by cell.
`M` is the mesh box, `D` the data box (basis points × components), `g` the number of ghost layers.
-/
namespace QK.Spec

/-- The mesh box with `g` extra layers on both sides of every dimension. -/
def grow (g : Int) (M : Box) : Box := M.map (fun d => (d.1 - g, d.2 + g))

/-- Lower and upper bound of dimension `i`. -/
def lo (B : Box) (i : Nat) : Int := (B.getD i (0, 0)).1
def hi (B : Box) (i : Nat) : Int := (B.getD i (0, 0)).2

/-- The box `B` with dimension `i` replaced. -/
def slab (B : Box) (i : Nat) (a b : Int) : Box := B.set i (a, b)

/-- `x` is one of the `g` ghost layers below dimension `i` of `B`: coordinate `i` is in
`[lo - g, lo)`, all other coordinates are inside `B`. -/
def LowGhost (g : Int) (B : Box) (i : Nat) (x : Cell) : Prop := InBox (slab B i (lo B i - g) (lo B i)) x
/-- The `g` layers above dimension `i`. -/
def UpGhost (g : Int) (B : Box) (i : Nat) (x : Cell) : Prop := InBox (slab B i (hi B i) (hi B i + g)) x
def FaceGhost (g : Int) (B : Box) (i : Nat) (x : Cell) : Prop := LowGhost g B i x ∨ UpGhost g B i x

instance (g B i x) : Decidable (LowGhost g B i x) := by unfold LowGhost; infer_instance
instance (g B i x) : Decidable (UpGhost g B i x) := by unfold UpGhost; infer_instance
instance (g B i x) : Decidable (FaceGhost g B i x) := by unfold FaceGhost; infer_instance

/-- Move coordinate `i` by `s`. -/
def moveBy (x : Cell) (i : Nat) (s : Int) : Cell := x.modify i (· + s)

/-- Periodic image of a face ghost cell: one period (the number of cells of dimension `i`) up from
below, down from above. -/
def periodicImage (g : Int) (B : Box) (i : Nat) (x : Cell) : Cell :=
  if LowGhost g B i x then moveBy x i (hi B i - lo B i) else moveBy x i (lo B i - hi B i)

/-- Mirror image of a face ghost cell across the boundary face: the cell just outside corresponds to
the cell just inside, and so on. -/
def mirrorImage (g : Int) (B : Box) (i : Nat) (x : Cell) : Cell :=
  if LowGhost g B i x then x.modify i (fun y => 2 * lo B i - 1 - y) else x.modify i (fun y => 2 * hi B i - 1 - y)

/-- Last coordinate (the component number). -/
def component (x : Cell) : Int := x.getLastD 0

end QK.Spec

namespace QK
open Spec

/-- Layout of an extended data chunk for mesh `M`, data `D` and `g` ghost layers: what
`extended_datachunk::resize` is supposed to set up. -/
structure Chunk.Layout {α : Type} (g : Int) (M D : Box) (c : Chunk α) : Prop where
  arr_range : c.arr.rng = Range.setup (grow g M ++ D)
  arr_size : (c.arr.data.length : Int) = c.arr.rng.volume
  mesh_dims : c.mesh.dims = grow g M
  internal : c.internal = Range.setup (M ++ D)
  ghosts : c.ghosts = g
  lowExt : ∀ i : Nat, i < M.length → c.lowExt[i]? = some (Range.setup (slab (M ++ D) i (lo M i - g) (lo M i)))
  lowInt : ∀ i : Nat, i < M.length → c.lowInt[i]? = some (Range.setup (slab (M ++ D) i (lo M i) (lo M i + g)))
  upInt : ∀ i : Nat, i < M.length → c.upInt[i]? = some (Range.setup (slab (M ++ D) i (hi M i - g) (hi M i)))
  upExt : ∀ i : Nat, i < M.length → c.upExt[i]? = some (Range.setup (slab (M ++ D) i (hi M i) (hi M i + g)))
  faces : c.lowExt.length = M.length ∧ c.lowInt.length = M.length ∧ c.upInt.length = M.length ∧ c.upExt.length = M.length

/-- The same chunk, possibly with other contents. -/
def Chunk.SameShape {α : Type} (c c' : Chunk α) : Prop := c' = { c with arr := { c.arr with data := c'.arr.data } } ∧
  c'.arr.data.length = c.arr.data.length

end QK
