import Verif.Model.Chunk
/-
Model of the boundary-condition solvers at chunk level
(/repo/src/solver/bc_periodic.cpp, bc_copy_out.cpp, bc_no_slip.cpp, bc_free_slip.cpp,
bc_conducting_wall.cpp). The loop over output variables and over the (single) chunk of a variable is
modelled in `Verif/Model/Solvers.lean`. `_dims` is the list given to `setup`.
-/
namespace QK
namespace BC
variable {α : Type}

/-- extended_datachunk.h:36-51 accessors: `_..._ranges[dim]`, unchecked. -/
def range (l : List Range) (i : Int) : Res Range := vget l i

/-- bc_periodic.cpp:31-32, body of the loop over `_dims`. -/
noncomputable def periodicDim (c : Chunk α) (i : Int) : Res (Chunk α) := do
  let c ← c.copyWithin (← range c.lowInt i) (← range c.upExt i)
  c.copyWithin (← range c.upInt i) (← range c.lowExt i)

/-- bc_periodic.cpp:29-34 on one chunk. -/
noncomputable def periodic (dims : List Int) (c : Chunk α) : Res (Chunk α) := dims.foldlM periodicDim c

/-- bc_copy_out.cpp:37-48 (same lines in bc_no_slip.cpp, bc_free_slip.cpp, bc_conducting_wall.cpp):
lower boundary, round `j`. -/
noncomputable def mirrorLower (i : Int) (c : Chunk α) (j : Nat) : Res (Chunk α) := do
  let li ← range c.lowInt i
  let le ← range c.lowExt i
  let fromSlice := (← li.lower i) + j
  let toSlice := (← le.upper i) - 1 - j
  let fromR ← li.copy.set i fromSlice (fromSlice + 1)
  let toR ← le.copy.set i toSlice (toSlice + 1)
  c.copyWithin fromR toR

/-- bc_copy_out.cpp:51-62 (and the same lines of the wall conditions): upper boundary, round `j`. -/
noncomputable def mirrorUpper (i : Int) (c : Chunk α) (j : Nat) : Res (Chunk α) := do
  let ui ← range c.upInt i
  let ue ← range c.upExt i
  let fromSlice := (← ui.upper i) - 1 - j
  let toSlice := (← ue.lower i) + j
  let fromR ← ui.copy.set i fromSlice (fromSlice + 1)
  let toR ← ue.copy.set i toSlice (toSlice + 1)
  c.copyWithin fromR toR

/-- bc_copy_out.cpp:28-63, body of the loop over `_dims`: the four ranges of the dimension (lines 30-34; references, read in
each round above), then `num_ghost_layers` rounds at each end. -/
noncomputable def copyOutDim (c : Chunk α) (i : Int) : Res (Chunk α) := do
  let _ ← range c.lowInt i
  let _ ← range c.lowExt i
  let _ ← range c.upInt i
  let _ ← range c.upExt i
  let c ← (List.range c.ghosts.toNat).foldlM (mirrorLower i) c
  (List.range c.ghosts.toNat).foldlM (mirrorUpper i) c

/-- bc_copy_out.cpp:28-63 on one chunk. -/
noncomputable def copyOut (dims : List Int) (c : Chunk α) : Res (Chunk α) := dims.foldlM copyOutDim c

/-- bc_no_slip.cpp:66-78: multiply components `[lo, hi)` of both external ranges of dimension `i` by
`-1.` (`m1`); the component dimension is the last one. -/
noncomputable def flip (mul : α → α → α) (m1 : α) (lo hi : Int) (c : Chunk α) (i : Int) : Res (Chunk α) := do
  let le ← range c.lowExt i
  let r ← le.copy.set ((le.numDims : Int) - 1) lo hi
  let c ← c.scale mul r m1
  let ue ← range c.upExt i
  let r ← ue.copy.set ((ue.numDims : Int) - 1) lo hi
  c.scale mul r m1

/-- bc_no_slip.cpp:28-79, body of the loop over `_dims`. -/
noncomputable def wallDim (mul : α → α → α) (m1 : α) (lo hi : Int) (c : Chunk α) (i : Int) : Res (Chunk α) := do
  let c ← copyOutDim c i
  flip mul m1 lo hi c i

/-- bc_no_slip.cpp:28-79 on one chunk: components `[1, 4)`. -/
noncomputable def noSlip (mul : α → α → α) (m1 : α) (dims : List Int) (c : Chunk α) : Res (Chunk α) :=
  dims.foldlM (wallDim mul m1 1 4) c

/-- bc_free_slip.cpp:28-79 on one chunk: the same statements as bc_no_slip.cpp, components `[1, 4)`. -/
noncomputable def freeSlip (mul : α → α → α) (m1 : α) (dims : List Int) (c : Chunk α) : Res (Chunk α) :=
  dims.foldlM (wallDim mul m1 1 4) c

/-- bc_conducting_wall.cpp:28-79 on one chunk: components `[0, 4)`. -/
noncomputable def conductingWall (mul : α → α → α) (m1 : α) (dims : List Int) (c : Chunk α) : Res (Chunk α) :=
  dims.foldlM (wallDim mul m1 0 4) c

end BC
end QK
