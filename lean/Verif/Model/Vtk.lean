import Verif.Model.Manager
/-
Model of the VTK writer (/repo/src/variable/variable_manager.cpp:63-110, variable.cpp:40-81,
/repo/src/data/datachunk.cpp:34-74, /repo/src/grid/rectilinear.cpp:38-69).

The file is the list of items streamed into it with `<<`: texts, `int`s and `double`s (their characters:
Model/Format.lean). An exception leaves the items written so far in the file.
-/
namespace QK

/-- One item streamed with `<<`. variable_manager.cpp:87-107. -/
inductive Tok (α : Type) where
  | text (s : String)
  | int (i : Int)
  | num (v : α)
  deriving DecidableEq, Repr

namespace Vtk
open SM
variable {α : Type}

/-- `file << t1 << t2 << …` variable_manager.cpp:87-94. -/
def emit (ts : List (Tok α)) : SM (List (Tok α)) Unit := fun s => .ok () (s ++ ts)

/-- `for (i = lo; i < hi; i++) body(i)`. datachunk.cpp:46-50. -/
def forInt (lo hi : Int) (body : Int → SM (List (Tok α)) Unit) : SM (List (Tok α)) Unit :=
  (List.range (hi - lo).toNat).forM (fun k : Nat => body (lo + k))

/-- `file << d[k] << " "` datachunk.cpp:51, 61, 68. -/
def emitElem (d : List α) (k : Int) : SM (List (Tok α)) Unit := do
  let v ← lift (vget d k)
  emit [.num v, .text " "]

/-- datachunk.cpp:34-74 `write_VTK(file, range)`; extended_datachunk.cpp:76-80 passes on to it. -/
def writeChunk (c : Chunk α) (r : Range) : SM (List (Tok α)) Unit := do
  emit [.text "LOOKUP_TABLE default\n"]
  let off ← lift (r.lower (r.numDims - 1))
  let low := fun i : Int => c.arr.rng.lower i
  let str := fun i : Int => vget c.arr.rng.stride i
  if c.mesh.numDims = 3 then
    let l2 ← lift (r.lower 2)
    let u2 ← lift (r.upper 2)
    forInt l2 u2 fun i2 => do
      let z := off + (i2 - (← lift (low 2))) * (← lift (str 2))
      let l1 ← lift (r.lower 1)
      let u1 ← lift (r.upper 1)
      forInt l1 u1 fun i1 => do
        let yz := z + (i1 - (← lift (low 1))) * (← lift (str 1))
        let l0 ← lift (r.lower 0)
        let u0 ← lift (r.upper 0)
        forInt l0 u0 fun i0 => do
          emitElem c.arr.data (yz + (i0 - (← lift (low 0))) * (← lift (str 0)))
  else if c.mesh.numDims = 2 then
    let z := off
    let l1 ← lift (r.lower 1)
    let u1 ← lift (r.upper 1)
    forInt l1 u1 fun i1 => do
      let yz := z + (i1 - (← lift (low 1))) * (← lift (str 1))
      let l0 ← lift (r.lower 0)
      let u0 ← lift (r.upper 0)
      forInt l0 u0 fun i0 => do
        emitElem c.arr.data (yz + (i0 - (← lift (low 0))) * (← lift (str 0)))
  else if c.mesh.numDims = 1 then
    let yz := off
    let l0 ← lift (r.lower 0)
    let u0 ← lift (r.upper 0)
    forInt l0 u0 fun i0 => do
      emitElem c.arr.data (yz + (i0 - (← lift (low 0))) * (← lift (str 0)))
  else pure ()
  emit [.text "\n"]

/-- The items a piece of writer code adds to an empty file, when run inside a `Res` loop. Machinery of the model, no counterpart in the code. -/
def written (x : SM (List (Tok α)) Unit) (s : List (Tok α)) : Res (List (Tok α)) :=
  match x s with
  | .ok _ s' => .ok s'
  | .throw m _ => .throw m
  | .ub w => .ub w
  | .diverge => .diverge

/-- variable.cpp:50-72, the loop over the chunks for component `i`. The state of the loop is the
file and the flag `single_chunk`. (If the loop throws, what it had written for this component is not
kept in the model; it throws only for variables of several chunks.) -/
noncomputable def writeComp (v : Var α) (i : Int) : SM (List (Tok α)) Unit :=
  modifyRes (fun s => do
    let r ← (v.chunks.indexer v.chunks.rng).forEach (fun idx (st : List (Tok α) × Bool) => do
      let c ← v.chunks.get idx
      let internal := c.internal.copy
      let _ ← internal.set (internal.numDims - 1) i (i + 1)
      let comp := c.internal.copy
      let comp ← comp.set (comp.numDims - 1) i (i + 1)
      let s' ← written (writeChunk c comp) st.1
      if !st.2 then .throw "qk::variable::variable::write_vtk : Writer currently limited to a single chunk."
      else return (s', false)) (s, true)
    return r.1)

/-- variable.cpp:40-81 `variable::write_vtk`. -/
noncomputable def writeVar (v : Var α) : SM (List (Tok α)) Unit :=
  if v.basis.eqv Basis.volumeAverage then
    v.comps.zipIdx.forM (fun p => do
      emit [.text "SCALARS ", .text v.name, .text ".", .text p.1, .text " float 1\n"]
      writeComp v p.2)
  else raise "qk::variable::variable::write_vtk : Basis not yet supported."

variable [Arith α]

/-- rectilinear.cpp:38-69 `rectilinear::write_vtk`. -/
def writeGrid (g : Rectilinear α) (b : Basis) : SM (List (Tok α)) Unit :=
  if b.eqv Basis.volumeAverage then do
    let n := g.rng.numDims
    let nx ← if n > 0 then (do let l ← lift (g.rng.length 0); pure (l + 1)) else pure 1
    let ny ← if n > 1 then (do let l ← lift (g.rng.length 1); pure (l + 1)) else pure 1
    let nz ← if n > 2 then (do let l ← lift (g.rng.length 2); pure (l + 1)) else pure 1
    let org := fun d : Int => (do
      let s ← lift (vget g.startxs d)
      let w ← lift (vget g.widths d)
      pure (s + w / Arith.lit 2) : SM (List (Tok α)) α)
    let cx ← if n > 0 then org 0 else pure (Arith.lit 0)
    let cy ← if n > 1 then org 1 else pure (Arith.lit 0)
    let cz ← if n > 2 then org 2 else pure (Arith.lit 0)
    let sx ← if n > 0 then lift (vget g.dxs 0) else pure (Arith.lit 0)
    let sy ← if n > 1 then lift (vget g.dxs 1) else pure sx
    let sz ← if n > 2 then lift (vget g.dxs 2) else pure sx
    emit [.text "DATASET STRUCTURED_POINTS\n"]
    emit [.text "DIMENSIONS ", .int nx, .text " ", .int ny, .text " ", .int nz, .text "\n"]
    emit [.text "ORIGIN ", .num cx, .text " ", .num cy, .text " ", .num cz, .text "\n"]
    emit [.text "SPACING ", .num sx, .text " ", .num sy, .text " ", .num sz, .text "\n"]
  else raise "qk::grid::rectilinear::write_vtk : Basis not allowed (i.e. not setup yet)."

/-- variable_manager.cpp:71-75, the test that all variables share a basis. -/
def checkBases (b : Basis) : List VarId → SM (List (Tok α)) Unit
  | [] => pure ()
  | id :: ids =>
    if b.neqv id.basis then
      raise "qk::variable::variable_manager::write_VTK : Current limitation - all variables must share a basis."
    else checkBases b ids

/-- variable_manager.cpp:97-105. -/
noncomputable def writeVars (m : Mgr α) : List VarId → SM (List (Tok α)) Unit
  | [] => pure ()
  | id :: ids => do
    match ← lift (Mgr.find m.vars id) with
    | none => raise ("qk::variable::variable_manager::write_VTK : Variable '" ++ id.name ++ "' does not exist.")
    | some a =>
      let v ← lift (vget m.heap a)
      writeVar v
      writeVars m ids

/-- variable_manager.cpp:63-110 `write_vtk`. `canOpen` says whether the file can be created. -/
noncomputable def write (m : Mgr α) (canOpen : Bool) (ids : List VarId) : SM (List (Tok α)) Unit :=
  match ids with
  | [] => pure ()
  | id :: ids => do
    checkBases id.basis (id :: ids)
    if canOpen then do
      emit [.text "# vtk DataFile Version 2.0\n"]
      emit [.text "quikin output\n"]
      emit [.text "ASCII\n"]
      writeGrid m.grid id.basis
      emit [.text "CELL_DATA ", .int m.grid.rng.volume, .text "\n"]
      writeVars m (id :: ids)
    else raise "qk::solver:advection::write_VTK : File could not be created"

end Vtk
end QK
