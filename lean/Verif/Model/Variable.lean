import Mathlib.Data.String.Basic
import Verif.Model.Chunk
/-
Model of bases, variable ids and variables
(/repo/src/basis/*, /repo/src/variable/variable_id.{h,cpp}, /repo/src/variable/variable.{h,cpp},
/repo/src/data/dataset.{h,cpp}).

`std::string` is Lean `String`: both compare lexicographically (byte order of UTF-8 is code point
order).
-/
namespace QK

/-- basis.h:73-74. -/
structure Basis where
  name : String
  points : Int
  deriving DecidableEq, Repr

namespace Basis

/-- basis.h:45-54 `operator<`: true if the name is smaller, otherwise compares the point counts
(also when the name is larger). -/
def lt (a b : Basis) : Bool := if a.name < b.name then true else decide (a.points < b.points)

/-- basis.h:56-64 `operator==`. -/
def eqv (a b : Basis) : Bool := if a.name ≠ b.name then false else decide (a.points = b.points)

/-- basis.h:66-69 `operator!=`. -/
def neqv (a b : Basis) : Bool := !(eqv a b)

/-- volume_average.cpp:8-12. -/
def volumeAverage : Basis := ⟨"volume_average", 1⟩

/-- basis.h:16-21. -/
def void : Basis := ⟨"void", 0⟩

end Basis

/-- variable_id.h:84-87 (the static `_tag` is threaded separately). -/
structure VarId where
  name : String
  comps : List String
  basis : Basis
  deriving DecidableEq, Repr

namespace VarId

/-- variable_id.h:48-64 `operator<`. -/
def lt (a b : VarId) : Res Bool :=
  if a.name < b.name then .ok true
  else if b.name < a.name then .ok false
  else if a.comps ≠ b.comps then
    .throw "qk::variable::variable_id::operator < : Shared variable name, but component mismatch."
  else .ok (a.basis.lt b.basis)

/-- variable_id.h:66-80 `operator==`. -/
def eqv (a b : VarId) : Res Bool :=
  if a.name ≠ b.name then .ok false
  else if a.comps ≠ b.comps then
    .throw "qk::variable::variable_id::operator < : Shared variable name, but component mismatch."
  else .ok (a.basis.eqv b.basis)

/-- Decimal digit as printed. Machinery of the model, no counterpart in the code. -/
def digit (n : Nat) : Char := Char.ofNat (48 + n)

/-- `stringstream << int` for a non-negative value: decimal digits, most significant first. variable_id.h:33. -/
def decimal (n : Nat) : List Char :=
  if h : n < 10 then [digit n] else decimal (n / 10) ++ [digit (n % 10)]
termination_by n
decreasing_by omega

/-- variable_id.h:28-42 `unique_clone` with `unique_tag`: takes the current value of the static
counter (variable_id.cpp:8, starts at 0) and returns the clone and the next counter value. The counter
is unbounded here. -/
def uniqueClone (tag : Nat) (v : VarId) : VarId × Nat :=
  ({ v with name := v.name ++ "_clone_" ++ String.ofList (decimal tag) }, tag + 1)

/-- A sequence of `unique_clone` calls on the given ids, in program order. variable_id.h:28-42. -/
def cloneAll : Nat → List VarId → List VarId
  | _, [] => []
  | tag, v :: vs => (uniqueClone tag v).1 :: cloneAll (uniqueClone tag v).2 vs

end VarId

/-- dataset.h:45-49 and its base container, variable.h:54-55. -/
structure Var (α : Type) where
  name : String
  comps : List String
  basis : Basis
  dataR : Range
  meshGlobal : Range
  chunks : IFace (Chunk α)     -- base `indexer_interface<extended_datachunk>`
  deriving DecidableEq, Repr

/-- dataset.cpp:51-82 `dataset::resize` on a fresh dataset and variable.cpp:28-38, the constructor of a
variable. (`_mesh_range_local` and `_chunk_range_global` are copies of ranges used here and are not
kept.) -/
def Var.make {α : Type} (zero : α) (name : String) (comps : List String) (basis : Basis) (mesh : Range)
    (g : Int) : Res (Var α) := do
  let meshGlobal := mesh.copy
  let dataR := (Range.empty.extrude 0 basis.points).extrude 0 comps.length
  if meshGlobal.volume > 0 then
    let chunkR := Chunk.extrudeAll .empty (List.replicate meshGlobal.numDims (0, 1))
    let chunks ← IFace.make Chunk.default chunkR
    let c ← vget chunks.data 0
    let c ← c.resize zero meshGlobal dataR g
    let d ← vset chunks.data 0 c
    return { name, comps, basis, dataR, meshGlobal, chunks := { chunks with data := d } }
  else
    return { name, comps, basis, dataR, meshGlobal, chunks := ⟨.empty, []⟩ }

end QK
