import Verif.Model.Manager
import Verif.Spec.Ghost
/-
Specification vocabulary for the variable manager: what it stores for an id, found by plain
equality of ids (not by the comparator of the code).
-/
namespace QK
open Spec
namespace Mgr
variable {α : Type}

/-- Position of the storage of an id. -/
def addr (m : Mgr α) (id : VarId) : Option Nat := (m.vars.find? (fun p => decide (p.1 = id))).map Prod.snd

/-- The chunk stored for an id (a variable has one chunk, C19). -/
def contents (m : Mgr α) (id : VarId) : Option (Chunk α) :=
  (m.addr id).bind fun a => (m.heap[a]?).bind fun v => v.chunks.data[0]?

/-- Nothing but the contents of existing variables and the addition of new ones may differ. -/
structure Extends (m m' : Mgr α) : Prop where
  grid : m'.grid = m.grid
  dt : m'.dt = m.dt
  time : m'.time = m.time
  addr : ∀ id a, m.addr id = some a → m'.addr id = some a

/-- A set of ids in which a name determines the id. -/
def Consistent (S : VarId → Prop) : Prop := ∀ a b, S a → S b → a.name = b.name → a = b

/-- What holds of a manager whose variables all have ids in `S`:
one entry per id, separate storage, and each variable is one chunk and describes its id. -/
structure Good (S : VarId → Prop) (m : Mgr α) : Prop where
  consistent : Consistent S
  points : ∀ id, S id → 0 ≤ id.basis.points
  mesh_ne : m.grid.rng.dims ≠ []
  mesh_pos : Pos m.grid.rng.dims
  keys : ∀ p ∈ m.vars, S p.1
  sorted : m.vars.Pairwise (fun p q => p.1.name < q.1.name)
  separate : (m.vars.map Prod.snd).Nodup
  stored : ∀ p ∈ m.vars, ∃ v c, m.heap[p.2]? = some v ∧ v.name = p.1.name ∧ v.comps = p.1.comps ∧
    v.basis = p.1.basis ∧ v.meshGlobal = m.grid.rng.copy ∧
    v.dataR = Range.setup [(0, p.1.basis.points), (0, (p.1.comps.length : Int))] ∧
    v.chunks = ⟨Range.setup (List.replicate m.grid.rng.dims.length (0, 1)), [c]⟩

/-- The chunk a new variable of this id gets: all zero, with 2 ghost layers (see C18 and C19). -/
def fresh (zero : α) (mesh : Range) (id : VarId) : Chunk α :=
  match Chunk.default.resize zero mesh (Range.setup [(0, id.basis.points), (0, (id.comps.length : Int))]) 2 with
  | .ok c => c
  | _ => Chunk.default

/-- The contents after the given variables were requested as outputs: those that did not exist are new. -/
def requested (zero : α) (m : Mgr α) (ids : List VarId) : VarId → Option (Chunk α) := fun id =>
  match m.contents id with
  | some c => some c
  | none => if id ∈ ids then some (fresh zero m.grid.rng id) else none

/-- The array positions of the chunk of a variable: mesh cells and ghost cells, basis points, components. -/
def arrayBox (m : Mgr α) (id : VarId) : Box :=
  grow 2 m.grid.rng.dims ++ [(0, id.basis.points), (0, (id.comps.length : Int))]

/-- The variable exists and has the value `u x` at every position `x` of its array. -/
def Stores (m : Mgr α) (id : VarId) (u : Cell → α) : Prop :=
  ∃ c, m.contents id = some c ∧ ∀ x, InBox (m.arrayBox id) x → c.arr.val x = some (u x)

end Mgr

/-- The five variables of an integrator: different ids with the same components and basis. -/
structure RKVars (S : VarId → Prop) (q rhs q1 q2 q3 : VarId) : Prop where
  known : ∀ id ∈ [q, rhs, q1, q2, q3], S id
  nodup : [q, rhs, q1, q2, q3].Nodup
  comps : ∀ id ∈ [q, rhs, q1, q2, q3], id.comps = q.comps
  basis : ∀ id ∈ [q, rhs, q1, q2, q3], id.basis = q.basis

end QK
