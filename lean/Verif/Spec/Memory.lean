import Verif.Spec.Client
import Verif.Spec.Ghost
/-
Vocabulary for the memory that a manager holds (C128).
-/
namespace QK

/-- The numbers that the variables of a manager store: the lengths of all their arrays. -/
def Mgr.values {α : Type} (m : Mgr α) : Nat := (m.heap.map fun v => (v.chunks.data.map fun c => c.arr.data.length).sum).sum

/-- The numbers of one variable on a mesh: one for each cell, including two layers of ghost cells on each side, each point and each component. -/
def VarId.values (M : Spec.Box) (id : VarId) : Nat := (Spec.cells (Spec.grow 2 M ++ [(0, id.basis.points), (0, (id.comps.length : Int))])).length

/-- No variable was created: the same objects at the same addresses. -/
structure Mgr.Steady {α : Type} (m m' : Mgr α) : Prop where
  vars : m'.vars = m.vars
  objects : m'.heap.length = m.heap.length

/-- However it ends, by returning or by an exception, what is left behind satisfies `Q`. -/
def EndsWith {σ β : Type} (Q : σ → Prop) (r : SRes σ β) : Prop := (∀ b s, r = .ok b s → Q s) ∧ (∀ w s, r = .throw w s → Q s)

end QK
