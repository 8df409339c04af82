import Verif.Model.Lifetime
/-
Vocabulary for the lifetime of variables (C124).
-/
namespace QK

/-- Code that keeps an invariant, whether it returns or throws. -/
def Keeps {σ β : Type} (I : σ → Prop) (x : SM σ β) : Prop :=
  ∀ s, I s → (∀ b s', x s = .ok b s' → I s') ∧ (∀ w s', x s = .throw w s' → I s')

/-- Every address that `new` returned stands exactly once in the map, and no other. -/
def Mgr.Owned {α : Type} (m : Mgr α) : Prop := (m.vars.map Prod.snd).Perm (List.range m.heap.length)

namespace Props
variable {α : Type}

/-- The destructor of the manager meets no undefined behaviour and leaves nothing allocated. -/
def Freed (m : Mgr α) : Prop := m.destroy m.allocated = .ok []

/-- However it ends, by returning or by an exception, the manager left behind is freed. -/
def EndsFreed {σ β : Type} (mgr : σ → Mgr α) (r : SRes σ β) : Prop :=
  (∀ b s, r = .ok b s → Freed (mgr s)) ∧ (∀ w s, r = .throw w s → Freed (mgr s))

end Props
end QK
