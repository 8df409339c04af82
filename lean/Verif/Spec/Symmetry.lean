import Verif.Spec.Program
/-
Comparing states cell by cell: equal on the mesh, shifted along a periodic direction, uniform along a direction.
-/
namespace QK.Spec
variable {α : Type}

/-- `u` and `v` have the same `n` components in the cells of `M` × `p` points. -/
def SameOn (M : Box) (p : Int) (n : Nat) (u v : Cell → α) : Prop := ∀ x, InBox (M ++ [(0, p)]) x → ∀ j : Nat, j < n → u (x ++ [(j : Int)]) = v (x ++ [(j : Int)])

/-- `v` is `u` moved by `t` cells along direction `d`; what leaves the mesh on one side enters on the other. -/
def MovedOn (M : Box) (p : Int) (n : Nat) (d : Nat) (t : Int) (u v : Cell → α) : Prop :=
  ∀ x y, InBox (M ++ [(0, p)]) x → InBox (M ++ [(0, p)]) y → (∃ m : Int, y = moveBy x d (t + m * (hi M d - lo M d))) →
    ∀ j : Nat, j < n → v (y ++ [(j : Int)]) = u (x ++ [(j : Int)])

/-- `u` does not vary along direction `d`. -/
def UniformOn (M : Box) (p : Int) (n : Nat) (d : Nat) (u : Cell → α) : Prop :=
  ∀ x t, InBox (M ++ [(0, p)]) x → InBox (M ++ [(0, p)]) (moveBy x d t) → ∀ j : Nat, j < n → u (moveBy x d t ++ [(j : Int)]) = u (x ++ [(j : Int)])

/-- The same for the states of the plasma programs. -/
structure SameState (M : Box) (p : Int) (s t : State α) : Prop where
  e : SameOn M p 5 s.e t.e
  i : SameOn M p 5 s.i t.i
  f : SameOn M p 6 s.f t.f
structure MovedState (M : Box) (p : Int) (d : Nat) (k : Int) (s t : State α) : Prop where
  e : MovedOn M p 5 d k s.e t.e
  i : MovedOn M p 5 d k s.i t.i
  f : MovedOn M p 6 d k s.f t.f
structure UniformState (M : Box) (p : Int) (d : Nat) (s : State α) : Prop where
  e : UniformOn M p 5 d s.e
  i : UniformOn M p 5 d s.i
  f : UniformOn M p 6 d s.f

end QK.Spec
