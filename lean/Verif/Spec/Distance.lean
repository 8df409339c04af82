import Verif.Spec.Symmetry
/-
Distances between the cells of a mesh; uniform states.
-/
namespace QK.Spec

/-- Two cells of `M` × `p` points have a face in common. In a periodic direction (`ps`) the first and the last cell are neighbours too. -/
def Neighbours (M : Box) (p : Int) (ps : List Nat) (x y : Cell) : Prop :=
  InBox (M ++ [(0, p)]) x ∧ InBox (M ++ [(0, p)]) y ∧ ∃ d < M.length,
    y = moveBy x d 1 ∨ y = moveBy x d (-1) ∨ d ∈ ps ∧ (y = moveBy x d (hi M d - lo M d - 1) ∨ y = moveBy x d (-(hi M d - lo M d - 1)))

/-- `y` is reached from `x` by at most `k` moves to a neighbour. -/
def Within (M : Box) (p : Int) (ps : List Nat) : Nat → Cell → Cell → Prop
  | 0, x, y => x = y
  | k + 1, x, y => x = y ∨ ∃ z, Neighbours M p ps x z ∧ Within M p ps k z y

/-- `u` and `v` have the same `n` components in one cell. -/
def SameAt {α : Type} (n : Nat) (u v : Cell → α) (x : Cell) : Prop := ∀ j : Nat, j < n → u (x ++ [(j : Int)]) = v (x ++ [(j : Int)])

/-- The same for the states of the plasma programs. -/
structure SameStateAt {α : Type} (s t : State α) (x : Cell) : Prop where
  e : SameAt 5 s.e t.e x
  i : SameAt 5 s.i t.i x
  f : SameAt 6 s.f t.f x

/-- The `n` components have the values `w` in all cells of the mesh. -/
def ConstOn (M : Box) (p : Int) (n : Nat) (w : Nat → ℝ) (u : Cell → ℝ) : Prop := ∀ x, InBox (M ++ [(0, p)]) x → ∀ j < n, u (x ++ [(j : Int)]) = w j

/-- A uniform plasma: the electrons have the values `we`, the ions `wi`, the field `wf`. -/
structure UniformPlasma (M : Box) (p : Int) (we wi wf : Nat → ℝ) (s : State ℝ) : Prop where
  e : ConstOn M p 5 we s.e
  i : ConstOn M p 5 wi s.i
  f : ConstOn M p 6 wf s.f

end QK.Spec
