import Verif.Spec.Symmetry
/-
Renaming the axes of a mesh: axis `d` becomes axis `π d`. A picture seen by someone who calls the axes by other names.
-/
namespace QK.Spec
variable {α : Type}

/-- The mesh `N` is the mesh `M` with its axes renamed; axes that the mesh does not have keep their names. -/
structure Renamed (π : Nat → Nat) (M N : Box) : Prop where
  length : N.length = M.length
  three : M.length ≤ 3
  maps : ∀ d < M.length, π d < M.length
  stay : ∀ d, M.length ≤ d → π d = d
  inj : ∀ d e, π d = π e → d = e
  bounds : ∀ d < M.length, N.getD (π d) (0, 0) = M.getD d (0, 0)

/-- The cells `x` of `M` and `y` of `N` (with the number of the basis point) are the same cell. -/
structure SameCell (π : Nat → Nat) (M N : Box) (p : Int) (x y : Cell) : Prop where
  left : InBox (M ++ [(0, p)]) x
  right : InBox (N ++ [(0, p)]) y
  coords : ∀ d < M.length, y.getD (π d) 0 = x.getD d 0
  point : y.getD M.length 0 = x.getD M.length 0

/-- The components of a gas under the new names: the momenta along the axes 0, 1, 2 are components 1, 2, 3. -/
def gasComp (π : Nat → Nat) (j : Nat) : Nat := if 1 ≤ j ∧ j ≤ 3 then π (j - 1) + 1 else j

/-- The components of an electromagnetic field: the electric field along the axes is 0, 1, 2, the magnetic field 3, 4, 5. -/
def fieldComp (π : Nat → Nat) (j : Nat) : Nat := if j < 3 then π j else if j < 6 then π (j - 3) + 3 else j

/-- `v` is `u` under the new names. -/
def RenamedOn (π : Nat → Nat) (σ : Nat → Nat) (M N : Box) (p : Int) (n : Nat) (u v : Cell → α) : Prop :=
  ∀ x y, SameCell π M N p x y → ∀ j : Nat, j < n → v (y ++ [(σ j : Int)]) = u (x ++ [(j : Int)])

/-- The rotation of the three axes: x becomes y, y becomes z, z becomes x. -/
def rot : Nat → Nat
  | 0 => 1
  | 1 => 2
  | 2 => 0
  | d => d

/-- A state of the plasma programs under the new names. -/
structure RenamedState (π : Nat → Nat) (M N : Box) (p : Int) (s t : State α) : Prop where
  e : RenamedOn π (gasComp π) M N p 5 s.e t.e
  i : RenamedOn π (gasComp π) M N p 5 s.i t.i
  f : RenamedOn π (fieldComp π) M N p 6 s.f t.f

end QK.Spec
