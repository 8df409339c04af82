import Verif.Spec.Initial
import Verif.Spec.Program
import Mathlib.Analysis.Calculus.Deriv.Basic
/- Vocabulary for how close the numerical rates are to the differential equations: smooth fields in space and their values in cells. -/
namespace QK.Spec

/-- The point `p` moved by `s` in direction `d`. -/
def along (p : Nat → ℝ) (d : Nat) (s : ℝ) : Nat → ℝ := fun k => if k = d then p k + s else p k

/-- `f` is differentiable in direction `d` with derivative `f'`, which changes by at most `K` times the distance in this direction. -/
structure SmoothIn (d : Nat) (K : ℝ) (f f' : (Nat → ℝ) → ℝ) : Prop where
  deriv : ∀ p, HasDerivAt (fun s => f (along p d s)) (f' p) 0
  lip : ∀ p s, |f' (along p d s) - f' p| ≤ K * |s|

/-- Within `r` of `p` in direction `d` the slope of `f` is at least `m` in size, or else `f` does not change there. -/
def Sloped (d : Nat) (m r : ℝ) (f f' : (Nat → ℝ) → ℝ) (p : Nat → ℝ) : Prop :=
  (∀ t, |t| ≤ r → m ≤ |f' (along p d t)|) ∨ ∀ t, |t| ≤ r → f (along p d t) = f p

/-- Around the cell `x` (two cells to each side in each of the directions below `m`) the `n` components of `u` are within `δ` of the values of the field `U` at the centres of the cells. -/
def Samples (g : Rectilinear ℝ) (m n : Nat) (U : (Nat → ℝ) → Nat → ℝ) (δ : ℝ) (u : Cell → Nat → ℝ) (x : Cell) : Prop :=
  ∀ d < m, ∀ s : Int, -2 ≤ s → s ≤ 2 → ∀ j < n, |u (moveBy x d s) j - U (centre g (moveBy x d s)) j| ≤ δ

/-- Around the cell `x` no denominator of the limiter is zero: no two neighbouring values differ by exactly `-1e-12`. (For such values the code divides by zero.) -/
def NoZero (m n : Nat) (u : Cell → Nat → ℝ) (x : Cell) : Prop :=
  ∀ d < m, ∀ s : Int, -2 ≤ s → s ≤ 1 → ∀ j < n, u (moveBy x d (s + 1)) j - u (moveBy x d s) j + 1 / 10 ^ 12 ≠ 0

/-- On all cells of the mesh (with `p` points each) the `n` components of `u` are within `δ` of the values of the field `U` at the centres of the cells. -/
def OnMesh (g : Rectilinear ℝ) (p : Int) (n : Nat) (U : (Nat → ℝ) → Nat → ℝ) (δ : ℝ) (u : Cell → ℝ) : Prop :=
  ∀ x, InBox (g.rng.dims ++ [(0, p)]) x → ∀ j < n, |u (x ++ [((j : Nat) : Int)]) - U (centre g x) j| ≤ δ

/-- The point `p` mirrored at the plane on which coordinate `d` is `a`. -/
def mirrorAt (p : Nat → ℝ) (d : Nat) (a : ℝ) : Nat → ℝ := fun k => if k = d then 2 * a - p k else p k

/-- Coordinate `d` of the lower face of the cells with number `k` in direction `d`. -/
noncomputable def facePos (g : Rectilinear ℝ) (d : Nat) (k : Int) : ℝ := g.startxs.getD d 0 + k * g.dxAt d

/-- The field `U` meets the boundary conditions at both ends of the mesh: in the directions `ps` it repeats itself from one end of the mesh to the other, in the directions `ws` its values on the two
sides of a wall are the same, or opposite for the components in `flip`. -/
structure Meets (g : Rectilinear ℝ) (ws : List Nat) (flip : Int → Prop) (ps : List Nat) (n : Nat) (U : (Nat → ℝ) → Nat → ℝ) : Prop where
  wrap : ∀ d ∈ ps, ∀ p, ∀ j < n, U (along p d (((hi g.rng.dims d - lo g.rng.dims d : Int) : ℝ) * g.dxAt d)) j = U p j
  flipped : ∀ d ∈ ws, ∀ k, (k = lo g.rng.dims d ∨ k = hi g.rng.dims d) → ∀ p, ∀ j < n, flip j → U (mirrorAt p d (facePos g d k)) j = -U p j
  kept : ∀ d ∈ ws, ∀ k, (k = lo g.rng.dims d ∨ k = hi g.rng.dims d) → ∀ p, ∀ j < n, ¬ flip j → U (mirrorAt p d (facePos g d k)) j = U p j

/-- The field `U` changes with time at the rate `f`, which itself changes by at most `A` times the time. -/
structure Evolves (n : Nat) (A : ℝ) (U f : ℝ → (Nat → ℝ) → Nat → ℝ) : Prop where
  deriv : ∀ τ p, ∀ j < n, HasDerivAt (fun τ => U τ p j) (f τ p j) τ
  lip : ∀ τ s p, ∀ j < n, |f (τ + s) p j - f τ p j| ≤ A * |s|

end QK.Spec
