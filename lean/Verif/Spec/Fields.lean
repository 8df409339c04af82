import Verif.Spec.Ghost
import Verif.Spec.Manager
import Verif.Model.FiniteVolume
import Verif.Model.ArithReal
/-
Specification vocabulary for the numerical kernels: fields on cells, face fluxes.
-/
namespace QK
open Spec

/-- The chunk holds the field `u` with `n` components on the cells of `B`. (A cell here is a mesh cell
together with a basis point.) -/
def Chunk.Holds {α : Type} (c : Chunk α) (B : Box) (n : Nat) (u : Cell → Nat → α) : Prop :=
  ∀ x, InBox B x → ∀ j < n, c.arr.val (x ++ [(j : Int)]) = some (u x j)

/-- All face ghost cells of the chunk (mesh box `M`, data box `D`, `g` ghost layers) have the value of their
periodic image. -/
def Chunk.Periodic {α : Type} (g : Int) (M D : Box) (c : Chunk α) : Prop :=
  ∀ i < M.length, ∀ x, FaceGhost g (M ++ D) i x → c.arr.val x = c.arr.val (periodicImage g (M ++ D) i x)

namespace Spec
variable {α : Type} [Arith α]

/-- Numerical flux through the lower face of cell `x` in direction `dim`: the flux function `φ` of the two
reconstructed states, from the two cells below the face and the two cells above it. -/
def faceFlux (φ : List α → List α → List α) (n : Nat) (u : Cell → Nat → α) (dim : Nat) (x : Cell) : List α :=
  let s := fun j => FV.recon (u (moveBy x dim (-2)) j) (u (moveBy x dim (-1)) j) (u x j) (u (moveBy x dim 1) j)
  φ ((List.range n).map fun j => (s j).1) ((List.range n).map fun j => (s j).2)

/-- `φ` gives the value of `flux` for all states of `n` components. -/
def IsFlux (n : Nat) (flux : FV.Flux α) (φ : List α → List α → List α) : Prop :=
  ∀ l r, l.length = n → r.length = n → flux l r = .ok (φ l r) ∧ (φ l r).length = n

/-- The value of a flux function that returns. -/
def fluxOf (flux : FV.Flux α) (l r : List α) : List α :=
  match flux l r with
  | .ok v => v
  | _ => []

/-- Conservative update of component `j` of cell `x` with current value `r`: direction by direction, add the
flux through the lower face and subtract the flux through the upper face, each over the cell width. -/
def fvUpdate (φ : Nat → List α → List α → List α) (n : Nat) (u : Cell → Nat → α) (dx : Nat → α) (dims : List Nat)
    (x : Cell) (j : Nat) (r : α) : α :=
  dims.foldl (fun r dim => r + (faceFlux (φ dim) n u dim x).getD j (Arith.lit 0) / dx dim -
    (faceFlux (φ dim) n u dim (moveBy x dim 1)).getD j (Arith.lit 0) / dx dim) r

/-- Total of component `j` over the cells of `B` (exact arithmetic). -/
noncomputable def total (B : Box) (u : Cell → Nat → ℝ) (j : Nat) : ℝ := ((cells B).map fun x => u x j).sum

end Spec

/-- The total of each component `j < n` of the chunk over the cells of `B` is `T j`. -/
def Chunk.Totals (c : Chunk ℝ) (B : Box) (n : Nat) (T : Nat → ℝ) : Prop :=
  ∃ u, c.Holds B n u ∧ ∀ j < n, total B u j = T j

/-- The variable exists and its component `j` has total `T j` over the cells of the mesh (without ghost cells). -/
def Mgr.Totals (m : Mgr ℝ) (id : VarId) (T : Nat → ℝ) : Prop :=
  ∃ c, m.contents id = some c ∧ c.Totals (m.grid.rng.dims ++ [(0, id.basis.points)]) id.comps.length T

end QK
