import Verif.Spec.Manager
import Verif.Spec.Fields
import Verif.Spec.Physics
/-
Specification vocabulary for the initial conditions.
-/
namespace QK
open Spec
variable {α : Type} [Arith α]

/-- A grid with a start and a cell width for each of its dimensions, as its constructor makes it (`Rectilinear.make_sized`). -/
structure Rectilinear.Sized (g : Rectilinear α) : Prop where
  starts : g.startxs.length = g.rng.dims.length
  widths : g.dxs.length = g.rng.dims.length

namespace Spec

/-- Coordinate `i` of the centre of cell `x`. -/
def centre (g : Rectilinear α) (x : Cell) (i : Nat) : α :=
  g.startxs.getD i (Arith.lit 0) + (Arith.ofInt (x.getD i 0) + Arith.lit (1 / 2)) * g.dxs.getD i (Arith.lit 0)

/-- Conserved variables of a gas at rest, on the first or the second side of a jump in density and pressure from 1 and 1:
density in component 0, energy in component 4. -/
def jumpState (rhoJump pJump gamma : α) (first : Bool) (j : Nat) : α :=
  if j = 0 then (if first then Arith.lit 1 else Arith.lit 1 * rhoJump)
  else if j = 4 then (if first then Arith.lit 1 / (gamma - Arith.lit 1) else Arith.lit 1 / (gamma - Arith.lit 1) * pJump)
  else Arith.lit 0

/-- Components of an electromagnetic field: electric field in 0 to 2, magnetic field in 3 to 5. -/
def emState (E B : Vec) (j : Nat) : ℝ :=
  match j with
  | 0 => E 0
  | 1 => E 1
  | 2 => E 2
  | 3 => B 0
  | 4 => B 1
  | 5 => B 2
  | _ => 0

/-- Square of the distance between two points. -/
def dist2 (a b : Vec) : ℝ := (a 0 - b 0) ^ 2 + (a 1 - b 1) ^ 2 + (a 2 - b 2) ^ 2

/-- Magnetic field in the plane of the magnetic reconnection problem: a current sheet of thickness `lam`, and a perturbation of
amplitude `B1` with wave numbers `kx`, `ky`. -/
noncomputable def sheetX (B1 kx ky x y : ℝ) : ℝ := B1 * ky * Real.cos (kx * x) * Real.sin (ky * y)
noncomputable def sheetY (B0 lam B1 kx ky x y : ℝ) : ℝ := B0 * Real.tanh (x / lam) - B1 * kx * Real.sin (kx * x) * Real.cos (ky * y)

/-- Particle density of the current sheet, on a background `n1`. -/
noncomputable def sheetN (n0 n1 lam x : ℝ) : ℝ := n0 / Real.cosh (x / lam) ^ 2 + n1

/-- Electric current along `z` of particles with density `n0 sech²` (those of the background are at rest), charge `q` and
temperature `T`. -/
noncomputable def sheetJ (n0 q T B0 lam x : ℝ) : ℝ := q * (2 * T / q / lam / B0) * (n0 / Real.cosh (x / lam) ^ 2)

end Spec

/-- The variable has component `j` equal to `f x j` in every cell `x` of `B`, and zero in all other positions of its array. -/
def Mgr.SetTo (m : Mgr α) (id : VarId) (B : Box) (f : Cell → Nat → α) : Prop :=
  ∃ c, m.contents id = some c ∧ c.Holds B id.comps.length f ∧
    ∀ y, InBox (m.arrayBox id) y → ¬ InBox B y.dropLast → c.arr.val y = some (Arith.lit 0)

end QK
