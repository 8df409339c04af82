import Verif.Spec.Ghost
import Verif.Model.Arith
/-
Specification vocabulary for the advection scheme: fluxes are limited, and taken from the upwind side.
-/
namespace QK.Spec
variable {α : Type} [Arith α]

/-- The limited flux over the face between the upwind cell and the downwind cell; `far` is the cell upwind of
`up`. `c` is the Courant number. -/
def limitedFlux (c far up down : α) : α :=
  let ratio := if Arith.feq down up then Arith.lit 1 else (up - far) / (down - up)
  c * (up + Arith.lit (1 / 4) * (ratio * (ratio + Arith.lit 1) / (ratio * ratio + Arith.lit 1)) * (down - far))

/-- A cell after the exchange with its two neighbours in one direction. `u k` is the value `k` cells further, `r` is the
value that is updated, `pos` says that the velocity is positive: then the flux comes in from the cells at `-1` and `-2` and
goes out to the cell at `1`, otherwise it goes out to the cell at `-1` and comes in from `1` and `2`. -/
def upwind (c : α) (pos : Bool) (u : Int → α) (r : α) : α :=
  if pos then r + limitedFlux c (u (-2)) (u (-1)) (u 0) - limitedFlux c (u (-1)) (u 0) (u 1)
  else r - limitedFlux c (u 1) (u 0) (u (-1)) + limitedFlux c (u 2) (u 1) (u 0)

/-- The cell `x` after the exchange in all `n` directions, one after the other; all fluxes are those of `u`. -/
def advected (dt : α) (v dx : Nat → α) (n : Nat) (u : Cell → α) (x : Cell) (r : α) : α :=
  (List.range n).foldl (fun r dim => upwind (Arith.fabs (dt * v dim / dx dim)) (Arith.lt (Arith.lit 0) (v dim))
    (fun k => u (moveBy x dim k)) r) r

/-- A step of the two-stage scheme on the cells `M` with the values `D` per cell: `w` is `u` after the exchange over `t`, and the result is the
average of `u` and `w` after the exchange of the fluxes of `w` over half of `t`. Nothing is said of `w` outside of the mesh. -/
def AdvectStep (M D : Box) (t : α) (v dx : Nat → α) (u z : Cell → α) : Prop :=
  ∃ w : Cell → α, (∀ x, InBox (M ++ D) x → w x = advected t v dx M.length u x (u x)) ∧
    ∀ x, InBox (M ++ D) x → z x = advected (Arith.lit (1 / 2) * t) v dx M.length w x (Arith.lit (1 / 2) * (u x + w x))

end QK.Spec
