import Verif.Spec.Manager
import Verif.Model.Arith
/-
Specification vocabulary for source terms. Fields are functions of the array position: mesh cell, basis point,
component.
-/
namespace QK.Spec
variable {α : Type} [Arith α]

/-- `v'` is `v` plus `com` times the Lorentz force, in the cells of `B` (mesh cell and basis point) and nowhere else.
Fluid `u`: density 0, momentum 1-3, energy 4. Field `w`: electric 0-2, magnetic 3-5. -/
structure LorentzAdded (com : α) (B : Box) (u w v v' : Cell → α) : Prop where
  momX : ∀ x, InBox B x → v' (x ++ [1]) =
    v (x ++ [1]) + com * (u (x ++ [0]) * w (x ++ [0]) + u (x ++ [2]) * w (x ++ [5]) - u (x ++ [3]) * w (x ++ [4]))
  momY : ∀ x, InBox B x → v' (x ++ [2]) =
    v (x ++ [2]) + com * (u (x ++ [0]) * w (x ++ [1]) + u (x ++ [3]) * w (x ++ [3]) - u (x ++ [1]) * w (x ++ [5]))
  momZ : ∀ x, InBox B x → v' (x ++ [3]) =
    v (x ++ [3]) + com * (u (x ++ [0]) * w (x ++ [2]) + u (x ++ [1]) * w (x ++ [4]) - u (x ++ [2]) * w (x ++ [3]))
  energy : ∀ x, InBox B x → v' (x ++ [4]) =
    v (x ++ [4]) + com * (u (x ++ [1]) * w (x ++ [0]) + u (x ++ [2]) * w (x ++ [1]) + u (x ++ [3]) * w (x ++ [2]))
  rest : ∀ y, (∀ x k, InBox B x → 1 ≤ k → k ≤ 4 → y ≠ x ++ [k]) → v' y = v y

/-- `v'` is `v` plus, fluid by fluid, the multiplier of the fluid times its momentum, on the components 0-2 in the
cells of `B` and nowhere else. -/
structure CurrentAdded (B : Box) (fluids : List (α × (Cell → α))) (v v' : Cell → α) : Prop where
  field : ∀ x (k : Int), InBox B x → 0 ≤ k → k < 3 → v' (x ++ [k]) =
    fluids.foldl (fun r f => r + f.1 * f.2 (x ++ [k + 1])) (v (x ++ [k]))
  rest : ∀ y, (∀ x k, InBox B x → 0 ≤ k → k < 3 → y ≠ x ++ [k]) → v' y = v y

end QK.Spec
