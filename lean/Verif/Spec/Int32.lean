import Verif.Spec.Box
/- Boxes whose shape fits in 32-bit integers. Nothing here refers to the code. -/
namespace QK.Spec

/-- All bounds are 32-bit integers, no dimension is reversed, and the product of the lengths, not counting empty
dimensions, is a 32-bit integer. -/
def Fits32 (b : Box) : Prop :=
  (∀ d ∈ b, -2147483648 ≤ d.1 ∧ d.1 ≤ d.2 ∧ d.2 ≤ 2147483647) ∧
  (b.map (fun d => max 1 (d.2 - d.1))).prod ≤ 2147483647

instance (b : Box) : Decidable (Fits32 b) := by unfold Fits32; infer_instance

end QK.Spec
