import Verif.Model.Program
/- Vocabulary for C136: the time of a simulation. -/
namespace QK

/-- The same outcome, with the state changed by `g`. -/
def SRes.mapState {σ β : Type} (g : σ → σ) : SRes σ β → SRes σ β
  | .ok b s => .ok b (g s)
  | .throw w s => .throw w (g s)
  | .ub w => .ub w
  | .diverge => .diverge

/-- The outcome without the value returned. -/
def SRes.noValue {σ β : Type} : SRes σ β → SRes σ Unit
  | .ok _ s => .ok () s
  | .throw w s => .throw w s
  | .ub w => .ub w
  | .diverge => .diverge

/-- Everything in the manager except the time. -/
def Mgr.noTime {α : Type} (m : Mgr α) : Mgr α := { m with time := none }

/-- Everything in the state of a program except the time. -/
def Run.noTime {α : Type} (r : Run α) : Run α := { r with mgr := r.mgr.noTime }

namespace Spec

/-- The result of starting at 0 and adding `dt` `n` times. -/
def timeAfter {α : Type} [Arith α] (dt : α) : Nat → α
  | 0 => Arith.lit 0
  | n + 1 => timeAfter dt n + dt

/-- A time step: it adds the step size to the time it is given, stores the result and returns it, keeps the step size, and neither the time it is given nor the stored one
influences anything else. -/
structure TimeStep {α : Type} [Arith α] (step : α → α → SM (Mgr α) α) : Prop where
  adds : ∀ d t m t' m', step d t m = .ok t' m' → t' = t + d ∧ m'.time = some (t + d) ∧ m'.dt = m.dt
  blind : ∀ d t₁ t₂ s₁ s₂ (m : Mgr α), ((step d t₁ (m.setTime s₁)).mapState Mgr.noTime).noValue = ((step d t₂ (m.setTime s₂)).mapState Mgr.noTime).noValue

end Spec
end QK
