import Mathlib.Data.Rat.Defs
import Verif.Model.Outcome
/-
Floating-point arithmetic as used by the code (`double`), abstractly.

`Arith α` lists the operations without any law. A theorem stated for every `[Arith α]` therefore
holds for IEEE doubles with any rounding mode (each operation being a deterministic function of its
operands). Theorems that need algebra instantiate `α := ℝ` (`Verif/Model/ArithReal.lean`) and are
marked "exact arithmetic".
-/
namespace QK

class Arith (α : Type) extends Add α, Sub α, Mul α, Div α, Neg α where
  /-- a literal of the source text, e.g. `1.e-12` -/
  lit : ℚ → α
  /-- conversion of an `int` -/
  ofInt : Int → α
  /-- conversion to `int` (truncation towards zero); undefined if the value does not fit -/
  toInt : α → Res Int
  sqrt : α → α
  fabs : α → α
  exp : α → α
  sin : α → α
  cos : α → α
  cosh : α → α
  tanh : α → α
  /-- `std::pow` -/
  pow : α → α → α
  lt : α → α → Bool
  le : α → α → Bool
  /-- `==` -/
  feq : α → α → Bool

namespace Arith
variable {α : Type} [Arith α]

/-- `double(b)` for a `bool`. euler.cpp:121-123. -/
def ofBool (b : Bool) : α := if b then lit 1 else lit 0

end Arith
end QK
