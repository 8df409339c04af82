import Verif.Model.ArithReal
/-
Real arithmetic with the special values of IEEE doubles, as an instance of `Arith`: infinities and NaN with their rules
(IEEE 754, sections 6.1, 6.2, 7.2, 7.3). Rounding and overflow are not modelled: operations on finite numbers are exact.
There is one zero, taken as `+0`; in round-to-nearest a sum or difference that is exactly zero is `+0` unless both
operands are negative zeros.
-/
namespace QK

inductive XReal
  | fin (x : ℝ)
  | inf (neg : Bool)
  | nan

namespace XReal
open Classical

/-- Sign bit of a number that is not zero. Machinery of the model, no counterpart in the code. -/
noncomputable def isNeg (x : ℝ) : Bool := decide (x < 0)

/-- Machinery of the model, no counterpart in the code. -/
noncomputable def add : XReal → XReal → XReal
  | fin x, fin y => fin (x + y)
  | fin _, inf s => inf s
  | inf s, fin _ => inf s
  | inf s, inf t => if s = t then inf s else nan
  | _, _ => nan

/-- Machinery of the model, no counterpart in the code. -/
noncomputable def neg : XReal → XReal
  | fin x => fin (-x)
  | inf s => inf (!s)
  | nan => nan

/-- Machinery of the model, no counterpart in the code. -/
noncomputable def mul : XReal → XReal → XReal
  | fin x, fin y => fin (x * y)
  | fin x, inf s => if x = 0 then nan else inf (isNeg x != s)
  | inf s, fin x => if x = 0 then nan else inf (isNeg x != s)
  | inf s, inf t => inf (s != t)
  | _, _ => nan

/-- Machinery of the model, no counterpart in the code. -/
noncomputable def div : XReal → XReal → XReal
  | fin x, fin y => if y = 0 then (if x = 0 then nan else inf (isNeg x)) else fin (x / y)
  | fin _, inf _ => fin 0
  | inf s, fin y => inf (isNeg y != s)
  | _, _ => nan

/-- Machinery of the model, no counterpart in the code. -/
noncomputable def sqrt : XReal → XReal
  | fin x => if x < 0 then nan else fin (Real.sqrt x)
  | inf false => inf false
  | _ => nan

/-- `<`; false if an operand is NaN. Machinery of the model, no counterpart in the code. -/
noncomputable def lt : XReal → XReal → Bool
  | fin x, fin y => decide (x < y)
  | fin _, inf t => !t
  | inf s, fin _ => s
  | inf s, inf t => s && !t
  | _, _ => false

/-- Machinery of the model, no counterpart in the code. -/
noncomputable def feq : XReal → XReal → Bool
  | fin x, fin y => decide (x = y)
  | inf s, inf t => s == t
  | _, _ => false

/-- `std::pow` for finite arguments; NaN for the other ones (not used). Machinery of the model, no counterpart in the code. -/
noncomputable def pow : XReal → XReal → XReal
  | fin x, fin y =>
    if 0 < x then fin (x ^ y)
    else if x = 0 then (if y < 0 then inf false else if y = 0 then fin 1 else fin 0)
    else if ∃ n : ℤ, (n : ℝ) = y then fin (x ^ y)
    else nan
  | _, _ => nan

noncomputable instance : Arith XReal where
  add := add
  sub a b := add a (neg b)
  mul := mul
  div := div
  neg := neg
  lit q := fin (q : ℝ)
  ofInt i := fin (i : ℝ)
  toInt a := match a with
    | fin x => Arith.toInt x
    | _ => .ub "conversion to int out of range"
  sqrt := sqrt
  fabs a := match a with
    | fin x => fin |x|
    | inf _ => inf false
    | nan => nan
  exp a := match a with
    | fin x => fin (Real.exp x)
    | inf false => inf false
    | inf true => fin 0
    | nan => nan
  sin a := match a with
    | fin x => fin (Real.sin x)
    | _ => nan
  cos a := match a with
    | fin x => fin (Real.cos x)
    | _ => nan
  cosh a := match a with
    | fin x => fin (Real.cosh x)
    | inf _ => inf false
    | nan => nan
  tanh a := match a with
    | fin x => fin (Real.tanh x)
    | inf s => fin (if s then -1 else 1)
    | nan => nan
  pow := pow
  lt := lt
  le a b := lt a b || feq a b
  feq := feq

variable (x y : ℝ)
theorem fin_add : (fin x + fin y : XReal) = fin (x + y) := rfl
theorem fin_sub : (fin x - fin y : XReal) = fin (x - y) := by
  show add (fin x) (neg (fin y)) = _
  simp [add, neg, sub_eq_add_neg]
theorem fin_mul : (fin x * fin y : XReal) = fin (x * y) := rfl
theorem fin_neg : (-fin x : XReal) = fin (-x) := rfl
theorem fin_div (h : y ≠ 0) : (fin x / fin y : XReal) = fin (x / y) := by
  show div (fin x) (fin y) = _
  simp [div, h]
theorem fin_lit (q : ℚ) : (Arith.lit q : XReal) = fin (q : ℝ) := rfl
theorem fin_sqrt (h : 0 ≤ x) : (Arith.sqrt (fin x) : XReal) = fin (Real.sqrt x) := by
  show sqrt (fin x) = _
  simp [sqrt, not_lt.2 h]
theorem fin_fabs : (Arith.fabs (fin x) : XReal) = fin |x| := rfl
theorem fin_lt : (Arith.lt (fin x) (fin y) : Bool) = Arith.lt x y := rfl
theorem fin_le : (Arith.le (fin x) (fin y) : Bool) = Arith.le x y := by
  show (decide (x < y) || decide (x = y)) = decide (x ≤ y)
  rw [Bool.eq_iff_iff]
  simp [le_iff_lt_or_eq]
theorem fin_ofBool (b : Bool) : (Arith.ofBool b : XReal) = fin (Arith.ofBool b) := by
  cases b <;> rfl

end XReal
end QK
