import Mathlib.Data.EReal.Operations
import Mathlib.Data.EReal.Inv
import Verif.Model.ArithX
/-
The arithmetic with infinities and NaN in which C76, C79, C106 and C114 are refuted, compared with the extended real numbers of Mathlib: where IEEE 754 gives a value it is the one of the extended reals;
NaN comes out exactly in the cases of IEEE 754, section 7.2.
-/
namespace QK.Props
open QK XReal

/-- The extended real number of a value that is not NaN. -/
noncomputable def xval : XReal → Option EReal
  | .fin x => some (x : EReal)
  | .inf true => some ⊥
  | .inf false => some ⊤
  | .nan => none

theorem xval_inj {a b : XReal} (h : xval a = xval b) : a = b := by
  cases a with
  | fin x => cases b with
    | fin y => simp only [xval, Option.some.injEq, EReal.coe_eq_coe_iff] at h; rw [h]
    | inf s => cases s <;> simp [xval] at h
    | nan => simp [xval] at h
  | inf s => cases b with
    | fin y => cases s <;> simp [xval] at h
    | inf t => cases s <;> cases t <;> simp [xval] at h ⊢
    | nan => cases s <;> simp [xval] at h
  | nan => cases b with
    | fin y => simp [xval] at h
    | inf s => cases s <;> simp [xval] at h
    | nan => rfl

/-- **C76** Sums: NaN for operands that are NaN and for infinities of different sign, else the extended real number. -/
theorem C76_sum (a b : XReal) : xval (a + b) = (xval a).bind fun x => (xval b).bind fun y => if (x = ⊤ ∧ y = ⊥) ∨ (x = ⊥ ∧ y = ⊤) then none else some (x + y) := by
  show xval (add a b) = _
  rcases a with x | (_ | _) | _ <;> rcases b with y | (_ | _) | _ <;> simp [xval, add]

/-- **C76** Differences. -/
theorem C76_difference (a b : XReal) : xval (a - b) = (xval a).bind fun x => (xval b).bind fun y => if (x = ⊤ ∧ y = ⊤) ∨ (x = ⊥ ∧ y = ⊥) then none else some (x - y) := by
  show xval (add a (neg b)) = _
  rcases a with x | (_ | _) | _ <;> rcases b with y | (_ | _) | _ <;> simp [xval, add, neg, sub_eq_add_neg]

/-- **C76** Products: NaN for operands that are NaN and for zero times infinity, else the extended real number. -/
theorem C76_product (a b : XReal) : xval (a * b) = (xval a).bind fun x => (xval b).bind fun y => if (x = 0 ∧ (y = ⊤ ∨ y = ⊥)) ∨ (y = 0 ∧ (x = ⊤ ∨ x = ⊥)) then none else some (x * y) := by
  show xval (mul a b) = _
  have key : ∀ (x : ℝ) (s : Bool), xval (if x = 0 then nan else inf (isNeg x != s)) = if x = 0 then none else some (x * (if s then ⊥ else ⊤) : EReal) := by
    intro x s
    rcases lt_trichotomy x 0 with h | h | h
    · rw [if_neg h.ne, if_neg h.ne, show isNeg x = true by simp [isNeg, h]]
      cases s
      · simp [xval, EReal.coe_mul_top_of_neg h]
      · simp [xval, EReal.coe_mul_bot_of_neg h]
    · rw [if_pos h, if_pos h]; rfl
    · rw [if_neg h.ne', if_neg h.ne', show isNeg x = false by simp [isNeg, h.le]]
      cases s
      · simp [xval, EReal.coe_mul_top_of_pos h]
      · simp [xval, EReal.coe_mul_bot_of_pos h]
  rcases a with x | s | _ <;> rcases b with y | t | _
  · simp [xval, mul]
  · show xval (if x = 0 then nan else inf (isNeg x != t)) = _
    rw [key]; cases t <;> simp [xval]
  · simp [xval, mul]
  · show xval (if y = 0 then nan else inf (isNeg y != s)) = _
    rw [key, mul_comm]; cases s <;> simp [xval, mul_comm]
  · cases s <;> cases t <;> simp [xval, mul]
  · cases s <;> simp [xval, mul]
  · simp [xval, mul]
  · cases t <;> simp [xval, mul]
  · simp [xval, mul]

/-- **C76** Quotients: NaN for operands that are NaN, zero by zero and infinity by infinity; a number that is not zero by zero is the infinity of its sign; else the extended real number. -/
theorem C76_quotient (a b : XReal) : xval (a / b) = (xval a).bind fun x => (xval b).bind fun y =>
    if y = 0 then (if x = 0 then none else some (if x < 0 then ⊥ else ⊤)) else if (x = ⊤ ∨ x = ⊥) ∧ (y = ⊤ ∨ y = ⊥) then none else some (x / y) := by
  show xval (div a b) = _
  rcases a with x | s | _ <;> rcases b with y | t | _
  · by_cases hy : y = 0
    · by_cases hx : x = 0
      · simp [xval, div, hy, hx]
      · by_cases h : x < 0 <;> simp [xval, div, hy, hx, isNeg, h]
    · simp [xval, div, hy, EReal.coe_div]
  · cases t <;> simp [xval, div]
  · simp [xval, div]
  · rcases lt_trichotomy y 0 with h | h | h
    · cases s <;> simp [xval, div, isNeg, h, h.ne, EReal.top_div_of_neg_ne_bot, EReal.bot_div_of_neg_ne_bot]
    · cases s <;> simp [xval, div, isNeg, h]
    · cases s <;> simp [xval, div, isNeg, not_lt.2 h.le, h.ne', h, EReal.top_div_of_pos_ne_top, EReal.bot_div_of_pos_ne_top]
  · cases s <;> cases t <;> simp [xval, div]
  · cases s <;> simp [xval, div]
  · simp [xval, div]
  · cases t <;> simp [xval, div]
  · simp [xval, div]

/-- **C76** Comparisons: as for the extended real numbers, false if an operand is NaN. -/
theorem C76_comparisons (a b : XReal) :
    (Arith.lt a b = true ↔ ∃ x y, xval a = some x ∧ xval b = some y ∧ x < y) ∧ (Arith.le a b = true ↔ ∃ x y, xval a = some x ∧ xval b = some y ∧ x ≤ y) ∧
    (Arith.feq a b = true ↔ ∃ x, xval a = some x ∧ xval b = some x) := by
  have l : lt a b = true ↔ ∃ x y, xval a = some x ∧ xval b = some y ∧ x < y := by
    rcases a with x | (_ | _) | _ <;> rcases b with y | (_ | _) | _ <;> simp [xval, lt, EReal.coe_lt_top, EReal.bot_lt_coe]
  have e : feq a b = true ↔ ∃ x, xval a = some x ∧ xval b = some x := by
    rcases a with x | (_ | _) | _ <;> rcases b with y | (_ | _) | _ <;> simp [xval, feq, eq_comm]
  refine ⟨l, ?_, e⟩
  show (lt a b || feq a b) = true ↔ _
  rw [Bool.or_eq_true, l, e]
  constructor
  · rintro (⟨x, y, h1, h2, h⟩ | ⟨x, h1, h2⟩)
    · exact ⟨x, y, h1, h2, h.le⟩
    · exact ⟨x, x, h1, h2, le_rfl⟩
  · rintro ⟨x, y, h1, h2, h⟩
    rcases h.lt_or_eq with h | h
    · exact .inl ⟨x, y, h1, h2, h⟩
    · exact .inr ⟨x, h1, h ▸ h2⟩

/-- **C76** Square roots: NaN of NaN and of negative numbers, else the number whose square the operand is. -/
theorem C76_root (a : XReal) : xval (Arith.sqrt a) = none ∧ (∀ x, xval a = some x → x < 0) ∨ ∃ y, xval (Arith.sqrt a) = some y ∧ 0 ≤ y ∧ xval a = some (y * y) := by
  show xval (sqrt a) = none ∧ _ ∨ ∃ y, xval (sqrt a) = _ ∧ _
  rcases a with x | (_ | _) | _
  · by_cases h : x < 0
    · left; simp [xval, sqrt, h]
    · right
      refine ⟨(Real.sqrt x : EReal), by simp [xval, sqrt, h], by exact_mod_cast Real.sqrt_nonneg x, ?_⟩
      rw [← EReal.coe_mul, Real.mul_self_sqrt (not_lt.1 h)]; rfl
  · right; exact ⟨⊤, by simp [xval, sqrt], by simp, by simp [xval]⟩
  · left; simp [xval, sqrt]
  · left; simp [xval, sqrt]

/-- **C76** Powers of finite numbers: of positive ones the real power; a negative power of zero is infinite, without sign; other powers of zero as usual; NaN for broken powers of negative numbers. -/
theorem C76_power (x y : ℝ) : (0 < x → xval (Arith.pow (fin x) (fin y)) = some ((x ^ y : ℝ) : EReal)) ∧
    (y < 0 → xval (Arith.pow (fin 0) (fin y)) = some ⊤) ∧ (0 < y → xval (Arith.pow (fin 0) (fin y)) = some 0) ∧ xval (Arith.pow (fin x) (fin 0)) = some 1 ∧
    (x < 0 → (¬ ∃ n : ℤ, (n : ℝ) = y) → xval (Arith.pow (fin x) (fin y)) = none) := by
  show (0 < x → xval (pow _ _) = _) ∧ (y < 0 → xval (pow _ _) = _) ∧ (0 < y → xval (pow _ _) = _) ∧ xval (pow _ _) = _ ∧ (x < 0 → _ → xval (pow _ _) = _)
  refine ⟨fun h => by simp [pow, h, xval], fun h => by simp [pow, h, xval], fun h => by simp [pow, h.not_gt, h.ne', xval], ?_, fun h n => ?_⟩
  · rcases lt_trichotomy x 0 with h | h | h
    · have : ∃ n : ℤ, (n : ℝ) = 0 := ⟨0, by simp⟩
      simp only [pow, if_neg h.not_gt, if_neg h.ne, if_pos this]; simp [xval]
    · simp [pow, h, xval]
    · simp [pow, h, xval]
  · simp only [pow, if_neg h.not_gt, if_neg h.ne, if_neg n]; rfl

-- one by zero; infinity less infinity; zero by zero; zero times infinity
example : xval ((fin 1 : XReal) / fin 0) = some ⊤ ∧ xval (inf false - inf false : XReal) = none ∧ xval (fin 0 / fin 0 : XReal) = none ∧ xval (fin 0 * inf true : XReal) = none := by
  rw [C76_quotient, C76_difference, C76_quotient, C76_product]; simp [xval]

-- the square root of two squares to two
example : ∃ y, xval (Arith.sqrt (fin 2 : XReal)) = some y ∧ y * y = ((2 : ℝ) : EReal) := by
  rcases C76_root (fin 2) with h | ⟨y, h1, -, h2⟩
  · have := h.2 _ rfl
    exact absurd this (by norm_cast)
  · exact ⟨y, h1, (Option.some.inj h2).symm⟩

end QK.Props
