import Mathlib.Data.Int.Log
import Verif.Spec.Rounding
import Verif.Model.FiniteVolume
/-
Number formats that meet `Floats`: the numbers of a rounding function up to a largest one, and one value for everything that is not finite. With it rounding to 53
bits. (Used in examples only: it shows that the assumptions of C110 can be met.)
-/
namespace QK
open Spec

/-- A rounding function and the largest number. -/
structure Format where
  rd : ℝ → ℝ
  big : ℝ
  idem : ∀ x, rd (rd x) = rd x

/-- The numbers of a format; `bad`: everything that is not finite. -/
inductive Fl (F : Format) : Type
  | num (x : ℝ) (h : F.rd x = x ∧ |x| ≤ F.big)
  | bad

namespace Fl
variable {F : Format}
open Classical

noncomputable def of (F : Format) (x : ℝ) : Fl F := if h : |F.rd x| ≤ F.big then num (F.rd x) ⟨F.idem x, h⟩ else bad

def map1 (f : ℝ → Fl F) : Fl F → Fl F
  | num x _ => f x
  | bad => bad

def map2 (f : ℝ → ℝ → Fl F) : Fl F → Fl F → Fl F
  | num x _, num y _ => f x y
  | _, _ => bad

def rel (f : ℝ → ℝ → Bool) : Fl F → Fl F → Bool
  | num x _, num y _ => f x y
  | _, _ => false

noncomputable def val : Fl F → ℝ
  | num x _ => x
  | bad => 0

def fin : Fl F → Prop
  | num _ _ => True
  | bad => False

noncomputable instance : Arith (Fl F) where
  add := map2 fun x y => of F (x + y)
  sub := map2 fun x y => of F (x - y)
  mul := map2 fun x y => of F (x * y)
  div := map2 fun x y => if y = 0 then bad else of F (x / y)
  neg := map1 fun x => of F (-x)
  lit q := of F (q : ℝ)
  ofInt i := of F (i : ℝ)
  toInt a := match a with
    | num x _ => Arith.toInt x
    | bad => .ub "conversion to int out of range"
  sqrt := map1 fun x => if x < 0 then bad else of F (Real.sqrt x)
  fabs := map1 fun x => of F |x|
  exp := map1 fun x => of F (Real.exp x)
  sin := map1 fun x => of F (Real.sin x)
  cos := map1 fun x => of F (Real.cos x)
  cosh := map1 fun x => of F (Real.cosh x)
  tanh := map1 fun x => of F (Real.tanh x)
  pow := map2 fun x y => of F (x ^ y)
  lt := rel fun x y => decide (x < y)
  le := rel fun x y => decide (x ≤ y)
  feq := rel fun x y => decide (x = y)

theorem fin_of {x : ℝ} : fin (of F x) ↔ |F.rd x| ≤ F.big := by
  unfold of; split <;> simp_all [fin]

theorem val_of {x : ℝ} (h : fin (of F x)) : val (of F x) = F.rd x := by
  have h := fin_of.1 h
  unfold of; rw [dif_pos h]; rfl

theorem fin_map2 {f : ℝ → ℝ → Fl F} {a b : Fl F} : fin (map2 f a b) ↔ fin a ∧ fin b ∧ fin (f (val a) (val b)) := by
  cases a <;> cases b <;> simp [map2, fin, val]

theorem map2_eq {f : ℝ → ℝ → Fl F} {a b : Fl F} (ha : fin a) (hb : fin b) : map2 f a b = f (val a) (val b) := by
  cases a <;> cases b <;> simp_all [map2, fin, val]

theorem ext {a b : Fl F} (ha : fin a) (hb : fin b) (h : val a = val b) : a = b := by
  cases a <;> cases b <;> simp_all [fin, val]

/-- The format meets the assumptions if its rounding function does. -/
theorem floats {u e : ℝ} (unit : 0 ≤ u ∧ u ≤ 1) (tiny : 0 ≤ e) (odd : ∀ x, F.rd (-x) = -F.rd x) (err : ∀ x, |F.rd x - x| ≤ u * |x| + e)
    (sum : ∀ x y, F.rd x = x → F.rd y = y → |F.rd (x + y) - (x + y)| ≤ u * |x + y|) (lits : ∀ q ∈ [(0 : ℚ), 1, 1 / 4, 1 / 2, 3 / 4, 2, 3], F.rd (q : ℝ) = (q : ℝ))
    (three : 3 ≤ F.big) : Floats (α := Fl F) val fin F.rd F.big u e where
  unit := unit
  tiny := tiny
  odd := odd
  err := err
  number := by
    intro a ha
    rcases a with ⟨a, ma⟩ | _
    on_goal 2 => exact ha.elim
    · exact ma
  sum_err := by
    intro a b ha hb
    rcases a with ⟨a, ma⟩ | _
    on_goal 2 => exact ha.elim
    rcases b with ⟨b, mb⟩ | _
    on_goal 2 => exact hb.elim
    exact sum _ _ ma.1 mb.1
  add := by
    intro a b
    show fin (map2 _ a b) ↔ _
    rw [fin_map2, fin_of]
  add_val := by
    intro a b h
    have h' := fin_map2.1 h
    show val (map2 _ a b) = _
    rw [map2_eq h'.1 h'.2.1, val_of h'.2.2]
  sub := by
    intro a b
    show fin (map2 _ a b) ↔ _
    rw [fin_map2, fin_of]
  sub_val := by
    intro a b h
    have h' := fin_map2.1 h
    show val (map2 _ a b) = _
    rw [map2_eq h'.1 h'.2.1, val_of h'.2.2]
  mul := by
    intro a b
    show fin (map2 _ a b) ↔ _
    rw [fin_map2, fin_of]
  mul_val := by
    intro a b h
    have h' := fin_map2.1 h
    show val (map2 _ a b) = _
    rw [map2_eq h'.1 h'.2.1, val_of h'.2.2]
  div := by
    intro a b h
    have h' := fin_map2.1 h
    have hb : val b ≠ 0 := by
      intro hb
      have := h'.2.2
      rw [if_pos hb] at this
      exact this
    have h2 := h'.2.2
    rw [if_neg hb] at h2
    refine ⟨h'.1, .inl ⟨h'.2.1, hb, ?_⟩⟩
    show val (map2 _ a b) = _
    rw [map2_eq h'.1 h'.2.1, if_neg hb, val_of h2]
  neg := by
    intro a
    rcases a with ⟨a, ma⟩ | _
    on_goal 2 => exact Iff.rfl
    · show fin (of F (-a)) ↔ _
      rw [fin_of, odd, abs_neg, ma.1]
      exact iff_of_true ma.2 (trivial)
  neg_val := by
    intro a ha
    rcases a with ⟨a, ma⟩ | _
    on_goal 2 => exact ha.elim
    · show val (of F (-a)) = -a
      rw [val_of (fin_of.2 (by rw [odd, abs_neg, ma.1]; exact ma.2)), odd, ma.1]
  sqrt := by
    intro a ha
    rcases a with ⟨a, ma⟩ | _
    on_goal 2 => exact ha.elim
    · have ha : fin (if a < 0 then bad else of F (Real.sqrt a)) := ha
      by_cases h : a < 0
      · rw [if_pos h] at ha; exact ha.elim
      · rw [if_neg h] at ha
        refine ⟨trivial, not_lt.1 h, ?_⟩
        show val (if a < 0 then bad else of F (Real.sqrt a)) = _
        rw [if_neg h, val_of ha]; rfl
  lt := by
    intro a b ha hb
    rcases a with ⟨a, ma⟩ | _
    on_goal 2 => exact ha.elim
    rcases b with ⟨b, mb⟩ | _
    on_goal 2 => exact hb.elim
    show decide (a < b) = true ↔ _
    rw [decide_eq_true_iff]; rfl
  le := by
    intro a b ha hb
    rcases a with ⟨a, ma⟩ | _
    on_goal 2 => exact ha.elim
    rcases b with ⟨b, mb⟩ | _
    on_goal 2 => exact hb.elim
    show decide (a ≤ b) = true ↔ _
    rw [decide_eq_true_iff]; rfl
  lit := by
    intro q h
    have : fin (of F (q : ℝ)) := fin_of.2 h
    exact ⟨this, val_of this⟩
  lits := lits
  three := three

end Fl

/-! ### Rounding to 53 bits -/

/-- Exponent of the last bit. -/
noncomputable def lastBit (x : ℝ) : Int := Int.log 2 x - 52

/-- Rounding of positive numbers to 53 bits, to the nearest, ties upwards. -/
noncomputable def round53p (x : ℝ) : ℝ := ⌊x / 2 ^ lastBit x + 1 / 2⌋ * 2 ^ lastBit x

noncomputable def round53 (x : ℝ) : ℝ := if 0 < x then round53p x else if x < 0 then -round53p (-x) else 0

theorem round53_neg (x : ℝ) : round53 (-x) = -round53 x := by
  unfold round53
  rcases lt_trichotomy x 0 with h | rfl | h
  · rw [if_pos (by linarith), if_neg (by linarith), if_pos h, neg_neg]
  · simp
  · rw [if_neg (by linarith), if_pos (by linarith), if_pos h, neg_neg]

theorem round53p_err {x : ℝ} (hx : 0 < x) : |round53p x - x| ≤ 2⁻¹ ^ 53 * x := by
  have hp : (0 : ℝ) < 2 ^ lastBit x := by positivity
  have h1 : (2 : ℝ) ^ (Int.log 2 x) ≤ x := by simpa using Int.zpow_log_le_self (b := 2) (by norm_num) hx
  have h2 : (2 : ℝ) ^ (Int.log 2 x) = 2 ^ 52 * 2 ^ lastBit x := by
    unfold lastBit
    rw [zpow_sub₀ (by norm_num)]
    field_simp
  have h3 := Int.floor_le (x / 2 ^ lastBit x + 1 / 2)
  have h4 := Int.lt_floor_add_one (x / 2 ^ lastBit x + 1 / 2)
  have e : x = x / 2 ^ lastBit x * 2 ^ lastBit x := by field_simp
  have key : |(⌊x / 2 ^ lastBit x + 1 / 2⌋ : ℝ) - x / 2 ^ lastBit x| ≤ 1 / 2 := by
    rw [abs_le]; constructor <;> linarith
  have : round53p x - x = ((⌊x / 2 ^ lastBit x + 1 / 2⌋ : ℝ) - x / 2 ^ lastBit x) * 2 ^ lastBit x := by
    unfold round53p
    rw [sub_mul, ← e]
  rw [this, abs_mul, abs_of_pos hp]
  have h5 : 1 / 2 * (2 : ℝ) ^ lastBit x ≤ 2⁻¹ ^ 53 * x := by
    rw [h2] at h1
    have : (2⁻¹ : ℝ) ^ 53 * (2 ^ 52 * 2 ^ lastBit x) = 1 / 2 * 2 ^ lastBit x := by ring
    rw [← this]
    exact mul_le_mul_of_nonneg_left h1 (by positivity)
  exact (mul_le_mul_of_nonneg_right key hp.le).trans h5

theorem round53_err (x : ℝ) : |round53 x - x| ≤ 2⁻¹ ^ 53 * |x| := by
  unfold round53
  rcases lt_trichotomy x 0 with h | rfl | h
  · rw [if_neg (by linarith), if_pos h, abs_of_neg h]
    have := round53p_err (x := -x) (by linarith)
    rwa [show -round53p (-x) - x = -(round53p (-x) - -x) by ring, abs_neg]
  · simp
  · rw [if_pos h, abs_of_pos h]; exact round53p_err h

/-- Numbers of at most 53 bits are not changed. -/
theorem round53p_exact {x : ℝ} (hx : 0 < x) {m i : Int} (h : x = m * 2 ^ i) (hm : m < 2 ^ 53) : round53p x = x := by
  have hlog : Int.log 2 x < i + 53 := by
    rw [← Int.lt_zpow_iff_log_lt (by norm_num) hx, h, zpow_add₀ (by norm_num), mul_comm]
    refine mul_lt_mul_of_pos_left ?_ (by positivity)
    exact_mod_cast hm
  obtain ⟨n, hn⟩ : ∃ n : Nat, i = lastBit x + n := ⟨(i - lastBit x).toNat, by unfold lastBit; omega⟩
  have e : x / 2 ^ lastBit x = ((m * 2 ^ n : Int) : ℝ) := by
    rw [div_eq_iff (by positivity)]
    conv_lhs => rw [h, hn, zpow_add₀ (by norm_num)]
    push_cast
    rw [zpow_natCast]; ring
  have fl : ⌊x / 2 ^ lastBit x + 1 / 2⌋ = m * 2 ^ n := by
    rw [e, Int.floor_intCast_add]
    norm_num
  unfold round53p
  rw [fl, ← e]
  field_simp

theorem round53_exact {m i : Int} (h : |m| < 2 ^ 53) : round53 (m * 2 ^ i) = m * 2 ^ i := by
  have hp : (0 : ℝ) < 2 ^ i := by positivity
  unfold round53
  rcases lt_trichotomy m 0 with hm | rfl | hm
  · have hm' : (m : ℝ) < 0 := by exact_mod_cast hm
    have hx : (m : ℝ) * 2 ^ i < 0 := mul_neg_of_neg_of_pos hm' hp
    rw [if_neg (by linarith), if_pos hx, round53p_exact (m := -m) (i := i) (by linarith) (by push_cast; ring) (by rw [abs_of_neg hm] at h; exact h)]
    ring
  · simp
  · have hm' : (0 : ℝ) < m := by exact_mod_cast hm
    rw [if_pos (by positivity), round53p_exact (m := m) (i := i) (by positivity) rfl (by rw [abs_of_pos hm] at h; exact h)]

theorem round53p_form {x : ℝ} (hx : 0 < x) : ∃ m i : Int, |m| < 2 ^ 53 ∧ round53p x = m * 2 ^ i := by
  have hp : (0 : ℝ) < 2 ^ lastBit x := by positivity
  have h1 : x < (2 : ℝ) ^ (Int.log 2 x + 1) := by simpa using Int.lt_zpow_succ_log_self (b := 2) (by norm_num) x
  have h2 : (2 : ℝ) ^ (Int.log 2 x + 1) = 2 ^ 53 * 2 ^ lastBit x := by
    unfold lastBit
    rw [zpow_sub₀ (by norm_num), zpow_add₀ (by norm_num)]
    field_simp
  have h3 : x / 2 ^ lastBit x < 2 ^ 53 := by rw [div_lt_iff₀ hp, ← h2]; exact h1
  have h4 : 0 < x / 2 ^ lastBit x := by positivity
  have h5 : ⌊x / 2 ^ lastBit x + 1 / 2⌋ ≤ 2 ^ 53 := by
    have : (⌊x / 2 ^ lastBit x + 1 / 2⌋ : ℝ) < (2 ^ 53 + 1 : Int) := by
      refine (Int.floor_le _).trans_lt ?_
      push_cast
      linarith
    have : ⌊x / 2 ^ lastBit x + 1 / 2⌋ < 2 ^ 53 + 1 := by exact_mod_cast this
    omega
  have h6 : 0 ≤ ⌊x / 2 ^ lastBit x + 1 / 2⌋ := Int.floor_nonneg.2 (by linarith)
  rcases lt_or_eq_of_le h5 with h | h
  · exact ⟨_, lastBit x, by rw [abs_of_nonneg h6]; exact h, rfl⟩
  · refine ⟨1, lastBit x + 53, by norm_num, ?_⟩
    unfold round53p
    rw [h, zpow_add₀ (by norm_num)]
    push_cast
    norm_cast
    ring

theorem round53_idem (x : ℝ) : round53 (round53 x) = round53 x := by
  have form : ∃ m i : Int, |m| < 2 ^ 53 ∧ round53 x = m * 2 ^ i := by
    unfold round53
    rcases lt_trichotomy x 0 with h | rfl | h
    · obtain ⟨m, i, h1, h2⟩ := round53p_form (x := -x) (by linarith)
      exact ⟨-m, i, by rwa [abs_neg], by rw [if_neg (by linarith), if_pos h, h2]; push_cast; ring⟩
    · exact ⟨0, 0, by norm_num, by simp⟩
    · obtain ⟨m, i, h1, h2⟩ := round53p_form h
      exact ⟨m, i, h1, by rw [if_pos h, h2]⟩
  obtain ⟨m, i, h1, h2⟩ := form
  rw [h2, round53_exact h1]

/-- Doubles without underflow: 53 bits, the largest number as in IEEE 754. -/
noncomputable def double : Format := ⟨round53, (2 ^ 53 - 1) * 2 ^ 971, round53_idem⟩

theorem double_floats : Floats (α := Fl double) Fl.val Fl.fin round53 ((2 ^ 53 - 1) * 2 ^ 971) (2⁻¹ ^ 53) 0 := by
  have three : (3 : ℝ) ≤ (2 ^ 53 - 1) * 2 ^ 971 := by
    have : (1 : ℝ) ≤ 2 ^ 971 := one_le_pow₀ (by norm_num)
    generalize (2 : ℝ) ^ 971 = y at this ⊢
    norm_num
    linarith
  refine Fl.floats (F := double) (by norm_num) le_rfl round53_neg (fun x => by rw [add_zero]; exact round53_err x) (fun x y _ _ => round53_err _) ?_ three
  intro q hq
  have ex : ∀ m i : Int, |m| < 2 ^ 53 → double.rd (m * 2 ^ i) = m * 2 ^ i := fun m i h => round53_exact h
  simp only [List.mem_cons, List.not_mem_nil, or_false] at hq
  rcases hq with rfl | rfl | rfl | rfl | rfl | rfl | rfl
  · simpa using ex 0 0 (by norm_num)
  · simpa using ex 1 0 (by norm_num)
  · have := ex 1 (-2) (by norm_num); norm_num at this ⊢; exact this
  · have := ex 1 (-1) (by norm_num); norm_num at this ⊢; exact this
  · have := ex 3 (-2) (by norm_num); norm_num at this ⊢; exact this
  · simpa using ex 2 0 (by norm_num)
  · simpa using ex 3 0 (by norm_num)

/-! ### Exact arithmetic with small numbers in this format -/

/-- Numbers of the format. -/
def Exact (q : ℚ) : Prop := round53 (q : ℝ) = (q : ℝ) ∧ |(q : ℝ)| ≤ 3

theorem exact_of {q : ℚ} (m i : Int) (h : (q : ℝ) = m * 2 ^ i) (hm : |m| < 2 ^ 53) (hb : |(q : ℝ)| ≤ 3) : Exact q :=
  ⟨by rw [h]; exact round53_exact hm, hb⟩

namespace Fl

theorem small {x : ℝ} (h : |x| ≤ 3) : |x| ≤ double.big := h.trans double_floats.three

theorem lit_fin {q : ℚ} (h : Exact q) : fin (Arith.lit q : Fl double) ∧ val (Arith.lit q : Fl double) = (q : ℝ) := by
  have := double_floats.lit q (by rw [h.1]; exact h.2.trans double_floats.three)
  exact ⟨this.1, this.2.trans h.1⟩

theorem lit_add {p q r : ℚ} (hp : Exact p) (hq : Exact q) (hr : Exact r) (e : p + q = r) : (Arith.lit p : Fl double) + Arith.lit q = Arith.lit r := by
  have e' : (p : ℝ) + q = r := by exact_mod_cast e
  have f : fin ((Arith.lit p : Fl double) + Arith.lit q) := double_floats.add.2 ⟨(lit_fin hp).1, (lit_fin hq).1, by
    rw [(lit_fin hp).2, (lit_fin hq).2, e', hr.1]; exact hr.2.trans double_floats.three⟩
  exact ext f (lit_fin hr).1 (by rw [double_floats.add_val f, (lit_fin hp).2, (lit_fin hq).2, (lit_fin hr).2, e', hr.1])

theorem lit_sub {p q r : ℚ} (hp : Exact p) (hq : Exact q) (hr : Exact r) (e : p - q = r) : (Arith.lit p : Fl double) - Arith.lit q = Arith.lit r := by
  have e' : (p : ℝ) - q = r := by exact_mod_cast e
  have f : fin ((Arith.lit p : Fl double) - Arith.lit q) := double_floats.sub.2 ⟨(lit_fin hp).1, (lit_fin hq).1, by
    rw [(lit_fin hp).2, (lit_fin hq).2, e', hr.1]; exact hr.2.trans double_floats.three⟩
  exact ext f (lit_fin hr).1 (by rw [double_floats.sub_val f, (lit_fin hp).2, (lit_fin hq).2, (lit_fin hr).2, e', hr.1])

theorem lit_mul {p q r : ℚ} (hp : Exact p) (hq : Exact q) (hr : Exact r) (e : p * q = r) : (Arith.lit p : Fl double) * Arith.lit q = Arith.lit r := by
  have e' : (p : ℝ) * q = r := by exact_mod_cast e
  have f : fin ((Arith.lit p : Fl double) * Arith.lit q) := double_floats.mul.2 ⟨(lit_fin hp).1, (lit_fin hq).1, by
    rw [(lit_fin hp).2, (lit_fin hq).2, e', hr.1]; exact hr.2.trans double_floats.three⟩
  exact ext f (lit_fin hr).1 (by rw [double_floats.mul_val f, (lit_fin hp).2, (lit_fin hq).2, (lit_fin hr).2, e', hr.1])

theorem div_eq {a b : Fl double} {r : ℚ} (ha : fin a) (hb : fin b) (h0 : val b ≠ 0) (hr : Exact r) (e : val a / val b = r) : a / b = Arith.lit r := by
  have f : fin (of double (val a / val b)) := fin_of.2 (by rw [e]; show |round53 r| ≤ _; rw [hr.1]; exact hr.2.trans double_floats.three)
  have : a / b = of double (val a / val b) := by
    show map2 _ a b = _
    rw [map2_eq ha hb, if_neg h0]
  rw [this]
  exact ext f (lit_fin hr).1 (by rw [val_of f, (lit_fin hr).2, e]; exact hr.1)

theorem lit_div {p q r : ℚ} (hp : Exact p) (hq : Exact q) (hr : Exact r) (h0 : q ≠ 0) (e : p / q = r) : (Arith.lit p : Fl double) / Arith.lit q = Arith.lit r :=
  div_eq (lit_fin hp).1 (lit_fin hq).1 (by rw [(lit_fin hq).2]; exact_mod_cast h0) hr (by rw [(lit_fin hp).2, (lit_fin hq).2]; exact_mod_cast e)

theorem lit_neg {p r : ℚ} (hp : Exact p) (hr : Exact r) (e : -p = r) : -(Arith.lit p : Fl double) = Arith.lit r := by
  have f := double_floats.neg.2 (lit_fin hp).1
  refine ext f (lit_fin hr).1 ?_
  rw [double_floats.neg_val (lit_fin hp).1, (lit_fin hp).2, (lit_fin hr).2]; exact_mod_cast e

theorem lit_fabs {p : ℚ} (hp : Exact p) (h : 0 ≤ p) : Arith.fabs (Arith.lit p : Fl double) = Arith.lit p := by
  have e : |(p : ℝ)| = p := abs_of_nonneg (by exact_mod_cast h)
  obtain ⟨x, m, hx⟩ : ∃ x m, (Arith.lit p : Fl double) = num x m := by
    cases hx : (Arith.lit p : Fl double) with
    | num x m => exact ⟨x, m, rfl⟩
    | bad => have := (lit_fin hp).1; rw [hx] at this; exact this.elim
  have hv := (lit_fin hp).2
  rw [hx] at hv
  have hv : x = p := hv
  have f : fin (of double |x|) := fin_of.2 (by rw [hv, e]; show |round53 p| ≤ _; rw [hp.1]; exact hp.2.trans double_floats.three)
  rw [hx]
  show of double |x| = _
  refine ext f trivial ?_
  rw [val_of f]
  show round53 |x| = x
  rw [hv, e, hp.1]

/-- The small number of the limiter is not zero after rounding. -/
theorem lit_small : fin (Arith.lit (1 / 10 ^ 12) : Fl double) ∧ val (Arith.lit (1 / 10 ^ 12) : Fl double) ≠ 0 ∧
    (Arith.lit 0 : Fl double) + Arith.lit (1 / 10 ^ 12) = Arith.lit (1 / 10 ^ 12) := by
  have h0 : Exact 0 := exact_of 0 0 (by simp) (by norm_num) (by simp)
  have he := round53_err (((1 / 10 ^ 12 : ℚ)) : ℝ)
  have e1 : (((1 / 10 ^ 12 : ℚ)) : ℝ) = 1 / 10 ^ 12 := by norm_num
  rw [e1, abs_le, abs_of_pos (show (0 : ℝ) < 1 / 10 ^ 12 by positivity)] at he
  have l1 : 0 < round53 (1 / 10 ^ 12) := by
    refine lt_of_lt_of_le ?_ (sub_nonneg.1 (by have := he.1; linarith : 0 ≤ round53 (1 / 10 ^ 12) - (1 / 10 ^ 12 - 2⁻¹ ^ 53 * (1 / 10 ^ 12))))
    norm_num
  have l2 : round53 (1 / 10 ^ 12) ≤ 3 := by
    refine (sub_le_iff_le_add.1 he.2).trans ?_
    norm_num
  have L := double_floats.lit (1 / 10 ^ 12) (by rw [e1, abs_of_pos l1]; exact l2.trans double_floats.three)
  rw [e1] at L
  refine ⟨L.1, by rw [L.2]; exact l1.ne', ?_⟩
  have f : fin ((Arith.lit 0 : Fl double) + Arith.lit (1 / 10 ^ 12)) := double_floats.add.2 ⟨(lit_fin h0).1, L.1, by
    rw [(lit_fin h0).2, L.2]; push_cast; rw [zero_add, round53_idem, abs_of_pos l1]; exact l2.trans double_floats.three⟩
  refine ext f L.1 ?_
  rw [double_floats.add_val f, (lit_fin h0).2, L.2]; push_cast; rw [zero_add, round53_idem]

theorem ex0 : Exact 0 := exact_of 0 0 (by simp) (by norm_num) (by simp)
theorem ex1 : Exact 1 := exact_of 1 0 (by simp) (by norm_num) (by norm_num)
theorem ex2 : Exact 2 := exact_of 2 0 (by simp) (by norm_num) (by norm_num)
theorem ex3 : Exact 3 := exact_of 3 0 (by simp) (by norm_num) (by norm_num)
theorem exh : Exact (1 / 2) := exact_of 1 (-1) (by norm_num) (by norm_num) (by norm_num [abs_le])
theorem exq : Exact (1 / 4) := exact_of 1 (-2) (by norm_num) (by norm_num) (by norm_num [abs_le])
theorem exe : Exact (1 / 8) := exact_of 1 (-3) (by norm_num) (by norm_num) (by norm_num [abs_le])
theorem ext3 : Exact (3 / 4) := exact_of 3 (-2) (by norm_num) (by norm_num) (by norm_num [abs_le])
theorem exm : Exact (-(1 / 2)) := exact_of (-1) (-1) (by norm_num) (by norm_num) (by norm_num [abs_le])

/-- Reconstruction of a uniform field. -/
theorem recon_lit {p : ℚ} (hp : Exact p) : FV.recon (Arith.lit p : Fl double) (Arith.lit p) (Arith.lit p) (Arith.lit p) = (Arith.lit p, Arith.lit p) := by
  have e1 : (Arith.lit 0 : Fl double) / Arith.lit (1 / 10 ^ 12) = Arith.lit 0 :=
    div_eq (lit_fin ex0).1 lit_small.1 lit_small.2.1 ex0 (by rw [(lit_fin ex0).2]; simp)
  simp only [FV.recon, lit_sub hp hp ex0 (sub_self p), lit_small.2.2, e1, lit_mul ex0 ex0 ex0 (by norm_num), lit_add ex0 ex0 ex0 (by norm_num), lit_add ex0 ex1 ex1 (by norm_num),
    lit_div ex0 ex1 ex0 (by norm_num) (by norm_num), lit_mul exh ex0 ex0 (by norm_num), lit_add hp ex0 hp (by norm_num)]

end Fl
end QK
