import Verif.Proofs.Format
import Verif.Props.Program
/- Property C118: the characters of the files. -/
namespace QK.Props
open QK Spec Format

/-! ## Numbers -/

/-- **C118** A number printed with `P` digits reads as a number of the same sign that differs from it by at most 5·10⁻ᴾ of its size. -/
theorem C118_number {P : Nat} (hP : 1 ≤ P) {x : ℝ} (hx : x ≠ 0) : ∃ y, readNumber (text P x) = some y ∧ CloseTo P x y ∧ (0 < y ↔ 0 < x) ∧ (y < 0 ↔ x < 0) := by
  obtain ⟨h1, h2, h3⟩ := scientific_spec hP (abs_pos.2 hx)
  have h0 : (10 : ℝ) ^ Int.log 10 |x| ≤ |x| := by exact_mod_cast Int.zpow_log_le_self (b := 10) (by norm_num) (abs_pos.2 hx)
  refine ⟨_, text_read hP hx, ?_, ?_⟩
  · unfold CloseTo
    have e : (1 : ℝ) / 2 * 10 ^ (Int.log 10 |x| - ((P : Int) - 1)) = 5 * 10 ^ (-(P : Int)) * 10 ^ Int.log 10 |x| := by
      rw [show Int.log 10 |x| - ((P : Int) - 1) = 1 + -(P : Int) + Int.log 10 |x| by ring, zpow_add₀ (by norm_num), zpow_add₀ (by norm_num), zpow_one]
      ring
    rw [e] at h3
    have := h3.trans (mul_le_mul_of_nonneg_left h0 (by positivity))
    rcases lt_or_gt_of_ne hx with h | h
    · rw [if_pos h, ← abs_neg]
      rw [abs_of_neg h] at this ⊢
      rw [show ∀ z : ℝ, -(-1 * z - x) = z - -x from fun z => by ring]
      exact this
    · rw [if_neg h.le.not_gt, one_mul]
      rwa [abs_of_pos h] at this ⊢
  · have pos : 0 < ((scientific P |x|).1 : ℝ) * 10 ^ ((scientific P |x|).2 - ((P : Int) - 1)) := by
      have : 0 < (scientific P |x|).1 := lt_of_lt_of_le (by positivity) h1
      positivity
    generalize ((scientific P |x|).1 : ℝ) * 10 ^ ((scientific P |x|).2 - ((P : Int) - 1)) = z at *
    split_ifs with h
    · exact ⟨⟨fun h' => by linarith, fun h' => by linarith⟩, ⟨fun h' => by linarith, fun h' => by linarith⟩⟩
    · have : 0 < x := lt_of_le_of_ne (not_lt.1 h) hx.symm
      exact ⟨⟨fun h' => by linarith, fun h' => by linarith⟩, ⟨fun h' => by linarith, fun h' => by linarith⟩⟩

/-- The value of the digits before a carry is looked at. -/
theorem scientific_value (P : Nat) (hP : 1 ≤ P) {a : ℝ} (ha : 0 < a) : ((scientific P a).1 : ℝ) * 10 ^ ((scientific P a).2 - ((P : Int) - 1)) =
    (roundEven (a * 10 ^ ((P : Int) - 1 - Int.log 10 a)) : ℝ) * 10 ^ (Int.log 10 a - ((P : Int) - 1)) := by
  have r0 : 0 ≤ roundEven (a * 10 ^ ((P : Int) - 1 - Int.log 10 a)) := by
    have := roundEven_mono (show ((0 : Int) : ℝ) ≤ a * 10 ^ ((P : Int) - 1 - Int.log 10 a) by push_cast; positivity)
    rwa [roundEven_int] at this
  unfold scientific
  simp only
  generalize roundEven (a * 10 ^ ((P : Int) - 1 - Int.log 10 a)) = r at *
  obtain ⟨d, rfl⟩ := Int.eq_ofNat_of_zero_le r0
  simp only [Int.toNat_natCast, Int.cast_natCast]
  split_ifs with h
  · rw [h]
    push_cast
    rw [← zpow_natCast, ← zpow_natCast, ← zpow_add₀ (by norm_num), ← zpow_add₀ (by norm_num)]
    congr 1
    omega
  · rfl

/-- **C118** The exponent is shown for numbers that read as less than 10⁻⁴ or at least 10ᴾ, and only for them. -/
theorem C118_style {P : Nat} (hP : 1 ≤ P) {x y : ℝ} (hx : x ≠ 0) (hy : readNumber (text P x) = some y) : 'e' ∈ text P x ↔ |y| < 10 ^ (-4 : Int) ∨ 10 ^ P ≤ |y| := by
  obtain ⟨h1, h2, -⟩ := scientific_spec hP (abs_pos.2 hx)
  rw [text_read hP hx, Option.some.injEq] at hy
  have ay : |y| = ((scientific P |x|).1 : ℝ) * 10 ^ ((scientific P |x|).2 - ((P : Int) - 1)) := by
    rw [← hy, abs_mul, abs_of_nonneg (a := ((scientific P |x|).1 : ℝ) * _) (by positivity)]
    split_ifs <;> simp
  unfold text
  generalize scientific P |x| = q at *
  have ten : (10 : ℝ) ≠ 0 := by norm_num
  have l1 : (10 : ℝ) ^ q.2 ≤ |y| := by
    rw [ay, show q.2 = ((P - 1 : Nat) : Int) + (q.2 - ((P : Int) - 1)) by omega, zpow_add₀ ten, zpow_natCast]
    refine mul_le_mul (by exact_mod_cast h1) (le_of_eq (by congr 1; omega)) (by positivity) (by positivity)
  have l2 : |y| < (10 : ℝ) ^ (q.2 + 1) := by
    rw [ay, show q.2 + 1 = (P : Int) + (q.2 - ((P : Int) - 1)) by omega, zpow_add₀ ten, zpow_natCast]
    exact mul_lt_mul_of_pos_right (by exact_mod_cast h2) (by positivity)
  have hd : ∀ {s : List Char}, Digits s → 'e' ∉ s := fun h hc => by have := h _ hc; cases this
  have hw : ∀ {a b : List Char}, Digits a → Digits b → 'e' ∉ withPoint a b := by
    intro a b ha hb
    unfold withPoint
    split_ifs
    · exact hd ha
    · rw [List.mem_append, List.mem_cons]
      rintro (h | h | h)
      · exact hd ha h
      · cases h
      · exact hd hb h
  have hs : 'e' ∉ (if x < 0 then ['-'] else []) := by split_ifs <;> simp
  have hD := Digits.toDigits q.1
  have between : ¬ (q.2 < -4 ∨ (P : Int) ≤ q.2) → ¬ (|y| < 10 ^ (-4 : Int) ∨ 10 ^ P ≤ |y|) := by
    rintro c (h | h)
    · exact absurd h (not_lt.2 ((zpow_le_zpow_right₀ (by norm_num) (by omega)).trans l1))
    · rw [← zpow_natCast] at h
      exact absurd h (not_le.2 (lt_of_lt_of_le l2 (zpow_le_zpow_right₀ (by norm_num) (by omega))))
  rw [List.mem_append, or_iff_right hs]
  unfold general
  simp only
  split_ifs with c1 c2
  · constructor
    · intro _
      rcases c1 with c | c
      · left
        refine lt_of_lt_of_le l2 (zpow_le_zpow_right₀ (by norm_num) (by omega))
      · right
        rw [← zpow_natCast]
        exact (zpow_le_zpow_right₀ (by norm_num) c).trans l1
    · intro _
      rw [List.mem_append]
      exact .inr (by unfold exponent; simp)
  · exact iff_of_false (hw (Digits.zeros 1) ((Digits.zeros _).append hD.trim)) (between c1)
  · exact iff_of_false (hw (hD.take _) (hD.drop _).trim) (between c1)

/-- **C118** Numbers that have at most `P` decimal digits are printed exactly. -/
theorem C118_exact {P : Nat} (hP : 1 ≤ P) {n : Nat} {k : Int} (h0 : n ≠ 0) (hn : n < 10 ^ P) {x : ℝ} (hx : |x| = n * 10 ^ k) : readNumber (text P x) = some x := by
  have ten : (10 : ℝ) ≠ 0 := by norm_num
  have ap : 0 < |x| := by rw [hx]; positivity
  have x0 : x ≠ 0 := abs_pos.1 ap
  rw [text_read hP x0, scientific_value P hP ap]
  have h1 : (10 : ℝ) ^ Int.log 10 |x| ≤ |x| := by exact_mod_cast Int.zpow_log_le_self (b := 10) (by norm_num) ap
  have hk : Int.log 10 |x| ≤ k + ((P : Int) - 1) := by
    by_contra hc
    have : |x| < 10 ^ Int.log 10 |x| := by
      rw [hx] at ap ⊢
      calc (n : ℝ) * 10 ^ k < 10 ^ P * 10 ^ k := by
            apply mul_lt_mul_of_pos_right _ (by positivity)
            exact_mod_cast hn
        _ = 10 ^ ((P : Int) + k) := by rw [zpow_add₀ ten, zpow_natCast]
        _ ≤ _ := zpow_le_zpow_right₀ (by norm_num) (by rw [← hx]; omega)
    linarith
  have hr : |x| * 10 ^ ((P : Int) - 1 - Int.log 10 |x|) = ((n * 10 ^ (k + ((P : Int) - 1) - Int.log 10 |x|).toNat : Int) : ℝ) := by
    rw [hx] at hk ⊢
    push_cast
    rw [mul_assoc, ← zpow_add₀ ten, ← zpow_natCast]
    congr 2
    omega
  have back : ((roundEven (|x| * 10 ^ ((P : Int) - 1 - Int.log 10 |x|)) : Int) : ℝ) * 10 ^ (Int.log 10 |x| - ((P : Int) - 1)) = |x| := by
    rw [hr, roundEven_int, ← hr, mul_assoc, ← zpow_add₀ ten, show (P : Int) - 1 - Int.log 10 |x| + (Int.log 10 |x| - ((P : Int) - 1)) = 0 by ring, zpow_zero, mul_one]
  rw [back]
  congr 1
  split_ifs with h
  · rw [abs_of_neg h]; ring
  · rw [abs_of_nonneg (not_lt.1 h), one_mul]

theorem roundEven_nearest (y : ℝ) (n : Int) : |(roundEven y : ℝ) - y| ≤ |(n : ℝ) - y| := by
  by_cases h : n = roundEven y
  · rw [h]
  · have h1 : (1 : ℝ) ≤ |(n : ℝ) - roundEven y| := by
      have : 1 ≤ |n - roundEven y| := Int.one_le_abs (sub_ne_zero.2 h)
      exact_mod_cast this
    have h2 := roundEven_near y
    have h3 := abs_sub_le (n : ℝ) y (roundEven y)
    rw [abs_sub_comm y] at h3
    linarith

theorem roundEven_tie {y : ℝ} {n : Int} (h : n ≠ roundEven y) (e : |(roundEven y : ℝ) - y| = |(n : ℝ) - y|) : Even (roundEven y) := by
  have h1 : (1 : ℝ) ≤ |(n : ℝ) - roundEven y| := by
    have : 1 ≤ |n - roundEven y| := Int.one_le_abs (sub_ne_zero.2 h)
    exact_mod_cast this
  have h2 := roundEven_near y
  have h3 := abs_sub_le (n : ℝ) y (roundEven y)
  rw [abs_sub_comm y] at h3
  have h4 : |(roundEven y : ℝ) - y| = 1 / 2 := by linarith
  have hf : Int.fract y = 1 / 2 := by
    have hd := Int.self_sub_floor y
    have h0 := Int.fract_nonneg y
    have hl := Int.fract_lt_one y
    unfold roundEven at h4
    split_ifs at h4 with c1 c2 c3
    · rw [abs_sub_comm, hd, abs_of_nonneg h0] at h4; linarith
    · push_cast at h4
      rw [show (⌊y⌋ : ℝ) + 1 - y = 1 - Int.fract y by linarith, abs_of_nonneg (by linarith)] at h4; linarith
    · linarith
    · linarith
  unfold roundEven
  rw [if_neg (by linarith), if_neg (by linarith)]
  split_ifs with c
  · exact Int.even_iff.2 c
  · rw [Int.even_iff]; omega

/-- **C118** The text is the decimal number with `P` digits nearest to the value; of two that are equally near the one whose last digit is even. -/
theorem C118_nearest {P : Nat} (hP : 1 ≤ P) {x y : ℝ} (hx : x ≠ 0) (hy : readNumber (text P x) = some y) :
    (∃ n : Nat, n < 10 ^ P ∧ ∃ k : Int, |y| = n * 10 ^ k) ∧
    ∀ z : ℝ, (∃ n : Nat, n < 10 ^ P ∧ ∃ k : Int, |z| = n * 10 ^ k) → |y - x| ≤ |z - x| ∧
      (z ≠ y → |y - x| = |z - x| → ∃ m : Int, Even m ∧ |y| = m * 10 ^ (Int.log 10 |x| - ((P : Int) - 1))) := by
  have ten : (10 : ℝ) ≠ 0 := by norm_num
  have ap := abs_pos.2 hx
  have h1 : (10 : ℝ) ^ Int.log 10 |x| ≤ |x| := by exact_mod_cast Int.zpow_log_le_self (b := 10) (by norm_num) ap
  obtain ⟨s1, s2, -⟩ := scientific_spec hP ap
  have e := hy
  rw [text_read hP hx, Option.some.injEq] at e
  have ay : |y| = ((scientific P |x|).1 : ℝ) * 10 ^ ((scientific P |x|).2 - ((P : Int) - 1)) := by
    rw [← e, abs_mul, abs_of_nonneg (a := ((scientific P |x|).1 : ℝ) * _) (by positivity)]
    split_ifs <;> simp
  have sy : |y - x| = abs (|y| - |x|) := by
    have nn : (0 : ℝ) ≤ ((scientific P |x|).1 : ℝ) * 10 ^ ((scientific P |x|).2 - ((P : Int) - 1)) := by positivity
    rw [ay, ← e]
    split_ifs with h
    · rw [abs_of_neg h, ← abs_neg]; congr 1; ring
    · rw [abs_of_nonneg (not_lt.1 h), one_mul]
  refine ⟨⟨_, s2, _, ay⟩, ?_⟩
  rintro z ⟨n, hn, k, hz⟩
  have sz : abs (|z| - |x|) ≤ |z - x| := abs_abs_sub_abs_le_abs_sub z x
  rw [scientific_value P hP ap] at ay
  generalize hX : Int.log 10 |x| = X at *
  have hs : (0 : ℝ) < 10 ^ ((P : Int) - 1 - X) := by positivity
  have inv : (10 : ℝ) ^ (X - ((P : Int) - 1)) = (10 ^ ((P : Int) - 1 - X))⁻¹ := by rw [← zpow_neg]; congr 1; ring
  have scale : ∀ w : ℝ, |w * 10 ^ ((P : Int) - 1 - X) - |x| * 10 ^ ((P : Int) - 1 - X)| = abs (w - |x|) * 10 ^ ((P : Int) - 1 - X) := by
    intro w; rw [← sub_mul, abs_mul, abs_of_pos hs]
  have yr : |y| * 10 ^ ((P : Int) - 1 - X) = roundEven (|x| * 10 ^ ((P : Int) - 1 - X)) := by rw [ay, inv]; field_simp
  -- a decimal number with P digits below the unit of the last digit is less than 10^X, which is one itself
  rcases lt_or_ge k (X - ((P : Int) - 1)) with hk | hk
  · have zl : |z| < 10 ^ X := by
      rw [hz]
      calc (n : ℝ) * 10 ^ k < 10 ^ P * 10 ^ k := mul_lt_mul_of_pos_right (by exact_mod_cast hn) (by positivity)
        _ = 10 ^ ((P : Int) + k) := by rw [zpow_add₀ ten, zpow_natCast]
        _ ≤ _ := zpow_le_zpow_right₀ (by norm_num) (by omega)
    have near := roundEven_nearest (|x| * 10 ^ ((P : Int) - 1 - X)) (10 ^ (P - 1))
    have hpw : (((10 ^ (P - 1) : Int)) : ℝ) = 10 ^ X * 10 ^ ((P : Int) - 1 - X) := by
      rw [← zpow_add₀ ten, show X + ((P : Int) - 1 - X) = ((P - 1 : Nat) : Int) by omega, zpow_natCast]; push_cast; rfl
    rw [← yr, hpw, scale, scale] at near
    have near := le_of_mul_le_mul_right near hs
    rw [abs_of_nonpos (a := 10 ^ X - |x|) (by linarith)] at near
    have zx : x ≠ 0 → |x| - |z| ≤ |z - x| := fun _ => by
      have := neg_abs_le (|z| - |x|); linarith
    have := zx hx
    rw [sy]
    refine ⟨by linarith, fun _ eq => ?_⟩
    exfalso; linarith
  · have zi : |z| * 10 ^ ((P : Int) - 1 - X) = ((n * 10 ^ (k + ((P : Int) - 1) - X).toNat : Int) : ℝ) := by
      rw [hz]
      push_cast
      rw [mul_assoc, ← zpow_add₀ ten, ← zpow_natCast]
      congr 2
      omega
    have near := roundEven_nearest (|x| * 10 ^ ((P : Int) - 1 - X)) (n * 10 ^ (k + ((P : Int) - 1) - X).toNat)
    rw [← zi, ← yr, scale, scale] at near
    have near := le_of_mul_le_mul_right near hs
    rw [sy]
    refine ⟨by linarith, fun ne eq => ⟨roundEven (|x| * 10 ^ ((P : Int) - 1 - X)), ?_, ay⟩⟩
    have eq' : abs (|y| - |x|) = abs (|z| - |x|) := le_antisymm near (by linarith)
    have differ : |z| ≠ |y| := by
      intro c
      rcases abs_eq_abs.1 c with c | c
      · exact ne c
      · have same : 0 < y * x := by
          rw [← e]
          have : 0 < ((scientific P |x|).1 : ℝ) * 10 ^ ((scientific P |x|).2 - ((P : Int) - 1)) := by
            have : 0 < (scientific P |x|).1 := lt_of_lt_of_le (by positivity) s1
            positivity
          split_ifs with h
          · nlinarith
          · have : 0 < x := lt_of_le_of_ne (not_lt.1 h) hx.symm
            positivity
        rw [c, ← sy] at eq
        have := (sq_eq_sq_iff_abs_eq_abs _ _).2 eq
        nlinarith
    apply roundEven_tie (n := n * 10 ^ (k + ((P : Int) - 1) - X).toNat)
    · intro c
      have : |z| * 10 ^ ((P : Int) - 1 - X) = |y| * 10 ^ ((P : Int) - 1 - X) := by rw [zi, yr, c]
      exact differ (mul_right_cancel₀ hs.ne' this)
    · rw [← zi, ← yr, scale, scale, eq']

-- C118: 2.5 and 3.5 with one digit are 2 and 4
example : roundEven (5 / 2) = 2 ∧ roundEven (7 / 2) = 4 := by
  have f1 : ⌊(5 / 2 : ℝ)⌋ = 2 := by rw [Int.floor_eq_iff]; norm_num
  have f2 : ⌊(7 / 2 : ℝ)⌋ = 3 := by rw [Int.floor_eq_iff]; norm_num
  constructor <;> unfold roundEven Int.fract
  · rw [f1]; norm_num
  · rw [f2]; norm_num

theorem scientific_mono {P : Nat} (hP : 1 ≤ P) {a b : ℝ} (ha : 0 < a) (h : a ≤ b) :
    ((scientific P a).1 : ℝ) * 10 ^ ((scientific P a).2 - ((P : Int) - 1)) ≤ ((scientific P b).1 : ℝ) * 10 ^ ((scientific P b).2 - ((P : Int) - 1)) := by
  have ten : (10 : ℝ) ≠ 0 := by norm_num
  have hb := ha.trans_le h
  rw [scientific_value P hP ha, scientific_value P hP hb]
  have hl := Int.log_mono_right (b := 10) ha h
  have a2 : a < (10 : ℝ) ^ (Int.log 10 a + 1) := by exact_mod_cast Int.lt_zpow_succ_log_self (b := 10) (by norm_num) a
  have b1 : (10 : ℝ) ^ Int.log 10 b ≤ b := by exact_mod_cast Int.zpow_log_le_self (b := 10) (by norm_num) hb
  rcases hl.lt_or_eq with hl | hl
  · generalize Int.log 10 a = X at *
    generalize Int.log 10 b = Y at *
    have r1 : roundEven (a * 10 ^ ((P : Int) - 1 - X)) ≤ 10 ^ P := by
      rw [← roundEven_int (10 ^ P)]
      apply roundEven_mono
      have := mul_le_mul_of_nonneg_right a2.le (show (0 : ℝ) ≤ 10 ^ ((P : Int) - 1 - X) by positivity)
      rw [← zpow_add₀ ten, show X + 1 + ((P : Int) - 1 - X) = (P : Int) by omega, zpow_natCast] at this
      push_cast
      exact this
    have r2 : 10 ^ (P - 1) ≤ roundEven (b * 10 ^ ((P : Int) - 1 - Y)) := by
      rw [← roundEven_int (10 ^ (P - 1))]
      apply roundEven_mono
      have := mul_le_mul_of_nonneg_right b1 (show (0 : ℝ) ≤ 10 ^ ((P : Int) - 1 - Y) by positivity)
      rw [← zpow_add₀ ten, show Y + ((P : Int) - 1 - Y) = ((P - 1 : Nat) : Int) by omega, zpow_natCast] at this
      push_cast
      exact this
    calc _ ≤ ((10 ^ P : Int) : ℝ) * 10 ^ (X - ((P : Int) - 1)) := mul_le_mul_of_nonneg_right (by exact_mod_cast r1) (by positivity)
      _ = 10 ^ (X + 1) := by push_cast; rw [← zpow_natCast, ← zpow_add₀ ten]; congr 1; omega
      _ ≤ 10 ^ Y := zpow_le_zpow_right₀ (by norm_num) (by omega)
      _ = ((10 ^ (P - 1) : Int) : ℝ) * 10 ^ (Y - ((P : Int) - 1)) := by push_cast; rw [← zpow_natCast, ← zpow_add₀ ten]; congr 1; omega
      _ ≤ _ := mul_le_mul_of_nonneg_right (by exact_mod_cast r2) (by positivity)
  · rw [hl]
    apply mul_le_mul_of_nonneg_right _ (by positivity)
    exact_mod_cast roundEven_mono (mul_le_mul_of_nonneg_right h (by positivity))

/-- **C118** The order of numbers is kept. -/
theorem C118_order {P : Nat} (hP : 1 ≤ P) {x x' y y' : ℝ} (hx : x ≠ 0) (hx' : x' ≠ 0) (h : x ≤ x') (hy : readNumber (text P x) = some y) (hy' : readNumber (text P x') = some y') : y ≤ y' := by
  by_cases s : x < 0 ↔ x' < 0
  · rw [text_read hP hx] at hy
    rw [text_read hP hx'] at hy'
    cases hy
    cases hy'
    by_cases h0 : x < 0
    · rw [if_pos h0, if_pos (s.1 h0)]
      have := scientific_mono hP (abs_pos.2 hx') (show |x'| ≤ |x| by rw [abs_of_neg h0, abs_of_neg (s.1 h0)]; linarith)
      linarith
    · rw [if_neg h0, if_neg (fun h' => h0 (s.2 h')), one_mul, one_mul]
      exact scientific_mono hP (abs_pos.2 hx) (abs_le_abs_of_nonneg (not_lt.1 h0) h)
  · obtain ⟨_, e, -, -, i⟩ := C118_number hP hx
    obtain ⟨_, e', -, i', -⟩ := C118_number hP hx'
    rw [hy] at e
    rw [hy'] at e'
    cases e
    cases e'
    by_cases h0 : x < 0
    · have h1 : 0 < x' := lt_of_le_of_ne (not_lt.1 fun h' => s (by simp [h0, h'])) hx'.symm
      linarith [i.2 h0, i'.2 h1]
    · exact absurd (show (x < 0 ↔ x' < 0) from ⟨fun h' => absurd h' h0, fun h' => by linarith⟩) s

/-- Numbers with at most `B` binary digits (doubles: 53), whatever their exponent. -/
def Bits (B : Nat) (x : ℝ) : Prop := ∃ m k : Int, |m| < 2 ^ B ∧ x = m * 2 ^ k

/-- Between different positive numbers of `B` binary digits there is a gap. -/
theorem bits_gap {B : Nat} {x x' : ℝ} (hx : Bits B x) (hx' : Bits B x') (h0 : 0 < x) (h : x < x') : x < 2 ^ B * (x' - x) := by
  obtain ⟨m, k, hm, rfl⟩ := hx
  obtain ⟨m', k', hm', rfl⟩ := hx'
  have two : (2 : ℝ) ≠ 0 := by norm_num
  -- a common power of two below, with x normalised
  have key : ∃ (n : Nat) (j : Int), (m : ℝ) * 2 ^ k = n * 2 ^ j ∧ 2 ^ B ≤ 2 * n ∧ n < 2 ^ B := by
    have mp : 0 < m := by
      have : (0 : ℝ) < m := pos_of_mul_pos_left h0 (by positivity)
      exact_mod_cast this
    obtain ⟨n, rfl⟩ := Int.eq_ofNat_of_zero_le mp.le
    have hn : n < 2 ^ B := by rw [abs_of_pos mp] at hm; exact_mod_cast hm
    have n0 : n ≠ 0 := by rintro rfl; simp at mp
    have l1 := Nat.pow_log_le_self 2 n0
    have l2 := Nat.lt_pow_succ_log_self (b := 2) (by norm_num) n
    have lB : Nat.log 2 n < B := (Nat.pow_lt_pow_iff_right (by norm_num : 1 < 2)).1 (lt_of_le_of_lt l1 hn)
    refine ⟨n * 2 ^ (B - 1 - Nat.log 2 n), k - (B - 1 - Nat.log 2 n : Nat), ?_, ?_, ?_⟩
    · push_cast
      rw [zpow_sub₀ two, zpow_natCast]
      field_simp
    · calc 2 ^ B = 2 * (2 ^ Nat.log 2 n * 2 ^ (B - 1 - Nat.log 2 n)) := by rw [← pow_add, ← pow_succ']; congr 1; omega
        _ ≤ _ := Nat.mul_le_mul_left _ (Nat.mul_le_mul_right _ l1)
    · calc n * 2 ^ (B - 1 - Nat.log 2 n) < 2 ^ (Nat.log 2 n + 1) * 2 ^ (B - 1 - Nat.log 2 n) := Nat.mul_lt_mul_of_pos_right l2 (by positivity)
        _ = 2 ^ B := by rw [← pow_add]; congr 1; omega
  obtain ⟨n, j, e, hn1, hn2⟩ := key
  rw [e] at h0 h ⊢
  have p : (0 : ℝ) < 2 ^ j := by positivity
  have hn2' : (n : ℝ) < 2 ^ B := by exact_mod_cast hn2
  have hn1' : (2 : ℝ) ^ B ≤ 2 * n := by exact_mod_cast hn1
  by_cases hj : j ≤ k'
  · obtain ⟨i, hi⟩ := Int.eq_ofNat_of_zero_le (sub_nonneg.2 hj)
    have e' : (m' : ℝ) * 2 ^ k' = ((m' * 2 ^ i : Int) : ℝ) * 2 ^ j := by
      push_cast
      rw [mul_assoc, ← zpow_natCast, ← zpow_add₀ two]
      congr 2
      omega
    rw [e'] at h ⊢
    have lt : ((n : Int) : ℝ) < ((m' * 2 ^ i : Int) : ℝ) := by
      push_cast at h ⊢
      exact lt_of_mul_lt_mul_right h p.le
    have lt' : ((n : Int) : ℝ) + 1 ≤ ((m' * 2 ^ i : Int) : ℝ) := by
      have := Int.add_one_le_iff.2 (by exact_mod_cast lt : (n : Int) < m' * 2 ^ i)
      exact_mod_cast this
    generalize ((m' * 2 ^ i : Int) : ℝ) = q at *
    simp only [Int.cast_natCast] at lt'
    rw [← sub_mul, ← mul_assoc]
    apply mul_lt_mul_of_pos_right _ p
    nlinarith [show (0 : ℝ) < 2 ^ B by positivity]
  · exfalso
    have : (m' : ℝ) * 2 ^ k' ≤ n * 2 ^ j := by
      have hm'' : (m' : ℝ) ≤ 2 ^ B := by
        have := (le_abs_self m').trans hm'.le
        exact_mod_cast this
      calc (m' : ℝ) * 2 ^ k' ≤ 2 ^ B * 2 ^ k' := mul_le_mul_of_nonneg_right hm'' (by positivity)
        _ ≤ (2 * n) * 2 ^ k' := mul_le_mul_of_nonneg_right hn1' (by positivity)
        _ = n * 2 ^ (k' + 1) := by rw [zpow_add₀ two, zpow_one]; ring
        _ ≤ n * 2 ^ j := mul_le_mul_of_nonneg_left (zpow_le_zpow_right₀ (by norm_num) (by omega)) (by positivity)
    linarith

theorem seventeen_pos {x x' : ℝ} (hx : Bits 53 x) (hx' : Bits 53 x') (h0 : 0 < x) (h : x < x') : text 17 x ≠ text 17 x' := by
  intro e
  obtain ⟨y, h1, h2, -⟩ := C118_number (P := 17) (by norm_num) h0.ne'
  obtain ⟨y', h1', h2', -⟩ := C118_number (P := 17) (by norm_num) (h0.trans h).ne'
  rw [e, h1'] at h1
  cases h1
  have g := bits_gap hx hx' h0 h
  unfold CloseTo at h2 h2'
  rw [abs_of_pos h0, abs_le] at h2
  rw [abs_of_pos (h0.trans h), abs_le] at h2'
  norm_num at h2 h2' g
  linarith [h2.1, h2.2, h2'.1, h2'.2]

/-- **C118** With 17 digits the text of a `double` would determine it. -/
theorem C118_seventeen {x x' : ℝ} (hx : Bits 53 x) (hx' : Bits 53 x') (h0 : x ≠ 0) (h0' : x' ≠ 0) (e : text 17 x = text 17 x') : x = x' := by
  have neg : ∀ {z}, Bits 53 z → Bits 53 (-z) := by
    rintro z ⟨m, k, hm, rfl⟩
    exact ⟨-m, k, by rwa [abs_neg], by push_cast; ring⟩
  have tneg : ∀ {z : ℝ}, z < 0 → text 17 z = '-' :: text 17 (-z) := by
    intro z hz
    unfold text
    rw [if_pos hz, if_neg (by linarith), abs_neg]
    rfl
  have pos : ∀ {z z' : ℝ}, Bits 53 z → Bits 53 z' → 0 < z → 0 < z' → text 17 z = text 17 z' → z = z' := by
    intro z z' hz hz' p p' e
    rcases lt_trichotomy z z' with h | h | h
    · exact absurd e (seventeen_pos hz hz' p h)
    · exact h
    · exact absurd e.symm (seventeen_pos hz' hz p' h)
  obtain ⟨y, h1, -, h2, h3⟩ := C118_number (P := 17) (by norm_num) h0
  obtain ⟨y', h1', -, h2', h3'⟩ := C118_number (P := 17) (by norm_num) h0'
  rw [e, h1'] at h1
  cases h1
  rcases lt_or_gt_of_ne h0 with h | h
  · have h' := h3'.1 (h3.2 h)
    rw [tneg h, tneg h'] at e
    have := pos (neg hx) (neg hx') (by linarith) (by linarith) (List.cons.inj e).2
    linarith
  · exact pos hx hx' h (h2'.1 (h2.2 h)) e

theorem log_one_ten {a : ℝ} (h1 : 1 ≤ a) (h2 : a < 10) : Int.log 10 a = 0 := by
  apply le_antisymm
  · by_contra h
    have := Int.zpow_log_le_self (b := 10) (R := ℝ) (by norm_num) (by linarith : 0 < a)
    have h' : ((10 : Nat) : ℝ) ^ (1 : Int) ≤ ((10 : Nat) : ℝ) ^ Int.log 10 a := zpow_le_zpow_right₀ (by norm_num) (by omega)
    norm_num at h'
    norm_num at this
    linarith
  · have := Int.log_mono_right (b := 10) (R := ℝ) one_pos h1
    rwa [Int.log_one_right] at this

theorem roundEven_eq {y : ℝ} {n : Int} (h1 : (n : ℝ) ≤ y) (h2 : y < n + 1 / 2) : roundEven y = n := by
  have f : ⌊y⌋ = n := by rw [Int.floor_eq_iff]; exact ⟨h1, by linarith⟩
  have := Int.floor_add_fract y
  rw [f] at this
  unfold roundEven
  rw [if_pos (by linarith), f]

theorem text_one {x : ℝ} (h1 : 1 ≤ x) (h2 : x < 1 + 1 / 2 / 10 ^ 15) : text vtkPrecision x = "1".toList := by
  have hx : |x| = x := abs_of_pos (by linarith)
  have sc : scientific 16 x = (10 ^ 15, 0) := by
    unfold scientific
    rw [log_one_ten h1 (by norm_num at h2 ⊢; linarith)]
    have : roundEven (x * 10 ^ (((16 : Nat) : Int) - 1 - 0)) = (10 ^ 15 : Int) := by
      norm_num at h2 ⊢
      apply roundEven_eq
      · push_cast; linarith
      · push_cast; linarith
    simp only [this]
    rw [if_neg (by decide)]
    rfl
  unfold text vtkPrecision
  rw [hx, sc, if_neg (by linarith)]
  decide

/-- **C118** is false for the 16 digits of the files: different numbers have the same text, for instance 1 and the next larger `double`. -/
theorem C118_false : ∃ x x' : ℝ, x ≠ x' ∧ Bits 53 x ∧ Bits 53 x' ∧ text vtkPrecision x = text vtkPrecision x' ∧ text vtkPrecision x = "1".toList := by
  refine ⟨1, 1 + 2⁻¹ ^ 52, by norm_num, ⟨1, 0, by norm_num, by norm_num⟩, ⟨2 ^ 52 + 1, -52, by norm_num, by norm_num⟩, ?_, ?_⟩
  · rw [text_one (le_refl 1) (by norm_num), text_one (by norm_num) (by norm_num)]
  · exact text_one (le_refl 1) (by norm_num)

-- the styles of `%g`: speed of light, a sixteenth, mass of the electron, rounding up to a power of ten; with the 6 digits of the console
example : general 16 (299792458 * 10 ^ 7) 8 = "299792458".toList ∧ general 16 (625 * 10 ^ 13) (-2) = "0.0625".toList ∧ general 16 (910938356 * 10 ^ 7) (-31) = "9.10938356e-31".toList ∧
    general 16 (10 ^ 15) 16 = "1e+16".toList ∧ general consolePrecision 299792 8 = "2.99792e+08".toList := by decide
-- numbers of the programs that are printed exactly, whatever is done with the digits
example : readNumber (text vtkPrecision 299792458) = some 299792458 := C118_exact (n := 299792458) (k := 0) (by decide) (by decide) (by decide) (by norm_num)
example : readNumber (text vtkPrecision (-(1 / 16))) = some (-(1 / 16)) := C118_exact (n := 625) (k := -4) (by decide) (by decide) (by decide) (by norm_num [abs_of_pos])
-- … and one that is not: the 6 digits of the console do not show the speed of light
example : ∃ y, readNumber (text consolePrecision 299792458) = some y ∧ |y - 299792458| ≤ 1499 := by
  obtain ⟨y, h1, h2, -⟩ := C118_number (P := 6) (by decide) (x := 299792458) (by norm_num)
  refine ⟨y, h1, ?_⟩
  unfold CloseTo at h2
  rw [abs_of_pos (a := (299792458 : ℝ)) (by norm_num)] at h2
  norm_num at h2
  linarith
-- numbers with different texts of 17 digits
example : text 17 1 ≠ text 17 (1 + 2⁻¹ ^ 52) := fun e => by
  have := C118_seventeen ⟨1, 0, by norm_num, by norm_num⟩ ⟨2 ^ 52 + 1, -52, by norm_num, by norm_num⟩ (by norm_num) (by norm_num) e
  norm_num at this

/-! ## Files -/

/-- Characters that do not end a word or a line, nor begin the announcement of a component. -/
def Plain (s : List Char) : Prop := ∀ c ∈ s, c ≠ ' ' ∧ c ≠ '\n' ∧ c ≠ 'S'

theorem Plain.append {s t : List Char} (h : Plain s) (h' : Plain t) : Plain (s ++ t) := fun c hc => (List.mem_append.1 hc).elim (h c) (h' c)
theorem Plain.cons {c : Char} {s : List Char} (hc : c ≠ ' ' ∧ c ≠ '\n' ∧ c ≠ 'S') (h : Plain s) : Plain (c :: s) := by
  intro d hd
  rcases List.mem_cons.1 hd with rfl | hd
  · exact hc
  · exact h d hd
theorem _root_.QK.Format.Digits.plain {s : List Char} (h : Digits s) : Plain s := by
  intro c hc
  have := h c hc
  refine ⟨?_, ?_, ?_⟩ <;> rintro rfl <;> cases this

theorem general_plain (P d : Nat) (X : Int) : Plain (general P d X) := by
  have hd := Digits.toDigits d
  have wp : ∀ {a b : List Char}, Digits a → Digits b → Plain (withPoint a b) := by
    intro a b ha hb
    unfold withPoint
    split_ifs
    · exact ha.plain
    · exact ha.plain.append (Plain.cons (by decide) hb.plain)
  unfold general
  simp only
  split_ifs
  · refine (wp (hd.take 1) (hd.drop 1).trim).append ?_
    unfold exponent
    refine Plain.cons (by decide) (Plain.cons (by split_ifs <;> decide) (Plain.append ?_ (Digits.toDigits _).plain))
    split_ifs
    · exact (Digits.zeros 1).plain
    · intro c hc; cases hc
  · exact wp (Digits.zeros 1) ((Digits.zeros _).append hd.trim)
  · exact wp (hd.take _) (hd.drop _).trim

theorem text_plain (P : Nat) (x : ℝ) : Plain (text P x) := by
  unfold text
  refine Plain.append ?_ (general_plain _ _ _)
  split_ifs
  · exact Plain.cons (by decide) (by intro c hc; cases hc)
  · intro c hc; cases hc

theorem intText_plain (i : Int) : Plain (intText i) := by
  unfold intText
  refine Plain.append ?_ (Digits.toDigits _).plain
  split_ifs
  · exact Plain.cons (by decide) (by intro c hc; cases hc)
  · intro c hc; cases hc

section
variable {α : Type} {P : Nat} {val : α → ℝ} {fin : α → Prop} {num : α → List Char}

theorem num_plain (H : Prints P val fin num) (a : α) : Plain (num a) ∧ num a ≠ [] := by
  by_cases hf : fin a
  · by_cases h0 : val a = 0
    · rcases H.zero a hf h0 with e | e <;> rw [e]
      · exact ⟨by unfold Plain; decide, by decide⟩
      · exact ⟨by unfold Plain; decide, by decide⟩
    · rw [H.finite a hf h0]
      refine ⟨text_plain _ _, ?_⟩
      obtain ⟨c, t, e, -⟩ := general_head P (scientific P |val a|).1 (scientific P |val a|).2
      unfold text
      rw [e]
      simp
  · have := H.other a hf
    simp only [List.mem_cons, List.not_mem_nil, or_false] at this
    rcases this with e | e | e | e <;> rw [e]
    · exact ⟨by unfold Plain; decide, by decide⟩
    · exact ⟨by unfold Plain; decide, by decide⟩
    · exact ⟨by unfold Plain; decide, by decide⟩
    · exact ⟨by unfold Plain; decide, by decide⟩

theorem num_reads (H : Prints P val fin num) (hP : 1 ≤ P) (a : α) : Reads P val fin a (readNumber (num a)) := by
  refine ⟨fun hf => ?_, fun hf => ?_⟩
  · by_cases h0 : val a = 0
    · refine ⟨0, ?_, by simp [CloseTo, h0]⟩
      rcases H.zero a hf h0 with e | e <;> rw [e]
      · rw [readNumber_pos (by decide)]
        have := readUnsigned_eq (a := ['0']) (b := []) (r := []) (k := 0) (Digits.zeros 1) (by simp) (by intro c hc; cases hc) (.inl rfl) rfl
        simpa [withPoint, digitsValue] using this
      · show (readUnsigned ['0']).map _ = _
        have := readUnsigned_eq (a := ['0']) (b := []) (r := []) (k := 0) (Digits.zeros 1) (by simp) (by intro c hc; cases hc) (.inl rfl) rfl
        rw [show ['0'] = withPoint ['0'] [] ++ [] from rfl, this]
        simp [digitsValue]
    · rw [H.finite a hf h0]
      obtain ⟨y, h1, h2, -⟩ := C118_number hP h0
      exact ⟨y, h1, h2⟩
  · have := H.other a hf
    have none_i : ∀ t, readUnsigned ('i' :: t) = none := fun t => by simp [readUnsigned]
    have none_n : ∀ t, readUnsigned ('n' :: t) = none := fun t => by simp [readUnsigned]
    simp only [List.mem_cons, List.not_mem_nil, or_false] at this
    rcases this with e | e | e | e <;> rw [e]
    · exact none_i ['n', 'f']
    · show (readUnsigned ['i', 'n', 'f']).map (fun x => -x) = _
      rw [none_i]; rfl
    · exact none_n ['a', 'n']
    · show (readUnsigned ['n', 'a', 'n']).map (fun x => -x) = _
      rw [none_n]; rfl

/-- Lines, each ended. -/
def unlines (c : Char) (ls : List (List Char)) : List Char := ls.flatMap (· ++ [c])

theorem splitOn_unlines {c : Char} : ∀ {ls : List (List Char)}, (∀ l ∈ ls, c ∉ l) → (unlines c ls).splitOn c = ls ++ [[]]
  | [], _ => by simp [unlines]
  | l :: ls, h => by
    have e : unlines c (l :: ls) = l ++ c :: unlines c ls := by simp [unlines]
    rw [e, List.splitOn_append_cons_self_of_not_mem (h l (by simp)), splitOn_unlines (fun l hl => h l (by simp [hl]))]
    rfl

/-- The line that announces a component. -/
def announce (name comp : String) : List Char := ("SCALARS " ++ name ++ "." ++ comp ++ " float 1").toList

/-- The lines of a block. -/
def blockLines (num : α → List Char) (b : String × String × List α) : List (List Char) :=
  [announce b.1 b.2.1, "LOOKUP_TABLE default".toList, unlines ' ' (b.2.2.map num)]

theorem block_text (num : α → List Char) (b : String × String × List α) : fileText num (scalarBlock b.1 b.2.1 b.2.2) = unlines '\n' (blockLines num b) := by
  have hv : ∀ vs : List α, (valueToks vs).flatMap (tokText num) = unlines ' ' (vs.map num) := by
    intro vs
    induction vs with
    | nil => rfl
    | cons v vs ih =>
      have e : valueToks (v :: vs) = [.num v, .text " "] ++ valueToks vs := rfl
      rw [e, List.flatMap_append, ih]
      simp [unlines, tokText]
  unfold fileText scalarBlock
  rw [List.flatMap_append, List.flatMap_append, hv]
  simp [unlines, blockLines, tokText, announce]

/-- The lines before the blocks. -/
def headLines (num : α → List Char) (n : Int × Int × Int) (o s : α × α × α) (N : Int) : List (List Char) :=
  ["# vtk DataFile Version 2.0".toList, "quikin output".toList, "ASCII".toList, "DATASET STRUCTURED_POINTS".toList,
   "DIMENSIONS ".toList ++ intText n.1 ++ [' '] ++ intText n.2.1 ++ [' '] ++ intText n.2.2,
   "ORIGIN ".toList ++ num o.1 ++ [' '] ++ num o.2.1 ++ [' '] ++ num o.2.2,
   "SPACING ".toList ++ num s.1 ++ [' '] ++ num s.2.1 ++ [' '] ++ num s.2.2,
   "CELL_DATA ".toList ++ intText N]

theorem file_text (num : α → List Char) (n : Int × Int × Int) (o s : α × α × α) (N : Int) (bs : List (String × String × List α)) :
    fileText num (vtkFile n o s N (bs.map fun b => scalarBlock b.1 b.2.1 b.2.2)) = unlines '\n' (headLines num n o s N ++ bs.flatMap (blockLines num)) := by
  have hb : fileText num (bs.map fun b => scalarBlock b.1 b.2.1 b.2.2).flatten = unlines '\n' (bs.flatMap (blockLines num)) := by
    induction bs with
    | nil => rfl
    | cons b bs ih =>
      have e : fileText num ((b :: bs).map fun b => scalarBlock b.1 b.2.1 b.2.2).flatten = fileText num (scalarBlock b.1 b.2.1 b.2.2) ++ fileText num (bs.map fun b => scalarBlock b.1 b.2.1 b.2.2).flatten := by
        simp [fileText]
      rw [e, ih, block_text]
      simp [unlines]
  have e : fileText num (vtkFile n o s N (bs.map fun b => scalarBlock b.1 b.2.1 b.2.2)) =
      fileText num ([.text "# vtk DataFile Version 2.0\n", .text "quikin output\n", .text "ASCII\n"] ++ geometry n o s ++ [.text "CELL_DATA ", .int N, .text "\n"]) ++
        fileText num (bs.map fun b => scalarBlock b.1 b.2.1 b.2.2).flatten := by
    simp [fileText, vtkFile]
  rw [e, hb]
  simp [unlines, headLines, fileText, geometry, tokText]

theorem head_lines (H : Prints P val fin num) (n : Int × Int × Int) (o s : α × α × α) (N : Int) : ∀ l ∈ headLines num n o s N, '\n' ∉ l ∧ l.take 2 ≠ ['S', 'C'] := by
  have hi : ∀ i, '\n' ∉ intText i := fun i h => (intText_plain i _ h).2.1 rfl
  have hn : ∀ a, '\n' ∉ num a := fun a h => ((num_plain H a).1 _ h).2.1 rfl
  intro l hl
  simp only [headLines, List.mem_cons, List.not_mem_nil, or_false] at hl
  rcases hl with rfl | rfl | rfl | rfl | rfl | rfl | rfl | rfl
  all_goals first
    | exact ⟨by decide, by decide⟩
    | exact ⟨by simp [hi, hn], by simp⟩

theorem announce_inj {a b a' b' : String} (h : announce a b = announce a' b') : a ++ "." ++ b = a' ++ "." ++ b' := by
  unfold announce at h
  simp only [String.toList_append, List.append_assoc] at h
  have h := List.append_cancel_left h
  rw [← List.append_assoc, ← List.append_assoc, ← List.append_assoc, ← List.append_assoc] at h
  have h := List.append_cancel_right h
  apply String.toList_inj.1
  simpa using h

/-- **C118**, what holds: a reader of a file finds the values of every component, in the order of the cells, up to 5·10⁻ᴾ of their size; where values are not finite, the reader notices.
Missing: the exact values. -/
theorem C118_partial (H : Prints P val fin num) (hP : 1 ≤ P) (n : Int × Int × Int) (o s : α × α × α) (N : Int) {bs : List (String × String × List α)} (hl : Labels (bs.map fun b => (b.1, b.2.1)))
    {b : String × String × List α} (hb : b ∈ bs) :
    ∃ rs, readBlock (fileText num (vtkFile n o s N (bs.map fun b => scalarBlock b.1 b.2.1 b.2.2))) b.1 b.2.1 = some rs ∧ List.Forall₂ (Reads P val fin) b.2.2 rs := by
  have hw : ∀ vs : List α, '\n' ∉ unlines ' ' (vs.map num) ∧ 'S' ∉ unlines ' ' (vs.map num) := by
    intro vs
    have : ∀ c ∈ unlines ' ' (vs.map num), c = ' ' ∨ (c ≠ '\n' ∧ c ≠ 'S') := by
      intro c hc
      simp only [unlines, List.mem_flatMap, List.mem_map, List.mem_append, List.mem_singleton] at hc
      obtain ⟨_, ⟨v, -, rfl⟩, hc | hc⟩ := hc
      · exact .inr ((num_plain H v).1 c hc).2
      · exact .inl hc
    exact ⟨fun h => by simpa using this _ h, fun h => by simpa using this _ h⟩
  have words : ∀ vs : List α, ((unlines ' ' (vs.map num)).splitOn ' ').filter (· ≠ []) = vs.map num := by
    intro vs
    rw [splitOn_unlines, List.filter_append]
    · rw [List.filter_eq_self.2]
      · simp
      · intro l hl
        obtain ⟨v, -, rfl⟩ := List.mem_map.1 hl
        simpa using (num_plain H v).2
    · intro l hl h
      obtain ⟨v, -, rfl⟩ := List.mem_map.1 hl
      exact ((num_plain H v).1 _ h).1 rfl
  have reads : ∀ vs : List α, List.Forall₂ (Reads P val fin) vs ((vs.map num).map readNumber) := by
    intro vs
    rw [List.map_map, List.forall₂_map_right_iff, List.forall₂_same]
    exact fun v _ => num_reads H hP v
  have nl : ∀ b ∈ bs, ∀ l ∈ blockLines num b, '\n' ∉ l := by
    intro b hb l h
    obtain ⟨l1, l2⟩ := hl.lines (b.1, b.2.1) (List.mem_map_of_mem hb)
    simp only [blockLines, List.mem_cons, List.not_mem_nil, or_false] at h
    rcases h with rfl | rfl | rfl
    · simp [announce, l1, l2]
    · decide
    · exact (hw _).1
  -- the block and what is before it
  obtain ⟨pre, post, rfl⟩ := List.append_of_mem hb
  have fresh : ∀ c ∈ pre, announce c.1 c.2.1 ≠ announce b.1 b.2.1 := by
    intro c hc e
    have nd := hl.nodup
    rw [List.map_map, List.map_append, List.map_cons, List.nodup_append] at nd
    exact nd.2.2 _ (List.mem_map_of_mem hc) _ (by simp) (announce_inj e)
  have skip : ∀ l ∈ headLines num n o s N ++ pre.flatMap (blockLines num), l ≠ announce b.1 b.2.1 := by
    intro l h e
    rcases List.mem_append.1 h with h | h
    · have := (head_lines H n o s N l h).2
      rw [e] at this
      exact this (by simp [announce])
    · obtain ⟨c, hc, h⟩ := List.mem_flatMap.1 h
      simp only [blockLines, List.mem_cons, List.not_mem_nil, or_false] at h
      rcases h with rfl | rfl | rfl
      · exact fresh c hc e
      · have := congrArg List.head? e
        simp [announce] at this
      · apply (hw c.2.2).2
        rw [e]
        simp [announce]
  rw [file_text]
  unfold readBlock
  rw [splitOn_unlines]
  · have e : headLines num n o s N ++ (pre ++ b :: post).flatMap (blockLines num) ++ [[]] =
        (headLines num n o s N ++ pre.flatMap (blockLines num)) ++ (announce b.1 b.2.1 :: "LOOKUP_TABLE default".toList :: unlines ' ' (b.2.2.map num) :: (post.flatMap (blockLines num) ++ [[]])) := by
      simp [blockLines]
    rw [e, List.dropWhile_append_of_pos]
    · rw [List.dropWhile_cons_of_neg (by simp [announce])]
      exact ⟨_, rfl, by rw [words]; exact reads _⟩
    · intro l h
      simpa [announce] using skip l h
  · intro l h
    rcases List.mem_append.1 h with h | h
    · exact (head_lines H n o s N l h).1
    · obtain ⟨c, hc, h⟩ := List.mem_flatMap.1 h
      exact nl c hc l h

/-- What a reader finds for component `k` of the variable `id` holding the field `u`. -/
def ReadsField (P : Nat) (val : α → ℝ) (fin : α → Prop) (M : Box) (s : List Char) (id : VarId) (u : Cell → α) : Prop :=
  ∀ k (hk : k < id.comps.length), ∃ rs, readBlock s id.name id.comps[k] = some rs ∧ List.Forall₂ (fun x r => Reads P val fin (u (x ++ [0, (k : Int)])) r) (vtkCells M) rs

/-- Names of the components of variables. -/
def labels (ids : List VarId) : List (String × String) := ids.flatMap fun id => id.comps.map fun c => (id.name, c)

/-- Blocks of several variables in the form of `C118_partial`. -/
def tagged (M : Box) (us : List (VarId × (Cell → α))) : List (String × String × List α) :=
  us.flatMap fun q => q.1.comps.zipIdx.map fun p => (q.1.name, p.1, (vtkCells M).map fun x => q.2 (x ++ [0, (p.2 : Int)]))

theorem tagged_blocks (M : Box) (us : List (VarId × (Cell → α))) : (tagged M us).map (fun b => scalarBlock b.1 b.2.1 b.2.2) = us.flatMap fun q => fieldBlocks M q.1 q.2 := by
  unfold tagged fieldBlocks
  rw [List.map_flatMap]
  simp [List.map_map, Function.comp_def]

theorem tagged_labels (M : Box) (us : List (VarId × (Cell → α))) : (tagged M us).map (fun b => (b.1, b.2.1)) = labels (us.map Prod.fst) := by
  unfold tagged labels
  rw [List.map_flatMap, List.flatMap_map]
  congr 1
  funext q
  rw [List.map_map]
  conv_rhs => rw [← List.zipIdx_map_fst 0 q.1.comps, List.map_map]
  rfl

/-- **C118** The same for variables: what a reader finds for every component of each of the variables in a file. -/
theorem C118_fields (H : Prints P val fin num) (hP : 1 ≤ P) (n : Int × Int × Int) (o sp : α × α × α) (N : Int) {M : Box} {us : List (VarId × (Cell → α))} (hl : Labels (labels (us.map Prod.fst)))
    {q : VarId × (Cell → α)} (hq : q ∈ us) : ReadsField P val fin M (fileText num (vtkFile n o sp N (us.flatMap fun q => fieldBlocks M q.1 q.2))) q.1 q.2 := by
  intro k hk
  rw [← tagged_blocks]
  rw [← tagged_labels M] at hl
  obtain ⟨rs, h1, h2⟩ := C118_partial H hP n o sp N hl (b := (q.1.name, q.1.comps[k], (vtkCells M).map fun x => q.2 (x ++ [0, (k : Int)]))) (by
    unfold tagged
    refine List.mem_flatMap.2 ⟨q, hq, List.mem_map.2 ⟨(q.1.comps[k], k), ?_, rfl⟩⟩
    rw [List.mem_zipIdx_iff_getElem?]
    simp [hk])
  exact ⟨rs, h1, by rwa [List.forall₂_map_left_iff] at h2⟩

/-- **C118** Reading the files of the plasma programs … -/
theorem C118_plasma (H : Prints P val fin num) (hP : 1 ≤ P) {M : Box} {Q : Plasma α} {s : State α} {file : List (Tok α)} (h : FileShows M Q s file) (hl : Labels (labels [Q.e.q, Q.i.q, Q.f.q])) :
    ReadsField P val fin M (fileText num file) Q.e.q s.e ∧ ReadsField P val fin M (fileText num file) Q.i.q s.i ∧ ReadsField P val fin M (fileText num file) Q.f.q s.f := by
  obtain ⟨o, sp, rfl⟩ := h
  have e : fieldBlocks M Q.e.q s.e ++ fieldBlocks M Q.i.q s.i ++ fieldBlocks M Q.f.q s.f = [(Q.e.q, s.e), (Q.i.q, s.i), (Q.f.q, s.f)].flatMap fun q => fieldBlocks M q.1 q.2 := by simp
  rw [e]
  exact ⟨C118_fields H hP _ o sp _ (us := [(Q.e.q, s.e), (Q.i.q, s.i), (Q.f.q, s.f)]) hl (q := (Q.e.q, s.e)) (by simp), C118_fields H hP _ o sp _ (us := [(Q.e.q, s.e), (Q.i.q, s.i), (Q.f.q, s.f)]) hl (q := (Q.i.q, s.i)) (by simp), C118_fields H hP _ o sp _ (us := [(Q.e.q, s.e), (Q.i.q, s.i), (Q.f.q, s.f)]) hl (q := (Q.f.q, s.f)) (by simp)⟩

/-- … and of those with one variable. -/
theorem C118_one (H : Prints P val fin num) (hP : 1 ≤ P) {M : Box} {id : VarId} {u : Cell → α} {file : List (Tok α)} (h : FileShowsOne M id u file) (hl : Labels (labels [id])) :
    ReadsField P val fin M (fileText num file) id u := by
  obtain ⟨o, sp, rfl⟩ := h
  have := C118_fields H hP (points M 0, points M 1, points M 2) o sp (boxVolume M) (M := M) (us := [(id, u)]) hl (q := (id, u)) (by simp)
  simpa using this

/-- **C118** The sum of the values read for a component is the sum of the values up to 5·10⁻ᴾ of the sum of their sizes. -/
theorem C118_sum {vs : List α} {rs : List (Option ℝ)} (h : List.Forall₂ (Reads P val fin) vs rs) (hf : ∀ v ∈ vs, fin v) :
    ∃ ys : List ℝ, rs = ys.map some ∧ |ys.sum - (vs.map val).sum| ≤ 5 * 10 ^ (-(P : Int)) * (vs.map fun v => |val v|).sum := by
  induction h with
  | nil => exact ⟨[], rfl, by simp⟩
  | @cons v r vs rs hr _ ih =>
    obtain ⟨ys, rfl, hs⟩ := ih fun v hv => hf v (by simp [hv])
    obtain ⟨y, rfl, hy⟩ := hr.1 (hf v (by simp))
    refine ⟨y :: ys, rfl, ?_⟩
    unfold CloseTo at hy
    simp only [List.map_cons, List.sum_cons]
    rw [show y + ys.sum - (val v + (vs.map val).sum) = (y - val v) + (ys.sum - (vs.map val).sum) by ring, mul_add]
    exact (abs_add_le _ _).trans (add_le_add hy hs)

end

/-- **C118** The program of main.cpp, with any numbers of cells, frames and steps, in any arithmetic: from the characters of file number `j` a reader gets the densities, momenta, energies and
fields of both fluids and the field after `j` frames, in all cells, with 16 digits. Missing: the exact values. -/
theorem C118_gem_partial {α : Type} [Arith α] {val : α → ℝ} {fin : α → Prop} {num : α → List Char} (H : Prints vtkPrecision val fin num) {nx : Int} (hnx : 2 ≤ nx) (numFrames numSteps : Nat) :
    ∃ (g : Rectilinear α) (Q : Plasma α) (s : Nat → State α) (file : Nat → List (Tok α)), GemPlasma Q ∧ g.rng.dims = [(0, nx), (0, 2 * nx)] ∧
      (∀ j < numFrames * numSteps, PlasmaStep Q g 1 [0] [1] (GemChallenge.timeDt GemConstants.make numFrames numSteps) (s j) (s (j + 1))) ∧
      (∃ m', GemChallenge.run true (fun _ => true) nx numFrames numSteps = .ok (.ok () ⟨m', (List.range (numFrames + 1)).map fun j => (j, file j)⟩)) ∧
      ∀ j ≤ numFrames, ReadsField 16 val fin g.rng.dims (fileText num (file j)) Q.e.q (s (j * numSteps)).e ∧
        ReadsField 16 val fin g.rng.dims (fileText num (file j)) Q.i.q (s (j * numSteps)).i ∧ ReadsField 16 val fin g.rng.dims (fileText num (file j)) Q.f.q (s (j * numSteps)).f := by
  obtain ⟨g, Q, m0, hQ, -, hd, -, -, -, s, file, -, hs, hf, hrun, -, -⟩ := C81_gem (α := α) hnx (fun _ => true) numFrames numSteps
  refine ⟨g, Q, s, file, hQ, hd, hs, hrun fun _ _ => rfl, fun j hj => C118_plasma H (by decide) (hf j hj) ?_⟩
  rw [hQ.electrons, hQ.ions, hQ.field]
  exact ⟨by decide, by decide⟩

/-- Printing of real numbers. -/
noncomputable def printReal (P : Nat) (x : ℝ) : List Char := if x = 0 then ['0'] else text P x

theorem printReal_prints (P : Nat) : Prints P (fun x : ℝ => x) (fun _ => True) (printReal P) where
  finite a _ h := by unfold printReal; rw [if_neg h]
  zero a _ h := .inl (by unfold printReal; rw [if_pos h])
  other a h := absurd trivial h

/-- **C118** is false for files: the files of different fields, in every cell and for every component, have the same characters. -/
theorem C118_files_false (M : Box) (id : VarId) : ∃ (u u' : Cell → ℝ) (file file' : List (Tok ℝ)), (∀ x, u x ≠ u' x ∧ Bits 53 (u x) ∧ Bits 53 (u' x)) ∧ FileShowsOne M id u file ∧ FileShowsOne M id u' file' ∧
    fileText (printReal vtkPrecision) file = fileText (printReal vtkPrecision) file' := by
  have p : ∀ x : ℝ, 1 ≤ x → x < 1 + 1 / 2 / 10 ^ 15 → printReal vtkPrecision x = "1".toList := by
    intro x h1 h2
    unfold printReal
    rw [if_neg (by linarith), text_one h1 h2]
  have p1 := p 1 (le_refl 1) (by norm_num)
  have p2 := p (1 + 2⁻¹ ^ 52) (by norm_num) (by norm_num)
  refine ⟨fun _ => 1, fun _ => 1 + 2⁻¹ ^ 52, _, _, fun x => ⟨by norm_num, ⟨1, 0, by norm_num, by norm_num⟩, ⟨2 ^ 52 + 1, -52, by norm_num, by norm_num⟩⟩, ⟨(0, 0, 0), (1, 1, 1), rfl⟩, ⟨(0, 0, 0), (1, 1, 1), rfl⟩, ?_⟩
  have e : ∀ u : Cell → ℝ, fieldBlocks M id u = (tagged M [(id, u)]).map (fun b => scalarBlock b.1 b.2.1 b.2.2) := by
    intro u; rw [tagged_blocks]; simp
  rw [e, e, file_text, file_text]
  congr 2
  simp only [tagged, List.flatMap_cons, List.flatMap_nil, List.append_nil, List.flatMap_map, blockLines, List.map_map, Function.comp_def, p1, p2]

end QK.Props
