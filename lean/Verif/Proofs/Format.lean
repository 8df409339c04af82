import Verif.Spec.Format
import Mathlib.Tactic.Linarith
import Mathlib.Tactic.Positivity
import Mathlib.Tactic.FieldSimp
import Mathlib.Tactic.NormNum
/- Lemmas about printed numbers. -/
namespace QK.Format
open Spec

theorem roundEven_near (y : ℝ) : |(roundEven y : ℝ) - y| ≤ 1 / 2 := by
  have h := Int.floor_add_fract y
  have h0 := Int.fract_nonneg y
  have h1 := Int.fract_lt_one y
  unfold roundEven
  rw [abs_le]
  split_ifs <;> push_cast <;> constructor <;> linarith

theorem roundEven_mono {y z : ℝ} (h : y ≤ z) : roundEven y ≤ roundEven z := by
  have hf := Int.floor_mono h
  rcases hf.lt_or_eq with hf | hf
  · have a : roundEven y ≤ ⌊y⌋ + 1 := by unfold roundEven; split_ifs <;> omega
    have b : ⌊z⌋ ≤ roundEven z := by unfold roundEven; split_ifs <;> omega
    omega
  · have : Int.fract y ≤ Int.fract z := by unfold Int.fract; rw [hf]; linarith
    unfold roundEven
    rw [hf]
    split_ifs <;> first | omega | linarith

theorem roundEven_int (n : Int) : roundEven n = n := by
  unfold roundEven
  rw [Int.fract_intCast, Int.floor_intCast, if_pos (by norm_num)]

/-- Digits and exponent of a positive number. -/
theorem scientific_spec {P : Nat} (hP : 1 ≤ P) {a : ℝ} (ha : 0 < a) :
    10 ^ (P - 1) ≤ (scientific P a).1 ∧ (scientific P a).1 < 10 ^ P ∧ |((scientific P a).1 : ℝ) * 10 ^ ((scientific P a).2 - ((P : Int) - 1)) - a| ≤ 1 / 2 * 10 ^ (Int.log 10 a - ((P : Int) - 1)) := by
  have h1 : (10 : ℝ) ^ Int.log 10 a ≤ a := by exact_mod_cast Int.zpow_log_le_self (b := 10) (by norm_num) ha
  have h2 : a < (10 : ℝ) ^ (Int.log 10 a + 1) := by exact_mod_cast Int.lt_zpow_succ_log_self (b := 10) (by norm_num) a
  have ten : (10 : ℝ) ≠ 0 := by norm_num
  unfold scientific
  simp only
  generalize Int.log 10 a = X at *
  set y := a * (10 : ℝ) ^ ((P : Int) - 1 - X) with hy
  have p0 : (0 : ℝ) < 10 ^ ((P : Int) - 1 - X) := by positivity
  have y1 : ((10 ^ (P - 1) : Int) : ℝ) ≤ y := by
    have := mul_le_mul_of_nonneg_right h1 p0.le
    rw [← zpow_add₀ ten, show X + ((P : Int) - 1 - X) = ((P - 1 : Nat) : Int) by omega, zpow_natCast] at this
    push_cast
    exact this
  have y2 : y ≤ ((10 ^ P : Int) : ℝ) := by
    have := mul_le_mul_of_nonneg_right h2.le p0.le
    rw [← zpow_add₀ ten, show X + 1 + ((P : Int) - 1 - X) = (P : Int) by omega, zpow_natCast] at this
    push_cast
    exact this
  have r1 := roundEven_mono y1
  have r2 := roundEven_mono y2
  rw [roundEven_int] at r1 r2
  have r0 := roundEven_near y
  generalize roundEven y = r at *
  have rp : (0 : Int) ≤ r := le_trans (by positivity) r1
  obtain ⟨d, rfl⟩ := Int.eq_ofNat_of_zero_le rp
  simp only [Int.toNat_natCast]
  have d1 : 10 ^ (P - 1) ≤ d := by exact_mod_cast r1
  have d2 : d ≤ 10 ^ P := by exact_mod_cast r2
  have q0 : (0 : ℝ) < 10 ^ (X - ((P : Int) - 1)) := by positivity
  have err : |(d : ℝ) * 10 ^ (X - ((P : Int) - 1)) - a| ≤ 1 / 2 * 10 ^ (X - ((P : Int) - 1)) := by
    have e : (d : ℝ) * 10 ^ (X - ((P : Int) - 1)) - a = ((d : ℝ) - y) * 10 ^ (X - ((P : Int) - 1)) := by
      rw [hy, sub_mul, mul_assoc, ← zpow_add₀ ten, show (P : Int) - 1 - X + (X - ((P : Int) - 1)) = 0 by omega, zpow_zero, mul_one]
    rw [e, abs_mul, abs_of_pos q0]
    exact mul_le_mul_of_nonneg_right (by exact_mod_cast r0) q0.le
  split_ifs with hd
  · refine ⟨le_refl _, ?_, ?_⟩
    · exact Nat.pow_lt_pow_right (by norm_num) (by omega)
    · rw [hd] at err
      convert err using 3
      push_cast
      rw [← zpow_natCast, ← zpow_natCast, ← zpow_add₀ ten, ← zpow_add₀ ten]
      congr 1
      omega
  · exact ⟨d1, lt_of_le_of_ne d2 hd, err⟩

/-! ## Reading -/

theorem digitsValue_eq (s : List Char) : digitsValue s = Nat.ofDigitChars 10 s 0 := by
  rw [Nat.ofDigitChars_eq_foldl]; rfl

theorem digitsValue_append (a b : List Char) : digitsValue (a ++ b) = 10 ^ b.length * digitsValue a + digitsValue b := by
  rw [digitsValue_eq, digitsValue_eq, digitsValue_eq, Nat.ofDigitChars_append, Nat.ofDigitChars_eq_ofDigitChars_zero]

theorem digitsValue_toDigits (n : Nat) : digitsValue (Nat.toDigits 10 n) = n := by
  rw [digitsValue_eq, Nat.ofDigitChars_ten_toDigits]

theorem digitsValue_zeros (n : Nat) : digitsValue (List.replicate n '0') = 0 := by
  rw [digitsValue_eq, Nat.ofDigitChars_replicate_zero]; simp

theorem trim_spec (s : List Char) : ∃ k, s = trim s ++ List.replicate k '0' := by
  unfold trim
  have h := List.takeWhile_append_dropWhile (p := fun c : Char => decide (c = '0')) (l := s.reverse)
  refine ⟨(s.reverse.takeWhile fun c : Char => decide (c = '0')).length, ?_⟩
  have e : s.reverse.takeWhile (fun c : Char => decide (c = '0')) = List.replicate (s.reverse.takeWhile fun c : Char => decide (c = '0')).length '0' := by
    rw [List.eq_replicate_iff]
    refine ⟨rfl, fun b hb => ?_⟩
    have := List.all_takeWhile (p := fun c : Char => decide (c = '0')) (l := s.reverse)
    simpa using List.all_eq_true.1 this b hb
  calc s = s.reverse.reverse := by simp
    _ = _ := by
      conv_lhs => rw [← h, List.reverse_append, e, List.reverse_replicate]

/-- Digits without trailing zeros after the point have the same value. -/
theorem trim_value (a b : List Char) : (digitsValue (a ++ trim b) : ℝ) * 10 ^ (-((trim b).length : Int)) = digitsValue (a ++ b) * 10 ^ (-(b.length : Int)) := by
  obtain ⟨k, hk⟩ := trim_spec b
  generalize trim b = t at *
  subst hk
  rw [← List.append_assoc, digitsValue_append (a ++ t), digitsValue_zeros]
  simp only [List.length_append, List.length_replicate]
  push_cast
  rw [neg_add, zpow_add₀ (by norm_num), zpow_neg, zpow_neg, zpow_natCast, zpow_natCast]
  field_simp
  ring

def Digits (s : List Char) : Prop := ∀ c ∈ s, c.isDigit = true

theorem Digits.toDigits (n : Nat) : Digits (Nat.toDigits 10 n) := fun _ hc => Nat.isDigit_of_mem_toDigits (by norm_num) (by norm_num) hc
theorem Digits.take {s : List Char} (h : Digits s) (n : Nat) : Digits (s.take n) := fun _ hc => h _ (List.mem_of_mem_take hc)
theorem Digits.drop {s : List Char} (h : Digits s) (n : Nat) : Digits (s.drop n) := fun _ hc => h _ (List.mem_of_mem_drop hc)
theorem Digits.append {s t : List Char} (h : Digits s) (h' : Digits t) : Digits (s ++ t) := fun c hc => (List.mem_append.1 hc).elim (h c) (h' c)
theorem Digits.trim {s : List Char} (h : Digits s) : Digits (trim s) := by
  obtain ⟨k, hk⟩ := trim_spec s
  intro c hc
  exact h c (by rw [hk]; exact List.mem_append_left _ hc)
theorem Digits.zeros (n : Nat) : Digits (List.replicate n '0') := by
  intro c hc
  rw [List.eq_of_mem_replicate hc]; rfl

theorem takeWhile_digits {a r : List Char} (ha : Digits a) (hr : ∀ c t, r = c :: t → c.isDigit = false) : (a ++ r).takeWhile Char.isDigit = a ∧ (a ++ r).dropWhile Char.isDigit = r := by
  rw [List.takeWhile_append_of_pos ha, List.dropWhile_append_of_pos ha]
  cases r with
  | nil => simp
  | cons c t => simp [hr c t rfl]

theorem readUnsigned_eq {a b r : List Char} {k : Int} (ha : Digits a) (h0 : a ≠ []) (hb : Digits b) (hr : r = [] ∨ ∃ t, r = 'e' :: t) (hk : readExponent r = some k) :
    readUnsigned (withPoint a b ++ r) = some ((digitsValue (a ++ b) : ℝ) * 10 ^ (k - (b.length : Int))) := by
  have nr : ∀ c t, r = c :: t → c.isDigit = false := by
    rintro c t rfl
    rcases hr with hr | ⟨t, hr⟩
    · cases hr
    · cases hr; rfl
  unfold withPoint
  split_ifs with hb0
  · subst hb0
    obtain ⟨e1, e2⟩ := takeWhile_digits ha nr
    unfold readUnsigned
    simp only [e1, e2, if_neg h0]
    rcases hr with rfl | ⟨t, rfl⟩ <;> simp [hk]
  · rw [List.append_assoc, List.cons_append]
    obtain ⟨e1, e2⟩ := takeWhile_digits (r := '.' :: (b ++ r)) ha (by rintro c t h; cases h; rfl)
    obtain ⟨e3, e4⟩ := takeWhile_digits hb nr
    unfold readUnsigned
    simp only [e1, e2, if_neg h0, e3, e4, hk, Option.map_some]

theorem exponent_read (X : Int) : readExponent (exponent X) = some X := by
  have hd : Digits ((if X.natAbs < 10 then ['0'] else []) ++ Nat.toDigits 10 X.natAbs) := by
    refine Digits.append ?_ (Digits.toDigits _)
    split_ifs
    · exact Digits.zeros 1
    · intro c hc; cases hc
  have hv : digitsValue ((if X.natAbs < 10 then ['0'] else []) ++ Nat.toDigits 10 X.natAbs) = X.natAbs := by
    rw [digitsValue_append, digitsValue_toDigits]
    split_ifs <;> simp [digitsValue]
  have hn : (if X.natAbs < 10 then ['0'] else []) ++ Nat.toDigits 10 X.natAbs ≠ [] := by
    intro h
    exact Nat.toDigits_ne_nil (List.append_eq_nil_iff.1 h).2
  unfold exponent
  generalize (if X.natAbs < 10 then ['0'] else []) ++ Nat.toDigits 10 X.natAbs = t at *
  have ha : t.all Char.isDigit = true := List.all_eq_true.2 hd
  by_cases h : X < 0
  · simp only [h, if_true, readExponent, ha, hn, ne_eq, not_false_eq_true, and_self, hv, Option.some.injEq]; omega
  · simp only [h, if_false, readExponent, ha, hn, ne_eq, not_false_eq_true, and_self, if_true, hv, Option.some.injEq]; omega

theorem toDigits_length_eq {P d : Nat} (hP : 1 ≤ P) (h1 : 10 ^ (P - 1) ≤ d) (h2 : d < 10 ^ P) : (Nat.toDigits 10 d).length = P := by
  apply le_antisymm
  · exact (Nat.length_toDigits_le_iff (by norm_num) hP).2 h2
  · by_contra h
    have pos := Nat.length_toDigits_pos (b := 10) (n := d)
    have := (Nat.length_toDigits_le_iff (b := 10) (n := d) (k := P - 1) (by norm_num) (by omega)).1 (by omega)
    omega

theorem general_read {P d : Nat} (hP : 1 ≤ P) (h1 : 10 ^ (P - 1) ≤ d) (h2 : d < 10 ^ P) (X : Int) : readUnsigned (general P d X) = some ((d : ℝ) * 10 ^ (X - ((P : Int) - 1))) := by
  have hl := toDigits_length_eq hP h1 h2
  have hd := Digits.toDigits d
  have hv := digitsValue_toDigits d
  have hn : Nat.toDigits 10 d ≠ [] := Nat.toDigits_ne_nil
  have ten : (10 : ℝ) ≠ 0 := by norm_num
  unfold general
  simp only
  generalize Nat.toDigits 10 d = ds at *
  have split : ∀ n : Nat, n ≤ P → ∀ k : Int, k - (P - n : Nat) = X - ((P : Int) - 1) → (digitsValue (ds.take n ++ trim (ds.drop n)) : ℝ) * 10 ^ (k - ((trim (ds.drop n)).length : Int)) = d * 10 ^ (X - ((P : Int) - 1)) := by
    intro n hn k hk
    have := trim_value (ds.take n) (ds.drop n)
    rw [List.take_append_drop, hv, List.length_drop, hl] at this
    rw [sub_eq_add_neg, add_comm, zpow_add₀ ten, ← mul_assoc, this, mul_assoc, ← zpow_add₀ ten, ← hk]
    congr 2
    omega
  split_ifs with c1 c2
  · rw [readUnsigned_eq (r := exponent X) (hd.take 1) (by simpa using hn) (hd.drop 1).trim (.inr ⟨_, rfl⟩) (exponent_read X), split 1 hP X (by omega)]
  · have := readUnsigned_eq (a := ['0']) (b := List.replicate (-X - 1).toNat '0' ++ trim ds) (r := []) (Digits.zeros 1) (by simp) ((Digits.zeros _).append hd.trim) (.inl rfl) (k := 0) rfl
    rw [List.append_nil] at this
    rw [this]
    congr 1
    have e := trim_value [] ds
    rw [List.nil_append, List.nil_append, hv, hl] at e
    rw [← List.append_assoc, digitsValue_append, show ['0'] ++ List.replicate (-X - 1).toNat '0' = List.replicate ((-X - 1).toNat + 1) '0' by rw [List.replicate_succ]; rfl, digitsValue_zeros]
    simp only [mul_zero, zero_add, List.length_append, List.length_replicate]
    rw [show (0 : Int) - (((-X - 1).toNat + (trim ds).length : Nat) : Int) = -((trim ds).length : Int) + (X + 1) by push_cast; omega, zpow_add₀ ten, ← mul_assoc, e, mul_assoc, ← zpow_add₀ ten]
    congr 2
    omega
  · have := readUnsigned_eq (r := []) (hd.take (X + 1).toNat) (by rw [ne_eq, List.take_eq_nil_iff]; rintro (h | h) <;> [omega; exact hn h]) (hd.drop (X + 1).toNat).trim (.inl rfl) (k := 0) rfl
    rw [List.append_nil] at this
    rw [this, split (X + 1).toNat (by omega) 0 (by omega)]

theorem general_head (P d : Nat) (X : Int) : ∃ c t, general P d X = c :: t ∧ c.isDigit = true := by
  have hd := Digits.toDigits d
  have hn : Nat.toDigits 10 d ≠ [] := Nat.toDigits_ne_nil
  unfold general
  simp only
  generalize Nat.toDigits 10 d = ds at *
  cases ds with
  | nil => exact absurd rfl hn
  | cons c t =>
    have hc := hd c (by simp)
    split_ifs with c1 c2
    · unfold withPoint; split_ifs <;> exact ⟨c, _, rfl, hc⟩
    · unfold withPoint; split_ifs <;> exact ⟨'0', _, rfl, rfl⟩
    · have : (X + 1).toNat = X.toNat + 1 := by omega
      rw [this]
      unfold withPoint; split_ifs <;> exact ⟨c, _, rfl, hc⟩

theorem readNumber_pos {c : Char} {t : List Char} (h : c.isDigit = true) : readNumber (c :: t) = readUnsigned (c :: t) := by
  unfold readNumber
  split
  · next h' => cases h'; cases h
  · rfl

/-- The number read from the text of `x`. -/
theorem text_read {P : Nat} (hP : 1 ≤ P) {x : ℝ} (hx : x ≠ 0) :
    readNumber (text P x) = some ((if x < 0 then -1 else 1) * (((scientific P |x|).1 : ℝ) * 10 ^ ((scientific P |x|).2 - ((P : Int) - 1)))) := by
  obtain ⟨h1, h2, -⟩ := scientific_spec hP (abs_pos.2 hx)
  unfold text
  generalize scientific P |x| = q at *
  have := general_read hP h1 h2 q.2
  split_ifs with h
  · show (readUnsigned (general P q.1 q.2)).map _ = _
    rw [this]; simp
  · obtain ⟨c, t, e, hc⟩ := general_head P q.1 q.2
    rw [List.nil_append, e, readNumber_pos hc, ← e, this, one_mul]

end QK.Format
