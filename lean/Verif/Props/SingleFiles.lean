import Verif.Spec.Single
import Verif.Props.Format
import Verif.Props.FloatPieces
/-
C141: the files announce their numbers as `float` (variable.cpp:46), though they have 16 digits.
-/
namespace QK.Props
open QK Spec Format

/-- There is a number of binary32 within `x / 2^24`. -/
private theorem single_near {x : ℝ} (h : 1 / 2 ^ 126 ≤ x) (h' : x < 2 ^ 127) : ∃ b, Single b ∧ |b - x| ≤ x / 2 ^ 24 := by
  have q0 : 0 < x := lt_of_lt_of_le (by positivity) h
  obtain ⟨k, hk⟩ : ∃ k, k = Int.log 2 x := ⟨_, rfl⟩
  have lo : (2 : ℝ) ^ k ≤ x := by have := Int.zpow_log_le_self (b := 2) (r := x) (by norm_num) q0; rw [hk]; exact_mod_cast this
  have up : x < (2 : ℝ) ^ (k + 1) := by have := Int.lt_zpow_succ_log_self (b := 2) (by norm_num) x; rw [hk]; exact_mod_cast this
  have k1 : k < 127 := by
    by_contra c
    have : (2 : ℝ) ^ (127 : ℤ) ≤ 2 ^ k := zpow_le_zpow_right₀ (by norm_num) (by omega)
    have e : (2 : ℝ) ^ (127 : ℤ) = 2 ^ 127 := by norm_cast
    rw [e] at this
    exact absurd (this.trans lo) (not_le.2 h')
  have k2 : -126 ≤ k := by
    by_contra c
    have : (2 : ℝ) ^ (k + 1) ≤ 2 ^ (-126 : ℤ) := zpow_le_zpow_right₀ (by norm_num) (by omega)
    have e : (2 : ℝ) ^ (-126 : ℤ) = 1 / 2 ^ 126 := by rw [zpow_neg]; norm_num
    have up := lt_of_lt_of_le up this
    rw [e] at up
    exact absurd h (not_le.2 up)
  have s0 : (0 : ℝ) < 2 ^ (k - 23) := zpow_pos (by norm_num) _
  have sk : (2 : ℝ) ^ k = 2 ^ 23 * 2 ^ (k - 23) := by rw [← zpow_natCast, ← zpow_add₀ (by norm_num)]; congr 1; push_cast; ring
  have sk1 : (2 : ℝ) ^ (k + 1) = 2 ^ 24 * 2 ^ (k - 23) := by rw [← zpow_natCast, ← zpow_add₀ (by norm_num)]; congr 1; push_cast; ring
  obtain ⟨m, hm⟩ : ∃ m, m = round (x / 2 ^ (k - 23)) := ⟨_, rfl⟩
  have near : |x / 2 ^ (k - 23) - m| ≤ 1 / 2 := by rw [hm]; exact abs_sub_round _
  have y1 : (2 : ℝ) ^ 23 ≤ x / 2 ^ (k - 23) := by rw [le_div_iff₀ s0]; linarith
  have y2 : x / 2 ^ (k - 23) < (2 : ℝ) ^ 24 := by rw [div_lt_iff₀ s0]; linarith
  have n1 := abs_le.1 near
  have m0 : 0 < m := by
    have : (0 : ℝ) < m := by norm_num at y1; linarith [n1.2]
    exact_mod_cast this
  have m1 : m ≤ 2 ^ 24 := by
    have : (m : ℝ) < 2 ^ 24 + 1 := by linarith [n1.1]
    have : m < 2 ^ 24 + 1 := by exact_mod_cast this
    omega
  refine ⟨m * 2 ^ (k - 23), ⟨m * 2 ^ (k - 23), ?_, by push_cast; rfl⟩, ?_⟩
  · rcases lt_or_eq_of_le m1 with h | h
    · exact ⟨m, k - 23, by rw [abs_of_pos m0]; exact h, by omega, by omega, rfl⟩
    · refine ⟨2 ^ 23, k - 22, by norm_num, by omega, by omega, ?_⟩
      rw [h, show k - 22 = (k - 23) + 1 by ring, zpow_add₀ (by norm_num)]
      push_cast; ring
  · have e : m * 2 ^ (k - 23) - x = -(x / 2 ^ (k - 23) - m) * 2 ^ (k - 23) := by field_simp; ring
    rw [e, abs_mul, abs_neg, abs_of_pos s0]
    have : |x / 2 ^ (k - 23) - m| * 2 ^ (k - 23) ≤ 1 / 2 * 2 ^ (k - 23) := mul_le_mul_of_nonneg_right near s0.le
    rw [le_div_iff₀ (by norm_num)]
    norm_num at sk this ⊢
    linarith

private theorem single_neg {b : ℝ} (h : Single b) : Single (-b) := by
  obtain ⟨q, ⟨m, e, h1, h2, h3, rfl⟩, rfl⟩ := h
  exact ⟨-(m * 2 ^ e), ⟨-m, e, by rwa [abs_neg], h2, h3, by push_cast; ring⟩, by push_cast; ring⟩

/-- Rounding to `float` changes a number by at most `2^-24` of its size. -/
private theorem single_err {rd : ℝ → ℝ} (h : NearestSingle rd) {y : ℝ} (h1 : 1 / 2 ^ 126 ≤ |y|) (h2 : |y| < 2 ^ 127) : |rd y - y| ≤ |y| / 2 ^ 24 := by
  obtain ⟨b, hb, hb'⟩ := single_near h1 h2
  rcases abs_cases y with ⟨e, _⟩ | ⟨e, _⟩ <;> rw [e] at hb' ⊢
  · exact ((h y h2).2 b hb).trans hb'
  · refine ((h y h2).2 (-b) (single_neg hb)).trans ?_
    rwa [show -b - y = -(b - -y) by ring, abs_neg]

/-- The numbers that are neither zero in `float` nor, nearly, too large for it. -/
def SingleRange (x : ℝ) : Prop := x = 0 ∨ 1 / 2 ^ 125 ≤ |x| ∧ |x| ≤ 2 ^ 126

/-- What a reader in `float` gets for a number printed with 16 digits. -/
private theorem single_close {rd : ℝ → ℝ} (h : NearestSingle rd) {x y : ℝ} (hx : SingleRange x) (hy : Spec.CloseTo 16 x y) : |rd y - x| ≤ (1 + 1 / 10 ^ 8) / 2 ^ 24 * |x| := by
  have e : (5 : ℝ) * 10 ^ (-((16 : Nat) : Int)) = 5 / 10 ^ 16 := by rw [zpow_neg]; norm_num
  unfold Spec.CloseTo at hy
  rw [e] at hy
  rcases hx with rfl | ⟨hx1, hx2⟩
  · rw [abs_zero, mul_zero] at hy ⊢
    have : y = 0 := by have := abs_nonpos_iff.1 hy; linarith
    rw [this, sub_zero]
    have := (h 0 (by simp)).2 0 ⟨0, ⟨0, 0, by norm_num, by norm_num, by norm_num, by norm_num⟩, by norm_num⟩
    simpa using this
  · have t1 : |y| ≤ |x| + |y - x| := by have := abs_add_le x (y - x); rwa [add_sub_cancel] at this
    have t2 : |x| ≤ |y| + |y - x| := by have := abs_add_le y (x - y); rwa [add_sub_cancel, abs_sub_comm x y] at this
    have x0 : 0 ≤ |x| := abs_nonneg x
    have b := single_err h (y := y) (by
      have e : (1 : ℝ) / 2 ^ 126 = 1 / 2 ^ 125 / 2 := by norm_num
      rw [e]; linarith) (by
      have e : (2 : ℝ) ^ 127 = 2 * 2 ^ 126 := by norm_num
      have p : (0 : ℝ) < 2 ^ 126 := by positivity
      rw [e]; linarith)
    have t3 : |rd y - x| ≤ |rd y - y| + |y - x| := by have := abs_add_le (rd y - y) (y - x); rwa [sub_add_sub_cancel] at this
    norm_num at b t1 hy ⊢
    linarith

/-- **C141**, what holds: a reader that keeps to the type the files announce finds every value up to 6·10⁻⁸ of its size. Missing: the other 9 of the 16 digits. -/
theorem C141_partial {α : Type} {val : α → ℝ} {fin : α → Prop} {M : Box} {s : List Char} {id : VarId} {u : Cell → α} {rd : ℝ → ℝ} (hr : NearestSingle rd) (h : ReadsField vtkPrecision val fin M s id u)
    {k : Nat} (hk : k < id.comps.length) (hf : ∀ x ∈ vtkCells M, fin (u (x ++ [0, (k : Int)])) ∧ SingleRange (val (u (x ++ [0, (k : Int)])))) :
    ∃ rs, readSingles rd s id.name id.comps[k] = some rs ∧
      List.Forall₂ (fun x r => ∃ z, r = some z ∧ |z - val (u (x ++ [0, (k : Int)]))| ≤ (1 + 1 / 10 ^ 8) / 2 ^ 24 * |val (u (x ++ [0, (k : Int)]))|) (vtkCells M) rs := by
  obtain ⟨rs, h1, h2⟩ := h k hk
  refine ⟨_, by rw [readSingles, h1]; rfl, ?_⟩
  rw [List.forall₂_map_right_iff]
  refine List.forall₂_iff_get.2 ⟨h2.length_eq, fun i a b => ?_⟩
  have R := (List.forall₂_iff_get.1 h2).2 i a b
  obtain ⟨f, g⟩ := hf _ (List.get_mem _ ⟨i, a⟩)
  obtain ⟨y, e, c⟩ := R.1 f
  exact ⟨rd y, by rw [e]; rfl, single_close hr g c⟩

/-- Numbers next to 2^25 become 2^25. -/
private theorem single_lost {rd : ℝ → ℝ} (h : NearestSingle rd) {y : ℝ} (h1 : 2 ^ 25 - 1 / 2 ≤ y) (h2 : y ≤ 2 ^ 25 + 3 / 2) : rd y = 2 ^ 25 := by
  have b25 : Single (2 ^ 25) := ⟨2 ^ 25, ⟨1, 25, by norm_num, by norm_num, by norm_num, by norm_num⟩, by norm_num⟩
  obtain ⟨⟨q, hb, hq⟩, hc⟩ := h y (by rw [abs_of_pos (by norm_num at h1 ⊢; linarith)]; norm_num at h2 ⊢; linarith)
  have c : |rd y - y| ≤ 3 / 2 := (hc _ b25).trans (abs_le.2 ⟨by linarith, by linarith⟩)
  have c := abs_le.1 c
  rcases lt_or_ge q (2 ^ 25) with hlt | hge
  · -- below 2^25 the numbers are multiples of two
    have ql : (2 : ℚ) ^ (24 + 0) ≤ q := by
      have : (2 : ℝ) ^ 24 ≤ rd y := by norm_num at h1 c ⊢; linarith [c.1]
      rw [hq] at this
      exact_mod_cast this
    obtain ⟨z, hz⟩ := large32 hb 0 ql
    have near := hc _ b25
    rw [hq, hz] at near
    rw [hz] at hlt
    have z1 : z * 2 < 2 ^ 25 := by
      have : (z : ℚ) * 2 < 2 ^ 25 := by simpa using hlt
      exact_mod_cast this
    have z2 : (z : ℝ) * 2 ≤ 2 ^ 25 - 2 := by
      have : z * 2 ≤ 2 ^ 25 - 2 := by omega
      exact_mod_cast this
    push_cast at near
    rw [abs_of_nonpos (by norm_num at z2 h1 ⊢; linarith)] at near
    rcases abs_cases ((2 : ℝ) ^ 25 - y) with ⟨e, _⟩ | ⟨e, _⟩ <;> rw [e] at near <;> norm_num at near z2 h1 ⊢ <;> linarith
  · obtain ⟨z, hz⟩ := large32 hb 1 (by simpa using hge)
    rw [hz] at hge
    have z1 : 2 ^ 25 ≤ z * 4 := by
      have : (2 ^ 25 : ℚ) ≤ z * 4 := by norm_num at hge ⊢; linarith
      exact_mod_cast this
    have z2 : z * 4 < 2 ^ 25 + 4 := by
      have : (z : ℝ) * 4 ≤ 2 ^ 25 + 3 := by
        have e : rd y = z * 4 := by rw [hq, hz]; push_cast; norm_num
        rw [← e]; linarith [c.2]
      have : z * 4 ≤ 2 ^ 25 + 3 := by exact_mod_cast this
      omega
    obtain rfl : z = 2 ^ 23 := by omega
    rw [hq, hz]; norm_num

/-- **C141** is false: the files of fields that differ by 1 in every cell, and that have different digits in the files, give a reader that keeps to the announced type the same numbers. -/
theorem C141_false (M : Box) (id : VarId) (hl : Labels (labels [id])) : ∃ (u u' : Cell → ℝ) (file file' : List (Tok ℝ)), (∀ x, u' x = u x + 1 ∧ Bits 53 (u x) ∧ Bits 53 (u' x)) ∧
    FileShowsOne M id u file ∧ FileShowsOne M id u' file' ∧ (∀ x, readNumber (printReal vtkPrecision (u x)) = some (u x) ∧ readNumber (printReal vtkPrecision (u' x)) = some (u' x)) ∧
    ∀ rd, NearestSingle rd → ∀ k (hk : k < id.comps.length), readSingles rd (fileText (printReal vtkPrecision) file) id.name id.comps[k] = some ((vtkCells M).map fun _ => some (2 ^ 25)) ∧
      readSingles rd (fileText (printReal vtkPrecision) file') id.name id.comps[k] = some ((vtkCells M).map fun _ => some (2 ^ 25)) := by
  have F : ∀ v : ℝ, FileShowsOne M id (fun _ => v) (vtkFile (points M 0, points M 1, points M 2) (0, 0, 0) (1, 1, 1) (boxVolume M) (fieldBlocks M id fun _ => v)) := fun v => ⟨(0, 0, 0), (1, 1, 1), rfl⟩
  refine ⟨fun _ => 2 ^ 25, fun _ => 2 ^ 25 + 1, _, _, fun x => ⟨by simp only, ⟨1, 25, by norm_num, by norm_num⟩, ⟨33554433, 0, by norm_num, by norm_num⟩⟩, F _, F _, fun x => ⟨?_, ?_⟩, ?_⟩
  · unfold printReal
    rw [if_neg (by norm_num)]
    exact C118_exact (n := 33554432) (k := 0) (by decide) (by norm_num) (by norm_num [vtkPrecision]) (by norm_num)
  · unfold printReal
    rw [if_neg (by norm_num)]
    exact C118_exact (n := 33554433) (k := 0) (by decide) (by norm_num) (by norm_num [vtkPrecision]) (by norm_num)
  · intro rd hr k hk
    have key : ∀ v : ℝ, 2 ^ 25 ≤ v → v ≤ 2 ^ 25 + 1 → readSingles rd (fileText (printReal vtkPrecision) (vtkFile (points M 0, points M 1, points M 2) (0, 0, 0) (1, 1, 1) (boxVolume M) (fieldBlocks M id fun _ => v)))
        id.name id.comps[k] = some ((vtkCells M).map fun _ => some (2 ^ 25)) := by
      intro v v1 v2
      obtain ⟨rs, h1, h2⟩ := C118_one (printReal_prints vtkPrecision) (by decide) (F v) hl k hk
      rw [readSingles, h1]
      refine congrArg some (List.ext_get (by simp [h2.length_eq]) fun i a b => ?_)
      obtain ⟨y, e, c⟩ := ((List.forall₂_iff_get.1 h2).2 i (by simpa using b) (by simpa using a)).1 trivial
      have e' : (5 : ℝ) * 10 ^ (-((vtkPrecision : Nat) : Int)) = 5 / 10 ^ 16 := by rw [zpow_neg]; norm_num [vtkPrecision]
      have c : |y - v| ≤ 5 / 10 ^ 16 * |v| := by rw [← e']; exact c
      rw [abs_of_pos (a := v) (by linarith [show (0 : ℝ) < 2 ^ 25 by norm_num])] at c
      have c := abs_le.1 c
      norm_num at c v1 v2
      simp only [List.get_eq_getElem, List.getElem_map] at e ⊢
      rw [e, Option.map_some, single_lost hr (by norm_num; linarith [c.1]) (by norm_num; linarith [c.2])]
    exact ⟨key _ le_rfl (by norm_num), key _ (by norm_num) le_rfl⟩

/-- **C141** Numbers of 2^128 and more have no place in the type that the files announce. -/
theorem C141_large {b : ℝ} (h : Single b) : |b| < 2 ^ 128 := by
  obtain ⟨q, ⟨m, e, h1, h2, h3, rfl⟩, rfl⟩ := h
  push_cast
  have p0 : (0 : ℝ) < 2 ^ e := zpow_pos (by norm_num) _
  rw [abs_mul, abs_of_pos p0]
  have p : (2 : ℝ) ^ e ≤ 2 ^ (104 : ℤ) := zpow_le_zpow_right₀ (by norm_num) h3
  have e' : (2 : ℝ) ^ (104 : ℤ) = 2 ^ 104 := by norm_cast
  have m1 : (|m| : ℝ) < 2 ^ 24 := by exact_mod_cast h1
  rw [e'] at p
  calc (|m| : ℝ) * 2 ^ e < 2 ^ 24 * 2 ^ e := mul_lt_mul_of_pos_right m1 p0
    _ ≤ 2 ^ 24 * 2 ^ 104 := mul_le_mul_of_nonneg_left p (by norm_num)
    _ = 2 ^ 128 := by norm_num

-- a file of a field that is 1/3 everywhere meets the hypotheses of `C141_partial`
example (M : Box) (id : VarId) (hl : Labels (labels [id])) : ∃ file, FileShowsOne M id (fun _ => (1 / 3 : ℝ)) file ∧ ReadsField vtkPrecision (fun x : ℝ => x) (fun _ => True) M (fileText (printReal vtkPrecision) file) id (fun _ => 1 / 3) ∧
    SingleRange (1 / 3) :=
  ⟨_, ⟨(0, 0, 0), (1, 1, 1), rfl⟩, C118_one (printReal_prints vtkPrecision) (by decide) ⟨(0, 0, 0), (1, 1, 1), rfl⟩ hl, .inr (by rw [abs_of_pos (by norm_num)]; norm_num)⟩

-- there is such a reader
example : ∃ rd, NearestSingle rd := by
  have fin : {b | Single b}.Finite := by
    refine ((Set.finite_Ioo (-2 ^ 24 : ℤ) (2 ^ 24)).image2 (fun (m e : ℤ) => (((m : ℚ) * 2 ^ e : ℚ) : ℝ)) (Set.finite_Icc (-149 : ℤ) 104)).subset ?_
    rintro b ⟨_, ⟨m, e, hm, h1, h2, rfl⟩, rfl⟩
    exact ⟨m, abs_lt.1 hm, e, ⟨h1, h2⟩, rfl⟩
  have ne : {b | Single b}.Nonempty := ⟨0, 0, ⟨0, 0, by norm_num, by norm_num, by norm_num, by norm_num⟩, by norm_num⟩
  choose r h1 h2 using fun x : ℝ => Set.exists_min_image _ (fun b => |b - x|) fin ne
  exact ⟨r, fun q _ => ⟨h1 q, fun b hb => h2 q b hb⟩⟩

end QK.Props
