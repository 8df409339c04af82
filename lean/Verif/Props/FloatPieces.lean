import Verif.Props.RangeSet
import Mathlib.Data.Int.Log
import Mathlib.Data.Finite.Prod
import Mathlib.Data.Set.Finite.Lemmas
import Mathlib.Order.Interval.Finset.Basic
import Mathlib.Data.Int.Interval
/-
C140: what the division in `float` does to the pieces of a `range_set` (range_set.cpp:33).
-/
namespace QK.Props
open Spec

private theorem small32 {z : ℤ} (h : |z| ≤ 2 ^ 24) : Binary32 z := by
  rcases lt_or_eq_of_le h with h | h
  · exact ⟨z, 0, h, by norm_num, by norm_num, by simp⟩
  · rcases abs_eq (by norm_num) |>.1 h with rfl | rfl
    · exact ⟨1, 24, by norm_num, by norm_num, by norm_num, by norm_num⟩
    · exact ⟨-1, 24, by norm_num, by norm_num, by norm_num, by norm_num⟩

/-- **C140** Rounding to the nearest number of binary32 is what C31 and C32 assume about the division, and there is such a rounding. -/
theorem C140_round : (∃ rnd, Nearest32 rnd) ∧ ∀ rnd, Nearest32 rnd → Round32 rnd := by
  constructor
  · have fin : {b | Binary32 b}.Finite := by
      refine ((Set.finite_Ioo (-2 ^ 24 : ℤ) (2 ^ 24)).image2 (fun (m e : ℤ) => (m : ℚ) * 2 ^ e) (Set.finite_Icc (-149 : ℤ) 104)).subset ?_
      rintro b ⟨m, e, hm, h1, h2, rfl⟩
      exact ⟨m, abs_lt.1 hm, e, ⟨h1, h2⟩, rfl⟩
    have ne : {b | Binary32 b}.Nonempty := ⟨0, 0, 0, by norm_num, by norm_num, by norm_num, by norm_num⟩
    choose r h1 h2 using fun q : ℚ => Set.exists_min_image _ (fun b => |b - q|) fin ne
    exact ⟨r, fun q _ => ⟨h1 q, fun b hb => h2 q b hb⟩⟩
  · intro rnd h
    refine ⟨fun q hq hq' => ?_, fun z hz => ?_⟩
    · have q0 : 0 < q := lt_of_lt_of_le (by positivity) hq
      obtain ⟨k, hk⟩ : ∃ k, k = Int.log 2 q := ⟨_, rfl⟩
      have lo : (2 : ℚ) ^ k ≤ q := by have := Int.zpow_log_le_self (b := 2) (r := q) (by norm_num) q0; rw [hk]; exact_mod_cast this
      have up : q < (2 : ℚ) ^ (k + 1) := by have := Int.lt_zpow_succ_log_self (b := 2) (by norm_num) q; rw [hk]; exact_mod_cast this
      have k1 : k < 127 := by
        by_contra c
        have : (2 : ℚ) ^ (127 : ℤ) ≤ 2 ^ k := zpow_le_zpow_right₀ (by norm_num) (by omega)
        have e : (2 : ℚ) ^ (127 : ℤ) = 2 ^ 127 := by norm_cast
        rw [e] at this
        exact absurd (this.trans lo) (not_le.2 hq')
      have k2 : -126 ≤ k := by
        by_contra c
        have : (2 : ℚ) ^ (k + 1) ≤ 2 ^ (-126 : ℤ) := zpow_le_zpow_right₀ (by norm_num) (by omega)
        have e : (2 : ℚ) ^ (-126 : ℤ) = 1 / 2 ^ 126 := by rw [zpow_neg]; norm_num
        have up := lt_of_lt_of_le up this
        rw [e] at up
        exact absurd hq (not_le.2 up)
      have s0 : (0 : ℚ) < 2 ^ (k - 23) := zpow_pos (by norm_num) _
      have sk : (2 : ℚ) ^ k = 2 ^ 23 * 2 ^ (k - 23) := by rw [← zpow_natCast, ← zpow_add₀ (by norm_num)]; congr 1; push_cast; ring
      have sk1 : (2 : ℚ) ^ (k + 1) = 2 ^ 24 * 2 ^ (k - 23) := by rw [← zpow_natCast, ← zpow_add₀ (by norm_num)]; congr 1; push_cast; ring
      obtain ⟨m, hm⟩ : ∃ m, m = round (q / 2 ^ (k - 23)) := ⟨_, rfl⟩
      have near : |q / 2 ^ (k - 23) - m| ≤ 1 / 2 := by rw [hm]; exact abs_sub_round _
      have y1 : (2 : ℚ) ^ 23 ≤ q / 2 ^ (k - 23) := by rw [le_div_iff₀ s0]; linarith
      have y2 : q / 2 ^ (k - 23) < (2 : ℚ) ^ 24 := by rw [div_lt_iff₀ s0]; linarith
      have n1 := abs_le.1 near
      have m0 : 0 < m := by
        have : (0 : ℚ) < m := by norm_num at y1; linarith [n1.2]
        exact_mod_cast this
      have m1 : m ≤ 2 ^ 24 := by
        have : (m : ℚ) < 2 ^ 24 + 1 := by linarith [n1.1]
        have : m < 2 ^ 24 + 1 := by exact_mod_cast this
        omega
      have b : Binary32 (m * 2 ^ (k - 23)) := by
        rcases lt_or_eq_of_le m1 with h | h
        · exact ⟨m, k - 23, by rw [abs_of_pos m0]; exact h, by omega, by omega, rfl⟩
        · refine ⟨2 ^ 23, k - 22, by norm_num, by omega, by omega, ?_⟩
          rw [h, show k - 22 = (k - 23) + 1 by ring, zpow_add₀ (by norm_num)]
          push_cast; ring
      refine ((h q (by rw [abs_of_pos q0]; exact hq')).2 _ b).trans ?_
      have e : m * 2 ^ (k - 23) - q = -(q / 2 ^ (k - 23) - m) * 2 ^ (k - 23) := by field_simp; ring
      rw [e, abs_mul, abs_neg, abs_of_pos s0]
      have : |q / 2 ^ (k - 23) - m| * 2 ^ (k - 23) ≤ 1 / 2 * 2 ^ (k - 23) := mul_le_mul_of_nonneg_right near s0.le
      rw [le_div_iff₀ (by norm_num)]
      norm_num at sk this ⊢
      linarith
    · have := (h z (by
        have : (|z| : ℚ) ≤ 2 ^ 24 := by exact_mod_cast hz
        exact lt_of_le_of_lt this (by norm_num))).2 _ (small32 hz)
      rw [sub_self, abs_zero] at this
      have := abs_nonpos_iff.1 this
      linarith

/-- The part of `C140_exactly` about the boxes. -/
private theorem pieces_cover : ∀ {B : Box} {subs ss : List Int}, List.Forall₂ (fun d (p : Int × Int) => d.1 < d.2 ∧ 0 < p.1 ∧ 0 ≤ p.2) B (subs.zip ss) → subs.length = ss.length →
    ((∀ x, InBox B x → ∃ k, InBox (subs.map (fun n => ((0 : Int), n))) k ∧ InBox (RangeSet.bounds B ss k) x) ↔
      List.Forall₂ (fun d (p : Int × Int) => d.2 - d.1 ≤ p.1 * p.2) B (subs.zip ss)) := by
  intro B
  induction B with
  | nil =>
    intro subs ss h hl
    have z : subs.zip ss = [] := by cases h' : subs.zip ss with
      | nil => rfl
      | cons a b => rw [h'] at h; cases h
    have : subs = [] := by
      cases subs with
      | nil => rfl
      | cons a b => cases ss with
        | nil => simp at hl
        | cons c d => simp at z
    subst this
    rw [z]
    refine ⟨fun _ => .nil, fun _ x hx => ⟨[], .nil, ?_⟩⟩
    cases hx
    simp [RangeSet.bounds]
    exact .nil
  | cons d B ih =>
    intro subs ss h hl
    cases subs with
    | nil => simp at h
    | cons n subs => cases ss with
      | nil => simp at h
      | cons s ss =>
        rw [List.zip_cons_cons] at h ⊢
        cases h with
        | cons h1 h2 =>
          have IH := ih h2 (by simpa using hl)
          dsimp only at h1
          obtain ⟨h1, hn, hs⟩ := h1
          rw [List.forall₂_cons, ← IH]
          constructor
          · intro H
            refine ⟨?_, fun x hx => ?_⟩
            · obtain ⟨y, hy⟩ : ∃ y, InBox B y := by
                have : ∀ {B : Box} {l : List (Int × Int)}, List.Forall₂ (fun d (p : Int × Int) => d.1 < d.2 ∧ 0 < p.1 ∧ 0 ≤ p.2) B l → ∃ y, InBox B y := by
                  intro B l h
                  induction h with
                  | nil => exact ⟨[], .nil⟩
                  | @cons d _ _ _ a _ ih => obtain ⟨y, hy⟩ := ih; exact ⟨d.1 :: y, .cons ⟨le_rfl, a.1⟩ hy⟩
                exact this h2
              obtain ⟨k, hk, hx⟩ := H ((d.2 - 1) :: y) (.cons ⟨by omega, by omega⟩ hy)
              cases hk with
              | @cons _ a _ _ ha _ =>
                rw [RangeSet.bounds] at hx
                cases hx with
                | cons hb _ =>
                  dsimp only at ha hb ⊢
                  have : a * s + s ≤ n * s := by nlinarith [ha.2]
                  have := hb.2
                  omega
            · obtain ⟨k, hk, hx⟩ := H (d.1 :: x) (.cons ⟨le_rfl, h1⟩ hx)
              cases hk with
              | cons ha has =>
                rw [RangeSet.bounds] at hx
                cases hx with
                | cons _ hb => exact ⟨_, has, hb⟩
          · rintro ⟨hc, H⟩ x hx
            dsimp only at hc
            cases hx with
            | @cons _ y _ ys hy hys =>
              obtain ⟨k, hk, hk'⟩ := H ys hys
              have s0 : 0 < s := by
                by_contra c
                obtain rfl : s = 0 := by omega
                omega
              have hq := Int.emod_add_mul_ediv (y - d.1) s
              have hq1 := Int.emod_nonneg (y - d.1) (by omega : s ≠ 0)
              have hq2 := Int.emod_lt_of_pos (y - d.1) s0
              refine ⟨((y - d.1) / s) :: k, .cons ⟨Int.ediv_nonneg (by omega) s0.le, ?_⟩ hk, ?_⟩
              · dsimp only
                exact Int.ediv_lt_of_lt_mul s0 (by omega)
              · rw [RangeSet.bounds]
                refine .cons ⟨?_, ?_⟩ hk'
                · dsimp only; rw [mul_comm] at hq; omega
                · dsimp only; rw [mul_comm] at hq; rw [lt_min_iff]; exact ⟨by omega, hy.2⟩

/-- **C140**, exactly: whatever the sizes of the pieces come out as, every cell is in one of the pieces precisely if in every dimension the number of pieces times their size is at least the length. -/
theorem C140_exactly {rnd : ℚ → ℚ} {sup : Range} {subs ss : List Int} (hd : 0 < sup.numDims) (hss : RangeSet.sizes rnd sup.dims subs = .ok ss) (hl : ss.length = subs.length)
    (hp : List.Forall₂ (fun d (p : Int × Int) => d.1 < d.2 ∧ 0 < p.1 ∧ 0 ≤ p.2) sup.dims (subs.zip ss)) :
    ∃ g, RangeSet.make rnd sup subs = .ok g ∧
      ((∀ x, InBox sup.dims x → ∃ k r, InBox g.rng.dims k ∧ g.val k = some r ∧ InBox r.dims x) ↔
        List.Forall₂ (fun d (p : Int × Int) => d.2 - d.1 ≤ p.1 * p.2) sup.dims (subs.zip ss)) := by
  have hlen : subs.length = sup.dims.length := by rw [hp.length_eq, List.length_zip, hl, min_self]
  have pos : ∀ n ∈ subs, 0 < n := by
    intro n hn
    obtain ⟨i, hi', rfl⟩ := List.getElem_of_mem hn
    have := (List.forall₂_iff_get.1 hp).2 i (by omega) (by rw [List.length_zip, hl, min_self]; exact hi')
    simp at this
    exact this.2.1
  obtain ⟨g, h1, _, h3, h4⟩ := setup_sizes (rnd := rnd) ⟨.empty, []⟩ hd hlen pos hss
  refine ⟨g, h1, ?_⟩
  rw [← pieces_cover hp hl.symm]
  refine forall₂_congr fun x _ => ?_
  rw [h3]
  constructor
  · rintro ⟨k, r, hk, hr, hx⟩
    rw [h4 k hk] at hr
    cases hr
    exact ⟨k, hk, hx⟩
  · rintro ⟨k, hk, hx⟩
    exact ⟨k, _, hk, h4 k hk, hx⟩

-- 10 × 7 cells in 3 × 2 pieces of 4 × 4: hypotheses and conclusion of `C140_exactly`, in `float`
example {rnd : ℚ → ℚ} (h : Nearest32 rnd) : RangeSet.sizes rnd (Range.setup [(0, 10), (-3, 4)]).dims [3, 2] = .ok [4, 4] ∧
    List.Forall₂ (fun d (p : Int × Int) => d.1 < d.2 ∧ 0 < p.1 ∧ 0 ≤ p.2) (Range.setup [(0, 10), (-3, 4)]).dims ([3, 2].zip [4, 4]) ∧
    List.Forall₂ (fun d (p : Int × Int) => d.2 - d.1 ≤ p.1 * p.2) (Range.setup [(0, 10), (-3, 4)]).dims ([3, 2].zip [4, 4]) :=
  ⟨sizes_eq (C140_round.2 rnd h) (B := [(0, 10), (-3, 4)]) (subs := [3, 2]) (by decide), by decide, by decide⟩

/-- Large numbers of binary32 are multiples of large powers of two. -/
theorem large32 {b : ℚ} (h : Binary32 b) (j : Nat) (hb : 2 ^ (24 + j) ≤ b) : ∃ z : ℤ, b = z * 2 ^ (j + 1) := by
  obtain ⟨m, e, hm, _, _, rfl⟩ := h
  have : (j : ℤ) < e := by
    by_contra c
    have p : (2 : ℚ) ^ e ≤ 2 ^ (j : ℤ) := zpow_le_zpow_right₀ (by norm_num) (by omega)
    rw [zpow_natCast] at p
    have m1 : (m : ℚ) < 2 ^ 24 := by exact_mod_cast (abs_lt.1 hm).2
    have p0 : (0 : ℚ) < 2 ^ e := zpow_pos (by norm_num) _
    have p1 : (0 : ℚ) < 2 ^ j := by positivity
    rw [pow_add] at hb
    nlinarith
  obtain ⟨i, hi'⟩ : ∃ i : ℕ, e = (j + 1 : ℕ) + (i : ℤ) := ⟨(e - (j + 1)).toNat, by push_cast; omega⟩
  refine ⟨m * 2 ^ i, ?_⟩
  rw [hi', zpow_add₀ (by norm_num), zpow_natCast, zpow_natCast]
  push_cast
  ring

private theorem rnd_one {rnd : ℚ → ℚ} (h : Nearest32 rnd) : rnd ((1 : ℤ) : ℚ) = 1 := by
  have := (C140_round.2 rnd h).exact 1 (by norm_num)
  simpa using this

private theorem rnd_fixed {rnd : ℚ → ℚ} (h : Nearest32 rnd) {b : ℚ} (hb : Binary32 b) (h1 : |b| < 2 ^ 127) : rnd b = b := by
  have := (h b h1).2 b hb
  rw [sub_self, abs_zero] at this
  have := abs_nonpos_iff.1 this
  linarith

/-- 2^25 + 1 becomes 2^25. -/
private theorem rnd_lost {rnd : ℚ → ℚ} (h : Nearest32 rnd) : rnd ((2 ^ 25 + 1 : ℤ) : ℚ) = 2 ^ 25 := by
  have b25 : Binary32 (2 ^ 25) := ⟨1, 25, by norm_num, by norm_num, by norm_num, by norm_num⟩
  obtain ⟨hb, hc⟩ := h ((2 ^ 25 + 1 : ℤ) : ℚ) (by push_cast; rw [abs_of_pos (by norm_num)]; norm_num)
  have := hc _ b25
  have e : |(2 ^ 25 : ℚ) - ((2 ^ 25 + 1 : ℤ) : ℚ)| = 1 := by push_cast; norm_num
  rw [e] at this
  push_cast at this hb hc ⊢
  have a := abs_le.1 this
  obtain ⟨z, hz⟩ := large32 hb 1 (by norm_num at a ⊢; linarith [a.1])
  rw [hz] at a ⊢
  norm_num at a ⊢
  have z1 : 33554432 ≤ z * 4 := by
    have : (33554432 : ℚ) ≤ z * 4 := by linarith [a.1]
    exact_mod_cast this
  have z2 : z * 4 ≤ 33554434 := by
    have : (z : ℚ) * 4 ≤ 33554434 := by linarith [a.2]
    exact_mod_cast this
  obtain rfl : z = 8388608 := by omega
  norm_num

/-- **C140** is false: a range of 2^25 + 1 cells in one piece loses its last cell, however ties are rounded. -/
theorem C140_false {rnd : ℚ → ℚ} (h : Nearest32 rnd) :
    ∃ g, RangeSet.make rnd (Range.setup [(0, 2 ^ 25 + 1)]) [1] = .ok g ∧ ∀ k r, InBox g.rng.dims k → g.val k = some r → r.dims = [(0, 2 ^ 25)] ∧ ¬ InBox r.dims [2 ^ 25] := by
  have sz : RangeSet.sizes rnd (Range.setup [(0, 2 ^ 25 + 1)]).dims [1] = .ok [2 ^ 25] := by
    have e : RangeSet.size rnd (2 ^ 25 + 1) 1 = .ok (2 ^ 25) := by
      unfold RangeSet.size
      rw [rnd_lost h, rnd_one h, div_one, rnd_fixed h ⟨1, 25, by norm_num, by norm_num, by norm_num, by norm_num⟩ (by rw [abs_of_pos (by norm_num)]; norm_num)]
      have : ⌈(2 ^ 25 : ℚ)⌉ = 2 ^ 25 := by rw [Int.ceil_eq_iff]; norm_num
      rw [this]
      rfl
    show ([((0, 2 ^ 25 + 1), 1)] : List ((Int × Int) × Int)).mapM (fun p => RangeSet.size rnd (p.1.2 - p.1.1) p.2) = _
    simp only [List.mapM_cons, List.mapM_nil, sub_zero]
    rw [e]
    rfl
  obtain ⟨g, h1, _, h3, h4⟩ := setup_sizes (rnd := rnd) (sup := Range.setup [(0, 2 ^ 25 + 1)]) ⟨.empty, []⟩ (by decide) (by decide) (by decide) sz
  refine ⟨g, h1, fun k r hk hr => ?_⟩
  rw [h3] at hk
  rw [h4 k hk] at hr
  cases hr
  have : k = [0] := by
    cases hk with
    | @cons _ a _ _ ha has => cases has; dsimp only at ha; obtain rfl : a = 0 := by omega
                              rfl
  subst this
  decide

/-- **C140** The largest range there is, 2^31 - 1 cells, in one piece: the size is rounded up to 2^31, which is not an `int`. -/
theorem C140_overflow {rnd : ℚ → ℚ} (h : Nearest32 rnd) : ∃ w, RangeSet.make rnd (Range.setup [(0, 2 ^ 31 - 1)]) [1] = .ub w := by
  have r31 : rnd ((2 ^ 31 - 1 : ℤ) : ℚ) = 2 ^ 31 := by
    have b31 : Binary32 (2 ^ 31) := ⟨1, 31, by norm_num, by norm_num, by norm_num, by norm_num⟩
    obtain ⟨hb, hc⟩ := h ((2 ^ 31 - 1 : ℤ) : ℚ) (by push_cast; rw [abs_of_pos (by norm_num)]; norm_num)
    have := hc _ b31
    have e : |(2 ^ 31 : ℚ) - ((2 ^ 31 - 1 : ℤ) : ℚ)| = 1 := by push_cast; norm_num
    rw [e] at this
    push_cast at this hb hc ⊢
    have a := abs_le.1 this
    obtain ⟨z, hz⟩ := large32 hb 6 (by norm_num at a ⊢; linarith [a.1])
    rw [hz] at a ⊢
    norm_num at a ⊢
    have z1 : 2147483646 ≤ z * 128 := by
      have : (2147483646 : ℚ) ≤ z * 128 := by linarith [a.1]
      exact_mod_cast this
    have z2 : z * 128 ≤ 2147483648 := by
      have : (z : ℚ) * 128 ≤ 2147483648 := by linarith [a.2]
      exact_mod_cast this
    obtain rfl : z = 16777216 := by omega
    norm_num
  have e : RangeSet.size rnd (2 ^ 31 - 1) 1 = .ub "float to int conversion out of range" := by
    unfold RangeSet.size
    rw [r31, rnd_one h, div_one, rnd_fixed h ⟨1, 31, by norm_num, by norm_num, by norm_num, by norm_num⟩ (by rw [abs_of_pos (by norm_num)]; norm_num)]
    have : ⌈(2 ^ 31 : ℚ)⌉ = 2 ^ 31 := by rw [Int.ceil_eq_iff]; norm_num
    rw [this]
    rfl
  have sz : RangeSet.sizes rnd (Range.setup [(0, 2 ^ 31 - 1)]).dims [1] = .ub "float to int conversion out of range" := by
    show ([((0, 2 ^ 31 - 1), 1)] : List ((Int × Int) × Int)).mapM (fun p => RangeSet.size rnd (p.1.2 - p.1.1) p.2) = _
    simp only [List.mapM_cons, List.mapM_nil, sub_zero]
    rw [e]
    rfl
  refine ⟨"float to int conversion out of range", ?_⟩
  unfold RangeSet.make RangeSet.setup
  simp only [Range.copy_dims]
  have e : (List.take (Range.setup [((0 : Int), 2 ^ 31 - 1)]).copy.numDims [(1 : Int)]) = [1] := rfl
  rw [if_neg (by decide), e, sz]
  rfl

end QK.Props
