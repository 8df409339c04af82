import Verif.Proofs.WallReal
import Mathlib.Tactic.FinCases
/-
Helper lemmas: the energy of the electromagnetic field under the limited fluxes (exact arithmetic).
-/
namespace QK.Energy
open QK Spec

/-! ### The limited slope -/

/-- Van Albada's mean of two differences. -/
noncomputable def mean (a b : ℝ) : ℝ := a * b * (a + b) / (a ^ 2 + b ^ 2)

/-- The slope of the code, from the differences on the far side and on the near side of the face. -/
noncomputable def lim (a b : ℝ) : ℝ :=
  ((b / (a + 1 / 10 ^ 12)) * (b / (a + 1 / 10 ^ 12)) + b / (a + 1 / 10 ^ 12)) / ((b / (a + 1 / 10 ^ 12)) * (b / (a + 1 / 10 ^ 12)) + 1) * a

theorem mean_comm (a b : ℝ) : mean a b = mean b a := by
  unfold mean; congr 1 <;> ring

theorem recon_lim (qn qc qp qpp : ℝ) : FV.recon qn qc qp qpp = (qc + 1 / 2 * lim (qc - qn) (qp - qc), qp - 1 / 2 * lim (qpp - qp) (qp - qc)) := by
  unfold FV.recon lim
  simp only [real_lit]
  push_cast
  refine Prod.ext ?_ ?_ <;> dsimp only <;> ring

theorem mean_spec (a b : ℝ) : |(a + b) / 2 - mean a b| ≤ |(b - a) / 2| ∧ 0 ≤ (a + b) / 2 * ((a + b) / 2 - mean a b) := by
  by_cases h : a ^ 2 + b ^ 2 = 0
  · have ha : a = 0 := by nlinarith [sq_nonneg a, sq_nonneg b]
    have hb : b = 0 := by nlinarith [sq_nonneg a, sq_nonneg b]
    simp [mean, ha, hb]
  · have hp : 0 < a ^ 2 + b ^ 2 := lt_of_le_of_ne (by positivity) (Ne.symm h)
    have e : (a + b) / 2 - mean a b = (a + b) / 2 * ((b - a) ^ 2 / (a ^ 2 + b ^ 2)) := by
      unfold mean; field_simp; ring
    rw [e]
    constructor
    · have e2 : (a + b) / 2 * ((b - a) ^ 2 / (a ^ 2 + b ^ 2)) = (b - a) / 2 * ((a + b) * (b - a) / (a ^ 2 + b ^ 2)) := by ring
      rw [e2, abs_mul]
      have : |(a + b) * (b - a) / (a ^ 2 + b ^ 2)| ≤ 1 := by
        rw [abs_div, abs_of_pos hp, div_le_one hp, abs_le]
        constructor <;> nlinarith [sq_nonneg a, sq_nonneg b]
      calc |(b - a) / 2| * _ ≤ |(b - a) / 2| * 1 := by gcongr
        _ = _ := mul_one _
    · have : 0 ≤ (b - a) ^ 2 / (a ^ 2 + b ^ 2) := by positivity
      nlinarith [sq_nonneg ((a + b) / 2), mul_nonneg (sq_nonneg ((a + b) / 2)) this]

theorem lim_close {a b : ℝ} (h : a + 1 / 10 ^ 12 ≠ 0) : |lim a b - mean a b| ≤ 9 / 4 * (1 / 10 ^ 12) := by
  set ε : ℝ := 1 / 10 ^ 12 with hε
  have ε0 : 0 < ε := by rw [hε]; positivity
  have e1 : lim a b = a * b * (b + (a + ε)) / ((a + ε) ^ 2 + b ^ 2) := by
    have : 0 < (a + ε) ^ 2 + b ^ 2 := by positivity
    unfold lim; rw [← hε]; field_simp; ring
  clear_value ε
  by_cases h0 : a ^ 2 + b ^ 2 = 0
  · have ha : a = 0 := by nlinarith [sq_nonneg a, sq_nonneg b]
    rw [e1, ha]; simp [mean]; positivity
  · have hp : 0 < a ^ 2 + b ^ 2 := lt_of_le_of_ne (by positivity) (Ne.symm h0)
    have hp' : 0 < (a + ε) ^ 2 + b ^ 2 := by positivity
    generalize hA : a ^ 2 + b ^ 2 = A at *
    generalize ha' : a + ε = a' at *
    generalize hA' : a' ^ 2 + b ^ 2 = A' at *
    have e : lim a b - mean a b = ε * (a * b * (b ^ 2 - a * b - a * a' - a' * b)) / (A * A') := by
      rw [e1]; unfold mean; rw [hA, div_sub_div _ _ hp'.ne' hp.ne', mul_comm A A']
      congr 1
      rw [← hA, ← hA', ← ha']; ring
    rw [e, abs_div, abs_of_pos (mul_pos hp hp'), div_le_iff₀ (mul_pos hp hp'), abs_mul, abs_of_pos ε0]
    have k1 : |a * b| ≤ A / 2 := by rw [abs_le, ← hA]; constructor <;> nlinarith [sq_nonneg (a + b), sq_nonneg (a - b)]
    have k2 : |a' * b| ≤ A' / 2 := by rw [abs_le, ← hA']; constructor <;> nlinarith [sq_nonneg (a' + b), sq_nonneg (a' - b)]
    have k3 : b ^ 2 ≤ A' := by rw [← hA']; nlinarith [sq_nonneg a']
    have k4 : a ^ 2 ≤ A := by rw [← hA]; nlinarith [sq_nonneg b]
    have s1 : |a * b * b ^ 2| ≤ A / 2 * A' := by
      rw [abs_mul, abs_of_nonneg (sq_nonneg b)]; exact mul_le_mul k1 k3 (by positivity) (by positivity)
    have s2 : |a ^ 2 * b ^ 2| ≤ A * A' := by
      rw [abs_of_nonneg (by positivity)]; exact mul_le_mul k4 k3 (by positivity) (by positivity)
    have s3 : |a ^ 2 * (a' * b)| ≤ A * (A' / 2) := by
      rw [abs_mul, abs_of_nonneg (sq_nonneg a)]; exact mul_le_mul k4 k2 (by positivity) (by positivity)
    have s4 : |a * b * (a' * b)| ≤ A / 2 * (A' / 2) := by
      rw [abs_mul]; exact mul_le_mul k1 k2 (by positivity) (by positivity)
    have : |a * b * (b ^ 2 - a * b - a * a' - a' * b)| ≤ 9 / 4 * (A * A') := by
      have e3 : a * b * (b ^ 2 - a * b - a * a' - a' * b) = a * b * b ^ 2 - a ^ 2 * b ^ 2 - a ^ 2 * (a' * b) - a * b * (a' * b) := by ring
      rw [e3, abs_le]
      have := abs_le.1 s1; have := abs_le.1 s2; have := abs_le.1 s3; have := abs_le.1 s4
      constructor <;> linarith
    nlinarith

/-! ### One pair of components -/

/-- What a pair of components loses in a cell, in units of a quarter of the speed of light. -/
noncomputable def loss (σ C a b a' b' sl sr sl' sr' : ℝ) : ℝ :=
  -(a ^ 2 + b ^ 2) - C ^ 2 * (a' ^ 2 + b' ^ 2) + sl * (b + σ * C * b') + C * sl' * (C * b' + σ * b) + sr * (a - σ * C * a') + C * sr' * (C * a' - σ * a) -
    σ * C * (b * b' - a * a')

theorem loss_mean {σ : ℝ} (hσ : σ = 1 ∨ σ = -1) {C : ℝ} (a b a' b' : ℝ) : loss σ C a b a' b' (mean a b) (mean a b) (mean a' b') (mean a' b') ≤ 0 := by
  obtain ⟨h1, h2⟩ := mean_spec a b
  obtain ⟨h3, h4⟩ := mean_spec a' b'
  generalize mean a b = s at *
  generalize mean a' b' = s' at *
  obtain ⟨m, hm⟩ : ∃ m, m = (a + b) / 2 := ⟨_, rfl⟩
  obtain ⟨d, hd⟩ : ∃ d, d = (b - a) / 2 := ⟨_, rfl⟩
  obtain ⟨m', hm'⟩ : ∃ m, m = (a' + b') / 2 := ⟨_, rfl⟩
  obtain ⟨d', hd'⟩ : ∃ d, d = (b' - a') / 2 := ⟨_, rfl⟩
  have ea : a = m - d := by rw [hm, hd]; ring
  have eb : b = m + d := by rw [hm, hd]; ring
  have ea' : a' = m' - d' := by rw [hm', hd']; ring
  have eb' : b' = m' + d' := by rw [hm', hd']; ring
  rw [← hm, ← hd] at h1; rw [← hm] at h2
  rw [← hm', ← hd'] at h3; rw [← hm'] at h4
  obtain ⟨k, hk⟩ : ∃ k, k = m - s := ⟨_, rfl⟩
  obtain ⟨k', hk'⟩ : ∃ k, k = m' - s' := ⟨_, rfl⟩
  rw [← hk] at h1 h2; rw [← hk'] at h3 h4
  have es : s = m - k := by rw [hk]; ring
  have es' : s' = m' - k' := by rw [hk']; ring
  have e : loss σ C a b a' b' s s s' s' = -(2 * d ^ 2 + 2 * (m * k)) - C ^ 2 * (2 * d' ^ 2 + 2 * (m' * k')) - 2 * σ * C * (k * d' + k' * d) := by
    unfold loss; rw [ea, eb, ea', eb', es, es']; ring
  rw [e]
  have c1 : |k * d'| ≤ |d| * |d'| := by rw [abs_mul]; gcongr
  have c2 : |k' * d| ≤ |d| * |d'| := by rw [abs_mul, mul_comm]; gcongr
  have c3 : |k * d' + k' * d| ≤ 2 * (|d| * |d'|) := (abs_add_le _ _).trans (by linarith)
  have c4 : |2 * σ * C * (k * d' + k' * d)| ≤ 2 * |C| * (2 * (|d| * |d'|)) := by
    have : |2 * σ * C * (k * d' + k' * d)| = 2 * |C| * |k * d' + k' * d| := by
      rcases hσ with rfl | rfl <;> simp [abs_mul]
    rw [this]; gcongr
  have c5 := neg_abs_le (2 * σ * C * (k * d' + k' * d))
  have c6 : 0 ≤ C ^ 2 * (m' * k') := mul_nonneg (sq_nonneg C) h4
  have c7 : 2 * (|d| * (|C| * |d'|)) ≤ d ^ 2 + C ^ 2 * d' ^ 2 := by
    have := two_mul_le_add_sq |d| (|C| * |d'|)
    rw [sq_abs, mul_pow, sq_abs, sq_abs] at this
    linarith
  nlinarith

theorem loss_le {σ : ℝ} (hσ : σ = 1 ∨ σ = -1) {C : ℝ} (hC : 0 ≤ C) {a b a' b' : ℝ} (ha : a + 1 / 10 ^ 12 ≠ 0) (hb : b + 1 / 10 ^ 12 ≠ 0) (ha' : a' + 1 / 10 ^ 12 ≠ 0)
    (hb' : b' + 1 / 10 ^ 12 ≠ 0) :
    loss σ C a b a' b' (lim a b) (lim b a) (lim a' b') (lim b' a') ≤ 9 / 4 * (1 / 10 ^ 12) * (1 + C) * (|a| + |b| + C * (|a'| + |b'|)) := by
  have h := loss_mean hσ (C := C) a b a' b'
  have k1 := lim_close (b := b) ha
  have k2 := lim_close (b := a) hb
  have k3 := lim_close (b := b') ha'
  have k4 := lim_close (b := a') hb'
  rw [mean_comm b a] at k2
  rw [mean_comm b' a'] at k4
  generalize mean a b = s at *
  generalize mean a' b' = s' at *
  generalize lim a b = s1 at *
  generalize lim b a = s2 at *
  generalize lim a' b' = s3 at *
  generalize lim b' a' = s4 at *
  generalize (9 / 4 * (1 / 10 ^ 12) : ℝ) = η at *
  have e : loss σ C a b a' b' s1 s2 s3 s4 = loss σ C a b a' b' s s s' s' + (s1 - s) * (b + σ * C * b') + C * (s3 - s') * (C * b' + σ * b) +
      (s2 - s) * (a - σ * C * a') + C * (s4 - s') * (C * a' - σ * a) := by
    unfold loss; ring
  have hs : |σ| = 1 := by rcases hσ with rfl | rfl <;> simp
  have bd : ∀ {x y z w : ℝ}, |x| ≤ η → |y| ≤ z → x * y ≤ η * z := by
    intro x y z _ hx hy
    have hη : 0 ≤ η := (abs_nonneg _).trans hx
    calc x * y ≤ |x * y| := le_abs_self _
      _ = |x| * |y| := abs_mul _ _
      _ ≤ η * z := mul_le_mul hx hy (abs_nonneg _) hη
  have tri : ∀ x y : ℝ, |x + σ * C * y| ≤ |x| + C * |y| ∧ |x - σ * C * y| ≤ |x| + C * |y| ∧ |C * y + σ * x| ≤ |x| + C * |y| ∧ |C * y - σ * x| ≤ |x| + C * |y| := by
    intro x y
    have e1 : |σ * C * y| = C * |y| := by rw [abs_mul, abs_mul, hs, abs_of_nonneg hC, one_mul]
    have e2 : |C * y| = C * |y| := by rw [abs_mul, abs_of_nonneg hC]
    have e3 : |σ * x| = |x| := by rw [abs_mul, hs, one_mul]
    refine ⟨?_, ?_, ?_, ?_⟩
    · exact (abs_add_le _ _).trans (by rw [e1])
    · exact (abs_sub _ _).trans (by rw [e1])
    · exact (abs_add_le _ _).trans (by rw [e2, e3, add_comm])
    · exact (abs_sub _ _).trans (by rw [e2, e3, add_comm])
  have p1 := bd (w := 0) k1 (tri b b').1
  have p2 := bd (w := 0) k3 (tri b b').2.2.1
  have p3 := bd (w := 0) k2 (tri a a').2.1
  have p4 := bd (w := 0) k4 (tri a a').2.2.2
  have p2' := mul_le_mul_of_nonneg_left p2 hC
  have p4' := mul_le_mul_of_nonneg_left p4 hC
  rw [e]
  nlinarith

/-- The states on both sides of a face, from the four values around it. -/
noncomputable def lft (q0 q1 q2 : ℝ) : ℝ := q1 + 1 / 2 * lim (q1 - q0) (q2 - q1)
noncomputable def rgt (q1 q2 q3 : ℝ) : ℝ := q2 - 1 / 2 * lim (q3 - q2) (q2 - q1)

/-- The flux of a pair of components: of the electric and of the magnetic one. -/
noncomputable def fluxE (σ C : ℝ) (E B : Int → ℝ) (k : Int) : ℝ :=
  σ * (C ^ 2 / 2) * (rgt (B (k - 1)) (B k) (B (k + 1)) + lft (B (k - 2)) (B (k - 1)) (B k)) -
    C / 2 * (rgt (E (k - 1)) (E k) (E (k + 1)) - lft (E (k - 2)) (E (k - 1)) (E k))
noncomputable def fluxB (σ C : ℝ) (E B : Int → ℝ) (k : Int) : ℝ :=
  σ * (1 / 2) * (rgt (E (k - 1)) (E k) (E (k + 1)) + lft (E (k - 2)) (E (k - 1)) (E k)) -
    C / 2 * (rgt (B (k - 1)) (B k) (B (k + 1)) - lft (B (k - 2)) (B (k - 1)) (B k))

/-- The flux of energy of a pair through the face below `k`. -/
noncomputable def pairFlow (σ C : ℝ) (E B : Int → ℝ) (k : Int) : ℝ :=
  1 / 2 * (E (k - 1) + E k) * fluxE σ C E B k + C ^ 2 / 2 * (B (k - 1) + B k) * fluxB σ C E B k +
  C / 8 * (lim (E (k - 1) - E (k - 2)) (E k - E (k - 1)) * (E k - E (k - 1) + σ * C * (B k - B (k - 1))) +
    C * lim (B (k - 1) - B (k - 2)) (B k - B (k - 1)) * (C * (B k - B (k - 1)) + σ * (E k - E (k - 1))) -
    lim (E (k + 1) - E k) (E k - E (k - 1)) * (E k - E (k - 1) - σ * C * (B k - B (k - 1))) -
    C * lim (B (k + 1) - B k) (B k - B (k - 1)) * (C * (B k - B (k - 1)) - σ * (E k - E (k - 1)))) -
  σ * C ^ 2 / 2 * (E (k - 1) * B (k - 1) + E k * B k) - σ * C ^ 2 / 4 * (E k - E (k - 1)) * (B k - B (k - 1))

theorem pair_power (σ C : ℝ) (E B : Int → ℝ) (k : Int) :
    E k * (fluxE σ C E B k - fluxE σ C E B (k + 1)) + C ^ 2 * (B k * (fluxB σ C E B k - fluxB σ C E B (k + 1))) =
      C / 4 * loss σ C (E k - E (k - 1)) (E (k + 1) - E k) (B k - B (k - 1)) (B (k + 1) - B k) (lim (E k - E (k - 1)) (E (k + 1) - E k)) (lim (E (k + 1) - E k) (E k - E (k - 1)))
        (lim (B k - B (k - 1)) (B (k + 1) - B k)) (lim (B (k + 1) - B k) (B k - B (k - 1))) + (pairFlow σ C E B k - pairFlow σ C E B (k + 1)) := by
  unfold pairFlow fluxE fluxB loss lft rgt
  rw [show k + 1 - 1 = k by ring, show k + 1 - 2 = k - 1 by ring]
  ring

end QK.Energy
