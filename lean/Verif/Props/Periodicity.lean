import Verif.Props.Start
import Mathlib.Analysis.Real.Pi.Bounds
/-
C89: the initial states of the periodic programs and the periods of their domains.
-/
namespace QK.Props
open QK Spec

/-- `2 · 3.14159263` is not a period of the sine, but nearly. -/
theorem almost_period : Real.sin (2 * 3.14159263) ≠ 0 ∧ |2 * 3.14159263 - 2 * Real.pi| < 1e-7 := by
  have h1 := Real.pi_gt_d20
  have h2 := Real.pi_lt_d20
  constructor
  · have : Real.sin (2 * 3.14159263) = -Real.sin (2 * Real.pi - 2 * 3.14159263) := by
      rw [Real.sin_two_pi_sub]; ring
    rw [this, neg_ne_zero]
    refine (Real.sin_pos_of_pos_of_lt_pi ?_ ?_).ne'
    · norm_num at h1 ⊢; linarith
    · norm_num at h1 h2 ⊢; linarith
  · rw [abs_lt]; constructor <;> norm_num at h1 h2 ⊢ <;> linarith

theorem sin_lip (a b : ℝ) : |Real.sin a - Real.sin b| ≤ |a - b| := by
  have := (Real.lipschitzWith_sin).dist_le_mul a b
  simpa [Real.dist_eq] using this
theorem cos_lip (a b : ℝ) : |Real.cos a - Real.cos b| ≤ |a - b| := by
  have := (Real.lipschitzWith_cos).dist_le_mul a b
  simpa [Real.dist_eq] using this

/-- **C89** (false of the code) The states from which wave_1D and the program of main.cpp start do not have the period of the domain, 1 in `z` and `2 · 3.14159263` in `y`: the
constant for π is off in the eighth digit after the point. -/
theorem C89_false : (∃ z : ℝ, phaseSine (z + 1) ≠ phaseSine z) ∧
    ∀ {n0 Te Ti B0 : ℝ}, SheetConstants n0 Te Ti B0 → ∃ x y : ℝ,
      sheetX (B0 / 10) (3.14159263 / 3.14159263) (3.14159263 / 3.14159263) x (y + 2 * 3.14159263) ≠
      sheetX (B0 / 10) (3.14159263 / 3.14159263) (3.14159263 / 3.14159263) x y := by
  constructor
  · refine ⟨0, ?_⟩
    have e : ∀ z : ℝ, phaseSine z = Real.sin (2 * 3.14159263 * z) := by
      intro z
      show Real.sin _ = _
      simp only [real_lit, real_ofInt]
      congr 1; norm_num
    rw [e, e]
    simpa using almost_period.1
  · intro n0 Te Ti B0 C
    refine ⟨0, 0, ?_⟩
    have hB := C.sense
    simp only [sheetX]
    rw [div_self (by norm_num)]
    simp only [mul_zero, one_mul, zero_add, Real.sin_zero, Real.cos_zero, mul_one]
    exact mul_ne_zero (by positivity) almost_period.1

/-- **C89** What remains: they have that period to within 1e-7 (times the amplitude of the field). -/
theorem C89_partial : (∀ z : ℝ, |phaseSine (z + 1) - phaseSine z| < 1e-7) ∧
    ∀ {B0 : ℝ}, 0 ≤ B0 → ∀ x y : ℝ,
      |sheetX (B0 / 10) 1 1 x (y + 2 * 3.14159263) - sheetX (B0 / 10) 1 1 x y| ≤ 1e-7 * B0 ∧
      |sheetY B0 (1 / 2) (B0 / 10) 1 1 x (y + 2 * 3.14159263) - sheetY B0 (1 / 2) (B0 / 10) 1 1 x y| ≤ 1e-7 * B0 := by
  have hp := almost_period.2
  constructor
  · intro z
    have e : ∀ z : ℝ, phaseSine z = Real.sin (2 * 3.14159263 * z) := by
      intro z
      show Real.sin _ = _
      simp only [real_lit, real_ofInt]
      congr 1; norm_num
    rw [e, e, ← Real.sin_add_two_pi (2 * 3.14159263 * z)]
    refine lt_of_le_of_lt (sin_lip _ _) ?_
    rw [show 2 * 3.14159263 * (z + 1) - (2 * 3.14159263 * z + 2 * Real.pi) = 2 * 3.14159263 - 2 * Real.pi by ring]
    exact hp
  · intro B0 hB x y
    have hs : |Real.sin (y + 2 * 3.14159263) - Real.sin y| ≤ 1e-7 := by
      rw [← Real.sin_add_two_pi y]
      refine (sin_lip _ _).trans ?_
      rw [show y + 2 * 3.14159263 - (y + 2 * Real.pi) = 2 * 3.14159263 - 2 * Real.pi by ring]
      exact hp.le
    have hc : |Real.cos (y + 2 * 3.14159263) - Real.cos y| ≤ 1e-7 := by
      rw [← Real.cos_add_two_pi y]
      refine (cos_lip _ _).trans ?_
      rw [show y + 2 * 3.14159263 - (y + 2 * Real.pi) = 2 * 3.14159263 - 2 * Real.pi by ring]
      exact hp.le
    have key : ∀ {a d : ℝ}, |a| ≤ 1 → |d| ≤ 1e-7 → |B0 / 10 * (a * d)| ≤ 1e-7 * B0 := by
      intro a d ha hd
      have h1 : |a * d| ≤ 1 * 1e-7 := by rw [abs_mul]; exact mul_le_mul ha hd (abs_nonneg _) zero_le_one
      rw [abs_mul, abs_of_nonneg (by positivity : (0 : ℝ) ≤ B0 / 10)]
      calc B0 / 10 * |a * d| ≤ B0 / 10 * (1 * 1e-7) := by gcongr
        _ ≤ 1e-7 * B0 := by norm_num; nlinarith
    constructor
    · have := key (Real.abs_cos_le_one x) hs
      convert this using 2
      simp only [sheetX]; ring_nf
    · have := key (a := -Real.sin x) (by rw [abs_neg]; exact Real.abs_sin_le_one x) hc
      convert this using 2
      simp only [sheetY]; ring_nf

/-- **C89** The wave of wave_1D is the state at time 0 of a wave that travels along `z` with velocity 1 (= `c`) and solves Maxwell's equations, here those for fields that depend on `z` only:
`∂Ex/∂t = -∂By/∂z`, `∂Ey/∂t = ∂Bx/∂z`, `∂Bx/∂t = ∂Ey/∂z`, `∂By/∂t = -∂Ex/∂z`, `Ez` and `Bz` constant. -/
theorem C89_travels : ∃ E B : ℝ → ℝ → Vec, (∀ z, (∀ j : Fin 3, (waveComponents (phaseSine z)).getD j 0 = E 0 z j ∧ (waveComponents (phaseSine z)).getD (3 + j) 0 = B 0 z j)) ∧
    (∀ t z, E t z = E 0 (z - t) ∧ B t z = B 0 (z - t)) ∧
    ∀ t z, ∃ et bt ez bz : Vec, (∀ j, HasDerivAt (fun t => E t z j) (et j) t ∧ HasDerivAt (fun t => B t z j) (bt j) t ∧ HasDerivAt (fun z => E t z j) (ez j) z ∧
        HasDerivAt (fun z => B t z j) (bz j) z) ∧
      et 0 = -bz 1 ∧ et 1 = bz 0 ∧ et 2 = 0 ∧ bt 0 = ez 1 ∧ bt 1 = -ez 0 ∧ bt 2 = 0 ∧ ez 2 = 0 ∧ bz 2 = 0 := by
  obtain ⟨k, hk⟩ : ∃ k : ℝ, ∀ z : ℝ, phaseSine z = Real.sin (k * z) := ⟨_, fun z => rfl⟩
  refine ⟨fun t z => ![Real.sin (k * (z - t)), -Real.sin (k * (z - t)), 0], fun t z => ![Real.sin (k * (z - t)), Real.sin (k * (z - t)), 1], ?_, ?_, ?_⟩
  · intro z j
    rw [hk]
    fin_cases j <;> simp [waveComponents, real_lit, real_ofInt]
  · intro t z; simp
  · intro t z
    have ht : HasDerivAt (fun t => Real.sin (k * (z - t))) (-(k * Real.cos (k * (z - t)))) t := by
      have : HasDerivAt (fun t => k * (z - t)) (-k) t := by simpa using ((hasDerivAt_id t).const_sub z).const_mul k
      refine this.sin.congr_deriv (by ring)
    have hz : HasDerivAt (fun z => Real.sin (k * (z - t))) (k * Real.cos (k * (z - t))) z := by
      have : HasDerivAt (fun z => k * (z - t)) k z := by simpa using ((hasDerivAt_id z).sub_const t).const_mul k
      refine this.sin.congr_deriv (by ring)
    set D := k * Real.cos (k * (z - t))
    refine ⟨![-D, - -D, 0], ![-D, -D, 0], ![D, -D, 0], ![D, D, 0], ?_, by simp, by simp, by simp, by simp, by simp, by simp, by simp, by simp⟩
    intro j
    fin_cases j
    · exact ⟨ht, ht, hz, hz⟩
    · exact ⟨ht.neg, ht, hz.neg, hz⟩
    · exact ⟨hasDerivAt_const _ _, hasDerivAt_const _ _, hasDerivAt_const _ _, hasDerivAt_const _ _⟩

-- C89: the sheet of the program of main.cpp
example : ∃ B0 x y : ℝ, sheetX (B0 / 10) (3.14159263 / 3.14159263) (3.14159263 / 3.14159263) x (y + 2 * 3.14159263) ≠
    sheetX (B0 / 10) (3.14159263 / 3.14159263) (3.14159263 / 3.14159263) x y :=
  ⟨_, C89_false.2 gem_constants.1⟩

end QK.Props
