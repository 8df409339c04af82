import Verif.Props.Start
import Verif.Props.Oscillation
/-
C108: the step sizes of the programs as configured (exact arithmetic).
-/
namespace QK.Props
open QK Spec GemChallenge

/-- Cyclotron frequency of the ions in units of the velocity of light. -/
theorem gem_wci : (53665 : ℝ) / 10 ^ 6 * 299792458 < (GemConstants.make : GemConstants ℝ).wci ∧ (GemConstants.make : GemConstants ℝ).wci < (53666 : ℝ) / 10 ^ 6 * 299792458 := by
  have hP : (0 : ℝ) < Arith.ofInt 2 * Arith.lit (125663706 / 10 ^ 14) * ((GemConstants.make : GemConstants ℝ).n0 * ((GemConstants.make : GemConstants ℝ).Te + (GemConstants.make : GemConstants ℝ).Ti)) := by
    simp only [GemConstants.make, real_lit, real_ofInt]
    norm_num
  obtain ⟨S, hS⟩ : ∃ S : ℝ, S = (GemConstants.make : GemConstants ℝ).B0 := ⟨_, rfl⟩
  have hS2 : S ^ 2 = Arith.ofInt 2 * Arith.lit (125663706 / 10 ^ 14) * ((GemConstants.make : GemConstants ℝ).n0 * ((GemConstants.make : GemConstants ℝ).Te + (GemConstants.make : GemConstants ℝ).Ti)) := by
    rw [hS]; exact Real.sq_sqrt hP.le
  have hS0 : 0 ≤ S := by rw [hS]; exact Real.sqrt_nonneg _
  have hw : (GemConstants.make : GemConstants ℝ).wci = (Arith.lit (160217662 / 10 ^ 27) : ℝ) * S / (Arith.lit 25 * Arith.lit (910938356 / 10 ^ 39)) := by
    rw [hS]; rfl
  simp only [GemConstants.make, real_lit, real_ofInt] at hS2
  rw [hw]
  simp only [real_lit]
  norm_num at hS2 ⊢
  constructor
  · have : (228683 : ℝ) / 10 ^ 8 < S := by
      refine lt_of_pow_lt_pow_left₀ 2 hS0 ?_
      rw [hS2]; norm_num
    norm_num at this ⊢
    linarith
  · have : S < (228685 : ℝ) / 10 ^ 8 := by
      refine lt_of_pow_lt_pow_left₀ 2 (by norm_num) ?_
      rw [hS2]; norm_num
    linarith

/-- The step of the program of main.cpp, and the one of harris_current_sheet, in units of the time light needs for one unit of length. -/
theorem sheet_steps : ∃ w : ℝ, 53665 / 10 ^ 6 < w ∧ w < 53666 / 10 ^ 6 ∧ (GemConstants.make : GemConstants ℝ).wci = lightC * w ∧
    lightC * timeDt (GemConstants.make : GemConstants ℝ) 1000 125 = 0.00032 / w ∧
    lightC * HarrisCurrentSheet.timeDt (HarrisCurrentSheet.constants : GemConstants ℝ) 100 100 = 0.0001 / w := by
  obtain ⟨h1, h2⟩ := gem_wci
  have w2 : (HarrisCurrentSheet.constants : GemConstants ℝ).wci = (GemConstants.make : GemConstants ℝ).wci := rfl
  unfold timeDt HarrisCurrentSheet.timeDt
  rw [w2]
  generalize (GemConstants.make : GemConstants ℝ).wci = W at *
  simp only [real_lit, real_ofInt, lightC]
  refine ⟨W / 299792458, by linarith, by linarith, by ring, ?_, ?_⟩
  · have : W ≠ 0 := by intro h; rw [h] at h1; norm_num at h1
    field_simp; norm_num
  · have : W ≠ 0 := by intro h; rw [h] at h1; norm_num at h1
    field_simp; norm_num

/-- **C108** The program of main.cpp, as configured: in each direction light crosses 0.486 of a cell per step; 125000 steps cover 40 inverse cyclotron frequencies of the ions, so a step
is 0.00032 of that of the ions and 0.008 of that of the electrons. -/
theorem C108_gem {g : Rectilinear ℝ} (hg : grid GemConstants.make 256 = .ok g) {t : ℝ} (ht : t = timeDt GemConstants.make 1000 125) :
    (0.4858 < lightC * t / g.dxAt 0 ∧ lightC * t / g.dxAt 0 < 0.4860) ∧ (0.4858 < lightC * t / g.dxAt 1 ∧ lightC * t / g.dxAt 1 < 0.4860) ∧
    t * (chargeE * (GemConstants.make : GemConstants ℝ).B0 / (25 * massE)) = 0.00032 ∧ t * (chargeE * (GemConstants.make : GemConstants ℝ).B0 / massE) = 0.008 := by
  obtain ⟨w, h1, h2, h3, h4, -⟩ := sheet_steps
  obtain ⟨d0, d1⟩ := (C88_cells (nx := 256) (ny := 1) (nz := 1)).2.2.2.2 hg
  have w1 : (GemConstants.make : GemConstants ℝ).wci = chargeE * (GemConstants.make : GemConstants ℝ).B0 / (25 * massE) := by
    show (Arith.lit _ : ℝ) * (GemConstants.make : GemConstants ℝ).B0 / _ = _
    simp only [real_lit, chargeE, massE]; norm_num
  have hw : 0 < w := by linarith
  have e : t * (GemConstants.make : GemConstants ℝ).wci = 0.00032 := by
    rw [h3, ht, ← mul_assoc, mul_comm _ lightC, h4]; field_simp
  have k : ∀ dx : ℝ, dx = 3.14159263 / 256 → 0.4858 < lightC * t / dx ∧ lightC * t / dx < 0.4860 := by
    rintro dx rfl
    rw [ht, h4, div_div]
    constructor
    · rw [lt_div_iff₀ (by positivity)]; norm_num at *; linarith
    · rw [div_lt_iff₀ (by positivity)]; norm_num at *; linarith
  refine ⟨k _ (by rw [d0]; norm_num), k _ (by rw [d1]; norm_num), by rw [← w1]; exact e, ?_⟩
  have : chargeE * (GemConstants.make : GemConstants ℝ).B0 / massE = 25 * (GemConstants.make : GemConstants ℝ).wci := by
    rw [w1]; unfold massE; ring
  rw [this, mul_left_comm, e]; norm_num

/-- **C108** harris_current_sheet, as configured: light crosses 0.0593 of a cell per step. -/
theorem C108_harris {g : Rectilinear ℝ} (hg : HarrisCurrentSheet.grid HarrisCurrentSheet.constants 400 = .ok g) {t : ℝ}
    (ht : t = HarrisCurrentSheet.timeDt HarrisCurrentSheet.constants 100 100) : 0.0593 < lightC * t / g.dxAt 0 ∧ lightC * t / g.dxAt 0 < 0.0594 := by
  obtain ⟨w, h1, h2, h3, -, h4⟩ := sheet_steps
  have d0 := (C88_cells (nx := 400) (ny := 1) (nz := 1)).2.2.2.1 hg
  have hw : 0 < w := by linarith
  rw [ht, h4, d0, div_div]
  constructor
  · rw [lt_div_iff₀ (by positivity)]; norm_num at *; linarith
  · rw [div_lt_iff₀ (by positivity)]; norm_num at *; linarith

/-- **C108** The other programs, as configured: Courant numbers of light (two_fluid_brio_wu, wave_1D, gaussian_pulse) and of the flow (advect_gaussian). -/
theorem C108_others {g : Rectilinear ℝ} :
    (TwoFluidBrioWu.grid 100 = .ok g → TwoFluidBrioWu.c * TwoFluidBrioWu.timeDt 100 10 / g.dxAt 0 = (0.1 : ℝ)) ∧
    (Wave1D.grid 2 2 128 = .ok g → Wave1D.solvers.c * Wave1D.timeDt 100 10 / g.dxAt 2 = (0.128 : ℝ)) ∧
    (GaussianPulse.grid 128 = .ok g → GaussianPulse.solvers.c * Wave1D.timeDt 100 10 / g.dxAt 0 = (0.64 : ℝ)) ∧
    (AdvectGaussian.grid 128 128 = .ok g → |-1| * Wave1D.timeDt 100 10 / g.dxAt 0 + |-1| * Wave1D.timeDt 100 10 / g.dxAt 1 = (0.256 : ℝ)) := by
  have T : (Wave1D.timeDt 100 10 : ℝ) = 1 / 1000 := by simp only [Wave1D.timeDt, real_lit, real_ofInt]; norm_num
  refine ⟨fun h => ?_, fun h => ?_, fun h => ?_, fun h => ?_⟩
  · rw [(C88_cells (nx := 100) (ny := 1) (nz := 1)).2.2.1 h]
    simp only [TwoFluidBrioWu.c, TwoFluidBrioWu.timeDt, real_lit, real_ofInt]; norm_num
  · rw [((C88_cells (nx := 2) (ny := 2) (nz := 128)).2.1 h).2.2.1, T]
    simp only [Wave1D.solvers, real_ofInt]; norm_num
  · unfold GaussianPulse.grid at h
    rw [show Range.ofLengths 1 [128] = .ok (Range.setup [(0, 128)]) from rfl, Res.ok_bind] at h
    rw [dxAt_make h (i := 0) rfl rfl, T]
    simp only [GaussianPulse.solvers, real_ofInt, real_lit]; norm_num
  · unfold AdvectGaussian.grid at h
    rw [show Range.ofLengths 2 [128, 128] = .ok (Range.setup [(0, 128), (0, 128)]) from rfl, Res.ok_bind] at h
    rw [dxAt_make h (i := 0) rfl rfl, dxAt_make h (i := 1) rfl rfl, T]
    simp only [real_lit]; norm_num

/-- The mass densities of a plasma with `n` electrons and `n` ions per volume, in the units of the sheet programs. -/
def Neutral (n : ℝ) (s : Point) : Prop := s.e 0 = massE * n ∧ s.i 0 = 25 * massE * n

/-- **C108** Plasma oscillations are damped, not amplified, by both sheet programs as configured, at every density of their initial states: the factor of C103 is below one. -/
theorem C108_sheet_oscillation {P : Plasma ℝ} (hP : GemPlasma P) {n : ℝ} (h0 : 0 < n) (h1 : n ≤ 6 / 5 * (GemConstants.make : GemConstants ℝ).n0) {s : Point} (hs : Neutral n s) {t : ℝ}
    (ht : t = timeDt GemConstants.make 1000 125 ∨ t = HarrisCurrentSheet.timeDt HarrisCurrentSheet.constants 100 100) :
    omega2 P.comE P.comI epsilon0 s * t ^ 2 < 0.0012 ∧ growth (omega2 P.comE P.comI epsilon0 s * t ^ 2) < 1 := by
  obtain ⟨w, w1, w2, -, w4, w5⟩ := sheet_steps
  have hw : 0 < w := by linarith
  have hn := gem_constants.1.density
  have hlt : 0 ≤ lightC * t ∧ lightC * t ≤ 0.00032 / w ∧ 0 < t := by
    rcases ht with rfl | rfl
    · rw [w4]
      refine ⟨by positivity, le_rfl, ?_⟩
      have : 0 < lightC * timeDt (GemConstants.make : GemConstants ℝ) 1000 125 := by rw [w4]; positivity
      exact pos_of_mul_pos_right this (by norm_num [lightC])
    · rw [w5]
      refine ⟨by positivity, by gcongr; norm_num, ?_⟩
      have : 0 < lightC * HarrisCurrentSheet.timeDt (HarrisCurrentSheet.constants : GemConstants ℝ) 100 100 := by rw [w5]; positivity
      exact pos_of_mul_pos_right this (by norm_num [lightC])
  have hmax : (0.00032 : ℝ) / w < 0.00597 := by
    rw [div_lt_iff₀ hw]; norm_num at *; linarith
  have he : omega2 P.comE P.comI epsilon0 s = 26 / 25 * chargeE ^ 2 / (massE * epsilon0) * n := by
    unfold omega2
    rw [hP.electron, hP.ion, hs.1, hs.2]
    simp only [real_lit, chargeE, massE, epsilon0]
    push_cast
    norm_num
    ring
  have hz : omega2 P.comE P.comI epsilon0 s * t ^ 2 ≤ 26 * (6 / 5) * (lightC * t) ^ 2 := by
    rw [he, mul_pow, hn]
    have : 26 / 25 * chargeE ^ 2 / (massE * epsilon0) * n * t ^ 2 ≤ 26 / 25 * chargeE ^ 2 / (massE * epsilon0) * (6 / 5 * (GemConstants.make : GemConstants ℝ).n0) * t ^ 2 := by
      have a1 : 0 < massE := by norm_num [massE]
      have a2 : 0 < epsilon0 := by norm_num [epsilon0]
      gcongr
    refine this.trans (le_of_eq ?_)
    have a1 : massE ≠ 0 := by norm_num [massE]
    have a2 : epsilon0 ≠ 0 := by norm_num [epsilon0]
    generalize (GemConstants.make : GemConstants ℝ).n0 = m
    field_simp
  have hz' : omega2 P.comE P.comI epsilon0 s * t ^ 2 < 0.0012 := by
    nlinarith [hlt.1, hlt.2.1]
  have hp : 0 < omega2 P.comE P.comI epsilon0 s * t ^ 2 := by
    rw [he]
    have := hlt.2.2
    have : 0 < massE := by norm_num [massE]
    have : 0 < chargeE := by norm_num [chargeE]
    have : 0 < epsilon0 := by norm_num [epsilon0]
    positivity
  exact ⟨hz', (C103_stable hp).2.2.1.2 (by linarith)⟩

/-- **C108** The states from which both programs start (C89) are of these densities. -/
theorem C108_sheet_start {Te Ti B0 L x y : ℝ} {s : Point} (h : SheetAt (GemConstants.make : GemConstants ℝ).n0 Te Ti B0 L x y s.e s.i s.f) :
    ∃ n, Neutral n s ∧ 0 < n ∧ n ≤ 6 / 5 * (GemConstants.make : GemConstants ℝ).n0 := by
  have hn : 0 < (GemConstants.make : GemConstants ℝ).n0 := by
    simp only [GemConstants.make, real_lit, real_ofInt]; norm_num
  refine ⟨_, ⟨h.rho_e, h.rho_i⟩, ?_⟩
  generalize (GemConstants.make : GemConstants ℝ).n0 = m at hn
  unfold sheetN
  have c1 := Real.one_le_cosh (x / (1 / 2))
  have c2 : 1 / Real.cosh (x / (1 / 2)) ^ 2 ≤ 1 := by
    rw [div_le_one (by positivity)]; nlinarith
  have c3 : 0 < 1 / Real.cosh (x / (1 / 2)) ^ 2 := by positivity
  constructor
  · have := mul_pos hn c3; field_simp at *; nlinarith
  · have := mul_le_mul_of_nonneg_left c2 hn.le; field_simp at *; nlinarith

/-- **C108** The same for two_fluid_brio_wu and densities up to those of its left state. -/
theorem C108_brio_oscillation {P : Plasma ℝ} (hP : BrioPlasma P) {n : ℝ} (h0 : 0 < n) (h1 : n ≤ 1) {s : Point} (he : s.e 0 = n / 10) (hi : s.i 0 = n) :
    omega2 P.comE P.comI (1 / 10 ^ 6) s * TwoFluidBrioWu.timeDt 100 10 ^ 2 = 0.11 * n ∧
    growth (omega2 P.comE P.comI (1 / 10 ^ 6) s * TwoFluidBrioWu.timeDt 100 10 ^ 2) < 1 := by
  have e : omega2 P.comE P.comI (1 / 10 ^ 6) s * TwoFluidBrioWu.timeDt 100 10 ^ 2 = 0.11 * n := by
    unfold omega2
    rw [hP.electron, hP.ion, he, hi]
    simp only [TwoFluidBrioWu.timeDt, real_lit, real_ofInt]
    push_cast
    norm_num
    ring
  refine ⟨e, (C103_stable ?_).2.2.1.2 ?_⟩
  · rw [e]; positivity
  · rw [e]; linarith

-- C108: the grids of the programs as configured, and a plasma with the constants of the sheet programs at half their density
example : ∃ (g : Rectilinear ℝ) (P : Plasma ℝ) (s : Point), grid GemConstants.make 256 = .ok g ∧ GemPlasma P ∧ Neutral ((GemConstants.make : GemConstants ℝ).n0 / 2) s ∧
    0.4858 < lightC * timeDt GemConstants.make 1000 125 / g.dxAt 0 ∧ growth (omega2 P.comE P.comI epsilon0 s * timeDt GemConstants.make 1000 125 ^ 2) < 1 := by
  obtain ⟨g, P, -, hP, hg, -⟩ := C81_gem (α := ℝ) (nx := 256) (by decide) (fun _ => true) 1000 125
  have hn : 0 < (GemConstants.make : GemConstants ℝ).n0 := by
    simp only [GemConstants.make, real_lit, real_ofInt]; norm_num
  refine ⟨g, P, ⟨fun _ => massE * ((GemConstants.make : GemConstants ℝ).n0 / 2), fun _ => 25 * massE * ((GemConstants.make : GemConstants ℝ).n0 / 2), fun _ => 0⟩, hg, hP, ⟨rfl, rfl⟩,
    (C108_gem hg rfl).1.1, (C108_sheet_oscillation hP (n := (GemConstants.make : GemConstants ℝ).n0 / 2) (by linarith) (by linarith) ⟨rfl, rfl⟩ (.inl rfl)).2⟩

example : ∃ (g : Rectilinear ℝ), HarrisCurrentSheet.grid HarrisCurrentSheet.constants 400 = .ok g ∧
    0.0593 < lightC * HarrisCurrentSheet.timeDt HarrisCurrentSheet.constants 100 100 / g.dxAt 0 := by
  obtain ⟨g, P, -, -, hg, -⟩ := C84_harris (α := ℝ) (nx := 400) (by decide) (fun _ => true) 100 100
  exact ⟨g, hg, (C108_harris hg rfl).1⟩

example : ∃ (g : Rectilinear ℝ) (P : Plasma ℝ), TwoFluidBrioWu.grid 100 = .ok g ∧ BrioPlasma P ∧ TwoFluidBrioWu.c * TwoFluidBrioWu.timeDt 100 10 / g.dxAt 0 = (0.1 : ℝ) ∧
    growth (omega2 P.comE P.comI (1 / 10 ^ 6) loaded * TwoFluidBrioWu.timeDt 100 10 ^ 2) < 1 := by
  obtain ⟨g, P, -, hP, hg, -⟩ := C84_brio (α := ℝ) (nx := 100) (by decide) (fun _ => true) 100 10
  exact ⟨g, P, hg, hP, C108_others.1 hg, (C108_brio_oscillation hP (n := 1) one_pos le_rfl (by norm_num [loaded]) (by norm_num [loaded])).2⟩

end QK.Props
