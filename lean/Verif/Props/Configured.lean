import Verif.Props.Program
import Verif.Props.Examples
/-
C143: the example programs with the sizes and numbers of steps written in their sources.
-/
namespace QK.Props
open QK Spec Solve

/-- **C143** gem_challenge: 256 x 512 cells, 1001 files, file `j` after `125 j` steps, the last one at the time `40 / wci`. -/
theorem C143_gem (canOpen : Nat → Bool) : ∃ (g : Rectilinear ℝ) (P : Plasma ℝ) (t : ℝ) (s : Nat → State ℝ) (file : Nat → List (Tok ℝ)) (r : SRes (Run ℝ) Unit),
    GemPlasma P ∧ g.rng.dims = [(0, 256), (0, 512)] ∧ 125000 * t = 40 / (GemConstants.make : GemConstants ℝ).wci ∧ (∀ j < 125000, PlasmaStep P g 1 [0] [1] t (s j) (s (j + 1))) ∧
      (∀ j ≤ 1000, FileShows g.rng.dims P (s (125 * j)) (file j)) ∧ GemChallenge.gemChallenge true canOpen = .ok r ∧ RunEnds canOpen 1000 file r := by
  obtain ⟨g, P, m0, hP, -, hd, -, -, -, s, file, -, hs, hf, h1, h2, -⟩ := C81_gem (α := ℝ) (nx := 256) (by decide) canOpen 1000 125
  have e : 125000 * GemChallenge.timeDt (GemConstants.make : GemConstants ℝ) 1000 125 = 40 / (GemConstants.make : GemConstants ℝ).wci := by
    unfold GemChallenge.timeDt
    generalize (GemConstants.make : GemConstants ℝ).wci = W
    simp only [real_lit, real_ofInt]
    push_cast
    ring
  by_cases h : ∀ j ≤ 1000, canOpen j = true
  · obtain ⟨m', hm⟩ := h1 h
    refine ⟨g, P, _, s, file, _, hP, hd, e, hs, fun j hj => mul_comm j 125 ▸ hf j hj, hm, fun _ => ⟨m', rfl⟩, fun k hk _ hf => ?_⟩
    rw [h k hk] at hf
    cases hf
  · have ex : ∃ k, k ≤ 1000 ∧ canOpen k = false := by simpa using h
    classical
    have first := Nat.find_spec ex
    have before : ∀ j < Nat.find ex, canOpen j = true := fun j hj => by
      have := Nat.find_min ex hj
      by_contra hc
      exact this ⟨by omega, by simpa using hc⟩
    obtain ⟨msg, m', hm⟩ := h2 _ first.1 before first.2
    refine ⟨g, P, _, s, file, _, hP, hd, e, hs, fun j hj => mul_comm j 125 ▸ hf j hj, hm, fun a => absurd a h, fun k hk hb hf => ?_⟩
    have : k = Nat.find ex := by
      rcases lt_trichotomy k (Nat.find ex) with l | l | l
      · rw [before k l] at hf; cases hf
      · exact l
      · rw [hb _ l] at first; cases first.2
    subst this
    exact ⟨msg, m', rfl⟩

/-- **C143** two_fluid_brio_wu: 100 cells, 101 files, file `j` after `10 j` steps, the last one at the time 1/10. -/
theorem C143_brio (canOpen : Nat → Bool) : ∃ (g : Rectilinear ℝ) (P : Plasma ℝ) (s : Nat → State ℝ) (file : Nat → List (Tok ℝ)) (r : SRes (Run ℝ) Unit),
    BrioPlasma P ∧ g.rng.dims = [(0, 100)] ∧ (∀ j < 1000, PlasmaStep P g 1 [0] [] (1 / 10000) (s j) (s (j + 1))) ∧
      (∀ j ≤ 100, FileShows g.rng.dims P (s (10 * j)) (file j)) ∧ TwoFluidBrioWu.twoFluidBrioWu true canOpen = .ok r ∧ RunEnds canOpen 100 file r := by
  obtain ⟨g, P, m0, hP, -, hd, -, -, -, ⟨s, file, -, hs, hf, r, hr, hrun⟩, -⟩ := C84_brio (α := ℝ) (nx := 100) (by decide) canOpen 100 10
  refine ⟨g, P, s, file, r, hP, hd, fun j hj => ?_, fun j hj => mul_comm j 10 ▸ hf j hj, hr, hrun⟩
  have := hs j hj
  simp only [real_lit, real_ofInt] at this
  convert this using 1
  push_cast
  norm_num

/-- **C143** harris_current_sheet: 400 cells, 101 files, file `j` after `100 j` steps, the last one at the time `1 / wci`. -/
theorem C143_harris (canOpen : Nat → Bool) : ∃ (g : Rectilinear ℝ) (P : Plasma ℝ) (t : ℝ) (s : Nat → State ℝ) (file : Nat → List (Tok ℝ)) (r : SRes (Run ℝ) Unit),
    GemPlasma P ∧ g.rng.dims = [(0, 400)] ∧ 10000 * t = 1 / (HarrisCurrentSheet.constants : GemConstants ℝ).wci ∧ (∀ j < 10000, PlasmaStep P g 1 [0] [] t (s j) (s (j + 1))) ∧
      (∀ j ≤ 100, FileShows g.rng.dims P (s (100 * j)) (file j)) ∧ HarrisCurrentSheet.harrisCurrentSheet true canOpen = .ok r ∧ RunEnds canOpen 100 file r := by
  obtain ⟨g, P, m0, hP, -, hd, -, -, -, ⟨s, file, -, hs, hf, r, hr, hrun⟩, -⟩ := C84_harris (α := ℝ) (nx := 400) (by decide) canOpen 100 100
  refine ⟨g, P, _, s, file, r, hP, hd, ?_, hs, fun j hj => mul_comm j 100 ▸ hf j hj, hr, hrun⟩
  unfold HarrisCurrentSheet.timeDt
  generalize (HarrisCurrentSheet.constants : GemConstants ℝ).wci = W
  simp only [real_lit, real_ofInt]
  push_cast
  ring

/-- **C143** sod_shock_tube: 500 x 2 cells, 101 files, file `j` after `5 j` steps, the last one at the time 1/2. -/
theorem C143_sod (canOpen : Nat → Bool) : ∃ (g : Rectilinear ℝ) (s : Nat → Cell → ℝ) (file : Nat → List (Tok ℝ)) (r : SRes (Run ℝ) Unit), g.rng.dims = [(0, 500), (0, 2)] ∧
    (∀ j < 500, GasStep g 1 [0] [1] (7 / 5) (1 / 1000) (s j) (s (j + 1))) ∧
      (∀ j ≤ 100, FileShowsOne g.rng.dims ⟨"fluid", ["rho", "px", "py", "pz", "e"], Basis.volumeAverage⟩ (s (5 * j)) (file j)) ∧
      SodShockTube.sodShockTube true canOpen = .ok r ∧ RunEnds canOpen 100 file r := by
  obtain ⟨g, -, hd, ⟨s, file, -, hs, hf, r, hr, hrun⟩, -⟩ := C85_sod (α := ℝ) (nx := 500) (ny := 2) (by decide) (by decide) canOpen 100 5
  refine ⟨g, s, file, r, hd, fun j hj => ?_, fun j hj => mul_comm j 5 ▸ hf j hj, hr, hrun⟩
  have := hs j hj
  simp only [real_lit, real_ofInt] at this
  convert this using 1
  · push_cast; norm_num
  · push_cast; norm_num

/-- **C143** wave_1D: 2 x 2 x 128 cells, 101 files, file `j` after `10 j` steps, the last one at the time 1. -/
theorem C143_wave (canOpen : Nat → Bool) : ∃ (g : Rectilinear ℝ) (s : Nat → Cell → ℝ) (file : Nat → List (Tok ℝ)) (r : SRes (Run ℝ) Unit), g.rng.dims = [(0, 2), (0, 2), (0, 128)] ∧
    (∀ j < 1000, LightStep g 1 [0, 1, 2] 1 (1 / 1000) (s j) (s (j + 1))) ∧
      (∀ j ≤ 100, FileShowsOne g.rng.dims ⟨"field", ["Ex", "Ey", "Ez", "Bx", "By", "Bz"], Basis.volumeAverage⟩ (s (10 * j)) (file j)) ∧
      Wave1D.wave1D true canOpen = .ok r ∧ RunEnds canOpen 100 file r := by
  obtain ⟨g, -, hd, ⟨s, file, -, hs, hf, r, hr, hrun⟩, -⟩ := C86_wave (α := ℝ) (nx := 2) (ny := 2) (nz := 128) (by decide) (by decide) (by decide) canOpen 100 10
  refine ⟨g, s, file, r, hd, fun j hj => ?_, fun j hj => mul_comm j 10 ▸ hf j hj, hr, hrun⟩
  have := hs j hj
  simp only [real_lit, real_ofInt] at this
  convert this using 1
  · norm_num
  · push_cast; norm_num

-- if all files can be created there are 1001 of them for gem_challenge
example : ∃ r : Run ℝ, GemChallenge.gemChallenge true (fun _ => true) = .ok (.ok () r) ∧ r.files.map Prod.fst = List.range 1001 := by
  obtain ⟨g, P, t, s, file, r, -, -, -, -, -, h, e, -⟩ := C143_gem fun _ => true
  obtain ⟨m', rfl⟩ := e fun _ _ => rfl
  exact ⟨_, h, by simp [Function.comp_def]⟩
-- and if the fourth one of sod_shock_tube cannot, it ends with an exception after three
example : ∃ (msg : String) (r : Run ℝ), SodShockTube.sodShockTube true (fun k => k != 3) = .ok (.throw msg r) ∧ r.files.map Prod.fst = [0, 1, 2] := by
  obtain ⟨g, s, file, r, -, -, -, h, -, e⟩ := C143_sod fun k => k != 3
  obtain ⟨msg, m', rfl⟩ := e 3 (by decide) (by decide) (by decide)
  exact ⟨msg, _, h, by simp [List.range_succ]⟩

end QK.Props
