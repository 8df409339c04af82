import Verif.Props.Energy
import Verif.Props.Numbers
import Verif.Props.PulseProgram
import Verif.Proofs.EnergyGrowth
import Verif.Spec.Rounding
/-
C122: the runs of the programs for the electromagnetic field are stable: the energy stays below a bound known in advance (exact arithmetic).
-/
namespace QK.Props
open QK Spec Energy

/-- No division by zero in the limiter (as in C121). -/
def NoneZero (M : Box) (p : Nat) (u : Cell → ℝ) : Prop := ∀ x, InBox (M ++ [(0, (p : Int))]) x → NoZero (min M.length 3) 6 (fun x j => u (x ++ [(j : Int)])) x

section
variable {M : Box} {p : Nat} {ps : List Nat} {c t : ℝ} {dx : Nat → ℝ}

theorem energyGrowth_nonneg (hdx : ∀ d < min M.length 3, 0 < dx d) (ht : 0 ≤ t) : 0 ≤ energyGrowth M c dx t := by
  unfold energyGrowth
  refine add_nonneg (mul_nonneg ht (List.sum_nonneg fun a ha => ?_)) (mul_nonneg (sq_nonneg t) (List.sum_nonneg fun a ha => ?_))
  · simp only [List.mem_map, List.mem_range] at ha
    obtain ⟨d, hd, rfl⟩ := ha
    have := hdx d hd
    positivity
  · simp only [List.mem_map, List.mem_range] at ha
    obtain ⟨d, hd, rfl⟩ := ha
    positivity

/-- **C122** One stage. On a periodic mesh, whatever the field, moving it along its rates for the time `t` multiplies its energy (plus 3 per point) at most by `1 + energyGrowth`: the part of
first order in `t` is the error of the limiter's `1e-12` alone. -/
theorem C122_stage (hM : Pos M) (hp : 1 ≤ p) (C : Covered M [] ps) (hdx : ∀ d < min M.length 3, 0 < dx d) (ht : 0 ≤ t) {u u' r : Cell → ℝ}
    (F : Filled M [(0, (p : Int)), (0, 6)] [] isWallField ps u u') (hR : LightRate M p dx c u' r) (hz : NoneZero M p u') :
    fieldEnergy M p c (fun y => u' y + t * r y) + 3 * boxVolume (M ++ [(0, (p : Int))]) ≤
      (1 + energyGrowth M c dx t) * (fieldEnergy M p c u + 3 * boxVolume (M ++ [(0, (p : Int))])) := by
  have hall : ∀ d < M.length, d ∈ ps := fun d hd => (C.all d hd).resolve_left (by simp)
  have P := C121_light hM hp C (by simp) F hdx hR hz
  have R := rate_energy hM hp C.wide hall F hR
  have N0 : (0 : ℝ) ≤ 3 * boxVolume (M ++ [(0, (p : Int))]) := by
    rw [← cells_length (pos_points hM hp)]; positivity
  have E0 := energy_nonneg M p c u'
  have J : ((List.range (min M.length 3)).map fun d => 9 / (16 * 10 ^ 12) * (|c| * (1 + |c|) / dx d) * jumps M p c d u').sum ≤
      ((List.range (min M.length 3)).map fun d => 9 / (4 * 10 ^ 12) * (|c| * (1 + |c|) / dx d)).sum * (fieldEnergy M p c u' + 3 * boxVolume (M ++ [(0, (p : Int))])) := by
    rw [mul_comm (List.sum _), ← list_sum_mul]
    refine sum_le fun d hd => ?_
    have hd := List.mem_range.1 hd
    have := jumps_le hM hp C.wide F (d := d) (by omega) (hall d (by omega)) c
    have h1 : 0 ≤ |c| * (1 + |c|) / dx d := by have := hdx d hd; positivity
    have := mul_le_mul_of_nonneg_left this (by positivity : 0 ≤ 9 / (16 * 10 ^ 12) * (|c| * (1 + |c|) / dx d))
    refine this.trans (le_of_eq ?_)
    ring
  have K0 : 0 ≤ ((List.range (min M.length 3)).map fun d => 81 * (min M.length 3 : Nat) * (c ^ 2 / dx d ^ 2)).sum := by
    refine List.sum_nonneg fun a ha => ?_
    simp only [List.mem_map] at ha
    obtain ⟨d, -, rfl⟩ := ha
    positivity
  rw [C121_power, ← energy_filled F]
  unfold energyGrowth
  generalize ((List.range (min M.length 3)).map fun d => 81 * (min M.length 3 : Nat) * (c ^ 2 / dx d ^ 2)).sum = K at *
  generalize ((List.range (min M.length 3)).map fun d => 9 / (4 * 10 ^ 12) * (|c| * (1 + |c|) / dx d)).sum = η at *
  generalize (3 * boxVolume (M ++ [(0, (p : Int))]) : ℝ) = N at *
  have a1 := mul_le_mul_of_nonneg_left (P.trans J) ht
  have a2 := mul_le_mul_of_nonneg_left R (sq_nonneg t)
  have a3 : 0 ≤ t ^ 2 * (K * N) := by positivity
  nlinarith

end

section
variable {g : Rectilinear ℝ} {p : Nat} {ps : List Nat} {c t : ℝ}

/-- **C122** One time step multiplies the energy (plus 3 per point) at most by `exp energyGrowth`. -/
theorem C122_step (hM : Pos g.rng.dims) (hp : 1 ≤ p) (C : Covered g.rng.dims [] ps) (hdx : ∀ d < min g.rng.dims.length 3, 0 < g.dxAt d) (ht : 0 ≤ t) {q q' : Cell → ℝ}
    (H : LightStep g p ps c t q q') (hz : SoloAll g.rng.dims p 6 [] isWallField ps (LightRate g.rng.dims p g.dxAt c) t (NoneZero g.rng.dims p) q q') :
    fieldEnergy g.rng.dims p c q' + 3 * boxVolume (g.rng.dims ++ [(0, (p : Int))]) ≤
      Real.exp (energyGrowth g.rng.dims c g.dxAt t) * (fieldEnergy g.rng.dims p c q + 3 * boxVolume (g.rng.dims ++ [(0, (p : Int))])) := by
  obtain ⟨q0, r0, q1, q1', r1, q2, q2', r2, K0, K1, K2⟩ := H
  obtain ⟨z0, z1, z2⟩ := hz q0 r0 q1 q1' r1 q2 q2' r2 K0 K1 K2
  have s0 := C122_stage hM hp C hdx ht K0.fill K0.rates z0
  have s1 := C122_stage hM hp C hdx ht K1.fill K1.rates z1
  have s2 := C122_stage hM hp C hdx ht K2.fill K2.rates z2
  have N0 : (0 : ℝ) ≤ 3 * boxVolume (g.rng.dims ++ [(0, (p : Int))]) := by
    rw [← cells_length (pos_points hM hp)]; positivity
  have e0 : fieldEnergy g.rng.dims p c q0 = fieldEnergy g.rng.dims p c q := energy_filled K0.fill
  have n1 : q1 = fun y => q0 y + t * r0 y := funext fun y => K0.next y
  have n2 : q2 = fun y => 3 / 4 * q0 y + 1 / 4 * (q1' y + t * r1 y) := by
    funext y; rw [K1.next y]; simp only [rkStage, real_lit]; push_cast; ring
  have n3 : q' = fun y => 1 / 3 * q0 y + 2 / 3 * (q2' y + t * r2 y) := by
    funext y; rw [K2.next y]; simp only [rkStage, real_lit]; push_cast; ring
  have c2 := energy_convex (M := g.rng.dims) (p := p) (c := c) (a := 3 / 4) (b := 1 / 4) (by norm_num) (by norm_num) (by norm_num) q0 (fun y => q1' y + t * r1 y)
  have c3 := energy_convex (M := g.rng.dims) (p := p) (c := c) (a := 1 / 3) (b := 2 / 3) (by norm_num) (by norm_num) (by norm_num) q0 (fun y => q2' y + t * r2 y)
  rw [← n2] at c2
  rw [← n3] at c3
  rw [← n1] at s0
  rw [e0] at c2 c3
  have E0 := energy_nonneg g.rng.dims p c q
  exact three_stages (E2 := fieldEnergy g.rng.dims p c q2 + 3 * boxVolume (g.rng.dims ++ [(0, (p : Int))])) (energyGrowth_nonneg hdx ht) (by linarith) s0 (by linarith) (by linarith)

/-- **C122** Runs of any length, on any periodic mesh, with any field at the start: after `n` steps the energy (plus 3 per point) is at most `exp (n * energyGrowth)` times that at the start.
Nothing is assumed on the time step. -/
theorem C122_run (hM : Pos g.rng.dims) (hp : 1 ≤ p) (C : Covered g.rng.dims [] ps) (hdx : ∀ d < min g.rng.dims.length 3, 0 < g.dxAt d) (ht : 0 ≤ t) {s : Nat → Cell → ℝ} {k : Nat}
    (hs : ∀ i < k, LightStep g p ps c t (s i) (s (i + 1)))
    (hz : ∀ i < k, SoloAll g.rng.dims p 6 [] isWallField ps (LightRate g.rng.dims p g.dxAt c) t (NoneZero g.rng.dims p) (s i) (s (i + 1))) :
    ∀ n ≤ k, fieldEnergy g.rng.dims p c (s n) + 3 * boxVolume (g.rng.dims ++ [(0, (p : Int))]) ≤
      Real.exp (n * energyGrowth g.rng.dims c g.dxAt t) * (fieldEnergy g.rng.dims p c (s 0) + 3 * boxVolume (g.rng.dims ++ [(0, (p : Int))])) := by
  intro n
  induction n with
  | zero => intro _; simp
  | succ n ih =>
    intro hn
    have h1 := C122_step hM hp C hdx ht (hs n (by omega)) (hz n (by omega))
    have h2 := mul_le_mul_of_nonneg_left (ih (by omega)) (Real.exp_pos (energyGrowth g.rng.dims c g.dxAt t)).le
    refine h1.trans (h2.trans (le_of_eq ?_))
    rw [← mul_assoc, ← Real.exp_add]
    push_cast
    ring_nf

/-- **C122** The time step may be chosen so that the bound is as close as one likes to the error of the limiter's `1e-12`: `n` steps of length `T / n` give the exponent `T η + T² K / n`, where `η` comes from the
`1e-12` and neither depends on `n`. -/
theorem C122_exponent (M : Box) (c : ℝ) (dx : Nat → ℝ) (T : ℝ) {n : Nat} (hn : 0 < n) :
    n * energyGrowth M c dx (T / n) = T * ((List.range (min M.length 3)).map fun d => 9 / (4 * 10 ^ 12) * (|c| * (1 + |c|) / dx d)).sum +
      T ^ 2 / n * ((List.range (min M.length 3)).map fun d => 81 * (min M.length 3 : Nat) * (c ^ 2 / dx d ^ 2)).sum := by
  have : (n : ℝ) ≠ 0 := by positivity
  unfold energyGrowth
  field_simp

/-- **C122** No value can be larger than the energy allows. -/
theorem C122_value (M : Box) (p : Nat) (c : ℝ) (u : Cell → ℝ) {x : Cell} (hx : InBox (M ++ [(0, (p : Int))]) x) {j : Nat} (hj : j < 6) :
    emWeight c j * u (x ++ [(j : Int)]) ^ 2 ≤ 2 * fieldEnergy M p c u := by
  have h1 : emWeight c j * u (x ++ [(j : Int)]) ^ 2 ≤ dens c (fun x j => u (x ++ [(j : Int)])) x := by
    refine List.single_le_sum ?_ _ (List.mem_map.2 ⟨j, by simpa using hj, rfl⟩)
    intro a ha
    simp only [List.mem_map] at ha
    obtain ⟨i, -, rfl⟩ := ha
    exact mul_nonneg (emWeight_nonneg c i) (sq_nonneg _)
  have h2 : dens c (fun x j => u (x ++ [(j : Int)])) x ≤ ((cells (M ++ [(0, (p : Int))])).map fun x => dens c (fun x j => u (x ++ [(j : Int)])) x).sum := by
    refine List.single_le_sum ?_ _ (List.mem_map.2 ⟨x, mem_cells.2 hx, rfl⟩)
    intro a ha
    simp only [List.mem_map] at ha
    obtain ⟨y, -, rfl⟩ := ha
    exact dens_nonneg _ _ y
  have h3 : ((cells (M ++ [(0, (p : Int))])).map fun x => dens c (fun x j => u (x ++ [(j : Int)])) x).sum = 2 * fieldEnergy M p c u := by
    unfold fieldEnergy dens; ring
  linarith

end

/-- **C122** `wave_1D`, with any numbers of cells, frames and steps: every value in every file is below a bound that depends only on these numbers. (`SoloAll … NoneZero`: no stage divides by zero.) -/
theorem C122_wave {nx ny nz : Int} (hnx : 2 ≤ nx) (hny : 2 ≤ ny) (hnz : 2 ≤ nz) (numFrames numSteps : Nat) :
    ∃ (g : Rectilinear ℝ) (s : Nat → Cell → ℝ) (file : Nat → List (Tok ℝ)), g.rng.dims = [(0, nx), (0, ny), (0, nz)] ∧
      (∀ j < numFrames * numSteps, LightStep g 1 [0, 1, 2] 1 (1 / (numFrames * numSteps : Nat)) (s j) (s (j + 1))) ∧
      (∃ m', Wave1D.run true (fun _ => true) nx ny nz numFrames numSteps = .ok (.ok () ⟨m', (List.range (numFrames + 1)).map fun j => (j, file j)⟩)) ∧
      (∀ j ≤ numFrames, FileShowsOne g.rng.dims ⟨"field", ["Ex", "Ey", "Ez", "Bx", "By", "Bz"], Basis.volumeAverage⟩ (s (j * numSteps)) (file j)) ∧
      ((∀ j < numFrames * numSteps, SoloAll g.rng.dims 1 6 [] isWallField [0, 1, 2] (LightRate g.rng.dims 1 g.dxAt 1) (1 / (numFrames * numSteps : Nat)) (NoneZero g.rng.dims 1)
          (s j) (s (j + 1))) →
        ∀ j ≤ numFrames, ∀ x, InBox (g.rng.dims ++ [(0, 1)]) x → ∀ k : Nat, k < 6 → s (j * numSteps) (x ++ [(k : Int)]) ^ 2 ≤
          (11 * Real.exp (9 / (2 * 10 ^ 12) * (nx + ny + nz) + 243 * (nx ^ 2 + ny ^ 2 + nz ^ 2) / (numFrames * numSteps : Nat)) - 6) * (nx * ny * nz)) := by
  obtain ⟨g, hg, hd, ⟨s, file, init, hs, hf, r, hr, hrun, -⟩, -⟩ := C86_wave (α := ℝ) hnx hny hnz (fun _ => true) numFrames numSteps
  obtain ⟨m', rfl⟩ := hrun fun _ _ => rfl
  have ht : (Arith.lit 1 / Arith.ofInt (numFrames * numSteps) : ℝ) = 1 / (numFrames * numSteps : Nat) := by
    rw [real_lit, real_ofInt]; push_cast; ring
  have h1 : (Arith.ofInt 1 : ℝ) = 1 := by rw [real_ofInt]; simp
  rw [ht, h1] at hs
  refine ⟨g, s, file, hd, hs, ⟨m', hr⟩, hf, ?_⟩
  intro hz j hj x hx k hk
  have hpos : Pos g.rng.dims := by
    rw [hd]; intro d hd'; simp at hd'; rcases hd' with rfl | rfl | rfl <;> simp <;> omega
  have C : Covered g.rng.dims [] [0, 1, 2] := by rw [hd]; exact covered_three hnx hny hnz
  obtain ⟨d0, d1, d2, -⟩ := C88_cells.2.1 hg
  have x2 : (2 : ℝ) ≤ nx := by exact_mod_cast hnx
  have y2 : (2 : ℝ) ≤ ny := by exact_mod_cast hny
  have z2 : (2 : ℝ) ≤ nz := by exact_mod_cast hnz
  have hlen : g.rng.dims.length = 3 := by rw [hd]; rfl
  have hdx : ∀ d < min g.rng.dims.length 3, 0 < g.dxAt d := by
    intro d hd'
    rw [hlen] at hd'
    have : d = 0 ∨ d = 1 ∨ d = 2 := by omega
    rcases this with rfl | rfl | rfl
    · rw [d0]; positivity
    · rw [d1]; positivity
    · rw [d2]; positivity
  have ht0 : (0 : ℝ) ≤ 1 / (numFrames * numSteps : Nat) := by positivity
  have R := C122_run hpos (le_refl 1) C hdx ht0 hs hz _ (Nat.mul_le_mul_right numSteps hj)
  have vol : (boxVolume (g.rng.dims ++ [((0 : Int), ((1 : Nat) : Int))]) : ℝ) = nx * ny * nz := by
    rw [hd]; simp [boxVolume, lengths]; ring
  have hN : (0 : ℝ) ≤ nx * ny * nz := by positivity
  -- the energy at the start
  have E0 : fieldEnergy g.rng.dims 1 1 (s 0) ≤ 5 / 2 * (nx * ny * nz) := by
    have cell : ∀ x ∈ cells (g.rng.dims ++ [((0 : Int), ((1 : Nat) : Int))]), ((List.range 6).map fun j => emWeight 1 j * s 0 (x ++ [(j : Int)]) ^ 2).sum ≤ 5 := by
      intro x hx
      have hx := mem_cells.1 hx
      have v := fun j hj => init x hx j hj
      have hsin : phaseSine (centre g x 2) ^ 2 ≤ 1 := by
        unfold phaseSine; exact Real.sin_sq_le_one _
      rw [sum6, v 0 (by decide), v 1 (by decide), v 2 (by decide), v 3 (by decide), v 4 (by decide), v 5 (by decide)]
      simp only [waveComponents, emWeight, h1, real_lit, List.getD_cons_zero, List.getD_cons_succ]
      norm_num
      linarith
    have S := sum_le cell
    have len : ((cells (g.rng.dims ++ [((0 : Int), ((1 : Nat) : Int))])).map fun _ => (5 : ℝ)).sum = 5 * (nx * ny * nz) := by
      rw [← vol, ← cells_length (pos_points hpos (le_refl 1))]
      simp [List.map_const', List.sum_replicate]
      ring
    rw [len] at S
    have S2 : fieldEnergy g.rng.dims 1 1 (s 0) ≤ 5 * (nx * ny * nz) / 2 := div_le_div_of_nonneg_right S (by norm_num)
    linarith
  -- the exponent
  have G : ((j * numSteps : Nat) : ℝ) * energyGrowth g.rng.dims 1 g.dxAt (1 / (numFrames * numSteps : Nat)) ≤
      9 / (2 * 10 ^ 12) * (nx + ny + nz) + 243 * (nx ^ 2 + ny ^ 2 + nz ^ 2) / (numFrames * numSteps : Nat) := by
    have g0 := energyGrowth_nonneg (M := g.rng.dims) (c := 1) hdx ht0
    have hle : ((j * numSteps : Nat) : ℝ) ≤ (numFrames * numSteps : Nat) := by exact_mod_cast Nat.mul_le_mul_right numSteps hj
    refine (mul_le_mul_of_nonneg_right hle g0).trans ?_
    rcases Nat.eq_zero_or_pos (numFrames * numSteps) with h | h
    · rw [h]; simp; positivity
    rw [C122_exponent _ _ _ _ h, hlen]
    simp only [Nat.min_self, List.range_succ, List.range_zero, List.nil_append, List.map_append, List.map_cons, List.map_nil, List.sum_append, List.sum_cons, List.sum_nil, d0, d1, d2, abs_one]
    refine le_of_eq ?_
    have : ((numFrames * numSteps : Nat) : ℝ) ≠ 0 := by positivity
    generalize ((numFrames * numSteps : Nat) : ℝ) = n at *
    push_cast
    field_simp
    ring
  have V := C122_value g.rng.dims 1 1 (s (j * numSteps)) hx hk
  have w1 : emWeight 1 k = 1 := by unfold emWeight; split <;> norm_num
  rw [w1, one_mul] at V
  rw [vol] at R
  have X := Real.exp_le_exp.2 G
  set e := Real.exp (9 / (2 * 10 ^ 12) * (nx + ny + nz) + 243 * (nx ^ 2 + ny ^ 2 + nz ^ 2) / (numFrames * numSteps : Nat)) with he
  have e0 : 0 ≤ e := (Real.exp_pos _).le
  have E1 := energy_nonneg g.rng.dims 1 1 (s 0)
  have R2 := R.trans (mul_le_mul_of_nonneg_right X (by linarith))
  have R3 := R2.trans (mul_le_mul_of_nonneg_left (add_le_add_left E0 _) e0)
  linarith

/-- **C122** `gaussian_pulse` with any initial field (the program's own fails, C65): likewise for every file. -/
theorem C122_pulse {nx : Int} (hnx : 2 ≤ nx) : ∃ g : Rectilinear ℝ, GaussianPulse.grid nx = .ok g ∧ g.rng.dims = [(0, nx)] ∧
    ∀ (ic : SM (Mgr ℝ) Unit) (m0 : Mgr ℝ) (u : Cell → ℝ), ic (Mgr.make g) = .ok () m0 → m0.Good (fun id => id ∈ Wave1D.field.ids) → m0.Laid → m0.grid = g →
      m0.Stores ⟨"field", ["Ex", "Ey", "Ez", "Bx", "By", "Bz"], Basis.volumeAverage⟩ u → ∀ numFrames numSteps : Nat,
    ∃ (r : Run ℝ) (s : Nat → Cell → ℝ) (file : Nat → List (Tok ℝ)), s 0 = u ∧
      Run.main ic (fun _ => true) [Wave1D.field.q] ((GaussianPulse.solvers : Light ℝ).step true) (Wave1D.timeDt numFrames numSteps) numFrames numSteps ⟨Mgr.make g, []⟩ = .ok () r ∧
      r.files = (List.range (numFrames + 1)).map (fun j => (j, file j)) ∧
      (∀ j < numFrames * numSteps, LightStep g 1 [0] 5 (1 / (numFrames * numSteps : Nat)) (s j) (s (j + 1))) ∧
      (∀ j ≤ numFrames, FileShowsOne [(0, nx)] ⟨"field", ["Ex", "Ey", "Ez", "Bx", "By", "Bz"], Basis.volumeAverage⟩ (s (j * numSteps)) (file j)) ∧
      ((∀ j < numFrames * numSteps, SoloAll g.rng.dims 1 6 [] isWallField [0] (LightRate g.rng.dims 1 g.dxAt 5) (1 / (numFrames * numSteps : Nat)) (NoneZero g.rng.dims 1)
          (s j) (s (j + 1))) →
        ∀ j ≤ numFrames, fieldEnergy g.rng.dims 1 5 (s (j * numSteps)) + 3 * nx ≤
          Real.exp (135 / (2 * 10 ^ 12) * nx + 2025 * nx ^ 2 / (numFrames * numSteps : Nat)) * (fieldEnergy g.rng.dims 1 5 u + 3 * nx)) := by
  obtain ⟨g, hg, hd, H⟩ := C113_program (α := ℝ) hnx
  refine ⟨g, hg, hd, ?_⟩
  intro ic m0 u hic hG hL hgr hu numFrames numSteps
  obtain ⟨⟨s, file, a1, hs, a3, a4, -⟩, -⟩ := H ic m0 u hic hG hL hgr hu (fun _ => true) numFrames numSteps
  obtain ⟨m', hr⟩ := a4 fun _ _ => rfl
  have ht : (Arith.lit 1 / Arith.ofInt (numFrames * numSteps) : ℝ) = 1 / (numFrames * numSteps : Nat) := by
    rw [real_lit, real_ofInt]; push_cast; ring
  have h5 : (Arith.ofInt 5 : ℝ) = 5 := by rw [real_ofInt]; simp
  rw [ht, h5] at hs
  refine ⟨_, s, file, a1, hr, rfl, hs, a3, ?_⟩
  intro hz j hj
  have hpos : Pos g.rng.dims := by
    rw [hd]; intro d hd'; simp at hd'; subst hd'; simp; omega
  have C : Covered g.rng.dims [] [0] := by
    rw [hd]
    constructor
    · intro d hd'
      obtain rfl : d = 0 := by simp at hd'; omega
      simp [hi, lo]; omega
    · intro d hd'
      obtain rfl : d = 0 := by simp at hd'; omega
      simp
  have d0 : g.dxAt 0 = 1 / nx := by
    unfold GaussianPulse.grid at hg
    rw [show Range.ofLengths 1 [nx] = .ok (Range.setup [(0, nx)]) from rfl, Res.ok_bind] at hg
    rw [dxAt_make hg (i := 0) rfl rfl]; simp [real_lit]
  have x2 : (2 : ℝ) ≤ nx := by exact_mod_cast hnx
  have hlen : min g.rng.dims.length 3 = 1 := by rw [hd]; rfl
  have hdx : ∀ d < min g.rng.dims.length 3, 0 < g.dxAt d := by
    intro d hd'
    rw [hlen] at hd'
    obtain rfl : d = 0 := by omega
    rw [d0]; positivity
  have ht0 : (0 : ℝ) ≤ 1 / (numFrames * numSteps : Nat) := by positivity
  have R := C122_run hpos (le_refl 1) C hdx ht0 hs hz _ (Nat.mul_le_mul_right numSteps hj)
  have vol : (boxVolume (g.rng.dims ++ [((0 : Int), ((1 : Nat) : Int))]) : ℝ) = nx := by
    rw [hd]; simp [boxVolume, lengths]
  have G : ((j * numSteps : Nat) : ℝ) * energyGrowth g.rng.dims 5 g.dxAt (1 / (numFrames * numSteps : Nat)) ≤
      135 / (2 * 10 ^ 12) * nx + 2025 * nx ^ 2 / (numFrames * numSteps : Nat) := by
    have g0 := energyGrowth_nonneg (M := g.rng.dims) (c := 5) hdx ht0
    have hle : ((j * numSteps : Nat) : ℝ) ≤ (numFrames * numSteps : Nat) := by exact_mod_cast Nat.mul_le_mul_right numSteps hj
    refine (mul_le_mul_of_nonneg_right hle g0).trans ?_
    rcases Nat.eq_zero_or_pos (numFrames * numSteps) with h | h
    · rw [h]; simp; positivity
    rw [C122_exponent _ _ _ _ h, hlen]
    simp only [List.range_succ, List.range_zero, List.nil_append, List.map_cons, List.map_nil, List.sum_cons, List.sum_nil, d0, abs_of_pos (by norm_num : (0 : ℝ) < 5)]
    refine le_of_eq ?_
    have : ((numFrames * numSteps : Nat) : ℝ) ≠ 0 := by positivity
    generalize ((numFrames * numSteps : Nat) : ℝ) = n at *
    push_cast
    field_simp
    ring
  rw [vol, a1] at R
  have E1 := energy_nonneg g.rng.dims 1 5 u
  exact R.trans (mul_le_mul_of_nonneg_right (Real.exp_le_exp.2 G) (by linarith))

/-! ### Examples -/

-- C122_stage: a magnetic field with a jump
example : ∃ u' r : Cell → ℝ, Filled exTwo.rng.dims [(0, ((1 : Nat) : Int)), (0, 6)] [] isWallField [0] exJump u' ∧ LightRate exTwo.rng.dims (1 : Nat) exTwo.dxAt 1 u' r ∧
    NoneZero exTwo.rng.dims 1 u' := by
  obtain ⟨s, hs, b⟩ := (C90_exists (g := exTwo) (p := (1 : Nat)) (ws := []) (ps := [0]) (by simp) (by simp [exTwo_dims]) (by simp) (1 / 1000)).2.1 1 exJump
  obtain ⟨q0, r0, q1, q1', r1, q2, q2', r2, H0, -⟩ := b 0
  rw [hs] at H0
  exact ⟨q0, r0, H0.fill, H0.rates, exJump_noZero (.inr (by simp)) H0.fill⟩

/-- An electric field along the mesh, of opposite sign in its two cells. -/
noncomputable def exLong : Cell → ℝ := fun y => if y.getD 2 0 = 0 then (if y.getD 0 0 < 1 then 1 else -1) else 0

theorem exLong_cell (a b j : Int) : (j = 0 ∧ (exLong [a, b, j] = 1 ∨ exLong [a, b, j] = -1)) ∨ (j ≠ 0 ∧ exLong [a, b, j] = 0) := by
  show (j = 0 ∧ ((if j = 0 then (if a < 1 then (1 : ℝ) else -1) else 0) = 1 ∨ (if j = 0 then (if a < 1 then (1 : ℝ) else -1) else 0) = -1)) ∨
    (j ≠ 0 ∧ (if j = 0 then (if a < 1 then (1 : ℝ) else -1) else 0) = 0)
  split_ifs <;> simp [*]

/-- The field is `exLong` in the cells of the mesh. -/
def IsLong (u : Cell → ℝ) : Prop := ∀ x, InBox (exTwo.rng.dims ++ [(0, ((1 : Nat) : Int)), (0, 6)]) x → u x = exLong x

theorem long_filled {u u' : Cell → ℝ} (hu : IsLong u) (F : Filled exTwo.rng.dims [(0, ((1 : Nat) : Int)), (0, 6)] [] isWallField [0] u u')
    {a : Int} (a1 : -2 ≤ a) (a2 : a ≤ 3) {j : Int} (j1 : 0 ≤ j) (j2 : j < 6) : (j = 0 ∧ (u' [a, 0, j] = 1 ∨ u' [a, 0, j] = -1)) ∨ (j ≠ 0 ∧ u' [a, 0, j] = 0) := by
  by_cases hin : 0 ≤ a ∧ a < 2
  · have hb : InBox (exTwo.rng.dims ++ [(0, ((1 : Nat) : Int)), (0, 6)]) [a, 0, j] := by rw [exTwo_dims]; simp [InBox]; omega
    rw [F.inside _ hb, hu _ hb]
    exact exLong_cell a 0 j
  have gh : FaceGhost 2 (exTwo.rng.dims ++ [(0, ((1 : Nat) : Int)), (0, 6)]) 0 [a, 0, j] := by
    rw [exTwo_dims]
    simp [FaceGhost, LowGhost, UpGhost, InBox, slab, lo, hi]
    omega
  have im : ∃ b : Int, periodicImage 2 (exTwo.rng.dims ++ [(0, ((1 : Nat) : Int)), (0, 6)]) 0 [a, 0, j] = [b, 0, j] := by
    unfold periodicImage
    split
    · exact ⟨_, rfl⟩
    · exact ⟨_, rfl⟩
  obtain ⟨b, hb⟩ := im
  rw [F.wrap 0 (by simp) _ gh, hu _ (periodicImage_interior (by simp [exTwo_dims]) (by rw [exTwo_dims]; simp [hi, lo]) gh), hb]
  exact exLong_cell b 0 j

theorem long_noZero {u u' : Cell → ℝ} (hu : IsLong u) (F : Filled exTwo.rng.dims [(0, ((1 : Nat) : Int)), (0, 6)] [] isWallField [0] u u') : NoneZero exTwo.rng.dims 1 u' := by
  intro x hx d hd s s1 s2 j hj
  obtain rfl : d = 0 := by simp [exTwo_dims] at hd; omega
  obtain ⟨a, b, rfl, a0, a2⟩ := exTwo_cell hx
  obtain rfl : b = 0 := by rw [exTwo_dims] at hx; simp [InBox] at hx; omega
  show u' [a + (s + 1), 0, (j : Int)] - u' [a + s, 0, (j : Int)] + 1 / 10 ^ 12 ≠ 0
  have e1 := long_filled hu F (a := a + (s + 1)) (by omega) (by omega) (j := j) (by omega) (by omega)
  have e2 := long_filled hu F (a := a + s) (by omega) (by omega) (j := j) (by omega) (by omega)
  rcases e1 with ⟨-, e1 | e1⟩ | ⟨h1, e1⟩ <;> rcases e2 with ⟨-, e2 | e2⟩ | ⟨h2, e2⟩ <;> rw [e1, e2] <;> norm_num

/-- Such a field does not change. -/
theorem long_rate {u u' r : Cell → ℝ} {c : ℝ} (hu : IsLong u) (F : Filled exTwo.rng.dims [(0, ((1 : Nat) : Int)), (0, 6)] [] isWallField [0] u u')
    (hR : LightRate exTwo.rng.dims (1 : Nat) exTwo.dxAt c u' r) : ∀ x, InBox (exTwo.rng.dims ++ [(0, ((1 : Nat) : Int)), (0, 6)]) x → r x = 0 := by
  intro y hy
  obtain ⟨a, b, j, rfl⟩ : ∃ a b j : Int, y = [a, b, j] := by
    rw [exTwo_dims] at hy
    match y, hy with
    | [a, b, j], _ => exact ⟨a, b, j, rfl⟩
  have hy' : (0 ≤ a ∧ a < 2) ∧ (0 ≤ b ∧ b < 1) ∧ 0 ≤ j ∧ j < 6 := by rw [exTwo_dims] at hy; simpa [InBox] using hy
  obtain rfl : b = 0 := by omega
  obtain ⟨n, rfl⟩ : ∃ n : Nat, j = n := ⟨j.toNat, by omega⟩
  have hx : InBox (exTwo.rng.dims ++ [(0, ((1 : Nat) : Int))]) [a, 0] := by rw [exTwo_dims]; simp [InBox]; omega
  have := hR [a, 0] hx n (by omega)
  rw [show ([a, 0] : Cell) ++ [(n : Int)] = [a, 0, (n : Int)] from rfl, real_lit, fvUpdate_add] at this
  rw [this]
  have z : ∀ k : Int, 0 ≤ k → k ≤ 1 → (faceFlux (fluxOf (Maxwell.rusanov c 0)) 6 (fun x j => u' (x ++ [(j : Int)])) 0 (moveBy [a, 0] 0 k)).getD n 0 = 0 := by
    intro k k0 k1
    rw [faceFlux_line c (by decide) _ [a, 0] k (by omega)]
    have v : ∀ (m : Int) (i : Nat), -2 ≤ m → m ≤ 2 → i ≠ 0 → i < 6 → u' (moveBy [a, 0] 0 m ++ [(i : Int)]) = 0 := by
      intro m i m1 m2 i0 i6
      rcases long_filled hu F (a := a + m) (by omega) (by omega) (j := i) (by omega) (by omega) with ⟨h, -⟩ | ⟨-, h⟩
      · omega
      · exact h
    have hn : n < 6 := by omega
    have four : ∀ i : Nat, i ≠ 0 → i < 6 → ∀ m : Int, k - 2 ≤ m → m ≤ k + 1 → u' (moveBy [a, 0] 0 m ++ [(i : Int)]) = 0 := fun i i0 i6 m m1 m2 => v m i (by omega) (by omega) i0 i6
    have zE : ∀ (σ : ℝ) (i i' : Nat), i ≠ 0 → i < 6 → i' ≠ 0 → i' < 6 →
        fluxE σ |c| (fun k => u' (moveBy [a, 0] 0 k ++ [(i : Int)])) (fun k => u' (moveBy [a, 0] 0 k ++ [(i' : Int)])) k = 0 ∧
        fluxB σ |c| (fun k => u' (moveBy [a, 0] 0 k ++ [(i : Int)])) (fun k => u' (moveBy [a, 0] 0 k ++ [(i' : Int)])) k = 0 := by
      intro σ i i' h1 h2 h3 h4
      have f1 := four i h1 h2
      have f2 := four i' h3 h4
      unfold fluxE fluxB lft rgt
      simp only [f1 (k - 2) (by omega) (by omega), f1 (k - 1) (by omega) (by omega), f1 k (by omega) (by omega), f1 (k + 1) (by omega) (by omega),
        f2 (k - 2) (by omega) (by omega), f2 (k - 1) (by omega) (by omega), f2 k (by omega) (by omega), f2 (k + 1) (by omega) (by omega), sub_self, lim_zero]
      constructor <;> ring
    interval_cases n
    · rfl
    · exact (zE 1 1 5 (by decide) (by decide) (by decide) (by decide)).1
    · exact (zE (-1) 2 4 (by decide) (by decide) (by decide) (by decide)).1
    · rfl
    · exact (zE (-1) 2 4 (by decide) (by decide) (by decide) (by decide)).2
    · exact (zE 1 1 5 (by decide) (by decide) (by decide) (by decide)).2
  have z0 := z 0 (by decide) (by decide)
  have z1 := z 1 (by decide) (by decide)
  rw [moveBy_zero] at z0
  have hl : List.range (min exTwo.rng.dims.length 3) = [0] := rfl
  rw [hl]
  simp only [List.map_cons, List.map_nil, List.sum_cons, List.sum_nil, z0, z1]
  norm_num

-- C122_run: the hypotheses, for a run of any length from this field
example (k : Nat) : ∃ s : Nat → Cell → ℝ, s 0 = exLong ∧ (∀ i < k, LightStep exTwo (1 : Nat) [0] 1 (1 / 1000) (s i) (s (i + 1))) ∧
    ∀ i < k, SoloAll exTwo.rng.dims (1 : Nat) 6 [] isWallField [0] (LightRate exTwo.rng.dims (1 : Nat) exTwo.dxAt 1) (1 / 1000) (NoneZero exTwo.rng.dims 1) (s i) (s (i + 1)) := by
  obtain ⟨s, hs, b⟩ := (C90_exists (g := exTwo) (p := (1 : Nat)) (ws := []) (ps := [0]) (by simp) (by simp [exTwo_dims]) (by simp) (1 / 1000)).2.1 1 exLong
  refine ⟨s, hs, fun i _ => b i, ?_⟩
  have keep : ∀ {q q0 r0 q1 q1' r1 q2 q2' r2 q' : Cell → ℝ}, IsLong q →
      SoloStage exTwo.rng.dims (1 : Nat) 6 [] isWallField [0] (LightRate exTwo.rng.dims (1 : Nat) exTwo.dxAt 1) (1 / 1000) 0 q0 q q0 r0 q1 →
      SoloStage exTwo.rng.dims (1 : Nat) 6 [] isWallField [0] (LightRate exTwo.rng.dims (1 : Nat) exTwo.dxAt 1) (1 / 1000) 1 q0 q1 q1' r1 q2 →
      SoloStage exTwo.rng.dims (1 : Nat) 6 [] isWallField [0] (LightRate exTwo.rng.dims (1 : Nat) exTwo.dxAt 1) (1 / 1000) 2 q0 q2 q2' r2 q' →
      (NoneZero exTwo.rng.dims 1 q0 ∧ NoneZero exTwo.rng.dims 1 q1' ∧ NoneZero exTwo.rng.dims 1 q2') ∧ IsLong q' := by
    intro q q0 r0 q1 q1' r1 q2 q2' r2 q' hq K0 K1 K2
    have l0 : IsLong q0 := fun x hx => (K0.fill.inside x hx).trans (hq x hx)
    have l1 : IsLong q1 := fun x hx => by
      rw [K0.next x, long_rate hq K0.fill K0.rates x hx, l0 x hx]; simp [rkStage]
    have l2 : IsLong q2 := fun x hx => by
      rw [K1.next x, long_rate l1 K1.fill K1.rates x hx, l0 x hx, K1.fill.inside x hx, l1 x hx]; simp only [rkStage, real_lit]; push_cast; ring
    have l3 : IsLong q' := fun x hx => by
      rw [K2.next x, long_rate l2 K2.fill K2.rates x hx, l0 x hx, K2.fill.inside x hx, l2 x hx]; simp only [rkStage, real_lit]; push_cast; ring
    exact ⟨⟨long_noZero hq K0.fill, long_noZero l1 K1.fill, long_noZero l2 K2.fill⟩, l3⟩
  have long : ∀ i, IsLong (s i) := by
    intro i
    induction i with
    | zero => rw [hs]; exact fun _ _ => rfl
    | succ i ih =>
      obtain ⟨q0, r0, q1, q1', r1, q2, q2', r2, K0, K1, K2⟩ := b i
      exact (keep ih K0 K1 K2).2
  intro i _ q0 r0 q1 q1' r1 q2 q2' r2 K0 K1 K2
  exact (keep (long i) K0 K1 K2).1

end QK.Props
