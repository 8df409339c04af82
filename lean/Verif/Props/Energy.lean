import Verif.Props.Coupling
import Verif.Props.Truncation
import Verif.Proofs.EnergyField
/-
C121: the scheme for the electromagnetic field creates no energy, nor do the coupled fluids (exact arithmetic).
-/
namespace QK.Props
open QK Spec Energy

/-- **C121** What the quantity bounded below is: if the field `u` changes at the rate `r` for the time `t`, its energy changes by `t * fieldPower`, up to the energy of the change. -/
theorem C121_power (M : Box) (p : Nat) (c t : ℝ) (u r : Cell → ℝ) :
    fieldEnergy M p c (fun y => u y + t * r y) = fieldEnergy M p c u + t * fieldPower M p c u r + t ^ 2 * fieldEnergy M p c r := by
  have cell : ∀ x : Cell, ((List.range 6).map fun j => emWeight c j * (u (x ++ [(j : Int)]) + t * r (x ++ [(j : Int)])) ^ 2).sum =
      ((List.range 6).map fun j => emWeight c j * u (x ++ [(j : Int)]) ^ 2).sum + 2 * t * ((List.range 6).map fun j => emWeight c j * (u (x ++ [(j : Int)]) * r (x ++ [(j : Int)]))).sum +
      t ^ 2 * ((List.range 6).map fun j => emWeight c j * r (x ++ [(j : Int)]) ^ 2).sum := by
    intro x
    rw [← list_sum_mul, ← list_sum_mul, ← list_sum_add, ← list_sum_add]
    congr 1
    refine List.map_congr_left fun j _ => ?_
    ring
  unfold fieldEnergy fieldPower
  simp only [cell, list_sum_add, list_sum_mul]
  ring

theorem noZero_both {B : Box} {m : Nat} {u : Cell → ℝ} (hz : ∀ x, InBox B x → NoZero m 6 (fun x j => u (x ++ [(j : Int)])) x) :
    ∀ x, InBox B x → ∀ d < m, ∀ j : Nat, j < 6 → u (x ++ [(j : Int)]) - u (moveBy x d (-1) ++ [(j : Int)]) ≠ -(1 / 10 ^ 12) ∧
      u (moveBy x d 1 ++ [(j : Int)]) - u (x ++ [(j : Int)]) ≠ -(1 / 10 ^ 12) := by
  intro x hx d hd j hj
  have h1 := hz x hx d hd (-1) (by decide) (by decide) j hj
  have h2 := hz x hx d hd 0 (by decide) (by decide) j hj
  rw [show (-1 : Int) + 1 = 0 by rfl, moveBy_zero] at h1
  rw [zero_add, moveBy_zero] at h2
  exact ⟨fun h => h1 (by rw [h]; ring), fun h => h2 (by rw [h]; ring)⟩

theorem light_fluxPower {M : Box} {p : Nat} {c : ℝ} {dx : Nat → ℝ} {u' r : Cell → ℝ} (hR : LightRate M p dx c u' r) : fieldPower M p c u' r = fluxPower M p c dx u' := by
  unfold fluxPower fieldPower
  congr 1
  refine List.map_congr_left fun x hx => ?_
  congr 1
  refine List.map_congr_left fun j hj => ?_
  rw [hR x (mem_cells.1 hx) j (by simpa using hj), real_lit]
  simp [component]

/-- **C121** The fluxes create no energy of the field. On a mesh whose directions are periodic or, for direction 0, closed by conducting walls, the energy `(E² + c² B²) / 2`, summed over all cells,
does not grow by the fluxes, apart from what the `1e-12` in the denominators of the limiter does: at most `9/16 · 1e-12 · c (1 + c)` times the sum of the differences between neighbours over the width of the
cells. (`NoZero`: the code divides by zero where two neighbouring values differ by exactly `-1e-12`.) -/
theorem C121_light {M : Box} (hM : Pos M) {p : Nat} (hp : 1 ≤ p) {ws ps : List Nat} (C : Covered M ws ps) (h0 : ∀ i ∈ ws, i = 0) {u u' r : Cell → ℝ}
    (F : Filled M [(0, (p : Int)), (0, 6)] ws isWallField ps u u') {c : ℝ} {dx : Nat → ℝ} (hdx : ∀ d < min M.length 3, 0 < dx d) (hR : LightRate M p dx c u' r)
    (hz : ∀ x, InBox (M ++ [(0, (p : Int))]) x → NoZero (min M.length 3) 6 (fun x j => u' (x ++ [(j : Int)])) x) :
    fieldPower M p c u' r ≤ ((List.range (min M.length 3)).map fun d => 9 / (16 * 10 ^ 12) * (|c| * (1 + |c|) / dx d) * jumps M p c d u').sum := by
  rw [light_fluxPower hR]
  exact fluxPower_le hp hM h0 C.wide C.all F c hdx (noZero_both hz)

/-- **C121** Neither do fluids and field together: in every stage of every step of a two-fluid program the energy of both fluids and `ε₀` times that of the field, summed over all cells, does not grow but for the
same error. (Walls in direction 0 only; for `Consistent` see `C100_programs`.) -/
theorem C121_plasma {P : Plasma ℝ} {g : Rectilinear ℝ} {p : Nat} {ws ps : List Nat} {t : ℝ} {k : Nat} {start cur cur' rate next : State ℝ}
    (hM : Pos g.rng.dims) (h3 : g.rng.dims.length ≤ 3) (hp : 1 ≤ p) (C : Covered g.rng.dims ws ps) (h0 : ∀ i ∈ ws, i = 0) (hdx : ∀ d < min g.rng.dims.length 3, 0 < g.dxAt d)
    (S : PlasmaStage P g p ws ps t k start cur cur' rate next) {eps0 : ℝ} (hc : Consistent P eps0)
    (hz : ∀ x, InBox (g.rng.dims ++ [(0, (p : Int))]) x → NoZero (min g.rng.dims.length 3) 6 (fun x j => cur'.f (x ++ [(j : Int)])) x) :
    fieldTotal g.rng.dims p rate.e 4 + fieldTotal g.rng.dims p rate.i 4 + eps0 * fieldPower g.rng.dims p P.c cur'.f rate.f ≤
      eps0 * ((List.range (min g.rng.dims.length 3)).map fun d => 9 / (16 * 10 ^ 12) * (|P.c| * (1 + |P.c|) / g.dxAt d) * jumps g.rng.dims p P.c d cur'.f).sum := by
  have main := mul_le_mul_of_nonneg_left (fluxPower_le hp hM h0 C.wide C.all S.fill_f P.c hdx (noZero_both hz)) hc.pos.le
  refine le_trans (le_of_eq ?_) main
  -- the sources cancel in every cell
  have cell : ∀ x ∈ cells (g.rng.dims ++ [(0, (p : Int))]), rate.e (x ++ [((4 : Nat) : Int)]) + rate.i (x ++ [((4 : Nat) : Int)]) +
      eps0 * ((List.range 6).map fun j => emWeight P.c j * (cur'.f (x ++ [(j : Int)]) * rate.f (x ++ [(j : Int)]))).sum =
      fluidFlux g P.gamma cur'.e x 4 + fluidFlux g P.gamma cur'.i x 4 +
      eps0 * ((List.range 6).map fun j => emWeight P.c j * (cur'.f (x ++ [(j : Int)]) * lightFlux g P.c cur'.f x j)).sum := by
    intro x hx
    have hx := mem_cells.1 hx
    have en := C100_energy S hc hx
    have mag : ∀ j : Nat, 3 ≤ j → j < 6 → rate.f (x ++ [(j : Int)]) = lightFlux g P.c cur'.f x j := by
      intro j j3 j6
      obtain ⟨rf, hf, Cf⟩ := S.rate_f
      rw [Cf.rest _ (fun y k _ h1 h2 => snoc_ne (by omega)), hf x hx j j6, real_lit]
      simp [lightFlux]
    have b3 := mag 3 (by decide) (by decide)
    have b4 := mag 4 (by decide) (by decide)
    have b5 := mag 5 (by decide) (by decide)
    rw [sum6, sum6, b3, b4, b5]
    unfold vdot eVec at en
    simp only [Matrix.cons_val_zero, Matrix.cons_val_one, Matrix.cons_val_two, Fin.val_zero, Fin.val_one, Fin.val_two, emWeight] at en ⊢
    norm_num at en ⊢
    linarith
  have tot : ∀ {u u' : Cell → ℝ}, Filled g.rng.dims [(0, (p : Int)), (0, 5)] ws isMomentum ps u u' →
      ((cells (g.rng.dims ++ [(0, (p : Int))])).map fun x => fluidFlux g P.gamma u' x 4).sum = 0 := by
    intro u u' F
    have := fvUpdate_closed (pos_points hM hp) (n := 5) (u := fun x j => u' (x ++ [(j : Int)])) (dims := List.range g.rng.dims.length) (by intro d hd; simp at hd ⊢; omega)
      (fun dim => fluxOf (Euler.hll P.gamma dim)) g.dxAt 4 (fun _ _ => 0) fun d hd => fluid_shut h3 C.wide C.all F P.gamma (by simpa using hd)
    rw [fieldTotal_zero] at this
    exact this
  have sum := congrArg List.sum (List.map_congr_left cell)
  simp only [list_sum_add, list_sum_mul] at sum
  rw [tot S.fill_e, tot S.fill_i] at sum
  unfold fieldTotal total fieldPower fluxPower fieldPower
  rw [sum, zero_add, zero_add]
  congr 2
  refine List.map_congr_left fun x _ => ?_
  congr 1
  refine List.map_congr_left fun j _ => ?_
  simp [component, lightFlux]

/-- A magnetic field of opposite direction in the two cells of a mesh. -/
noncomputable def exJump : Cell → ℝ := fun y => if y.getD 2 0 = 4 then (if y.getD 0 0 < 1 then 1 else -1) else 0

theorem exJump_cell (a b j : Int) : (j = 4 ∧ (exJump [a, b, j] = 1 ∨ exJump [a, b, j] = -1)) ∨ (j ≠ 4 ∧ exJump [a, b, j] = 0) := by
  show (j = 4 ∧ ((if j = 4 then (if a < 1 then (1 : ℝ) else -1) else 0) = 1 ∨ (if j = 4 then (if a < 1 then (1 : ℝ) else -1) else 0) = -1)) ∨
    (j ≠ 4 ∧ (if j = 4 then (if a < 1 then (1 : ℝ) else -1) else 0) = 0)
  split_ifs <;> simp [*]

theorem exJump_filled {ws ps : List Nat} (h : 0 ∈ ws ∨ 0 ∈ ps) {u' : Cell → ℝ} (F : Filled exTwo.rng.dims [(0, ((1 : Nat) : Int)), (0, 6)] ws isWallField ps exJump u')
    {a : Int} (a1 : -2 ≤ a) (a2 : a ≤ 3) {j : Int} (j1 : 0 ≤ j) (j2 : j < 6) : (j = 4 ∧ (u' [a, 0, j] = 1 ∨ u' [a, 0, j] = -1)) ∨ (j ≠ 4 ∧ u' [a, 0, j] = 0) := by
  by_cases hin : 0 ≤ a ∧ a < 2
  · rw [F.inside [a, 0, j] (by rw [exTwo_dims]; simp [InBox]; omega)]
    exact exJump_cell a 0 j
  have gh : FaceGhost 2 (exTwo.rng.dims ++ [(0, ((1 : Nat) : Int)), (0, 6)]) 0 [a, 0, j] := by
    rw [exTwo_dims]
    simp [FaceGhost, LowGhost, UpGhost, InBox, slab, lo, hi]
    omega
  rcases h with h | h
  · have im : ∃ b : Int, mirrorImage 2 (exTwo.rng.dims ++ [(0, ((1 : Nat) : Int)), (0, 6)]) 0 [a, 0, j] = [b, 0, j] := by
      unfold mirrorImage
      split
      · exact ⟨_, rfl⟩
      · exact ⟨_, rfl⟩
    obtain ⟨b, hb⟩ := im
    by_cases hf : isWallField j
    · rw [F.wall_flip 0 h _ gh hf, hb]
      rcases exJump_cell b 0 j with ⟨e, -⟩ | ⟨e, e'⟩
      · subst e; simp [isWallField] at hf
      · exact .inr ⟨e, by rw [e']; simp⟩
    · rw [F.wall_keep 0 h _ gh hf, hb]
      exact exJump_cell b 0 j
  · have im : ∃ b : Int, periodicImage 2 (exTwo.rng.dims ++ [(0, ((1 : Nat) : Int)), (0, 6)]) 0 [a, 0, j] = [b, 0, j] := by
      unfold periodicImage
      split
      · exact ⟨_, rfl⟩
      · exact ⟨_, rfl⟩
    obtain ⟨b, hb⟩ := im
    rw [F.wrap 0 h _ gh, hb]
    exact exJump_cell b 0 j

theorem exJump_noZero {ws ps : List Nat} (h : 0 ∈ ws ∨ 0 ∈ ps) {u' : Cell → ℝ} (F : Filled exTwo.rng.dims [(0, ((1 : Nat) : Int)), (0, 6)] ws isWallField ps exJump u') :
    ∀ x, InBox (exTwo.rng.dims ++ [(0, ((1 : Nat) : Int))]) x → NoZero (min exTwo.rng.dims.length 3) 6 (fun x j => u' (x ++ [(j : Int)])) x := by
  intro x hx d hd s s1 s2 j hj
  obtain rfl : d = 0 := by simp [exTwo_dims] at hd; omega
  obtain ⟨a, b, rfl, a0, a2⟩ := exTwo_cell hx
  obtain rfl : b = 0 := by rw [exTwo_dims] at hx; simp [InBox] at hx; omega
  show u' [a + (s + 1), 0, (j : Int)] - u' [a + s, 0, (j : Int)] + 1 / 10 ^ 12 ≠ 0
  have e1 := exJump_filled h F (a := a + (s + 1)) (by omega) (by omega) (j := j) (by omega) (by omega)
  have e2 := exJump_filled h F (a := a + s) (by omega) (by omega) (j := j) (by omega) (by omega)
  rcases e1 with ⟨-, e1 | e1⟩ | ⟨h1, e1⟩ <;> rcases e2 with ⟨-, e2 | e2⟩ | ⟨h2, e2⟩ <;> rw [e1, e2] <;> norm_num

theorem exTwo_covered {ws ps : List Nat} (h : 0 ∈ ws ∨ 0 ∈ ps) : Covered exTwo.rng.dims ws ps := by
  constructor
  · intro d hd
    obtain rfl : d = 0 := by simp [exTwo_dims] at hd; omega
    decide
  · intro d hd
    obtain rfl : d = 0 := by simp [exTwo_dims] at hd; omega
    exact h

theorem exTwo_width : ∀ d < min exTwo.rng.dims.length 3, 0 < exTwo.dxAt d := by
  intro d hd
  obtain rfl : d = 0 := by simp [exTwo_dims] at hd; omega
  rw [exTwo_dx]; norm_num

-- C121: fields with a jump, periodic
example : ∃ u' r : Cell → ℝ, Filled exTwo.rng.dims [(0, ((1 : Nat) : Int)), (0, 6)] [] isWallField [0] exJump u' ∧ LightRate exTwo.rng.dims (1 : Nat) exTwo.dxAt 1 u' r ∧
    fieldPower exTwo.rng.dims 1 1 u' r ≤ ((List.range (min exTwo.rng.dims.length 3)).map fun d => 9 / (16 * 10 ^ 12) * (|1| * (1 + |1|) / exTwo.dxAt d) * jumps exTwo.rng.dims 1 1 d u').sum := by
  obtain ⟨s, hs, b⟩ := (C90_exists (g := exTwo) (p := (1 : Nat)) (ws := []) (ps := [0]) (by simp) (by simp [exTwo_dims]) (by simp) (1 / 1000)).2.1 1 exJump
  obtain ⟨q0, r0, q1, q1', r1, q2, q2', r2, H0, -⟩ := b 0
  rw [hs] at H0
  exact ⟨q0, r0, H0.fill, H0.rates, C121_light (by rw [exTwo_dims]; decide) (le_refl 1) (exTwo_covered (.inr (by simp))) (by simp) H0.fill exTwo_width H0.rates (exJump_noZero (.inr (by simp)) H0.fill)⟩

-- C121: two fluids and such a field between walls
example : ∃ (P : Plasma ℝ) (q' r next : State ℝ), PlasmaStage P exTwo (1 : Nat) [0] [] (1 / 1000) 0 q' ⟨fun _ => 1, fun _ => 2, exJump⟩ q' r next ∧ Consistent P (1 / 10 ^ 6) ∧
    ∀ x, InBox (exTwo.rng.dims ++ [(0, ((1 : Nat) : Int))]) x → NoZero (min exTwo.rng.dims.length 3) 6 (fun x j => q'.f (x ++ [(j : Int)])) x := by
  obtain ⟨g, P, m0, q, hP, -⟩ := C101_false (nx := 100) (by decide)
  obtain ⟨s, hs, b⟩ := (C90_exists (g := exTwo) (p := (1 : Nat)) (ws := [0]) (ps := []) (by simp [exTwo_dims]) (by simp) (by simp) (1 / 1000)).2.2 P ⟨fun _ => 1, fun _ => 2, exJump⟩
  obtain ⟨q0, r0, q1, q1', r1, q2, q2', r2, H0, -⟩ := b 0
  rw [hs] at H0
  exact ⟨P, q0, r0, q1, H0, brio_coupled hP, exJump_noZero (.inl (by simp)) H0.fill_f⟩

end QK.Props
