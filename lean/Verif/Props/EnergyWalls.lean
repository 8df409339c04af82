import Verif.Props.Energy
/-
C121: conducting walls in the second direction can create energy (exact arithmetic).
-/
namespace QK.Props
open QK Spec Energy

/-- An electric and a magnetic field (third and first component) that vary in the second direction, with their mirror values behind the walls below 0 and above 8. -/
def wallE (k : Int) : Int := ([1, 2, -2, -1, -1, -1, 0, 0, 1, 1, 2, -2, -1] : List Int).getD (k + 2).toNat 0
def wallB (k : Int) : Int := ([-11, -4, 4, 11, 16, 20, 22, 20, 16, 11, 4, -4, -11] : List Int).getD (k + 2).toNat 0

/-- The component `j` of these fields at place `k`. -/
def wallAt (k : Int) (j : Int) : Int := if j = 2 then wallE k else if j = 3 then wallB k else 0

noncomputable def wallField : Cell → ℝ := fun y => (wallAt (y.getD 1 0) (component y) : Int)

theorem wallField_cell (a b q j : Int) : wallField [a, b, q, j] = (wallAt b j : Int) := rfl

theorem cell4 {B : Box} {y : Cell} (h : InBox B y) (hB : B.length = 4) : ∃ a b q j, y = [a, b, q, j] := by
  have := List.Forall₂.length_eq h
  rw [hB] at this
  match y, this with
  | [a, b, q, j], _ => exact ⟨a, b, q, j, rfl⟩

theorem wall_mirror_low {b : Int} (h1 : -2 ≤ b) (h2 : b < 0) : wallE b = wallE (-1 - b) * -1 ∧ wallB b = wallB (-1 - b) * -1 := by
  interval_cases b <;> decide

theorem wall_mirror_up {b : Int} (h1 : 9 ≤ b) (h2 : b < 11) : wallE b = wallE (17 - b) * -1 ∧ wallB b = wallB (17 - b) * -1 := by
  interval_cases b <;> decide

theorem wallField_filled : Filled [(0, 2), (0, 9)] [(0, ((1 : Nat) : Int)), (0, 6)] [1] isWallField [0] wallField wallField := by
  have im : ∀ x, FaceGhost 2 ([(0, 2), (0, 9)] ++ [(0, ((1 : Nat) : Int)), (0, 6)]) 1 x → wallField x = wallField (mirrorImage 2 ([(0, 2), (0, 9)] ++ [(0, ((1 : Nat) : Int)), (0, 6)]) 1 x) * -1 := by
    intro x hx
    rcases hx with hx | hx
    · obtain ⟨a, b, q, j, rfl⟩ := cell4 hx rfl
      unfold mirrorImage
      rw [if_pos hx]
      simp only [LowGhost, slab, lo, InBox, List.cons_append, List.nil_append, List.set_cons_succ, List.set_cons_zero, List.getD_cons_succ, List.getD_cons_zero, List.forall₂_cons] at hx
      obtain ⟨e1, e2⟩ := wall_mirror_low (b := b) (by omega) (by omega)
      show ((wallAt b j : Int) : ℝ) = ((wallAt (2 * 0 - 1 - b) j : Int) : ℝ) * -1
      rw [show (2 * 0 - 1 - b : Int) = -1 - b by ring]
      unfold wallAt
      split_ifs
      · rw [e1]; push_cast; ring
      · rw [e2]; push_cast; ring
      · simp
    · obtain ⟨a, b, q, j, rfl⟩ := cell4 hx rfl
      have hx' := hx
      simp only [UpGhost, slab, hi, InBox, List.cons_append, List.nil_append, List.set_cons_succ, List.set_cons_zero, List.getD_cons_succ, List.getD_cons_zero, List.forall₂_cons] at hx'
      have hn : ¬ LowGhost 2 ([(0, 2), (0, 9)] ++ [(0, ((1 : Nat) : Int)), (0, 6)]) 1 [a, b, q, j] := by
        simp only [LowGhost, slab, lo, InBox, List.cons_append, List.nil_append, List.set_cons_succ, List.set_cons_zero, List.getD_cons_succ, List.getD_cons_zero, List.forall₂_cons]
        omega
      unfold mirrorImage
      rw [if_neg hn]
      obtain ⟨e1, e2⟩ := wall_mirror_up (b := b) (by omega) (by omega)
      show ((wallAt b j : Int) : ℝ) = ((wallAt (2 * 9 - 1 - b) j : Int) : ℝ) * -1
      rw [show (2 * 9 - 1 - b : Int) = 17 - b by ring]
      unfold wallAt
      split_ifs
      · rw [e1]; push_cast; ring
      · rw [e2]; push_cast; ring
      · simp
  refine ⟨fun _ _ => rfl, ?_, ?_, ?_⟩
  · intro i hi x hx _
    obtain rfl : i = 1 := by simpa using hi
    rw [im x hx, real_lit]; norm_num
  · intro i hi x hx hf
    obtain rfl : i = 1 := by simpa using hi
    have e := im x hx
    have z : ∀ y : Cell, component y = component x → wallField y = 0 := by
      intro y hy
      unfold wallField wallAt
      rw [hy]
      unfold isWallField at hf
      rw [if_neg (by tauto), if_neg (by tauto)]; simp
    have l : ∃ a b q j, x = [a, b, q, j] := by
      rcases hx with hx | hx
      · exact cell4 hx rfl
      · exact cell4 hx rfl
    obtain ⟨a, b, q, j, rfl⟩ := l
    rw [z _ rfl, z]
    unfold mirrorImage
    split <;> rfl
  · intro i hi x hx
    obtain rfl : i = 0 := by simpa using hi
    have l : ∃ a b q j, x = [a, b, q, j] := by
      rcases hx with hx | hx
      · exact cell4 hx rfl
      · exact cell4 hx rfl
    obtain ⟨a, b, q, j, rfl⟩ := l
    unfold periodicImage
    split <;> rfl

theorem wallE_values : wallE (-2) = 1 ∧ wallE (-1) = 2 ∧ wallE 0 = -2 ∧ wallE 1 = -1 ∧ wallE 2 = -1 ∧ wallE 3 = -1 ∧ wallE 4 = 0 ∧ wallE 5 = 0 ∧ wallE 6 = 1 ∧ wallE 7 = 1 ∧ wallE 8 = 2 ∧
      wallE 9 = -2 ∧ wallE 10 = -1 := by decide

theorem wallB_values : wallB (-2) = -11 ∧ wallB (-1) = -4 ∧ wallB 0 = 4 ∧ wallB 1 = 11 ∧ wallB 2 = 16 ∧ wallB 3 = 20 ∧ wallB 4 = 22 ∧ wallB 5 = 20 ∧ wallB 6 = 16 ∧ wallB 7 = 11 ∧ wallB 8 = 4 ∧
      wallB 9 = -4 ∧ wallB 10 = -11 := by decide

/-- The power that goes into such fields through the fluxes, at one place. -/
noncomputable def wallPower (k : Int) : ℝ :=
  wallE k * (fluxE 1 1 (fun k => wallE k) (fun k => wallB k) k - fluxE 1 1 (fun k => wallE k) (fun k => wallB k) (k + 1)) +
    wallB k * (fluxB 1 1 (fun k => wallE k) (fun k => wallB k) k - fluxB 1 1 (fun k => wallE k) (fun k => wallB k) (k + 1))

theorem wallPower_sum : 1 / 8 < wallPower 0 + wallPower 1 + wallPower 2 + wallPower 3 + wallPower 4 + wallPower 5 + wallPower 6 + wallPower 7 + wallPower 8 := by
  obtain ⟨a1, a2, a3, a4, a5, a6, a7, a8, a9, a10, a11, a12, a13⟩ := wallE_values
  obtain ⟨b1, b2, b3, b4, b5, b6, b7, b8, b9, b10, b11, b12, b13⟩ := wallB_values
  unfold wallPower fluxE fluxB lft rgt
  simp only [zero_add, zero_sub, Int.reduceAdd, Int.reduceSub, Int.reduceNeg, a1, a2, a3, a4, a5, a6, a7, a8, a9, a10, a11, a12, a13, b1, b2, b3, b4, b5, b6, b7, b8, b9, b10, b11, b12, b13]
  unfold lim
  norm_num

theorem wallField_cells : cells ([(0, 2), (0, 9)] ++ [(0, ((1 : Nat) : Int))]) = [[0, 0, 0], [0, 1, 0], [0, 2, 0], [0, 3, 0], [0, 4, 0], [0, 5, 0], [0, 6, 0], [0, 7, 0], [0, 8, 0],
    [1, 0, 0], [1, 1, 0], [1, 2, 0], [1, 3, 0], [1, 4, 0], [1, 5, 0], [1, 6, 0], [1, 7, 0], [1, 8, 0]] := by decide

theorem wallField_power (a b : Int) : ((List.range (min [((0 : Int), (2 : Int)), (0, 9)].length 3)).map fun d =>
    ((List.range 6).map fun j => emWeight 1 j * (wallField ([a, b, 0] ++ [(j : Int)]) * ((faceFlux (fluxOf (Maxwell.rusanov 1 d)) 6 (fun x j => wallField (x ++ [(j : Int)])) d [a, b, 0]).getD j 0 -
      (faceFlux (fluxOf (Maxwell.rusanov 1 d)) 6 (fun x j => wallField (x ++ [(j : Int)])) d (moveBy [a, b, 0] d 1)).getD j 0))).sum / 1).sum = wallPower b := by
  have d0 : faceFlux (fluxOf (Maxwell.rusanov (1 : ℝ) 0)) 6 (fun x j => wallField (x ++ [(j : Int)])) 0 [a, b, 0] =
      faceFlux (fluxOf (Maxwell.rusanov 1 0)) 6 (fun x j => wallField (x ++ [(j : Int)])) 0 (moveBy [a, b, 0] 0 1) := rfl
  have h0 := fun j (hj : j < 6) => faceFlux_line 1 (d := 1) (by decide) (fun x j => wallField (x ++ [(j : Int)])) [a, b, 0] 0 hj
  have h1 := fun j (hj : j < 6) => faceFlux_line 1 (d := 1) (by decide) (fun x j => wallField (x ++ [(j : Int)])) [a, b, 0] 1 hj
  rw [moveBy_zero] at h0
  have hr : (List.range (min [((0 : Int), (2 : Int)), (0, 9)].length 3)) = [0, 1] := rfl
  rw [hr]
  simp only [List.map_cons, List.map_nil, List.sum_cons, List.sum_nil, sum6, d0, sub_self, mul_zero, add_zero, zero_add, div_one]
  simp only [h0 0 (by decide), h0 1 (by decide), h0 2 (by decide), h0 3 (by decide), h0 4 (by decide), h0 5 (by decide),
    h1 0 (by decide), h1 1 (by decide), h1 2 (by decide), h1 3 (by decide), h1 4 (by decide), h1 5 (by decide)]
  have z : ∀ k j : Int, j ≠ 2 → j ≠ 3 → wallField (moveBy [a, b, 0] 1 k ++ [j]) = 0 := by
    intro k j h2 h3
    show ((wallAt (b + k) j : Int) : ℝ) = 0
    unfold wallAt
    rw [if_neg h2, if_neg h3]; simp
  have e2 : ∀ k : Int, wallField (moveBy [a, b, 0] 1 k ++ [((2 : Nat) : Int)]) = wallE (b + k) := fun k => rfl
  have e3 : ∀ k : Int, wallField (moveBy [a, b, 0] 1 k ++ [((3 : Nat) : Int)]) = wallB (b + k) := fun k => rfl
  have z' : ∀ j : Int, j ≠ 2 → j ≠ 3 → wallField ([a, b, 0] ++ [j]) = 0 := fun j h2 h3 => by
    have := z 0 j h2 h3
    rwa [moveBy_zero] at this
  have e2' : wallField ([a, b, 0] ++ [((2 : Nat) : Int)]) = wallE b := rfl
  have e3' : wallField ([a, b, 0] ++ [((3 : Nat) : Int)]) = wallB b := rfl
  rw [e2', e3', z' _ (by decide) (by decide), z' _ (by decide) (by decide), z' _ (by decide) (by decide), z' _ (by decide) (by decide)]
  simp only [lineFlux, e2, e3, emWeight, abs_one]
  unfold wallPower fluxE fluxB
  simp only [zero_sub, zero_add, ← sub_eq_add_neg, show ∀ b : Int, b + (1 - 2) = b - 1 by intro b; ring, show ∀ b : Int, b + (1 - 1) = b by intro b; ring,
    show ∀ b : Int, b + (1 + 1) = b + 1 + 1 by intro b; ring, show ∀ b : Int, b + 1 - 2 = b - 1 by intro b; ring, show ∀ b : Int, b + 1 - 1 = b by intro b; ring, add_zero]
  norm_num

theorem wallField_noZero : ∀ x, InBox ([(0, 2), (0, 9)] ++ [(0, ((1 : Nat) : Int))]) x → NoZero (min [((0 : Int), (2 : Int)), (0, 9)].length 3) 6 (fun x j => wallField (x ++ [(j : Int)])) x := by
  intro x _ d _ s _ _ j _ h
  have e : ∀ y : Cell, ∃ z : Int, wallField y = z := fun y => ⟨_, rfl⟩
  obtain ⟨a, ha⟩ := e (moveBy x d (s + 1) ++ [(j : Int)])
  obtain ⟨b, hb⟩ := e (moveBy x d s ++ [(j : Int)])
  beta_reduce at h
  rw [ha, hb] at h
  have h2 : ((b - a) * 10 ^ 12 : ℝ) = 1 := by
    have : (b - a : ℝ) = 1 / 10 ^ 12 := by linarith
    rw [this]; norm_num
  have h3 : (b - a) * 10 ^ 12 = (1 : Int) := by exact_mod_cast h2
  omega

theorem wallField_jumps : jumps [(0, 2), (0, 9)] 1 1 0 wallField = 0 ∧ jumps [(0, 2), (0, 9)] 1 1 1 wallField ≤ 1000 := by
  have hcell : ∀ (a b k : Int) (j : Nat), wallField (moveBy [a, b, 0] 0 k ++ [(j : Int)]) = (wallAt b j : Int) := fun a b k j => rfl
  have hcell1 : ∀ (a b k : Int) (j : Nat), wallField (moveBy [a, b, 0] 1 k ++ [(j : Int)]) = (wallAt (b + k) j : Int) := fun a b k j => rfl
  have hcell2 : ∀ (a b : Int) (j : Nat), wallField ([a, b, 0] ++ [(j : Int)]) = (wallAt b j : Int) := fun a b j => rfl
  unfold jumps
  rw [wallField_cells]
  constructor
  · simp only [List.map_cons, List.map_nil, hcell, hcell2, sub_self, abs_zero, add_zero, mul_zero, List.sum_cons, List.sum_nil, sum6]
  · simp only [List.map_cons, List.map_nil, hcell1, hcell2, List.sum_cons, List.sum_nil, sum6]
    obtain ⟨a1, a2, a3, a4, a5, a6, a7, a8, a9, a10, a11, a12, a13⟩ := wallE_values
    obtain ⟨b1, b2, b3, b4, b5, b6, b7, b8, b9, b10, b11, b12, b13⟩ := wallB_values
    norm_num [wallAt, a1, a2, a3, a4, a5, a6, a7, a8, a9, a10, a11, a12, a13, b1, b2, b3, b4, b5, b6, b7, b8, b9, b10, b11, b12, b13]

/-- **C121** The restriction to direction 0 is needed: conducting walls in the second direction, as the program `gem_challenge` has them, can create energy. Between such walls there are fields whose energy grows by
the fluxes, and by far more than the error above. (The code changes the sign of the first component of the magnetic field there, instead of the second one: `C82_conducting_false`.) -/
theorem C121_other_walls : ∃ (M : Box) (u u' r : Cell → ℝ), Pos M ∧ Covered M [1] [0] ∧ Filled M [(0, ((1 : Nat) : Int)), (0, 6)] [1] isWallField [0] u u' ∧
    LightRate M (1 : Nat) (fun _ => 1) 1 u' r ∧ (∀ x, InBox (M ++ [(0, ((1 : Nat) : Int))]) x → NoZero (min M.length 3) 6 (fun x j => u' (x ++ [(j : Int)])) x) ∧
    1 / 4 < fieldPower M 1 1 u' r ∧
    ((List.range (min M.length 3)).map fun d => 9 / (16 * 10 ^ 12) * (|(1 : ℝ)| * (1 + |1|) / 1) * jumps M 1 1 d u').sum < 1 / 10 ^ 8 := by
  have hR : LightRate [(0, 2), (0, 9)] (1 : Nat) (fun _ => 1) 1 wallField fun y => fvUpdate (fun dim => fluxOf (Maxwell.rusanov (1 : ℝ) dim)) 6 (fun x j => wallField (x ++ [(j : Int)])) (fun _ => 1)
      (List.range (min [((0 : Int), (2 : Int)), (0, 9)].length 3)) y.dropLast (component y).toNat (Arith.lit 0) := by
    intro x hx j hj
    simp [component]
  refine ⟨[(0, 2), (0, 9)], wallField, wallField, _, by decide, ⟨by decide, by decide⟩, wallField_filled, hR, wallField_noZero, ?_, ?_⟩
  · rw [light_fluxPower hR, fluxPower_eq, wallField_cells]
    simp only [List.map_cons, List.map_nil, wallField_power, List.sum_cons, List.sum_nil]
    linarith [wallPower_sum]
  · obtain ⟨j0, j1⟩ := wallField_jumps
    show ([0, 1].map fun d => 9 / (16 * 10 ^ 12) * (|(1 : ℝ)| * (1 + |1|) / 1) * jumps [(0, 2), (0, 9)] 1 1 d wallField).sum < 1 / 10 ^ 8
    simp only [List.map_cons, List.map_nil, List.sum_cons, List.sum_nil, j0, abs_one]
    linarith

end QK.Props
