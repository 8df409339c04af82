import Verif.Proofs.WallReal
import Verif.Props.Program
/-
Walls and conservation, in exact arithmetic: no mass or energy flows through a no-slip wall (C82); the coupled programs keep the
mass of each fluid and the total magnetic field (C83).
-/
namespace QK.Props
open QK Spec Solve

section
variable {M : Box} {p : Nat} {ws ps : List Nat} {u u' : Cell → ℝ}

/-- **C82** Where the ghost cells of a fluid are filled as at a no-slip wall, the numerical flux of mass and of energy through the wall
is zero, at the lower wall (the face below the first cell) and at the upper wall (the face above the last cell), whatever the state. -/
theorem C82_no_slip (F : Filled M [(0, (p : Int)), (0, 5)] ws isMomentum ps u u') {dim : Nat} (hdim : dim ∈ ws) (hd : dim < M.length) (h3 : dim < 3)
    (hw : 2 ≤ hi M dim - lo M dim) (gamma : ℝ) {x : Cell} (hx : InBox (M ++ [(0, (p : Int))]) x) {j : Nat} (hj : j = 0 ∨ j = 4) :
    (x.getD dim 0 = lo M dim → (faceFlux (fluxOf (Euler.hll gamma dim)) 5 (fun x j => u' (x ++ [(j : Int)])) dim x).getD j 0 = 0) ∧
    (x.getD dim 0 = hi M dim - 1 →
      (faceFlux (fluxOf (Euler.hll gamma dim)) 5 (fun x j => u' (x ++ [(j : Int)])) dim (moveBy x dim 1)).getD j 0 = 0) := by
  exact fluid_wall F hdim hd h3 hw gamma hx hj

/-- **C82**, conducting wall in direction 0: no magnetic flux (components 3-5 of the numerical flux) through the wall. -/
theorem C82_conducting_partial (F : Filled M [(0, (p : Int)), (0, 6)] ws isWallField ps u u') (hdim : 0 ∈ ws) (hd : 0 < M.length)
    (hw : 2 ≤ hi M 0 - lo M 0) (c : ℝ) {x : Cell} (hx : InBox (M ++ [(0, (p : Int))]) x) {j : Nat} (hj : 3 ≤ j) :
    (x.getD 0 0 = lo M 0 → (faceFlux (fluxOf (Maxwell.rusanov c 0)) 6 (fun x j => u' (x ++ [(j : Int)])) 0 x).getD j 0 = 0) ∧
    (x.getD 0 0 = hi M 0 - 1 →
      (faceFlux (fluxOf (Maxwell.rusanov c 0)) 6 (fun x j => u' (x ++ [(j : Int)])) 0 (moveBy x 0 1)).getD j 0 = 0) :=
  field_wall F hdim hd hw c hx hj

/-- **C82**, conducting walls in the other directions, exactly: `z` being the cell above the face of the lower or of the upper wall, no `By` and no `Bz` passes; of `Bx` as much
passes as `|c|` times its reconstructed value at the wall (with the sign that takes it out of the domain), so that it is tight exactly where that value is zero. -/
theorem C82_conducting_exactly (F : Filled M [(0, (p : Int)), (0, 6)] ws isWallField ps u u') {dim : Nat} (hdim : dim ∈ ws) (hd : dim < M.length)
    (hw : 2 ≤ hi M dim - lo M dim) (c : ℝ) {x z : Cell} (hx : InBox (M ++ [(0, (p : Int))]) x)
    (hz : x.getD dim 0 = lo M dim ∧ z = x ∨ x.getD dim 0 = hi M dim - 1 ∧ z = moveBy x dim 1) :
    (faceFlux (fluxOf (Maxwell.rusanov c dim)) 6 (fun x j => u' (x ++ [(j : Int)])) dim z).getD 4 0 = 0 ∧
    (faceFlux (fluxOf (Maxwell.rusanov c dim)) 6 (fun x j => u' (x ++ [(j : Int)])) dim z).getD 5 0 = 0 ∧
    ∃ B, FV.recon (u' (moveBy z dim (-2) ++ [3])) (u' (moveBy z dim (-1) ++ [3])) (u' (z ++ [3])) (u' (moveBy z dim 1 ++ [3])) = (-B, B) ∧
      (dim ≠ 0 → (faceFlux (fluxOf (Maxwell.rusanov c dim)) 6 (fun x j => u' (x ++ [(j : Int)])) dim z).getD 3 0 = -|c| * B) :=
  field_wall_any F hdim hd hw c hx hz

end

/-- A field of a magnetic field `Bx = 1` alone, and the same with the ghost cells of a conducting wall. -/
noncomputable def exB (x : Cell) : ℝ := if component x = 3 then 1 else 0
open Classical in
noncomputable def exB' (x : Cell) : ℝ := if InBox [(0, 2), (0, 2), (0, 1), (0, 6)] x then exB x else -exB x

theorem component_modify {l : Cell} {i : Nat} (h : i + 1 < l.length) (f : Int → Int) : component (l.modify i f) = component l := by
  unfold component
  rw [List.getLastD_eq_getLast?, List.getLastD_eq_getLast?, List.getLast?_eq_getElem?, List.getLast?_eq_getElem?, List.length_modify, List.getElem?_modify]
  simp [show ¬ i = l.length - 1 by omega]

theorem exB_filled {i : Nat} (hi' : i < 2) : Filled [(0, 2), (0, 2)] [(0, ((1 : Nat) : Int)), (0, 6)] [i] isWallField [] exB exB' := by
  have hl : ∀ x, FaceGhost 2 ([(0, 2), (0, 2)] ++ [(0, ((1 : Nat) : Int)), (0, 6)]) i x → x.length = 4 := by
    intro x h
    rcases h with h | h <;>
    · have := h.length_eq; simpa [slab] using this
  have hm : ∀ x, FaceGhost 2 ([(0, 2), (0, 2)] ++ [(0, ((1 : Nat) : Int)), (0, 6)]) i x →
      exB (mirrorImage 2 ([(0, 2), (0, 2)] ++ [(0, ((1 : Nat) : Int)), (0, 6)]) i x) = exB x := by
    intro x h
    unfold exB mirrorImage
    split <;> rw [component_modify (by rw [hl x h]; omega)]
  have ho : ∀ x, FaceGhost 2 ([(0, 2), (0, 2)] ++ [(0, ((1 : Nat) : Int)), (0, 6)]) i x → exB' x = -exB x := by
    intro x h
    exact if_neg (faceGhost_not_interior (by simp; omega) h)
  constructor
  · intro x hx; exact if_pos hx
  · intro k hk x hx hf
    simp at hk; subst hk
    rw [ho x hx, hm x hx, real_lit]; push_cast; ring
  · intro k hk x hx hf
    simp at hk; subst hk
    rw [ho x hx, hm x hx]
    have : component x ≠ 3 := fun e => hf (by simp [isWallField, e])
    simp [exB, this]
  · simp

/-- **C82** is false of conducting walls in other directions: the solver changes the sign of the same components whatever the direction, and
in direction 1 `Bx`, which is then tangential, flows through the wall. -/
theorem C82_conducting_false : ∃ (M : Box) (u u' : Cell → ℝ) (c : ℝ) (x : Cell), 0 < c ∧
    Filled M [(0, ((1 : Nat) : Int)), (0, 6)] [1] isWallField [] u u' ∧ 2 ≤ hi M 1 - lo M 1 ∧ InBox (M ++ [(0, ((1 : Nat) : Int))]) x ∧ x.getD 1 0 = lo M 1 ∧
    (faceFlux (fluxOf (Maxwell.rusanov c 1)) 6 (fun x j => u' (x ++ [(j : Int)])) 1 x).getD 3 0 ≠ 0 := by
  refine ⟨[(0, 2), (0, 2)], exB, exB', 1, [0, 0, 0], one_pos, exB_filled (by decide), by decide, ?_, rfl, ?_⟩
  · rw [inBox_iff]; refine ⟨rfl, ?_⟩
    intro j hj
    simp at hj
    interval_cases j <;> simp [lo, hi]
  · have hin : ∀ (t : Int) (k : Nat), k < 6 → (InBox [(0, 2), (0, 2), (0, 1), (0, 6)] ([0, t, 0] ++ [(k : Int)]) ↔ 0 ≤ t ∧ t < 2) := by
      intro t k hk
      simp [InBox]
      omega
    have val : ∀ (t : Int) (k : Nat), k < 6 → exB' ([0, t, 0] ++ [(k : Int)]) = if k = 3 then (if 0 ≤ t ∧ t < 2 then 1 else -1) else 0 := by
      intro t k hk
      unfold exB'
      simp only [hin t k hk]
      by_cases h3 : k = 3
      · simp [exB, component, h3]
      · have : (k : Int) ≠ 3 := by omega
        simp [exB, component, h3, this]
    have hR : faceFlux (fluxOf (Maxwell.rusanov (1 : ℝ) 1)) 6 (fun x j => exB' (x ++ [(j : Int)])) 1 [0, 0, 0] =
        fluxOf (Maxwell.rusanov 1 1) [0, 0, 0, -1, 0, 0] [0, 0, 0, 1, 0, 0] := by
      have e0 : FV.recon (0 : ℝ) 0 0 0 = (0, 0) := recon_const 0
      have e1 : FV.recon (-1 : ℝ) (-1) 1 1 = (-1, 1) := by
        unfold FV.recon
        simp [real_lit]
      have step : ∀ k : Nat, k < 6 → FV.recon (exB' (moveBy [0, 0, 0] 1 (-2) ++ [(k : Int)])) (exB' (moveBy [0, 0, 0] 1 (-1) ++ [(k : Int)])) (exB' ([0, 0, 0] ++ [(k : Int)]))
          (exB' (moveBy [0, 0, 0] 1 1 ++ [(k : Int)])) = if k = 3 then (-1, 1) else (0, 0) := by
        intro k hk
        rw [show moveBy [0, 0, 0] 1 (-2) = [0, -2, 0] from rfl, show moveBy [0, 0, 0] 1 (-1) = [0, -1, 0] from rfl, show moveBy [0, 0, 0] 1 1 = [0, 1, 0] from rfl,
          val _ k hk, val _ k hk, val _ k hk, val _ k hk]
        by_cases h3 : k = 3
        · simp [h3, e1]
        · simp [h3, e0]
      unfold faceFlux
      simp only []
      congr 1
      · refine Eq.trans (List.map_congr_left fun k hk => congrArg Prod.fst (step k (by simpa using hk))) ?_
        simp [List.range_succ]
      · refine Eq.trans (List.map_congr_left fun k hk => congrArg Prod.snd (step k (by simpa using hk))) ?_
        simp [List.range_succ]
    rw [hR]
    have : (Arith.fabs (1 : ℝ)) = 1 := abs_one
    simp [fluxOf, Maxwell.rusanov, real_lit, this]

-- C82: and in direction 1
example := C82_conducting_exactly (exB_filled (i := 1) (by decide)) (dim := 1) (by simp) (by simp) (by decide) 1 (x := [0, 1, 0])
  (by rw [inBox_iff]; refine ⟨rfl, ?_⟩; intro j hj; simp at hj; interval_cases j <;> simp [lo, hi]) (.inr ⟨rfl, rfl⟩)

-- C82: hypotheses are met by that field in direction 0
example := C82_conducting_partial (exB_filled (i := 0) (by decide)) (by simp) (by simp) (by decide) 1 (x := [0, 1, 0])
  (by rw [inBox_iff]; refine ⟨rfl, ?_⟩; intro j hj; simp at hj; interval_cases j <;> simp [lo, hi]) (j := 3) (by decide)

/-- A gas that moves towards a wall, and the same with the ghost cells of no-slip walls. -/
noncomputable def exG (x : Cell) : ℝ := if component x = 1 ∨ component x = 2 ∨ component x = 3 then 1 else 5
open Classical in
noncomputable def exG' (x : Cell) : ℝ := if ¬ InBox [(0, 2), (0, 2), (0, 1), (0, 5)] x ∧ isMomentum (component x) then -exG x else exG x

theorem exG_filled {i : Nat} (hi' : i < 2) : Filled [(0, 2), (0, 2)] [(0, ((1 : Nat) : Int)), (0, 5)] [i] isMomentum [] exG exG' := by
  have hl : ∀ x, FaceGhost 2 ([(0, 2), (0, 2)] ++ [(0, ((1 : Nat) : Int)), (0, 5)]) i x → x.length = 4 := by
    intro x h
    rcases h with h | h <;>
    · have := h.length_eq; simpa [slab] using this
  have hm : ∀ x, FaceGhost 2 ([(0, 2), (0, 2)] ++ [(0, ((1 : Nat) : Int)), (0, 5)]) i x →
      exG (mirrorImage 2 ([(0, 2), (0, 2)] ++ [(0, ((1 : Nat) : Int)), (0, 5)]) i x) = exG x := by
    intro x h
    unfold exG mirrorImage
    split <;> rw [component_modify (by rw [hl x h]; omega)]
  have hn : ∀ x, FaceGhost 2 ([(0, 2), (0, 2)] ++ [(0, ((1 : Nat) : Int)), (0, 5)]) i x → ¬ InBox [(0, 2), (0, 2), (0, 1), (0, 5)] x := by
    intro x h
    exact faceGhost_not_interior (by simp; omega) h
  constructor
  · intro x hx; exact if_neg (fun h => h.1 hx)
  · intro k hk x hx hf
    simp at hk; subst hk
    rw [hm x hx, real_lit]
    refine Eq.trans (if_pos ⟨hn x hx, hf⟩) ?_
    push_cast; ring
  · intro k hk x hx hf
    simp at hk; subst hk
    rw [hm x hx]
    exact if_neg fun h => hf h.2
  · simp

-- C82: hypotheses are met by a moving gas, in both directions
example {i : Nat} (hi' : i < 2) := C82_no_slip (dim := i) (exG_filled hi') (by simp) (by simpa using hi') (by omega) (by interval_cases i <;> decide) (5 / 3) (x := [0, 1, 0])
  (by rw [inBox_iff]; refine ⟨rfl, ?_⟩; intro j hj; simp at hj; interval_cases j <;> simp [lo, hi]) (j := 0) (.inl rfl)

/-! ### C83: totals -/

section
variable {P : Plasma ℝ} {grid : Rectilinear ℝ} {ws ps : List Nat}

theorem C83_stage {p : Nat} (hp : 1 ≤ p) (hM : Pos grid.rng.dims) (h3 : grid.rng.dims.length ≤ 3)
    (hws : ∀ i ∈ ws, 2 ≤ hi grid.rng.dims i - lo grid.rng.dims i) (hps : ∀ i ∈ ps, 2 ≤ hi grid.rng.dims i - lo grid.rng.dims i)
    (hall : ∀ d < grid.rng.dims.length, d ∈ ws ∨ d ∈ ps) {t : ℝ} {k : Nat} {start cur cur' rate next : State ℝ}
    (H : PlasmaStage P grid p ws ps t k start cur cur' rate next) :
    (∀ T, fieldTotal grid.rng.dims p start.e 0 = T → fieldTotal grid.rng.dims p cur.e 0 = T → fieldTotal grid.rng.dims p next.e 0 = T) ∧
    (∀ T, fieldTotal grid.rng.dims p start.i 0 = T → fieldTotal grid.rng.dims p cur.i 0 = T → fieldTotal grid.rng.dims p next.i 0 = T) ∧
    ((∀ i ∈ ws, i = 0) → ∀ j, 3 ≤ j → j < 6 → ∀ T, fieldTotal grid.rng.dims p start.f j = T → fieldTotal grid.rng.dims p cur.f j = T →
      fieldTotal grid.rng.dims p next.f j = T) := by
  refine ⟨?_, ?_, ?_⟩
  · intro T h1 h2
    exact fieldTotal_rk H.next_e h1 (by rw [filled_total (n := 5) H.fill_e (by decide), h2]) (fluidRate_total hp hM h3 hws hps hall H.fill_e H.rate_e)
  · intro T h1 h2
    exact fieldTotal_rk H.next_i h1 (by rw [filled_total (n := 5) H.fill_i (by decide), h2]) (fluidRate_total hp hM h3 hws hps hall H.fill_i H.rate_i)
  · intro h0 j hj hj' T h1 h2
    exact fieldTotal_rk H.next_f h1 (by rw [filled_total (n := 6) H.fill_f hj', h2]) (fieldRate_total hp hM h3 h0 hws hps hall H.fill_f H.rate_f hj hj')

/-- **C83** One time step of a plasma program whose directions all have walls or are periodic: the total mass of each fluid is the same after
the step as before; so are the totals of the three components of the magnetic field if there are walls in direction 0 only. -/
theorem C83_step {p : Nat} (hp : 1 ≤ p) (hM : Pos grid.rng.dims) (h3 : grid.rng.dims.length ≤ 3)
    (hws : ∀ i ∈ ws, 2 ≤ hi grid.rng.dims i - lo grid.rng.dims i) (hps : ∀ i ∈ ps, 2 ≤ hi grid.rng.dims i - lo grid.rng.dims i)
    (hall : ∀ d < grid.rng.dims.length, d ∈ ws ∨ d ∈ ps) {t : ℝ} {q q' : State ℝ} (H : PlasmaStep P grid p ws ps t q q') :
    fieldTotal grid.rng.dims p q'.e 0 = fieldTotal grid.rng.dims p q.e 0 ∧ fieldTotal grid.rng.dims p q'.i 0 = fieldTotal grid.rng.dims p q.i 0 ∧
    ((∀ i ∈ ws, i = 0) → ∀ j, 3 ≤ j → j < 6 → fieldTotal grid.rng.dims p q'.f j = fieldTotal grid.rng.dims p q.f j) := by
  obtain ⟨q0, r0, q1, q1', r1, q2, q2', r2, H0, H1, H2⟩ := H
  obtain ⟨a0, b0, c0⟩ := C83_stage hp hM h3 hws hps hall H0
  obtain ⟨a1, b1, c1⟩ := C83_stage hp hM h3 hws hps hall H1
  obtain ⟨a2, b2, c2⟩ := C83_stage hp hM h3 hws hps hall H2
  have se := filled_total (n := 5) (j := 0) H0.fill_e (by decide)
  have si := filled_total (n := 5) (j := 0) H0.fill_i (by decide)
  refine ⟨a2 _ se (a1 _ se (a0 _ se rfl)), b2 _ si (b1 _ si (b0 _ si rfl)), ?_⟩
  intro h0 j hj hj'
  have sf := filled_total (n := 6) (j := j) H0.fill_f hj'
  exact c2 h0 j hj hj' _ sf (c1 h0 j hj hj' _ sf (c0 h0 j hj hj' _ sf rfl))

/-- **C83** With walls in any of the directions one time step keeps the totals of `By` and `Bz` (that of `Bx` is kept if the walls are in direction 0 only, `C83_step`; C82
says how much of it leaves through the others). -/
theorem C83_any_walls {p : Nat} (hp : 1 ≤ p) (hM : Pos grid.rng.dims)
    (hws : ∀ i ∈ ws, 2 ≤ hi grid.rng.dims i - lo grid.rng.dims i) (hps : ∀ i ∈ ps, 2 ≤ hi grid.rng.dims i - lo grid.rng.dims i)
    (hall : ∀ d < grid.rng.dims.length, d ∈ ws ∨ d ∈ ps) {t : ℝ} {q q' : State ℝ} (H : PlasmaStep P grid p ws ps t q q') {j : Nat} (hj : j = 4 ∨ j = 5) :
    fieldTotal grid.rng.dims p q'.f j = fieldTotal grid.rng.dims p q.f j := by
  obtain ⟨q0, r0, q1, q1', r1, q2, q2', r2, H0, H1, H2⟩ := H
  have stage : ∀ {k : Nat} {start cur cur' rate next : State ℝ}, PlasmaStage P grid p ws ps t k start cur cur' rate next → ∀ T,
      fieldTotal grid.rng.dims p start.f j = T → fieldTotal grid.rng.dims p cur.f j = T → fieldTotal grid.rng.dims p next.f j = T := by
    intro k start cur cur' rate next H T h1 h2
    exact fieldTotal_rk H.next_f h1 (by rw [filled_total (n := 6) H.fill_f (by omega), h2]) (fieldRate_total_any hp hM hws hps hall H.fill_f H.rate_f hj)
  have sf := filled_total (n := 6) (j := j) H0.fill_f (by omega)
  exact stage H2 _ sf (stage H1 _ sf (stage H0 _ sf rfl))

end

theorem vtkCells_perm (M : Box) : (vtkCells M).Perm (cells M) := by
  refine (List.perm_ext_iff_of_nodup ?_ (cells_nodup M)).2 fun x => by rw [Vtk.mem_vtkCells, mem_cells]
  exact (cells_nodup _).map List.reverse_injective

theorem sum_vtk (M : Box) (u : Cell → ℝ) (k : Nat) : ((vtkCells M).map fun x => u (x ++ [0, (k : Int)])).sum = fieldTotal M 1 u k := by
  unfold fieldTotal total
  rw [(vtkCells_perm M).map _ |>.sum_eq, show ((1 : Nat) : Int) = 0 + 1 from rfl, Source.cells_snoc_one, List.map_map]
  congr 1
  refine List.map_congr_left fun x _ => ?_
  simp

theorem infix_flatten {β : Type} {l : List (List β)} {b : List β} (h : b ∈ l) : b <:+: l.flatten := by
  obtain ⟨l1, l2, rfl⟩ := List.append_of_mem h
  exact ⟨l1.flatten, l2.flatten, by simp⟩

theorem fieldBlocks_sum {M : Box} {id : VarId} {u : Cell → ℝ} {k : Nat} (hk : k < id.comps.length) :
    ∃ vs, scalarBlock id.name id.comps[k] vs ∈ fieldBlocks M id u ∧ vs.sum = fieldTotal M 1 u k := by
  refine ⟨_, List.mem_map.2 ⟨(id.comps[k], k), ?_, rfl⟩, sum_vtk M u k⟩
  rw [List.mem_zipIdx_iff_getElem?]
  simp [hk]

theorem blockSum_of {M : Box} {P : Plasma ℝ} {s : State ℝ} {file : List (Tok ℝ)} (h : FileShows M P s file) :
    (∀ k (hk : k < P.e.q.comps.length), BlockSum file P.e.q.name P.e.q.comps[k] (fieldTotal M 1 s.e k)) ∧
    (∀ k (hk : k < P.i.q.comps.length), BlockSum file P.i.q.name P.i.q.comps[k] (fieldTotal M 1 s.i k)) ∧
    (∀ k (hk : k < P.f.q.comps.length), BlockSum file P.f.q.name P.f.q.comps[k] (fieldTotal M 1 s.f k)) := by
  obtain ⟨o, sp, rfl⟩ := h
  have inf : ∀ b, b ∈ fieldBlocks M P.e.q s.e ++ fieldBlocks M P.i.q s.i ++ fieldBlocks M P.f.q s.f →
      b <:+: vtkFile (points M 0, points M 1, points M 2) o sp (boxVolume M) (fieldBlocks M P.e.q s.e ++ fieldBlocks M P.i.q s.i ++ fieldBlocks M P.f.q s.f) := by
    intro b hb
    exact (infix_flatten hb).trans (List.suffix_append _ _).isInfix
  refine ⟨?_, ?_, ?_⟩ <;> intro k hk
  · obtain ⟨vs, h1, h2⟩ := fieldBlocks_sum (M := M) (u := s.e) hk
    exact ⟨vs, inf _ (by simp [h1]), h2⟩
  · obtain ⟨vs, h1, h2⟩ := fieldBlocks_sum (M := M) (u := s.i) hk
    exact ⟨vs, inf _ (by simp [h1]), h2⟩
  · obtain ⟨vs, h1, h2⟩ := fieldBlocks_sum (M := M) (u := s.f) hk
    exact ⟨vs, inf _ (by simp [h1]), h2⟩

/-- **C83** The program of main.cpp, with any numbers of cells (at least 2), frames and steps, in exact arithmetic: if all files can be created it ends
normally, and in all files the densities of the electrons have the same sum, so do those of the ions, and so do the values of each component of the magnetic
field. -/
theorem C83_gem {nx : Int} (hnx : 2 ≤ nx) (numFrames numSteps : Nat) : ∃ (r : Run ℝ) (Te Ti Tx Ty Tz : ℝ),
    GemChallenge.run true (fun _ => true) nx numFrames numSteps = .ok (.ok () r) ∧ r.files.map Prod.fst = List.range (numFrames + 1) ∧
    ∀ file ∈ r.files.map Prod.snd, BlockSum file "electrons" "rho" Te ∧ BlockSum file "ions" "rho" Ti ∧ BlockSum file "field" "Bx" Tx ∧
      BlockSum file "field" "By" Ty ∧ BlockSum file "field" "Bz" Tz := by
  obtain ⟨g, P, m0, hP, -, hd, -, -, -, s, file, -, hs, hf, hrun, -, -⟩ := C81_gem (α := ℝ) hnx (fun _ => true) numFrames numSteps
  obtain ⟨m', hm⟩ := hrun fun _ _ => rfl
  have hpos : Pos g.rng.dims := by
    rw [hd]; intro d hd'; simp at hd'; rcases hd' with rfl | rfl <;> simp <;> omega
  have inv : ∀ j ≤ numFrames * numSteps, fieldTotal g.rng.dims 1 (s j).e 0 = fieldTotal g.rng.dims 1 (s 0).e 0 ∧
      fieldTotal g.rng.dims 1 (s j).i 0 = fieldTotal g.rng.dims 1 (s 0).i 0 ∧
      ∀ k, 3 ≤ k → k < 6 → fieldTotal g.rng.dims 1 (s j).f k = fieldTotal g.rng.dims 1 (s 0).f k := by
    intro j
    induction j with
    | zero => intro _; exact ⟨rfl, rfl, fun _ _ _ => rfl⟩
    | succ j ih =>
      intro hj
      obtain ⟨a, b, c⟩ := ih (by omega)
      obtain ⟨a', b', c'⟩ := C83_step (p := 1) (le_refl _) hpos (by rw [hd]; simp) (by rw [hd]; simp [lo, hi]; omega) (by rw [hd]; simp [lo, hi]; omega)
        (by rw [hd]; intro d h; simp at h ⊢; omega) (hs j (by omega))
      exact ⟨a'.trans a, b'.trans b, fun k h h' => (c' (by simp) k h h').trans (c k h h')⟩
  refine ⟨_, fieldTotal g.rng.dims 1 (s 0).e 0, fieldTotal g.rng.dims 1 (s 0).i 0, fieldTotal g.rng.dims 1 (s 0).f 3, fieldTotal g.rng.dims 1 (s 0).f 4,
    fieldTotal g.rng.dims 1 (s 0).f 5, hm, by simp [Function.comp_def], ?_⟩
  intro fl hfl
  simp only [List.map_map, List.mem_map, List.mem_range, Function.comp_def] at hfl
  obtain ⟨j, hj, rfl⟩ := hfl
  obtain ⟨a, b, c⟩ := inv (j * numSteps) (Nat.mul_le_mul_right _ (by omega))
  have B := blockSum_of (hf j (by omega))
  rw [hP.electrons, hP.ions, hP.field] at B
  obtain ⟨Be, Bi, Bf⟩ := B
  have e := Be 0 (by simp)
  have i := Bi 0 (by simp)
  have x := Bf 3 (by simp)
  have y := Bf 4 (by simp)
  have z := Bf 5 (by simp)
  rw [a] at e
  rw [b] at i
  rw [c 3 (by decide) (by decide)] at x
  rw [c 4 (by decide) (by decide)] at y
  rw [c 5 (by decide) (by decide)] at z
  exact ⟨e, i, x, y, z⟩

-- C83: the program as configured
example : ∃ (r : Run ℝ) (T : ℝ), GemChallenge.gemChallenge true (fun _ => true) = .ok (.ok () r) ∧ r.files.length = 1001 ∧
    ∀ file ∈ r.files.map Prod.snd, BlockSum file "electrons" "rho" T := by
  obtain ⟨r, T, _, _, _, _, h1, h2, h3⟩ := C83_gem (nx := 256) (by decide) 1000 125
  exact ⟨r, T, h1, by have := congrArg List.length h2; simpa using this, fun f hf => (h3 f hf).1⟩

end QK.Props
