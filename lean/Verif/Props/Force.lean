import Verif.Props.Contact
import Verif.Props.Dependence
import Verif.Props.Walls
/-
C138: forces. The momentum of a gas changes by what the walls exert, and what that is.
-/
namespace QK.Props
open QK Spec

/-! ### The wall -/

/-- **C138** The HLL flux at a no-slip wall, between the state `q` above the wall and its mirror image with reversed momentum, as long as the gas does not leave the wall faster than sound: no mass and no energy; the
wall exerts the pressure, less `ρ c v` for a gas that leaves it with the velocity `v` (acoustic impedance), and along the wall it brakes with `ρ c` times the velocity. -/
theorem C138_wall {gamma : ℝ} (d : Fin 3) {q : Gas} (hr : q.rho ≠ 0) (hv : 0 < q.vel d + q.sound gamma) :
    Euler.hll gamma (d : Nat) (Gas.comps ⟨q.rho, fun i => -q.mom i, q.en⟩) q.comps =
      .ok (Gas.comps ⟨0, fun i => q.pressure gamma * unit d i - q.rho * q.sound gamma * q.vel i, 0⟩) := by
  have P : Gas.pressure gamma ⟨q.rho, fun i => -q.mom i, q.en⟩ = q.pressure gamma := by simp only [Gas.pressure, vdot, neg_mul_neg]
  have V : ∀ i, Gas.vel ⟨q.rho, fun i => -q.mom i, q.en⟩ i = -q.vel i := fun i => by simp only [Gas.vel, neg_div]
  have S : Gas.sound gamma ⟨q.rho, fun i => -q.mom i, q.en⟩ = q.sound gamma := by simp only [Gas.sound, P]
  have mr : ∀ i, q.mom i = q.rho * q.vel i := fun i => by unfold Gas.vel; field_simp
  rw [Euler.hll_gas]
  rw [V, S, if_pos ⟨hv.le, by linarith⟩, if_neg (by linarith), if_neg (by linarith)]
  simp only [Gas.comps, Gas.lin, Gas.hllFlux, Gas.flux, P, V]
  clear P V S
  simp only [mr]
  generalize q.pressure gamma = p at *
  generalize q.sound gamma = c at *
  generalize q.vel = v at *
  have hs : v d + c - (-v d - c) ≠ 0 := by linarith
  congr 1
  simp only [List.cons.injEq, and_true]
  refine ⟨?_, ?_, ?_, ?_, ?_⟩ <;> field_simp <;> ring

/-! ### The balance -/

/-- What the sum of the differences of a function across the cells of a row is: the difference across the row. -/
theorem sum_rows {B : Box} {i : Nat} (hi' : i < B.length) (hB : Pos B) (f : Cell → ℝ) :
    ((cells B).map fun x => f x - f (moveBy x i 1)).sum =
      ((cells B).map fun x => if x.getD i 0 = hi B i - 1 then f (moveBy x i (1 - (hi B i - lo B i))) - f (moveBy x i 1) else 0).sum := by
  let g : Cell → ℝ := fun x => if x.getD i 0 = hi B i then f (moveBy x i (-(hi B i - lo B i))) else f x
  have wide : lo B i < hi B i := by
    have := hB (B[i]) (List.getElem_mem _)
    simpa [lo, hi, List.getD_eq_getElem?_getD, hi'] using this
  have gz := sum_shift hi' hB g ?_
  · rw [← sub_eq_zero, ← list_sum_sub]
    refine Eq.trans (congrArg List.sum (List.map_congr_left fun x hx => ?_)) gz
    have hx := mem_cells.1 hx
    have hb := ((inBox_iff _ x).1 hx).2 i hi'
    have hl : i < x.length := by rw [hx.length_eq]; exact hi'
    have m1 : (moveBy x i 1).getD i 0 = x.getD i 0 + 1 := by rw [moveBy_getD hl, if_pos rfl]
    simp only [g, m1]
    rw [if_neg (show ¬ x.getD i 0 = hi B i by omega)]
    by_cases c : x.getD i 0 = hi B i - 1
    · rw [if_pos c, if_pos (by omega), moveBy_moveBy, show (1 : Int) + -(hi B i - lo B i) = 1 - (hi B i - lo B i) by ring]
      ring
    · rw [if_neg c, if_neg (by omega)]; ring
  · intro x hx h0
    have hl : i < x.length := by rw [hx.length_eq]; exact hi'
    have m1 : (moveBy x i (hi B i - lo B i)).getD i 0 = hi B i := by rw [moveBy_getD hl, if_pos rfl, h0]; ring
    simp only [g, m1, if_true]
    rw [if_neg (by omega), moveBy_moveBy, show hi B i - lo B i + -(hi B i - lo B i) = 0 by ring, moveBy_zero]

section
variable {M : Box} {p : Nat} {ws ps : List Nat}

/-- The flux of component `j` in direction `d` through the lower end of the row that ends with the cell `x`, minus that through its upper end; 0 if no row along `d` ends with `x`. -/
noncomputable def rowForce (M : Box) (gamma : ℝ) (u : Cell → ℝ) (d j : Nat) (x : Cell) : ℝ :=
  if x.getD d 0 = hi M d - 1 then (faceFlux (fluxOf (Euler.hll gamma d)) 5 (fun x j => u (x ++ [(j : Int)])) d (moveBy x d (1 - (hi M d - lo M d)))).getD j 0 -
    (faceFlux (fluxOf (Euler.hll gamma d)) 5 (fun x j => u (x ++ [(j : Int)])) d (moveBy x d 1)).getD j 0 else 0

/-- **C138** The total of each component, mass, momentum and energy, changes only by what passes through the walls: the rates of the cells add up to the fluxes through both ends of all rows of cells that end at walls. -/
theorem C138_balance (hp : 1 ≤ p) (hM : Pos M) (hps : ∀ i ∈ ps, 2 ≤ hi M i - lo M i) {u u' r : Cell → ℝ}
    (F : Filled M [(0, (p : Int)), (0, 5)] ws isMomentum ps u u') {gamma : ℝ} {dx : Nat → ℝ} (hr : GasRate M p dx gamma u' r) {j : Nat} (hj : j < 5) :
    fieldTotal M p r j = ((List.range M.length).map fun d => if d ∈ ps then 0 else ((cells (M ++ [(0, (p : Int))])).map (rowForce M gamma u' d j)).sum / dx d).sum := by
  unfold fieldTotal total
  rw [List.map_congr_left (fun x hx => hr x (mem_cells.1 hx) j hj)]
  simp only [fvUpdate_add]
  rw [list_sum_add, list_sum_comm]
  have z : ((cells (M ++ [((0 : Int), (p : Int))])).map fun _ => (Arith.lit 0 : ℝ)).sum = 0 := by simp [real_lit]
  rw [z, zero_add]
  congr 1
  refine List.map_congr_left fun d hd => ?_
  have hd := List.mem_range.1 hd
  have hdl : d < (M ++ [((0 : Int), (p : Int))]).length := by simp; omega
  by_cases c : d ∈ ps
  · rw [if_pos c]
    refine sum_shift hdl (pos_points hM hp) (fun x => (faceFlux (fluxOf (Euler.hll gamma d)) 5 (fun x j => u' (x ++ [(j : Int)])) d x).getD j 0 / dx d) fun x hx h0 => ?_
    exact congrArg (· / dx d) (closed_periodic (n := 5) F c hd (hps d c) (fluxOf (Euler.hll gamma d)) j x hx h0)
  · rw [if_neg c]
    have := sum_rows hdl (pos_points hM hp) fun x => (faceFlux (fluxOf (Euler.hll gamma d)) 5 (fun x j => u' (x ++ [(j : Int)])) d x).getD j 0 / dx d
    refine this.trans ?_
    rw [lo_append hd, hi_append hd, div_eq_mul_inv, mul_comm, ← list_sum_mul]
    congr 1
    refine List.map_congr_left fun x _ => ?_
    unfold rowForce
    split_ifs <;> ring

/-- The total after a stage. -/
theorem fieldTotal_stage {M : Box} {p j k : Nat} {t : ℝ} {u0 u r v : Cell → ℝ} (hv : ∀ x, v x = rkStage k t (u0 x) (u x) (r x)) :
    fieldTotal M p v j = rkStage k t (fieldTotal M p u0 j) (fieldTotal M p u j) (fieldTotal M p r j) := by
  unfold fieldTotal total
  simp only [hv]
  rcases (by omega : k = 0 ∨ k = 1 ∨ 2 ≤ k) with rfl | rfl | hk
  · simp only [rkStage, list_sum_add, list_sum_mul]
  · have e : ∀ x : Cell, rkStage 1 t (u0 (x ++ [(j : Int)])) (u (x ++ [(j : Int)])) (r (x ++ [(j : Int)])) =
        3 / 4 * u0 (x ++ [(j : Int)]) + (1 / 4 * u (x ++ [(j : Int)]) + 1 / 4 * t * r (x ++ [(j : Int)])) := by
      intro x
      simp only [rkStage, real_lit]
      push_cast
      ring
    simp only [e, list_sum_add, list_sum_mul]
    simp only [rkStage, real_lit]; push_cast; ring
  · obtain ⟨k, rfl⟩ : ∃ k', k = k' + 2 := ⟨k - 2, by omega⟩
    have e : ∀ x : Cell, rkStage (k + 2) t (u0 (x ++ [(j : Int)])) (u (x ++ [(j : Int)])) (r (x ++ [(j : Int)])) =
        1 / 3 * u0 (x ++ [(j : Int)]) + (2 / 3 * u (x ++ [(j : Int)]) + 2 / 3 * t * r (x ++ [(j : Int)])) := by
      intro x
      simp only [rkStage, real_lit]
      push_cast
      ring
    simp only [e, list_sum_add, list_sum_mul]
    simp only [rkStage, real_lit]; push_cast; ring

/-! ### Gas at rest next to the walls -/

/-- The cells whose first coordinate satisfies `I` hold the state `w`. -/
def StillIn (M : Box) (p : Nat) (I : Int → Prop) (w : Nat → ℝ) (u : Cell → ℝ) : Prop :=
  ∀ x, InBox (M ++ [(0, (p : Int))]) x → I (x.getD 0 0) → ∀ j : Nat, j < 5 → u (x ++ [(j : Int)]) = w j

/-- A gas at rest. -/
structure Resting (w : Nat → ℝ) : Prop where
  rho : 0 < w 0
  en : 0 < w 4
  mom : ∀ j, 1 ≤ j → j ≤ 3 → w j = 0

theorem still_fill {I : Int → Prop} {w : Nat → ℝ} {u u' : Cell → ℝ} (F : Filled M [(0, (p : Int)), (0, 5)] ws isMomentum ps u u') (h : StillIn M p I w u) : StillIn M p I w u' := by
  intro x hx hI j hj
  rw [F.inside, h x hx hI j hj]
  rw [show M ++ [((0 : Int), (p : Int)), (0, 5)] = (M ++ [((0 : Int), (p : Int))]) ++ [(0, 5)] by simp]
  exact (inBox_snoc hx.length_eq).2 ⟨hx, by omega, by omega⟩

/-- Cells and ghost cells at most two cells away from a cell, if the cells at most two cells away from it are at rest. -/
theorem still_around (C : Covered M ws ps) (h0 : 0 ∉ ps) {I : Int → Prop} {w : Nat → ℝ} (hw : Resting w) {u u' : Cell → ℝ} (F : Filled M [(0, (p : Int)), (0, 5)] ws isMomentum ps u u') (h : StillIn M p I w u)
    {x : Cell} (hx : InBox (M ++ [(0, (p : Int))]) x) (hI : ∀ c, x.getD 0 0 - 2 ≤ c → c ≤ x.getD 0 0 + 2 → I c) {d : Nat} (hd : d < M.length) {s : Int} (h1 : -2 ≤ s) (h2 : s ≤ 2) {j : Nat} (hj : j < 5) :
    u' (moveBy x d s ++ [(j : Int)]) = w j := by
  obtain ⟨b1, b2⟩ := filled_image (n := 5) F hx hd (C.wide d hd) (C.all d hd) h1 h2 hj
  have near := within_coord h0 (image_within C.all hx hd (C.wide d hd) h1 h2)
  have e := h _ (image_mesh (ws := ws) hx hd (C.wide d hd) h1 h2) (hI _ (by push_cast at near; exact near.1) (by push_cast at near; exact near.2)) j hj
  by_cases c : Beyond M x d s ∧ d ∈ ws ∧ isMomentum j
  · rw [b1 c, e, hw.mom j (by rcases c.2.2 with h | h | h <;> omega) (by rcases c.2.2 with h | h | h <;> omega)]; simp
  · rw [b2 c, e]

/-- The flux through a face in a gas at rest. -/
theorem still_face {gamma : ℝ} (hg : 1 < gamma) {w : Nat → ℝ} (hw : Resting w) {u : Cell → Nat → ℝ} {d : Nat} (d3 : d < 3) {y : Cell}
    (h : ∀ t : Int, -2 ≤ t → t ≤ 1 → ∀ j < 5, u (moveBy y d t) j = w j) {j : Nat} (hj : j < 5) :
    (faceFlux (fluxOf (Euler.hll gamma d)) 5 u d y).getD j 0 = if j = d + 1 then (gamma - 1) * w 4 else 0 := by
  have h0 := h 0 (by decide) (by decide) 0 (by decide)
  rw [moveBy_zero] at h0
  have b : (below u d y).rho = w 0 := by
    show (FV.recon (u (moveBy y d (-2)) 0) (u (moveBy y d (-1)) 0) (u y 0) (u (moveBy y d 1) 0)).1 = w 0
    rw [h _ (by decide) (by decide) 0 (by decide), h _ (by decide) (by decide) 0 (by decide), h0, h _ (by decide) (by decide) 0 (by decide), recon_const]
  have a : (above u d y).rho = w 0 := by
    show (FV.recon (u (moveBy y d (-2)) 0) (u (moveBy y d (-1)) 0) (u y 0) (u (moveBy y d 1) 0)).2 = w 0
    rw [h _ (by decide) (by decide) 0 (by decide), h _ (by decide) (by decide) 0 (by decide), h0, h _ (by decide) (by decide) 0 (by decide), recon_const]
  have f := calm_face (u := u) (y := y) hg hw.en d3 (fun t t1 t2 k k1 k2 => by
    rw [h t t1 t2 k k2]
    split_ifs with c
    · rw [c]
    · exact hw.mom k k1 (by omega)) (by rw [b]; exact hw.rho) (by rw [a]; exact hw.rho)
  rcases Nat.eq_zero_or_pos j with rfl | h1
  · rw [f.2, a, b, sub_self, mul_zero, if_neg (by omega)]
  · rw [f.1 j h1 hj]

/-- A stage leaves a gas at rest as it is, except for cells at most two cells away from others. -/
theorem still_stage {grid : Rectilinear ℝ} (h3 : grid.rng.dims.length ≤ 3) (C : Covered grid.rng.dims ws ps) (h0 : 0 ∉ ps) {gamma t : ℝ} (hg : 1 < gamma) {w : Nat → ℝ} (hw : Resting w) {I I' : Int → Prop}
    (hI : ∀ c, I' c → ∀ c', c - 2 ≤ c' → c' ≤ c + 2 → I c') {k : Nat} {q0 q q1 r q2 : Cell → ℝ}
    (S : SoloStage grid.rng.dims p 5 ws isMomentum ps (GasRate grid.rng.dims p grid.dxAt gamma) t k q0 q q1 r q2) (hq0 : StillIn grid.rng.dims p I w q0) (hq : StillIn grid.rng.dims p I w q) :
    StillIn grid.rng.dims p I' w q2 := by
  intro x hx hIx j hj
  have zero : r (x ++ [(j : Int)]) = 0 := by
    rw [S.rates x hx j hj, fvUpdate_add]
    have : ∀ d ∈ List.range grid.rng.dims.length, (faceFlux (fluxOf (Euler.hll gamma d)) 5 (fun x j => q1 (x ++ [(j : Int)])) d x).getD j 0 / grid.dxAt d -
        (faceFlux (fluxOf (Euler.hll gamma d)) 5 (fun x j => q1 (x ++ [(j : Int)])) d (moveBy x d 1)).getD j 0 / grid.dxAt d = 0 := by
      intro d hd
      have hd := List.mem_range.1 hd
      rw [still_face hg hw (by omega) (fun t t1 t2 k hk => still_around C h0 hw S.fill hq hx (hI _ hIx) hd (by omega) (by omega) hk) hj,
        still_face hg hw (by omega) (fun t t1 t2 k hk => by rw [moveBy_moveBy]; exact still_around C h0 hw S.fill hq hx (hI _ hIx) hd (by omega) (by omega) hk) hj, sub_self]
    rw [List.map_congr_left this]
    simp [real_lit]
  rw [S.next, zero, hq0 x hx (hI _ hIx _ (by omega) (by omega)) j hj, still_fill S.fill hq x hx (hI _ hIx _ (by omega) (by omega)) j hj, rkStage_fixed]

/-- Rows along a direction. -/
theorem rows_count {B : Box} {i : Nat} (hi' : i < B.length) (hB : Pos B) (P : ℝ) :
    ((cells B).map fun x => if x.getD i 0 = hi B i - 1 then P else 0).sum = P * ((cells B).length / ((hi B i - lo B i : Int) : ℝ)) := by
  have wide : lo B i < hi B i := by
    have := hB (B[i]) (List.getElem_mem _)
    simpa [lo, hi, List.getD_eq_getElem?_getD, hi'] using this
  have n0 : ((hi B i - lo B i : Int) : ℝ) ≠ 0 := by
    have : hi B i - lo B i ≠ 0 := by omega
    exact_mod_cast this
  have := sum_rows hi' hB fun x => -(x.getD i 0 : ℝ)
  have e1 : ((cells B).map fun x => -((x.getD i 0 : Int) : ℝ) - -(((moveBy x i 1).getD i 0 : Int) : ℝ)).sum = (cells B).length := by
    rw [List.map_congr_left (g := fun _ => (1 : ℝ)) fun x hx => ?_]
    · simp
    · have hl : i < x.length := by rw [(mem_cells.1 hx).length_eq]; exact hi'
      rw [moveBy_getD hl, if_pos rfl]; push_cast; ring
  rw [e1] at this
  rw [this, ← mul_div_assoc, eq_div_iff n0, mul_comm, ← list_sum_mul, ← list_sum_mul]
  congr 1
  refine List.map_congr_left fun x hx => ?_
  have hl : i < x.length := by rw [(mem_cells.1 hx).length_eq]; exact hi'
  split_ifs
  · rw [moveBy_getD hl, if_pos rfl, moveBy_getD hl, if_pos rfl]; push_cast; ring
  · ring

/-- The rate of the momentum of a gas that is at rest next to two walls, with the states `wl` and `wr` there. -/
theorem push_rate (hp : 1 ≤ p) (hM : Pos M) (h3 : M.length ≤ 3) (hM0 : 0 < M.length) (C : Covered M [0] ps) (hps : ∀ i ∈ ps, i < M.length) (h0 : 0 ∉ ps) {gamma : ℝ} (hg : 1 < gamma)
    {wl wr : Nat → ℝ} (hl : Resting wl) (hr : Resting wr) {u u' r : Cell → ℝ} (F : Filled M [(0, (p : Int)), (0, 5)] [0] isMomentum ps u u') {dx : Nat → ℝ} (hrate : GasRate M p dx gamma u' r)
    (L : StillIn M p (fun c => c < lo M 0 + 3) wl u) (R : StillIn M p (fun c => hi M 0 - 3 ≤ c) wr u) :
    fieldTotal M p r 1 = ((gamma - 1) * wl 4 - (gamma - 1) * wr 4) * ((cells (M ++ [(0, (p : Int))])).length / ((hi M 0 - lo M 0 : Int) : ℝ)) / dx 0 := by
  rw [C138_balance hp hM (fun i hi' => C.wide i (hps i hi')) F hrate (by decide)]
  have others : ∀ d ∈ List.range M.length, (if d ∈ ps then 0 else ((cells (M ++ [((0 : Int), (p : Int))])).map (rowForce M gamma u' d 1)).sum / dx d) =
      if d = 0 then ((cells (M ++ [((0 : Int), (p : Int))])).map (rowForce M gamma u' 0 1)).sum / dx 0 else 0 := by
    intro d hd
    by_cases c : d = 0
    · subst c; rw [if_neg h0, if_pos rfl]
    · rw [if_neg c, if_pos ((C.all d (List.mem_range.1 hd)).resolve_left (by simpa using c))]
  rw [List.map_congr_left others]
  obtain ⟨n, hn⟩ : ∃ n, M.length = n + 1 := ⟨M.length - 1, by omega⟩
  rw [hn, List.range_succ_eq_map, List.map_cons, List.sum_cons, if_pos rfl, List.map_map]
  have tail : ((List.range n).map ((fun d => if d = 0 then ((cells (M ++ [((0 : Int), (p : Int))])).map (rowForce M gamma u' 0 1)).sum / dx 0 else 0) ∘ Nat.succ)).sum = 0 := by
    rw [List.map_congr_left (g := fun _ => (0 : ℝ)) fun d _ => by simp]
    simp
  rw [tail, add_zero]
  have hdl : 0 < (M ++ [((0 : Int), (p : Int))]).length := by simp
  have cnt := rows_count hdl (pos_points hM hp) ((gamma - 1) * wl 4 - (gamma - 1) * wr 4)
  rw [lo_append hM0, hi_append hM0] at cnt
  rw [← cnt]
  congr 2
  refine List.map_congr_left fun x hx => ?_
  have hx := mem_cells.1 hx
  have hxl : 0 < x.length := by rw [hx.length_eq]; exact hdl
  unfold rowForce
  split_ifs with c
  swap
  · rfl
  have w0 := C.wide 0 hM0
  have hy : InBox (M ++ [((0 : Int), (p : Int))]) (moveBy x 0 (1 - (hi M 0 - lo M 0))) := by
    refine inBox_moved hx hdl ?_ ?_
    · rw [lo_append hM0]; omega
    · rw [hi_append hM0]; omega
  have y0 : (moveBy x 0 (1 - (hi M 0 - lo M 0))).getD 0 0 = lo M 0 := by rw [moveBy_getD hxl, if_pos rfl, c]; ring
  rw [still_face hg hl (by decide) (fun t t1 t2 k hk => still_around C h0 hl F L hy (fun c c1 c2 => by rw [y0] at c2; omega) hM0 t1 (by omega) hk) (by decide),
    still_face hg hr (by decide) (fun t t1 t2 k hk => by rw [moveBy_moveBy]; exact still_around C h0 hr F R hx (fun c c1 c2 => by omega) hM0 (by omega) (by omega) hk) (by decide)]
  simp

/-- **C138** A gas that is uniform and at rest next to either of two walls gains in a time step the momentum that their different pressures give it: the difference times the number of rows times the time over the width of a cell. At rest in
seven cells next to either wall is enough. Everything in between is arbitrary. -/
theorem C138_step {grid : Rectilinear ℝ} (hp : 1 ≤ p) (hM : Pos grid.rng.dims) (h3 : grid.rng.dims.length ≤ 3) (hM0 : 0 < grid.rng.dims.length) (C : Covered grid.rng.dims [0] ps)
    (hps : ∀ i ∈ ps, i < grid.rng.dims.length) (h0 : 0 ∉ ps) {gamma t : ℝ} (hg : 1 < gamma) {wl wr : Nat → ℝ} (hl : Resting wl) (hr : Resting wr) {q q' : Cell → ℝ}
    (H : GasStep grid p [0] ps gamma t q q') (L : StillIn grid.rng.dims p (fun c => c < lo grid.rng.dims 0 + 7) wl q) (R : StillIn grid.rng.dims p (fun c => hi grid.rng.dims 0 - 7 ≤ c) wr q) :
    fieldTotal grid.rng.dims p q' 1 = fieldTotal grid.rng.dims p q 1 + t * (((gamma - 1) * wl 4 - (gamma - 1) * wr 4) *
      ((cells (grid.rng.dims ++ [(0, (p : Int))])).length / ((hi grid.rng.dims 0 - lo grid.rng.dims 0 : Int) : ℝ)) / grid.dxAt 0) := by
  obtain ⟨q0, r0, q1, q1', r1, q2, q2', r2, S0, S1, S2⟩ := H
  have weaken : ∀ {I I' : Int → Prop} {w u}, (∀ c, I' c → I c) → StillIn grid.rng.dims p I w u → StillIn grid.rng.dims p I' w u := fun h hu x hx hI => hu x hx (h _ hI)
  have L0 := still_fill S0.fill L
  have R0 := still_fill S0.fill R
  have L1 : StillIn grid.rng.dims p (fun c => c < lo grid.rng.dims 0 + 5) wl q1 := still_stage h3 C h0 hg hl (fun c hc c' h1 h2 => by omega) S0 L0 L
  have R1 : StillIn grid.rng.dims p (fun c => hi grid.rng.dims 0 - 5 ≤ c) wr q1 := still_stage h3 C h0 hg hr (fun c hc c' h1 h2 => by omega) S0 R0 R
  have L2 : StillIn grid.rng.dims p (fun c => c < lo grid.rng.dims 0 + 3) wl q2 :=
    still_stage h3 C h0 hg hl (fun c hc c' h1 h2 => by omega) S1 (weaken (fun c hc => by omega) L0) L1
  have R2 : StillIn grid.rng.dims p (fun c => hi grid.rng.dims 0 - 3 ≤ c) wr q2 :=
    still_stage h3 C h0 hg hr (fun c hc c' h1 h2 => by omega) S1 (weaken (fun c hc => by omega) R0) R1
  have T0 := push_rate hp hM h3 hM0 C hps h0 hg hl hr S0.fill S0.rates (weaken (fun c hc => by omega) L) (weaken (fun c hc => by omega) R)
  have T1 := push_rate hp hM h3 hM0 C hps h0 hg hl hr S1.fill S1.rates (weaken (fun c hc => by omega) L1) (weaken (fun c hc => by omega) R1)
  have T2 := push_rate hp hM h3 hM0 C hps h0 hg hl hr S2.fill S2.rates L2 R2
  have f0 := filled_total (n := 5) (j := 1) S0.fill (by decide)
  have f1 := filled_total (n := 5) (j := 1) S1.fill (by decide)
  have f2 := filled_total (n := 5) (j := 1) S2.fill (by decide)
  have e0 := fieldTotal_stage (M := grid.rng.dims) (p := p) (j := 1) S0.next
  have e1 := fieldTotal_stage (M := grid.rng.dims) (p := p) (j := 1) S1.next
  have e2 := fieldTotal_stage (M := grid.rng.dims) (p := p) (j := 1) S2.next
  rw [e2, f2, T2, e1, f1, T1, e0, f0, T0]
  simp only [rkStage, real_lit]
  push_cast
  ring

end

/-- The state from which the shock tube starts. -/
theorem sod_start {nx ny : Int} (hnx : 2 ≤ nx) {g : Rectilinear ℝ} (hg : SodShockTube.grid nx ny = .ok g) (hd : g.rng.dims = [(0, nx), (0, ny)]) {s : Nat → Cell → ℝ}
    (h0 : ∀ x, InBox (g.rng.dims ++ [(0, 1)]) x → ∀ j : Nat, j < 5 → s 0 (x ++ [(j : Int)]) =
      jumpState (Arith.lit (1 / 8)) (Arith.lit (1 / 10)) (Arith.lit (7 / 5)) (Arith.lt (centre g x 0) (Arith.lit 0)) j) :
    ∀ z, InBox (g.rng.dims ++ [(0, 1)]) z → ∀ i : Nat, i < 5 →
      (2 * z.getD 0 0 + 1 < nx → s 0 (z ++ [(i : Int)]) = ([1, 0, 0, 0, 5 / 2] : List ℝ).getD i 0) ∧ (nx ≤ 2 * z.getD 0 0 + 1 → s 0 (z ++ [(i : Int)]) = ([1 / 8, 0, 0, 0, 1 / 4] : List ℝ).getD i 0) := by
  have hn : (0 : ℝ) < nx := by
    have : 0 < nx := by omega
    exact_mod_cast this
  intro z hz i hi
  have hz' := hz
  rw [hd] at hz'
  match z, hz' with
  | [c, d, e], hz' =>
    obtain rfl : e = 0 := by simp [InBox] at hz'; omega
    rw [h0 _ hz i hi]
    have hc := ((C88_cells (nz := 0)).1 hg).2.2 c d
    have hlt : Arith.lt (centre g [c, d, 0] 0) (Arith.lit 0) = decide (2 * c + 1 < nx) := by
      rw [hc]
      rw [Bool.eq_iff_iff, real_lt, decide_eq_true_iff, real_lit]
      have e : (-1 / 2 + ((c : ℝ) + 1 / 2) / nx < ((0 : Rat) : ℝ)) ↔ (2 * (c : ℝ) + 1 < nx) := by
        rw [show -1 / 2 + ((c : ℝ) + 1 / 2) / nx = (2 * c + 1 - nx) / (2 * nx) by field_simp; ring]
        rw [Rat.cast_zero, div_lt_iff₀ (by positivity)]
        constructor <;> intro h <;> linarith
      rw [e]
      exact_mod_cast Iff.rfl
    rw [hlt]
    constructor
    · intro hc
      have : (2 * c + 1 < nx) := hc
      simp only [this, decide_true]
      obtain rfl | rfl | rfl | rfl | rfl : i = 0 ∨ i = 1 ∨ i = 2 ∨ i = 3 ∨ i = 4 := by omega
      all_goals simp [jumpState, real_lit]
      all_goals norm_num
    · intro hc
      have : ¬ (2 * c + 1 < nx) := by
        have : nx ≤ 2 * c + 1 := hc
        omega
      simp only [this, decide_false]
      obtain rfl | rfl | rfl | rfl | rfl : i = 0 ∨ i = 1 ∨ i = 2 ∨ i = 3 ∨ i = 4 := by omega
      all_goals simp [jumpState, real_lit]
      all_goals norm_num

/-- **C138** In the shock tube the momentum along the tube in file `j` is that which the pressures of 1 and 1/10 at the ends have given the gas, until something may have come from the jump to the walls: its sum over the cells
is 9/20 of the number of cells, times `j` over the number of frames (the program ends at the time 1/2; the tube has the length 1). -/
theorem C138_sod {nx ny : Int} (hnx : 2 ≤ nx) (hny : 2 ≤ ny) {numFrames numSteps : Nat} (hN : 0 < numSteps) :
    ∃ (r : Run ℝ) (file : Nat → List (Tok ℝ)), SodShockTube.run true (fun _ => true) nx ny numFrames numSteps = .ok (.ok () r) ∧
      r.files = (List.range (numFrames + 1)).map (fun j => (j, file j)) ∧
      ∀ j ≤ numFrames, 12 * (j * numSteps : Int) + 2 ≤ nx → BlockSum (file j) "fluid" "px" (9 / 20 * (nx * ny) * (j / numFrames)) := by
  obtain ⟨g, hg, hd, ⟨s, file, h0, hs, hf, r, hr, hrun, -⟩, -⟩ := C85_sod (α := ℝ) hnx hny (fun _ => true) numFrames numSteps
  obtain ⟨m', rfl⟩ := hrun fun _ _ => rfl
  refine ⟨_, file, hr, rfl, fun j hj hjn => ?_⟩
  have C : Covered g.rng.dims [0] [1] := by rw [hd]; exact covered_two hnx hny
  have hpos : Pos g.rng.dims := by
    rw [hd]; intro d hd'; simp at hd'; rcases hd' with rfl | rfl <;> simp <;> omega
  have start := sod_start hnx hg hd h0
  have hl : Resting fun i => ([1, 0, 0, 0, 5 / 2] : List ℝ).getD i 0 := ⟨by simp, by simp, fun j h1 h3 => by
    obtain rfl | rfl | rfl : j = 1 ∨ j = 2 ∨ j = 3 := by omega
    all_goals rfl⟩
  have hr' : Resting fun i => ([1 / 8, 0, 0, 0, 1 / 4] : List ℝ).getD i 0 := ⟨by simp, by simp, fun j h1 h3 => by
    obtain rfl | rfl | rfl : j = 1 ∨ j = 2 ∨ j = 3 := by omega
    all_goals rfl⟩
  generalize ht : (Arith.lit (1 / 2) / Arith.ofInt (numFrames * numSteps) : ℝ) = t at hs
  have hgam : (Arith.lit (7 / 5) : ℝ) = 7 / 5 := by simp [real_lit]
  rw [hgam] at hs
  have g1 : (1 : ℝ) < 7 / 5 := by norm_num
  have d3 : g.rng.dims.length ≤ 3 := by rw [hd]; simp
  -- at rest far from the jump
  have step : ∀ {I I' : Int → Prop} {w : Nat → ℝ} {q q' : Cell → ℝ}, Resting w → (∀ c, I' c → ∀ c', c - 6 ≤ c' → c' ≤ c + 6 → I c') → GasStep g 1 [0] [1] (7 / 5) t q q' →
      StillIn g.rng.dims 1 I w q → StillIn g.rng.dims 1 I' w q' := by
    rintro I I' w q q' hw hI ⟨q0, r0, q1, q1', r1, q2, q2', r2, S0, S1, S2⟩ h
    have K0 : StillIn g.rng.dims 1 I w q0 := still_fill S0.fill h
    have K1 : StillIn g.rng.dims 1 (fun c => ∀ c', c - 2 ≤ c' → c' ≤ c + 2 → I c') w q1 := still_stage (p := 1) d3 C (by decide) g1 hw (fun c hc => hc) S0 K0 h
    have K2 : StillIn g.rng.dims 1 (fun c => ∀ c', c - 4 ≤ c' → c' ≤ c + 4 → I c') w q2 :=
      still_stage (p := 1) d3 C (by decide) g1 hw (fun c hc c' h1 h2 c'' h3 h4 => hc c'' (by omega) (by omega)) S1 (fun x hx hI => K0 x hx (hI _ (by omega) (by omega))) K1
    exact still_stage (p := 1) d3 C (by decide) g1 hw (fun c hc c' h1 h2 c'' h3 h4 => hI c hc c'' (by omega) (by omega)) S2 (fun x hx hI => K0 x hx (hI _ (by omega) (by omega))) K2
  have left : ∀ k ≤ numFrames * numSteps, StillIn g.rng.dims 1 (fun c => 2 * (c + 6 * k) + 1 < nx) (fun i => ([1, 0, 0, 0, 5 / 2] : List ℝ).getD i 0) (s k) := by
    intro k
    induction k with
    | zero => intro _ x hx hI i hi'; exact (start x hx i hi').1 (by simpa using hI)
    | succ k ih => intro hk; exact step hl (fun c hc c' h1 h2 => by push_cast at hc ⊢; omega) (hs k (by omega)) (ih (by omega))
  have right : ∀ k ≤ numFrames * numSteps, StillIn g.rng.dims 1 (fun c => nx ≤ 2 * (c - 6 * k) + 1) (fun i => ([1 / 8, 0, 0, 0, 1 / 4] : List ℝ).getD i 0) (s k) := by
    intro k
    induction k with
    | zero => intro _ x hx hI i hi'; exact (start x hx i hi').2 (by simpa using hI)
    | succ k ih => intro hk; exact step hr' (fun c hc c' h1 h2 => by push_cast at hc ⊢; omega) (hs k (by omega)) (ih (by omega))
  have hlo : lo g.rng.dims 0 = 0 := by rw [hd]; rfl
  have hhi : hi g.rng.dims 0 = nx := by rw [hd]; rfl
  have nx0 : (nx : ℝ) ≠ 0 := by
    have : nx ≠ 0 := by omega
    exact_mod_cast this
  have count : ((cells (g.rng.dims ++ [((0 : Int), ((1 : Nat) : Int))])).length : ℝ) = nx * ny := by
    have := cells_length (pos_points hpos (p := 1) le_rfl)
    rw [hd] at this ⊢
    have h2 : ((cells ([(0, nx), (0, ny)] ++ [((0 : Int), ((1 : Nat) : Int))])).length : Int) = nx * ny := by rw [this]; simp [boxVolume, lengths]
    exact_mod_cast h2
  have force : ∀ k ≤ numFrames * numSteps, 12 * (k : Int) + 2 ≤ nx → fieldTotal g.rng.dims 1 (s k) 1 = k * (t * (9 / 10 * (nx * ny))) := by
    intro k
    induction k with
    | zero =>
      intro _ _
      unfold fieldTotal total
      rw [List.map_congr_left (g := fun _ => (0 : ℝ)) fun x hx => ?_]
      · simp
      · have := start x (mem_cells.1 hx) 1 (by decide)
        by_cases c : 2 * x.getD 0 0 + 1 < nx
        · exact this.1 c
        · exact this.2 (by omega)
    | succ k ih =>
      intro hk hkn
      push_cast at hkn
      have := C138_step (p := 1) le_rfl hpos d3 (by rw [hd]; simp) C (by rw [hd]; simp) (by decide) g1 hl hr' (hs k (by omega))
        (fun x hx hI => left k (by omega) x hx (by rw [hlo] at hI; omega)) (fun x hx hI => right k (by omega) x hx (by rw [hhi] at hI; omega))
      rw [this, ih (by omega) (by omega), count, hlo, hhi, ((C88_cells (nz := 0)).1 hg).1]
      push_cast
      simp only [List.getD_eq_getElem?_getD]
      field_simp
      norm_num
      ring
  have hle := Nat.mul_le_mul_right numSteps hj
  have B := blockSum_one (hf j hj) (k := 1) (by simp)
  have T := force (j * numSteps) hle (by push_cast; exact hjn)
  rw [T] at B
  have e : ((j * numSteps : Nat) : ℝ) * (t * (9 / 10 * (nx * ny))) = 9 / 20 * (nx * ny) * (j / numFrames) := by
    rw [← ht]
    have n0 : (numSteps : ℝ) ≠ 0 := by exact_mod_cast hN.ne'
    simp only [real_lit, real_ofInt]
    push_cast
    rcases Nat.eq_zero_or_pos numFrames with rfl | hF
    · obtain rfl : j = 0 := by omega
      simp
    · have f0 : (numFrames : ℝ) ≠ 0 := by exact_mod_cast hF.ne'
      field_simp
      ring
  rw [e] at B
  exact B

/-! ### Examples -/

/-- As configured, the momenta of file 8 add up to 36. -/
example : ∃ (r : Run ℝ) (file : Nat → List (Tok ℝ)), SodShockTube.sodShockTube true (fun _ => true) = .ok (.ok () r) ∧ r.files[8]? = some (8, file 8) ∧ BlockSum (file 8) "fluid" "px" 36 := by
  obtain ⟨r, file, h1, h2, h3⟩ := C138_sod (nx := 500) (ny := 2) (by decide) (by decide) (numFrames := 100) (numSteps := 5) (by decide)
  refine ⟨r, file, h1, by rw [h2]; simp, ?_⟩
  have := h3 8 (by decide) (by decide)
  norm_num at this
  exact this

/-- A gas of density 1 and pressure 2 that leaves a wall with the velocity 1/2, at `gamma` 2: the wall exerts half the pressure (`C138_wall`). -/
example : ∃ q : Gas, q.rho ≠ 0 ∧ 0 < q.vel 0 + q.sound 2 ∧ q.pressure 2 * unit 0 0 - q.rho * q.sound 2 * q.vel 0 = 1 := by
  refine ⟨⟨1, ![1 / 2, 0, 0], 17 / 8⟩, by norm_num, ?_, ?_⟩
  all_goals
    have P : Gas.pressure 2 ⟨1, ![1 / 2, 0, 0], 17 / 8⟩ = 2 := by
      simp [Gas.pressure, vdot]; norm_num
    have S : Gas.sound 2 ⟨1, ![1 / 2, 0, 0], 17 / 8⟩ = 2 := by
      unfold Gas.sound; rw [P, show (2 : ℝ) * 2 / 1 = 2 ^ 2 by norm_num, Real.sqrt_sq (by norm_num)]
    rw [S]
  · simp [Gas.vel]; norm_num
  · rw [P]; simp [Gas.vel, unit]; norm_num

end QK.Props
