import Verif.Proofs.Loop
import Verif.Model.Examples
import Verif.Props.Advection
import Verif.Props.Start
/-
Properties of the advection program with other initial conditions than its own, which is undefined (C87): C96, C97.
-/
namespace QK.Props
open QK Spec Solve

section
variable {α : Type} [Arith α] {S : VarId → Prop} {m : Mgr α} {q o1 o2 : VarId} {velocity : List α} {v dx : Nat → α}

/-- Periodic conditions without dimensions do nothing to a variable that exists. -/
theorem periodic_nothing (h : m.Good S) (hL : m.Laid) {s : VarId} (hs : S s) {c : Chunk α} (hc : m.contents s = some c) :
    ∃ m', periodic [] [s] m = .ok () m' ∧ m'.Good S ∧ m'.Laid ∧ m.Extends m' ∧ m'.contents = m.contents := by
  have hcr : created (Arith.lit 0) m.grid.rng m.contents s s = some c := by
    rw [created_self, Function.update_self, hc]; rfl
  obtain ⟨m', g1, g2, g3, g4⟩ := eachOutput_cons h hs hcr (f := BC.periodic []) (ids := []) (c' := c) rfl
  have e : m'.contents = m.contents := by rw [g3, ← hc, Function.update_eq_self]
  refine ⟨m', g4, g1, fun id d hd => ?_, g2, e⟩
  rw [e] at hd
  rw [g2.grid]
  exact hL id d hd

/-- The steps of the program on chunks. -/
theorem advect_core (A : Advects S m q o1 o2 velocity v dx) (n01 : q ≠ o1) (n02 : q ≠ o2) (n12 : o1 ≠ o2) {t : α} (ht : m.dt = some t) {c0 : Chunk α}
    (h0 : m.contents q = some c0) {u : Cell → α} (hu : ∀ y, InBox (m.arrayBox q) y → c0.arr.val y = some (u y)) (time : α) :
    ∃ m' c1 c1' c2 c2' w, (do
        periodic [] [q]
        advection velocity [q] [o1, o2] 0
        periodic [] [o1]
        advection velocity [q] [o1, o2] 1
        swap [q, o2]
        SM.modifyRes (fun m => .ok (m.setTime (time + t)))
        return time + t : SM (Mgr α) α) m = .ok (time + t) m' ∧ m'.Good S ∧ m'.Laid ∧ m.Extends { m' with time := m.time } ∧ m'.time = some (time + t) ∧
      m'.contents q = some c2' ∧ c1.Layout 2 m.grid.rng.dims [(0, q.basis.points), (0, (q.comps.length : Int))] ∧
      c1'.Layout 2 m.grid.rng.dims [(0, q.basis.points), (0, (q.comps.length : Int))] ∧
      c2.Layout 2 m.grid.rng.dims [(0, q.basis.points), (0, (q.comps.length : Int))] ∧
      Advection.stage0 t velocity m.grid c0 c1 = .ok c1' ∧ Advection.stage1 t velocity m.grid c0 c1' c2 = .ok c2' ∧
      (∀ y, InBox (m.arrayBox q) y → c1'.arr.val y = some (w y)) ∧
      (∀ x, InBox (m.innerBox q) x → w x = advected t v dx m.grid.rng.dims.length u x (u x)) ∧
      ∀ x, InBox (m.innerBox q) x → c2'.arr.val x = some (advected (Arith.lit (1 / 2) * t) v dx m.grid.rng.dims.length w x (Arith.lit (1 / 2) * (u x + w x))) := by
  obtain ⟨m1, p1, p2, p3, p4, p5⟩ := periodic_nothing A.good A.laid A.known.1 h0
  have A1 : Advects S m1 q o1 o2 velocity v dx :=
    ⟨p2, p3, A.known, A.points, A.comps, A.shape1, A.shape2, by rw [p4.time]; exact A.time, by rw [p4.grid]; exact A.vel, by rw [p4.grid]; exact A.width⟩
  have hu1 : ∀ y, InBox (m1.arrayBox q) y → c0.arr.val y = some (u y) := by
    unfold Mgr.arrayBox; rw [p4.grid]; exact hu
  obtain ⟨m2, c1, c1', a1, a2, a3, a4, a5, a6, a7, a8, a9⟩ := advection_stage0 A1 (p4.dt.trans ht) n01 (by rw [p5]; exact h0) hu1
  have e1 : m2.contents o1 = some c1' := by rw [a5, Function.update_self]
  have e0 : m2.contents q = some c0 := by rw [a5, Function.update_of_ne n01]; exact Mgr.requested_some _ (by rw [p5]; exact h0) _
  obtain ⟨m3, b1, b2, b3, b4, b5⟩ := periodic_nothing a2 a3 A.known.2.1 e1
  have x3 : m.Extends m3 := p4.trans (a4.trans b4)
  have A3 : Advects S m3 q o1 o2 velocity v dx :=
    ⟨b2, b3, A.known, A.points, A.comps, A.shape1, A.shape2, by rw [x3.time]; exact A.time, by rw [x3.grid]; exact A.vel, by rw [x3.grid]; exact A.width⟩
  obtain ⟨w, hw⟩ := exists_field (m := m3) (id := o1) (b3 _ _ (by rw [b5]; exact e1))
  obtain ⟨m4, c2, c2', d1, d2, d3, d4, d5, d6, d7, d8, d9⟩ := advection_stage1 A3 (x3.dt.trans ht) n12 (by rw [b5]; exact e0) (u := u)
    (by unfold Mgr.arrayBox; rw [x3.grid]; exact hu) (by rw [b5]; exact e1) hw
  have f2 : m4.contents o2 = some c2' := by rw [d5, Function.update_self]
  have f0 : m4.contents q = some c0 := by rw [d5, Function.update_of_ne n02]; exact Mgr.requested_some _ (by rw [b5]; exact e0) _
  have x4 : m.Extends m4 := x3.trans d4
  obtain ⟨m5, s1, s2, s3, s4, s5⟩ := C38_swap d2 (outs := [q, o2]) ⟨1, rfl⟩ (by simpa using n02) (by
    simp only [List.mem_cons, List.not_mem_nil, or_false, forall_eq_or_imp, forall_eq]
    exact ⟨by rw [f0]; simp, by rw [f2]; simp⟩)
  have sw := s4 0 _ _ rfl rfl
  have x5 : m.Extends m5 := x4.trans s3
  have L5 : m5.Laid := by
    intro id c hc
    rw [s3.grid]
    by_cases k1 : id = q
    · subst k1; rw [← A.shape2.1, ← A.shape2.2]; exact d3 o2 c (sw.1.symm.trans hc)
    by_cases k2 : id = o2
    · subst k2; rw [A.shape2.1, A.shape2.2]; exact d3 q c (sw.2.symm.trans hc)
    rw [s5 id (by simp [k1, k2])] at hc
    exact d3 id c hc
  unfold Mgr.arrayBox at hw
  rw [x3.grid, A.shape1.1, A.shape1.2] at hw
  rw [p4.grid] at a6 a7 a8 a9
  rw [x3.grid] at d6 d8 d9
  refine ⟨m5.setTime (time + t), c1, c1', c2, c2', w, ?_, Mgr.setTime_good' s2 _, L5, ⟨x5.grid, x5.dt, rfl, x5.addr⟩, rfl, sw.1.trans f2, a6, a7, d6, a8, d8, hw, ?_, d9⟩
  · rw [SM.bind_ok p1, SM.bind_ok a1, SM.bind_ok b1, SM.bind_ok d1, SM.bind_ok s1,
      SM.bind_ok (SM.modifyRes_ok (f := fun m => Res.ok (Mgr.setTime (time + t) m)) rfl)]
    rfl
  · intro x hx
    have := hw x (inBox_interior (by decide) hx)
    rw [a9 x hx] at this
    exact (Option.some.inj this).symm

omit [Arith α] in
/-- The data of an array are the values of its cells in order. -/
theorem data_cells {c : Chunk α} {M D : Box} (hl : c.Layout 2 M D) (hM : Pos M) (hD : Pos D) (hn : grow 2 M ++ D ≠ []) {u : Cell → α}
    (hu : ∀ y, InBox (grow 2 M ++ D) y → c.arr.val y = some (u y)) : c.arr.data = (cells (grow 2 M ++ D)).map u := by
  have hb := hl.dims
  have hp : Pos (grow 2 M ++ D) := by
    intro d hd
    rcases List.mem_append.1 hd with hd | hd
    · exact Advection.pos_grow (by decide) hM d hd
    · exact hD d hd
  have hlen : (c.arr.data.length : Int) = boxVolume (grow 2 M ++ D) := by
    rw [hl.wf.2, ← hb]
    refine hl.wf.1.volume_eq ?_
    rw [hb]; exact hn
  refine List.map_injective_iff.2 (Option.some_injective α) ?_
  rw [List.map_map]
  have e1 : (cells (grow 2 M ++ D)).map (some ∘ u) = ((cells (grow 2 M ++ D)).map (offset (grow 2 M ++ D))).map fun i => c.arr.data[i.toNat]? := by
    rw [List.map_map]
    refine List.map_congr_left fun y hy => ?_
    have := hu y (mem_cells.1 hy)
    unfold IFace.val at this
    rw [hb] at this
    exact this.symm
  rw [e1, cells_map_offset hp, ← hlen]
  refine List.ext_getElem (by simp [interval]) ?_
  intro i h1 h2
  simp [interval] at *

/-- A step on chunks that hold the fields before and after. -/
def ChunkStep (g : Rectilinear α) (D : Box) (velocity : List α) (v dx : Nat → α) (t : α) (u z : Cell → α) : Prop :=
  ∃ (c0 c1 c1' c2 c2' : Chunk α) (w : Cell → α), c0.Layout 2 g.rng.dims D ∧ c1.Layout 2 g.rng.dims D ∧ c1'.Layout 2 g.rng.dims D ∧ c2.Layout 2 g.rng.dims D ∧
    c2'.Layout 2 g.rng.dims D ∧ Advection.stage0 t velocity g c0 c1 = .ok c1' ∧ Advection.stage1 t velocity g c0 c1' c2 = .ok c2' ∧
    (∀ y, InBox (grow 2 g.rng.dims ++ D) y → c0.arr.val y = some (u y)) ∧ (∀ y, InBox (grow 2 g.rng.dims ++ D) y → c1'.arr.val y = some (w y)) ∧
    (∀ y, InBox (grow 2 g.rng.dims ++ D) y → c2'.arr.val y = some (z y)) ∧ AdvectStep g.rng.dims D t v dx u z

/-- State of the program between steps. -/
structure AdvectBetween (S : VarId → Prop) (g : Rectilinear α) (t time : α) (u : Cell → α) (m : Mgr α) : Prop where
  good : m.Good S
  laid : m.Laid
  grid : m.grid = g
  dt : m.dt = some t
  time : m.time = some time
  holds : m.Stores AdvectGaussian.var u

/-- The ids of the program. -/
def advectIds (id : VarId) : Prop := id = AdvectGaussian.var ∨ id = AdvectGaussian.partialVar ∨ id = AdvectGaussian.newVar

theorem advect_step {g : Rectilinear α} (hw : ∀ d : Nat, d < g.rng.dims.length → g.dx d = .ok (g.dxAt d)) (h2 : g.rng.dims.length = 2) {t time : α} {u : Cell → α}
    (B : AdvectBetween advectIds g t time u m) :
    ∃ m' z, AdvectGaussian.step t time m = .ok (time + t) m' ∧ AdvectBetween advectIds g t (time + t) z m' ∧
      ChunkStep g [(0, 1), (0, 1)] [Arith.lit (-1), Arith.lit (-1)] (fun _ => Arith.lit (-1)) g.dxAt t u z := by
  obtain ⟨good, laid, rfl, hdt, htime, c0, h0, hu⟩ := B
  have A : Advects advectIds m AdvectGaussian.var AdvectGaussian.partialVar AdvectGaussian.newVar [Arith.lit (-1), Arith.lit (-1)] (fun _ => Arith.lit (-1)) m.grid.dxAt := by
    refine ⟨good, laid, ⟨.inl rfl, .inr (.inl rfl), .inr (.inr rfl)⟩, by decide, by decide, ⟨rfl, rfl⟩, ⟨rfl, rfl⟩, by rw [htime]; simp, ?_, hw⟩
    intro d hd
    rw [h2] at hd
    obtain rfl | rfl : d = 0 ∨ d = 1 := by omega
    · rfl
    · rfl
  obtain ⟨m', c1, c1', c2, c2', w, e, k1, k2, k3, k4, k5, k6, k7, k8, k9, k10, k11, k12, k13⟩ :=
    advect_core A (by decide) (by decide) (by decide) hdt h0 hu time
  have L := k2 _ _ k5
  obtain ⟨z, hz⟩ := exists_field (m := m') L
  have hz' : ∀ y, InBox (m.arrayBox AdvectGaussian.var) y → c2'.arr.val y = some (z y) := by
    intro y hy
    refine hz y ?_
    unfold Mgr.arrayBox at hy ⊢
    rw [show m'.grid = m.grid from k3.grid]; exact hy
  rw [show m'.grid = m.grid from k3.grid] at L
  refine ⟨m', z, e, ⟨k1, k2, k3.grid, (show m'.dt = m.dt from k3.dt).trans hdt, k4, c2', k5, hz⟩, c0, c1, c1', c2, c2', w, laid _ _ h0, k6, k7, k8, L, k9, k10, hu, k11, hz', w, k12, ?_⟩
  intro x hx
  have := hz' x (inBox_interior (by decide) hx)
  rw [k13 x hx] at this
  exact (Option.some.inj this).symm

end

/-- A step keeps the sum over the array. -/
theorem ChunkStep.sum {g : Rectilinear ℝ} (hM : Pos g.rng.dims) (h2 : g.rng.dims.length = 2) {D : Box} (hD : Pos D) {dx : Nat → ℝ}
    (hw : ∀ d : Nat, d < g.rng.dims.length → g.dx d = .ok (dx d)) {a b t : ℝ} {v : Nat → ℝ} (hv : v 0 = a ∧ v 1 = b) {u z : Cell → ℝ}
    (h : ChunkStep g D [a, b] v dx t u z) : ((cells (grow 2 g.rng.dims ++ D)).map z).sum = ((cells (grow 2 g.rng.dims ++ D)).map u).sum := by
  obtain ⟨c0, c1, c1', c2, c2', w, l0, l1, l1', l2, l2', s0, s1, hu, hw1, hz, -⟩ := h
  have hn : grow 2 g.rng.dims ++ D ≠ [] := by
    intro e
    have := congrArg List.length e
    simp [grow, h2] at this
  have hvel : ∀ d, d < g.rng.dims.length → [a, b][d]? = some (v d) := by
    intro d hd
    rw [h2] at hd
    obtain rfl | rfl : d = 0 ∨ d = 1 := by omega
    · simp [hv.1]
    · simp [hv.2]
  rw [← data_cells l2' hM hD hn hz, ← data_cells l0 hM hD hn hu, Advection.stage1_sum l0 l1' l2 (by decide) hM hD hw1 rfl hvel hw s1,
    Advection.stage0_sum l0 (by decide) hM hD hu rfl hvel hw l1 s0]
  ring

/-! ## C96, C97 -/

section
variable {α : Type} [Arith α]

/-- The grid of the program. -/
theorem advect_grid {nx ny : Int} (hnx : 1 ≤ nx) (hny : 1 ≤ ny) : ∃ g : Rectilinear α, AdvectGaussian.grid nx ny = .ok g ∧ g.rng.dims = [(0, nx), (0, ny)] ∧
    Pos g.rng.dims ∧ (∀ d : Nat, d < g.rng.dims.length → g.dx d = .ok (g.dxAt d)) ∧
    ∃ range : Range, range.dims = [(0, nx), (0, ny)] ∧ Rectilinear.make range [Arith.lit (-1 / 2), Arith.lit (-1 / 2)] [Arith.lit 1, Arith.lit 1] = .ok g := by
  obtain ⟨g, hg⟩ := Rectilinear.make_ok (range := Range.setup [(0, nx), (0, ny)]) (s := [Arith.lit (-1 / 2), Arith.lit (-1 / 2)])
    (w := [Arith.lit 1, (Arith.lit 1 : α)]) (by simp) (by simp)
  have hd : g.rng.dims = [(0, nx), (0, ny)] := by rw [(Rectilinear.make_fields hg).1]; rfl
  refine ⟨g, ?_, hd, ?_, ?_, _, rfl, hg⟩
  · unfold AdvectGaussian.grid
    rw [show Range.ofLengths 2 [nx, ny] = .ok (Range.setup [(0, nx), (0, ny)]) from rfl, Res.ok_bind, hg]
  · rw [hd]; intro d hd'; simp at hd'; rcases hd' with rfl | rfl <;> simp <;> omega
  · intro d hdl
    have hl := (Rectilinear.make_sized hg).widths
    refine vget_of_getElem? ?_
    unfold Rectilinear.dxAt
    rw [List.getD_eq_getElem?_getD, List.getElem?_eq_getElem (by omega)]; rfl

/-- **C96** A time step of advect_gaussian from any field `u`, in any arithmetic: `variable` afterwards holds, in the cells of the mesh, the result of the
two-stage scheme with velocity -1 in both directions. The ghost cells are those that are stored: the periodic conditions do nothing. -/
theorem C96_step {nx ny : Int} (hnx : 1 ≤ nx) (hny : 1 ≤ ny) : ∃ g : Rectilinear α, AdvectGaussian.grid nx ny = .ok g ∧ g.rng.dims = [(0, nx), (0, ny)] ∧
    ∀ (m : Mgr α) (t time : α) (u : Cell → α), AdvectBetween advectIds g t time u m →
      ∃ m' z, AdvectGaussian.step t time m = .ok (time + t) m' ∧ AdvectBetween advectIds g t (time + t) z m' ∧
        AdvectStep [(0, nx), (0, ny)] [(0, 1), (0, 1)] t (fun _ => Arith.lit (-1)) g.dxAt u z := by
  obtain ⟨g, e, hd, hp, hw, -⟩ := advect_grid (α := α) hnx hny
  refine ⟨g, e, hd, ?_⟩
  intro m t time u B
  obtain ⟨m', z, a, b, c⟩ := advect_step hw (by rw [hd]; rfl) B
  refine ⟨m', z, a, b, ?_⟩
  obtain ⟨_, _, _, _, _, _, _, _, _, _, _, _, _, _, _, _, k⟩ := c
  rwa [hd] at k

/-- The whole program, with the steps on chunks. -/
theorem advect_program {g : Rectilinear α} {nx ny : Int} (hd : g.rng.dims = [(0, nx), (0, ny)]) (hw : ∀ d : Nat, d < g.rng.dims.length → g.dx d = .ok (g.dxAt d))
    (hmade : ∃ (range : Range) (s w : List α), Rectilinear.make range s w = .ok g) {ic : SM (Mgr α) Unit} {m m0 : Mgr α} (hic : ic m = .ok () m0)
    (h : m0.Good advectIds) (hL : m0.Laid) (hg : m0.grid = g) {u : Cell → α} (h0 : m0.Stores AdvectGaussian.var u) (t : α)
    (canOpen : Nat → Bool) (numFrames numSteps : Nat) :
    ∃ (s : Nat → Cell → α) (file : Nat → List (Tok α)), s 0 = u ∧
      (∀ j < numFrames * numSteps, ChunkStep g [(0, 1), (0, 1)] [Arith.lit (-1), Arith.lit (-1)] (fun _ => Arith.lit (-1)) g.dxAt t (s j) (s (j + 1))) ∧
      (∀ j ≤ numFrames, FileShowsOne g.rng.dims AdvectGaussian.var (s (j * numSteps)) (file j)) ∧
      RunEnds canOpen numFrames file (Run.main ic canOpen [AdvectGaussian.var] AdvectGaussian.step t numFrames numSteps ⟨m, []⟩) := by
  have h3 : g.rng.dims.length ≤ 3 := by rw [hd]; simp
  obtain ⟨file0, w1, w2⟩ := file_shows_one (m := m0) (id := AdvectGaussian.var) (.inl rfl) rfl h hL (by rw [hg]; exact hmade) (by rw [hg]; exact h3) h0
  rw [hg] at w2
  have C : Cycle [AdvectGaussian.var] (AdvectGaussian.step t) t (AdvectBetween advectIds g t)
      (ChunkStep g [(0, 1), (0, 1)] [Arith.lit (-1), Arith.lit (-1)] (fun _ => Arith.lit (-1)) g.dxAt t) (FileShowsOne g.rng.dims AdvectGaussian.var) := by
    refine ⟨by simp, fun B => advect_step hw (by rw [hd]; rfl) B, ?_⟩
    intro time q m B
    have := file_shows_one (m := m) (id := AdvectGaussian.var) (.inl rfl) rfl B.good B.laid (by rw [B.grid]; exact hmade) (by rw [B.grid]; exact h3) B.holds
    rwa [B.grid] at this
  exact C.program hic ⟨Mgr.setDt_good (Mgr.setTime_good' h _) _, hL, hg, rfl, rfl, h0⟩ w1 w2 canOpen numFrames numSteps

/-- **C96** The whole of advect_gaussian after any initial condition `ic` that, unlike its own, returns: each state is one step after the
one before, file `j` shows the state after `j` frames, and the program ends normally if all files can be created, with an exception at the first that cannot. -/
theorem C96_program {nx ny : Int} (hnx : 1 ≤ nx) (hny : 1 ≤ ny) : ∃ g : Rectilinear α, AdvectGaussian.grid nx ny = .ok g ∧ g.rng.dims = [(0, nx), (0, ny)] ∧
    ∀ (ic : SM (Mgr α) Unit) (m0 : Mgr α) (u : Cell → α), ic (Mgr.make g) = .ok () m0 → m0.Good advectIds → m0.Laid → m0.grid = g → m0.Stores AdvectGaussian.var u →
    ∀ (t : α) (canOpen : Nat → Bool) (numFrames numSteps : Nat), ∃ (s : Nat → Cell → α) (file : Nat → List (Tok α)), s 0 = u ∧
      (∀ j < numFrames * numSteps, AdvectStep [(0, nx), (0, ny)] [(0, 1), (0, 1)] t (fun _ => Arith.lit (-1)) g.dxAt (s j) (s (j + 1))) ∧
      (∀ j ≤ numFrames, FileShowsOne [(0, nx), (0, ny)] AdvectGaussian.var (s (j * numSteps)) (file j)) ∧
      RunEnds canOpen numFrames file (Run.main ic canOpen [AdvectGaussian.var] AdvectGaussian.step t numFrames numSteps ⟨Mgr.make g, []⟩) := by
  obtain ⟨g, e, hd, hp, hw, r, -, hm⟩ := advect_grid (α := α) hnx hny
  refine ⟨g, e, hd, ?_⟩
  intro ic m0 u hic h hL hg h0 t canOpen nf ns
  obtain ⟨s, file, a1, a2, a3, a4⟩ := advect_program hd hw ⟨_, _, _, hm⟩ hic h hL hg h0 t canOpen nf ns
  rw [hd] at a3
  refine ⟨s, file, a1, fun j hj => ?_, a3, a4⟩
  obtain ⟨_, _, _, _, _, _, _, _, _, _, _, _, _, _, _, _, k⟩ := a2 j hj
  rwa [hd] at k

end

/-- **C96** In exact arithmetic the sum over the whole array, ghost cells included, is the same at all times of the run. -/
theorem C96_total {nx ny : Int} (hnx : 1 ≤ nx) (hny : 1 ≤ ny) : ∃ g : Rectilinear ℝ, AdvectGaussian.grid nx ny = .ok g ∧
    ∀ (ic : SM (Mgr ℝ) Unit) (m0 : Mgr ℝ) (u : Cell → ℝ), ic (Mgr.make g) = .ok () m0 → m0.Good advectIds → m0.Laid → m0.grid = g → m0.Stores AdvectGaussian.var u →
    ∀ (t : ℝ) (canOpen : Nat → Bool) (numFrames numSteps : Nat), ∃ (s : Nat → Cell → ℝ) (file : Nat → List (Tok ℝ)), s 0 = u ∧
      (∀ j ≤ numFrames * numSteps, ((cells [(-2, nx + 2), (-2, ny + 2), (0, 1), (0, 1)]).map (s j)).sum = ((cells [(-2, nx + 2), (-2, ny + 2), (0, 1), (0, 1)]).map u).sum) ∧
      (∀ j ≤ numFrames, FileShowsOne [(0, nx), (0, ny)] AdvectGaussian.var (s (j * numSteps)) (file j)) ∧
      RunEnds canOpen numFrames file (Run.main ic canOpen [AdvectGaussian.var] AdvectGaussian.step t numFrames numSteps ⟨Mgr.make g, []⟩) := by
  obtain ⟨g, e, hd, hp, hw, r, -, hm⟩ := advect_grid (α := ℝ) hnx hny
  refine ⟨g, e, ?_⟩
  intro ic m0 u hic h hL hg h0 t canOpen nf ns
  obtain ⟨s, file, a1, a2, a3, a4⟩ := advect_program hd hw ⟨_, _, _, hm⟩ hic h hL hg h0 t canOpen nf ns
  rw [hd] at a3
  refine ⟨s, file, a1, fun j => ?_, a3, a4⟩
  induction j with
  | zero => intro _; rw [a1]
  | succ j ih =>
    intro hj
    rw [← ih (by omega)]
    have := ChunkStep.sum hp (by rw [hd]; rfl) (D := [(0, 1), (0, 1)]) (by intro d hd'; simp only [List.mem_cons, List.not_mem_nil, or_false, or_self] at hd'; subst hd'; decide) hw (v := fun _ => Arith.lit (-1)) ⟨rfl, rfl⟩ (a2 j (by omega))
    rw [hd] at this
    exact this

/-- The exchange in a direction in which the field does not change. -/
theorem upwind_same (k r : ℝ) (f : Int → ℝ) (hf : ∀ j, -1 ≤ j → j ≤ 2 → f j = f 0) : upwind k false f r = r := by
  unfold upwind
  rw [hf 1 (by decide) (by decide), hf 2 (by decide) (by decide), hf (-1) (by decide) (by decide)]
  simp

/-- The two directions of the program. -/
theorem advected_two (g : Rectilinear ℝ) (s : ℝ) (f : Cell → ℝ) (a b : Int) (r : ℝ) : advected s (fun _ => -1) g.dxAt 2 f [a, b, 0, 0] r =
    upwind |s * -1 / g.dxAt 1| false (fun k => f [a, b + k, 0, 0]) (upwind |s * -1 / g.dxAt 0| false (fun k => f [a + k, b, 0, 0]) r) := by
  have : Arith.lt (0 : ℝ) (-1) = false := by
    rw [Bool.eq_false_iff, ne_eq, real_lt]; norm_num
  simp [advected, List.range_succ, moveBy, real_fabs, real_lit, this]

/-- The flow out of the last cells. -/
theorem uniform_disturbed {nx ny : Int} (hnx : 7 ≤ nx) (hny : 9 ≤ ny) : ∃ g : Rectilinear ℝ, AdvectGaussian.grid nx ny = .ok g ∧
    ∀ {t : ℝ}, 0 < t → ∀ {u z : Cell → ℝ}, (∀ x, InBox [(-2, nx + 2), (-2, ny + 2), (0, 1), (0, 1)] x → u x = if InBox [(0, nx), (0, ny), (0, 1), (0, 1)] x then 1 else 0) →
      AdvectStep [(0, nx), (0, ny)] [(0, 1), (0, 1)] t (fun _ => -1) g.dxAt u z → 1 < z [nx - 3, 4, 0, 0] := by
  obtain ⟨g, e, hd, hp, hw, r, hr, hm⟩ := advect_grid (α := ℝ) (nx := nx) (ny := ny) (by omega) (by omega)
  refine ⟨g, e, ?_⟩
  intro t ht u z hu ⟨w, h1, h2⟩
  have hn : (0 : ℝ) < nx := by exact_mod_cast (by omega : (0:Int) < nx)
  have dx0 : g.dxAt 0 = 1 / nx := by
    have := dxAt_make hm (i := 0) (d := (0, nx)) (wi := 1) (by rw [hr]; rfl) (by simp [real_lit])
    simpa using this
  have hc : |t * -1 / g.dxAt 0| = t * nx := by
    rw [dx0, abs_div, abs_mul, abs_of_pos ht, abs_of_pos (by positivity : (0:ℝ) < 1 / nx)]
    simp
  obtain ⟨c, rfl⟩ : ∃ c, t = c / nx := ⟨t * nx, by field_simp⟩
  rw [div_mul_cancel₀ _ hn.ne'] at hc
  have c0 : 0 < c := by
    by_contra hh
    exact absurd ht (not_lt.2 (div_nonpos_of_nonpos_of_nonneg (not_lt.1 hh) hn.le))
  have u1 : ∀ a b : Int, 0 ≤ a → a < nx → 0 ≤ b → b < ny → u [a, b, 0, 0] = 1 := by
    intro a b a0 a1 b0 b1
    rw [hu _ (by simp [InBox]; omega), if_pos (by simp [InBox]; omega)]
  have u0 : ∀ a b : Int, nx ≤ a → a < nx + 2 → 0 ≤ b → b < ny → u [a, b, 0, 0] = 0 := by
    intro a b a0 a1 b0 b1
    rw [hu _ (by simp [InBox]; omega), if_neg (by simp [InBox]; omega)]
  have box : ∀ a b : Int, 0 ≤ a → a < nx → 0 ≤ b → b < ny → InBox ([(0, nx), (0, ny)] ++ [(0, 1), (0, 1)]) [a, b, 0, 0] := by
    intro a b a0 a1 b0 b1; simp [InBox]; omega
  have same := @upwind_same
  have adv := advected_two g
  have wx : ∀ a b : Int, 0 ≤ a → a < nx → 1 ≤ b → b < ny - 2 → w [a, b, 0, 0] = upwind c false (fun k => u [a + k, b, 0, 0]) 1 := by
    intro a b a0 a1 b0 b1
    have := h1 _ (box a b a0 a1 (by omega) (by omega))
    rw [show ([(0, nx), (0, ny)] : Box).length = 2 from rfl, adv, hc, same, u1 a b a0 a1 (by omega) (by omega)] at this
    · exact this
    · intro j j0 j1
      rw [u1 a _ a0 a1 (by omega) (by omega), u1 a _ a0 a1 (by omega) (by omega)]
  have w1 : ∀ b : Int, 1 ≤ b → b < ny - 2 → w [nx - 1, b, 0, 0] = 1 - 5 / 4 * c := by
    intro b b0 b1
    rw [wx _ b (by omega) (by omega) b0 b1]
    unfold upwind
    simp only [Bool.false_eq_true, if_false]
    rw [u0 (nx - 1 + 1) b (by omega) (by omega) (by omega) (by omega), u0 (nx - 1 + 2) b (by omega) (by omega) (by omega) (by omega),
      u1 (nx - 1 + 0) b (by omega) (by omega) (by omega) (by omega), u1 (nx - 1 + -1) b (by omega) (by omega) (by omega) (by omega)]
    norm_num [limitedFlux, real_feq, real_lit]; ring
  have w2 : ∀ b : Int, 1 ≤ b → b < ny - 2 → w [nx - 2, b, 0, 0] = 1 + 1 / 4 * c := by
    intro b b0 b1
    rw [wx _ b (by omega) (by omega) b0 b1]
    unfold upwind
    simp only [Bool.false_eq_true, if_false]
    rw [u1 (nx - 2 + 1) b (by omega) (by omega) (by omega) (by omega), u0 (nx - 2 + 2) b (by omega) (by omega) (by omega) (by omega),
      u1 (nx - 2 + 0) b (by omega) (by omega) (by omega) (by omega), u1 (nx - 2 + -1) b (by omega) (by omega) (by omega) (by omega)]
    norm_num [limitedFlux, real_feq, real_lit]; ring
  have w3 : ∀ a b : Int, 1 ≤ a → a < nx - 2 → 1 ≤ b → b < ny - 2 → w [a, b, 0, 0] = 1 := by
    intro a b a0 a1 b0 b1
    rw [wx _ b (by omega) (by omega) b0 b1, same]
    intro j j0 j1
    rw [u1 _ b (by omega) (by omega) (by omega) (by omega), u1 _ b (by omega) (by omega) (by omega) (by omega)]
  have hz := h2 _ (box (nx - 3) 4 (by omega) (by omega) (by omega) (by omega))
  rw [show ([(0, nx), (0, ny)] : Box).length = 2 from rfl, adv, same, u1 (nx - 3) 4 (by omega) (by omega) (by omega) (by omega), w3 (nx - 3) 4 (by omega) (by omega) (by omega) (by omega)] at hz
  · rw [hz]
    have hc' : |Arith.lit (1 / 2) * (c / nx) * -1 / g.dxAt 0| = c / 2 := by
      rw [show (Arith.lit (1 / 2) : ℝ) * (c / nx) * -1 / g.dxAt 0 = 1 / 2 * (c / nx * -1 / g.dxAt 0) by rw [real_lit]; push_cast; ring, abs_mul, hc, abs_of_pos (by norm_num)]
      ring
    rw [hc']
    unfold upwind
    simp only [Bool.false_eq_true, if_false]
    rw [show nx - 3 + 1 = nx - 2 by ring, show nx - 3 + 2 = nx - 1 by ring, w1 4 (by omega) (by omega), w2 4 (by omega) (by omega),
      w3 (nx - 3 + 0) 4 (by omega) (by omega) (by omega) (by omega), w3 (nx - 3 + -1) 4 (by omega) (by omega) (by omega) (by omega)]
    have f1 : limitedFlux (c / 2) (1 + 1 / 4 * c) 1 1 = c / 2 * (1 - c / 16) := by
      simp only [limitedFlux, real_feq, real_lit, decide_true, if_true]; push_cast; ring
    have f2 : limitedFlux (c / 2) (1 - 5 / 4 * c) (1 + 1 / 4 * c) 1 = c / 2 * (1 + c / 4 + 75 / 296 * c) := by
      have hne : ¬ (1 : ℝ) = 1 + 1 / 4 * c := by intro h; linarith
      have hr : (1 + 1 / 4 * c - (1 - 5 / 4 * c)) / (1 - (1 + 1 / 4 * c)) = -6 := by
        rw [div_eq_iff (by intro h; linarith)]; ring
      simp only [limitedFlux, real_feq, real_lit, hne, decide_false, Bool.false_eq_true, if_false, hr]
      push_cast; ring
    rw [f1, f2, real_lit]
    have : 0 < c * c := mul_pos c0 c0
    push_cast
    nlinarith
  · intro j j0 j1
    rw [w3 (nx - 3) _ (by omega) (by omega) (by omega) (by omega), w3 (nx - 3) _ (by omega) (by omega) (by omega) (by omega)]

theorem advect_consistent : Mgr.Consistent advectIds := by
  intro a b ha hb h
  rcases ha with rfl | rfl | rfl <;> rcases hb with rfl | rfl | rfl <;> first | rfl | (exact absurd h (by decide))

/-- A manager that holds any given field. -/
theorem advect_exists {α : Type} [Arith α] {nx ny : Int} {g : Rectilinear α} (hnx : 1 ≤ nx) (hny : 1 ≤ ny) (hd : g.rng.dims = [(0, nx), (0, ny)]) (t time : α) (u : Cell → α) :
    ∃ m, AdvectBetween advectIds g t time u m := by
  obtain ⟨m, h1, h2, h3, h4, h5, h6, -⟩ := Mgr.exists_manager advect_consistent (by
    rintro id (rfl | rfl | rfl) <;> exact ⟨by decide, by decide⟩) g (by rw [hd]; simp) (by
    rw [hd]; intro d hd'; simp at hd'; rcases hd' with rfl | rfl <;> simp <;> omega) t time (fun _ => u) (ids := [AdvectGaussian.var]) (by simp [advectIds]) (by simp)
  exact ⟨m, h1, h2, h3, h4, h5, h6 _ (by simp)⟩

/-- **C97** (false of the code) The domain is not periodic: of the uniform field 1, with the zeros that a new variable has in its ghost cells, a step makes a
field that is larger than 1 in the cell `(nx - 3, 4)`, which is neither a ghost cell nor next to any. -/
theorem C97_false {nx ny : Int} (hnx : 7 ≤ nx) (hny : 9 ≤ ny) : ∃ g : Rectilinear ℝ, AdvectGaussian.grid nx ny = .ok g ∧
    ∀ {t : ℝ}, 0 < t → ∀ time : ℝ,
      (∃ m, AdvectBetween advectIds g t time (fun x => if InBox [(0, nx), (0, ny), (0, 1), (0, 1)] x then 1 else 0) m) ∧
      ∀ m, AdvectBetween advectIds g t time (fun x => if InBox [(0, nx), (0, ny), (0, 1), (0, 1)] x then 1 else 0) m →
        ∃ m' z, AdvectGaussian.step t time m = .ok (time + t) m' ∧ m'.Stores AdvectGaussian.var z ∧ 1 < z [nx - 3, 4, 0, 0] := by
  obtain ⟨g, e, hd, hs⟩ := C96_step (α := ℝ) (nx := nx) (ny := ny) (by omega) (by omega)
  obtain ⟨g', e', hf⟩ := uniform_disturbed hnx hny
  rw [e] at e'; cases e'
  refine ⟨g, e, fun ht time => ⟨advect_exists (by omega) (by omega) hd _ _ _, fun m B => ?_⟩⟩
  obtain ⟨m', z, a, b, c⟩ := hs m _ time _ B
  refine ⟨m', z, a, b.holds, hf ht (u := fun x => if InBox [(0, nx), (0, ny), (0, 1), (0, 1)] x then 1 else 0) (fun _ _ => rfl) ?_⟩
  simpa [real_lit] using c

/-- **C97** (partial) A field that is uniform in the mesh stays so in the cells that are at least 2 cells from the lower and 4 cells from the upper sides of
the mesh, whatever the ghost cells hold. Missing: the other cells, where it is false. -/
theorem C97_partial {nx ny : Int} (hnx : 1 ≤ nx) (hny : 1 ≤ ny) : ∃ g : Rectilinear ℝ, AdvectGaussian.grid nx ny = .ok g ∧
    ∀ (m : Mgr ℝ) (t time r : ℝ) (u : Cell → ℝ), AdvectBetween advectIds g t time u m → (∀ x, InBox [(0, nx), (0, ny), (0, 1), (0, 1)] x → u x = r) →
      ∃ m' z, AdvectGaussian.step t time m = .ok (time + t) m' ∧ m'.Stores AdvectGaussian.var z ∧
        ∀ a b : Int, 2 ≤ a → a < nx - 4 → 2 ≤ b → b < ny - 4 → z [a, b, 0, 0] = r := by
  obtain ⟨g, e, hd, hs⟩ := C96_step (α := ℝ) hnx hny
  refine ⟨g, e, ?_⟩
  intro m t time r u B hu
  obtain ⟨m', z, k1, k2, w, h1, h2⟩ := hs m t time u B
  refine ⟨m', z, k1, k2.holds, ?_⟩
  have u1 : ∀ a b : Int, 0 ≤ a → a < nx → 0 ≤ b → b < ny → u [a, b, 0, 0] = r := by
    intro a b a0 a1 b0 b1
    exact hu _ (by simp [InBox]; omega)
  have box : ∀ a b : Int, 0 ≤ a → a < nx → 0 ≤ b → b < ny → InBox ([(0, nx), (0, ny)] ++ [(0, 1), (0, 1)]) [a, b, 0, 0] := by
    intro a b a0 a1 b0 b1; simp [InBox]; omega
  simp only [real_lit, Rat.cast_neg, Rat.cast_one] at h1 h2
  have w1 : ∀ a b : Int, 1 ≤ a → a < nx - 2 → 1 ≤ b → b < ny - 2 → w [a, b, 0, 0] = r := by
    intro a b a0 a1 b0 b1
    rw [h1 _ (box a b (by omega) (by omega) (by omega) (by omega)), show ([(0, nx), (0, ny)] : Box).length = 2 from rfl, advected_two, upwind_same, upwind_same,
      u1 a b (by omega) (by omega) (by omega) (by omega)]
    · intro j j0 j1
      rw [u1 _ b (by omega) (by omega) (by omega) (by omega), u1 _ b (by omega) (by omega) (by omega) (by omega)]
    · intro j j0 j1
      rw [u1 a _ (by omega) (by omega) (by omega) (by omega), u1 a _ (by omega) (by omega) (by omega) (by omega)]
  intro a b a0 a1 b0 b1
  rw [h2 _ (box a b (by omega) (by omega) (by omega) (by omega)), show ([(0, nx), (0, ny)] : Box).length = 2 from rfl, advected_two, upwind_same, upwind_same,
    u1 a b (by omega) (by omega) (by omega) (by omega), w1 a b (by omega) (by omega) (by omega) (by omega)]
  · push_cast; ring
  · intro j j0 j1
    rw [w1 _ b (by omega) (by omega) (by omega) (by omega), w1 _ b (by omega) (by omega) (by omega) (by omega)]
  · intro j j0 j1
    rw [w1 a _ (by omega) (by omega) (by omega) (by omega), w1 a _ (by omega) (by omega) (by omega) (by omega)]

-- C96: a state to step from, and an initial condition that returns
example : ∃ g : Rectilinear ℝ, AdvectGaussian.grid 128 128 = .ok g ∧ ∃ m, AdvectBetween advectIds g (1 / 1000) 0 (fun x => (x.getD 0 0 : ℝ)) m := by
  obtain ⟨g, e, hd, -⟩ := C96_step (α := ℝ) (nx := 128) (ny := 128) (by decide) (by decide)
  exact ⟨g, e, advect_exists (by decide) (by decide) hd _ _ _⟩
example : ∃ g : Rectilinear ℝ, AdvectGaussian.grid 128 128 = .ok g ∧ ∃ m0, fill [AdvectGaussian.var] 3 (Mgr.make g) = .ok () m0 ∧ m0.Good advectIds ∧ m0.Laid ∧ m0.grid = g ∧
    m0.Stores AdvectGaussian.var (fun _ => 3) := by
  obtain ⟨g, e, hd, hp, -⟩ := advect_grid (α := ℝ) (nx := 128) (ny := 128) (by decide) (by decide)
  have hG := (C33_new_manager advect_consistent (by rintro id (rfl | rfl | rfl) <;> decide) (g := g) (by rw [hd]; simp) hp).1
  obtain ⟨m0, b1, b2, b3, b4, b5, -⟩ := fill_fields (3 : ℝ) [AdvectGaussian.var] hG laid_new (by simp [advectIds])
  exact ⟨g, e, m0, b1, b2, b3, b4.grid, b5 _ (by simp)⟩

end QK.Props
