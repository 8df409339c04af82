import Verif.Proofs.Vtk
import Verif.Model.ArithReal
import Verif.Props.Variable
/-
C40–C43: the VTK writer.
-/
namespace QK.Props
open Spec Vtk
variable {α : Type}

/-! ## C40 -/

theorem vtkCells_length {M : Box} (h : Pos M) : ((vtkCells M).length : Int) = boxVolume M := by
  unfold vtkCells
  have hp : Pos M.reverse := fun d hd => h d (List.mem_reverse.1 hd)
  have e : boxVolume M.reverse = boxVolume M := by
    unfold boxVolume lengths; rw [List.map_reverse, List.prod_reverse]
  rw [List.length_map, cells_length hp, e]

/-- **C40** Writing a chunk: for a mesh of 1, 2 or 3 dimensions, `n` components, any number of ghost layers and any
contents, the items written for component `i` are the values of component `i` in the interior cells, the first
dimension varying fastest, exactly as many as the mesh has cells (at the first point of each cell, if the chunk has several). No read is out of bounds (the outcome is not `ub`). -/
theorem C40_chunk [Arith α] {c : Chunk α} {g : Int} {M : Box} {p n : Int} (hL : c.Layout g M [(0, p), (0, n)])
    (hp : 1 ≤ p) (hg : 0 ≤ g) (hM : Pos M) (h1 : 1 ≤ M.length) (h3 : M.length ≤ 3) {i : Int} (hi : 0 ≤ i) (hin : i < n) :
    ∃ vs : List α, vs.map some = (vtkCells M).map (fun x => c.arr.val (x ++ [0, i])) ∧ (vs.length : Int) = boxVolume M ∧
      ∀ s, writeChunk c (Range.setup (M ++ [(0, p), (i, i + 1)])) s =
        .ok () (s ++ (.text "LOOKUP_TABLE default\n" :: valueToks vs ++ [.text "\n"])) := by
  have hV : ∃ V : Cell → α, ∀ x, InBox M x → c.arr.val (x ++ [0, i]) = some (V x) := by
    refine ⟨fun x => (c.arr.val (x ++ [0, i])).getD (Arith.lit 0), ?_⟩
    intro x hx
    have hin : InBox (M ++ [(0, p), (0, n)]) (x ++ [0, i]) := by
      unfold InBox
      exact List.rel_append hx (.cons ⟨by simp, by simp; omega⟩ (.cons ⟨hi, hin⟩ .nil))
    obtain ⟨y, hy⟩ := IFace.val_isSome hL.wf (by rw [hL.dims]; simp) (by rw [hL.dims]; exact inBox_interior hg hin)
    simp [hy]
  obtain ⟨V, hV⟩ := hV
  refine ⟨(vtkCells M).map V, ?_, ?_, writeChunk_spec hL hp hg h1 h3 hi hin hV⟩
  · rw [List.map_map, List.map_inj_left]
    intro x hx
    exact (hV x (mem_vtkCells.1 hx)).symm
  · rw [List.length_map, vtkCells_length hM]

/-- A mesh of 2 × 1 × 3 cells with one ghost layer, two points per cell and three components: the block of component 1. -/
example (z : ℝ) (c : Chunk ℝ) : ∃ (c' : Chunk ℝ) (vs : List ℝ), c.resize z (Range.setup [(0, 2), (0, 1), (0, 3)]) (Range.setup [(0, 2), (0, 3)]) 1 = .ok c' ∧ vs.length = 6 ∧
    writeChunk c' (Range.setup ([(0, 2), (0, 1), (0, 3)] ++ [(0, 2), (1, 2)])) [] = .ok () (.text "LOOKUP_TABLE default\n" :: valueToks vs ++ [.text "\n"]) := by
  obtain ⟨c', h1, h2, -⟩ := resize_layout z c (mesh := Range.setup [(0, 2), (0, 1), (0, 3)]) (dataR := Range.setup [(0, 2), (0, 3)]) (g := 1) (by decide)
    (by intro d hd; simp at hd; rcases hd with rfl | rfl | rfl <;> decide) (by intro d hd; simp at hd; rcases hd with rfl | rfl <;> decide)
  obtain ⟨vs, -, k2, k3⟩ := C40_chunk h2 (by decide) (by decide) (by decide) (by decide) (by decide) (i := 1) (by decide) (by decide)
  refine ⟨c', vs, h1, ?_, k3 []⟩
  have : boxVolume [(0, 2), (0, 1), (0, 3)] = 6 := by decide
  have k2' := k2.trans this
  omega

/-- The order of the cells of a 2 × 3 mesh: x fastest. -/
example : vtkCells [(0, 2), (5, 8)] = [[0, 5], [1, 5], [0, 6], [1, 6], [0, 7], [1, 7]] := by decide

/-- **C40** Meshes of more than three dimensions: the block of a component has no values at all, whatever the chunk holds. -/
theorem C40_many_dims [Arith α] {c : Chunk α} {g : Int} {M : Box} {n : Int} (hL : c.Layout g M [(0, 1), (0, n)]) (h4 : 4 ≤ M.length) (i : Int) (s : List (Tok α)) :
    writeChunk c (Range.setup (M ++ [(0, 1), (i, i + 1)])) s = .ok () (s ++ [.text "LOOKUP_TABLE default\n", .text "\n"]) := by
  have hl : (Range.setup (M ++ [(0, 1), (i, i + 1)])).lower ((Range.setup (M ++ [(0, 1), (i, i + 1)])).numDims - 1) = .ok i := by
    have hn : ((Range.setup (M ++ [(0, 1), (i, i + 1)])).numDims : Int) = M.length + 2 := by
      unfold Range.numDims; rw [Range.setup_dims]; simp
    rw [hn]
    unfold Range.lower vget
    rw [Range.setup_dims]
    have : ((M.length : Int) + 2 - 1).toNat = M.length + 1 := by omega
    simp [this, show ¬ ((M.length : Int) + 2 < 1) by omega]
  have hd : c.mesh.numDims = M.length := by
    unfold Range.numDims; rw [hL.mesh_dims]; simp [grow]
  unfold writeChunk
  rw [hd]
  simp only [bind, SM.bind, emit, SM.lift, hl]
  rw [if_neg (by omega), if_neg (by omega), if_neg (by omega)]
  exact congrArg (SRes.ok ()) (by simp)

/-- A mesh of 2 × 2 × 2 × 2 cells with one ghost layer and three components. -/
example (z : ℝ) (c : Chunk ℝ) : ∃ c', c.resize z (Range.setup [(0, 2), (0, 2), (0, 2), (0, 2)]) (Range.setup [(0, 1), (0, 3)]) 1 = .ok c' ∧
    writeChunk c' (Range.setup ([(0, 2), (0, 2), (0, 2), (0, 2)] ++ [(0, 1), (1, 2)])) [] = .ok () [.text "LOOKUP_TABLE default\n", .text "\n"] := by
  obtain ⟨c', h1, h2, -⟩ := resize_layout z c (mesh := Range.setup [(0, 2), (0, 2), (0, 2), (0, 2)]) (dataR := Range.setup [(0, 1), (0, 3)]) (g := 1) (by decide)
    (by intro d hd; simp at hd; subst hd; decide) (by intro d hd; simp at hd; rcases hd with rfl | rfl <;> decide)
  exact ⟨c', h1, C40_many_dims h2 (by decide) 1 []⟩

/-- **C40**, **C41** The whole file, for any list of existing volume-average variables on a grid of 1, 2 or 3
dimensions: header, geometry, cell count, and then one block per variable and component, in order; block `i` of a
variable holds the interior values of component `i` with the first dimension varying fastest. The number of cells
implied by `DIMENSIONS` is the `CELL_DATA` count and the number of values in every block. -/
theorem C41_file [Arith α] {S : VarId → Prop} {m : Mgr α} (h : m.Good S) (hL : m.Laid) (h3 : m.grid.rng.dims.length ≤ 3)
    {range : Range} {s w : List α} (hg : Rectilinear.make range s w = .ok m.grid)
    {ids : List VarId} (hne : ids ≠ [])
    (hids : ∀ id ∈ ids, S id ∧ id.basis = Basis.volumeAverage ∧ m.contents id ≠ none) :
    ∃ (n : Int × Int × Int) (o sp : α × α × α) (ncells : Int) (vals : VarId → Nat → List α),
      write m true ids [] = .ok () (vtkFile n o sp ncells
        (ids.flatMap fun id => id.comps.zipIdx.map fun p => scalarBlock id.name p.1 (vals id p.2))) ∧
      n = (points m.grid.rng.dims 0, points m.grid.rng.dims 1, points m.grid.rng.dims 2) ∧
      ncells = boxVolume m.grid.rng.dims ∧ impliedCells n = ncells ∧
      ∀ id ∈ ids, ∃ c, m.contents id = some c ∧ ∀ i < id.comps.length,
        (vals id i).map some = (vtkCells m.grid.rng.dims).map (fun x => c.arr.val (x ++ [0, (i : Int)])) ∧
        ((vals id i).length : Int) = ncells := by
  have hids' : ∀ id ∈ ids, S id ∧ id.basis = Basis.volumeAverage ∧ ∃ a, m.addr id = some a := by
    intro id hid
    obtain ⟨a, b, c⟩ := hids id hid
    refine ⟨a, b, ?_⟩
    cases ha : m.addr id with
    | none => exact absurd (h.contents_none.2 ha) c
    | some a => exact ⟨a, rfl⟩
  obtain ⟨o, sp, vals, h1, h2, h4⟩ := write_spec h hL h3 hg hne hids'
  have hvol : m.grid.rng.volume = boxVolume m.grid.rng.dims := by
    have hr : m.grid.rng.WF := by rw [(Rectilinear.make_fields hg).1]; exact Range.setup_wf _
    exact hr.volume_eq h.mesh_ne
  refine ⟨_, _, _, _, vals, h1, rfl, hvol, ?_, ?_⟩
  · rw [hvol]
    have hp := h.mesh_pos
    have hn := h.mesh_ne
    generalize m.grid.rng.dims = M at *
    match M, h3, hn with
    | [a], _, _ =>
      have := hp a (by simp)
      simp [impliedCells, points, boxVolume, lengths, hi, lo]; omega
    | [a, b], _, _ =>
      have := hp a (by simp)
      have := hp b (by simp)
      simp [impliedCells, points, boxVolume, lengths, hi, lo]
      rw [max_eq_left (by omega), max_eq_left (by omega)]
    | [a, b, c], _, _ =>
      have := hp a (by simp)
      have := hp b (by simp)
      have := hp c (by simp)
      simp [impliedCells, points, boxVolume, lengths, hi, lo]
      rw [max_eq_left (by omega), max_eq_left (by omega), max_eq_left (by omega), mul_assoc]
  · intro id hid
    obtain ⟨c, hc, hv⟩ := h4 id hid
    refine ⟨c, hc, fun i hi => ⟨hv i hi, ?_⟩⟩
    have := congrArg List.length (hv i hi)
    rw [List.length_map, List.length_map] at this
    rw [this, vtkCells_length h.mesh_pos, hvol]


/-! ## A manager that meets the hypotheses -/

theorem laid_new {g : Rectilinear α} : (Mgr.make g).Laid := by
  intro id c h; cases h

/-- Requesting an output variable keeps all chunks laid out. -/
theorem laid_outputVar [Arith α] {S : VarId → Prop} {m : Mgr α} (h : m.Good S) (hL : m.Laid) {id : VarId} (hid : S id) :
    ∃ a m', Solve.outputVar id m = .ok a m' ∧ m'.Good S ∧ m'.Laid ∧ m'.grid = m.grid ∧ m'.contents id ≠ none := by
  obtain ⟨a, m', h1, h2, h3, h4, h5, _⟩ := Solve.outputVar_spec h hid
  refine ⟨a, m', h1, h2, ?_, h3.grid, ?_⟩
  · intro x c hc
    rw [h3.grid]
    rw [h5, Solve.created_self] at hc
    by_cases e : x = id
    · subst e
      rw [Function.update_self] at hc
      cases hm : m.contents x with
      | some c' => rw [hm] at hc; cases hc; exact hL x c' hm
      | none =>
        rw [hm] at hc; cases hc
        exact (Solve.fresh_spec (Arith.lit 0) h.mesh_ne h.mesh_pos (h.points x hid)).2.1
    · rw [Function.update_of_ne e] at hc; exact hL x c hc
  · rw [h5, Solve.created_self, Function.update_self]; simp

example : ∃ m : Mgr ℝ, m.Good (fun id => id = ⟨"q", ["a", "b"], Basis.volumeAverage⟩) ∧ m.Laid ∧
    m.grid.rng.dims = [(0,3),(0,2)] ∧ m.contents ⟨"q", ["a", "b"], Basis.volumeAverage⟩ ≠ none ∧
    Rectilinear.make (Range.setup [(0,3),(0,2)]) [0,0] [1,1] = .ok m.grid := by
  obtain ⟨g, hg⟩ := Rectilinear.make_ok (range := Range.setup [(0,3),(0,2)]) (s := [(0:ℝ),0]) (w := [1,1]) (by decide) (by decide)
  have hd : g.rng.dims = [(0,3),(0,2)] := by rw [(Rectilinear.make_fields hg).1]; rfl
  have hG := (C33_new_manager (α := ℝ) (S := fun id => id = ⟨"q", ["a", "b"], Basis.volumeAverage⟩)
    (by rintro a b rfl rfl _; rfl) (by rintro a rfl; decide) (g := g) (by rw [hd]; decide) (by rw [hd]; decide)).1
  obtain ⟨a, m, _, h2, h3, h4, h5⟩ := laid_outputVar hG laid_new (id := ⟨"q", ["a", "b"], Basis.volumeAverage⟩) rfl
  exact ⟨m, h2, h3, by rw [h4]; exact hd, h5, by rw [h4]; exact hg⟩

/-! ## C42 -/

/-- **C42** is false: for every grid with index ranges starting at 0, the centre of the first cell implied by the file
(ORIGIN plus half of SPACING) is off by half the width of the domain in every dimension, so it is the centroid only for
domains of width 0. -/
theorem C42_false {S : VarId → Prop} {m : Mgr ℝ} (h : m.Good S) (hL : m.Laid) (h3 : m.grid.rng.dims.length ≤ 3)
    {range : Range} {s w : List ℝ} (hg : Rectilinear.make range s w = .ok m.grid)
    {ids : List VarId} (hne : ids ≠ [])
    (hids : ∀ id ∈ ids, S id ∧ id.basis = Basis.volumeAverage ∧ ∃ a, m.addr id = some a) :
    ∃ (n : Int × Int × Int) (o sp : Nat → ℝ) (N : Int) (blocks : List (List (Tok ℝ))),
      write m true ids [] = .ok () (vtkFile n (o 0, o 1, o 2) (sp 0, sp 1, sp 2) N blocks) ∧
      ∀ d < m.grid.rng.dims.length, ∃ x wi, m.grid.centroid d 0 = .ok x ∧ m.grid.width d = .ok wi ∧
        o d + sp d / 2 = x + wi / 2 ∧ (wi ≠ 0 → o d + sp d / 2 ≠ x) := by
  obtain ⟨o, sp, vals, h1, h2, h4⟩ := write_spec h hL h3 hg hne hids
  refine ⟨_, o, sp, _, _, h1, ?_⟩
  intro d hd
  obtain ⟨st, wi, dx, e1, e2, e3, e4, e5⟩ := h2 d hd
  refine ⟨st + dx / 2, wi, ?_, vget_ok e2, ?_, ?_⟩
  · unfold Rectilinear.centroid
    rw [vget_ok e1, Res.ok_bind, vget_ok e3, Res.ok_bind]
    simp only [real_lit, real_ofInt, Res.pure_eq, Res.ok.injEq]
    push_cast; ring
  · rw [e4, e5]; simp only [real_lit]; push_cast; ring
  · intro hw e
    apply hw
    rw [e4, e5] at e; simp only [real_lit] at e; push_cast at e; linarith

/-- **C42**, what holds: the file has the right spacing; all implied centres are the centroids shifted by the same
vector, half the domain width. Missing: the shift should be 0. -/
theorem C42_partial {S : VarId → Prop} {m : Mgr ℝ} (h : m.Good S) (hL : m.Laid) (h3 : m.grid.rng.dims.length ≤ 3)
    {range : Range} {s w : List ℝ} (hg : Rectilinear.make range s w = .ok m.grid)
    {ids : List VarId} (hne : ids ≠ [])
    (hids : ∀ id ∈ ids, S id ∧ id.basis = Basis.volumeAverage ∧ ∃ a, m.addr id = some a) :
    ∃ (n : Int × Int × Int) (o sp : Nat → ℝ) (N : Int) (blocks : List (List (Tok ℝ))),
      write m true ids [] = .ok () (vtkFile n (o 0, o 1, o 2) (sp 0, sp 1, sp 2) N blocks) ∧
      ∀ d < m.grid.rng.dims.length, ∃ wi, m.grid.width d = .ok wi ∧ m.grid.dx d = .ok (sp d) ∧
        ∀ k : Int, m.grid.centroid d k = .ok (o d + (k + 1 / 2) * sp d - wi / 2) := by
  obtain ⟨o, sp, vals, h1, h2, h4⟩ := write_spec h hL h3 hg hne hids
  refine ⟨_, o, sp, _, _, h1, ?_⟩
  intro d hd
  obtain ⟨st, wi, dx, e1, e2, e3, e4, e5⟩ := h2 d hd
  refine ⟨wi, vget_ok e2, by rw [e5]; exact vget_ok e3, ?_⟩
  intro k
  unfold Rectilinear.centroid
  rw [vget_ok e1, Res.ok_bind, vget_ok e3, Res.ok_bind]
  simp only [real_lit, real_ofInt, Res.pure_eq, Res.ok.injEq]
  rw [e4, e5]; simp only [real_lit]
  push_cast; ring

/-! ## C43 -/

/-- **C43** Variables with different bases: an exception, before anything is written (and before the file is
opened), for every manager. -/
theorem C43_bases [Arith α] {m : Mgr α} {canOpen : Bool} {ids : List VarId} (hb : ∃ a ∈ ids, ∃ b ∈ ids, a.basis ≠ b.basis)
    (f : List (Tok α)) : ∃ msg, write m canOpen ids f = .throw msg f := by
  obtain ⟨a, ha, b, hb, hab⟩ := hb
  match ids, ha with
  | id :: ids, _ =>
    have : ∃ x ∈ id :: ids, x.basis ≠ id.basis := by
      by_cases e : a.basis = id.basis
      · exact ⟨b, hb, fun e' => hab (e.trans e'.symm)⟩
      · exact ⟨a, ‹_›, e⟩
    unfold write
    simp only []
    rw [SM.bind_throw (checkBases_throw this f)]
    exact ⟨_, rfl⟩

/-- **C43** A file that cannot be created: an exception. -/
theorem C43_cannot_open [Arith α] {m : Mgr α} {id : VarId} {ids : List VarId} (f : List (Tok α)) :
    ∃ msg, write m false (id :: ids) f = .throw msg f := by
  by_cases h : ∃ x ∈ id :: ids, x.basis ≠ id.basis
  · obtain ⟨x, hx, hne⟩ := h
    exact C43_bases ⟨x, hx, id, List.mem_cons_self .., hne⟩ f
  · have h' : ∀ x ∈ id :: ids, x.basis = id.basis := fun x hx => by
      by_contra e; exact h ⟨x, hx, e⟩
    unfold write
    simp only []
    rw [SM.bind_ok (checkBases_ok h' f)]
    exact ⟨_, rfl⟩

/-- **C43** A basis other than the volume average: an exception, and the file holds the three header lines only, so no
variable data, for every manager and list of variables. -/
theorem C43_other_basis [Arith α] {m : Mgr α} {ids : List VarId} (hne : ids ≠ [])
    (hb : ∀ id ∈ ids, id.basis ≠ Basis.volumeAverage) :
    ∃ msg f, write m true ids [] = .throw msg f ∧
      (f = [] ∨ f = [.text "# vtk DataFile Version 2.0\n", .text "quikin output\n", .text "ASCII\n"]) := by
  match ids, hne with
  | id :: ids, _ =>
    by_cases h : ∃ x ∈ id :: ids, x.basis ≠ id.basis
    · obtain ⟨x, hx, hne⟩ := h
      obtain ⟨msg, e⟩ := C43_bases (m := m) (canOpen := true) ⟨x, hx, id, List.mem_cons_self .., hne⟩ []
      exact ⟨msg, [], e, .inl rfl⟩
    · have h' : ∀ x ∈ id :: ids, x.basis = id.basis := fun x hx => by
        by_contra e; exact h ⟨x, hx, e⟩
      unfold write
      simp only [if_true]
      rw [SM.bind_ok (checkBases_ok h' [])]
      have hg : ∀ s, writeGrid m.grid id.basis s = .throw "qk::grid::rectilinear::write_vtk : Basis not allowed (i.e. not setup yet)." s := by
        intro s
        unfold writeGrid
        rw [if_neg (by rw [eqv_iff]; exact hb id (List.mem_cons_self ..))]; rfl
      refine ⟨"qk::grid::rectilinear::write_vtk : Basis not allowed (i.e. not setup yet).", _, ?_, .inr rfl⟩
      rw [SM.bind_ok (emits_emit _ _), SM.bind_ok (emits_emit _ _), SM.bind_ok (emits_emit _ _), SM.bind_throw (hg _)]
      rfl

/-- **C43** A variable that does not exist: an exception, wherever it stands in the list. -/
theorem C43_missing [Arith α] {S : VarId → Prop} {m : Mgr α} (h : m.Good S) (hL : m.Laid) (h3 : m.grid.rng.dims.length ≤ 3)
    {range : Range} {s w : List α} (hg : Rectilinear.make range s w = .ok m.grid) (canOpen : Bool)
    {ids : List VarId} (hids : ∀ id ∈ ids, S id) (hm : ∃ id ∈ ids, m.contents id = none) :
    ∃ msg f, write m canOpen ids [] = .throw msg f := by
  obtain ⟨x, hx, hxn⟩ := hm
  match ids, hx with
  | id :: ids, hx =>
    cases canOpen with
    | false => obtain ⟨msg, e⟩ := C43_cannot_open (m := m) (id := id) (ids := ids) []; exact ⟨msg, _, e⟩
    | true =>
      by_cases hd : ∃ y ∈ id :: ids, y.basis ≠ id.basis
      · obtain ⟨y, hy, hne⟩ := hd
        obtain ⟨msg, e⟩ := C43_bases (m := m) (canOpen := true) ⟨y, hy, id, List.mem_cons_self .., hne⟩ []
        exact ⟨msg, _, e⟩
      have h' : ∀ y ∈ id :: ids, y.basis = id.basis := fun y hy => by
        by_contra e; exact hd ⟨y, hy, e⟩
      by_cases hv : id.basis = Basis.volumeAverage
      · have hl1 : 1 ≤ m.grid.rng.dims.length := by
          rcases Nat.eq_zero_or_pos m.grid.rng.dims.length with e | e
          · exact absurd (List.length_eq_zero_iff.1 e) h.mesh_ne
          · exact e
        obtain ⟨o, sp, hG, _⟩ := writeGrid_spec hg hl1 h3
        unfold write
        simp only [if_true]
        rw [SM.bind_ok (checkBases_ok h' []), SM.bind_ok (emits_emit _ _), SM.bind_ok (emits_emit _ _),
          SM.bind_ok (emits_emit _ _), hv, SM.bind_ok (hG _), SM.bind_ok (emits_emit _ _)]
        exact writeVars_missing h hL h3 (fun y hy => ⟨hids y hy, (h' y hy).trans hv⟩) ⟨x, hx, h.contents_none.1 hxn⟩ _
      · obtain ⟨msg, f, e, _⟩ := C43_other_basis (m := m) (ids := id :: ids) (by simp)
          (fun y hy => by rw [h' y hy]; exact hv)
        exact ⟨msg, f, e⟩

/-- Two variables of different basis. -/
example (f : List (Tok ℝ)) : ∃ msg, write (Mgr.make ⟨Range.setup [(0,3)], [(0:ℝ)], [1], [1/3]⟩) true
    [⟨"q", ["a"], Basis.volumeAverage⟩, ⟨"p", ["a"], ⟨"face", 2⟩⟩] f = .throw msg f :=
  C43_bases ⟨_, List.mem_cons_self, ⟨"p", ["a"], ⟨"face", 2⟩⟩, by simp, by decide⟩ f

end QK.Props
