import Verif.Proofs.Program
import Verif.Proofs.Initial
import Verif.Props.Initial
/-
C111: the boundary-condition solvers on the variable manager.
-/
namespace QK.Props
open QK Spec Solve

section
variable {α : Type} [Arith α] {S : VarId → Prop} {m : Mgr α}

/-- Basis points × components of a variable. -/
abbrev dataBox (id : VarId) : Box := [(0, id.basis.points), (0, (id.comps.length : Int))]

/-- Applying a wall condition again changes nothing. -/
theorem walled_again {M D : Box} {ds : List Nat} {flip : Int → Prop} {u v w : Cell → α} (hM : Wide 2 M ds) (h1 : Walled M D ds flip u v) (h2 : Walled M D ds flip v w) :
    Walled M D ds flip u w := by
  have inside : ∀ i ∈ ds, ∀ x, FaceGhost 2 (M ++ D) i x → v (mirrorImage 2 (M ++ D) i x) = u (mirrorImage 2 (M ++ D) i x) := by
    intro i hi' x hx
    have hil := hM i hi'
    have hin : InBox (M ++ D) (mirrorImage 2 (M ++ D) i x) := mirrorImage_interior (by simp; omega) (by rw [lo_append hil.1, hi_append hil.1]; exact hil.2) hx
    refine h1.rest _ (inBox_interior (by decide) hin) fun j hj hg => ?_
    exact faceGhost_not_interior (by have := (hM j hj).1; simp; omega) hg hin
  exact ⟨fun i hi' x hx hf => by rw [h2.flipped i hi' x hx hf, inside i hi' x hx], fun i hi' x hx hf => by rw [h2.kept i hi' x hx hf, inside i hi' x hx],
    fun x hx hn => by rw [h2.rest x hx hn, h1.rest x hx hn]⟩

theorem wrapped_again {M D : Box} {ds : List Nat} {u v w : Cell → α} (hM : Wide 2 M ds) (h1 : Wrapped M D ds u v) (h2 : Wrapped M D ds v w) : Wrapped M D ds u w := by
  refine ⟨fun i hi' x hx => ?_, fun x hx hn => by rw [h2.rest x hx hn, h1.rest x hx hn]⟩
  have hil := hM i hi'
  have hin : InBox (M ++ D) (periodicImage 2 (M ++ D) i x) := periodicImage_interior (by simp; omega) (by rw [lo_append hil.1, hi_append hil.1]; exact hil.2) hx
  rw [h2.ghost i hi' x hx, h1.rest _ (inBox_interior (by decide) hin) fun j hj hg =>
    faceGhost_not_interior (by have := (hM j hj).1; simp; omega) hg hin]

/-- From one output variable to all of them; a variable may be listed several times. -/
theorem all_outputs {f : Chunk α → Res (Chunk α)} {R : VarId → (Cell → α) → (Cell → α) → Prop}
    (again : ∀ {id u v w}, R id u v → R id v w → R id u w) {M : Box}
    (one : ∀ {m : Mgr α} {s : VarId} {u : Cell → α} (ids : List VarId), m.Good S → m.Laid → m.grid.rng.dims = M → S s → m.Stores s u → 1 ≤ s.basis.points → 1 ≤ s.comps.length →
      ∃ m' u', eachOutput f (s :: ids) m = eachOutput f ids m' ∧ m'.Good S ∧ m'.Laid ∧ m.Extends m' ∧ (∀ id, id ≠ s → m'.contents id = m.contents id) ∧ m'.Stores s u' ∧ R s u u') :
    ∀ {outs : List VarId} {m : Mgr α} {F : VarId → Cell → α}, m.Good S → m.Laid → m.grid.rng.dims = M →
      (∀ id ∈ outs, S id ∧ m.Stores id (F id) ∧ 1 ≤ id.basis.points ∧ 1 ≤ id.comps.length) →
      ∃ (m' : Mgr α) (F' : VarId → Cell → α), eachOutput f outs m = .ok () m' ∧ m'.Good S ∧ m'.Laid ∧ m.Extends m' ∧
        (∀ id ∈ outs, m'.Stores id (F' id) ∧ R id (F id) (F' id)) ∧ ∀ id, id ∉ outs → m'.contents id = m.contents id := by
  intro outs
  induction outs with
  | nil => intro m F h hL _ _; exact ⟨m, F, rfl, h, hL, .refl m, by simp, fun _ _ => rfl⟩
  | cons s outs ih =>
    intro m F h hL hM hS
    obtain ⟨hs, hu, hp, hc⟩ := hS s List.mem_cons_self
    obtain ⟨m1, u1, e1, g1, l1, x1, c1, s1, r1⟩ := one outs h hL hM hs hu hp hc
    obtain ⟨m2, F2, e2, g2, l2, x2, p2, c2⟩ := ih (F := Function.update F s u1) g1 l1 (by rw [x1.grid]; exact hM) (by
      intro id hid
      obtain ⟨a, b, c, d⟩ := hS id (List.mem_cons_of_mem _ hid)
      refine ⟨a, ?_, c, d⟩
      by_cases e : id = s
      · subst e; rw [Function.update_self]; exact s1
      · rw [Function.update_of_ne e]; exact b.mono x1 (c1 id e))
    by_cases hso : s ∈ outs
    · refine ⟨m2, F2, e1.trans e2, g2, l2, x1.trans x2, ?_, ?_⟩
      · intro id hid
        have hid' : id ∈ outs := by
          rcases List.mem_cons.1 hid with rfl | h
          · exact hso
          · exact h
        obtain ⟨a, b⟩ := p2 id hid'
        refine ⟨a, ?_⟩
        by_cases e : id = s
        · subst e; rw [Function.update_self] at b; exact again r1 b
        · rw [Function.update_of_ne e] at b; exact b
      · intro id hid
        rw [List.mem_cons, not_or] at hid
        rw [c2 id hid.2, c1 id hid.1]
    · refine ⟨m2, Function.update F2 s u1, e1.trans e2, g2, l2, x1.trans x2, ?_, ?_⟩
      · intro id hid
        by_cases e : id = s
        · subst e
          rw [Function.update_self]
          exact ⟨s1.mono x2 (c2 _ hso), r1⟩
        · obtain ⟨a, b⟩ := p2 id ((List.mem_cons.1 hid).resolve_left e)
          rw [Function.update_of_ne e] at b
          rw [Function.update_of_ne e]
          exact ⟨a, b⟩
      · intro id hid
        rw [List.mem_cons, not_or] at hid
        rw [c2 id hid.2, c1 id hid.1]

theorem copyOut_one {ds : List Nat} {s : VarId} {u : Cell → α} (h : m.Good S) (hL : m.Laid) (hs : S s) (hp : 1 ≤ s.basis.points)
    (hn : 1 ≤ s.comps.length) (hu : m.Stores s u) (hds : Wide 2 m.grid.rng.dims ds) (ids : List VarId) :
    ∃ m' u', copyOut (ints ds) (s :: ids) m = copyOut (ints ds) ids m' ∧ m'.Good S ∧ m'.Laid ∧ m.Extends m' ∧
      (∀ id, id ≠ s → m'.contents id = m.contents id) ∧ m'.Stores s u' ∧ Walled m.grid.rng.dims (dataBox s) ds (fun _ => False) u u' := by
  refine wall_one (flip := fun _ => False) (fun c hlay => ?_) h hL hs hu hds ids
  obtain ⟨c', h1, h2, h3, _, h5⟩ := C25_copy_out hlay (by decide) h.mesh_pos (data_pos hp hn) hds
  exact ⟨c', h1, h2, fun i hi x hx => by rw [if_neg (by simp)]; exact h3 i hi x hx, h5⟩

/-- A wall condition on a variable with too few components. -/
theorem wall_few {ds : List Nat} {s : VarId} {u : Cell → α} {clo : Int} (h : m.Good S) (hL : m.Laid) (hs : S s) (hp : 1 ≤ s.basis.points)
    (hn : 1 ≤ s.comps.length) (h4 : s.comps.length < 4) (hu : m.Stores s u) (hds : Wide 2 m.grid.rng.dims ds) (ids : List VarId) :
    ∃ m' u', eachOutput (fun c => (ints ds).foldlM (BC.wallDim (· * ·) (Arith.lit (-1)) clo 4) c) (s :: ids) m =
        eachOutput (fun c => (ints ds).foldlM (BC.wallDim (· * ·) (Arith.lit (-1)) clo 4) c) ids m' ∧ m'.Good S ∧ m'.Laid ∧ m.Extends m' ∧
      (∀ id, id ≠ s → m'.contents id = m.contents id) ∧ m'.Stores s u' ∧ Walled m.grid.rng.dims (dataBox s) ds (fun _ => False) u u' := by
  refine wall_one (flip := fun _ => False) (fun c hlay => ?_) h hL hs hu hds ids
  obtain ⟨c', h1, h2, h3, h4, _⟩ := wall_skip_all (· * ·) (Arith.lit (-1)) (clo := clo) (chi := 4) hlay (by decide) h.mesh_pos (data_pos hp hn) (by simp)
    (.inr (by simp [hi]; omega)) hds
  exact ⟨c', h1, h2, fun i hi x hx => by rw [if_neg (by simp), h3 i hi x hx, map_id'], h4⟩

/-- **C111** The boundary-condition solvers set the face ghost cells of every variable in their output list, in the directions they were given, to the values of their rule (zero gradient: mirror
values; walls: mirror values with the sign of some components changed, unless the variable has fewer than four components; periodic: the values one period away) and change nothing
else: no other cell, no other variable, not the mesh. A variable may be listed more than once. -/
theorem C111_solvers (h : m.Good S) (hL : m.Laid) {ds : List Nat} (hds : Wide 2 m.grid.rng.dims ds) {outs : List VarId} {F : VarId → Cell → α}
    (hS : ∀ id ∈ outs, S id ∧ m.Stores id (F id) ∧ 1 ≤ id.basis.points ∧ 1 ≤ id.comps.length) :
    let M := m.grid.rng.dims
    let Acts := fun (solve : List Int → List VarId → SM (Mgr α) Unit) (R : VarId → (Cell → α) → (Cell → α) → Prop) =>
      ∃ (m' : Mgr α) (F' : VarId → Cell → α), solve (ints ds) outs m = .ok () m' ∧ m'.Good S ∧ m'.Laid ∧ m.Extends m' ∧
        (∀ id ∈ outs, m'.Stores id (F' id) ∧ R id (F id) (F' id)) ∧ ∀ id, id ∉ outs → m'.contents id = m.contents id
    Acts periodic (fun id => Wrapped M (dataBox id) ds) ∧
    Acts copyOut (fun id => Walled M (dataBox id) ds fun _ => False) ∧
    Acts noSlip (fun id => Walled M (dataBox id) ds fun k => 4 ≤ id.comps.length ∧ isMomentum k) ∧
    Acts freeSlip (fun id => Walled M (dataBox id) ds fun k => 4 ≤ id.comps.length ∧ isMomentum k) ∧
    Acts conductingWall (fun id => Walled M (dataBox id) ds fun k => 4 ≤ id.comps.length ∧ isWallField k) := by
  have cast : ∀ {D : Box} {p q : Int → Prop} {u v : Cell → α}, (∀ k, p k ↔ q k) → Walled m.grid.rng.dims D ds p u v → Walled m.grid.rng.dims D ds q u v := by
    intro D p q u v e W
    have : p = q := funext fun k => propext (e k)
    rwa [← this]
  refine ⟨?_, ?_, ?_, ?_, ?_⟩
  · refine all_outputs (M := m.grid.rng.dims) (R := fun id => Wrapped m.grid.rng.dims (dataBox id) ds) (fun {_ _ _ _} a b => wrapped_again hds a b) (fun {m0 s u} ids g l hM hs hu hp hn => ?_) h hL rfl hS
    obtain ⟨m', u', a1, a2, a3, a4, a5, a6, a7⟩ := periodic_one g l hs hp hn hu (ds := ds) (by rw [hM]; exact hds) ids
    exact ⟨m', u', a1, a2, a3, a4, a5, a6, by rw [hM] at a7; exact a7⟩
  · refine all_outputs (M := m.grid.rng.dims) (R := fun id => Walled m.grid.rng.dims (dataBox id) ds fun _ => False) (fun {_ _ _ _} a b => walled_again hds a b) (fun {m0 s u} ids g l hM hs hu hp hn => ?_) h hL rfl hS
    obtain ⟨m', u', a1, a2, a3, a4, a5, a6, a7⟩ := copyOut_one g l hs hp hn hu (ds := ds) (by rw [hM]; exact hds) ids
    exact ⟨m', u', a1, a2, a3, a4, a5, a6, by rw [hM] at a7; exact a7⟩
  · refine all_outputs (M := m.grid.rng.dims) (R := fun id => Walled m.grid.rng.dims (dataBox id) ds fun k => 4 ≤ id.comps.length ∧ isMomentum k) (fun {_ _ _ _} a b => walled_again hds a b) (fun {m0 s u} ids g l hM hs hu hp hn => ?_) h hL rfl hS
    by_cases h4 : 4 ≤ s.comps.length
    · obtain ⟨m', u', a1, a2, a3, a4, a5, a6, a7⟩ := noSlip_one g l hs hp h4 hu (ds := ds) (by rw [hM]; exact hds) ids
      exact ⟨m', u', a1, a2, a3, a4, a5, a6, by rw [hM] at a7; exact cast (fun k => by simp [h4]) a7⟩
    · obtain ⟨m', u', a1, a2, a3, a4, a5, a6, a7⟩ := wall_few (clo := 1) g l hs hp hn (by omega) hu (ds := ds) (by rw [hM]; exact hds) ids
      exact ⟨m', u', a1, a2, a3, a4, a5, a6, by rw [hM] at a7; exact cast (fun k => by simp [h4]) a7⟩
  · refine all_outputs (M := m.grid.rng.dims) (R := fun id => Walled m.grid.rng.dims (dataBox id) ds fun k => 4 ≤ id.comps.length ∧ isMomentum k) (fun {_ _ _ _} a b => walled_again hds a b) (fun {m0 s u} ids g l hM hs hu hp hn => ?_) h hL rfl hS
    by_cases h4 : 4 ≤ s.comps.length
    · obtain ⟨m', u', a1, a2, a3, a4, a5, a6, a7⟩ := noSlip_one g l hs hp h4 hu (ds := ds) (by rw [hM]; exact hds) ids
      exact ⟨m', u', a1, a2, a3, a4, a5, a6, by rw [hM] at a7; exact cast (fun k => by simp [h4]) a7⟩
    · obtain ⟨m', u', a1, a2, a3, a4, a5, a6, a7⟩ := wall_few (clo := 1) g l hs hp hn (by omega) hu (ds := ds) (by rw [hM]; exact hds) ids
      exact ⟨m', u', a1, a2, a3, a4, a5, a6, by rw [hM] at a7; exact cast (fun k => by simp [h4]) a7⟩
  · refine all_outputs (M := m.grid.rng.dims) (R := fun id => Walled m.grid.rng.dims (dataBox id) ds fun k => 4 ≤ id.comps.length ∧ isWallField k) (fun {_ _ _ _} a b => walled_again hds a b) (fun {m0 s u} ids g l hM hs hu hp hn => ?_) h hL rfl hS
    by_cases h4 : 4 ≤ s.comps.length
    · obtain ⟨m', u', a1, a2, a3, a4, a5, a6, a7⟩ := conductingWall_one g l hs hp h4 hu (ds := ds) (by rw [hM]; exact hds) ids
      exact ⟨m', u', a1, a2, a3, a4, a5, a6, by rw [hM] at a7; exact cast (fun k => by simp [h4]) a7⟩
    · obtain ⟨m', u', a1, a2, a3, a4, a5, a6, a7⟩ := wall_few (clo := 0) g l hs hp hn (by omega) hu (ds := ds) (by rw [hM]; exact hds) ids
      exact ⟨m', u', a1, a2, a3, a4, a5, a6, by rw [hM] at a7; exact cast (fun k => by simp [h4]) a7⟩

/-- Boundary conditions of a direction that the mesh does not have. -/
theorem faces_ub {c : Chunk α} {g : Int} {M D : Box} (h : c.Layout g M D) {i : Int} (hi' : i < 0 ∨ M.length ≤ i) :
    ∃ w, BC.range c.lowInt i = .ub w := by
  refine ⟨"vector index out of range", ?_⟩
  unfold BC.range vget
  rcases hi' with h0 | h0
  · rw [if_pos h0]
  · rw [if_neg (by omega), List.getElem?_eq_none (by rw [h.faces.2.1]; omega)]

theorem fold_ub {f : Chunk α → Int → Res (Chunk α)} {c c1 : Chunk α} {ds : List Int} {i : Int} {more : List Int} (h1 : ds.foldlM f c = .ok c1) {w : String}
    (h2 : f c1 i = .ub w) : (ds ++ i :: more).foldlM f c = .ub w := by
  rw [List.foldlM_append, h1, Res.ok_bind, List.foldlM_cons, h2]; rfl

/-- **C111** A direction that the mesh does not have (negative, or at least the number of mesh dimensions) in the list of any of these solvers is undefined behaviour: the solvers do not check it. -/
theorem C111_bad_direction (h : m.Good S) (hL : m.Laid) {ds : List Nat} (hds : Wide 2 m.grid.rng.dims ds) {i : Int} (hi' : i < 0 ∨ m.grid.rng.dims.length ≤ i) (more : List Int)
    {id : VarId} (outs : List VarId) (hS : S id) (hp : 1 ≤ id.basis.points) (hn : 1 ≤ id.comps.length) :
    ∀ solve ∈ [periodic (α := α), copyOut, noSlip, freeSlip, conductingWall], ∃ w, solve (ints ds ++ i :: more) (id :: outs) m = .ub w := by
  have wall : ∀ clo : Int, 0 ≤ clo → clo < 4 → ∀ c : Chunk α, c.Layout 2 m.grid.rng.dims (dataBox id) →
      ∃ w, (ints ds ++ i :: more).foldlM (BC.wallDim (· * ·) (Arith.lit (-1)) clo 4) c = .ub w := by
    intro clo h0 h4 c hlay
    obtain ⟨c1, e1, s1⟩ : ∃ c1, (ints ds).foldlM (BC.wallDim (· * ·) (Arith.lit (-1)) clo 4) c = .ok c1 ∧ c.SameShape c1 := by
      by_cases hc : 4 ≤ id.comps.length
      · obtain ⟨c1, e1, s1, -⟩ := wall_all (· * ·) (Arith.lit (-1)) (clo := clo) (chi := 4) hlay (by decide) h.mesh_pos (data_pos hp hn) (by simp)
          (by simpa [lo] using h0) (by simp [hi]; omega) h4 hds
        exact ⟨c1, e1, s1⟩
      · obtain ⟨c1, e1, s1, -⟩ := wall_skip_all (· * ·) (Arith.lit (-1)) (clo := clo) (chi := 4) hlay (by decide) h.mesh_pos (data_pos hp hn) (by simp)
          (.inr (by simp [hi]; omega)) hds
        exact ⟨c1, e1, s1⟩
    obtain ⟨w, e2⟩ := faces_ub (hlay.sameShape s1) hi'
    exact ⟨w, fold_ub e1 (by rw [BC.wallDim, BC.copyOutDim, e2]; rfl)⟩
  intro solve hs
  simp only [List.mem_cons, List.not_mem_nil, or_false] at hs
  rcases hs with rfl | rfl | rfl | rfl | rfl
  · refine eachOutput_ub h hL hS fun c hlay => ?_
    obtain ⟨c1, e1, s1, -⟩ := periodic_all hlay (by decide) h.mesh_pos (data_pos hp hn) hds
    obtain ⟨w, e2⟩ := faces_ub (hlay.sameShape s1) hi'
    exact ⟨w, fold_ub e1 (by rw [BC.periodicDim, e2]; rfl)⟩
  · refine eachOutput_ub h hL hS fun c hlay => ?_
    obtain ⟨c1, e1, s1, -⟩ := copyOut_all hlay (by decide) h.mesh_pos (data_pos hp hn) hds
    obtain ⟨w, e2⟩ := faces_ub (hlay.sameShape s1) hi'
    exact ⟨w, fold_ub e1 (by rw [BC.copyOutDim, e2]; rfl)⟩
  · exact eachOutput_ub h hL hS fun c hlay => wall 1 (by decide) (by decide) c hlay
  · exact eachOutput_ub h hL hS fun c hlay => wall 1 (by decide) (by decide) c hlay
  · exact eachOutput_ub h hL hS fun c hlay => wall 0 (by decide) (by decide) c hlay

/-- **C111** `bc_free_slip` and `bc_no_slip` do the same in every case, also where they fail. -/
theorem C111_free_slip (dims : List Int) (outs : List VarId) (m : Mgr α) : freeSlip dims outs m = noSlip dims outs m := rfl

end

/-! ## Examples -/

/-- A manager on 4 × 3 cells that stores electrons and a field, both with the value 3 everywhere. -/
theorem exBoundary : ∃ m : Mgr ℝ, m.Good (· ∈ exPlasmaIds) ∧ m.Laid ∧ m.grid.rng.dims = [(0, 4), (0, 3)] ∧
    ∀ id ∈ [exPlasma "e" 5, exPlasma "f" 8], m.Stores id (fun _ => 3) := by
  obtain ⟨m, h1, h2, h3⟩ := exInit_manager ⟨Range.setup [(0,4),(0,3)], [0,0], [4,3], [1,1]⟩ (by decide) (by decide)
  obtain ⟨m', _, b2, b3, b4, b5, _⟩ := fill_fields 3 [exPlasma "e" 5, exPlasma "f" 8] h1 h2 (by
    intro id hid; simp at hid; rcases hid with rfl | rfl <;> decide)
  exact ⟨m', b2, b3, by rw [b4.grid, h3]; rfl, b5⟩

-- C111: walls at both ends of both directions, the electrons listed twice; the ghost cell to the left of cell (0, 1)
example : ∃ (m m' : Mgr ℝ) (u : Cell → ℝ), noSlip [0, 1] [exPlasma "e" 5, exPlasma "f" 8, exPlasma "e" 5] m = .ok () m' ∧ m'.Stores (exPlasma "e" 5) u ∧
    u [-1, 1, 0, 0] = 3 ∧ u [-1, 1, 0, 1] = -3 ∧ u [0, 1, 0, 1] = 3 ∧ u [-1, -1, 0, 1] = 3 := by
  obtain ⟨m, h1, h2, h3, h4⟩ := exBoundary
  obtain ⟨-, -, ⟨m', F', k1, -, -, -, k5, -⟩, -⟩ := C111_solvers h1 h2 (ds := [0, 1]) (by rw [h3]; decide)
    (outs := [exPlasma "e" 5, exPlasma "f" 8, exPlasma "e" 5]) (F := fun _ _ => 3) (by
      intro id hid
      have hid' : id ∈ [exPlasma "e" 5, exPlasma "f" 8] := by simp at hid ⊢; tauto
      refine ⟨?_, h4 id hid', ?_⟩ <;> simp at hid' <;> rcases hid' with rfl | rfl <;> decide)
  obtain ⟨s, W⟩ := k5 (exPlasma "e" 5) (by simp)
  rw [h3] at W
  refine ⟨m, m', _, k1, s, ?_, ?_, ?_, ?_⟩
  · exact W.kept 0 (by simp) _ (by decide) (by decide)
  · rw [W.flipped 0 (by simp) _ (by decide) (by decide), real_lit]; norm_num
  · exact W.rest _ (by decide) (by decide)
  · exact W.rest _ (by decide) (by decide)

end QK.Props
