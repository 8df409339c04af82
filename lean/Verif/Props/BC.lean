import Verif.Proofs.BC
/-
Properties of the boundary conditions on one chunk: C24 – C30.

`c.Layout g M D` is what `extended_datachunk::resize` establishes (C18). The listed dimensions are
mesh dimensions with at least `g` cells; they may be listed in any order and repeatedly.
-/
namespace QK.Props
open Spec
variable {α : Type}

/-- The listed dimensions are mesh dimensions with at least `g` cells. -/
def Wide (g : Int) (M : Box) (ds : List Nat) : Prop := ∀ i ∈ ds, i < M.length ∧ g ≤ hi M i - lo M i

instance (g M ds) : Decidable (Wide g M ds) := by unfold Wide; infer_instance

/-- `setup(dims)` takes an `int` vector. -/
def ints (ds : List Nat) : List Int := ds.map (Nat.cast : Nat → Int)

section
variable {c : Chunk α} {g : Int} {M D : Box}

/-- **C24** `bc_periodic`. -/
theorem C24_periodic (h : c.Layout g M D) (hg : 1 ≤ g) (hM : Pos M) (hD : Pos D) {ds : List Nat}
    (hds : Wide g M ds) :
    ∃ c', BC.periodic (ints ds) c = .ok c' ∧ c.SameShape c' ∧
      (∀ i ∈ ds, ∀ x, FaceGhost g (M ++ D) i x → c'.arr.val x = c.arr.val (periodicImage g (M ++ D) i x)) ∧
      (∀ i ∈ ds, ∀ x, FaceGhost g (M ++ D) i x → InBox (M ++ D) (periodicImage g (M ++ D) i x)) ∧
      (∀ x, InBox (grow g M ++ D) x → (∀ i ∈ ds, ¬ FaceGhost g (M ++ D) i x) → c'.arr.val x = c.arr.val x) := by
  obtain ⟨c', h1, h2, h3, h4, _⟩ := periodic_all h hg hM hD hds
  refine ⟨c', h1, h2, ?_, ?_, h4⟩
  · intro i hi x hx; rw [h3 i hi x hx, map_id']
  · intro i hi' x hx
    have := hds i hi'
    exact periodicImage_interior (by simp; omega) (by rw [lo_append this.1, hi_append this.1]; exact this.2) hx

/-- **C25** `bc_copy_out`. -/
theorem C25_copy_out (h : c.Layout g M D) (hg : 0 ≤ g) (hM : Pos M) (hD : Pos D) {ds : List Nat}
    (hds : Wide g M ds) :
    ∃ c', BC.copyOut (ints ds) c = .ok c' ∧ c.SameShape c' ∧
      (∀ i ∈ ds, ∀ x, FaceGhost g (M ++ D) i x → c'.arr.val x = c.arr.val (mirrorImage g (M ++ D) i x)) ∧
      (∀ i ∈ ds, ∀ x, FaceGhost g (M ++ D) i x → InBox (M ++ D) (mirrorImage g (M ++ D) i x)) ∧
      (∀ x, InBox (grow g M ++ D) x → (∀ i ∈ ds, ¬ FaceGhost g (M ++ D) i x) → c'.arr.val x = c.arr.val x) := by
  obtain ⟨c', h1, h2, h3, h4, _⟩ := copyOut_all h hg hM hD hds
  refine ⟨c', h1, h2, ?_, ?_, h4⟩
  · intro i hi x hx; rw [h3 i hi x hx, map_id']
  · intro i hi' x hx
    have := hds i hi'
    exact mirrorImage_interior (by simp; omega) (by rw [lo_append this.1, hi_append this.1]; exact this.2) hx

/-- **C26** `bc_no_slip`, for a variable whose components include 1, 2 and 3. `mul v m1` is `v * -1.`. -/
theorem C26_no_slip (mul : α → α → α) (m1 : α) (h : c.Layout g M D) (hg : 1 ≤ g) (hM : Pos M) (hD : Pos D)
    (hDn : D ≠ []) (hlo : lo D (D.length - 1) ≤ 1) (hhi : 4 ≤ hi D (D.length - 1)) {ds : List Nat}
    (hds : Wide g M ds) :
    ∃ c', BC.noSlip mul m1 (ints ds) c = .ok c' ∧ c.SameShape c' ∧
      (∀ i ∈ ds, ∀ x, FaceGhost g (M ++ D) i x → c'.arr.val x =
        if component x = 1 ∨ component x = 2 ∨ component x = 3 then
          (c.arr.val (mirrorImage g (M ++ D) i x)).map (fun v => mul v m1)
        else c.arr.val (mirrorImage g (M ++ D) i x)) ∧
      (∀ x, InBox (grow g M ++ D) x → (∀ i ∈ ds, ¬ FaceGhost g (M ++ D) i x) → c'.arr.val x = c.arr.val x) := by
  obtain ⟨c', h1, h2, h3, h4, _⟩ := wall_all mul m1 h hg hM hD hDn hlo hhi (by omega) hds
  refine ⟨c', h1, h2, ?_, h4⟩
  intro i hi x hx
  rw [h3 i hi x hx]
  unfold wallFactor
  by_cases hc : component x = 1 ∨ component x = 2 ∨ component x = 3
  · simp only [if_pos hc, if_pos (show 1 ≤ component x ∧ component x < 4 by omega)]
  · simp only [if_neg hc, if_neg (show ¬ (1 ≤ component x ∧ component x < 4) by omega), map_id']

/-- **C27** `bc_conducting_wall`, for a variable whose components include 0, 1, 2 and 3. -/
theorem C27_conducting_wall (mul : α → α → α) (m1 : α) (h : c.Layout g M D) (hg : 1 ≤ g) (hM : Pos M) (hD : Pos D)
    (hDn : D ≠ []) (hlo : lo D (D.length - 1) ≤ 0) (hhi : 4 ≤ hi D (D.length - 1)) {ds : List Nat}
    (hds : Wide g M ds) :
    ∃ c', BC.conductingWall mul m1 (ints ds) c = .ok c' ∧ c.SameShape c' ∧
      (∀ i ∈ ds, ∀ x, FaceGhost g (M ++ D) i x → c'.arr.val x =
        if component x = 0 ∨ component x = 1 ∨ component x = 2 ∨ component x = 3 then
          (c.arr.val (mirrorImage g (M ++ D) i x)).map (fun v => mul v m1)
        else c.arr.val (mirrorImage g (M ++ D) i x)) ∧
      (∀ x, InBox (grow g M ++ D) x → (∀ i ∈ ds, ¬ FaceGhost g (M ++ D) i x) → c'.arr.val x = c.arr.val x) := by
  obtain ⟨c', h1, h2, h3, h4, _⟩ := wall_all mul m1 h hg hM hD hDn hlo hhi (by omega) hds
  refine ⟨c', h1, h2, ?_, h4⟩
  intro i hi x hx
  rw [h3 i hi x hx]
  unfold wallFactor
  by_cases hc : component x = 0 ∨ component x = 1 ∨ component x = 2 ∨ component x = 3
  · simp only [if_pos hc, if_pos (show 0 ≤ component x ∧ component x < 4 by omega)]
  · simp only [if_neg hc, if_neg (show ¬ (0 ≤ component x ∧ component x < 4) by omega), map_id']

/-- **C28** what `bc_free_slip` does do: all three momentum components change sign, so the mirror
value is right for the wall-normal momentum (component `i + 1`) and for all components outside
`1 … 3`. Missing: the tangential momenta should keep their sign. -/
theorem C28_free_slip_partial (mul : α → α → α) (m1 : α) (h : c.Layout g M D) (hg : 1 ≤ g) (hM : Pos M)
    (hD : Pos D) (hDn : D ≠ []) (hlo : lo D (D.length - 1) ≤ 1) (hhi : 4 ≤ hi D (D.length - 1)) {ds : List Nat}
    (hds : Wide g M ds) (h3 : M.length ≤ 3) :
    ∃ c', BC.freeSlip mul m1 (ints ds) c = .ok c' ∧ c.SameShape c' ∧
      (∀ i ∈ ds, ∀ x, FaceGhost g (M ++ D) i x →
        (component x = i + 1 → c'.arr.val x = (c.arr.val (mirrorImage g (M ++ D) i x)).map (fun v => mul v m1)) ∧
        (component x < 1 ∨ 3 < component x → c'.arr.val x = c.arr.val (mirrorImage g (M ++ D) i x))) ∧
      (∀ x, InBox (grow g M ++ D) x → (∀ i ∈ ds, ¬ FaceGhost g (M ++ D) i x) → c'.arr.val x = c.arr.val x) := by
  obtain ⟨c', h1, h2, h4, h5⟩ := C26_no_slip mul m1 h hg hM hD hDn hlo hhi hds
  refine ⟨c', h1, h2, ?_, h5⟩
  intro i hi x hx
  have hil := (hds i hi).1
  rw [h4 i hi x hx]
  constructor
  · intro hc
    rw [if_pos]
    omega
  · intro hc
    rw [if_neg]
    omega

/-- **C29** every boundary condition leaves the interior and the shape alone, is idempotent, and
does not depend on the order or the multiplicity of the listed dimensions. -/
theorem C29_boundary_conditions (mul : α → α → α) (m1 : α) (h : c.Layout g M D) (hg : 1 ≤ g) (hM : Pos M)
    (hD : Pos D) (hDn : D ≠ []) {ds : List Nat} (hds : Wide g M ds)
    {bc : List Int → Chunk α → Res (Chunk α)}
    (hbc : bc = BC.periodic ∨ bc = BC.copyOut ∨ bc = BC.noSlip mul m1 ∨ bc = BC.freeSlip mul m1 ∨
      bc = BC.conductingWall mul m1) :
    ∃ c', bc (ints ds) c = .ok c' ∧ c.SameShape c' ∧
      (∀ x, InBox (M ++ D) x → c'.arr.val x = c.arr.val x) ∧
      bc (ints ds) c' = .ok c' ∧
      (∀ es : List Nat, (∀ i, i ∈ es ↔ i ∈ ds) → bc (ints es) c = .ok c') := by
  have wall : ∀ clo chi : Int, clo < chi → bc = (fun ds c => ds.foldlM (BC.wallDim mul m1 clo chi) c) →
      ∃ c', bc (ints ds) c = .ok c' ∧ c.SameShape c' ∧
      (∀ x, InBox (M ++ D) x → c'.arr.val x = c.arr.val x) ∧
      bc (ints ds) c' = .ok c' ∧
      (∀ es : List Nat, (∀ i, i ∈ es ↔ i ∈ ds) → bc (ints es) c = .ok c') := by
    rintro clo chi hc rfl
    by_cases hfit : lo D (D.length - 1) ≤ clo ∧ chi ≤ hi D (D.length - 1)
    · obtain ⟨c', h1, h2, _, _, h5, h6, h7⟩ := wall_all mul m1 h hg hM hD hDn hfit.1 hfit.2 hc hds
      exact ⟨c', h1, h2, h5, h6, h7⟩
    · obtain ⟨c', h1, h2, _, _, h5, h6, h7⟩ := wall_skip_all mul m1 h hg hM hD (clo := clo) (chi := chi) hDn
        (by omega) hds
      exact ⟨c', h1, h2, h5, h6, h7⟩
  rcases hbc with rfl | rfl | rfl | rfl | rfl
  · obtain ⟨c', h1, h2, _, _, h5, h6, h7⟩ := periodic_all h hg hM hD hds
    exact ⟨c', h1, h2, h5, h6, h7⟩
  · obtain ⟨c', h1, h2, _, _, h5, h6, h7⟩ := copyOut_all h (by omega) hM hD hds
    exact ⟨c', h1, h2, h5, h6, h7⟩
  · exact wall 1 4 (by omega) rfl
  · exact wall 1 4 (by omega) rfl
  · exact wall 0 4 (by omega) rfl

/-- **C30** is false: with fewer than 4 components a wall condition reports nothing, it silently
copies the mirror values without any sign change. This holds for every such variable. -/
theorem C30_too_few_components_silent (mul : α → α → α) (m1 : α) (h : c.Layout g M D) (hg : 1 ≤ g) (hM : Pos M)
    (hD : Pos D) (hDn : D ≠ []) (hhi : hi D (D.length - 1) < 4) {ds : List Nat} (hds : Wide g M ds)
    {bc : List Int → Chunk α → Res (Chunk α)}
    (hbc : bc = BC.noSlip mul m1 ∨ bc = BC.freeSlip mul m1 ∨ bc = BC.conductingWall mul m1) :
    ∃ c', bc (ints ds) c = .ok c' ∧
      (∀ i ∈ ds, ∀ x, FaceGhost g (M ++ D) i x → c'.arr.val x = c.arr.val (mirrorImage g (M ++ D) i x)) := by
  have wall : ∀ clo chi : Int, chi = 4 → bc = (fun ds c => ds.foldlM (BC.wallDim mul m1 clo chi) c) →
      ∃ c', bc (ints ds) c = .ok c' ∧
      (∀ i ∈ ds, ∀ x, FaceGhost g (M ++ D) i x → c'.arr.val x = c.arr.val (mirrorImage g (M ++ D) i x)) := by
    rintro clo chi hc rfl
    obtain ⟨c', h1, _, h3, _⟩ := wall_skip_all mul m1 h hg hM hD (clo := clo) (chi := chi) hDn (by omega) hds
    exact ⟨c', h1, fun i hi x hx => by rw [h3 i hi x hx, map_id']⟩
  rcases hbc with rfl | rfl | rfl
  · exact wall 1 4 rfl rfl
  · exact wall 1 4 rfl rfl
  · exact wall 0 4 rfl rfl

end

/-! ### Witnesses -/

/-- A chunk with two mesh cells, one point, `n` components, one ghost layer, all values 1. -/
theorem demo_chunk (n : Int) (hn : 0 < n) :
    ∃ c : Chunk Int, c.Layout 1 [(0, 2)] [(0, 1), (0, n)] ∧
      ∀ x, InBox [(-1, 3), (0, 1), (0, n)] x → c.arr.val x = some 1 := by
  have hD : Pos (Range.setup [(0, 1), (0, n)]).dims := by
    intro d hd; simp at hd; rcases hd with rfl | rfl <;> simp <;> omega
  obtain ⟨c, _, hl, _⟩ := resize_layout (0:Int) Chunk.default (mesh := Range.setup [(0, 2)])
    (dataR := Range.setup [(0, 1), (0, n)]) (g := 1) (by decide) (by decide) hD
  refine ⟨{ c with arr := c.arr.fill 1 }, hl.with_arr (IFace.fill_wf hl.wf 1) rfl, ?_⟩
  intro x hx
  have hd : (c.arr.fill 1).rng.dims = [(-1, 3), (0, 1), (0, n)] := hl.dims
  have := IFace.InBox_ne_nil (f := c.arr.fill 1) (IFace.fill_wf hl.wf 1) (by rw [hd]; simp) (c := x) (by rw [hd]; exact hx)
  unfold IFace.val
  rw [List.getElem?_eq_getElem this]
  simp [IFace.fill]

-- the hypotheses of C24 – C29 are satisfiable (6 components, periodic in dimension 0)
example : ∃ c : Chunk Int, c.Layout 1 [(0, 2)] [(0, 1), (0, 6)] ∧ (1:Int) ≤ 1 ∧ Pos [(0, 2)] ∧ Pos [(0, 1), (0, 6)] ∧
    Wide 1 [(0, 2)] [0, 0] ∧ FaceGhost 1 [(0, 2), (0, 1), (0, 6)] 0 [-1, 0, 5] ∧
    periodicImage 1 [(0, 2), (0, 1), (0, 6)] 0 [-1, 0, 5] = [1, 0, 5] ∧
    mirrorImage 1 [(0, 2), (0, 1), (0, 6)] 0 [-1, 0, 5] = [0, 0, 5] ∧
    4 ≤ hi [(0, 1), (0, 6)] 1 := by
  obtain ⟨c, hl, _⟩ := demo_chunk 6 (by decide)
  exact ⟨c, hl, by decide, by decide, by decide, by decide, by decide, by decide, by decide, by decide⟩

/-- **C28** is false: the tangential momenta change sign too. -/
theorem C28_free_slip_false :
    ¬ (∀ (c : Chunk Int) (g : Int) (M D : Box), c.Layout g M D → 1 ≤ g → Pos M → Pos D → D ≠ [] →
      lo D (D.length - 1) ≤ 1 → 4 ≤ hi D (D.length - 1) → M.length ≤ 3 →
      ∀ ds : List Nat, Wide g M ds → ∃ c', BC.freeSlip (· * ·) (-1) (ints ds) c = .ok c' ∧
      ∀ i ∈ ds, ∀ x, FaceGhost g (M ++ D) i x → c'.arr.val x =
        if component x = i + 1 then (c.arr.val (mirrorImage g (M ++ D) i x)).map (fun v => v * -1)
        else c.arr.val (mirrorImage g (M ++ D) i x)) := by
  intro H
  obtain ⟨c, hl, hv⟩ := demo_chunk 4 (by decide)
  obtain ⟨c', h1, h2⟩ := H c 1 _ _ hl (by decide) (by decide) (by decide) (by decide) (by decide) (by decide)
    (by decide) [0] (by decide)
  obtain ⟨c'', h3, _, h4, _⟩ := C26_no_slip (· * ·) (-1) hl (by decide) (by decide) (by decide) (by decide) (by decide)
    (by decide) (ds := [0]) (by decide)
  have e : c' = c'' := by
    have : Res.ok c' = Res.ok c'' := h1.symm.trans h3
    exact Res.ok.inj this
  subst e
  have a := h2 0 (by decide) [-1, 0, 2] (by decide)
  have b := h4 0 (by decide) [-1, 0, 2] (by decide)
  have m : mirrorImage 1 ([(0, 2)] ++ [(0, 1), (0, 4)]) 0 [-1, 0, 2] = [0, 0, 2] := by decide
  rw [m, hv [0, 0, 2] (by decide)] at a b
  rw [if_neg (by decide)] at a
  rw [if_pos (by decide), a] at b
  exact absurd b (by decide)

/-- **C30** refuted: there is a variable with 3 components on which no wall condition throws. -/
theorem C30_throws_false :
    ¬ (∀ (c : Chunk Int) (g : Int) (M D : Box), c.Layout g M D → 1 ≤ g → Pos M → Pos D → D ≠ [] →
      hi D (D.length - 1) < 4 → ∀ ds : List Nat, ds ≠ [] → Wide g M ds →
      ∃ m, BC.noSlip (· * ·) (-1) (ints ds) c = .throw m) := by
  intro H
  obtain ⟨c, hl, _⟩ := demo_chunk 3 (by decide)
  obtain ⟨m, hm⟩ := H c 1 _ _ hl (by decide) (by decide) (by decide) (by decide) (by decide) [0] (by decide) (by decide)
  obtain ⟨c', h1, _⟩ := C30_too_few_components_silent (· * ·) (-1) hl (by decide) (by decide) (by decide) (by decide)
    (by decide) (ds := [0]) (by decide) (.inl rfl)
  rw [hm] at h1
  exact absurd h1 (by simp)

end QK.Props
