import Verif.Props.Boundary
/-
C129: `solver::swap` and the shapes of variables.
-/
namespace QK.Props
open QK Spec Mgr Solve

/-- Variables of the same shape: equally many points and components. -/
def SameForm (x y : VarId) : Prop := x.basis.points = y.basis.points ∧ x.comps.length = y.comps.length

/-- A chunk has one layout. -/
theorem layout_unique {α : Type} {g : Int} {M D D' : Box} {c : Chunk α} (h : c.Layout g M D) (h' : c.Layout g M D') : D = D' := by
  have e := h.arr_range.symm.trans h'.arr_range
  have : grow g M ++ D = grow g M ++ D' := congrArg Range.dims e
  exact List.append_cancel_left this

section
variable {α : Type} [Arith α] {S : VarId → Prop} {m : Mgr α}

/-- **C129**, exactly: for an even list of existing, different variables `swap` returns whatever their shapes, and afterwards every variable has the shape that its id says precisely if the variables of each pair
have the same shape. -/
theorem C129_exactly (h : m.Good S) (hL : m.Laid) {outs : List VarId} (he : Even outs.length) (hnd : outs.Nodup) (hex : ∀ id ∈ outs, m.contents id ≠ none) :
    ∃ m', swap outs m = .ok () m' ∧
      (m'.Laid ↔ ∀ (i : Nat) x y, outs[2 * i]? = some x → outs[2 * i + 1]? = some y → SameForm x y) := by
  obtain ⟨m', e, hG, hX, hp, ho⟩ := C38_swap h he hnd hex
  refine ⟨m', e, fun hL' i x y hx hy => ?_, fun hs id c hc => ?_⟩
  · obtain ⟨e1, e2⟩ := hp i x y hx hy
    obtain ⟨c, hc⟩ := Option.ne_none_iff_exists'.1 (hex y (List.mem_of_getElem? hy))
    have l1 := hL y c hc
    have l2 := hL' x c (by rw [e1, hc])
    rw [hX.grid] at l2
    have := layout_unique l2 l1
    simp only [List.cons.injEq, Prod.mk.injEq, true_and, and_true, Nat.cast_inj] at this
    exact this
  · rw [hX.grid]
    by_cases hid : id ∈ outs
    · obtain ⟨k, hk, hkl⟩ := List.mem_iff_getElem.1 hid
      obtain ⟨n, hn⟩ := he
      obtain ⟨i, hi | hi⟩ : ∃ i, k = 2 * i ∨ k = 2 * i + 1 := ⟨k / 2, by omega⟩
      · have hx : outs[2 * i]? = some id := by rw [← hi, List.getElem?_eq_some_iff]; exact ⟨hk, hkl⟩
        have hy : outs[2 * i + 1]? = some (outs[2 * i + 1]'(by omega)) := List.getElem?_eq_getElem _
        obtain ⟨f1, f2⟩ := hs i _ _ hx hy
        rw [(hp i _ _ hx hy).1] at hc
        have := hL _ _ hc
        rwa [← f1, ← f2] at this
      · have hy : outs[2 * i + 1]? = some id := by rw [← hi, List.getElem?_eq_some_iff]; exact ⟨hk, hkl⟩
        have hx : outs[2 * i]? = some (outs[2 * i]'(by omega)) := List.getElem?_eq_getElem _
        obtain ⟨f1, f2⟩ := hs i _ _ hx hy
        rw [(hp i _ _ hx hy).2] at hc
        have := hL _ _ hc
        rwa [f1, f2] at this
    · rw [ho id hid] at hc
      exact hL id c hc

/-- **C129**, what holds: pairs of variables of the same shape. Missing: other pairs should be rejected (`C129_false`). -/
theorem C129_partial (h : m.Good S) (hL : m.Laid) {outs : List VarId} (he : Even outs.length) (hnd : outs.Nodup) (hex : ∀ id ∈ outs, m.contents id ≠ none)
    (hs : ∀ (i : Nat) x y, outs[2 * i]? = some x → outs[2 * i + 1]? = some y → SameForm x y) : ∃ m', swap outs m = .ok () m' ∧ m'.Laid := by
  obtain ⟨m', e, hl⟩ := C129_exactly h hL he hnd hex
  exact ⟨m', e, hl.2 hs⟩

/-- **C129** is false: for every manager and two variables of different shapes in it, `swap` throws nothing, and leaves both with the number of points and components of the other one. -/
theorem C129_false (h : m.Good S) (hL : m.Laid) {x y : VarId} (hx : m.contents x ≠ none) (hy : m.contents y ≠ none) (hxy : ¬ SameForm x y) :
    ∃ m', swap [x, y] m = .ok () m' ∧ ¬ m'.Laid ∧
      (∃ c, m'.contents x = some c ∧ c.Layout 2 m.grid.rng.dims [(0, y.basis.points), (0, (y.comps.length : Int))]) ∧
      ∃ c, m'.contents y = some c ∧ c.Layout 2 m.grid.rng.dims [(0, x.basis.points), (0, (x.comps.length : Int))] := by
  have hne : x ≠ y := by rintro rfl; exact hxy ⟨rfl, rfl⟩
  have hex : ∀ id ∈ [x, y], m.contents id ≠ none := by
    intro id hid
    simp only [List.mem_cons, List.not_mem_nil, or_false] at hid
    rcases hid with rfl | rfl
    · exact hx
    · exact hy
  obtain ⟨m', e, hl⟩ := C129_exactly h hL (outs := [x, y]) ⟨1, rfl⟩ (by simp [hne]) hex
  obtain ⟨m2, e2, -, -, hp, -⟩ := C38_swap h (outs := [x, y]) ⟨1, rfl⟩ (by simp [hne]) hex
  rw [e] at e2
  cases e2
  obtain ⟨p1, p2⟩ := hp 0 x y rfl rfl
  obtain ⟨cx, ex⟩ := Option.ne_none_iff_exists'.1 hx
  obtain ⟨cy, ey⟩ := Option.ne_none_iff_exists'.1 hy
  refine ⟨m', e, fun hc => hxy (hl.1 hc 0 x y rfl rfl), ⟨cy, by rw [p1, ey], hL y cy ey⟩, ⟨cx, by rw [p2, ex], hL x cx ex⟩⟩

end

-- C129: electrons with 5 components, a field with 8
example : ∃ m m' : Mgr ℝ, m.Good (· ∈ exPlasmaIds) ∧ m.Laid ∧ swap [exPlasma "e" 5, exPlasma "f" 8] m = .ok () m' ∧ ¬ m'.Laid := by
  obtain ⟨m, h1, h2, -, h4⟩ := exBoundary
  have hc : ∀ id ∈ [exPlasma "e" 5, exPlasma "f" 8], m.contents id ≠ none := fun id hid => by
    obtain ⟨c, hc, -⟩ := h4 id hid
    rw [hc]; simp
  obtain ⟨m', e, hn, -⟩ := C129_false h1 h2 (hc (exPlasma "e" 5) (by simp)) (hc (exPlasma "f" 8) (by simp)) (by unfold SameForm; decide)
  exact ⟨m, m', h1, h2, e, hn⟩

end QK.Props
