import Verif.Props.Kernels
import Verif.Props.Integrators
import Verif.Props.Sources
import Verif.Props.BC
import Verif.Spec.Program
/- Helper lemmas for the coupled programs: effects of the solvers on fields. -/
namespace QK
open Spec Solve Props

section
variable {α : Type} [Arith α] {S : VarId → Prop} {m m' : Mgr α}

theorem Mgr.Stores.mono {id : VarId} {u : Cell → α} (h : m.Stores id u) (hx : m.Extends m')
    (hc : m'.contents id = m.contents id) : m'.Stores id u := by
  obtain ⟨c, h1, h2⟩ := h
  refine ⟨c, hc.trans h1, fun x hx' => h2 x ?_⟩
  unfold Mgr.arrayBox at hx' ⊢
  rw [hx.grid] at hx'; exact hx'

theorem Mgr.Stores.exists {id : VarId} {u : Cell → α} (h : m.Stores id u) : m.contents id ≠ none := by
  obtain ⟨c, hc, _⟩ := h; rw [hc]; simp

/-- A field can be read off any chunk of the right layout. -/
theorem field_of_layout {c : Chunk α} {M D : Box} (hD : D ≠ []) (h : c.Layout 2 M D) :
    ∃ u : Cell → α, ∀ x, InBox (grow 2 M ++ D) x → c.arr.val x = some (u x) := by
  refine ⟨fun x => (c.arr.val x).getD (Arith.lit 0), fun x hx => ?_⟩
  obtain ⟨v, hv⟩ := IFace.val_isSome h.wf (by rw [h.dims]; simp [hD]) (by rw [h.dims]; exact hx)
  simp only [hv, Option.getD_some]

/-- Every existing variable stores some field. -/
theorem stores_exist (hL : m.Laid) {id : VarId} (h : m.contents id ≠ none) : ∃ u, m.Stores id u := by
  obtain ⟨c, hc⟩ := Option.ne_none_iff_exists'.1 h
  obtain ⟨u, hu⟩ := field_of_layout (by simp) (hL id c hc)
  exact ⟨u, c, hc, hu⟩

/-- Two fields stored for the same id agree on the array. -/
theorem Mgr.Stores.unique {id : VarId} {u u' : Cell → α} (h : m.Stores id u) (h' : m.Stores id u') {x : Cell}
    (hx : InBox (m.arrayBox id) x) : u x = u' x := by
  obtain ⟨c, hc, v⟩ := h
  obtain ⟨c', hc', v'⟩ := h'
  rw [hc] at hc'; cases hc'
  have := (v x hx).symm.trans (v' x hx)
  exact Option.some.inj this

/-- One variable of a loop over existing outputs. -/
theorem eachOutput_one {f : Chunk α → Res (Chunk α)} {s : VarId} {u : Cell → α} (R : (Cell → α) → Prop)
    (h : m.Good S) (hL : m.Laid) (hs : S s) (hu : m.Stores s u)
    (hf : ∀ c : Chunk α, c.Layout 2 m.grid.rng.dims [(0, s.basis.points), (0, (s.comps.length : Int))] →
      (∀ x, InBox (grow 2 m.grid.rng.dims ++ [(0, s.basis.points), (0, (s.comps.length : Int))]) x → c.arr.val x = some (u x)) →
      ∃ c', f c = .ok c' ∧ c.SameShape c' ∧
        ∀ u', (∀ x, InBox (grow 2 m.grid.rng.dims ++ [(0, s.basis.points), (0, (s.comps.length : Int))]) x → c'.arr.val x = some (u' x)) → R u')
    (ids : List VarId) :
    ∃ m' u', eachOutput f (s :: ids) m = eachOutput f ids m' ∧ m'.Good S ∧ m'.Laid ∧ m.Extends m' ∧
      (∀ id, id ≠ s → m'.contents id = m.contents id) ∧ m'.Stores s u' ∧ R u' := by
  obtain ⟨c, hc, vc⟩ := hu
  have hlay := hL s c hc
  obtain ⟨c', k1, k2, k3⟩ := hf c hlay vc
  obtain ⟨m', g1, g2, g3, g4⟩ := eachOutput_cons h hs (ids := ids) (c := c) (by rw [created_self, Function.update_self, hc]; rfl) k1
  have hlay' := hlay.sameShape k2
  obtain ⟨u', hu'⟩ := field_of_layout (by simp) hlay'
  refine ⟨m', u', g4, g1, ?_, g2, fun id hne => by rw [g3, Function.update_of_ne hne], ⟨c', by rw [g3, Function.update_self], ?_⟩, k3 u' hu'⟩
  · intro id d hd
    rw [g2.grid]
    rw [g3] at hd
    by_cases e : id = s
    · subst e; rw [Function.update_self] at hd; cases hd; exact hlay'
    · rw [Function.update_of_ne e] at hd; exact hL id d hd
  · intro x hx
    unfold Mgr.arrayBox at hx
    rw [g2.grid] at hx
    exact hu' x hx

/-! ### Boundary conditions on fields -/

theorem Filled.of {M D : Box} {ws ps : List Nat} {flip : Int → Prop} {u v w : Cell → α} (hM : Pos M)
    (hw : ∀ i ∈ ws, i < M.length) (hp : Wide 2 M ps) (hd : ∀ i ∈ ws, i ∉ ps)
    (h1 : Walled M D ws flip u v) (h2 : Wrapped M D ps v w) : Filled M D ws flip ps u w := by
  have hint : ∀ x, InBox (M ++ D) x → v x = u x := fun x hx =>
    h1.rest x (inBox_interior (by decide) hx) fun i hi hg => faceGhost_not_interior (by have := hw i hi; simp; omega) hg hx
  have keep : ∀ i ∈ ws, ∀ x, FaceGhost 2 (M ++ D) i x → w x = v x := by
    intro i hi x hx
    have hil := hw i hi
    refine h2.rest x (faceGhost_in_array (by decide) hM hil hx) fun j hj hg => ?_
    have hjl := (hp j hj).1
    have := faceGhost_unique (i := i) (j := j) (by simp; omega) (by simp; omega) hx hg
    subst this
    exact hd i hi hj
  refine ⟨?_, ?_, ?_, ?_⟩
  · intro x hx
    rw [h2.rest x (inBox_interior (by decide) hx) fun i hi hg =>
      faceGhost_not_interior (by have := (hp i hi).1; simp; omega) hg hx, hint x hx]
  · intro i hi x hx hf
    rw [keep i hi x hx, h1.flipped i hi x hx hf]
  · intro i hi x hx hf
    rw [keep i hi x hx, h1.kept i hi x hx hf]
  · intro i hi x hx
    have hil := hp i hi
    rw [h2.ghost i hi x hx, hint]
    exact periodicImage_interior (by simp; omega) (by rw [lo_append hil.1, hi_append hil.1]; exact hil.2) hx

/-- No periodic condition. -/
theorem _root_.QK.Spec.Wrapped.none {M D : Box} (u : Cell → α) : Wrapped M D [] u u := ⟨by simp, fun _ _ _ => rfl⟩

theorem data_pos {s : VarId} (hp : 1 ≤ s.basis.points) (hn : 1 ≤ s.comps.length) :
    Pos [(0, s.basis.points), (0, (s.comps.length : Int))] := by
  intro q hq
  simp only [List.mem_cons, List.not_mem_nil, or_false] at hq
  rcases hq with rfl | rfl <;> simp <;> omega

/-- One variable of a wall condition. -/
theorem wall_one {f : Chunk α → Res (Chunk α)} {flip : Int → Prop} [DecidablePred flip] {ds : List Nat} {s : VarId} {u : Cell → α}
    (hf : ∀ c : Chunk α, c.Layout 2 m.grid.rng.dims [(0, s.basis.points), (0, (s.comps.length : Int))] →
      ∃ c', f c = .ok c' ∧ c.SameShape c' ∧
      (∀ i ∈ ds, ∀ x, FaceGhost 2 (m.grid.rng.dims ++ [(0, s.basis.points), (0, (s.comps.length : Int))]) i x → c'.arr.val x =
        if flip (component x) then
          (c.arr.val (mirrorImage 2 (m.grid.rng.dims ++ [(0, s.basis.points), (0, (s.comps.length : Int))]) i x)).map (fun v => v * Arith.lit (-1))
        else c.arr.val (mirrorImage 2 (m.grid.rng.dims ++ [(0, s.basis.points), (0, (s.comps.length : Int))]) i x)) ∧
      (∀ x, InBox (grow 2 m.grid.rng.dims ++ [(0, s.basis.points), (0, (s.comps.length : Int))]) x →
        (∀ i ∈ ds, ¬ FaceGhost 2 (m.grid.rng.dims ++ [(0, s.basis.points), (0, (s.comps.length : Int))]) i x) → c'.arr.val x = c.arr.val x))
    (h : m.Good S) (hL : m.Laid) (hs : S s) (hu : m.Stores s u) (hds : Wide 2 m.grid.rng.dims ds) (ids : List VarId) :
    ∃ m' u', eachOutput f (s :: ids) m = eachOutput f ids m' ∧ m'.Good S ∧ m'.Laid ∧ m.Extends m' ∧
      (∀ id, id ≠ s → m'.contents id = m.contents id) ∧ m'.Stores s u' ∧
      Walled m.grid.rng.dims [(0, s.basis.points), (0, (s.comps.length : Int))] ds flip u u' := by
  refine eachOutput_one _ h hL hs hu ?_ ids
  intro c hlay vc
  obtain ⟨c', k1, k2, k3, k4⟩ := hf c hlay
  refine ⟨c', k1, k2, fun u' hu' => ⟨?_, ?_, ?_⟩⟩
  · intro i hi' x hx hfl
    have hil := hds i hi'
    have e := k3 i hi' x hx
    rw [if_pos hfl, vc _ (inBox_interior (by decide) (mirrorImage_interior (by simp; omega) (by rw [lo_append hil.1, hi_append hil.1]; exact hil.2) hx)),
      hu' x (faceGhost_in_array (by decide) h.mesh_pos hil.1 hx)] at e
    exact Option.some.inj e
  · intro i hi' x hx hfl
    have hil := hds i hi'
    have e := k3 i hi' x hx
    rw [if_neg hfl, vc _ (inBox_interior (by decide) (mirrorImage_interior (by simp; omega) (by rw [lo_append hil.1, hi_append hil.1]; exact hil.2) hx)),
      hu' x (faceGhost_in_array (by decide) h.mesh_pos hil.1 hx)] at e
    exact Option.some.inj e
  · intro x hx hno
    have e := k4 x hx hno
    rw [vc x hx, hu' x hx] at e
    exact Option.some.inj e

instance : DecidablePred isMomentum := fun k => by unfold isMomentum; infer_instance
instance : DecidablePred isWallField := fun k => by unfold isWallField; infer_instance

theorem noSlip_one {ds : List Nat} {s : VarId} {u : Cell → α} (h : m.Good S) (hL : m.Laid) (hs : S s) (hp : 1 ≤ s.basis.points)
    (hn : 4 ≤ s.comps.length) (hu : m.Stores s u) (hds : Wide 2 m.grid.rng.dims ds) (ids : List VarId) :
    ∃ m' u', noSlip (ints ds) (s :: ids) m = noSlip (ints ds) ids m' ∧ m'.Good S ∧ m'.Laid ∧ m.Extends m' ∧
      (∀ id, id ≠ s → m'.contents id = m.contents id) ∧ m'.Stores s u' ∧
      Walled m.grid.rng.dims [(0, s.basis.points), (0, (s.comps.length : Int))] ds isMomentum u u' := by
  refine wall_one (flip := isMomentum) (fun c hlay => ?_) h hL hs hu hds ids
  exact C26_no_slip (· * ·) (Arith.lit (-1)) hlay (by decide) h.mesh_pos (data_pos hp (by omega)) (by simp) (by simp [lo])
    (by simp [hi]; omega) hds

theorem conductingWall_one {ds : List Nat} {s : VarId} {u : Cell → α} (h : m.Good S) (hL : m.Laid) (hs : S s) (hp : 1 ≤ s.basis.points)
    (hn : 4 ≤ s.comps.length) (hu : m.Stores s u) (hds : Wide 2 m.grid.rng.dims ds) (ids : List VarId) :
    ∃ m' u', conductingWall (ints ds) (s :: ids) m = conductingWall (ints ds) ids m' ∧ m'.Good S ∧ m'.Laid ∧ m.Extends m' ∧
      (∀ id, id ≠ s → m'.contents id = m.contents id) ∧ m'.Stores s u' ∧
      Walled m.grid.rng.dims [(0, s.basis.points), (0, (s.comps.length : Int))] ds isWallField u u' := by
  refine wall_one (flip := isWallField) (fun c hlay => ?_) h hL hs hu hds ids
  exact C27_conducting_wall (· * ·) (Arith.lit (-1)) hlay (by decide) h.mesh_pos (data_pos hp (by omega)) (by simp) (by simp [lo])
    (by simp [hi]; omega) hds

theorem periodic_one {ds : List Nat} {s : VarId} {u : Cell → α} (h : m.Good S) (hL : m.Laid) (hs : S s) (hp : 1 ≤ s.basis.points)
    (hn : 1 ≤ s.comps.length) (hu : m.Stores s u) (hds : Wide 2 m.grid.rng.dims ds) (ids : List VarId) :
    ∃ m' u', periodic (ints ds) (s :: ids) m = periodic (ints ds) ids m' ∧ m'.Good S ∧ m'.Laid ∧ m.Extends m' ∧
      (∀ id, id ≠ s → m'.contents id = m.contents id) ∧ m'.Stores s u' ∧
      Wrapped m.grid.rng.dims [(0, s.basis.points), (0, (s.comps.length : Int))] ds u u' := by
  refine eachOutput_one _ h hL hs hu ?_ ids
  intro c hlay vc
  obtain ⟨c', k1, k2, k3, k4, k5⟩ := C24_periodic hlay (by decide) h.mesh_pos (data_pos hp hn) hds
  refine ⟨c', k1, k2, fun u' hu' => ⟨?_, ?_⟩⟩
  · intro i hi' x hx
    have e := k3 i hi' x hx
    rw [vc _ (inBox_interior (by decide) (k4 i hi' x hx)), hu' x (faceGhost_in_array (by decide) h.mesh_pos (hds i hi').1 hx)] at e
    exact Option.some.inj e
  · intro x hx hno
    have e := k5 x hx hno
    rw [vc x hx, hu' x hx] at e
    exact Option.some.inj e

/-! ### Reset and fluxes -/

/-- `fill` on fields. -/
theorem fill_fields (value : α) (outs : List VarId) (h : m.Good S) (hL : m.Laid) (hS : ∀ id ∈ outs, S id) :
    ∃ m', fill outs value m = .ok () m' ∧ m'.Good S ∧ m'.Laid ∧ m.Extends m' ∧
      (∀ id ∈ outs, m'.Stores id (fun _ => value)) ∧ ∀ id, id ∉ outs → m'.contents id = m.contents id := by
  obtain ⟨m', b1, b2, b3, b4, b5⟩ := C39_fill value outs h hS
  have lb : m'.Laid := by
    intro id d hd
    rw [b3.grid]
    by_cases e : id ∈ outs
    · obtain ⟨r, er, zr, sr⟩ := b4 id e
      rw [er] at hd; cases hd
      refine Chunk.Layout.sameShape ?_ sr
      cases e' : m.contents id with
      | some d => exact hL id d e'
      | none => exact (fresh_spec (Arith.lit 0) h.mesh_ne h.mesh_pos (h.points id (hS id e))).2.1
    · rw [b5 id e] at hd; exact hL id d hd
  refine ⟨m', b1, b2, lb, b3, fun id hid => ?_, b5⟩
  obtain ⟨r, er, zr, sr⟩ := b4 id hid
  refine ⟨r, er, fun x hx => ?_⟩
  have hl := lb id r er
  obtain ⟨v, hv⟩ := IFace.val_isSome hl.wf (by rw [hl.dims]; simp) (by rw [hl.dims]; exact hx)
  rw [hv, zr v (List.mem_of_getElem? hv)]

/-- `euler::solve` on fields. -/
theorem euler_fields (gamma : α) (h : m.Good S) (hL : m.Laid) {t : α} (ht : m.dt = some t) (hdx : m.grid.dxs.length = m.grid.rng.dims.length)
    (h4 : m.grid.rng.dims.length ≤ 4) {s r : VarId} (hs : S s) (hr : S r) (hne : s ≠ r) {p : Int} (hp : 1 ≤ p) (ep : s.basis.points = p)
    (ep' : r.basis.points = p) (n5 : s.comps.length = 5) (n5' : r.comps.length = 5) {u v : Cell → α} (hu : m.Stores s u) (hv : m.Stores r v) :
    ∃ m' v', euler gamma [s] [r] m = .ok () m' ∧ m'.Good S ∧ m'.Laid ∧ m.Extends m' ∧ (∀ id, id ≠ r → m'.contents id = m.contents id) ∧
      m'.Stores r v' ∧ ∀ x, InBox (m.grid.rng.dims ++ [(0, p)]) x → ∀ j : Nat, j < 5 → v' (x ++ [(j : Int)]) =
        fvUpdate (fun dim => fluxOf (Euler.hll gamma dim)) 5 (fun x j => u (x ++ [(j : Int)])) m.grid.dxAt (List.range m.grid.rng.dims.length) x j
          (v (x ++ [(j : Int)])) := by
  obtain ⟨cq, hq, vq⟩ := hu
  obtain ⟨cr, hrr, vr⟩ := hv
  obtain ⟨P, eP⟩ : ∃ P : Nat, p = P := ⟨p.toNat, by omega⟩
  have y1 := hL _ _ hq
  have y2 := hL _ _ hrr
  unfold Mgr.arrayBox at vq vr
  rw [ep, eP, n5] at y1 vq
  rw [ep', eP, n5'] at y2 vr
  obtain ⟨r', _, k1, _, k2, _, k3⟩ := C53_euler gamma h.mesh_pos h4 (p := P) (by omega) (by decide) y1 y2 rfl hdx (holds_of_val (n := 5) vq)
  obtain ⟨a, ha⟩ := exists_addr h hq
  obtain ⟨b, hb'⟩ := exists_addr h hrr
  have hl' := y2.sameShape k2
  obtain ⟨v', hv'⟩ := field_of_layout (by simp) hl'
  refine ⟨m.store b r', v', ?_, h.store _ _, Mgr.Laid.store h hL hb' hrr k2, Mgr.store_extends _ _ _,
    fun id hid => by rw [h.store_contents hb', Function.update_of_ne hid], ⟨r', by rw [h.store_contents hb', Function.update_self], ?_⟩, ?_⟩
  · unfold euler
    simp only
    rw [SM.bind_ok (inputVar_existing h hs ha), SM.bind_ok (outputVar_existing h hr hb')]
    refine kernelLoop_spec h ha hb' (cs := [cq]) (.cons ⟨s, ha, hq⟩ .nil) hrr ?_
    rw [addr_ne h ha hb' hne]
    unfold dtOf
    rw [ht]
    exact k1
  · intro x hx
    unfold Mgr.arrayBox at hx
    rw [ep', eP, n5'] at hx
    exact hv' x hx
  · intro x hx j hj
    rw [eP] at hx
    have hin : InBox (grow 2 m.grid.rng.dims ++ [(0, (P : Int)), (0, ((5 : Nat) : Int))]) (x ++ [(j : Int)]) := by
      have hxg := inBox_interior (g := 2) (by decide) hx
      rw [FV.layout_split]
      exact (inBox_snoc hxg.length_eq).2 ⟨hxg, by omega, by omega⟩
    have e := (k3 x hx j hj).1
    rw [vr _ hin, hv' _ hin] at e
    exact Option.some.inj e

/-- `maxwell::solve` on fields. -/
theorem maxwell_fields (c : α) (h : m.Good S) (hL : m.Laid) (hdx : m.grid.dxs.length = m.grid.rng.dims.length)
    {s r : VarId} (hs : S s) (hr : S r) (hne : s ≠ r) {p : Int} (hp : 1 ≤ p) (ep : s.basis.points = p)
    (ep' : r.basis.points = p) (n6 : s.comps.length = 6) (n6' : r.comps.length = 6) {u v : Cell → α} (hu : m.Stores s u) (hv : m.Stores r v) :
    ∃ m' v', maxwell c [s] [r] m = .ok () m' ∧ m'.Good S ∧ m'.Laid ∧ m.Extends m' ∧ (∀ id, id ≠ r → m'.contents id = m.contents id) ∧
      m'.Stores r v' ∧ ∀ x, InBox (m.grid.rng.dims ++ [(0, p)]) x → ∀ j : Nat, j < 6 → v' (x ++ [(j : Int)]) =
        fvUpdate (fun dim => fluxOf (Maxwell.rusanov c dim)) 6 (fun x j => u (x ++ [(j : Int)])) m.grid.dxAt
          (List.range (min m.grid.rng.dims.length 3)) x j (v (x ++ [(j : Int)])) := by
  obtain ⟨cq, hq, vq⟩ := hu
  obtain ⟨cr, hrr, vr⟩ := hv
  obtain ⟨P, eP⟩ : ∃ P : Nat, p = P := ⟨p.toNat, by omega⟩
  have y1 := hL _ _ hq
  have y2 := hL _ _ hrr
  unfold Mgr.arrayBox at vq vr
  rw [ep, eP, n6] at y1 vq
  rw [ep', eP, n6'] at y2 vr
  obtain ⟨r', _, k1, _, k2, _, k3⟩ := C53_maxwell c h.mesh_pos (p := P) (by omega) (by decide) y1 y2 rfl hdx (holds_of_val (n := 6) vq)
  obtain ⟨a, ha⟩ := exists_addr h hq
  obtain ⟨b, hb'⟩ := exists_addr h hrr
  have hl' := y2.sameShape k2
  obtain ⟨v', hv'⟩ := field_of_layout (by simp) hl'
  refine ⟨m.store b r', v', ?_, h.store _ _, Mgr.Laid.store h hL hb' hrr k2, Mgr.store_extends _ _ _,
    fun id hid => by rw [h.store_contents hb', Function.update_of_ne hid], ⟨r', by rw [h.store_contents hb', Function.update_self], ?_⟩, ?_⟩
  · unfold maxwell
    simp only
    rw [SM.bind_ok (inputVar_existing h hs ha), SM.bind_ok (outputVar_existing h hr hb')]
    refine kernelLoop_spec h ha hb' (cs := [cq]) (.cons ⟨s, ha, hq⟩ .nil) hrr ?_
    rw [addr_ne h ha hb' hne]
    exact k1
  · intro x hx
    unfold Mgr.arrayBox at hx
    rw [ep', eP, n6'] at hx
    exact hv' x hx
  · intro x hx j hj
    rw [eP] at hx
    have hin : InBox (grow 2 m.grid.rng.dims ++ [(0, (P : Int)), (0, ((6 : Nat) : Int))]) (x ++ [(j : Int)]) := by
      have hxg := inBox_interior (g := 2) (by decide) hx
      rw [FV.layout_split]
      exact (inBox_snoc hxg.length_eq).2 ⟨hxg, by omega, by omega⟩
    have e := (k3 x hx j hj).1
    rw [vr _ hin, hv' _ hin] at e
    exact Option.some.inj e

end
end QK
