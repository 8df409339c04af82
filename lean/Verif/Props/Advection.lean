import Verif.Spec.Advection
import Verif.Spec.Parallel
import Verif.Proofs.Advection
import Verif.Proofs.Examples
import Verif.Props.Sources
/-
Properties of the advection solver: C37 (its argument check), C57, C62, C69.
-/
namespace QK.Props
open Spec Solve Prog

section
variable {α : Type} [Arith α] {S : VarId → Prop} {m : Mgr α}

/-- **C37** The advection solver. -/
theorem C37_advection (velocity : List α) {ins outs : List VarId} (h : ins.length ≠ 1 ∨ outs.length ≠ 2) (tag : Int) (m : Mgr α) :
    ∃ msg, advection velocity ins outs tag m = .throw msg m := by
  match ins, outs, h with
  | [], _, _ => exact ⟨_, rfl⟩
  | [_], [], _ => exact ⟨_, rfl⟩
  | [_], [_], _ => exact ⟨_, rfl⟩
  | [_], [_, _], h => simp at h
  | [_], _ :: _ :: _ :: _, _ => exact ⟨_, rfl⟩
  | _ :: _ :: _, _, _ => exact ⟨_, rfl⟩

/-- What the advection solver is called with: a variable, two outputs of the same shape, a velocity and a cell width
for every direction. -/
structure Advects (S : VarId → Prop) (m : Mgr α) (q o1 o2 : VarId) (velocity : List α) (v dx : Nat → α) : Prop where
  good : m.Good S
  laid : m.Laid
  known : S q ∧ S o1 ∧ S o2
  points : 1 ≤ q.basis.points
  comps : 1 ≤ q.comps.length
  shape1 : o1.basis.points = q.basis.points ∧ o1.comps.length = q.comps.length
  shape2 : o2.basis.points = q.basis.points ∧ o2.comps.length = q.comps.length
  time : m.time ≠ none
  vel : ∀ d, d < m.grid.rng.dims.length → velocity[d]? = some (v d)
  width : ∀ d : Nat, d < m.grid.rng.dims.length → m.grid.dx d = .ok (dx d)

variable {q o1 o2 : VarId} {velocity : List α} {v dx : Nat → α}

/-- Entering the solver. -/
theorem advection_enter (A : Advects S m q o1 o2 velocity v dx) {t : α} (ht : m.dt = some t) {c0 : Chunk α}
    (h0 : m.contents q = some c0) (tag : Int) :
    ∃ m1 a0 a1 a2, m1.Good S ∧ m1.Laid ∧ m.Extends m1 ∧ m1.contents = m.requested (Arith.lit 0) [o1, o2] ∧
      m1.addr q = some a0 ∧ m1.addr o1 = some a1 ∧ m1.addr o2 = some a2 ∧
      advection velocity [q] [o1, o2] tag m = advectionLoop velocity t a0 a1 a2 tag m1 := by
  obtain ⟨k0, k1, k2⟩ := A.known
  obtain ⟨a0, ha0⟩ := exists_addr A.good h0
  obtain ⟨a1, m1, e1, g1, l1, x1, b1, c1⟩ := outputVar_requested A.good A.laid k1
  obtain ⟨a2, m2, e2, g2, l2, x2, b2, c2⟩ := outputVar_requested g1 l1 k2
  obtain ⟨T, hT⟩ := Option.ne_none_iff_exists'.1 A.time
  refine ⟨m2, a0, a1, a2, g2, l2, x1.trans x2, ?_, x2.addr _ _ (x1.addr _ _ ha0), x2.addr _ _ b1, b2, ?_⟩
  · rw [c2, Mgr.requested_cons _ x1.grid c1]
  · unfold advection
    simp only
    have hdt : dt m = .ok t m := by
      unfold dt; rw [SM.get_bind, ht]; rfl
    have htm : time m = .ok T m := by
      unfold time; rw [SM.get_bind, hT]; rfl
    rw [SM.bind_ok htm, SM.bind_ok hdt, SM.bind_ok (inputVar_existing A.good k0 ha0), SM.bind_ok e1, SM.bind_ok e2]

/-- The shapes of the three variables. -/
theorem Advects.layout (A : Advects S m q o1 o2 velocity v dx) {m1 : Mgr α} (l : m1.Laid) (x : m.Extends m1) {id : VarId}
    (hid : id ∈ [q, o1, o2]) {c : Chunk α} (hc : m1.contents id = some c) :
    c.Layout 2 m.grid.rng.dims [(0, q.basis.points), (0, (q.comps.length : Int))] := by
  have := l id c hc
  rw [x.grid] at this
  simp only [List.mem_cons, List.not_mem_nil, or_false] at hid
  rcases hid with rfl | rfl | rfl
  · exact this
  · rwa [A.shape1.1, A.shape1.2] at this
  · rwa [A.shape2.1, A.shape2.2] at this

omit [Arith α] in
theorem Advects.pos (hp : 1 ≤ q.basis.points) (hc : 1 ≤ q.comps.length) : Pos [(0, q.basis.points), (0, (q.comps.length : Int))] := by
  intro d hd
  simp only [List.mem_cons, List.not_mem_nil, or_false] at hd
  rcases hd with rfl | rfl
  · simp only; omega
  · simp only; omega

/-- Stage 0 on the manager. -/
theorem advection_stage0 (A : Advects S m q o1 o2 velocity v dx) {t : α} (ht : m.dt = some t) (hne : q ≠ o1) {c0 : Chunk α}
    (h0 : m.contents q = some c0) {u : Cell → α} (hu : ∀ y, InBox (m.arrayBox q) y → c0.arr.val y = some (u y)) :
    ∃ m' c1 c', advection velocity [q] [o1, o2] 0 m = .ok () m' ∧ m'.Good S ∧ m'.Laid ∧ m.Extends m' ∧
      m'.contents = Function.update (m.requested (Arith.lit 0) [o1, o2]) o1 (some c') ∧
      c1.Layout 2 m.grid.rng.dims [(0, q.basis.points), (0, (q.comps.length : Int))] ∧
      c'.Layout 2 m.grid.rng.dims [(0, q.basis.points), (0, (q.comps.length : Int))] ∧
      Advection.stage0 t velocity m.grid c0 c1 = .ok c' ∧
      ∀ x, InBox (m.grid.rng.dims ++ [(0, q.basis.points), (0, (q.comps.length : Int))]) x →
        c'.arr.val x = some (advected t v dx m.grid.rng.dims.length u x (u x)) := by
  obtain ⟨m1, a0, a1, a2, g1, l1, x1, k1, b0, b1, b2, e⟩ := advection_enter A ht h0 0
  have d0 : m1.contents q = some c0 := by rw [k1]; exact Mgr.requested_some _ h0 _
  obtain ⟨c1, d1⟩ : ∃ c, m1.contents o1 = some c := by rw [k1]; exact Mgr.requested_mem _ (by simp)
  have y0 := A.layout l1 x1 (by simp) d0
  have y1 := A.layout l1 x1 (by simp) d1
  obtain ⟨c', s1, s2, s3⟩ := Advection.stage0_spec y0 (by decide) A.good.mesh_pos (Advects.pos A.points A.comps) hu (dt := t)
    (velocity := velocity) (grid := m.grid) rfl A.vel A.width y1
  refine ⟨m1.store a1 c', c1, c', ?_, g1.store _ _, Mgr.Laid.store g1 l1 b1 d1 s2, x1.trans (Mgr.store_extends _ _ _), ?_, y1,
    y1.sameShape s2, s1, s3⟩
  · rw [e]
    unfold advectionLoop
    rw [if_pos rfl]
    refine kernelLoop_spec g1 b0 b1 (cs := [c0]) (.cons ⟨q, b0, d0⟩ .nil) d1 ?_
    rw [addr_ne g1 b0 b1 hne, x1.grid]
    exact s1
  · rw [g1.store_contents b1, k1]

/-- Stage 1 on the manager. -/
theorem advection_stage1 (A : Advects S m q o1 o2 velocity v dx) {t : α} (ht : m.dt = some t) (hne : o1 ≠ o2) {c0 c1 : Chunk α}
    (h0 : m.contents q = some c0) {u w : Cell → α} (hu : ∀ y, InBox (m.arrayBox q) y → c0.arr.val y = some (u y))
    (h1 : m.contents o1 = some c1) (hw : ∀ y, InBox (m.arrayBox o1) y → c1.arr.val y = some (w y)) :
    ∃ m' c2 c', advection velocity [q] [o1, o2] 1 m = .ok () m' ∧ m'.Good S ∧ m'.Laid ∧ m.Extends m' ∧
      m'.contents = Function.update (m.requested (Arith.lit 0) [o1, o2]) o2 (some c') ∧
      c2.Layout 2 m.grid.rng.dims [(0, q.basis.points), (0, (q.comps.length : Int))] ∧
      c'.Layout 2 m.grid.rng.dims [(0, q.basis.points), (0, (q.comps.length : Int))] ∧
      Advection.stage1 t velocity m.grid c0 c1 c2 = .ok c' ∧
      ∀ x, InBox (m.grid.rng.dims ++ [(0, q.basis.points), (0, (q.comps.length : Int))]) x →
        c'.arr.val x = some (advected (Arith.lit (1 / 2) * t) v dx m.grid.rng.dims.length w x (Arith.lit (1 / 2) * (u x + w x))) := by
  obtain ⟨m1, a0, a1, a2, g1, l1, x1, k1, b0, b1, b2, e⟩ := advection_enter A ht h0 1
  have d0 : m1.contents q = some c0 := by rw [k1]; exact Mgr.requested_some _ h0 _
  have d1 : m1.contents o1 = some c1 := by rw [k1]; exact Mgr.requested_some _ h1 _
  obtain ⟨c2, d2⟩ : ∃ c, m1.contents o2 = some c := by rw [k1]; exact Mgr.requested_mem _ (by simp)
  have y0 := A.layout l1 x1 (by simp) d0
  have y1 := A.layout l1 x1 (by simp) d1
  have y2 := A.layout l1 x1 (by simp) d2
  unfold Mgr.arrayBox at hw
  rw [A.shape1.1, A.shape1.2] at hw
  obtain ⟨c', s1, s2, s3⟩ := Advection.stage1_spec y0 y1 y2 (by decide) A.good.mesh_pos (Advects.pos A.points A.comps) hu hw (dt := t)
    (velocity := velocity) (grid := m.grid) rfl A.vel A.width
  refine ⟨m1.store a2 c', c2, c', ?_, g1.store _ _, Mgr.Laid.store g1 l1 b2 d2 s2, x1.trans (Mgr.store_extends _ _ _), ?_, y2,
    y2.sameShape s2, s1, s3⟩
  · rw [e]
    unfold advectionLoop
    rw [if_neg (by decide), if_pos rfl]
    refine kernelLoop_spec g1 b0 b2 (cs := [c0, c1]) (.cons ⟨q, b0, d0⟩ (.cons ⟨o1, b1, d1⟩ .nil)) d2 ?_
    rw [addr_ne g1 b1 b2 hne, x1.grid]
    exact s1
  · rw [g1.store_contents b2, k1]

/-! ## C69 -/

/-- The cells of the mesh, with the basis points and components of a variable. -/
def _root_.QK.Mgr.innerBox (m : Mgr α) (id : VarId) : Box := m.grid.rng.dims ++ [(0, id.basis.points), (0, (id.comps.length : Int))]

/-- A field from the values of an array. -/
theorem exists_field {c : Chunk α} {m : Mgr α} {id : VarId} (hl : c.Layout 2 m.grid.rng.dims [(0, id.basis.points), (0, (id.comps.length : Int))]) :
    ∃ w : Cell → α, ∀ y, InBox (m.arrayBox id) y → c.arr.val y = some (w y) := by
  refine ⟨fun y => (c.arr.val y).getD (Arith.lit 0), fun y hy => ?_⟩
  have hb : c.arr.rng.dims = m.arrayBox id := hl.dims
  obtain ⟨r, hr⟩ := IFace.val_isSome hl.wf (by rw [hb]; unfold Mgr.arrayBox; simp) (by rw [hb]; exact hy)
  simp [hr]

/-- **C69** The first stage: in every cell of the mesh the output is the input after the exchange of limited upwind fluxes in
all directions. No other variable that exists is changed. -/
theorem C69_stage0 (A : Advects S m q o1 o2 velocity v dx) {t : α} (ht : m.dt = some t) (hne : q ≠ o1) {u : Cell → α}
    (hu : m.Stores q u) :
    ∃ m' w, advection velocity [q] [o1, o2] 0 m = .ok () m' ∧ m'.Good S ∧ m'.Laid ∧ m.Extends m' ∧
      (∀ id, id ≠ o1 → m'.contents id = m.requested (Arith.lit 0) [o1, o2] id) ∧ m'.Stores o1 w ∧
      ∀ x, InBox (m.innerBox q) x → w x = advected t v dx m.grid.rng.dims.length u x (u x) := by
  obtain ⟨c0, h0, hv⟩ := hu
  obtain ⟨m', c1, c', k1, k2, k3, k4, k5, _, k6, _, k7⟩ := advection_stage0 A ht hne h0 hv
  have hc : m'.contents o1 = some c' := by rw [k5, Function.update_self]
  obtain ⟨w, hw⟩ := exists_field (k3 _ _ hc)
  refine ⟨m', w, k1, k2, k3, k4, fun id hid => by rw [k5, Function.update_of_ne hid], ⟨c', hc, hw⟩, ?_⟩
  intro x hx
  have hxg := inBox_interior (by decide : (0:Int) ≤ 2) hx
  have := hw x (by unfold Mgr.arrayBox; rw [k4.grid, A.shape1.1, A.shape1.2]; exact hxg)
  rw [k7 x hx] at this
  exact (Option.some.inj this).symm

/-- **C69** The second stage: the average of the input and the result of the first stage, after the exchange of the fluxes of the
latter over half the time step. The output may be the input variable. -/
theorem C69_stage1 (A : Advects S m q o1 o2 velocity v dx) {t : α} (ht : m.dt = some t) (hne : o1 ≠ o2) {u w : Cell → α}
    (hu : m.Stores q u) (hw : m.Stores o1 w) :
    ∃ m' z, advection velocity [q] [o1, o2] 1 m = .ok () m' ∧ m'.Good S ∧ m'.Laid ∧ m.Extends m' ∧
      (∀ id, id ≠ o2 → m'.contents id = m.contents id) ∧ m'.Stores o2 z ∧
      ∀ x, InBox (m.innerBox q) x → z x = advected (Arith.lit (1 / 2) * t) v dx m.grid.rng.dims.length w x
        (Arith.lit (1 / 2) * (u x + w x)) := by
  obtain ⟨c0, h0, hv⟩ := hu
  obtain ⟨c1, h1, hv1⟩ := hw
  obtain ⟨m', c2, c', k1, k2, k3, k4, k5, _, k6, _, k7⟩ := advection_stage1 A ht hne h0 hv h1 hv1
  have hc : m'.contents o2 = some c' := by rw [k5, Function.update_self]
  obtain ⟨z, hz⟩ := exists_field (k3 _ _ hc)
  refine ⟨m', z, k1, k2, k3, k4, fun id hid => ?_, ⟨c', hc, hz⟩, ?_⟩
  · rw [k5, Function.update_of_ne hid]
    unfold Mgr.requested
    cases hi : m.contents id with
    | some c => rfl
    | none =>
      simp only
      rw [if_neg]
      simp only [List.mem_cons, List.not_mem_nil, or_false, not_or]
      exact ⟨fun e => by rw [e, h1] at hi; exact absurd hi (by simp), hid⟩
  · intro x hx
    have hxg := inBox_interior (by decide : (0:Int) ≤ 2) hx
    have := hz x (by unfold Mgr.arrayBox; rw [k4.grid, A.shape2.1, A.shape2.2]; exact hxg)
    rw [k7 x hx] at this
    exact (Option.some.inj this).symm

end

/-- On a linear profile of slope `b` the exchange in one direction moves the profile by `dt v`, for either sign of the
velocity. -/
theorem upwind_linear {dt v d a b r : ℝ} (ht : 0 ≤ dt) (hd : 0 < d) :
    upwind (Arith.fabs (dt * v / d)) (Arith.lt (Arith.lit 0) v) (fun k => a + b * (k : ℝ)) r = r - dt * v / d * b := by
  have key : ∀ c x y z : ℝ, y - x = z - y → limitedFlux c x y z = c * (y + (z - y) / 2) := by
    intro c x y z h
    unfold limitedFlux
    simp only [real_feq, real_lit]
    by_cases e : z = y
    · subst e
      have : x = z := by linarith
      subst this
      simp
    · rw [if_neg (by simpa using e)]
      have : (y - x) / (z - y) = 1 := by
        rw [h, div_self (sub_ne_zero.2 e)]
      rw [this]
      have : z - x = 2 * (z - y) := by linarith
      rw [this]; push_cast; ring
  unfold upwind
  simp only [real_fabs, real_lt, real_lit]
  rw [key _ _ _ _ (by push_cast; ring), key _ _ _ _ (by push_cast; ring), key _ _ _ _ (by push_cast; ring), key _ _ _ _ (by push_cast; ring)]
  by_cases c : 0 < v
  · have : |dt * v / d| = dt * v / d := abs_of_nonneg (by positivity)
    simp [c, this]; ring
  · have : |dt * v / d| = -(dt * v / d) := by
      refine abs_of_nonpos (div_nonpos_of_nonpos_of_nonneg ?_ hd.le)
      exact mul_nonpos_of_nonneg_of_nonpos ht (not_lt.1 c)
    simp [c, this]; ring

/-- **C69** In exact arithmetic a field that is linear around a cell is advected exactly: every direction subtracts
`dt v` times the slope per width. In particular a uniform field is not changed, and the transport has the sign of the
velocity. -/
theorem C69_linear {dt : ℝ} (ht : 0 ≤ dt) {v dx b : Nat → ℝ} {n : Nat} (hd : ∀ d < n, 0 < dx d) {u : Cell → ℝ} {x : Cell}
    (hu : ∀ d < n, ∀ k : Int, -2 ≤ k → k ≤ 2 → u (moveBy x d k) = u x + b d * k) (r : ℝ) :
    advected dt v dx n u x r = r - ((List.range n).map fun d => dt * v d / dx d * b d).sum := by
  unfold advected
  have key : ∀ (l : List Nat), (∀ d ∈ l, d < n) → ∀ r : ℝ,
      l.foldl (fun r dim => upwind (Arith.fabs (dt * v dim / dx dim)) (Arith.lt (Arith.lit 0) (v dim))
        (fun k => u (moveBy x dim k)) r) r = r - (l.map fun d => dt * v d / dx d * b d).sum := by
    intro l
    induction l with
    | nil => intro _ r; simp
    | cons d l ih =>
      intro hl r
      have hdn := hl d List.mem_cons_self
      rw [List.foldl_cons, ih (fun d' h' => hl d' (List.mem_cons_of_mem _ h'))]
      have : upwind (Arith.fabs (dt * v d / dx d)) (Arith.lt (Arith.lit 0) (v d)) (fun k => u (moveBy x d k)) r =
          upwind (Arith.fabs (dt * v d / dx d)) (Arith.lt (Arith.lit 0) (v d)) (fun k => u x + b d * (k : ℝ)) r := by
        unfold upwind
        simp only [hu d hdn _ (by decide : (-2:Int) ≤ -2) (by decide), hu d hdn _ (by decide : (-2:Int) ≤ -1) (by decide),
          hu d hdn _ (by decide : (-2:Int) ≤ 0) (by decide), hu d hdn _ (by decide : (-2:Int) ≤ 1) (by decide),
          hu d hdn _ (by decide : (-2:Int) ≤ 2) (by decide)]
      rw [this, upwind_linear ht (hd d hdn), List.map_cons, List.sum_cons]
      ring
  exact key _ (fun d h => List.mem_range.1 h) r

/-! ## C62 -/

section
variable {S : VarId → Prop} {m : Mgr ℝ} {q o1 o2 : VarId} {velocity : List ℝ} {v dx : Nat → ℝ}

/-- **C62** The first stage keeps the sum over the chunk. -/
theorem C62_stage0 (A : Advects S m q o1 o2 velocity v dx) {t : ℝ} (ht : m.dt = some t) (hne : q ≠ o1) {c0 : Chunk ℝ}
    (h0 : m.contents q = some c0) :
    ∃ m' c', advection velocity [q] [o1, o2] 0 m = .ok () m' ∧ m'.contents o1 = some c' ∧
      c'.arr.data.sum = c0.arr.data.sum := by
  have y0 := A.laid _ _ h0
  obtain ⟨u, hu⟩ := exists_field y0
  obtain ⟨m', c1, c', k1, _, _, _, k5, k6, _, k7, _⟩ := advection_stage0 A ht hne h0 hu
  exact ⟨m', c', k1, by rw [k5, Function.update_self], Advection.stage0_sum y0 (by decide) A.good.mesh_pos
    (Advects.pos A.points A.comps) hu rfl A.vel A.width k6 k7⟩

/-- **C62** The second stage gives the average of the sums. -/
theorem C62_stage1 (A : Advects S m q o1 o2 velocity v dx) {t : ℝ} (ht : m.dt = some t) (hne : o1 ≠ o2) {c0 c1 : Chunk ℝ}
    (h0 : m.contents q = some c0) (h1 : m.contents o1 = some c1) :
    ∃ m' c', advection velocity [q] [o1, o2] 1 m = .ok () m' ∧ m'.contents o2 = some c' ∧
      c'.arr.data.sum = 1 / 2 * (c0.arr.data.sum + c1.arr.data.sum) := by
  have y0 := A.laid _ _ h0
  have y1 := A.layout A.laid ⟨rfl, rfl, rfl, fun _ _ h => h⟩ (by simp) h1
  obtain ⟨u, hu⟩ := exists_field y0
  obtain ⟨w, hw⟩ := exists_field (A.laid _ _ h1)
  obtain ⟨m', c2, c', k1, _, _, _, k5, k6, _, k7, _⟩ := advection_stage1 A ht hne h0 hu h1 hw
  unfold Mgr.arrayBox at hw
  rw [A.shape1.1, A.shape1.2] at hw
  exact ⟨m', c', k1, by rw [k5, Function.update_self], Advection.stage1_sum y0 y1 k6 (by decide) A.good.mesh_pos
    (Advects.pos A.points A.comps) hw rfl A.vel A.width k7⟩

end

/-! ## C57 -/

section
variable {α : Type} [Arith α]

/-- Steps of one iteration while the others wait. -/
inductive Moves : Prog α Unit × Mem α → Prog α Unit × Mem α → Prop
  | refl (c) : Moves c c
  | rd {l k m v c} (h : m l = some v) (t : Moves (k v, m) c) : Moves (.rd l k, m) c
  | wr {l v k m c} (h : (m l).isSome) (t : Moves (k, Function.update m l (some v)) c) : Moves (.wr l v k, m) c

omit [Arith α] in
theorem Moves.steps {c c' : Prog α Unit × Mem α} (h : Moves c c') (pre post : List (Prog α Unit)) :
    Relation.ReflTransGen Step (pre ++ c.1 :: post, c.2) (pre ++ c'.1 :: post, c'.2) := by
  induction h with
  | refl => exact .refl
  | rd h _ ih => exact .head (Step.rd h) ih
  | wr h _ ih => exact .head (Step.wr h) ih

omit [Arith α] in
theorem Moves.steps_at {c c' : Prog α Unit × Mem α} (h : Moves c c') {ps : List (Prog α Unit)} {i : Nat} (hi : ps[i]? = some c.1) :
    Relation.ReflTransGen Step (ps, c.2) (ps.set i c'.1, c'.2) := by
  obtain ⟨hlt, hx⟩ := List.getElem?_eq_some_iff.1 hi
  have e : ps = ps.take i ++ c.1 :: ps.drop (i + 1) := by
    rw [← hx, List.getElem_cons_drop, List.take_append_drop]
  have e' : ps.set i c'.1 = ps.take i ++ c'.1 :: ps.drop (i + 1) := by
    rw [List.set_eq_take_append_cons_drop, if_pos hlt]
  have := h.steps (ps.take i) (ps.drop (i + 1))
  rw [← e, ← e'] at this
  exact this

omit [Arith α] in
/-- Two iterations that can reach conflicting accesses race. -/
theorem two_race {p q p' q' : Prog α Unit} {m m1 : Mem α} {l : Loc} {a b : Bool} (hp : Moves (p, m) (p', m))
    (hq : Moves (q, m) (q', m1)) (np : p'.next = some (l, a)) (nq : q'.next = some (l, b)) (hab : a = true ∨ b = true)
    {ps : List (Prog α Unit)} {i j : Nat} (hij : i ≠ j) (hi : ps[i]? = some p) (hj : ps[j]? = some q) :
    ∃ ps' m', Relation.ReflTransGen Step (ps, m) (ps', m') ∧ Race ps' := by
  have s1 := hp.steps_at (ps := ps) hi
  have hj' : (ps.set i p')[j]? = some q := by rw [List.getElem?_set_ne hij]; exact hj
  have s2 := hq.steps_at (ps := ps.set i p') hj'
  refine ⟨_, _, s1.trans s2, i, j, p', q', l, a, b, hij, ?_, ?_, np, nq, hab⟩
  · simp only []
    rw [List.getElem?_set_ne hij.symm, List.getElem?_set_self (List.getElem?_eq_some_iff.1 hi).1]
  · simp only []
    rw [List.getElem?_set_self (by simpa using (List.getElem?_eq_some_iff.1 hj).1)]

/-- Two iterations that are one stride apart can race, in any loop that contains both. -/
theorem iteration_race {coeff : α} {s e : Int} (hs : s ≠ 0) {m : Mem α} {A : Int → α} (h1 : Advection.Ready m A s e)
    (h2 : Advection.Ready m A s (e + s)) {ps : List (Prog α Unit)} {i j : Nat}
    (hi : ps[i]? = some (Advection.iteration coeff s (e + s))) (hj : ps[j]? = some (Advection.iteration coeff s e)) (hij : i ≠ j) :
    ∃ ps' m', Relation.ReflTransGen Step (ps, m) (ps', m') ∧ Race ps' := by
  obtain ⟨x, hx⟩ := Option.isSome_iff_exists.1 h1.2.2.2.1
  obtain ⟨y, hy⟩ := Option.isSome_iff_exists.1 h1.2.2.2.2
  have hne : ((1, e) : Loc) ≠ (1, e - s) := by
    intro h; have := (Prod.ext_iff.1 h).2; simp only at this; omega
  refine two_race (l := (1, e)) (a := false) (b := true) (.rd h2.1 (.rd h2.2.1 (.rd h2.2.2.1 (.refl _))))
    (.rd h1.1 (.rd h1.2.1 (.rd h1.2.2.1 (.rd hx (.wr (by rw [hx]; rfl) (.rd (v := y) (by rw [Function.update_of_ne hne, hy]) (.refl _)))))))
    ?_ rfl (.inr rfl) hij hi hj
  show some (((1, e + s - s) : Loc), false) = _
  rw [show e + s - s = e by omega]

/-- The iterations of one direction. -/
theorem sweep_get {g : Int} {M D : Box} {a : Chunk α} (ha : a.Layout g M D) {dim : Nat}
    (hd : dim < M.length) {dt v d : α} {velocity : List α} {grid : Rectilinear α} (hv : velocity[dim]? = some v)
    (hdx : grid.dx dim = .ok d) {ps : List (Prog α Unit)} (h : Advection.sweep dt velocity grid a dim = .ok ps) :
    ∃ c, if Arith.lt (Arith.lit 0) v then
        ps = Advection.iterate (2 * boxVolume ((grow g M ++ D).drop (dim + 1))) (a.arr.data.length - 1) (boxVolume ((grow g M ++ D).drop (dim + 1))) c
      else ps = Advection.iterate 0 (a.arr.data.length - 2 * boxVolume ((grow g M ++ D).drop (dim + 1)))
        (-boxVolume ((grow g M ++ D).drop (dim + 1))) c := by
  have hvol : a.arr.rng.volume = a.arr.data.length := ha.wf.2.symm
  unfold Advection.sweep at h
  rw [vget_of_getElem? hv, Res.ok_bind, Advection.stride_eq ha hd, Res.ok_bind, hdx, Res.ok_bind] at h
  refine ⟨Arith.fabs (dt * v / d), ?_⟩
  simp only [hvol] at h
  split
  · next c => rw [if_pos c] at h; cases h; rfl
  · next c => rw [if_neg c] at h; cases h; rfl

/-- **C57** is false, for every mesh, every velocity and every direction: the loop of `advection_iterate` always has two iterations
that can reach conflicting accesses to the same element, which is a data race. -/
theorem C57_race_false {g : Int} {M D : Box} {a b : Chunk α} (ha : a.Layout g M D) (hb : b.Layout g M D) (hg : 2 ≤ g) (hM : Pos M)
    (hD : Pos D) {dim : Nat} (hd : dim < M.length) {dt v d : α} {velocity : List α} {grid : Rectilinear α}
    (hv : velocity[dim]? = some v) (hdx : grid.dx dim = .ok d) :
    ∃ ps, Advection.sweep dt velocity grid a dim = .ok ps ∧
      (∃ ps' m', Relation.ReflTransGen Step (ps, Mem.of [a.arr.data, b.arr.data]) (ps', m') ∧ Race ps') ∧
      ¬ ∃ m', ParallelSafe ps (Mem.of [a.arr.data, b.arr.data]) m' := by
  have hP : Pos (grow g M ++ D) := by rw [pos_append]; exact ⟨Advection.pos_grow (by omega) hM, hD⟩
  obtain ⟨S, hS⟩ : ∃ S, S = boxVolume ((grow g M ++ D).drop (dim + 1)) := ⟨_, rfl⟩
  have hS0 : 0 < S := by rw [hS]; exact boxVolume_pos (Advection.pos_drop hP _)
  -- the array has at least five layers in this direction
  have hlen : 5 * S ≤ a.arr.data.length := by
    have hlt : dim < (grow g M ++ D).length := by simp [grow]; omega
    have e : grow g M ++ D = (grow g M ++ D).take dim ++ (grow g M ++ D)[dim] :: (grow g M ++ D).drop (dim + 1) := by
      rw [List.getElem_cons_drop, List.take_append_drop]
    have hv : (a.arr.data.length : Int) = boxVolume (grow g M ++ D) := by
      rw [ha.arr_size, ha.arr_range, Range.volume_setup (by intro h; simp [grow] at h; simp [h.1] at hd)]
    have ht : 0 < boxVolume ((grow g M ++ D).take dim) := boxVolume_pos fun x hx => hP x (List.mem_of_mem_take hx)
    have hext : 5 ≤ ((grow g M ++ D)[dim]).2 - ((grow g M ++ D)[dim]).1 := by
      have := hM _ (List.getElem_mem hd)
      rw [List.getElem_append_left (by simpa [grow] using hd)]
      simp only [grow, List.getElem_map]
      omega
    rw [hv]
    rw [e, boxVolume_append, boxVolume_cons, ← hS]
    calc 5 * S ≤ 1 * ((((grow g M ++ D)[dim]).2 - ((grow g M ++ D)[dim]).1) * S) := by rw [one_mul]; exact mul_le_mul_of_nonneg_right hext hS0.le
      _ ≤ _ := mul_le_mul_of_nonneg_right (by omega) (by positivity)
  suffices h : ∃ ps, Advection.sweep dt velocity grid a dim = .ok ps ∧
      ∃ ps' m', Relation.ReflTransGen Step (ps, Mem.of [a.arr.data, b.arr.data]) (ps', m') ∧ Race ps' by
    obtain ⟨ps, h1, ps', m', h2, h3⟩ := h
    exact ⟨ps, h1, ⟨ps', m', h2, h3⟩, fun ⟨m1, hs⟩ => hs.raceFree _ _ h2 h3⟩
  obtain ⟨u, hu⟩ : ∃ u : Cell → α, ∀ y, InBox (grow g M ++ D) y → a.arr.val y = some (u y) := by
    refine ⟨fun y => (a.arr.val y).getD (Arith.lit 0), fun y hy => ?_⟩
    obtain ⟨r, hr⟩ := IFace.val_isSome ha.wf (by rw [ha.dims]; intro e; simp [grow] at e; simp [e.1] at hd) (by rw [ha.dims]; exact hy)
    simp [hr]
  obtain ⟨_, _, _, _, _, h2, _⟩ := Advection.sweep_mem ha hb hg hM hD hd hu (dt := dt) hv hdx
  refine ⟨_, h2, ?_⟩
  obtain ⟨c, hc⟩ := sweep_get ha hd hv hdx h2
  rw [← hS] at hc
  have get : ∀ (start stop s : Int) (k : Nat), start + k < stop →
      (Advection.iterate start stop s c)[k]? = some (Advection.iteration c s (start + k)) := by
    intro start stop s k hk
    unfold Advection.iterate Advection.indices
    simp only [List.getElem?_map, List.getElem?_range (show k < (stop - start).toNat by omega), Option.map_some]
  by_cases hp : Arith.lt (Arith.lit 0) v = true
  · rw [if_pos hp] at hc
    rw [hc]
    refine iteration_race (e := 2 * S) (s := S) (coeff := c) (by omega)
      (Advection.ready ha hb (by omega) (by omega) (by omega) (by omega) (by omega) (by omega))
      (Advection.ready ha hb (by omega) (by omega) (by omega) (by omega) (by omega) (by omega)) (i := S.toNat) (j := 0) ?_ ?_ (by omega)
    · rw [get _ _ _ _ (by omega), Int.toNat_of_nonneg hS0.le]
    · rw [get _ _ _ _ (by omega)]; simp
  · rw [if_neg hp] at hc
    rw [hc]
    refine iteration_race (e := S) (s := -S) (coeff := c) (by omega)
      (Advection.ready ha hb (by omega) (by omega) (by omega) (by omega) (by omega) (by omega))
      (Advection.ready ha hb (by omega) (by omega) (by omega) (by omega) (by omega) (by omega)) (i := 0) (j := S.toNat) ?_ ?_ (by omega)
    · rw [get _ _ _ _ (by omega)]; simp
    · rw [get _ _ _ _ (by omega), Int.toNat_of_nonneg hS0.le, zero_add]

/-- **C57**, as far as it holds: a loop over at most `|s|` elements has no conflicts, and every interleaving gives the
sequential result. Missing: the loops of the solver, which are longer (`C57_race_false`). -/
theorem C57_partial {coeff : α} {start stop s : Int} (h : stop - start ≤ |s|) {m m' : Mem α}
    (hr : runAll (Advection.iterate start stop s coeff) m = .ok m') :
    ParallelSafe (Advection.iterate start stop s coeff) m m' := by
  have hw : ∀ i, (Advection.iteration coeff s i).Within (fun l => l.1 = 0) (fun l => l = (1, i - s) ∨ l = (1, i)) := by
    intro i
    unfold Advection.iteration
    exact ⟨.inl rfl, fun _ => ⟨.inl rfl, fun _ => ⟨.inl rfl, fun _ => ⟨.inr (.inl rfl), fun _ => ⟨.inl rfl, ⟨.inr (.inr rfl),
      fun _ => ⟨.inr rfl, trivial⟩⟩⟩⟩⟩⟩⟩
  have hf : List.Forall₂ (fun (p : Prog α Unit) (f : Foot) => p.Within f.1 f.2) (Advection.iterate start stop s coeff)
      ((Advection.indices start stop).map fun i => ((fun l : Loc => l.1 = 0), (fun l : Loc => l = (1, i - s) ∨ l = (1, i)))) := by
    unfold Advection.iterate
    rw [List.forall₂_map_left_iff, List.forall₂_map_right_iff, List.forall₂_same]
    intro i _; exact hw i
  have hsep : ∀ i j : Int, i ≠ j → |i - j| < |s| → ∀ l : Loc, l = (1, i - s) ∨ l = (1, i) → ¬ l.1 = 0 ∧ ¬ (l = (1, j - s) ∨ l = (1, j)) := by
    intro i j hij hlt l hl
    have h1 : i - j < |s| ∧ -(i - j) < |s| := ⟨(le_abs_self _).trans_lt hlt, (neg_le_abs _).trans_lt hlt⟩
    rcases abs_cases s with ⟨e, _⟩ | ⟨e, _⟩ <;> rw [e] at h1 <;>
      rcases hl with rfl | rfl <;> simp only [Prod.mk.injEq, true_and] <;> omega
  have hs : ((Advection.indices start stop).map fun i => ((fun l : Loc => l.1 = 0), (fun l : Loc => l = (1, i - s) ∨ l = (1, i)))).Pairwise Sep := by
    rw [List.pairwise_map]
    unfold Advection.indices
    rw [List.pairwise_map]
    refine List.pairwise_lt_range.imp_of_mem ?_
    intro i j hi hj hij
    rw [List.mem_range] at hi hj
    have hlt : |(start + (i : Int)) - (start + j)| < |s| := by
      rw [abs_lt]; omega
    refine ⟨hsep _ _ (by omega) hlt, hsep _ _ (by omega) (by rw [abs_sub_comm]; exact hlt)⟩
  exact {
    defined := fun ps' m1 h => (interleave hf hs hr h).1
    raceFree := fun ps' m1 h => (interleave hf hs hr h).2.1
    result := fun ps' m1 h => (interleave hf hs hr h).2.2.1
    progress := fun ps' m1 h => (interleave hf hs hr h).2.2.2
    terminates := step_acc _ }

end

/-- One cell with two ghost cells on both sides, all 1, and the loop of the solver for velocity, time step and width 1. -/
noncomputable def exLoop : List (Prog ℝ Unit) := Advection.iterate 2 4 1 1

theorem exFlux : Advection.dflux (1 : ℝ) 1 1 1 = 1 := by
  unfold Advection.dflux
  simp [real_feq, real_lit]

theorem mem_of_update {α : Type} {a b b' : List α} {i : Nat} {l : Int} (v : α) (hl : l = i) (hi : i < b.length) (e : b' = b.set i v) :
    Function.update (Mem.of [a, b]) (1, l) (some v) = Mem.of [a, b'] := by
  subst e hl
  funext k
  obtain ⟨n, j⟩ := k
  by_cases h : (n, j) = (1, (i : Int))
  · obtain ⟨rfl, rfl⟩ := Prod.ext_iff.1 h
    rw [Function.update_self]
    simp [Mem.of, hi]
  · rw [Function.update_of_ne h]
    match n with
    | 0 => rfl
    | 1 =>
      simp only [Mem.of, List.getElem?_cons_succ, List.getElem?_cons_zero, Option.bind_some]
      split
      · rfl
      · rw [List.getElem?_set_ne]
        intro e; apply h; rw [Prod.mk.injEq]; omega
    | n + 2 => rfl

/-- **C57** is false, with a wrong result: the two iterations of this loop can be executed such that the middle element is 0
instead of 1 and the sum is 4 instead of 5, although the field is uniform. One update is lost. -/
theorem C57_lost_update_false :
    runAll exLoop (Mem.of [[1, 1, 1, 1, 1], [1, 1, 1, 1, 1]]) = .ok (Mem.of [[1, 1, 1, 1, 1], [1, 0, 1, 2, 1]]) ∧
    ∃ ps', Relation.ReflTransGen Step (exLoop, Mem.of [[1, 1, 1, 1, 1], [1, 1, 1, 1, 1]])
      (ps', Mem.of [[1, 1, 1, 1, 1], [1, 0, 0, 2, 1]]) ∧ Done ps' := by
  have hl : exLoop = [Advection.iteration 1 1 2, Advection.iteration 1 1 3] := rfl
  have h11 : (1:ℝ) - 1 = 0 := sub_self 1
  have h12 : (1:ℝ) + 1 = 2 := by norm_num
  have h21 : (2:ℝ) - 1 = 1 := by norm_num
  have rd0 : ∀ (b : List ℝ) (i : Nat), i < 5 → Mem.of [[1, 1, 1, 1, 1], b] (0, (i : Int)) = some 1 := by
    intro b i hi
    match i, hi with
    | 0, _ => rfl
    | 1, _ => rfl
    | 2, _ => rfl
    | 3, _ => rfl
    | 4, _ => rfl
  -- the memories of the wrong execution
  have u1 : Function.update (Mem.of [[1, 1, 1, 1, 1], [1, 1, 1, 1, 1]]) (1, 2 - 1) (some ((1:ℝ) - Advection.dflux 1 1 1 1)) =
      Mem.of [[1, 1, 1, 1, 1], [1, 0, 1, 1, 1]] := mem_of_update (i := 1) _ rfl (by simp) (by rw [exFlux, h11]; rfl)
  have u2 : Function.update (Mem.of [[1, 1, 1, 1, 1], [1, 0, 1, 1, 1]]) (1, 2) (some ((1:ℝ) + Advection.dflux 1 1 1 1)) =
      Mem.of [[1, 1, 1, 1, 1], [1, 0, 2, 1, 1]] := mem_of_update (i := 2) _ rfl (by simp) (by rw [exFlux, h12]; rfl)
  have u3 : Function.update (Mem.of [[1, 1, 1, 1, 1], [1, 0, 2, 1, 1]]) (1, 3 - 1) (some ((1:ℝ) - Advection.dflux 1 1 1 1)) =
      Mem.of [[1, 1, 1, 1, 1], [1, 0, 0, 1, 1]] := mem_of_update (i := 2) _ rfl (by simp) (by rw [exFlux, h11]; rfl)
  have u4 : Function.update (Mem.of [[1, 1, 1, 1, 1], [1, 0, 0, 1, 1]]) (1, 3) (some ((1:ℝ) + Advection.dflux 1 1 1 1)) =
      Mem.of [[1, 1, 1, 1, 1], [1, 0, 0, 2, 1]] := mem_of_update (i := 3) _ rfl (by simp) (by rw [exFlux, h12]; rfl)
  -- those of the sequential one
  have w3 : Function.update (Mem.of [[1, 1, 1, 1, 1], [1, 0, 2, 1, 1]]) (1, 3 - 1) (some ((2:ℝ) - Advection.dflux 1 1 1 1)) =
      Mem.of [[1, 1, 1, 1, 1], [1, 0, 1, 1, 1]] := mem_of_update (i := 2) _ rfl (by simp) (by rw [exFlux, h21]; rfl)
  have w4 : Function.update (Mem.of [[1, 1, 1, 1, 1], [1, 0, 1, 1, 1]]) (1, 3) (some ((1:ℝ) + Advection.dflux 1 1 1 1)) =
      Mem.of [[1, 1, 1, 1, 1], [1, 0, 1, 2, 1]] := mem_of_update (i := 3) _ rfl (by simp) (by rw [exFlux, h12]; rfl)
  rw [hl]
  constructor
  · have r1 := Advection.iteration_run (coeff := (1:ℝ)) (s := 1) (i := 2) (by decide) (m := Mem.of [[1, 1, 1, 1, 1], [1, 1, 1, 1, 1]])
      (A := fun _ => 1) (x := 1) (y := 1) rfl rfl rfl rfl rfl
    have r2 := Advection.iteration_run (coeff := (1:ℝ)) (s := 1) (i := 3) (by decide) (m := Mem.of [[1, 1, 1, 1, 1], [1, 0, 2, 1, 1]])
      (A := fun _ => 1) (x := 2) (y := 1) rfl rfl rfl rfl rfl
    simp only [Advection.fluxAt] at r1 r2
    rw [u1, u2] at r1
    rw [w3, w4] at r2
    rw [runAll_cons, r1, Res.ok_bind, runAll_cons, r2, Res.ok_bind]
    rfl
  · refine ⟨[.ret (), .ret ()], ?_, by intro p hp; simpa using hp⟩
    -- the second iteration reads element 2, the first one runs, the second one writes
    have s1 : Moves (Advection.iteration (1:ℝ) 1 3, Mem.of [[1, 1, 1, 1, 1], [1, 1, 1, 1, 1]])
        (.wr (1, 3 - 1) (1 - Advection.dflux 1 1 1 1) (.rd (1, 3) fun y => .wr (1, 3) (y + Advection.dflux 1 1 1 1) (.ret ())),
          Mem.of [[1, 1, 1, 1, 1], [1, 1, 1, 1, 1]]) :=
      .rd (v := 1) (rd0 _ 2 (by decide)) (.rd (v := 1) (rd0 _ 1 (by decide)) (.rd (v := 1) (rd0 _ 3 (by decide))
        (.rd (v := 1) rfl (.refl _))))
    have s2 : Moves (Advection.iteration (1:ℝ) 1 2, Mem.of [[1, 1, 1, 1, 1], [1, 1, 1, 1, 1]])
        (.ret (), Mem.of [[1, 1, 1, 1, 1], [1, 0, 2, 1, 1]]) := by
      refine .rd (v := 1) (rd0 _ 1 (by decide)) (.rd (v := 1) (rd0 _ 0 (by decide)) (.rd (v := 1) (rd0 _ 2 (by decide))
        (.rd (v := 1) rfl (.wr rfl ?_))))
      rw [u1]
      refine .rd (v := 1) rfl (.wr rfl ?_)
      rw [u2]
      exact .refl _
    have s3 : Moves (.wr (1, 3 - 1) (1 - Advection.dflux 1 1 1 1) (.rd (1, 3) fun y => .wr (1, 3) (y + Advection.dflux 1 1 1 1) (.ret ())),
        Mem.of [[1, 1, 1, 1, 1], [1, 0, 2, 1, 1]]) (.ret (), Mem.of [[(1:ℝ), 1, 1, 1, 1], [1, 0, 0, 2, 1]]) := by
      refine .wr rfl ?_
      rw [u3]
      refine .rd (v := 1) rfl (.wr rfl ?_)
      rw [u4]
      exact .refl _
    exact ((s1.steps [Advection.iteration (1:ℝ) 1 2] []).trans (s2.steps [] _)).trans (s3.steps [.ret ()] [])

/-! ## Examples -/

/-- A variable with one component and two outputs. -/
def exScalar (s : String) : VarId := ⟨s, ["c"], Basis.volumeAverage⟩
def exScalarIds : List VarId := [exScalar "n", exScalar "n1", exScalar "n2"]

theorem exScalar_consistent : Mgr.Consistent (· ∈ exScalarIds) := by
  intro a b ha hb hn
  simp [exScalarIds, exScalar] at ha hb
  rcases ha with rfl | rfl | rfl <;> rcases hb with rfl | rfl | rfl <;> first | rfl | (simp at hn)

/-- A manager on a 3 × 2 grid with widths 1/3 and 1/2, any field, velocity (2, -1); no output exists yet. -/
theorem exScalar_manager (u : Cell → ℝ) : ∃ m : Mgr ℝ,
    Advects (· ∈ exScalarIds) m (exScalar "n") (exScalar "n1") (exScalar "n2") [2, -1] (fun d => if d = 0 then 2 else -1)
      (fun d => if d = 0 then 1 / 3 else 1 / 2) ∧
    m.grid.rng = Range.setup [(0,3),(0,2)] ∧ m.dt = some (1 / 10) ∧ m.Stores (exScalar "n") u := by
  obtain ⟨m, h1, h2, h3, h4, h5, h6, h7⟩ := Mgr.exists_manager exScalar_consistent (fun id h => by
      simp [exScalarIds, exScalar] at h; rcases h with rfl | rfl | rfl <;> simp [Basis.volumeAverage])
    (⟨Range.setup [(0,3),(0,2)], [0,0], [1,1], [1/3,1/2]⟩ : Rectilinear ℝ) (by decide) (by decide) (1/10) 0 (fun _ => u)
    (ids := [exScalar "n"]) (by intro id h; simp [exScalarIds] at h ⊢; tauto) (by simp [exScalar])
  refine ⟨m, ⟨h1, h2, by simp [exScalarIds], by decide, by decide, ⟨rfl, rfl⟩, ⟨rfl, rfl⟩, by rw [h5]; simp, ?_, ?_⟩, by rw [h3], h4, h6 _ (by simp)⟩
  · intro d hd
    rw [h3] at hd
    match d, hd with
    | 0, _ => rfl
    | 1, _ => rfl
  · intro d hd
    rw [h3] at hd ⊢
    match d, hd with
    | 0, _ => simp [Rectilinear.dx, vget]
    | 1, _ => simp [Rectilinear.dx, vget]

-- the field `x + 10 y` moves by (2, -1) / 10
example : ∃ (m m' : Mgr ℝ) (w : Cell → ℝ), m.Stores (exScalar "n") (fun x => (x.getD 0 0 : ℝ) + 10 * (x.getD 1 0 : ℝ)) ∧
    advection [2, -1] [exScalar "n"] [exScalar "n1", exScalar "n2"] 0 m = .ok () m' ∧ m'.Stores (exScalar "n1") w ∧
    w [2, 1, 0, 0] = 12 - (1 / 10 * 2 / (1 / 3) * 1 + 1 / 10 * (-1) / (1 / 2) * 10) := by
  obtain ⟨m, A, hg, ht, hs⟩ := exScalar_manager (fun x => (x.getD 0 0 : ℝ) + 10 * (x.getD 1 0 : ℝ))
  obtain ⟨m', w, k1, _, _, _, _, k2, k3⟩ := C69_stage0 A ht (by simp [exScalar]) hs
  refine ⟨m, m', w, hs, k1, k2, ?_⟩
  have hd : m.grid.rng.dims = [(0,3),(0,2)] := by rw [hg]; rfl
  rw [k3 _ (by unfold Mgr.innerBox; rw [hd]; decide), hd]
  rw [C69_linear (b := fun d => if d = 0 then 1 else 10) (by norm_num)]
  · simp [List.range_succ]; norm_num
  · intro d _; split <;> norm_num
  · intro d hd k _ _
    match d, hd with
    | 0, _ => simp [moveBy]; ring
    | 1, _ => simp [moveBy]; ring

example (u : Cell → ℝ) : ∃ (m m' : Mgr ℝ) (c0 c' : Chunk ℝ), m.contents (exScalar "n") = some c0 ∧
    advection [2, -1] [exScalar "n"] [exScalar "n1", exScalar "n2"] 0 m = .ok () m' ∧ m'.contents (exScalar "n1") = some c' ∧
    c'.arr.data.sum = c0.arr.data.sum := by
  obtain ⟨m, A, hg, ht, c0, h0, _⟩ := exScalar_manager u
  obtain ⟨m', c', k1, k2, k3⟩ := C62_stage0 A ht (by simp [exScalar]) h0
  exact ⟨m, m', c0, c', h0, k1, k2, k3⟩

-- a loop that is short enough to be safe: three elements, stride 4
example : ∃ m', ParallelSafe (Advection.iterate 8 11 4 (1 : ℝ)) (Mem.of [List.replicate 12 1, List.replicate 12 1]) m' := by
  obtain ⟨m', h, _⟩ := Advection.iterate_up (coeff := (1:ℝ)) (s := 4) (by decide) (start := 8) (A := fun _ => 1)
    (m := Mem.of [List.replicate 12 1, List.replicate 12 1]) 3 (by
      intro i h1 h2
      have : i = 8 ∨ i = 9 ∨ i = 10 := by push_cast at h2; omega
      rcases this with rfl | rfl | rfl <;> exact ⟨rfl, rfl, rfl, rfl, rfl⟩)
  exact ⟨m', C57_partial (by decide) h⟩

end QK.Props
