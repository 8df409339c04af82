import Verif.Props.Kernels
import Verif.Props.Integrators
/-
A full time step on the variable manager conserves every component (C54).
-/
namespace QK.Props
open Spec Solve

/-! ## Totals of chunks -/

section
variable {M : Box} {p : Nat} {n : Nat} {T T' T'' : Nat → ℝ}

theorem exists_totals {c : Chunk ℝ} (h : c.Layout 2 M [(0, (p : Int)), (0, (n : Int))]) :
    ∃ u, c.Holds (M ++ [(0, (p : Int))]) n u := by
  obtain ⟨u, hu⟩ := FV.exists_field h
  exact ⟨u, fun x hx j hj => hu x (inBox_interior (by decide) hx) j hj⟩

/-- A chunk whose elements are a linear combination of those of others. -/
theorem totals_comb {c a b d : Chunk ℝ} {B : Box} (α β γ : ℝ) (ha : a.Totals B n T) (hb : b.Totals B n T') (hd : d.Totals B n T'')
    (h : ∀ x, InBox B x → ∀ j : Nat, j < n → ∀ u v w, a.arr.val (x ++ [(j : Int)]) = some u → b.arr.val (x ++ [(j : Int)]) = some v →
      d.arr.val (x ++ [(j : Int)]) = some w → c.arr.val (x ++ [(j : Int)]) = some (α * u + β * v + γ * w)) :
    c.Totals B n (fun j => α * T j + β * T' j + γ * T'' j) := by
  obtain ⟨u, hu, tu⟩ := ha
  obtain ⟨v, hv, tv⟩ := hb
  obtain ⟨w, hw, tw⟩ := hd
  refine ⟨fun x j => α * u x j + β * v x j + γ * w x j, fun x hx j hj => h x hx j hj _ _ _ (hu x hx j hj) (hv x hx j hj) (hw x hx j hj), ?_⟩
  intro j hj
  simp only []
  rw [← tu j hj, ← tv j hj, ← tw j hj]
  unfold total
  rw [list_sum_add, list_sum_add, list_sum_mul, list_sum_mul, list_sum_mul]

theorem totals_congr {c d : Chunk ℝ} {B : Box} (hc : c.Totals B n T)
    (h : ∀ x, InBox B x → ∀ j : Nat, j < n → d.arr.val (x ++ [(j : Int)]) = c.arr.val (x ++ [(j : Int)])) : d.Totals B n T := by
  obtain ⟨u, hu, tu⟩ := hc
  exact ⟨u, fun x hx j hj => (h x hx j hj).trans (hu x hx j hj), tu⟩

theorem totals_zero {c : Chunk ℝ} (h : c.Layout 2 M [(0, (p : Int)), (0, (n : Int))]) (hz : ∀ x ∈ c.arr.data, x = 0) :
    c.Totals (M ++ [(0, (p : Int))]) n (fun _ => 0) := by
  obtain ⟨u, hu⟩ := exists_totals h
  refine ⟨u, hu, fun j hj => ?_⟩
  unfold total
  apply List.sum_eq_zero
  intro y hy
  obtain ⟨x, hx, rfl⟩ := List.mem_map.1 hy
  have := hu x (mem_cells.1 hx) j hj
  unfold IFace.val at this
  exact hz _ (List.mem_of_getElem? this)

end

/-! ## Solvers on the manager -/

section
variable {S : VarId → Prop} {m : Mgr ℝ} {s rhs : VarId}

/-- `bc_periodic` in all dimensions, of an existing variable. -/
theorem periodic_manager (h : m.Good S) (hL : m.Laid) (hs : S s) (hp : 1 ≤ s.basis.points) (hn : s.comps ≠ [])
    (hw : ∀ i < m.grid.rng.dims.length, 2 ≤ hi m.grid.rng.dims i - lo m.grid.rng.dims i) {c : Chunk ℝ} (hc : m.contents s = some c) :
    ∃ m' c', periodic (ints (List.range m.grid.rng.dims.length)) [s] m = .ok () m' ∧ m'.Good S ∧ m'.Laid ∧ m.Extends m' ∧
      m'.contents = Function.update m.contents s (some c') ∧
      c'.Periodic 2 m.grid.rng.dims [(0, s.basis.points), (0, (s.comps.length : Int))] ∧
      ∀ x, InBox (m.grid.rng.dims ++ [(0, s.basis.points)]) x → ∀ j : Nat, j < s.comps.length →
        c'.arr.val (x ++ [(j : Int)]) = c.arr.val (x ++ [(j : Int)]) := by
  have hlay := hL s c hc
  have hD : Pos [(0, s.basis.points), (0, (s.comps.length : Int))] := by
    have := List.length_pos_iff.2 hn
    intro q hq
    simp only [List.mem_cons, List.not_mem_nil, or_false] at hq
    rcases hq with rfl | rfl <;> simp <;> omega
  obtain ⟨c', k1, k2, k3, k4, k5⟩ := C24_periodic hlay (by decide) h.mesh_pos hD (ds := List.range m.grid.rng.dims.length)
    (fun i hi' => ⟨List.mem_range.1 hi', hw i (List.mem_range.1 hi')⟩)
  obtain ⟨m', g1, g2, g3, g4⟩ := eachOutput_cons h hs (ids := []) (c := c) (by rw [created_self, Function.update_self, hc]; rfl) k1
  have hfix : ∀ x, InBox (m.grid.rng.dims ++ [(0, s.basis.points), (0, (s.comps.length : Int))]) x → c'.arr.val x = c.arr.val x := by
    intro x hx
    refine k5 x (inBox_interior (by decide) hx) fun i hi' hg => ?_
    have := List.mem_range.1 hi'
    exact faceGhost_not_interior (by simp; omega) hg hx
  refine ⟨m', c', g4.trans rfl, g1, ?_, g2, g3, ?_, ?_⟩
  · intro id d hd
    rw [g2.grid]
    rw [g3] at hd
    by_cases e : id = s
    · subst e; rw [Function.update_self] at hd; cases hd; exact hlay.sameShape k2
    · rw [Function.update_of_ne e] at hd; exact hL id d hd
  · intro i hi' x hx
    have hm := List.mem_range.2 hi'
    rw [k3 i hm x hx, hfix _ (k4 i hm x hx)]
  · intro x hx j hj
    refine hfix _ ?_
    rw [FV.layout_split, inBox_snoc hx.length_eq]
    exact ⟨hx, by omega, by omega⟩

/-- A solver for the right-hand side keeps totals: given existing variables `s`, with periodic ghost cells, and `rhs` it
changes `rhs` only, and no total of `rhs`. -/
def KeepsTotals (S : VarId → Prop) (grid : Rectilinear ℝ) (flux : List VarId → List VarId → SM (Mgr ℝ) Unit) (s rhs : VarId) : Prop :=
  ∀ (m : Mgr ℝ) c r, m.Good S → m.Laid → m.grid = grid → m.dt ≠ none → m.contents s = some c → m.contents rhs = some r →
    c.Periodic 2 grid.rng.dims [(0, s.basis.points), (0, (s.comps.length : Int))] →
    ∃ m' r', flux [s] [rhs] m = .ok () m' ∧ m'.Good S ∧ m'.Laid ∧ m.Extends m' ∧
      m'.contents = Function.update m.contents rhs (some r') ∧
      ∀ T, r.Totals (grid.rng.dims ++ [(0, rhs.basis.points)]) rhs.comps.length T →
        r'.Totals (grid.rng.dims ++ [(0, rhs.basis.points)]) rhs.comps.length T

/-- What a time step is for: a mesh with at least two cells in each dimension. -/
structure Mesh (grid : Rectilinear ℝ) : Prop where
  widths : grid.dxs.length = grid.rng.dims.length
  wide : ∀ i < grid.rng.dims.length, 2 ≤ hi grid.rng.dims i - lo grid.rng.dims i

theorem maxwell_keepsTotals (c : ℝ) {grid : Rectilinear ℝ} (hgrid : Mesh grid) (hs : S s) (hr : S rhs) (hne : s ≠ rhs)
    (n6 : s.comps.length = 6) (n6' : rhs.comps.length = 6) (hp : 1 ≤ s.basis.points) (hb : rhs.basis = s.basis) :
    KeepsTotals S grid (maxwell c) s rhs := by
  intro m cq r h hL hg _ hq hrr hper
  subst hg
  obtain ⟨p, ep⟩ : ∃ p : Nat, s.basis.points = p := ⟨s.basis.points.toNat, by omega⟩
  have y1 := hL _ _ hq
  have y2 := hL _ _ hrr
  rw [hb] at y2 ⊢
  rw [n6'] at y2 ⊢
  rw [n6] at y1 hper
  rw [ep] at y1 y2 hper hp ⊢
  obtain ⟨r', k1, k2, k3⟩ := C54_maxwell_rhs c h.mesh_pos (by omega) (by decide) hgrid.wide y1 y2 rfl hgrid.widths hper
  obtain ⟨a, ha⟩ := exists_addr h hq
  obtain ⟨b, hb'⟩ := exists_addr h hrr
  refine ⟨m.store b r', r', ?_, h.store _ _, Mgr.Laid.store h hL hb' hrr k2, Mgr.store_extends _ _ _, h.store_contents hb' _, ?_⟩
  · unfold maxwell
    simp only
    rw [SM.bind_ok (inputVar_existing h hs ha), SM.bind_ok (outputVar_existing h hr hb')]
    refine kernelLoop_spec h ha hb' (cs := [cq]) (.cons ⟨s, ha, hq⟩ .nil) hrr ?_
    rw [addr_ne h ha hb' hne]
    exact k1
  · rintro T ⟨v, hv, tv⟩
    obtain ⟨v', hv'⟩ := exists_totals (n := 6) (y2.sameShape k2)
    exact ⟨v', hv', fun j hj => (k3 v v' hv hv' j hj).trans (tv j hj)⟩

theorem euler_keepsTotals (gamma : ℝ) {grid : Rectilinear ℝ} (hgrid : Mesh grid) (h4 : grid.rng.dims.length ≤ 4) (hs : S s) (hr : S rhs) (hne : s ≠ rhs)
    (n5 : s.comps.length = 5) (n5' : rhs.comps.length = 5) (hp : 1 ≤ s.basis.points) (hb : rhs.basis = s.basis) :
    KeepsTotals S grid (euler gamma) s rhs := by
  intro m cq r h hL hg hdt hq hrr hper
  subst hg
  obtain ⟨t, ht⟩ := Option.ne_none_iff_exists'.1 hdt
  obtain ⟨p, ep⟩ : ∃ p : Nat, s.basis.points = p := ⟨s.basis.points.toNat, by omega⟩
  have y1 := hL _ _ hq
  have y2 := hL _ _ hrr
  rw [hb] at y2 ⊢
  rw [n5'] at y2 ⊢
  rw [n5] at y1 hper
  rw [ep] at y1 y2 hper hp ⊢
  obtain ⟨r', k1, k2, k3⟩ := C54_euler_rhs gamma h.mesh_pos h4 (by omega) (by decide) hgrid.wide y1 y2 rfl hgrid.widths hper
  obtain ⟨a, ha⟩ := exists_addr h hq
  obtain ⟨b, hb'⟩ := exists_addr h hrr
  refine ⟨m.store b r', r', ?_, h.store _ _, Mgr.Laid.store h hL hb' hrr k2, Mgr.store_extends _ _ _, h.store_contents hb' _, ?_⟩
  · unfold euler
    simp only
    rw [SM.bind_ok (inputVar_existing h hs ha), SM.bind_ok (outputVar_existing h hr hb')]
    refine kernelLoop_spec h ha hb' (cs := [cq]) (.cons ⟨s, ha, hq⟩ .nil) hrr ?_
    rw [addr_ne h ha hb' hne]
    unfold dtOf
    rw [ht]
    exact k1
  · rintro T ⟨v, hv, tv⟩
    obtain ⟨v', hv'⟩ := exists_totals (n := 5) (y2.sameShape k2)
    exact ⟨v', hv', fun j hj => (k3 v v' hv hv' j hj).trans (tv j hj)⟩

/-! ## Stages and steps -/

variable {q q1 q2 q3 : VarId} {flux : List VarId → List VarId → SM (Mgr ℝ) Unit}

/-- Up to the integrator: interior values are unchanged and the totals of `rhs` are 0. -/
theorem stage_enter (V : RKVars S q rhs q1 q2 q3) (hp : 1 ≤ q.basis.points) (hn : q.comps ≠ []) (hM : Mesh m.grid)
    (hf : ∀ s ∈ [q, q1, q2], KeepsTotals S m.grid flux s rhs)
    (h : m.Good S) (hL : m.Laid) {t : ℝ} (ht : m.dt = some t) {s : VarId} (hs : s ∈ [q, q1, q2]) {T : Nat → ℝ} (hT : m.Totals s T) (k : Int) :
    ∃ m1 r, m1.Good S ∧ m1.Laid ∧ m.Extends m1 ∧ (∀ id T, id ≠ rhs → m.Totals id T → m1.Totals id T) ∧ m1.contents rhs = some r ∧
      m1.Totals rhs (fun _ => 0) ∧
      stage true flux (ints (List.range m.grid.rng.dims.length)) q rhs q1 q2 q3 s k m = ssprk3 true [q, rhs] [q1, q2, q3] k m1 := by
  have hs' : s ∈ [q, rhs, q1, q2, q3] := by simp at hs ⊢; tauto
  have nd := V.nodup
  simp only [List.nodup_cons, List.mem_cons, List.not_mem_nil, or_false, not_or] at nd
  have hsr : s ≠ rhs := by simp at hs; rcases hs with rfl | rfl | rfl <;> tauto
  obtain ⟨c, hc, tc⟩ := hT
  obtain ⟨ma, c', a1, a2, a3, a4, a5, a6, a7⟩ := periodic_manager h hL (V.known s hs') (by rw [V.basis s hs']; exact hp)
    (by rw [V.comps s hs']; exact hn) hM.wide hc
  obtain ⟨mb, b1, b2, b3, b4, b5⟩ := C39_fill (0 : ℝ) [rhs] a2 (by intro id hid; simp at hid; subst hid; exact V.known _ (by simp))
  obtain ⟨r, er, zr, sr⟩ := b4 rhs (by simp)
  have lb : mb.Laid := by
    intro id d hd
    rw [b3.grid]
    by_cases e : id = rhs
    · subst e
      rw [er] at hd; cases hd
      refine Chunk.Layout.sameShape ?_ sr
      cases e : ma.contents id with
      | some d => exact a3 id d e
      | none => exact (fresh_spec (Arith.lit 0) a2.mesh_ne a2.mesh_pos (a2.points id (V.known _ (by simp)))).2.1
    · rw [b5 id (by simp [e])] at hd; exact a3 id d hd
  have eb : mb.contents s = some c' := by rw [b5 s (by simp [hsr]), a5, Function.update_self]
  have gb : mb.grid = m.grid := b3.grid.trans a4.grid
  obtain ⟨mc, r', k1, k2, k3, k4, k5, k6⟩ := hf s hs mb c' r b2 lb gb
    (by rw [b3.dt, a4.dt, ht]; simp) eb er a6
  have gc : mc.grid = m.grid := k4.grid.trans gb
  refine ⟨mc, r', k2, k3, a4.trans (b3.trans k4), ?_, by rw [k5, Function.update_self], ⟨r', by rw [k5, Function.update_self], ?_⟩, ?_⟩
  · rintro id T' hne ⟨d, hd, td⟩
    unfold Mgr.Totals
    rw [gc, k5, Function.update_of_ne hne, b5 id (by simp [hne]), a5]
    by_cases e : id = s
    · subst e
      rw [Function.update_self]
      rw [hc] at hd; cases hd
      exact ⟨c', rfl, totals_congr td a7⟩
    · rw [Function.update_of_ne e]; exact ⟨d, hd, td⟩
  · rw [gc]
    apply k6
    have y := lb _ _ er
    rw [gb, V.basis rhs (by simp)] at y
    rw [V.basis rhs (by simp)]
    obtain ⟨p, ep⟩ : ∃ p : Nat, q.basis.points = p := ⟨q.basis.points.toNat, by omega⟩
    rw [ep] at y ⊢
    exact totals_zero y zr
  · unfold stage
    rw [SM.bind_ok a1, real_lit, show ((0 : ℚ) : ℝ) = 0 from Rat.cast_zero, SM.bind_ok b1, SM.bind_ok k1]

/-- What a manager has before a step. -/
structure StepReady (S : VarId → Prop) (q rhs q1 q2 q3 : VarId) (flux : List VarId → List VarId → SM (Mgr ℝ) Unit)
    (grid : Rectilinear ℝ) : Prop where
  vars : RKVars S q rhs q1 q2 q3
  points : 1 ≤ q.basis.points
  comps : q.comps ≠ []
  mesh : Mesh grid
  keeps : ∀ s ∈ [q, q1, q2], KeepsTotals S grid flux s rhs

theorem Totals.keep {m m' : Mgr ℝ} {o id : VarId} {T : Nat → ℝ} {c : Chunk ℝ} {ids : List VarId} (hx : m.Extends m')
    (hc : m'.contents = Function.update (m.requested (Arith.lit 0) ids) o (some c)) (hne : id ≠ o) (hT : m.Totals id T) : m'.Totals id T := by
  obtain ⟨d, hd, td⟩ := hT
  exact ⟨d, by rw [hc, Function.update_of_ne hne, Mgr.requested_some _ hd], by rw [hx.grid]; exact td⟩

/-- The totals of a stage that combines `q`, `b` and `rhs`. -/
theorem Totals.comb {m m' : Mgr ℝ} (V : RKVars S q rhs q1 q2 q3) {o b : VarId} {T : Nat → ℝ} {c c0 cb r : Chunk ℝ} (hx : m.Extends m')
    (hb : b ∈ [q, rhs, q1, q2, q3]) (ho : o ∈ [q, rhs, q1, q2, q3]) (hc : m'.contents o = some c)
    (h0 : m.contents q = some c0) (hcb : m.contents b = some cb) (hr : m.contents rhs = some r)
    (T0 : m.Totals q T) (Tb : m.Totals b T) (Tr : m.Totals rhs (fun _ => 0)) (α β γ : ℝ) (hαβ : α + β = 1)
    (h : ∀ x u v w, c0.arr.val x = some u → cb.arr.val x = some v → r.arr.val x = some w → c.arr.val x = some (α * u + β * v + γ * w)) :
    m'.Totals o T := by
  obtain ⟨_, e0, t0⟩ := T0
  obtain ⟨_, e1, t1⟩ := Tb
  obtain ⟨_, e2, t2⟩ := Tr
  rw [h0] at e0; cases e0
  rw [hcb] at e1; cases e1
  rw [hr] at e2; cases e2
  rw [V.basis _ hb, V.comps _ hb] at t1
  rw [V.basis rhs (by simp), V.comps rhs (by simp)] at t2
  refine ⟨c, hc, ?_⟩
  rw [hx.grid, V.basis _ ho, V.comps _ ho]
  have := totals_comb α β γ t0 t1 t2 (fun x hx j hj u v w hu hv hw => h _ u v w hu hv hw)
  have e : (fun j => α * T j + β * T j + γ * 0) = T := by
    funext j; rw [mul_zero, add_zero, ← add_mul, hαβ, one_mul]
  rwa [e] at this

theorem stage_totals (H : StepReady S q rhs q1 q2 q3 flux m.grid) (h : m.Good S) (hL : m.Laid) {t : ℝ} (ht : m.dt = some t)
    {T : Nat → ℝ} (h0 : m.Totals q T) {k : Int} {s o : VarId}
    (hk : k = 0 ∧ s = q ∧ o = q1 ∨ k = 1 ∧ s = q1 ∧ o = q2 ∨ k = 2 ∧ s = q2 ∧ o = q3) (hs : m.Totals s T) :
    ∃ m', stage true flux (ints (List.range m.grid.rng.dims.length)) q rhs q1 q2 q3 s k m = .ok () m' ∧ m'.Good S ∧ m'.Laid ∧ m.Extends m' ∧
      m'.Totals q T ∧ m'.Totals o T ∧ m'.contents q3 ≠ none := by
  have V := H.vars
  have nd := V.nodup
  simp only [List.nodup_cons, List.mem_cons, List.not_mem_nil, or_false, not_or] at nd
  have hs' : s ∈ [q, q1, q2] := by simp; tauto
  have hsr : s ≠ rhs := by
    rcases hk with ⟨_, rfl, _⟩ | ⟨_, rfl, _⟩ | ⟨_, rfl, _⟩ <;> tauto
  obtain ⟨m1, r, g1, l1, x1, tot, er, tr, e⟩ := stage_enter V H.points H.comps H.mesh H.keeps h hL ht hs' hs k
  have t0 := tot q T (by tauto) h0
  have ts := tot s T hsr hs
  obtain ⟨c0, e0, _⟩ := id t0
  obtain ⟨cs, es, _⟩ := id ts
  have ht1 : m1.dt = some t := x1.dt.trans ht
  have hq3 : ∀ {m' : Mgr ℝ} {c : Chunk ℝ} {o : VarId}, m'.contents = Function.update (m1.requested (Arith.lit 0) [q1, q2, q3]) o (some c) →
      m'.contents q3 ≠ none := by
    intro m' c o hc
    rw [hc]
    by_cases ho : q3 = o
    · rw [← ho, Function.update_self]; simp
    · rw [Function.update_of_ne ho]
      obtain ⟨d, hd⟩ := Mgr.requested_mem (m := m1) (Arith.lit 0) (id := q3) (ids := [q1, q2, q3]) (by simp)
      rw [hd]; simp
  rcases hk with ⟨rfl, rfl, rfl⟩ | ⟨rfl, rfl, rfl⟩ | ⟨rfl, rfl, rfl⟩
  · obtain ⟨m', c, k1, k2, k3, k4, k5, k6⟩ := ssprk3_stage0 V g1 l1 ht1 e0 er []
    refine ⟨m', e.trans k1, k2, k3, x1.trans k4, Totals.keep k4 k5 (by tauto) t0, ?_, hq3 k5⟩
    refine Totals.comb V (b := s) k4 (by simp) (by simp) (by rw [k5, Function.update_self]) e0 e0 er t0 t0 tr 1 0 t (by norm_num) ?_
    intro x u v w hu _ hw
    rw [k6 x u w hu hw]; congr 1; ring
  · obtain ⟨m', c1, c, k1, k2, k3, k4, k0, k5, k6⟩ := ssprk3_stage1 V g1 l1 ht1 e0 er []
    rw [Mgr.requested_some _ es] at k0; cases k0
    refine ⟨m', e.trans k1, k2, k3, x1.trans k4, Totals.keep k4 k5 (by tauto) t0, ?_, hq3 k5⟩
    refine Totals.comb V (b := s) k4 (by simp) (by simp) (by rw [k5, Function.update_self]) e0 es er t0 ts tr (3 / 4) (1 / 4) (1 / 4 * t) (by norm_num) ?_
    intro x u v w hu hv hw
    rw [k6 x u v w hu hv hw]; simp only [real_lit]; congr 1; push_cast; ring
  · obtain ⟨m', c1, c, k1, k2, k3, k4, k0, k5, k6⟩ := ssprk3_stage2 V g1 l1 ht1 e0 er []
    rw [Mgr.requested_some _ es] at k0; cases k0
    refine ⟨m', e.trans k1, k2, k3, x1.trans k4, Totals.keep k4 k5 (by tauto) t0, ?_, hq3 k5⟩
    refine Totals.comb V (b := s) k4 (by simp) (by simp) (by rw [k5, Function.update_self]) e0 es er t0 ts tr (1 / 3) (2 / 3) (2 / 3 * t) (by norm_num) ?_
    intro x u v w hu hv hw
    rw [k6 x u v w hu hv hw]; simp only [real_lit]; congr 1; push_cast; ring

theorem setTime_good (h : m.Good S) (t : ℝ) : (m.setTime t).Good S :=
  ⟨h.consistent, h.points, h.mesh_ne, h.mesh_pos, h.keys, h.sorted, h.separate, h.stored⟩

/-- **C54** One time step of any solver for the right-hand side that keeps totals. -/
theorem step_totals (H : StepReady S q rhs q1 q2 q3 flux m.grid) (h : m.Good S) (hL : m.Laid) {t : ℝ} (ht : m.dt = some t)
    {T : Nat → ℝ} (h0 : m.Totals q T) (timeDt time : ℝ) :
    ∃ m', step true flux (ints (List.range m.grid.rng.dims.length)) q rhs q1 q2 q3 timeDt time m = .ok (time + timeDt) m' ∧
      m'.Good S ∧ m'.Laid ∧ m'.grid = m.grid ∧ m'.dt = some t ∧ m'.time = some (time + timeDt) ∧ m'.Totals q T := by
  have V := H.vars
  have nd := V.nodup
  simp only [List.nodup_cons, List.mem_cons, List.not_mem_nil, or_false, not_or] at nd
  obtain ⟨ma, a1, a2, a3, a4, a5, a6, _⟩ := stage_totals H h hL ht h0 (.inl ⟨rfl, rfl, rfl⟩) h0
  rw [← a4.grid] at H
  obtain ⟨mb, b1, b2, b3, b4, b5, b6, _⟩ := stage_totals H a2 a3 (a4.dt.trans ht) a5 (.inr (.inl ⟨rfl, rfl, rfl⟩)) a6
  rw [← b4.grid] at H
  obtain ⟨mc, c1, c2, c3, c4, c5, c6, c7⟩ := stage_totals H b2 b3 (b4.dt.trans (a4.dt.trans ht)) b5 (.inr (.inr ⟨rfl, rfl, rfl⟩)) b6
  have xs := a4.trans (b4.trans c4)
  rw [a4.grid] at b1
  rw [b4.grid, a4.grid] at c1
  obtain ⟨c0, e0, _⟩ := id c5
  obtain ⟨md, d1, d2, d3, d4, d5⟩ := C38_swap c2 (outs := [q, q3]) (by simp) (by simp; tauto) (by
    intro id hid; simp at hid; rcases hid with rfl | rfl
    · rw [e0]; simp
    · exact c7)
  obtain ⟨s1, s2⟩ := d4 0 q q3 rfl rfl
  have ld : md.Laid := by
    intro id d hd
    rw [d3.grid]
    by_cases e : id = q
    · subst e; rw [s1] at hd
      have := c3 _ _ hd
      rwa [V.basis q3 (by simp), V.comps q3 (by simp)] at this
    · by_cases e' : id = q3
      · subst e'; rw [s2] at hd
        have := c3 _ _ hd
        rwa [V.basis id (by simp), V.comps id (by simp)]
      · rw [d5 id (by simp [e, e'])] at hd; exact c3 _ _ hd
  refine ⟨md.setTime (time + timeDt), ?_, setTime_good d2 _, ld, (d3.grid.trans xs.grid), (d3.dt.trans (xs.dt.trans ht)), rfl, ?_⟩
  · unfold step
    rw [SM.bind_ok a1, SM.bind_ok b1, SM.bind_ok c1, SM.bind_ok d1, SM.bind_ok (SM.modifyRes_ok (f := fun m => Res.ok (Mgr.setTime (time + timeDt) m)) rfl)]; rfl
  · obtain ⟨d, hd, td⟩ := c6
    refine ⟨d, s1.trans hd, ?_⟩
    rw [V.basis q3 (by simp), V.comps q3 (by simp)] at td
    have e : (md.setTime (time + timeDt)).grid = mc.grid := d3.grid
    rw [e]; exact td

/-- **C54** Any number of time steps: none of them throws or is undefined, the totals of all components of `q` stay and the
time advances by `timeDt` per step. -/
theorem steps_totals : ∀ (k : Nat) (m : Mgr ℝ) (time : ℝ), StepReady S q rhs q1 q2 q3 flux m.grid → m.Good S → m.Laid → ∀ {t : ℝ}, m.dt = some t →
    ∀ {T : Nat → ℝ}, m.Totals q T → ∀ timeDt : ℝ,
    ∃ m', steps true flux (ints (List.range m.grid.rng.dims.length)) q rhs q1 q2 q3 timeDt k time m = .ok (time + k * timeDt) m' ∧
      m'.Good S ∧ m'.Laid ∧ m'.Totals q T ∧ (m.time = some time → m'.time = some (time + k * timeDt)) := by
  intro k
  induction k with
  | zero =>
    intro m time _ h hL t _ T hT timeDt
    refine ⟨m, ?_, h, hL, hT, by simp⟩
    unfold steps; simp; rfl
  | succ k ih =>
    intro m time H h hL t ht T hT timeDt
    obtain ⟨m1, a1, a2, a3, a4, a5, a6, a7⟩ := step_totals H h hL ht hT timeDt time
    rw [← a4] at H
    obtain ⟨m2, b1, b2, b3, b4, b5⟩ := ih m1 (time + timeDt) H a2 a3 a5 a7 timeDt
    have e : time + timeDt + k * timeDt = time + ((k + 1 : Nat) : ℝ) * timeDt := by push_cast; ring
    rw [a4, e] at b1
    rw [e] at b5
    refine ⟨m2, ?_, b2, b3, b4, fun _ => b5 a6⟩
    unfold steps
    rw [SM.bind_ok a1]; exact b1

end

/-! ## C54 -/

section
variable {S : VarId → Prop} {m : Mgr ℝ} {q rhs q1 q2 q3 : VarId}

/-- **C54** Maxwell: any number of full time steps (boundary condition, reset, flux solver, stage, three times; swap; set time) on
any periodic mesh with at least two cells per dimension runs to its end and keeps the total of each of the six components. -/
theorem C54_maxwell_steps (V : RKVars S q rhs q1 q2 q3) (n6 : q.comps.length = 6) (hp : 1 ≤ q.basis.points) (hM : Mesh m.grid)
    (h : m.Good S) (hL : m.Laid) {t : ℝ} (ht : m.dt = some t) {T : Nat → ℝ} (hT : m.Totals q T) (c : ℝ) (k : Nat) (timeDt time : ℝ) :
    ∃ m', steps true (maxwell c) (ints (List.range m.grid.rng.dims.length)) q rhs q1 q2 q3 timeDt k time m = .ok (time + k * timeDt) m' ∧
      m'.Good S ∧ m'.Laid ∧ m'.Totals q T ∧ (m.time = some time → m'.time = some (time + k * timeDt)) := by
  have nd := V.nodup
  simp only [List.nodup_cons, List.mem_cons, List.not_mem_nil, or_false, not_or] at nd
  refine steps_totals k m time ⟨V, hp, (by rintro e; rw [e] at n6; cases n6), hM, fun s hs => ?_⟩ h hL ht hT timeDt
  have hs' : s ∈ [q, rhs, q1, q2, q3] := by simp at hs ⊢; tauto
  refine maxwell_keepsTotals c hM (V.known s hs') (V.known rhs (by simp)) ?_ (by rw [V.comps s hs', n6]) (by rw [V.comps rhs (by simp), n6])
    (by rw [V.basis s hs']; exact hp) (by rw [V.basis rhs (by simp), V.basis s hs'])
  simp at hs; rcases hs with rfl | rfl | rfl <;> tauto

/-- **C54** Euler, likewise, for meshes of up to 4 dimensions (with more the kernel is undefined, C52). -/
theorem C54_euler_steps (V : RKVars S q rhs q1 q2 q3) (n5 : q.comps.length = 5) (hp : 1 ≤ q.basis.points) (hM : Mesh m.grid)
    (h4 : m.grid.rng.dims.length ≤ 4)
    (h : m.Good S) (hL : m.Laid) {t : ℝ} (ht : m.dt = some t) {T : Nat → ℝ} (hT : m.Totals q T) (gamma : ℝ) (k : Nat) (timeDt time : ℝ) :
    ∃ m', steps true (euler gamma) (ints (List.range m.grid.rng.dims.length)) q rhs q1 q2 q3 timeDt k time m = .ok (time + k * timeDt) m' ∧
      m'.Good S ∧ m'.Laid ∧ m'.Totals q T ∧ (m.time = some time → m'.time = some (time + k * timeDt)) := by
  have nd := V.nodup
  simp only [List.nodup_cons, List.mem_cons, List.not_mem_nil, or_false, not_or] at nd
  refine steps_totals k m time ⟨V, hp, (by rintro e; rw [e] at n5; cases n5), hM, fun s hs => ?_⟩ h hL ht hT timeDt
  have hs' : s ∈ [q, rhs, q1, q2, q3] := by simp at hs ⊢; tauto
  refine euler_keepsTotals gamma hM h4 (V.known s hs') (V.known rhs (by simp)) ?_ (by rw [V.comps s hs', n5]) (by rw [V.comps rhs (by simp), n5])
    (by rw [V.basis s hs']; exact hp) (by rw [V.basis rhs (by simp), V.basis s hs'])
  simp at hs; rcases hs with rfl | rfl | rfl <;> tauto

/-- Every existing variable has totals. -/
theorem totals_exist (hL : m.Laid) {id : VarId} (hp : 0 ≤ id.basis.points) (h : m.contents id ≠ none) : ∃ T, m.Totals id T := by
  obtain ⟨c, hc⟩ := Option.ne_none_iff_exists'.1 h
  have y := hL id c hc
  obtain ⟨p, ep⟩ : ∃ p : Nat, id.basis.points = p := ⟨id.basis.points.toNat, by omega⟩
  unfold Mgr.Totals
  rw [ep] at y ⊢
  obtain ⟨u, hu⟩ := exists_totals y
  exact ⟨fun j => total _ u j, c, hc, u, hu, fun _ _ => rfl⟩

end

/-- Five variables with `n` components. -/
def exIdN (n : Nat) (s : String) : VarId := ⟨s, List.replicate n "c", Basis.volumeAverage⟩
def exIdsN (n : Nat) (id : VarId) : Prop := id ∈ [exIdN n "q", exIdN n "r", exIdN n "q1", exIdN n "q2", exIdN n "q3"]

theorem exVarsN (n : Nat) : RKVars (exIdsN n) (exIdN n "q") (exIdN n "r") (exIdN n "q1") (exIdN n "q2") (exIdN n "q3") := by
  refine ⟨fun id h => h, by simp [exIdN], ?_, ?_⟩
  · intro id h; simp [exIdN] at h; rcases h with rfl | rfl | rfl | rfl | rfl <;> rfl
  · intro id h; simp [exIdN] at h; rcases h with rfl | rfl | rfl | rfl | rfl <;> rfl

theorem exConsistentN (n : Nat) : Mgr.Consistent (exIdsN n) := by
  intro a b ha hb hn
  simp [exIdsN, exIdN] at ha hb
  rcases ha with rfl | rfl | rfl | rfl | rfl <;> rcases hb with rfl | rfl | rfl | rfl | rfl <;> first | rfl | (simp at hn)

/-- A manager on a 3 × 2 grid that stores any given data in `q` only. -/
theorem exManagerN {n : Nat} (hn : 1 ≤ n) (u : Cell → ℝ) : ∃ m : Mgr ℝ, m.Good (exIdsN n) ∧ m.Laid ∧ m.dt = some (1/10) ∧ m.time = some 0 ∧
    m.grid = ⟨Range.setup [(0,3),(0,2)], [0,0], [1,1], [1/3,1/2]⟩ ∧ m.Stores (exIdN n "q") u := by
  obtain ⟨m, h1, h2, h3, h4, h5, h6, h7⟩ := Mgr.exists_manager (exConsistentN n) (fun id h => by
      simp [exIdsN, exIdN] at h; rcases h with rfl | rfl | rfl | rfl | rfl <;> simp [Basis.volumeAverage] <;> omega)
    (⟨Range.setup [(0,3),(0,2)], [0,0], [1,1], [1/3,1/2]⟩ : Rectilinear ℝ) (by decide) (by decide) (1/10) 0 (fun _ => u)
    (ids := [exIdN n "q"]) (by intro id h; unfold exIdsN; simp at h ⊢; tauto) (by simp)
  exact ⟨m, h1, h2, h4, h5, h3, h6 _ (by simp)⟩

theorem exMesh : Mesh (⟨Range.setup [(0,3),(0,2)], [0,0], [1,1], [1/3,1/2]⟩ : Rectilinear ℝ) :=
  ⟨rfl, by decide⟩

-- C54: 1000 steps from any data, of both solvers
example (u : Cell → ℝ) : ∃ m m' : Mgr ℝ, ∃ T, m.Stores (exIdN 6 "q") u ∧ m.Totals (exIdN 6 "q") T ∧
    steps true (maxwell 3) [0, 1] (exIdN 6 "q") (exIdN 6 "r") (exIdN 6 "q1") (exIdN 6 "q2") (exIdN 6 "q3") (1/10) 1000 0 m = .ok (0 + (1000 : ℕ) * (1/10)) m' ∧
    m'.Totals (exIdN 6 "q") T := by
  obtain ⟨m, h1, h2, h3, h4, h5, h6⟩ := exManagerN (n := 6) (by decide) u
  obtain ⟨T, hT⟩ := totals_exist h2 (id := exIdN 6 "q") (by simp [exIdN, Basis.volumeAverage]) (by obtain ⟨c, hc, _⟩ := h6; rw [hc]; simp)
  obtain ⟨m', k1, _, _, k2, _⟩ := C54_maxwell_steps (exVarsN 6) rfl (by simp [exIdN, Basis.volumeAverage]) (by rw [h5]; exact exMesh) h1 h2 h3 hT 3 1000 (1/10) 0
  rw [h5] at k1
  exact ⟨m, m', T, h6, hT, k1, k2⟩

example (u : Cell → ℝ) : ∃ m m' : Mgr ℝ, ∃ T, m.Stores (exIdN 5 "q") u ∧ m.Totals (exIdN 5 "q") T ∧
    steps true (euler (5/3)) [0, 1] (exIdN 5 "q") (exIdN 5 "r") (exIdN 5 "q1") (exIdN 5 "q2") (exIdN 5 "q3") (1/10) 1000 0 m = .ok (0 + (1000 : ℕ) * (1/10)) m' ∧
    m'.Totals (exIdN 5 "q") T := by
  obtain ⟨m, h1, h2, h3, h4, h5, h6⟩ := exManagerN (n := 5) (by decide) u
  obtain ⟨T, hT⟩ := totals_exist h2 (id := exIdN 5 "q") (by simp [exIdN, Basis.volumeAverage]) (by obtain ⟨c, hc, _⟩ := h6; rw [hc]; simp)
  obtain ⟨m', k1, _, _, k2, _⟩ := C54_euler_steps (exVarsN 5) rfl (by simp [exIdN, Basis.volumeAverage]) (by rw [h5]; exact exMesh) (by rw [h5]; decide) h1 h2 h3 hT (5/3) 1000 (1/10) 0
  rw [h5] at k1
  exact ⟨m, m', T, h6, hT, k1, k2⟩

end QK.Props
