import Verif.Spec.Initial
import Verif.Spec.Physics
import Verif.Model.ArithReal
import Verif.Proofs.Initial
import Verif.Proofs.FvReal
import Verif.Proofs.Examples
import Verif.Props.Sources
/-
Properties of the initial conditions: C37 (brio_wu), C63, C64, C65, C70, C71.
-/
namespace QK.Props
open Spec Solve

section
variable {α : Type} [Arith α] {S : VarId → Prop} {m : Mgr α}

theorem initial_all {f : Rectilinear α → Chunk α → Res (Chunk α)} {outs : List VarId} (h : m.Good S) (hL : m.Laid)
    (hS : ∀ id ∈ outs, S id) (B : VarId → Box) (F : VarId → Cell → Nat → α)
    (hf : ∀ id ∈ outs, ∀ c : Chunk α, c.Layout 2 m.grid.rng.dims [(0, id.basis.points), (0, (id.comps.length : Int))] →
      ∃ c', f m.grid c = .ok c' ∧ c.SameShape c' ∧ c'.Holds (B id) id.comps.length (F id) ∧
        ∀ y, InBox (m.arrayBox id) y → ¬ InBox (B id) y.dropLast → c'.arr.val y = some (Arith.lit 0)) :
    ∃ m', initial f outs m = .ok () m' ∧ m'.Good S ∧ m'.Laid ∧ m.Extends m' ∧
      (∀ id ∈ outs, m'.SetTo id (B id) (F id)) ∧ ∀ id, id ∉ outs → m'.contents id = m.contents id := by
  obtain ⟨m', k1, k2, k3, k4, k5, k6⟩ := eachOutput_all (f := f m.grid)
    (fun id c' => c'.Holds (B id) id.comps.length (F id) ∧
        ∀ y, InBox (m.arrayBox id) y → ¬ InBox (B id) y.dropLast → c'.arr.val y = some (Arith.lit 0)) outs h hL hS
    (fun id hid c hc => hf id hid c hc)
  refine ⟨m', k1, k2, k3, k4, ?_, k6⟩
  intro id hid
  obtain ⟨c, c1, c2, c3⟩ := k5 id hid
  refine ⟨c, c1, c2, ?_⟩
  have : m'.arrayBox id = m.arrayBox id := by unfold Mgr.arrayBox; rw [k4.grid]
  rw [this]; exact c3

theorem initial_ub {f : Rectilinear α → Chunk α → Res (Chunk α)} {id : VarId} {outs : List VarId} (h : m.Good S) (hL : m.Laid)
    (hS : S id) (hf : ∀ c : Chunk α, c.Layout 2 m.grid.rng.dims [(0, id.basis.points), (0, (id.comps.length : Int))] →
      ∃ w, f m.grid c = .ub w) : ∃ w, initial f (id :: outs) m = .ub w :=
  eachOutput_ub (f := f m.grid) h hL hS hf

/-- The mesh cells of a variable, with their basis points. -/
def _root_.QK.Mgr.meshCells (m : Mgr α) (id : VarId) : Box := m.grid.rng.dims ++ [(0, id.basis.points)]

/-- The mesh and ghost cells of a variable, with their basis points. -/
def _root_.QK.Mgr.allCells (m : Mgr α) (id : VarId) : Box := grow 2 m.grid.rng.dims ++ [(0, id.basis.points)]

theorem within_self (B : Box) : Range.Within B B := (within_iff _ _).2 ⟨rfl, fun _ _ => ⟨le_refl _, le_refl _⟩⟩

theorem pos_grow {M : Box} {g : Int} (hg : 0 ≤ g) (h : Pos M) : Pos (grow g M) := by
  intro d hd
  obtain ⟨e, he, rfl⟩ := List.mem_map.1 hd
  have := h e he
  simp only
  omega

theorem jump_mem (a b c : α) (x : Bool) {n : Nat} (j : Nat) (_ : j < n) :
    ((j : Int) - 0, jumpState a b c x j) ∈ [((0 : Int), jumpState a b c x 0), (4, jumpState a b c x 4)] ∨
      ((j : Int) - 0 ∉ [((0 : Int), jumpState a b c x 0), (4, jumpState a b c x 4)].map Prod.fst ∧
        jumpState a b c x j = Arith.lit 0) := by
  by_cases h0 : j = 0
  · subst h0; left; simp
  · by_cases h4 : j = 4
    · subst h4; left; simp
    · right
      refine ⟨?_, by simp [jumpState, h0, h4]⟩
      simp; omega

/-! ## C63 -/

/-- **C63** `shock_tube::solve` sets, in every interior cell of every output variable, the state of the side of `x = 0` the
cell centre is on; everything else in these variables (ghost cells, other components) becomes zero. -/
theorem C63_shock_tube (s : Init.ShockTube α) (h : m.Good S) (hL : m.Laid) (hg : m.grid.Sized) (h3 : m.grid.rng.dims.length ≤ 3)
    {outs : List VarId} (hS : ∀ id ∈ outs, S id ∧ 1 ≤ id.basis.points ∧ 5 ≤ id.comps.length) :
    ∃ m', shockTube s outs m = .ok () m' ∧ m'.Good S ∧ m'.Laid ∧ m.Extends m' ∧
      (∀ id ∈ outs, m'.SetTo id (m.meshCells id) fun x j =>
        jumpState s.rhoJump s.pJump s.gamma (Arith.lt (centre m.grid x 0) (Arith.lit 0)) j) ∧
      ∀ id, id ∉ outs → m'.contents id = m.contents id := by
  have h1 : 1 ≤ m.grid.rng.dims.length := by
    have := h.mesh_ne
    cases hd : m.grid.rng.dims with
    | nil => exact absurd hd this
    | cons _ _ => simp
  refine initial_all h hL (fun id hid => (hS id hid).1) (fun id => m.meshCells id) (fun _ x j => _) ?_
  intro id hid c hc
  obtain ⟨_, hp, hn⟩ := hS id hid
  obtain ⟨p, ep⟩ : ∃ p : Nat, id.basis.points = p := ⟨id.basis.points.toNat, by omega⟩
  unfold Mgr.arrayBox Mgr.meshCells
  rw [ep] at hc ⊢
  unfold Init.shockTube
  simp only []
  rw [Init.compRange_inner (hc.sameShape (Init.fill_sameShape c _)), Res.ok_bind]
  refine Init.filled_spec hc (FV.within_grow (by decide) _) (Init.pos_snoc h.mesh_pos (by omega)) (l := 0) (le_refl _) (by omega)
    (fun x => [((0 : Int), jumpState s.rhoJump s.pJump s.gamma (Arith.lt (centre m.grid x 0) (Arith.lit 0)) 0),
       (4, jumpState s.rhoJump s.pJump s.gamma (Arith.lt (centre m.grid x 0) (Arith.lit 0)) 4)]) _ ?_ ?_ ?_
  · intro x _
    simp; omega
  · intro x hx d
    exact Init.shockRound_eq s hg h3 h1 (by have := hx.length_eq; simp at this; omega) d
  · intro x _ j hj
    exact jump_mem _ _ _ _ j hj

/-- **C63** In exact arithmetic: such a gas is at rest with density 1 and pressure 1 on the first side, density `rhoJump` and
pressure `pJump` on the second. -/
theorem C63_primitive {rhoJump pJump gamma : ℝ} (hg : gamma ≠ 1) (first : Bool) :
    let q : Gas := ⟨jumpState rhoJump pJump gamma first 0, ![jumpState rhoJump pJump gamma first 1,
      jumpState rhoJump pJump gamma first 2, jumpState rhoJump pJump gamma first 3], jumpState rhoJump pJump gamma first 4⟩
    q.rho = (if first then 1 else rhoJump) ∧ (∀ d, q.mom d = 0) ∧ q.pressure gamma = (if first then 1 else pJump) := by
  have hg' : gamma - 1 ≠ 0 := sub_ne_zero.2 hg
  intro q
  have hm : ∀ d, q.mom d = 0 := by
    intro d
    match d with
    | 0 => simp [q, jumpState, real_lit]
    | 1 => simp [q, jumpState, real_lit]
    | 2 => simp [q, jumpState, real_lit]
  refine ⟨by cases first <;> simp [q, jumpState, real_lit], hm, ?_⟩
  unfold Gas.pressure vdot
  rw [hm, hm, hm]
  cases first <;> simp [q, jumpState, real_lit] <;> field_simp

/-! ## C65, C70 -/

theorem mem_zipIdx {vs : List α} {j : Nat} (h : j < vs.length) (z : α) :
    ((j : Int), vs.getD j z) ∈ vs.zipIdx.map fun p => ((p.2 : Int), p.1) := by
  refine List.mem_map.2 ⟨(vs.getD j z, j), ?_, rfl⟩
  rw [List.mem_zipIdx_iff_getElem?]
  simp [h]

theorem fst_zipIdx (vs : List α) : (vs.zipIdx.map fun p => ((p.2 : Int), p.1)).map Prod.fst =
    (List.range vs.length).map (fun i : Nat => (i : Int)) := by
  rw [List.map_map]
  have : (Prod.fst ∘ fun p : α × Nat => ((p.2 : Int), p.1)) = (fun i : Nat => (i : Int)) ∘ Prod.snd := rfl
  rw [this, ← List.map_map, List.zipIdx_map_snd, List.range_eq_range']

/-- **C65** (holds for three-dimensional grids) `radial_shock_tube::solve` returns, and every cell, ghost cells included,
has one of the two states of the jump. -/
theorem C65_radial_partial (s : Init.Radial α) {c0 c1 c2 : α} (hc : s.center = [c0, c1, c2]) (h : m.Good S) (hL : m.Laid) (hg : m.grid.Sized)
    (h3 : m.grid.rng.dims.length = 3) {outs : List VarId} (hS : ∀ id ∈ outs, S id ∧ 1 ≤ id.basis.points ∧ 5 ≤ id.comps.length) :
    ∃ m', radial s outs m = .ok () m' ∧ m'.Good S ∧ m'.Laid ∧ m.Extends m' ∧
      (∀ id ∈ outs, m'.SetTo id (m.allCells id) fun x j => jumpState s.rhoJump s.pJump s.gamma
        (Arith.lt ((centre m.grid x 0 - c0) * (centre m.grid x 0 - c0) + (centre m.grid x 1 - c1) * (centre m.grid x 1 - c1) +
          (centre m.grid x 2 - c2) * (centre m.grid x 1 - c2)) (s.radius * s.radius)) j) ∧
      ∀ id, id ∉ outs → m'.contents id = m.contents id := by
  refine initial_all h hL (fun id hid => (hS id hid).1) (fun id => m.allCells id) (fun _ x j => _) ?_
  intro id hid c hc'
  obtain ⟨_, hp, hn⟩ := hS id hid
  obtain ⟨p, ep⟩ : ∃ p : Nat, id.basis.points = p := ⟨id.basis.points.toNat, by omega⟩
  unfold Mgr.arrayBox Mgr.allCells
  rw [ep] at hc' ⊢
  unfold Init.radial
  simp only []
  rw [Init.compRange_all (hc'.sameShape (Init.fill_sameShape c _)), Res.ok_bind]
  refine Init.filled_spec hc' (within_self _) (Init.pos_snoc (pos_grow (by decide) h.mesh_pos) (by omega)) (l := 0) (le_refl _) (by omega)
    (fun x => [((0 : Int), jumpState s.rhoJump s.pJump s.gamma
          (Arith.lt (Init.radialDist c0 c1 c2 (centre m.grid x 0) (centre m.grid x 1) (centre m.grid x 2)) (s.radius * s.radius)) 0),
       (4, jumpState s.rhoJump s.pJump s.gamma
          (Arith.lt (Init.radialDist c0 c1 c2 (centre m.grid x 0) (centre m.grid x 1) (centre m.grid x 2)) (s.radius * s.radius)) 4)]) _ ?_ ?_ ?_
  · intro x _
    simp; omega
  · intro x hx d
    exact Init.radialRound_eq s hg h3 hc (by have := hx.length_eq; simp [grow] at this; omega) d
  · intro x _ j hj
    exact jump_mem _ _ _ _ j hj

/-- **C65** (holds for three-dimensional grids) `gaussian::solve` returns, and every component of every cell, ghost cells
included, is the bell curve at the cell centre. -/
theorem C65_gaussian_partial (s : Init.Gaussian α) {a0 a1 a2 : α} (ha : s.average = [a0, a1, a2]) (h : m.Good S) (hL : m.Laid) (hg : m.grid.Sized)
    (h3 : m.grid.rng.dims.length = 3) {outs : List VarId} (hS : ∀ id ∈ outs, S id ∧ 1 ≤ id.basis.points ∧ 1 ≤ id.comps.length) :
    ∃ m', gaussian s outs m = .ok () m' ∧ m'.Good S ∧ m'.Laid ∧ m.Extends m' ∧
      (∀ id ∈ outs, m'.SetTo id (m.allCells id) fun x _ =>
        let w0 := (centre m.grid x 0 - a0) / s.deviation
        let w1 := (centre m.grid x 1 - a1) / s.deviation
        let w2 := (centre m.grid x 2 - a2) / s.deviation
        s.amplitude * Arith.exp (-w0 * w0 - w1 * w1 - w2 * w2)) ∧
      ∀ id, id ∉ outs → m'.contents id = m.contents id := by
  refine initial_all h hL (fun id hid => (hS id hid).1) (fun id => m.allCells id) (fun _ x j => _) ?_
  intro id hid c hc
  obtain ⟨_, hp, hn⟩ := hS id hid
  obtain ⟨p, ep⟩ : ∃ p : Nat, id.basis.points = p := ⟨id.basis.points.toNat, by omega⟩
  unfold Mgr.arrayBox Mgr.allCells
  rw [ep] at hc ⊢
  unfold Init.gaussian
  rw [hc.arr_range]
  have hpos := Init.pos_snoc (n := (id.comps.length : Int)) (Init.pos_snoc (n := (p : Int)) (pos_grow (g := 2) (by decide) h.mesh_pos) (by omega)) (by omega)
  rw [← FV.layout_split] at hpos
  have hsn : ∀ y, InBox (grow 2 m.grid.rng.dims ++ [(0, (p : Int)), (0, (id.comps.length : Int))]) y →
      ∃ x l, y = x ++ [l] ∧ InBox (grow 2 m.grid.rng.dims ++ [(0, (p : Int))]) x := by
    intro y hy
    rw [FV.layout_split] at hy
    have hl := hy.length_eq
    rcases List.eq_nil_or_concat y with rfl | ⟨x, l, rfl⟩
    · simp at hl
    · rw [List.concat_eq_append] at hy hl ⊢
      exact ⟨x, l, rfl, ((inBox_snoc (by simpa using hl)).1 hy).1⟩
  obtain ⟨c', k1, k2, k3, k4⟩ := Init.loop_spec (c := c) (sub := grow 2 m.grid.rng.dims ++ [(0, (p : Int)), (0, (id.comps.length : Int))])
    (round := Init.gaussianRound s m.grid) hc.wf (by rw [hc.dims]; simp)
    (by rw [hc.dims]; exact within_self _) hpos
    (fun y => [(y, Init.gaussianAt s.amplitude s.deviation a0 a1 a2 (centre m.grid y 0) (centre m.grid y 1) (centre m.grid y 2))])
    (by
      intro y hy a hw har
      obtain ⟨x, l, rfl, hx⟩ := hsn y hy
      have hlen : m.grid.rng.dims.length < x.length := by have := hx.length_eq; simp [grow] at this; omega
      rw [Init.gaussianRound_eq s hg h3 ha hlen, ← har]
      rw [Init.centre_append _ (by omega), Init.centre_append _ (by omega), Init.centre_append _ (by omega)]
      exact Init.set_eq hw (by rw [har, hc.dims]; simp) (by rw [har, hc.dims]; exact hy) rfl _)
    (by
      intro y hy q hq
      rw [List.mem_singleton.1 hq, hc.dims]; exact hy)
    (by
      rw [List.map_flatMap]
      simp only [List.map_cons, List.map_nil]
      rw [List.flatMap_singleton']
      exact cells_nodup _)
  refine ⟨c', k1, k2, ?_, ?_⟩
  · intro x hx j hj
    have hy : InBox (grow 2 m.grid.rng.dims ++ [(0, (p : Int)), (0, (id.comps.length : Int))]) (x ++ [(j : Int)]) := by
      rw [FV.layout_split]
      exact (inBox_snoc hx.length_eq).2 ⟨hx, by omega, by omega⟩
    have hlen : m.grid.rng.dims.length < x.length := by have := hx.length_eq; simp [grow] at this; omega
    have := k3 _ hy _ (List.mem_singleton.2 rfl)
    rw [Init.centre_append _ (by omega), Init.centre_append _ (by omega), Init.centre_append _ (by omega)] at this
    exact this
  · intro y hy hn'
    obtain ⟨x, l, rfl, hx⟩ := hsn y hy
    simp only [List.dropLast_concat] at hn'
    exact absurd hx hn'

/-- **C65** (holds for three-dimensional grids) `magnetic_pulse::solve` returns, and in every cell, ghost cells included,
component 5 is the bell curve at the cell centre and the others are zero. -/
theorem C65_pulse_partial (amp dev : α) (h : m.Good S) (hL : m.Laid) (hg : m.grid.Sized)
    (h3 : m.grid.rng.dims.length = 3) {outs : List VarId} (hS : ∀ id ∈ outs, S id ∧ 1 ≤ id.basis.points ∧ 6 ≤ id.comps.length) :
    ∃ m', pulse amp dev outs m = .ok () m' ∧ m'.Good S ∧ m'.Laid ∧ m.Extends m' ∧
      (∀ id ∈ outs, m'.SetTo id (m.allCells id) fun x j => if j = 5 then
        let r2 := Arith.lit (1 / 2) * (centre m.grid x 0 * centre m.grid x 0 + centre m.grid x 1 * centre m.grid x 1 +
          centre m.grid x 2 * centre m.grid x 2) / dev
        amp * Arith.exp (-r2) else Arith.lit 0) ∧
      ∀ id, id ∉ outs → m'.contents id = m.contents id := by
  refine initial_all h hL (fun id hid => (hS id hid).1) (fun id => m.allCells id) (fun _ x j => _) ?_
  intro id hid c hc
  obtain ⟨_, hp, hn⟩ := hS id hid
  obtain ⟨p, ep⟩ : ∃ p : Nat, id.basis.points = p := ⟨id.basis.points.toNat, by omega⟩
  unfold Mgr.arrayBox Mgr.allCells
  rw [ep] at hc ⊢
  unfold Init.pulse
  simp only []
  rw [Init.compRange_all (hc.sameShape (Init.fill_sameShape c _)), Res.ok_bind]
  refine Init.filled_spec hc (within_self _) (Init.pos_snoc (pos_grow (by decide) h.mesh_pos) (by omega)) (l := 5) (by decide) (by omega)
    (fun x => [((0 : Int), Init.pulseAt amp dev (centre m.grid x 0) (centre m.grid x 1) (centre m.grid x 2))]) _ ?_ ?_ ?_
  · intro x _
    simp; omega
  · intro x hx d
    exact Init.pulseRound_eq amp dev hg h3 (by have := hx.length_eq; simp [grow] at this; omega) d
  · intro x _ j hj
    by_cases h5 : j = 5
    · subst h5; left; simp [Init.pulseAt]
    · right
      refine ⟨?_, by simp [h5]⟩
      simp; omega

/-- The rounds of the three solvers read an uninitialised coordinate on grids of one or two dimensions. -/
theorem unread_rounds (h : m.Good S) (hg : m.grid.Sized) (h3 : m.grid.rng.dims.length ≤ 2) {a b : Box} {y : Cell}
    (hy : m.grid.rng.dims.length ≤ y.length) (d : List α) :
    (∀ s : Init.Radial α, s.center.length = 3 → ∃ w, Init.radialRound s m.grid (Indexer.onCell a b y) d = .ub w) ∧
    (∀ s : Init.Gaussian α, s.average.length = 3 → ∃ w, Init.gaussianRound s m.grid (Indexer.onCell a b y) d = .ub w) ∧
    (∀ amp dev : α, ∃ w, Init.pulseRound amp dev m.grid (Indexer.onCell a b y) d = .ub w) := by
  have h1 : 1 ≤ m.grid.rng.dims.length := by
    cases hd : m.grid.rng.dims with
    | nil => exact absurd hd h.mesh_ne
    | cons _ _ => simp
  have kc : Init.coords m.grid (Indexer.onCell a b y) = _ := Init.coords_eq hg (by omega) (by exact hy)
  have k0 := Init.coord_ok (g := m.grid) (index := (Indexer.onCell a b y).index) (i := 0) (by omega) (by omega)
  simp only [Nat.cast_zero] at k0
  have vg : ∀ (l : List α), l.length = 3 → ∀ i : Nat, i < 3 → ∃ v, vget l (i : Int) = .ok v := by
    intro l hl i hi
    exact ⟨_, vget_nat (by omega)⟩
  by_cases h2 : m.grid.rng.dims.length = 1
  · obtain ⟨w, k1⟩ := Init.coord_ub (g := m.grid) (index := (Indexer.onCell a b y).index) (i := 1) (by omega) (by omega)
    simp only [Nat.cast_one] at k1
    refine ⟨?_, ?_, ?_⟩
    · intro s hs
      obtain ⟨v0, e0⟩ := vg s.center hs 0 (by omega)
      simp only [Nat.cast_zero] at e0
      unfold Init.radialRound
      rw [kc, Res.ok_bind, k0, Res.ok_bind, e0, Res.ok_bind, k1]
      exact ⟨w, rfl⟩
    · intro s hs
      obtain ⟨v0, e0⟩ := vg s.average hs 0 (by omega)
      simp only [Nat.cast_zero] at e0
      unfold Init.gaussianRound
      rw [kc, Res.ok_bind, k0, Res.ok_bind, e0, Res.ok_bind, k1]
      exact ⟨w, rfl⟩
    · intro amp dev
      unfold Init.pulseRound
      rw [kc, Res.ok_bind, k0, Res.ok_bind, k1]
      exact ⟨w, rfl⟩
  · have k1 := Init.coord_ok (g := m.grid) (index := (Indexer.onCell a b y).index) (i := 1) (by omega) (by omega)
    obtain ⟨w, k2⟩ := Init.coord_ub (g := m.grid) (index := (Indexer.onCell a b y).index) (i := 2) (by omega) (by omega)
    simp only [Nat.cast_one, Nat.cast_ofNat] at k1 k2
    refine ⟨?_, ?_, ?_⟩
    · intro s hs
      obtain ⟨v0, e0⟩ := vg s.center hs 0 (by omega)
      obtain ⟨v1, e1⟩ := vg s.center hs 1 (by omega)
      simp only [Nat.cast_zero, Nat.cast_one] at e0 e1
      unfold Init.radialRound
      rw [kc, Res.ok_bind, k0, Res.ok_bind, e0, Res.ok_bind, k1, Res.ok_bind, e1, Res.ok_bind, k2]
      exact ⟨w, rfl⟩
    · intro s hs
      obtain ⟨v0, e0⟩ := vg s.average hs 0 (by omega)
      obtain ⟨v1, e1⟩ := vg s.average hs 1 (by omega)
      simp only [Nat.cast_zero, Nat.cast_one] at e0 e1
      unfold Init.gaussianRound
      rw [kc, Res.ok_bind, k0, Res.ok_bind, e0, Res.ok_bind, k1, Res.ok_bind, e1, Res.ok_bind, k2]
      exact ⟨w, rfl⟩
    · intro amp dev
      unfold Init.pulseRound
      rw [kc, Res.ok_bind, k0, Res.ok_bind, k1, Res.ok_bind, k2]
      exact ⟨w, rfl⟩

theorem resize3_length (l : List α) : (Init.resize3 l).length = 3 := by
  unfold Init.resize3
  simp
  omega

/-- The loops of the three solvers, when every round runs into undefined behaviour. -/
theorem loops_ub (h : m.Good S) {id : VarId} (hp : 1 ≤ id.basis.points) (hn : 1 ≤ id.comps.length) {c : Chunk α}
    (hc : c.Layout 2 m.grid.rng.dims [(0, id.basis.points), (0, (id.comps.length : Int))]) {round : Indexer → List α → Res (List α)}
    (hr : ∀ (a b : Box) (y : Cell) (d : List α), m.grid.rng.dims.length ≤ y.length → ∃ w, round (Indexer.onCell a b y) d = .ub w) :
    (∃ w, Init.cellLoop c.arr.rng round c = .ub w) ∧
    ∀ (inner : Bool) (l : Int), 0 ≤ l → l < id.comps.length →
      ∃ w, (Init.compRange inner { c with arr := c.arr.fill (Arith.lit 0) } l (l + 1) >>= fun r =>
        Init.cellLoop r round { c with arr := c.arr.fill (Arith.lit 0) }) = .ub w := by
  have hpos : Pos (grow 2 m.grid.rng.dims ++ [(0, id.basis.points)]) := Init.pos_snoc (pos_grow (by decide) h.mesh_pos) (by omega)
  have hposM : Pos (m.grid.rng.dims ++ [(0, id.basis.points)]) := Init.pos_snoc h.mesh_pos (by omega)
  have hb : ∀ {c : Chunk α} {sub : Box}, m.grid.rng.dims.length ≤ sub.length → ∀ x, InBox sub x → ∀ d,
      ∃ w, round (Indexer.onCell sub c.arr.rng.dims x) d = .ub w := by
    intro c sub hs x hx d
    exact hr _ _ _ _ (by rw [hx.length_eq]; exact hs)
  constructor
  · rw [hc.arr_range]
    refine Init.loop_ub (by rw [hc.dims]; simp) (by rw [hc.dims]; exact within_self _) ?_ (hb (by simp [grow]))
    rw [FV.layout_split]
    exact Init.pos_snoc hpos (by omega)
  · intro inner l h0 h1
    have hc' := hc.sameShape (Init.fill_sameShape c (Arith.lit 0))
    have hl : ∀ {B : Box}, Pos B → Pos (B ++ [(l, l + 1)]) := by
      intro B hB
      rw [pos_append]
      exact ⟨hB, by intro d hd; simp at hd; subst hd; simp⟩
    have hw : ∀ {B : Box}, Range.Within (grow 2 m.grid.rng.dims ++ [(0, id.basis.points)]) B →
        Range.Within (grow 2 m.grid.rng.dims ++ [(0, id.basis.points), (0, (id.comps.length : Int))]) (B ++ [(l, l + 1)]) := by
      intro B hB
      rw [FV.layout_split]
      unfold Range.Within at hB ⊢
      refine List.rel_append hB ?_
      simp; omega
    cases inner with
    | true =>
      rw [Init.compRange_inner hc', Res.ok_bind]
      exact Init.loop_ub (by rw [hc'.dims]; simp) (by rw [hc'.dims]; exact hw (FV.within_grow (by decide) _)) (hl hposM) (hb (by simp))
    | false =>
      rw [Init.compRange_all hc', Res.ok_bind]
      exact Init.loop_ub (by rw [hc'.dims]; simp) (by rw [hc'.dims]; exact hw (within_self _)) (hl hpos) (hb (by simp [grow]))

/-- **C65** (false of the code) On every grid of one or two dimensions, whatever the parameters given to `setup`, the first
output variable makes `gaussian`, `magnetic_pulse` and `radial_shock_tube` read an uninitialised element of `x`. -/
theorem C65_false (h : m.Good S) (hL : m.Laid) (hg : m.grid.Sized) (h2 : m.grid.rng.dims.length ≤ 2) {id : VarId} (hid : S id)
    (hp : 1 ≤ id.basis.points) (hn : 6 ≤ id.comps.length) (outs : List VarId) :
    (∀ (amp dev : α) (avg : List α), ∃ w, gaussian (Init.Gaussian.setup amp avg dev) (id :: outs) m = .ub w) ∧
    (∀ amp dev : α, ∃ w, pulse amp dev (id :: outs) m = .ub w) ∧
    (∀ (r rhoJump pJump gamma : α) (ctr : List α), ∃ w, radial (Init.Radial.setup r rhoJump pJump gamma ctr) (id :: outs) m = .ub w) := by
  refine ⟨?_, ?_, ?_⟩
  · intro amp dev avg
    refine initial_ub h hL hid (fun c hc => ?_)
    exact (loops_ub h hp (by omega) hc (fun a b y d hy => (unread_rounds h hg h2 hy d).2.1 _ (resize3_length avg))).1
  · intro amp dev
    refine initial_ub h hL hid (fun c hc => ?_)
    exact (loops_ub h hp (by omega) hc (fun a b y d hy => (unread_rounds h hg h2 hy d).2.2 amp dev)).2 false 5 (by decide) (by omega)
  · intro r rhoJump pJump gamma ctr
    refine initial_ub h hL hid (fun c hc => ?_)
    exact (loops_ub h hp (by omega) hc (fun a b y d hy => (unread_rounds h hg h2 hy d).1 _ (resize3_length ctr))).2 false 0 (by decide) (by omega)

/-- **C72** (false of the code) On every grid of more than three dimensions the first output variable makes each of these
solvers write beyond the end of `double x[3]`. -/
theorem C72_false (h : m.Good S) (hL : m.Laid) (hg : m.grid.Sized) (h3 : 3 < m.grid.rng.dims.length) {id : VarId} (hid : S id)
    (hp : 1 ≤ id.basis.points) (hn : 6 ≤ id.comps.length) (outs : List VarId) :
    (∀ s, ∃ w, shockTube s (id :: outs) m = .ub w) ∧ (∀ s, ∃ w, radial s (id :: outs) m = .ub w) ∧
    (∀ s, ∃ w, gaussian s (id :: outs) m = .ub w) ∧ (∀ amp dev : α, ∃ w, pulse amp dev (id :: outs) m = .ub w) ∧
    (∀ s : Init.Wave α, s.dim = 0 ∨ s.dim = 1 ∨ s.dim = 2 → ∃ w, wave s (id :: outs) m = .ub w) := by
  have key : ∀ {a b : Box} {y : Cell}, m.grid.rng.dims.length ≤ y.length → ∃ w, Init.coords m.grid (Indexer.onCell a b y) = .ub w :=
    fun hy => Init.coords_ub hg h3 hy
  refine ⟨?_, ?_, ?_, ?_, ?_⟩
  · intro s
    refine initial_ub h hL hid (fun c hc => ?_)
    refine (loops_ub h hp (by omega) hc (fun a b y d hy => ?_)).2 true 0 (by decide) (by omega)
    obtain ⟨w, hw⟩ := key hy
    exact ⟨w, by unfold Init.shockRound; rw [hw]; rfl⟩
  · intro s
    refine initial_ub h hL hid (fun c hc => ?_)
    refine (loops_ub h hp (by omega) hc (fun a b y d hy => ?_)).2 false 0 (by decide) (by omega)
    obtain ⟨w, hw⟩ := key hy
    exact ⟨w, by unfold Init.radialRound; rw [hw]; rfl⟩
  · intro s
    refine initial_ub h hL hid (fun c hc => ?_)
    refine (loops_ub h hp (by omega) hc (fun a b y d hy => ?_)).1
    obtain ⟨w, hw⟩ := key hy
    exact ⟨w, by unfold Init.gaussianRound; rw [hw]; rfl⟩
  · intro amp dev
    refine initial_ub h hL hid (fun c hc => ?_)
    refine (loops_ub h hp (by omega) hc (fun a b y d hy => ?_)).2 false 5 (by decide) (by omega)
    obtain ⟨w, hw⟩ := key hy
    exact ⟨w, by unfold Init.pulseRound; rw [hw]; rfl⟩
  · intro s hs
    refine initial_ub h hL hid (fun c hc => ?_)
    have := (loops_ub h hp (by omega) hc (round := Init.waveRound s m.grid) (fun a b y d hy => by
      obtain ⟨w, hw⟩ := key hy
      exact ⟨w, by unfold Init.waveRound; rw [hw]; rfl⟩)).2 false 0 (by decide) (by omega)
    unfold Init.wave
    simp only [if_pos hs]
    exact this

/-! ## C64 -/

/-- The state `electromagnetic_wave_1D` computes, in every cell. -/
theorem wave_all (w : Init.Wave α) {dim : Nat} (hdim : w.dim = dim) (h : m.Good S) (hL : m.Laid) (hg : m.grid.Sized)
    (h3 : m.grid.rng.dims.length ≤ 3) (hd : dim < m.grid.rng.dims.length) {vs : Cell → List α}
    (hvs : ∀ x, Init.waveState w (Arith.sin (w.k * centre m.grid x dim)) = some (vs x)) (hlen : ∀ x, (vs x).length = 6)
    {outs : List VarId} (hS : ∀ id ∈ outs, S id ∧ 1 ≤ id.basis.points ∧ 6 ≤ id.comps.length) :
    ∃ m', wave w outs m = .ok () m' ∧ m'.Good S ∧ m'.Laid ∧ m.Extends m' ∧
      (∀ id ∈ outs, m'.SetTo id (m.allCells id) fun x j => (vs x).getD j (Arith.lit 0)) ∧
      ∀ id, id ∉ outs → m'.contents id = m.contents id := by
  refine initial_all h hL (fun id hid => (hS id hid).1) (fun id => m.allCells id) (fun _ x j => _) ?_
  intro id hid c hc
  obtain ⟨_, hp, hn⟩ := hS id hid
  obtain ⟨p, ep⟩ : ∃ p : Nat, id.basis.points = p := ⟨id.basis.points.toNat, by omega⟩
  unfold Mgr.arrayBox Mgr.allCells
  rw [ep] at hc ⊢
  unfold Init.wave
  simp only []
  rw [Init.compRange_all (hc.sameShape (Init.fill_sameShape c _)), Res.ok_bind, if_pos (by omega)]
  refine Init.filled_spec hc (within_self _) (Init.pos_snoc (pos_grow (by decide) h.mesh_pos) (by omega)) (l := 0) (le_refl _) (by omega)
    (fun x => (vs x).zipIdx.map fun p => ((p.2 : Int), p.1)) _ ?_ ?_ ?_
  · intro x _
    constructor
    · rw [fst_zipIdx]
      exact List.nodup_range.map (fun a b e => by simpa using e)
    · intro q hq
      have := List.mem_map_of_mem (f := Prod.fst) hq
      rw [fst_zipIdx, List.mem_map] at this
      obtain ⟨i, hi, e⟩ := this
      rw [List.mem_range, hlen] at hi
      omega
  · intro x hx d
    exact Init.waveRound_eq hdim hd hg h3 (by have := hx.length_eq; simp [grow] at this; omega) (hvs x) d
  · intro x _ j hj
    by_cases h6 : j < 6
    · left
      rw [sub_zero]
      exact mem_zipIdx (by rw [hlen]; exact h6) _
    · right
      refine ⟨?_, ?_⟩
      · rw [fst_zipIdx, hlen]
        simp; omega
      · rw [List.getD_eq_getElem?_getD, List.getElem?_eq_none (by rw [hlen]; omega)]
        rfl

/-- **C64** (other directions) If the direction is none of 0, 1, 2, the output variables are only cleared. -/
theorem C64_no_direction (w : Init.Wave α) (hdim : ¬ (w.dim = 0 ∨ w.dim = 1 ∨ w.dim = 2)) (h : m.Good S) (hL : m.Laid)
    {outs : List VarId} (hS : ∀ id ∈ outs, S id ∧ 1 ≤ id.basis.points) :
    ∃ m', wave w outs m = .ok () m' ∧ m'.Good S ∧ m'.Laid ∧ m.Extends m' ∧
      (∀ id ∈ outs, m'.Stores id fun _ => Arith.lit 0) ∧ ∀ id, id ∉ outs → m'.contents id = m.contents id := by
  obtain ⟨m', k1, k2, k3, k4, k5, k6⟩ := initial_all (f := Init.wave w) h hL (fun id hid => (hS id hid).1) (fun id => m.allCells id)
    (fun _ _ _ => Arith.lit 0) (outs := outs) (by
      intro id hid c hc
      unfold Init.wave
      simp only []
      rw [Init.compRange_all (hc.sameShape (Init.fill_sameShape c _)), Res.ok_bind, if_neg hdim]
      have hz : ∀ y, InBox (m.arrayBox id) y → (c.arr.fill (Arith.lit 0 : α)).val y = some (Arith.lit 0) := by
        intro y hy
        exact Init.val_fill hc.wf (by rw [hc.dims]; simp) (by rw [hc.dims]; exact hy)
      refine ⟨_, rfl, Init.fill_sameShape c _, ?_, fun y hy _ => hz y hy⟩
      intro x hx j hj
      apply hz
      unfold Mgr.arrayBox
      rw [FV.layout_split]
      exact (inBox_snoc hx.length_eq).2 ⟨hx, by omega, by omega⟩)
  refine ⟨m', k1, k2, k3, k4, ?_, k6⟩
  intro id hid
  obtain ⟨c, c1, c2, c3⟩ := k5 id hid
  have hb : m'.arrayBox id = m.allCells id ++ [(0, (id.comps.length : Int))] := by
    unfold Mgr.arrayBox Mgr.allCells; rw [k4.grid, FV.layout_split]
  refine ⟨c, c1, fun y hy => ?_⟩
  by_cases hin : InBox (m.allCells id) y.dropLast
  · have hl := hy.length_eq
    rw [hb] at hy hl
    rcases List.eq_nil_or_concat y with rfl | ⟨x, l, rfl⟩
    · simp at hl
    · rw [List.concat_eq_append] at hy hl ⊢
      obtain ⟨hx, h0, h1⟩ := (inBox_snoc (by simpa using hl)).1 hy
      have := c2 x hx l.toNat (by omega)
      rw [show ((l.toNat : Nat) : Int) = l by omega] at this
      exact this
  · exact c3 y hy hin

/-- **C72** (holds up to three dimensions) On three-dimensional grids all five solvers return. -/
theorem C72_partial (h : m.Good S) (hL : m.Laid) (hg : m.grid.Sized) (h3 : m.grid.rng.dims.length = 3)
    {outs : List VarId} (hS : ∀ id ∈ outs, S id ∧ 1 ≤ id.basis.points ∧ 6 ≤ id.comps.length) :
    (∀ s, ∃ m', shockTube s outs m = .ok () m') ∧
    (∀ (r rhoJump pJump gamma : α) (ctr : List α), ∃ m', radial (Init.Radial.setup r rhoJump pJump gamma ctr) outs m = .ok () m') ∧
    (∀ (amp dev : α) (avg : List α), ∃ m', gaussian (Init.Gaussian.setup amp avg dev) outs m = .ok () m') ∧
    (∀ amp dev : α, ∃ m', pulse amp dev outs m = .ok () m') ∧ (∀ s : Init.Wave α, ∃ m', wave s outs m = .ok () m') := by
  have h5 : ∀ id ∈ outs, S id ∧ 1 ≤ id.basis.points ∧ 5 ≤ id.comps.length := fun id hid => by
    have := hS id hid; exact ⟨this.1, this.2.1, by omega⟩
  have h1 : ∀ id ∈ outs, S id ∧ 1 ≤ id.basis.points ∧ 1 ≤ id.comps.length := fun id hid => by
    have := hS id hid; exact ⟨this.1, this.2.1, by omega⟩
  have three : ∀ l : List α, ∃ a b c, Init.resize3 l = [a, b, c] := by
    intro l
    have := resize3_length l
    match hl : Init.resize3 l, this with
    | [a, b, c], _ => exact ⟨a, b, c, rfl⟩
  refine ⟨?_, ?_, ?_, ?_, ?_⟩
  · intro s
    obtain ⟨m', k, _⟩ := C63_shock_tube s h hL hg (by omega) h5
    exact ⟨m', k⟩
  · intro r rhoJump pJump gamma ctr
    obtain ⟨a, b, c, e⟩ := three ctr
    obtain ⟨m', k, _⟩ := C65_radial_partial (Init.Radial.setup r rhoJump pJump gamma ctr) e h hL hg h3 h5
    exact ⟨m', k⟩
  · intro amp dev avg
    obtain ⟨a, b, c, e⟩ := three avg
    obtain ⟨m', k, _⟩ := C65_gaussian_partial (Init.Gaussian.setup amp avg dev) e h hL hg h3 h1
    exact ⟨m', k⟩
  · intro amp dev
    obtain ⟨m', k, _⟩ := C65_pulse_partial amp dev h hL hg h3 hS
    exact ⟨m', k⟩
  · intro w
    by_cases hdim : w.dim = 0 ∨ w.dim = 1 ∨ w.dim = 2
    · obtain ⟨d, hd, hd3⟩ : ∃ d : Nat, w.dim = d ∧ d < 3 := by
        rcases hdim with e | e | e
        · exact ⟨0, e, by omega⟩
        · exact ⟨1, e, by omega⟩
        · exact ⟨2, e, by omega⟩
      obtain ⟨vs, hvs, hlen⟩ : ∃ vs : Cell → List α, (∀ x, Init.waveState w (Arith.sin (w.k * centre m.grid x d)) = some (vs x)) ∧ ∀ x, (vs x).length = 6 := by
        have : ∀ x : Cell, ∃ l : List α, Init.waveState w (Arith.sin (w.k * centre m.grid x d)) = some l ∧ l.length = 6 := by
          intro x
          unfold Init.waveState
          rcases hdim with e | e | e <;> rw [e] <;> exact ⟨_, rfl, rfl⟩
        choose vs h1 h2 using this
        exact ⟨vs, h1, h2⟩
      obtain ⟨m', k, _⟩ := wave_all w hd h hL hg (by omega) (by omega) hvs hlen hS
      exact ⟨m', k⟩
    · obtain ⟨m', k, _⟩ := C64_no_direction w hdim h hL (fun id hid => ⟨(hS id hid).1, (hS id hid).2.1⟩)
      exact ⟨m', k⟩

/-- **C65, C72**, for all numbers of dimensions: with an output variable to set, `shock_tube` returns exactly on grids of up to three dimensions;
`radial_shock_tube`, `gaussian` and `magnetic_pulse` exactly on grids of three (fewer: uninitialised coordinates are read, C65; more: a write beyond the
end of the coordinates). -/
theorem C72_exactly (h : m.Good S) (hL : m.Laid) (hg : m.grid.Sized) {id : VarId} {outs : List VarId}
    (hS : ∀ i ∈ id :: outs, S i ∧ 1 ≤ i.basis.points ∧ 6 ≤ i.comps.length) :
    (∀ s, (∃ m', shockTube s (id :: outs) m = .ok () m') ↔ m.grid.rng.dims.length ≤ 3) ∧
    (∀ (r rhoJump pJump gamma : α) (ctr : List α),
      (∃ m', radial (Init.Radial.setup r rhoJump pJump gamma ctr) (id :: outs) m = .ok () m') ↔ m.grid.rng.dims.length = 3) ∧
    (∀ (amp dev : α) (avg : List α), (∃ m', gaussian (Init.Gaussian.setup amp avg dev) (id :: outs) m = .ok () m') ↔ m.grid.rng.dims.length = 3) ∧
    (∀ amp dev : α, (∃ m', pulse amp dev (id :: outs) m = .ok () m') ↔ m.grid.rng.dims.length = 3) := by
  have hid := hS id List.mem_cons_self
  have h5 : ∀ i ∈ id :: outs, S i ∧ 1 ≤ i.basis.points ∧ 5 ≤ i.comps.length := fun i hi => by
    have := hS i hi; exact ⟨this.1, this.2.1, by omega⟩
  have no : ∀ {x : SRes (Mgr α) Unit}, (∃ w, x = .ub w) → ¬ ∃ m', x = .ok () m' := by
    rintro x ⟨w, rfl⟩ ⟨m', h⟩; cases h
  have big : 3 < m.grid.rng.dims.length → _ := fun h3 => C72_false h hL hg h3 hid.1 hid.2.1 hid.2.2 outs
  have small : m.grid.rng.dims.length ≤ 2 → _ := fun h3 => C65_false h hL hg h3 hid.1 hid.2.1 hid.2.2 outs
  have mid : m.grid.rng.dims.length = 3 → _ := fun h3 => C72_partial h hL hg h3 hS
  have tri : ∀ {P : Prop}, (3 < m.grid.rng.dims.length → ¬ P) → (m.grid.rng.dims.length ≤ 2 → ¬ P) → (m.grid.rng.dims.length = 3 → P) →
      (P ↔ m.grid.rng.dims.length = 3) := by
    intro P h1 h2 h3
    refine ⟨fun hP => ?_, h3⟩
    by_contra hc
    rcases Nat.lt_or_ge 3 m.grid.rng.dims.length with h4 | h4
    · exact h1 h4 hP
    · exact h2 (by omega) hP
  refine ⟨fun s => ⟨fun hP => ?_, fun h3 => ?_⟩, ?_, ?_, ?_⟩
  · by_contra hc
    exact no ((big (by omega)).1 s) hP
  · obtain ⟨m', k, _⟩ := C63_shock_tube s h hL hg h3 h5
    exact ⟨m', k⟩
  · intro r rhoJump pJump gamma ctr
    exact tri (fun h3 => no ((big h3).2.1 _)) (fun h3 => no ((small h3).2.2 r rhoJump pJump gamma ctr)) fun h3 => (mid h3).2.1 r rhoJump pJump gamma ctr
  · intro amp dev avg
    exact tri (fun h3 => no ((big h3).2.2.1 _)) (fun h3 => no ((small h3).1 amp dev avg)) fun h3 => (mid h3).2.2.1 amp dev avg
  · intro amp dev
    exact tri (fun h3 => no ((big h3).2.2.2.1 amp dev)) (fun h3 => no ((small h3).2.1 amp dev)) fun h3 => (mid h3).2.2.2.1 amp dev

end

/-- **C64** (exact arithmetic) For direction 0, 1 or 2 of the grid, every cell of every output variable, ghost cells included,
gets the field of a plane wave: with `B₀` the given magnetic field, `s = sin (k x_d)` at the cell centre, the electric field is
`c s B₀ × e_d` and the magnetic field is `s B₀`, except that its component along `d` is not modulated. -/
theorem C64_wave {S : VarId → Prop} {m : Mgr ℝ} (w : Init.Wave ℝ) (d : Fin 3) (hdim : w.dim = (d : Nat)) (h : m.Good S) (hL : m.Laid) (hg : m.grid.Sized)
    (h3 : m.grid.rng.dims.length ≤ 3) (hd : (d : Nat) < m.grid.rng.dims.length)
    {outs : List VarId} (hS : ∀ id ∈ outs, S id ∧ 1 ≤ id.basis.points ∧ 6 ≤ id.comps.length) :
    ∃ (m' : Mgr ℝ) (E B : Cell → Vec), wave w outs m = .ok () m' ∧ m'.Good S ∧ m'.Laid ∧ m.Extends m' ∧
      (∀ id ∈ outs, m'.SetTo id (m.allCells id) fun x j => emState (E x) (B x) j) ∧
      (∀ id, id ∉ outs → m'.contents id = m.contents id) ∧
      ∀ x i, E x i = w.c * Real.sin (w.k * centre m.grid x d) * cross ![w.Bx, w.By, w.Bz] (unit d) i ∧
        B x i = (if i = d then 1 else Real.sin (w.k * centre m.grid x d)) * ![w.Bx, w.By, w.Bz] i := by
  set sn : Cell → ℝ := fun x => Real.sin (w.k * centre m.grid x d) with hsn
  set E : Cell → Vec := fun x i => w.c * sn x * cross ![w.Bx, w.By, w.Bz] (unit d) i with hE
  set B : Cell → Vec := fun x i => (if i = d then 1 else sn x) * ![w.Bx, w.By, w.Bz] i with hB
  obtain ⟨m', k1, k2, k3, k4, k5, k6⟩ := wave_all w hdim h hL hg h3 hd (vs := fun x => [E x 0, E x 1, E x 2, B x 0, B x 1, B x 2])
    (by
      intro x
      have es : (Arith.sin (w.k * centre m.grid x d) : ℝ) = sn x := rfl
      rw [es]
      unfold Init.waveState
      rw [hdim]
      match d with
      | 0 => simp [hE, hB, cross, unit, real_lit, real_ofInt]; refine ⟨?_, ?_, ?_, ?_⟩ <;> ring
      | 1 => simp [hE, hB, cross, unit, real_lit, real_ofInt]; refine ⟨?_, ?_, ?_, ?_⟩ <;> ring
      | 2 => simp [hE, hB, cross, unit, real_lit, real_ofInt]; refine ⟨?_, ?_, ?_, ?_⟩ <;> ring)
    (fun _ => rfl) hS
  refine ⟨m', E, B, k1, k2, k3, k4, ?_, k6, fun x i => ⟨rfl, rfl⟩⟩
  intro id hid
  obtain ⟨c, c1, c2, c3⟩ := k5 id hid
  refine ⟨c, c1, ?_, c3⟩
  intro x hx j hj
  rw [c2 x hx j hj]
  match j with
  | 0 => rfl
  | 1 => rfl
  | 2 => rfl
  | 3 => rfl
  | 4 => rfl
  | 5 => rfl
  | (j + 6) => simp [emState, real_lit]

/-- **C64** Such a field is a transverse wave: `E·B = 0`, no electric field along `d`, energy flux along `d` equal to
`c s² |B_t|²` (so not negative for `c ≥ 0`), and no energy flux across `d` from the wave fields. -/
theorem C64_transverse {c s : ℝ} {d : Fin 3} {B0 E B : Vec} (hE : ∀ i, E i = c * s * cross B0 (unit d) i)
    (hB : ∀ i, B i = (if i = d then 1 else s) * B0 i) :
    let Bt : Vec := fun i => if i = d then 0 else B0 i
    vdot E B = 0 ∧ E d = 0 ∧ cross E B d = c * s ^ 2 * vdot Bt Bt ∧ (0 ≤ c → 0 ≤ cross E B d) ∧
      ∀ i, i ≠ d → cross E (fun j => s * Bt j) i = 0 := by
  intro Bt
  have t0 : Bt 0 = if 0 = d then 0 else B0 0 := rfl
  have t1 : Bt 1 = if 1 = d then 0 else B0 1 := rfl
  have t2 : Bt 2 = if 2 = d then 0 else B0 2 := rfl
  clear_value Bt
  have key : vdot E B = 0 ∧ E d = 0 ∧ cross E B d = c * s ^ 2 * vdot Bt Bt ∧
      ∀ i, i ≠ d → cross E (fun j => s * Bt j) i = 0 := by
    have e0 := hE 0
    have e1 := hE 1
    have e2 := hE 2
    have b0 := hB 0
    have b1 := hB 1
    have b2 := hB 2
    match d with
    | 0 =>
      simp [cross, unit] at e0 e1 e2 b0 b1 b2 t0 t1 t2
      refine ⟨?_, e0, ?_, ?_⟩
      · simp only [vdot, e0, e1, e2, b0, b1, b2]; ring
      · simp [cross, vdot, t0, t1, t2, e0, e1, e2, b0, b1, b2]; ring
      · intro i hi
        match i with
        | 0 => exact absurd rfl hi
        | 1 => simp [cross, t0, t1, t2, e0, e1, e2]; try ring
        | 2 => simp [cross, t0, t1, t2, e0, e1, e2]; try ring
    | 1 =>
      simp [cross, unit] at e0 e1 e2 b0 b1 b2 t0 t1 t2
      refine ⟨?_, e1, ?_, ?_⟩
      · simp only [vdot, e0, e1, e2, b0, b1, b2]; ring
      · simp [cross, vdot, t0, t1, t2, e0, e1, e2, b0, b1, b2]; ring
      · intro i hi
        match i with
        | 0 => simp [cross, t0, t1, t2, e0, e1, e2]; try ring
        | 1 => exact absurd rfl hi
        | 2 => simp [cross, t0, t1, t2, e0, e1, e2]; try ring
    | 2 =>
      simp [cross, unit] at e0 e1 e2 b0 b1 b2 t0 t1 t2
      refine ⟨?_, e2, ?_, ?_⟩
      · simp only [vdot, e0, e1, e2, b0, b1, b2]; ring
      · simp [cross, vdot, t0, t1, t2, e0, e1, e2, b0, b1, b2]; ring
      · intro i hi
        match i with
        | 0 => simp [cross, t0, t1, t2, e0, e1, e2]; try ring
        | 1 => simp [cross, t0, t1, t2, e0, e1, e2]; try ring
        | 2 => exact absurd rfl hi
  refine ⟨key.1, key.2.1, key.2.2.1, fun hc => ?_, key.2.2.2⟩
  rw [key.2.2.1]
  have : 0 ≤ vdot Bt Bt := by unfold vdot; nlinarith [sq_nonneg (Bt 0), sq_nonneg (Bt 1), sq_nonneg (Bt 2)]
  positivity

/-! ## C70 -/

/-- **C70** (holds where the third coordinate of the cell centre is that of the centre of the ball, or equals the second one of the
cell centre) A cell is set to the inner state if and only if its centre is in the ball. -/
theorem C70_partial {S : VarId → Prop} {m : Mgr ℝ} (s : Init.Radial ℝ) {c0 c1 c2 : ℝ} (hc : s.center = [c0, c1, c2]) (h : m.Good S) (hL : m.Laid) (hg : m.grid.Sized)
    (h3 : m.grid.rng.dims.length = 3) {outs : List VarId} (hS : ∀ id ∈ outs, S id ∧ 1 ≤ id.basis.points ∧ 5 ≤ id.comps.length) :
    ∃ m', radial s outs m = .ok () m' ∧ ∀ id ∈ outs, ∃ c, m'.contents id = some c ∧
      ∀ x, InBox (m.allCells id) x → centre m.grid x 2 = c2 ∨ centre m.grid x 2 = centre m.grid x 1 → ∀ j : Nat, j < id.comps.length →
        (dist2 ![centre m.grid x 0, centre m.grid x 1, centre m.grid x 2] ![c0, c1, c2] < s.radius ^ 2 →
          c.arr.val (x ++ [(j : Int)]) = some (jumpState s.rhoJump s.pJump s.gamma true j)) ∧
        (¬ dist2 ![centre m.grid x 0, centre m.grid x 1, centre m.grid x 2] ![c0, c1, c2] < s.radius ^ 2 →
          c.arr.val (x ++ [(j : Int)]) = some (jumpState s.rhoJump s.pJump s.gamma false j)) := by
  obtain ⟨m', k1, k2, k3, k4, k5, k6⟩ := C65_radial_partial s hc h hL hg h3 hS
  refine ⟨m', k1, ?_⟩
  intro id hid
  obtain ⟨c, hc1, hc2, -⟩ := k5 id hid
  refine ⟨c, hc1, ?_⟩
  intro x hx hz j hj
  have hv := hc2 x hx j hj
  have e : (centre m.grid x 0 - c0) * (centre m.grid x 0 - c0) + (centre m.grid x 1 - c1) * (centre m.grid x 1 - c1) +
      (centre m.grid x 2 - c2) * (centre m.grid x 1 - c2) = dist2 ![centre m.grid x 0, centre m.grid x 1, centre m.grid x 2] ![c0, c1, c2] := by
    simp only [dist2, Matrix.cons_val_zero, Matrix.cons_val_one, Matrix.cons_val]
    rcases hz with hz | hz <;> rw [hz] <;> ring
  simp only [] at hv
  rw [e, ← pow_two] at hv
  constructor
  · intro hin
    rw [hv, (real_lt _ _).2 hin]
  · intro hout
    have : Arith.lt (dist2 ![centre m.grid x 0, centre m.grid x 1, centre m.grid x 2] ![c0, c1, c2]) (s.radius ^ 2) = false := by
      rw [Bool.eq_false_iff]
      intro ht
      exact hout ((real_lt _ _).1 ht)
    rw [hv, this]

/-- **C70**, exactly where it is right: with a jump in density, the density of a cell is the one of the ball or of the surroundings, as it should be,
exactly if adding `(z - c₂) (y - z)` to the squared distance of the centre `(x, y, z)` does not carry it across the square of the radius. -/
theorem C70_exactly {S : VarId → Prop} {m : Mgr ℝ} (s : Init.Radial ℝ) {c0 c1 c2 : ℝ} (hc : s.center = [c0, c1, c2]) (h : m.Good S) (hL : m.Laid) (hg : m.grid.Sized)
    (h3 : m.grid.rng.dims.length = 3) (hj : s.rhoJump ≠ 1) {outs : List VarId} (hS : ∀ id ∈ outs, S id ∧ 1 ≤ id.basis.points ∧ 5 ≤ id.comps.length) :
    ∃ m', radial s outs m = .ok () m' ∧ ∀ id ∈ outs, ∃ c, m'.contents id = some c ∧
      ∀ x, InBox (m.allCells id) x → ∀ D, D = dist2 ![centre m.grid x 0, centre m.grid x 1, centre m.grid x 2] ![c0, c1, c2] →
        ((D < s.radius ^ 2 → c.arr.val (x ++ [0]) = some 1) ∧ (¬ D < s.radius ^ 2 → c.arr.val (x ++ [0]) = some s.rhoJump) ↔
          (D < s.radius ^ 2 ↔ D + (centre m.grid x 2 - c2) * (centre m.grid x 1 - centre m.grid x 2) < s.radius ^ 2)) := by
  obtain ⟨m', k1, k2, k3, k4, k5, k6⟩ := C65_radial_partial s hc h hL hg h3 hS
  refine ⟨m', k1, ?_⟩
  intro id hid
  obtain ⟨c, hc1, hc2, -⟩ := k5 id hid
  refine ⟨c, hc1, ?_⟩
  intro x hx D hD
  have hv := hc2 x hx 0 (by have := (hS id hid).2.2; omega)
  have e : (centre m.grid x 0 - c0) * (centre m.grid x 0 - c0) + (centre m.grid x 1 - c1) * (centre m.grid x 1 - c1) +
      (centre m.grid x 2 - c2) * (centre m.grid x 1 - c2) = D + (centre m.grid x 2 - c2) * (centre m.grid x 1 - centre m.grid x 2) := by
    rw [hD]
    simp only [dist2, Matrix.cons_val_zero, Matrix.cons_val_one, Matrix.cons_val]
    ring
  simp only [] at hv
  rw [e, ← pow_two] at hv
  have hv' : c.arr.val (x ++ [0]) = some (if D + (centre m.grid x 2 - c2) * (centre m.grid x 1 - centre m.grid x 2) < s.radius ^ 2 then 1 else s.rhoJump) := by
    rw [show (x ++ [(0 : Int)]) = x ++ [((0 : Nat) : Int)] from rfl, hv]
    by_cases h2 : D + (centre m.grid x 2 - c2) * (centre m.grid x 1 - centre m.grid x 2) < s.radius ^ 2
    · rw [(real_lt _ _).2 h2, if_pos h2]; simp [jumpState, real_lit]
    · have : Arith.lt (D + (centre m.grid x 2 - c2) * (centre m.grid x 1 - centre m.grid x 2)) (s.radius ^ 2) = false := by
        rw [Bool.eq_false_iff]
        exact fun ht => h2 ((real_lt _ _).1 ht)
      rw [this, if_neg h2]; simp [jumpState, real_lit]
  rw [hv']
  have hj' : (1 : ℝ) ≠ s.rhoJump := fun e => hj e.symm
  by_cases h1 : D < s.radius ^ 2 <;> by_cases h2 : D + (centre m.grid x 2 - c2) * (centre m.grid x 1 - centre m.grid x 2) < s.radius ^ 2 <;>
    simp [h1, h2, hj, hj']

/-! ## Examples -/

/-- A manager without variables on a given grid. -/
theorem exInit_manager (g : Rectilinear ℝ) (hn : g.rng.dims ≠ []) (hM : Pos g.rng.dims) :
    ∃ m : Mgr ℝ, m.Good (· ∈ exPlasmaIds) ∧ m.Laid ∧ m.grid = g := by
  obtain ⟨m, h1, h2, h3, _⟩ := Mgr.exists_manager exPlasma_consistent (fun id h => by
      simp [exPlasmaIds, exPlasma] at h; rcases h with rfl | rfl | rfl | rfl | rfl <;> simp [Basis.volumeAverage])
    g hn hM (1/10) 0 (fun _ _ => 0) (ids := []) (by simp) (by simp)
  exact ⟨m, h1, h2, h3⟩

/-- A cube of 3 × 3 × 3 cells of width 1, with a corner at the origin. -/
noncomputable def exCube : Rectilinear ℝ := ⟨Range.setup [(0,3),(0,3),(0,3)], [0,0,0], [3,3,3], [1,1,1]⟩

theorem exCube_manager : ∃ m : Mgr ℝ, m.Good (· ∈ exPlasmaIds) ∧ m.Laid ∧ m.grid = exCube ∧ m.grid.Sized ∧ m.grid.rng.dims.length = 3 := by
  obtain ⟨m, h1, h2, h3⟩ := exInit_manager exCube (by decide) (by decide)
  exact ⟨m, h1, h2, h3, by rw [h3]; exact ⟨rfl, rfl⟩, by rw [h3]; rfl⟩

theorem exFluid_ok : ∀ id ∈ [exPlasma "e" 5, exPlasma "i" 5], id ∈ exPlasmaIds ∧ 1 ≤ id.basis.points ∧ 5 ≤ id.comps.length := by
  intro id hid
  simp at hid
  rcases hid with rfl | rfl <;> decide

theorem exField_ok : ∀ id ∈ [exPlasma "f" 8], id ∈ exPlasmaIds ∧ 1 ≤ id.basis.points ∧ 6 ≤ id.comps.length := by
  intro id hid
  simp at hid
  subst hid; decide

/-- **C70** (false of the code) A ball around the origin with radius 11/4: the centre `(1/2, 3/2, 5/2)` of a cell has the squared distance
35/4 > 121/16 from the origin, but the cell gets the inner density. -/
theorem C70_false : ∃ (m m' : Mgr ℝ) (c : Chunk ℝ), m.Good (· ∈ exPlasmaIds) ∧ m.Laid ∧ m.grid = exCube ∧
    radial ⟨[0, 0, 0], 11/4, 1/8, 1/10, 7/5⟩ [exPlasma "e" 5] m = .ok () m' ∧ m'.contents (exPlasma "e" 5) = some c ∧
    ¬ dist2 ![centre m.grid [0, 1, 2, 0] 0, centre m.grid [0, 1, 2, 0] 1, centre m.grid [0, 1, 2, 0] 2] ![0, 0, 0] < (11/4) ^ 2 ∧
    c.arr.val [0, 1, 2, 0, 0] = some 1 ∧ jumpState (1/8 : ℝ) (1/10) (7/5) false 0 = 1/8 := by
  obtain ⟨m, h1, h2, h3, h4, h5⟩ := exCube_manager
  obtain ⟨m', k1, _, _, _, k5, _⟩ := C65_radial_partial ⟨[0, 0, 0], 11/4, 1/8, 1/10, 7/5⟩ rfl h1 h2 h4 h5 (outs := [exPlasma "e" 5])
    (fun id hid => exFluid_ok id (by simp at hid ⊢; exact .inl hid))
  obtain ⟨c, c1, c2, c3⟩ := k5 _ List.mem_cons_self
  have e0 : centre m.grid [0, 1, 2, 0] 0 = 1 / 2 := by simp [h3, exCube, centre, real_lit, real_ofInt]
  have e1 : centre m.grid [0, 1, 2, 0] 1 = 3 / 2 := by simp [h3, exCube, centre, real_lit, real_ofInt]; norm_num
  have e2 : centre m.grid [0, 1, 2, 0] 2 = 5 / 2 := by simp [h3, exCube, centre, real_lit, real_ofInt]; norm_num
  refine ⟨m, m', c, h1, h2, h3, k1, c1, ?_, ?_, ?_⟩
  · rw [e0, e1, e2]; simp [dist2]; norm_num
  · have hin : InBox (m.allCells (exPlasma "e" 5)) [0, 1, 2, 0] := by
      unfold Mgr.allCells; rw [h3]; decide
    have := c2 [0, 1, 2, 0] hin 0 (by decide)
    simp only [] at this
    rw [e0, e1, e2] at this
    have hlt : Arith.lt (((1 : ℝ) / 2 - 0) * (1 / 2 - 0) + (3 / 2 - 0) * (3 / 2 - 0) + (5 / 2 - 0) * (3 / 2 - 0)) (11 / 4 * (11 / 4)) = true := by
      rw [real_lt]; norm_num
    simp only [hlt] at this
    simpa [jumpState, real_lit] using this
  · simp [jumpState, real_lit]

example : ∃ (m m' : Mgr ℝ) (c : Chunk ℝ), radial ⟨[3/2, 3/2, 5/2], 5/4, 1/8, 1/10, 7/5⟩ [exPlasma "e" 5] m = .ok () m' ∧
    m'.contents (exPlasma "e" 5) = some c ∧ c.arr.val [0, 1, 2, 0, 0] = some 1 ∧ c.arr.val [0, 0, 2, 0, 0] = some (1/8) := by
  obtain ⟨m, h1, h2, h3, h4, h5⟩ := exCube_manager
  obtain ⟨m', k1, k2⟩ := C70_partial ⟨[3/2, 3/2, 5/2], 5/4, 1/8, 1/10, 7/5⟩ rfl h1 h2 h4 h5 (outs := [exPlasma "e" 5])
    (fun id hid => exFluid_ok id (by simp at hid ⊢; exact .inl hid))
  obtain ⟨c, k3, k4⟩ := k2 _ List.mem_cons_self
  have hc : ∀ (a b d : ℕ), centre m.grid [(a : Int), b, d, 0] 0 = a + 1/2 ∧ centre m.grid [(a : Int), b, d, 0] 1 = b + 1/2 ∧ centre m.grid [(a : Int), b, d, 0] 2 = d + 1/2 := by
    intro a b d
    simp [h3, exCube, centre, real_lit, real_ofInt]
  refine ⟨m, m', _, k1, k3, ?_, ?_⟩
  · obtain ⟨a, b, d⟩ := hc 0 1 2
    simp only [Nat.cast_zero, Nat.cast_one, Nat.cast_ofNat] at a b d
    have := (k4 [0, 1, 2, 0] (by unfold Mgr.allCells; rw [h3]; decide) (.inl (by rw [d]; norm_num)) 0 (by decide)).1 (by
      rw [a, b, d]; simp [dist2]; norm_num)
    simpa [jumpState, real_lit] using this
  · obtain ⟨a, b, d⟩ := hc 0 0 2
    simp only [Nat.cast_zero, Nat.cast_ofNat] at a b d
    have := (k4 [0, 0, 2, 0] (by unfold Mgr.allCells; rw [h3]; decide) (.inl (by rw [d]; norm_num)) 0 (by decide)).2 (by
      rw [a, b, d]; simp [dist2]; norm_num)
    simpa [jumpState, real_lit] using this

/-- Shock tube on 4 × 2 cells, from -1 to 1 in `x`. -/
example : ∃ (m m' : Mgr ℝ) (c : Chunk ℝ), shockTube ⟨1/8, 1/10, 7/5⟩ [exPlasma "e" 5, exPlasma "i" 5] m = .ok () m' ∧
    m'.contents (exPlasma "i" 5) = some c ∧ c.arr.val [1, 1, 0, 0] = some 1 ∧ c.arr.val [1, 1, 0, 4] = some (5/2) ∧
    c.arr.val [2, 0, 0, 0] = some (1/8) ∧ c.arr.val [2, 0, 0, 4] = some (1/4) ∧ c.arr.val [2, 0, 0, 1] = some 0 ∧
    c.arr.val [-1, 0, 0, 0] = some 0 := by
  obtain ⟨m, h1, h2, h3⟩ := exInit_manager ⟨Range.setup [(0,4),(0,2)], [-1,0], [2,1], [1/2,1/2]⟩ (by decide) (by decide)
  obtain ⟨m', k1, _, _, k4, k5, _⟩ := C63_shock_tube ⟨1/8, 1/10, 7/5⟩ h1 h2 (by rw [h3]; exact ⟨rfl, rfl⟩) (by rw [h3]; decide) exFluid_ok
  obtain ⟨c, c1, c2, c3⟩ := k5 (exPlasma "i" 5) (by simp)
  have l : Arith.lt (centre m.grid [1, 1, 0] 0) (Arith.lit 0) = true := by
    rw [real_lt, h3]; norm_num [centre, real_lit, real_ofInt]
  have r : Arith.lt (centre m.grid [2, 0, 0] 0) (Arith.lit 0) = false := by
    rw [Bool.eq_false_iff, ne_eq, real_lt, h3]; norm_num [centre, real_lit, real_ofInt]
  have hin : InBox (m.meshCells (exPlasma "i" 5)) [1, 1, 0] ∧ InBox (m.meshCells (exPlasma "i" 5)) [2, 0, 0] := by
    unfold Mgr.meshCells; rw [h3]; decide
  have v := c2 _ hin.1
  have w := c2 _ hin.2
  simp only [l] at v
  simp only [r] at w
  refine ⟨m, m', c, k1, c1, ?_, ?_, ?_, ?_, ?_, ?_⟩
  · have := v 0 (by decide); simpa [jumpState, real_lit] using this
  · have := v 4 (by decide); norm_num [jumpState, real_lit] at this; exact this
  · have := w 0 (by decide); simpa [jumpState, real_lit] using this
  · have := w 4 (by decide); norm_num [jumpState, real_lit] at this; exact this
  · have := w 1 (by decide); simpa [jumpState, real_lit] using this
  · have := c3 [-1, 0, 0, 0] (by unfold Mgr.arrayBox; rw [k4.grid, h3]; decide) (by unfold Mgr.meshCells; rw [h3]; decide)
    simpa [real_lit] using this

example : (⟨1/8, ![0, 0, 0], 1/4⟩ : Gas).pressure (7/5) = 1/10 := by
  have := (C63_primitive (rhoJump := 1/8) (pJump := 1/10) (gamma := 7/5) (by norm_num) false).2.2
  simp [jumpState, real_lit] at this
  norm_num at this ⊢
  exact this

/-- The bell curve around the middle of the cube. -/
example : ∃ (m m' : Mgr ℝ) (c : Chunk ℝ), gaussian (Init.Gaussian.setup 2 [3/2, 3/2, 3/2] 1) [exPlasma "e" 5] m = .ok () m' ∧
    m'.contents (exPlasma "e" 5) = some c ∧ c.arr.val [1, 1, 1, 0, 3] = some 2 ∧ c.arr.val [1, -1, 1, 0, 0] = some (2 * Real.exp (-4)) := by
  obtain ⟨m, h1, h2, h3, h4, h5⟩ := exCube_manager
  obtain ⟨m', k1, _, _, _, k5, _⟩ := C65_gaussian_partial (Init.Gaussian.setup 2 [3/2, 3/2, 3/2] 1) rfl h1 h2 h4 h5 (outs := [exPlasma "e" 5])
    (fun id hid => by simp at hid; subst hid; decide)
  obtain ⟨c, c1, c2, c3⟩ := k5 _ List.mem_cons_self
  refine ⟨m, m', c, k1, c1, ?_, ?_⟩
  · have := c2 [1, 1, 1, 0] (by unfold Mgr.allCells; rw [h3]; decide) 3 (by decide)
    norm_num [h3, exCube, centre, real_lit, real_ofInt, Init.Gaussian.setup, Arith.exp] at this
    exact this
  · have := c2 [1, -1, 1, 0] (by unfold Mgr.allCells; rw [h3]; decide) 0 (by decide)
    norm_num [h3, exCube, centre, real_lit, real_ofInt, Init.Gaussian.setup, Arith.exp] at this
    exact this

example : ∃ (m m' : Mgr ℝ) (c : Chunk ℝ), pulse 2 1 [exPlasma "f" 8] m = .ok () m' ∧
    m'.contents (exPlasma "f" 8) = some c ∧ c.arr.val [0, 1, 0, 0, 5] = some (2 * Real.exp (-(11/8))) ∧ c.arr.val [0, 1, 0, 0, 7] = some 0 := by
  obtain ⟨m, h1, h2, h3, h4, h5⟩ := exCube_manager
  obtain ⟨m', k1, _, _, _, k5, _⟩ := C65_pulse_partial 2 1 h1 h2 h4 h5 exField_ok
  obtain ⟨c, c1, c2, c3⟩ := k5 _ List.mem_cons_self
  refine ⟨m, m', c, k1, c1, ?_, ?_⟩
  · have := c2 [0, 1, 0, 0] (by unfold Mgr.allCells; rw [h3]; decide) 5 (by decide)
    norm_num [h3, exCube, centre, real_lit, real_ofInt, Arith.exp] at this
    exact this
  · have := c2 [0, 1, 0, 0] (by unfold Mgr.allCells; rw [h3]; decide) 7 (by decide)
    simpa [real_lit] using this

/-- Three of the solvers on a plane, all five in four dimensions. -/
example : ∃ m : Mgr ℝ, ∃ w, gaussian (Init.Gaussian.setup 1 [0, 0] 1) [exPlasma "f" 8] m = .ub w := by
  obtain ⟨m, h1, h2, h3⟩ := exInit_manager ⟨Range.setup [(0,4),(0,2)], [-1,0], [2,1], [1/2,1/2]⟩ (by decide) (by decide)
  obtain ⟨hS, hp, hn⟩ := exField_ok _ List.mem_cons_self
  exact ⟨m, (C65_false h1 h2 (by rw [h3]; exact ⟨rfl, rfl⟩) (by rw [h3]; decide) hS hp hn []).1 1 1 [0, 0]⟩

example : ∃ m : Mgr ℝ, ∃ w, shockTube ⟨1/8, 1/10, 7/5⟩ [exPlasma "f" 8] m = .ub w := by
  obtain ⟨m, h1, h2, h3⟩ := exInit_manager ⟨Range.setup [(0,1),(0,2),(0,1),(0,1)], [0,0,0,0], [1,1,1,1], [1,1/2,1,1]⟩ (by decide) (by decide)
  obtain ⟨hS, hp, hn⟩ := exField_ok _ List.mem_cons_self
  exact ⟨m, (C72_false h1 h2 (by rw [h3]; exact ⟨rfl, rfl⟩) (by rw [h3]; decide) hS hp hn []).1 _⟩

example : ∃ m m' : Mgr ℝ, wave ⟨1, 1, 0, 1, 0, 2⟩ [exPlasma "f" 8] m = .ok () m' := by
  obtain ⟨m, h1, h2, h3, h4, h5⟩ := exCube_manager
  obtain ⟨m', k⟩ := (C72_partial h1 h2 h4 h5 exField_ok).2.2.2.2 ⟨1, 1, 0, 1, 0, 2⟩
  exact ⟨m, m', k⟩

/-- A wave along the third direction, and its transverse fields in a ghost cell. -/
example : ∃ (m m' : Mgr ℝ) (c : Chunk ℝ), wave ⟨2, 3, 1, 1, 0, 2⟩ [exPlasma "f" 8] m = .ok () m' ∧ m'.contents (exPlasma "f" 8) = some c ∧
    c.arr.val [0, 1, -1, 0, 1] = some (-(3 * Real.sin (-1/2))) ∧ c.arr.val [0, 1, -1, 0, 3] = some (Real.sin (-1/2)) ∧
    c.arr.val [0, 1, -1, 0, 5] = some 2 := by
  obtain ⟨m, h1, h2, h3, h4, h5⟩ := exCube_manager
  obtain ⟨m', E, B, k1, _, _, _, k5, _, k6⟩ := C64_wave ⟨2, 3, 1, 1, 0, 2⟩ 2 rfl h1 h2 h4 (by omega) (by rw [h5]; decide) exField_ok
  obtain ⟨c, c1, c2, c3⟩ := k5 _ List.mem_cons_self
  have v := c2 [0, 1, -1, 0] (by unfold Mgr.allCells; rw [h3]; decide)
  have hc : centre m.grid [0, 1, -1, 0] 2 = -1/2 := by norm_num [h3, exCube, centre, real_lit, real_ofInt]
  have w := k6 [0, 1, -1, 0]
  refine ⟨m, m', c, k1, c1, ?_, ?_, ?_⟩
  · have := v 1 (by decide)
    rw [show ([0, 1, -1, 0, 1] : Cell) = [0, 1, -1, 0] ++ [((1 : Nat) : Int)] from rfl, this]
    have := (w 1).1
    simp [hc, cross, unit] at this
    simp [emState, this]
  · have := v 3 (by decide)
    rw [show ([0, 1, -1, 0, 3] : Cell) = [0, 1, -1, 0] ++ [((3 : Nat) : Int)] from rfl, this]
    have := (w 0).2
    simp [hc] at this
    simp [emState, this]
  · have := v 5 (by decide)
    rw [show ([0, 1, -1, 0, 5] : Cell) = [0, 1, -1, 0] ++ [((5 : Nat) : Int)] from rfl, this]
    have := (w 2).2
    simp at this
    simp [emState, this]

example : cross ![0, -3, 0] ![1, 0, 2] 2 = 3 := by
  have := (C64_transverse (c := 3) (s := 1) (d := 2) (B0 := ![1, 0, 2]) (E := ![0, -3, 0]) (B := ![1, 0, 2])
    (by intro i; fin_cases i <;> simp [cross, unit]) (by intro i; fin_cases i <;> simp)).2.2.1
  rw [this]
  simp [vdot]

example : ∃ (m m' : Mgr ℝ), wave ⟨7, 3, 1, 1, 0, 2⟩ [exPlasma "f" 8] m = .ok () m' ∧ m'.Stores (exPlasma "f" 8) (fun _ => 0) := by
  obtain ⟨m, h1, h2, h3, h4, h5⟩ := exCube_manager
  obtain ⟨m', k1, _, _, _, k5, _⟩ := C64_no_direction ⟨7, 3, 1, 1, 0, 2⟩ (by decide) h1 h2 (outs := [exPlasma "f" 8])
    (fun id hid => ⟨(exField_ok id hid).1, (exField_ok id hid).2.1⟩)
  refine ⟨m, m', k1, ?_⟩
  have := k5 _ List.mem_cons_self
  simpa [real_lit] using this

end QK.Props
