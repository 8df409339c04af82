import Verif.Model.Unused
import Verif.Proofs.Advection
import Verif.Props.AdvectProgram
import Verif.Model.ArithReal
/-
C107: the function `advection` of ssprk2_advection.cpp, which has no caller.
-/
namespace QK.Props
open QK Spec Advection Prog

variable {α : Type} [Arith α]

/-- What element `e` of an array of `V` elements gains and loses in one direction: the elements `s` apart are taken for neighbours, and the faces
below the elements `2 s, …, V - 2 s - 1` are exchanged over. -/
def colUpwind (c : α) (s V : Int) (u : Int → α) (e : Int) (r : α) : α :=
  let r1 := if 2 * s ≤ e ∧ e < V - 2 * s then r + limitedFlux c (u (e - 2 * s)) (u (e - s)) (u e) else r
  if 2 * s ≤ e + s ∧ e + s < V - 2 * s then r1 - limitedFlux c (u (e - s)) (u e) (u (e + s)) else r1

/-- All directions, one after the other; the stride of a direction is the number of elements of the box of the directions before it. -/
def colAdvected (B : Box) (dt : α) (v dx : Nat → α) (u : Int → α) (e : Int) (r : α) : α :=
  (List.range B.length).foldl (fun r d => colUpwind (dt * v d / dx d) (boxVolume (B.take d)) (boxVolume B) u e r) r

omit [Arith α] in
theorem colStrides_get (B : Box) : ∀ (s : Int) {d : Nat}, d < B.length → (colStrides s B)[d]? = some (s * boxVolume (B.take d)) := by
  induction B with
  | nil => intro s d h; simp at h
  | cons x B ih =>
    intro s d h
    cases d with
    | zero => simp [colStrides, boxVolume_nil]
    | succ d =>
      rw [colStrides, List.getElem?_cons_succ, ih _ (by simpa using h), List.take_succ_cons, boxVolume_cons]
      congr 1; ring

theorem pos_take {B : Box} (h : Pos B) (k : Nat) : Pos (B.take k) := fun d hd => h d (List.mem_of_mem_take hd)

theorem ready_of {a b : List α} (h : a.length = b.length) {s i : Int} (h1 : 0 ≤ i) (h2 : i < a.length) (h3 : 0 ≤ i - s) (h4 : i - s < a.length)
    (h5 : 0 ≤ i - 2 * s) (h6 : i - 2 * s < a.length) : Ready (Mem.of [a, b]) (fun i => a.getD i.toNat (Arith.lit 0)) s i := by
  have r0 : ∀ j : Int, 0 ≤ j → j < a.length → Mem.of [a, b] (0, j) = some (a.getD j.toNat (Arith.lit 0)) := by
    intro j j0 j1
    rw [FV.mem_of_zero j0]
    exact RK.getElem?_getD (by omega)
  have r1 : ∀ j : Int, 0 ≤ j → j < a.length → (Mem.of [a, b] (1, j)).isSome := by
    intro j j0 j1
    rw [FV.mem_of_one j0]
    simp; omega
  exact ⟨r0 _ h3 h4, r0 _ h5 h6, r0 _ h1 h2, r1 _ h3 h4, r1 _ h1 h2⟩

/-- What `colSweep` returns. -/
theorem colSweep_eq {B : Box} (hB : B ≠ []) {dim : Nat} (hd : dim < B.length) {dt v d : α} {velocity : List α} {grid : Rectilinear α}
    (hv : velocity[dim]? = some v) (hdx : grid.dx dim = .ok d) {o : Int}
    (ho : o = (if Arith.lt (Arith.lit 0) v then 1 else -1) * boxVolume (B.take dim)) :
    colSweep dt velocity grid (Range.setup B) dim = .ok (iterate (max 0 (2 * o)) (min (boxVolume B) (boxVolume B - 2 * o)) o (dt * v / d)) := by
  have hs : vget (colStrides 1 (Range.setup B).dims) (dim : Int) = .ok (boxVolume (B.take dim)) := by
    refine vget_of_getElem? ?_
    rw [show (Range.setup B).dims = B from rfl, colStrides_get B 1 hd, one_mul]
  unfold colSweep
  rw [vget_of_getElem? hv, Res.ok_bind, hs, Res.ok_bind]
  simp only [hdx, Res.ok_bind, Range.volume_setup hB]
  rw [ho]
  rfl

/-- One direction with positive velocity. -/
theorem colSweep_up {B : Box} (hB : B ≠ []) (hP : Pos B) {a b : Chunk α} (la : (a.arr.data.length : Int) = boxVolume B)
    (lb : (b.arr.data.length : Int) = boxVolume B) {dim : Nat} (hd : dim < B.length) {dt v d : α} {velocity : List α} {grid : Rectilinear α}
    (hv : velocity[dim]? = some v) (hpos : Arith.lt (Arith.lit 0) v = true) (hdx : grid.dx dim = .ok d) :
    ∃ (s start : Int) (m' : Mem α) (N : Nat), s ≠ 0 ∧ colSweep dt velocity grid (Range.setup B) dim =
        .ok (((List.range N).map (fun k : Nat => start + k)).map (iteration (dt * v / d) s)) ∧
      (∀ i ∈ (List.range N).map (fun k : Nat => start + k),
        Ready (Mem.of [a.arr.data, b.arr.data]) (fun i => a.arr.data.getD i.toNat (Arith.lit 0)) s i ∧
        0 ≤ i ∧ i < b.arr.data.length ∧ 0 ≤ i - s ∧ i - s < b.arr.data.length) ∧
      Prog.runAll (((List.range N).map (fun k : Nat => start + k)).map (iteration (dt * v / d) s)) (Mem.of [a.arr.data, b.arr.data]) = .ok m' ∧
      ∀ e, m' (1, e) = (Mem.of [a.arr.data, b.arr.data] (1, e)).map
        (colUpwind (dt * v / d) (boxVolume (B.take dim)) (boxVolume B) (fun i => a.arr.data.getD i.toNat (Arith.lit 0)) e) := by
  have hs : 0 < boxVolume (B.take dim) := boxVolume_pos (pos_take hP _)
  have hc := colSweep_eq (dt := dt) hB hd hv hdx (o := boxVolume (B.take dim)) (by rw [hpos]; simp)
  revert hc hs
  unfold colUpwind
  generalize boxVolume (B.take dim) = s
  generalize hV : boxVolume B = V at la lb ⊢
  intro hs hc
  rw [max_eq_right (by omega), min_eq_right (by omega)] at hc
  unfold iterate indices at hc
  have hR : ∀ i, 2 * s ≤ i → i < 2 * s + ((V - 2 * s - 2 * s).toNat : Int) →
      Ready (Mem.of [a.arr.data, b.arr.data]) (fun i => a.arr.data.getD i.toNat (Arith.lit 0)) s i := by
    intro i h1 h2
    exact ready_of (by omega) (by omega) (by omega) (by omega) (by omega) (by omega) (by omega)
  obtain ⟨m', k1, _, k3⟩ := iterate_up hs (coeff := dt * v / d) _ hR
  refine ⟨s, 2 * s, m', _, by omega, hc, ?_, k1, ?_⟩
  · intro i hi
    simp only [List.mem_map, List.mem_range] at hi
    obtain ⟨k, hk, rfl⟩ := hi
    exact ⟨hR _ (by omega) (by omega), by omega, by omega, by omega, by omega⟩
  · intro e
    rw [k3 e]
    congr 1
    funext x
    have i1 : ∀ t : Int, (2 * s ≤ t ∧ t < 2 * s + ((V - 2 * s - 2 * s).toNat : Int)) = (2 * s ≤ t ∧ t < V - 2 * s) := by
      intro t; apply propext; omega
    simp only [i1]
    have e1 : e + s - 2 * s = e - s := by ring
    have e2 : e + s - s = e := by ring
    simp only [fluxAt, e1, e2]
    rfl

/-- All directions with positive velocities. -/
theorem colInout_up {B : Box} (hB : B ≠ []) (hP : Pos B) {a b : Chunk α} (la : (a.arr.data.length : Int) = boxVolume B)
    (lb : (b.arr.data.length : Int) = boxVolume B) {dt : α} {v dx : Nat → α} {velocity : List α} {grid : Rectilinear α}
    (hv : ∀ d < B.length, velocity[d]? = some (v d)) (hpos : ∀ d < B.length, Arith.lt (Arith.lit 0) (v d) = true)
    (hdx : ∀ d : Nat, d < B.length → grid.dx d = .ok (dx d)) :
    ∃ b', colInout dt velocity grid (Range.setup B) a b = .ok b' ∧ b.SameShape b' ∧
      ∀ e < b.arr.data.length, b'.arr.data[e]? = (b.arr.data[e]?).map
        (colAdvected B dt v dx (fun i => a.arr.data.getD i.toNat (Arith.lit 0)) e) := by
  have key : ∀ (l : List Nat), (∀ d ∈ l, d < B.length) → ∀ b : Chunk α, (b.arr.data.length : Int) = boxVolume B →
      ∃ b', l.foldlM (fun b dim => do let ps ← colSweep dt velocity grid (Range.setup B) dim; FV.runOn ps a b) b = .ok b' ∧ b.SameShape b' ∧
        ∀ e < b.arr.data.length, b'.arr.data[e]? = (b.arr.data[e]?).map (fun r =>
          l.foldl (fun r d => colUpwind (dt * v d / dx d) (boxVolume (B.take d)) (boxVolume B) (fun i => a.arr.data.getD i.toNat (Arith.lit 0)) e r) r) := by
    intro l
    induction l with
    | nil => intro _ b _; exact ⟨b, rfl, ⟨rfl, rfl⟩, fun x _ => by simp⟩
    | cons d l ih =>
      intro hl b hb
      have hd := hl d List.mem_cons_self
      obtain ⟨s, start, m', N, _, h2, _, h4, h5⟩ := colSweep_up hB hP la hb hd (dt := dt) (hv d hd) (hpos d hd) (hdx d hd)
      obtain ⟨b1, k1, k2, k3⟩ := FV.runOn_spec h4 (fun i => by rw [h5]; simp)
      obtain ⟨b2, j1, j2, j3⟩ := ih (fun d' hd' => hl d' (List.mem_cons_of_mem _ hd')) b1 (by rw [← hb, k2.2])
      refine ⟨b2, ?_, k2.trans j2, ?_⟩
      · rw [List.foldlM_cons, h2, Res.ok_bind, k1, Res.ok_bind, j1]
      · intro e he
        have := k3 (e : Int) (by omega)
        rw [Int.toNat_natCast] at this
        rw [j3 e (by rw [k2.2]; exact he), this, h5, FV.mem_of_one (by omega), Int.toNat_natCast, Option.map_map]
        rfl
  exact key (List.range B.length) (fun d hd => List.mem_range.1 hd) b lb

theorem colInout_sum {B : Box} (hB : B ≠ []) (hP : Pos B) {a b b' : Chunk ℝ} (la : (a.arr.data.length : Int) = boxVolume B)
    (lb : (b.arr.data.length : Int) = boxVolume B) {dt : ℝ} {v dx : Nat → ℝ} {velocity : List ℝ} {grid : Rectilinear ℝ}
    (hv : ∀ d < B.length, velocity[d]? = some (v d)) (hpos : ∀ d < B.length, Arith.lt (Arith.lit 0) (v d) = true)
    (hdx : ∀ d : Nat, d < B.length → grid.dx d = .ok (dx d)) (h : colInout dt velocity grid (Range.setup B) a b = .ok b') :
    b'.arr.data.sum = b.arr.data.sum := by
  have key : ∀ (l : List Nat), (∀ d ∈ l, d < B.length) → ∀ b : Chunk ℝ, (b.arr.data.length : Int) = boxVolume B →
      l.foldlM (fun b dim => do let ps ← colSweep dt velocity grid (Range.setup B) dim; FV.runOn ps a b) b = .ok b' →
        b'.arr.data.sum = b.arr.data.sum := by
    intro l
    induction l with
    | nil => intro _ b _ h; cases h; rfl
    | cons d l ih =>
      intro hl b hb h
      have hd := hl d List.mem_cons_self
      obtain ⟨s, start, m', N, h1, h2, h3, h4, h5⟩ := colSweep_up hB hP la hb hd (dt := dt) (hv d hd) (hpos d hd) (hdx d hd)
      obtain ⟨b1, k1, k2, k3⟩ := FV.runOn_spec h4 (fun i => by rw [h5]; simp)
      rw [List.foldlM_cons, h2, Res.ok_bind, k1, Res.ok_bind] at h
      rw [ih (fun d' hd' => hl d' (List.mem_cons_of_mem _ hd')) b1 (by rw [← hb, k2.2]) h]
      have := memTotal_runAll h1 _ _ _ h3 h4
      rw [memTotal_eq (l := b.arr.data) (fun i hi => (FV.mem_of_one hi).symm), ← k2.2] at this
      rw [← this, memTotal_eq k3]
  exact key _ (fun d hd => List.mem_range.1 hd) b lb h

/-- One direction with a velocity that is not positive reads outside of the array. -/
theorem colSweep_down {B : Box} (hB : B ≠ []) (hP : Pos B) {a b : Chunk α} (la : (a.arr.data.length : Int) = boxVolume B)
    (lb : (b.arr.data.length : Int) = boxVolume B) {dim : Nat} (hd : dim < B.length) {dt v d : α} {velocity : List α} {grid : Rectilinear α}
    (hv : velocity[dim]? = some v) (hpos : Arith.lt (Arith.lit 0) v = false) (hdx : grid.dx dim = .ok d) :
    (do let ps ← colSweep dt velocity grid (Range.setup B) dim; FV.runOn ps a b) = .ub "read out of bounds" := by
  have hs : 0 < boxVolume (B.take dim) := boxVolume_pos (pos_take hP _)
  have hVp : 0 < boxVolume B := boxVolume_pos hP
  have hc := colSweep_eq (dt := dt) hB hd hv hdx (o := -boxVolume (B.take dim)) (by rw [hpos]; simp)
  rw [hc, Res.ok_bind]
  clear hc
  revert hs
  generalize boxVolume (B.take dim) = s
  generalize boxVolume B = V at la lb hVp ⊢
  intro hs
  rw [max_eq_left (by omega), min_eq_left (by omega)]
  generalize dt * v / d = c
  obtain ⟨N, hN⟩ : ∃ N : Nat, (N : Int) = max 0 (V - 2 * s) := ⟨(max 0 (V - 2 * s)).toNat, by omega⟩
  have hR : ∀ i, 0 ≤ i → i < 0 + (N : Int) →
      Ready (Mem.of [a.arr.data, b.arr.data]) (fun i => a.arr.data.getD i.toNat (Arith.lit 0)) (-s) i := by
    intro i h1 h2
    exact ready_of (by omega) (by omega) (by omega) (by omega) (by omega) (by omega) (by omega)
  obtain ⟨m', k1, k2, _⟩ := iterate_down (s := -s) (by omega) (coeff := c) _ hR
  have hsplit : indices 0 V = ((List.range N).map (fun k : Nat => (0 : Int) + k)) ++ (0 + (N : Int)) ::
      ((List.range (V.toNat - N - 1)).map (fun k : Nat => (0 : Int) + ((N + 1 + k : Nat) : Int))) := by
    unfold indices
    have e : (V - 0).toNat = N + (1 + (V.toNat - N - 1)) := by omega
    rw [e, List.range_add, List.range_add]
    simp [List.map_map, Function.comp_def, add_assoc]
  unfold FV.runOn iterate
  rw [hsplit, List.map_append, runAll_append, k1, Res.ok_bind, List.map_cons, runAll_cons]
  have hout : ∀ j : Int, V ≤ j → m' (0, j) = none := by
    intro j hj
    rw [k2, FV.mem_of_zero (by omega)]
    simp; omega
  have hin : ∀ j : Int, 0 ≤ j → j < V → ∃ x, m' (0, j) = some x := by
    intro j h0 h1
    rw [k2, FV.mem_of_zero (by omega)]
    exact ⟨_, List.getElem?_eq_getElem (by omega)⟩
  have hrun : (iteration c (-s) (0 + (N : Int))).run m' = .ub "read out of bounds" := by
    unfold iteration
    rcases le_or_gt V (0 + (N : Int) - -s) with h | h
    · rw [run_bind]
      unfold Prog.read run
      rw [hout _ h]; rfl
    · obtain ⟨x, hx⟩ := hin _ (by omega) h
      rw [run_bind_ok (run_read hx), run_bind]
      unfold Prog.read run
      rw [hout (0 + (N : Int) - 2 * -s) (by omega)]; rfl
  rw [hrun]
  rfl

/-- All directions, one of them with a velocity that is not positive. -/
theorem colInout_down {B : Box} (hB : B ≠ []) (hP : Pos B) {a b : Chunk α} (la : (a.arr.data.length : Int) = boxVolume B)
    (lb : (b.arr.data.length : Int) = boxVolume B) {dt : α} {v dx : Nat → α} {velocity : List α} {grid : Rectilinear α}
    (hv : ∀ d < B.length, velocity[d]? = some (v d)) (hneg : ∃ d < B.length, Arith.lt (Arith.lit 0) (v d) = false)
    (hdx : ∀ d : Nat, d < B.length → grid.dx d = .ok (dx d)) :
    colInout dt velocity grid (Range.setup B) a b = .ub "read out of bounds" := by
  have key : ∀ (l : List Nat), (∀ d ∈ l, d < B.length) → (∃ d ∈ l, Arith.lt (Arith.lit 0) (v d) = false) → ∀ b : Chunk α,
      (b.arr.data.length : Int) = boxVolume B →
      l.foldlM (fun b dim => do let ps ← colSweep dt velocity grid (Range.setup B) dim; FV.runOn ps a b) b = .ub "read out of bounds" := by
    intro l
    induction l with
    | nil => intro _ h; simp at h
    | cons d l ih =>
      intro hl hex b hb
      have hd := hl d List.mem_cons_self
      rw [List.foldlM_cons]
      cases hs : Arith.lt (Arith.lit 0) (v d) with
      | false => rw [colSweep_down hB hP la hb hd (hv d hd) hs (hdx d hd)]; rfl
      | true =>
        obtain ⟨s, start, m', N, _, h2, _, h4, h5⟩ := colSweep_up hB hP la hb hd (dt := dt) (hv d hd) hs (hdx d hd)
        obtain ⟨b1, k1, k2, k3⟩ := FV.runOn_spec h4 (fun i => by rw [h5]; simp)
        rw [h2, Res.ok_bind, k1, Res.ok_bind]
        refine ih (fun d' hd' => hl d' (List.mem_cons_of_mem _ hd')) ?_ b1 (by rw [← hb, k2.2])
        obtain ⟨d', h', hf⟩ := hex
        rcases List.mem_cons.1 h' with rfl | h'
        · rw [hs] at hf; cases hf
        · exact ⟨d', h', hf⟩
  refine key (List.range B.length) (fun d hd => List.mem_range.1 hd) ?_ b lb
  obtain ⟨d, h, hf⟩ := hneg
  exact ⟨d, List.mem_range.2 h, hf⟩

theorem copyAt_spec {n ns : Chunk α} (h : n.arr.data.length = ns.arr.data.length) :
    ∃ c, RK.runOut (((List.range ns.arr.data.length).map (fun i : Nat => (i : Int))).map copyAt) [n] ns = .ok c ∧ ns.SameShape c ∧ c.arr.data = n.arr.data := by
  obtain ⟨c, m', k1, k2, k3, _⟩ := RK.runOut_spec (ins := [n]) (out := ns) (P := copyAt) (k := 1) rfl
    (fun i => by
      unfold copyAt
      exact (within_read (.inl (by simp))).bind fun _ => within_write rfl)
    (F := fun i => n.arr.data.getD i (Arith.lit 0))
    (fun i hi => by
      have h0 : Mem.of ([n].map (fun c => c.arr.data) ++ [ns.arr.data]) (0, (i : Int)) = some (n.arr.data.getD i (Arith.lit 0)) := by
        simpa [Mem.of] using RK.getElem?_getD (by omega)
      have h1 : (Mem.of ([n].map (fun c => c.arr.data) ++ [ns.arr.data]) (1, (i : Int))).isSome := by
        simp [Mem.of, hi]
      unfold copyAt
      rw [run_bind_ok (run_read h0), run_write _ h1])
  refine ⟨c, k1, k2, List.ext_getElem? fun i => ?_⟩
  by_cases hi : i < ns.arr.data.length
  · rw [k3 i hi, RK.getElem?_getD (by omega)]
  · rw [List.getElem?_eq_none (by rw [k2.2]; omega), List.getElem?_eq_none (by omega)]

theorem averageAt_spec {c0 c1 c2 : Chunk α} (l0 : c0.arr.data.length = c2.arr.data.length) (l1 : c1.arr.data.length = c2.arr.data.length) :
    ∃ c', RK.runOut (((List.range c2.arr.data.length).map (fun i : Nat => (i : Int))).map average) [c0, c1] c2 = .ok c' ∧ c2.SameShape c' ∧
      ∀ i < c2.arr.data.length, c'.arr.data[i]? = some (Arith.lit (1 / 2) *
        (c0.arr.data.getD i (Arith.lit 0) + c1.arr.data.getD i (Arith.lit 0))) := by
  obtain ⟨c', m', k1, k2, k3, _⟩ := RK.runOut_spec (ins := [c0, c1]) (out := c2) (P := average) (k := 2) rfl average_within
    (F := fun i => Arith.lit (1 / 2) * (c0.arr.data.getD i (Arith.lit 0) + c1.arr.data.getD i (Arith.lit 0)))
    (fun i hi => average_run (by simpa [Mem.of] using RK.getElem?_getD (by omega)) (by simpa [Mem.of] using RK.getElem?_getD (by omega))
      (by simpa [Mem.of] using RK.getElem?_getD (by omega)))
  exact ⟨c', k1, k2, k3⟩

theorem colAdvected_congr {B : Box} {dt : α} {v dx : Nat → α} {f g : Int → α} {e : Int} {r : α} (h0 : 0 ≤ e) (h1 : e < boxVolume B)
    (h : ∀ i, 0 ≤ i → i < boxVolume B → f i = g i) (hP : Pos B := by assumption) : colAdvected B dt v dx f e r = colAdvected B dt v dx g e r := by
  unfold colAdvected
  congr 1
  funext r d
  have hs : 0 < boxVolume (B.take d) := boxVolume_pos (pos_take hP _)
  revert hs h h1
  unfold colUpwind
  generalize boxVolume (B.take d) = s
  generalize boxVolume B = V
  intro h1 h hs
  have a : (2 * s ≤ e ∧ e < V - 2 * s) → limitedFlux (dt * v d / dx d) (f (e - 2 * s)) (f (e - s)) (f e) =
      limitedFlux (dt * v d / dx d) (g (e - 2 * s)) (g (e - s)) (g e) := by
    intro c
    rw [h _ (by omega) (by omega), h _ (by omega) (by omega), h _ (by omega) (by omega)]
  have b : (2 * s ≤ e + s ∧ e + s < V - 2 * s) → limitedFlux (dt * v d / dx d) (f (e - s)) (f e) (f (e + s)) =
      limitedFlux (dt * v d / dx d) (g (e - s)) (g e) (g (e + s)) := by
    intro c
    rw [h _ (by omega) (by omega), h _ (by omega) (by omega), h _ (by omega) (by omega)]
  by_cases c1 : 2 * s ≤ e ∧ e < V - 2 * s <;> by_cases c2 : 2 * s ≤ e + s ∧ e + s < V - 2 * s <;>
    simp only [c1, c2, if_true, if_false, and_self, a, b] <;> simp_all

/-- **C107**: with positive velocities `advection` computes this from the elements of `n`. -/
theorem C107_values_partial {B : Box} (hB : B ≠ []) (hP : Pos B) {n ns np : Chunk α} (ln : (n.arr.data.length : Int) = boxVolume B)
    (ls : (ns.arr.data.length : Int) = boxVolume B) (lp : (np.arr.data.length : Int) = boxVolume B) {dt : α} {v dx : Nat → α} {velocity : List α}
    {grid : Rectilinear α} (hv : ∀ d < B.length, velocity[d]? = some (v d)) (hpos : ∀ d < B.length, Arith.lt (Arith.lit 0) (v d) = true)
    (hdx : ∀ d : Nat, d < B.length → grid.dx d = .ok (dx d)) {u : Nat → α} (hu : ∀ e < n.arr.data.length, n.arr.data[e]? = some (u e)) :
    ∃ ns' np', advection grid (Range.setup B) dt velocity n ns np = .ok (ns', np') ∧ ns.SameShape ns' ∧ np.SameShape np' ∧
      ∃ w : Nat → α, (∀ e < n.arr.data.length, w e = colAdvected B dt v dx (fun i => u i.toNat) e (u e)) ∧
        (∀ e < n.arr.data.length, ns'.arr.data[e]? = some (w e)) ∧
        ∀ e < n.arr.data.length, np'.arr.data[e]? = some (colAdvected B (Arith.lit (1 / 2) * dt) v dx (fun i => w i.toNat) e (Arith.lit (1 / 2) * (u e + w e))) := by
  have ln' : n.arr.data.length = (Range.setup B).volume.toNat := by rw [Range.volume_setup hB]; omega
  have ls' : ns.arr.data.length = (Range.setup B).volume.toNat := by rw [Range.volume_setup hB]; omega
  have lp' : np.arr.data.length = (Range.setup B).volume.toNat := by rw [Range.volume_setup hB]; omega
  have hne : (Range.setup B).numDims ≠ 0 := by
    show B.length ≠ 0
    simpa using hB
  obtain ⟨c1, a1, a2, a3⟩ := copyAt_spec (n := n) (ns := ns) (by omega)
  obtain ⟨c2, b1, b2, b3⟩ := colInout_up hB hP ln (b := c1) (by rw [a2.2]; omega) (dt := dt) hv hpos hdx
  have l2 : c2.arr.data.length = ns.arr.data.length := by rw [b2.2, a2.2]
  obtain ⟨c3, d1, d2, d3⟩ := averageAt_spec (c0 := n) (c1 := c2) (c2 := np) (by omega) (by omega)
  obtain ⟨c4, e1, e2, e3⟩ := colInout_up hB hP (a := c2) (b := c3) (by omega) (by rw [d2.2]; omega) (dt := Arith.lit (1 / 2) * dt) hv hpos hdx
  refine ⟨c2, c4, ?_, a2.trans b2, d2.trans e2, fun e => c2.arr.data.getD e (Arith.lit 0), ?_, ?_, ?_⟩
  · unfold advection
    rw [if_neg hne]
    simp only [← ls', a1, Res.ok_bind, b1]
    rw [show ns.arr.data.length = np.arr.data.length by omega]
    simp only [d1, Res.ok_bind, e1]
    rfl
  · intro e he
    have := b3 e (by rw [a2.2]; omega)
    rw [a3, hu e he, RK.getElem?_getD (by omega)] at this
    simp only [Option.map_some, Option.some.injEq] at this
    refine this.trans ?_
    refine colAdvected_congr (by omega) (by omega) fun i h0 h1 => ?_
    have := hu i.toNat (by omega)
    simp [this]
  · intro e he
    exact RK.getElem?_getD (by omega)
  · intro e he
    have := e3 e (by rw [d2.2]; omega)
    rw [this, d3 e (by omega), Option.map_some]
    have hn := hu e he
    simp [hn]

/-- **C107**: the sum of the elements is kept. -/
theorem C107_total_partial {B : Box} (hB : B ≠ []) (hP : Pos B) {n ns np ns' np' : Chunk ℝ} (ln : (n.arr.data.length : Int) = boxVolume B)
    (ls : (ns.arr.data.length : Int) = boxVolume B) (lp : (np.arr.data.length : Int) = boxVolume B) {dt : ℝ} {v dx : Nat → ℝ} {velocity : List ℝ}
    {grid : Rectilinear ℝ} (hv : ∀ d < B.length, velocity[d]? = some (v d)) (hpos : ∀ d < B.length, 0 < v d)
    (hdx : ∀ d : Nat, d < B.length → grid.dx d = .ok (dx d)) (h : advection grid (Range.setup B) dt velocity n ns np = .ok (ns', np')) :
    ns'.arr.data.sum = n.arr.data.sum ∧ np'.arr.data.sum = n.arr.data.sum := by
  have hpos' : ∀ d < B.length, Arith.lt (Arith.lit 0) (v d) = true := by
    intro d hd; rw [real_lt]; simpa [real_lit] using hpos d hd
  have ln' : n.arr.data.length = (Range.setup B).volume.toNat := by rw [Range.volume_setup hB]; omega
  have ls' : ns.arr.data.length = (Range.setup B).volume.toNat := by rw [Range.volume_setup hB]; omega
  have lp' : np.arr.data.length = (Range.setup B).volume.toNat := by rw [Range.volume_setup hB]; omega
  have hne : (Range.setup B).numDims ≠ 0 := by
    show B.length ≠ 0
    simpa using hB
  obtain ⟨c1, a1, a2, a3⟩ := copyAt_spec (n := n) (ns := ns) (by omega)
  obtain ⟨c2, b1, b2, b3⟩ := colInout_up hB hP ln (b := c1) (by rw [a2.2]; omega) (dt := dt) hv hpos' hdx
  have l2 : c2.arr.data.length = ns.arr.data.length := by rw [b2.2, a2.2]
  obtain ⟨c3, d1, d2, d3⟩ := averageAt_spec (c0 := n) (c1 := c2) (c2 := np) (by omega) (by omega)
  obtain ⟨c4, e1, e2, e3⟩ := colInout_up hB hP (a := c2) (b := c3) (by omega) (by rw [d2.2]; omega) (dt := Arith.lit (1 / 2) * dt) hv hpos' hdx
  have s1 := colInout_sum hB hP ln (b := c1) (by rw [a2.2]; omega) hv hpos' hdx b1
  have s2 := colInout_sum hB hP (a := c2) (b := c3) (by omega) (by rw [d2.2]; omega) hv hpos' hdx e1
  rw [a3] at s1
  have s3 := average_sum (c0 := n.arr.data) (c1 := c2.arr.data) (c' := c3.arr.data) (by rw [d2.2]; omega) (by rw [d2.2]; omega) (fun i hi => by
    rw [d3 i (by rw [← d2.2]; exact hi)]
    simp [real_lit])
  unfold advection at h
  rw [if_neg hne] at h
  simp only [← ls', a1, Res.ok_bind, b1] at h
  rw [show ns.arr.data.length = np.arr.data.length by omega] at h
  simp only [d1, Res.ok_bind, e1] at h
  cases h
  refine ⟨s1, ?_⟩
  rw [s2, s3, s1]; ring

/-- **C107** (the function is not defined for all velocities): if one velocity is not positive, it reads past the end of the array. -/
theorem C107_false {B : Box} (hB : B ≠ []) (hP : Pos B) {n ns np : Chunk α} (ln : (n.arr.data.length : Int) = boxVolume B)
    (ls : (ns.arr.data.length : Int) = boxVolume B) {dt : α} {v dx : Nat → α} {velocity : List α}
    {grid : Rectilinear α} (hv : ∀ d < B.length, velocity[d]? = some (v d)) (hneg : ∃ d < B.length, Arith.lt (Arith.lit 0) (v d) = false)
    (hdx : ∀ d : Nat, d < B.length → grid.dx d = .ok (dx d)) :
    advection grid (Range.setup B) dt velocity n ns np = .ub "read out of bounds" := by
  have ls' : ns.arr.data.length = (Range.setup B).volume.toNat := by rw [Range.volume_setup hB]; omega
  have hne : (Range.setup B).numDims ≠ 0 := by
    show B.length ≠ 0
    simpa using hB
  obtain ⟨c1, a1, a2, a3⟩ := copyAt_spec (n := n) (ns := ns) (by omega)
  have := colInout_down hB hP ln (b := c1) (by rw [a2.2]; omega) (dt := dt) hv hneg hdx
  unfold advection
  rw [if_neg hne]
  simp only [← ls', a1, Res.ok_bind, this]
  rfl

theorem mul_one_pos {a b : Int} (ha : 0 < a) (hb : 0 < b) (h : a * b = 1) : a = 1 ∧ b = 1 := by
  have h1 := Int.eq_one_or_neg_one_of_mul_eq_one h
  have h2 := Int.eq_one_or_neg_one_of_mul_eq_one (mul_comm a b ▸ h)
  omega

/-- **C107**: the distances in the array that the function takes for those of neighbours are right in one dimension, or if there is only one element,
and in no other case. -/
theorem C107_strides {B : Box} (hP : Pos B) : colStrides 1 B = (Range.setup B).stride ↔ B.length ≤ 1 ∨ boxVolume B = 1 := by
  have hst : ∀ d < B.length, (Range.setup B).stride[d]? = some (boxVolume (B.drop (d + 1))) := fun d hd => by
    rw [Range.setup_stride, Range.strideLoop_getElem? _ _ hd]
  have hcs : ∀ d < B.length, (colStrides 1 B)[d]? = some (boxVolume (B.take d)) := fun d hd => by
    rw [colStrides_get B 1 hd, one_mul]
  have hT : ∀ d, 0 < boxVolume (B.take d) := fun d => boxVolume_pos (pos_take hP d)
  have hD : ∀ d, 0 < boxVolume (B.drop d) := fun d => boxVolume_pos (pos_drop hP d)
  have hTD : ∀ d, boxVolume (B.take d) * boxVolume (B.drop d) = boxVolume B := fun d => by
    rw [← boxVolume_append, List.take_append_drop]
  have hlen : (colStrides 1 B).length = B.length := by
    have : ∀ (B : Box) s, (colStrides s B).length = B.length := by
      intro B; induction B with
      | nil => intro s; rfl
      | cons x B ih => intro s; simp [colStrides, ih]
    exact this B 1
  have hlen' : (Range.setup B).stride.length = B.length := by
    rw [Range.setup_stride]; simp
  have key : colStrides 1 B = (Range.setup B).stride ↔ ∀ d < B.length, boxVolume (B.take d) = boxVolume (B.drop (d + 1)) := by
    constructor
    · intro h d hd
      have := hcs d hd
      rw [h, hst d hd] at this
      exact (Option.some.inj this).symm
    · intro h
      refine List.ext_getElem? fun d => ?_
      by_cases hd : d < B.length
      · rw [hcs d hd, hst d hd, h d hd]
      · rw [List.getElem?_eq_none (by omega), List.getElem?_eq_none (by omega)]
  rw [key]
  constructor
  · intro h
    by_cases hl : B.length ≤ 1
    · exact .inl hl
    · right
      have h0 := h 0 (by omega)
      have h1 := h (B.length - 1) (by omega)
      rw [List.take_zero, boxVolume_nil] at h0
      rw [show B.length - 1 + 1 = B.length by omega, List.drop_length, boxVolume_nil] at h1
      have e : B.take (B.length - 1) = B.take 1 ++ (B.take (B.length - 1)).drop 1 := by
        conv_lhs => rw [← List.take_append_drop 1 (B.take (B.length - 1))]
        rw [List.take_take, min_eq_left (by omega)]
      rw [e, boxVolume_append] at h1
      have := (mul_one_pos (hT 1) (boxVolume_pos (pos_drop (pos_take hP _) _)) h1).1
      rw [← hTD 1, this, ← h0, one_mul]
  · rintro (h | h) d hd
    · obtain rfl : d = 0 := by omega
      rw [List.take_zero, List.drop_eq_nil_of_le (by omega)]
    · have h1 := mul_one_pos (hT d) (hD d) ((hTD d).trans h)
      have h2 := mul_one_pos (hT (d + 1)) (hD (d + 1)) ((hTD (d + 1)).trans h)
      rw [h1.1, h2.2]

/-- A chunk with the elements `l`. -/
def chunkOf (l : List ℝ) : Chunk ℝ := ⟨.empty, .empty, ⟨.empty, l⟩, 2, .empty, [], [], [], []⟩

/-- The hypotheses of `C107_values_partial` and `C107_total_partial` hold for an array of 6 × 5 elements and the velocities 1 and 2. -/
example : ∃ g : Rectilinear ℝ, ∃ dx : Nat → ℝ, (∀ d : Nat, d < [((0 : Int), (6 : Int)), (0, 5)].length → g.dx d = .ok (dx d)) ∧ Pos [(0, 6), (0, 5)] ∧
    ((chunkOf ((List.range 30).map fun i : Nat => (i : ℝ) ^ 2)).arr.data.length : Int) = boxVolume [(0, 6), (0, 5)] ∧
    (∀ d : Nat, d < 2 → [(1 : ℝ), 2][d]? = some ((d : ℝ) + 1)) ∧ ∀ d : Nat, d < 2 → Arith.lt (Arith.lit 0) ((d : ℝ) + 1) = true := by
  obtain ⟨g, _, hd, hp, hdx, _⟩ := advect_grid (α := ℝ) (nx := 6) (ny := 5) (by norm_num) (by norm_num)
  refine ⟨g, g.dxAt, ?_, by rw [← hd]; exact hp, by simp [chunkOf, boxVolume, lengths], ?_, ?_⟩
  · intro d h; exact hdx d (by rw [hd]; exact h)
  · intro d h
    interval_cases d <;> norm_num
  · intro d _
    rw [real_lt, real_lit]
    norm_num
    positivity

/-- The hypotheses of `C107_false` hold for the velocities of advect_gaussian.cpp. -/
example : ∃ d < 2, Arith.lt (Arith.lit 0) ((fun _ => (-1 : ℝ)) d) = false := by
  refine ⟨0, by norm_num, ?_⟩
  rw [Bool.eq_false_iff, Ne, real_lt, real_lit]
  norm_num

/-- In an array of 6 × 5 elements the next element in the first direction is 5 further, not 1. -/
example : colStrides 1 [(0, 6), (0, 5)] = [1, 6] ∧ (Range.setup [(0, 6), (0, 5)]).stride = [5, 1] := by decide

end QK.Props
