import Verif.Spec.Vtk
import Verif.Proofs.Manager
import Verif.Proofs.Chunk
import Verif.Proofs.Grid
import Mathlib.Tactic.IntervalCases
/- The VTK writer. -/
namespace QK.Vtk
open Spec SM
variable {α : Type}

/-- The code adds `t` to the file. -/
def Emits (x : SM (List (Tok α)) Unit) (t : List (Tok α)) : Prop := ∀ s, x s = .ok () (s ++ t)

theorem Emits.bind {x : SM (List (Tok α)) Unit} {f : Unit → SM (List (Tok α)) Unit} {t u : List (Tok α)}
    (h : Emits x t) (h' : Emits (f ()) u) : Emits (x >>= f) (t ++ u) := by
  intro s
  rw [bind_ok (h s), h' _, List.append_assoc]

theorem Emits.lift {β : Type} {x : Res β} {b : β} {f : β → SM (List (Tok α)) Unit} {t : List (Tok α)}
    (h : x = .ok b) (h' : Emits (f b) t) : Emits (SM.lift x >>= f) t := by
  intro s
  rw [lift_bind h, h' s]

theorem emits_emit (t : List (Tok α)) : Emits (emit t) t := fun _ => rfl
theorem emits_pure : Emits (pure () : SM (List (Tok α)) Unit) [] := by
  intro s; simp; rfl

theorem Emits.forM {β : Type} {body : β → SM (List (Tok α)) Unit} {f : β → List (Tok α)} : ∀ {l : List β},
    (∀ b ∈ l, Emits (body b) (f b)) → Emits (l.forM body) (l.flatMap f) := by
  intro l
  induction l with
  | nil => intro _; simpa using emits_pure
  | cons b l ih =>
    intro h
    rw [List.flatMap_cons]; show Emits (body b >>= fun _ => l.forM body) _
    exact (h b (List.mem_cons_self ..)).bind (ih fun x hx => h x (List.mem_cons_of_mem _ hx))

theorem Emits.forInt {lo hi : Int} {body : Int → SM (List (Tok α)) Unit} {f : Int → List (Tok α)}
    (h : ∀ i, lo ≤ i → i < hi → Emits (body i) (f i)) : Emits (forInt lo hi body) ((interval lo hi).flatMap f) := by
  unfold Vtk.forInt interval
  rw [List.flatMap_map]
  refine Emits.forM ?_
  intro k hk
  rw [List.mem_range] at hk
  exact h _ (by omega) (by omega)

theorem vtkCells1 (a : Int × Int) : vtkCells [a] = (interval a.1 a.2).map fun x => [x] := by
  simp [vtkCells, cells, ← List.map_eq_flatMap]

theorem vtkCells2 (a b : Int × Int) : vtkCells [a, b] =
    (interval b.1 b.2).flatMap fun y => (interval a.1 a.2).map fun x => [x, y] := by
  simp [vtkCells, cells, List.map_flatMap, ← List.map_eq_flatMap, Function.comp_def]

theorem vtkCells3 (a b c : Int × Int) : vtkCells [a, b, c] =
    (interval c.1 c.2).flatMap fun z => (interval b.1 b.2).flatMap fun y => (interval a.1 a.2).map fun x => [x, y, z] := by
  simp [vtkCells, cells, List.map_flatMap, ← List.map_eq_flatMap, Function.comp_def]


theorem emitElem_spec {d : List α} {k : Int} {v : α} (h0 : 0 ≤ k) (h : d[k.toNat]? = some v) :
    Emits (emitElem d k) [.num v, .text " "] := by
  unfold emitElem
  refine Emits.lift (b := v) ?_ (emits_emit _)
  unfold vget
  rw [if_neg (by omega), h]

theorem valueToks_append (a b : List α) : valueToks (a ++ b) = valueToks a ++ valueToks b := by
  unfold valueToks; rw [List.flatMap_append]

theorem valueToks_flatMap {β : Type} (l : List β) (f : β → List α) :
    valueToks (l.flatMap f) = l.flatMap fun b => valueToks (f b) := by
  unfold valueToks; rw [List.flatMap_assoc]

theorem valueToks_map {β : Type} (l : List β) (f : β → α) :
    valueToks (l.map f) = l.flatMap fun b => [.num (f b), .text " "] := by
  unfold valueToks; rw [List.flatMap_map]

/-- The values written for component `i`. -/
theorem writeChunk_spec {c : Chunk α} {g : Int} {M : Box} {p n i : Int} (hL : c.Layout g M [(0, p), (0, n)])
    (hp : 1 ≤ p) (hg : 0 ≤ g) (h1 : 1 ≤ M.length) (h3 : M.length ≤ 3) (hi : 0 ≤ i) (hin : i < n)
    {V : Cell → α} (hV : ∀ x, InBox M x → c.arr.val (x ++ [0, i]) = some (V x)) :
    Emits (writeChunk c (Range.setup (M ++ [(0, p), (i, i + 1)])))
      (.text "LOOKUP_TABLE default\n" :: valueToks ((vtkCells M).map V) ++ [.text "\n"]) := by
  have hel : ∀ x k, InBox M x → k = offset (grow g M ++ [(0, p), (0, n)]) (x ++ [0, i]) →
      Emits (emitElem c.arr.data k) [.num (V x), .text " "] := by
    intro x k hx hk
    have hin' : InBox (grow g M ++ [(0, p), (0, n)]) (x ++ [0, i]) := by
      unfold InBox
      refine List.rel_append ?_ ?_
      · unfold grow
        rw [List.forall₂_map_left_iff]
        exact hx.imp (fun a b h => ⟨by omega, by omega⟩)
      · exact .cons ⟨by simp, by simp; omega⟩ (.cons ⟨hi, hin⟩ .nil)
    refine emitElem_spec ?_ ?_
    · rw [hk]; exact (offset_nonneg hin'.pos hin').1
    · have := hV x hx
      unfold IFace.val at this
      rw [hL.arr_range] at this
      rw [hk]; exact this
  have hmesh : c.mesh.numDims = M.length := by
    unfold Range.numDims; rw [hL.mesh_dims]; simp [grow]
  unfold writeChunk
  rw [hmesh]
  rw [List.cons_append, ← List.singleton_append]
  refine (emits_emit _).bind ?_
  match M, h1, h3 with
  | [a], _, _ =>
    refine Emits.lift (b := i) (by simp [Range.lower, Range.numDims, Range.setup, vget]) ?_
    simp only [List.length_cons, List.length_nil, Nat.zero_add, show ¬ (1 = 3) by decide, show ¬ (1 = 2) by decide,
      if_true, if_false]
    refine Emits.lift (b := a.1) (by simp [Range.lower, Range.setup, vget]) ?_
    refine Emits.lift (b := a.2) (by simp [Range.upper, Range.setup, vget]) ?_
    rw [vtkCells1, List.map_map, valueToks_map]
    refine Emits.bind ?_ (emits_emit _)
    refine Emits.forInt fun x hx hx' => ?_
    refine Emits.lift (b := a.1 - g) (by rw [hL.arr_range]; simp [Range.lower, Range.setup, vget, grow]) ?_
    refine Emits.lift (b := n * p) (by rw [hL.arr_range]; simp [Range.setup, Range.strideLoop, vget, grow]) ?_
    refine hel [x] _ (.cons ⟨hx, hx'⟩ .nil) ?_
    simp [offset, offsetFrom, grow]; ring
  | [a, b], _, _ =>
    refine Emits.lift (b := i) (by simp [Range.lower, Range.numDims, Range.setup, vget]) ?_
    simp only [List.length_cons, List.length_nil, Nat.zero_add, Nat.reduceAdd, show ¬ (2 = 3) by decide,
      if_true, if_false]
    refine Emits.lift (b := b.1) (by simp [Range.lower, Range.setup, vget]) ?_
    refine Emits.lift (b := b.2) (by simp [Range.upper, Range.setup, vget]) ?_
    rw [vtkCells2, List.map_flatMap, valueToks_flatMap]
    refine Emits.bind ?_ (emits_emit _)
    refine Emits.forInt fun y hy hy' => ?_
    refine Emits.lift (b := b.1 - g) (by rw [hL.arr_range]; simp [Range.lower, Range.setup, vget, grow]) ?_
    refine Emits.lift (b := n * p) (by rw [hL.arr_range]; simp [Range.setup, Range.strideLoop, vget, grow]) ?_
    refine Emits.lift (b := a.1) (by simp [Range.lower, Range.setup, vget]) ?_
    refine Emits.lift (b := a.2) (by simp [Range.upper, Range.setup, vget]) ?_
    rw [List.map_map, valueToks_map]
    refine Emits.forInt fun x hx hx' => ?_
    refine Emits.lift (b := a.1 - g) (by rw [hL.arr_range]; simp [Range.lower, Range.setup, vget, grow]) ?_
    refine Emits.lift (b := n * p * (b.2 - b.1 + 2 * g)) (by
      rw [hL.arr_range]; simp [Range.setup, Range.strideLoop, vget, grow]; ring_nf; try simp) ?_
    refine hel [x, y] _ (.cons ⟨hx, hx'⟩ (.cons ⟨hy, hy'⟩ .nil)) ?_
    simp [offset, offsetFrom, grow]; ring
  | [a, b, d], _, _ =>
    refine Emits.lift (b := i) (by simp [Range.lower, Range.numDims, Range.setup, vget]) ?_
    simp only [List.length_cons, List.length_nil, Nat.zero_add, Nat.reduceAdd, if_true]
    refine Emits.lift (b := d.1) (by simp [Range.lower, Range.setup, vget]) ?_
    refine Emits.lift (b := d.2) (by simp [Range.upper, Range.setup, vget]) ?_
    rw [vtkCells3, List.map_flatMap, valueToks_flatMap]
    refine Emits.bind ?_ (emits_emit _)
    refine Emits.forInt fun z hz hz' => ?_
    refine Emits.lift (b := d.1 - g) (by rw [hL.arr_range]; simp [Range.lower, Range.setup, vget, grow]) ?_
    refine Emits.lift (b := n * p) (by rw [hL.arr_range]; simp [Range.setup, Range.strideLoop, vget, grow]) ?_
    refine Emits.lift (b := b.1) (by simp [Range.lower, Range.setup, vget]) ?_
    refine Emits.lift (b := b.2) (by simp [Range.upper, Range.setup, vget]) ?_
    rw [List.map_flatMap, valueToks_flatMap]
    refine Emits.forInt fun y hy hy' => ?_
    refine Emits.lift (b := b.1 - g) (by rw [hL.arr_range]; simp [Range.lower, Range.setup, vget, grow]) ?_
    refine Emits.lift (b := n * p * (d.2 - d.1 + 2 * g)) (by
      rw [hL.arr_range]; simp [Range.setup, Range.strideLoop, vget, grow]; ring_nf; try simp) ?_
    refine Emits.lift (b := a.1) (by simp [Range.lower, Range.setup, vget]) ?_
    refine Emits.lift (b := a.2) (by simp [Range.upper, Range.setup, vget]) ?_
    rw [List.map_map, valueToks_map]
    refine Emits.forInt fun x hx hx' => ?_
    refine Emits.lift (b := a.1 - g) (by rw [hL.arr_range]; simp [Range.lower, Range.setup, vget, grow]) ?_
    refine Emits.lift (b := n * p * (d.2 - d.1 + 2 * g) * (b.2 - b.1 + 2 * g)) (by
      rw [hL.arr_range]; simp [Range.setup, Range.strideLoop, vget, grow]; ring_nf; try simp) ?_
    refine hel [x, y, z] _ (.cons ⟨hx, hx'⟩ (.cons ⟨hy, hy'⟩ (.cons ⟨hz, hz'⟩ .nil))) ?_
    simp [offset, offsetFrom, grow]; ring


theorem written_ok {x : SM (List (Tok α)) Unit} {t : List (Tok α)} (h : Emits x t) (s : List (Tok α)) :
    written x s = .ok (s ++ t) := by
  unfold written; rw [h s]

theorem writeComp_spec {v : Var α} {c : Chunk α} {k : Nat} (hk : k ≠ 0) (hv : v.chunks = ⟨Range.setup (chunkBox k), [c]⟩)
    {g : Int} {M : Box} {n i : Int} (hL : c.Layout g M [(0, 1), (0, n)])
    (hg : 0 ≤ g) (h1 : 1 ≤ M.length) (h3 : M.length ≤ 3) (hi : 0 ≤ i) (hin : i < n)
    {V : Cell → α} (hV : ∀ x, InBox M x → c.arr.val (x ++ [0, i]) = some (V x)) :
    Emits (writeComp v i) (.text "LOOKUP_TABLE default\n" :: valueToks ((vtkCells M).map V) ++ [.text "\n"]) := by
  intro s
  unfold writeComp
  apply modifyRes_ok
  have hne : chunkBox k ≠ [] := by
    intro e
    have := congrArg List.length e
    simp only [chunkBox, List.length_replicate, List.length_nil] at this
    exact hk this
  rw [hv]
  unfold IFace.indexer
  rw [Indexer.forEach_make hne ((within_iff _ _).2 ⟨rfl, fun j hj => ⟨le_refl _, le_refl _⟩⟩) (pos_chunkBox _)]
  simp only [Range.setup_dims, cells_chunkBox, List.foldlM_cons, List.foldlM_nil]
  have hget : ∀ idx : Indexer, idx.linear = 0 → (IFace.mk (Range.setup (chunkBox k)) [c]).get idx = .ok c := by
    intro idx h; unfold IFace.get; rw [h]; rfl
  rw [hget _ (by simp [Indexer.onCell, offset_chunkBox]), Res.ok_bind]
  have hset : (c.internal.copy.set (c.internal.copy.numDims - 1) i (i + 1)) =
      .ok (Range.setup (M ++ [(0, 1), (i, i + 1)])) := by
    rw [hL.internal]
    simp only [Range.copy, Range.set, Range.numDims, Range.setup_dims, List.length_append, List.length_cons, List.length_nil]
    unfold vset
    rw [if_pos (by simp; omega)]
    have e : (((M.length + (0 + 1 + 1) : Nat) : Int) - 1).toNat = M.length + 1 := by omega
    rw [e, List.set_append_right _ _ (by omega)]
    simp
  simp only [hset, Res.ok_bind, written_ok (writeChunk_spec hL (by decide) hg h1 h3 hi hin hV)]
  rfl


theorem eqv_iff (a b : Basis) : a.eqv b = true ↔ a = b := by
  unfold Basis.eqv
  constructor
  · intro h
    split at h
    · cases h
    · rename_i h'
      exact Basis.ext' (not_not.1 h') (of_decide_eq_true h)
  · rintro rfl; simp

theorem neqv_iff (a b : Basis) : a.neqv b = true ↔ a ≠ b := by
  unfold Basis.neqv
  rw [Bool.not_eq_true', ← Bool.not_eq_true, eqv_iff]

theorem mem_vtkCells {M : Box} {x : Cell} : x ∈ vtkCells M ↔ InBox M x := by
  unfold vtkCells
  rw [List.mem_map]
  have key : ∀ (M : Box) (y : Cell), InBox M.reverse y ↔ InBox M y.reverse := by
    intro M y
    unfold InBox
    rw [← List.forall₂_reverse_iff, List.reverse_reverse]
  constructor
  · rintro ⟨y, hy, rfl⟩
    exact (key M y).1 (mem_cells.1 hy)
  · intro h
    exact ⟨x.reverse, mem_cells.2 ((key M _).2 (by rwa [List.reverse_reverse])), List.reverse_reverse _⟩

variable [Arith α]

/-- The blocks of one variable. -/
theorem writeVar_spec {S : VarId → Prop} {m : Mgr α} (h : m.Good S) (hL : m.Laid) {id : VarId} {a : Nat}
    (ha : m.addr id = some a) (hb : id.basis = Basis.volumeAverage) (h3 : m.grid.rng.dims.length ≤ 3) {c : Chunk α}
    (hc : m.contents id = some c) :
    ∃ v, vget m.heap a = .ok v ∧ ∃ vals : Nat → List α,
      (∀ i < id.comps.length, (vals i).map some = (vtkCells m.grid.rng.dims).map fun x => c.arr.val (x ++ [0, (i : Int)])) ∧
      Emits (writeVar v) (id.comps.zipIdx.flatMap fun p => scalarBlock id.name p.1 (vals p.2)) := by
  obtain ⟨v, c', h1, e1, e2, e3, _, _, h7, h8⟩ := h.stored' ha
  rw [hc] at h8; cases h8
  have hl := hL id c hc
  rw [hb] at hl
  have hl1 : 1 ≤ m.grid.rng.dims.length := by
    rcases Nat.eq_zero_or_pos m.grid.rng.dims.length with e | e
    · exact absurd (List.length_eq_zero_iff.1 e) h.mesh_ne
    · exact e
  have hex : ∀ i : Nat, i < id.comps.length → ∀ x, InBox m.grid.rng.dims x → ∃ y, c.arr.val (x ++ [0, (i : Int)]) = some y := by
    intro i hi x hx
    have hin : InBox (m.grid.rng.dims ++ [(0, 1), (0, (id.comps.length : Int))]) (x ++ [0, (i : Int)]) := by
      unfold InBox
      exact List.rel_append hx (.cons ⟨by simp, by simp⟩ (.cons ⟨by simp, by simpa using hi⟩ .nil))
    have hin' := inBox_interior (g := 2) (by decide) hin
    refine IFace.val_isSome hl.wf ?_ ?_
    · rw [hl.dims]; simp
    · rw [hl.dims]; exact hin'
  have hV : ∃ V : Nat → Cell → α, ∀ i < id.comps.length, ∀ x, InBox m.grid.rng.dims x →
      c.arr.val (x ++ [0, (i : Int)]) = some (V i x) := by
    refine ⟨fun i x => (c.arr.val (x ++ [0, (i : Int)])).getD (Arith.lit 0), ?_⟩
    intro i hi x hx
    obtain ⟨y, hy⟩ := hex i hi x hx
    simp [hy]
  obtain ⟨V, hV⟩ := hV
  refine ⟨v, vget_ok h1, fun i => (vtkCells m.grid.rng.dims).map (V i), ?_, ?_⟩
  · intro i hi
    rw [List.map_map, List.map_inj_left]
    intro x hx
    exact (hV i hi x (mem_vtkCells.1 hx)).symm
  · unfold writeVar
    rw [if_pos ((eqv_iff _ _).2 (e3.trans hb)), e1, e2]
    refine Emits.forM ?_
    intro p hp
    have hp2 : p.2 < id.comps.length := by
      have := List.mem_zipIdx hp; omega
    exact (emits_emit _).bind (writeComp_spec (by omega) h7 hl (by decide) hl1 h3 (by omega) (by exact_mod_cast hp2)
      (hV p.2 hp2))


theorem writeGrid_spec {range : Range} {s w : List α} {g : Rectilinear α} (h : Rectilinear.make range s w = .ok g)
    (h1 : 1 ≤ g.rng.dims.length) (h3 : g.rng.dims.length ≤ 3) :
    ∃ o sp : Nat → α, Emits (writeGrid g Basis.volumeAverage)
        (geometry (points g.rng.dims 0, points g.rng.dims 1, points g.rng.dims 2) (o 0, o 1, o 2) (sp 0, sp 1, sp 2)) ∧
      ∀ d < g.rng.dims.length, ∃ st wi dx, g.startxs[d]? = some st ∧ g.widths[d]? = some wi ∧ g.dxs[d]? = some dx ∧
        o d = st + wi / Arith.lit 2 ∧ sp d = dx := by
  obtain ⟨f1, f2, f3, f4, f5, f6, -⟩ := Rectilinear.make_fields h
  have hn : g.rng.dims.length = range.dims.length := by rw [f1]; rfl
  have l1 : g.startxs.length = g.rng.dims.length := by rw [f2, hn]; simp; omega
  have l2 : g.widths.length = g.rng.dims.length := by rw [f3, hn]; simp; omega
  have l3 : g.dxs.length = g.rng.dims.length := by rw [f6, hn]
  have hr : g.rng = Range.setup g.rng.dims := by rw [f1]; rfl
  obtain ⟨rng, sx, ws, dx⟩ := g
  simp only at *
  rw [hr]
  generalize rng.dims = M at *
  simp only [Range.setup_dims]
  match M, sx, ws, dx, h1, h3, l1, l2, l3 with
  | [a], [s0], [w0], [d0], _, _, _, _, _ =>
    refine ⟨fun d => if d = 0 then s0 + w0 / Arith.lit 2 else Arith.lit 0, fun _ => d0, ?_, ?_⟩
    · have := ((emits_emit (α := α) [.text "DATASET STRUCTURED_POINTS\n"]).bind (f := fun _ => _)
        ((emits_emit [.text "DIMENSIONS ", .int (a.2 - a.1 + 1), .text " ", .int 1, .text " ", .int 1, .text "\n"]).bind
        (f := fun _ => _) ((emits_emit [.text "ORIGIN ", .num (s0 + w0 / Arith.lit 2), .text " ", .num (Arith.lit 0), .text " ",
          .num (Arith.lit 0), .text "\n"]).bind (f := fun _ => _)
        (emits_emit [.text "SPACING ", .num d0, .text " ", .num d0, .text " ", .num d0, .text "\n"]))))
      exact this
    · intro d hd
      have : d = 0 := by simpa using hd
      subst this
      exact ⟨_, _, _, rfl, rfl, rfl, rfl, rfl⟩
  | [a, b], [s0, s1], [w0, w1], [d0, d1], _, _, _, _, _ =>
    refine ⟨fun d => if d = 0 then s0 + w0 / Arith.lit 2 else if d = 1 then s1 + w1 / Arith.lit 2 else Arith.lit 0,
      fun d => if d = 1 then d1 else d0, ?_, ?_⟩
    · have := ((emits_emit (α := α) [.text "DATASET STRUCTURED_POINTS\n"]).bind (f := fun _ => _)
        ((emits_emit [.text "DIMENSIONS ", .int (a.2 - a.1 + 1), .text " ", .int (b.2 - b.1 + 1), .text " ", .int 1, .text "\n"]).bind
        (f := fun _ => _) ((emits_emit [.text "ORIGIN ", .num (s0 + w0 / Arith.lit 2), .text " ", .num (s1 + w1 / Arith.lit 2), .text " ",
          .num (Arith.lit 0), .text "\n"]).bind (f := fun _ => _)
        (emits_emit [.text "SPACING ", .num d0, .text " ", .num d1, .text " ", .num d0, .text "\n"]))))
      exact this
    · intro d hd
      have : d < 2 := hd
      interval_cases d <;> exact ⟨_, _, _, rfl, rfl, rfl, rfl, rfl⟩
  | [a, b, c], [s0, s1, s2], [w0, w1, w2], [d0, d1, d2], _, _, _, _, _ =>
    refine ⟨fun d => if d = 0 then s0 + w0 / Arith.lit 2 else if d = 1 then s1 + w1 / Arith.lit 2 else s2 + w2 / Arith.lit 2,
      fun d => if d = 1 then d1 else if d = 2 then d2 else d0, ?_, ?_⟩
    · have := ((emits_emit (α := α) [.text "DATASET STRUCTURED_POINTS\n"]).bind (f := fun _ => _)
        ((emits_emit [.text "DIMENSIONS ", .int (a.2 - a.1 + 1), .text " ", .int (b.2 - b.1 + 1), .text " ", .int (c.2 - c.1 + 1), .text "\n"]).bind
        (f := fun _ => _) ((emits_emit [.text "ORIGIN ", .num (s0 + w0 / Arith.lit 2), .text " ", .num (s1 + w1 / Arith.lit 2), .text " ",
          .num (s2 + w2 / Arith.lit 2), .text "\n"]).bind (f := fun _ => _)
        (emits_emit [.text "SPACING ", .num d0, .text " ", .num d1, .text " ", .num d2, .text "\n"]))))
      exact this
    · intro d hd
      have : d < 3 := hd
      interval_cases d <;> exact ⟨_, _, _, rfl, rfl, rfl, rfl, rfl⟩

theorem checkBases_ok {b : Basis} : ∀ {ids : List VarId}, (∀ id ∈ ids, id.basis = b) → ∀ s : List (Tok α),
    checkBases b ids s = .ok () s := by
  intro ids
  induction ids with
  | nil => intro _ s; rfl
  | cons id ids ih =>
    intro h s
    unfold checkBases
    have : ¬ b.neqv id.basis = true := by rw [neqv_iff, not_not]; exact (h id (List.mem_cons_self ..)).symm
    rw [if_neg this]
    exact ih (fun x hx => h x (List.mem_cons_of_mem _ hx)) s

theorem checkBases_throw {b : Basis} : ∀ {ids : List VarId}, (∃ id ∈ ids, id.basis ≠ b) → ∀ s : List (Tok α),
    checkBases b ids s = .throw "qk::variable::variable_manager::write_VTK : Current limitation - all variables must share a basis." s := by
  intro ids
  induction ids with
  | nil => rintro ⟨_, h, _⟩; cases h
  | cons id ids ih =>
    rintro ⟨x, hx, hne⟩ s
    unfold checkBases
    by_cases e : b.neqv id.basis = true
    · rw [if_pos e]; rfl
    · rw [if_neg e]
      rw [neqv_iff, not_not] at e
      rcases List.mem_cons.1 hx with rfl | hx
      · exact absurd e.symm hne
      · exact ih ⟨x, hx, hne⟩ s

theorem writeVars_spec {S : VarId → Prop} {m : Mgr α} (h : m.Good S) (hL : m.Laid) (h3 : m.grid.rng.dims.length ≤ 3) :
    ∀ {ids : List VarId}, (∀ id ∈ ids, S id ∧ id.basis = Basis.volumeAverage ∧ ∃ a, m.addr id = some a) →
    ∃ vals : VarId → Nat → List α,
      (∀ id ∈ ids, ∃ c, m.contents id = some c ∧ ∀ i < id.comps.length,
        (vals id i).map some = (vtkCells m.grid.rng.dims).map fun x => c.arr.val (x ++ [0, (i : Int)])) ∧
      Emits (writeVars m ids) (ids.flatMap fun id => id.comps.zipIdx.flatMap fun p => scalarBlock id.name p.1 (vals id p.2)) := by
  intro ids hids
  have hone : ∀ id, id ∈ ids → ∃ vals : Nat → List α, (∃ c, m.contents id = some c ∧ ∀ i < id.comps.length,
        (vals i).map some = (vtkCells m.grid.rng.dims).map fun x => c.arr.val (x ++ [0, (i : Int)])) ∧
      ∃ a v, m.addr id = some a ∧ vget m.heap a = .ok v ∧
        Emits (writeVar v) (id.comps.zipIdx.flatMap fun p => scalarBlock id.name p.1 (vals p.2)) := by
    intro id hid
    obtain ⟨hS, hb, a, ha⟩ := hids id hid
    obtain ⟨_, c, _, _, _, _, _, _, _, hc⟩ := h.stored' ha
    obtain ⟨v, hv, vals, h1, h2⟩ := writeVar_spec h hL ha hb h3 hc
    exact ⟨vals, ⟨c, hc, h1⟩, a, v, ha, hv, h2⟩
  refine ⟨fun id => if hid : id ∈ ids then (hone id hid).choose else fun _ => [], ?_, ?_⟩
  · intro id hid
    simp only [dif_pos hid]
    exact (hone id hid).choose_spec.1
  · have key : ∀ l : List VarId, l ⊆ ids → Emits (writeVars m l) (l.flatMap fun id => id.comps.zipIdx.flatMap fun p =>
        scalarBlock id.name p.1 ((if hid : id ∈ ids then (hone id hid).choose else fun _ => []) p.2)) := by
      intro l
      induction l with
      | nil => intro _; exact emits_pure
      | cons id l ih =>
        intro hsub
        have hid : id ∈ ids := hsub (List.mem_cons_self ..)
        obtain ⟨a, v, ha, hv, he⟩ := (hone id hid).choose_spec.2
        rw [List.flatMap_cons]
        unfold writeVars
        refine Emits.lift (b := some a) (by rw [h.find_eq (hids id hid).1, ha]) ?_
        refine Emits.lift hv ?_
        refine Emits.bind ?_ (ih fun x hx => hsub (List.mem_cons_of_mem _ hx))
        rw [dif_pos hid]; exact he
    exact key ids (List.Subset.refl _)

omit [Arith α] in
theorem blocks_flatten {β γ δ : Type} (l : List β) (f : β → List γ) (g : β → γ → List δ) :
    (l.flatMap fun b => (f b).map (g b)).flatten = l.flatMap fun b => (f b).flatMap (g b) := by
  induction l with
  | nil => rfl
  | cons b l ih => rw [List.flatMap_cons, List.flatMap_cons, List.flatten_append, ih, ← List.flatMap_def]

/-- The whole file. -/
theorem write_spec {S : VarId → Prop} {m : Mgr α} (h : m.Good S) (hL : m.Laid) (h3 : m.grid.rng.dims.length ≤ 3)
    {range : Range} {s w : List α} (hg : Rectilinear.make range s w = .ok m.grid)
    {ids : List VarId} (hne : ids ≠ [])
    (hids : ∀ id ∈ ids, S id ∧ id.basis = Basis.volumeAverage ∧ ∃ a, m.addr id = some a) :
    ∃ (o sp : Nat → α) (vals : VarId → Nat → List α),
      write m true ids [] = .ok () (vtkFile (points m.grid.rng.dims 0, points m.grid.rng.dims 1, points m.grid.rng.dims 2)
        (o 0, o 1, o 2) (sp 0, sp 1, sp 2) m.grid.rng.volume
        (ids.flatMap fun id => id.comps.zipIdx.map fun p => scalarBlock id.name p.1 (vals id p.2))) ∧
      (∀ d < m.grid.rng.dims.length, ∃ st wi dx, m.grid.startxs[d]? = some st ∧ m.grid.widths[d]? = some wi ∧
        m.grid.dxs[d]? = some dx ∧ o d = st + wi / Arith.lit 2 ∧ sp d = dx) ∧
      (∀ id ∈ ids, ∃ c, m.contents id = some c ∧ ∀ i < id.comps.length,
        (vals id i).map some = (vtkCells m.grid.rng.dims).map fun x => c.arr.val (x ++ [0, (i : Int)])) := by
  have hl1 : 1 ≤ m.grid.rng.dims.length := by
    rcases Nat.eq_zero_or_pos m.grid.rng.dims.length with e | e
    · exact absurd (List.length_eq_zero_iff.1 e) h.mesh_ne
    · exact e
  obtain ⟨o, sp, hG, hG'⟩ := writeGrid_spec hg hl1 h3
  obtain ⟨vals, hv, hV⟩ := writeVars_spec h hL h3 hids
  refine ⟨o, sp, vals, ?_, hG', hv⟩
  match ids, hne with
  | id :: ids, _ =>
    have hb : id.basis = Basis.volumeAverage := (hids id (List.mem_cons_self ..)).2.1
    unfold write
    simp only []
    rw [hb, bind_ok (checkBases_ok (fun x hx => (hids x hx).2.1) []), if_pos trivial]
    have := (emits_emit (α := α) [.text "# vtk DataFile Version 2.0\n"]).bind (f := fun _ => _)
      ((emits_emit [.text "quikin output\n"]).bind (f := fun _ => _)
      ((emits_emit [.text "ASCII\n"]).bind (f := fun _ => _) (hG.bind (f := fun _ => _)
      ((emits_emit [.text "CELL_DATA ", .int m.grid.rng.volume, .text "\n"]).bind (f := fun _ => _) hV))))
    refine (this []).trans ?_
    congr 1
    unfold vtkFile
    rw [blocks_flatten]
    simp only [List.nil_append, List.append_assoc, List.cons_append]


/-- A missing variable after any number of existing ones. -/
theorem writeVars_missing {S : VarId → Prop} {m : Mgr α} (h : m.Good S) (hL : m.Laid) (h3 : m.grid.rng.dims.length ≤ 3) :
    ∀ {ids : List VarId}, (∀ id ∈ ids, S id ∧ id.basis = Basis.volumeAverage) → (∃ id ∈ ids, m.addr id = none) →
    ∀ s, ∃ msg s', writeVars m ids s = .throw msg s' := by
  intro ids
  induction ids with
  | nil => rintro _ ⟨_, h, _⟩; cases h
  | cons id ids ih =>
    rintro hids ⟨x, hx, hn⟩ s
    unfold writeVars
    have hid := hids id (List.mem_cons_self ..)
    cases ha : m.addr id with
    | none =>
      rw [lift_bind (h.find_eq hid.1), ha]
      exact ⟨_, _, rfl⟩
    | some a =>
      rw [lift_bind (h.find_eq hid.1), ha]
      obtain ⟨_, c, _, _, _, _, _, _, _, hc⟩ := h.stored' ha
      obtain ⟨v, hv, vals, _, he⟩ := writeVar_spec h hL ha hid.2 h3 hc
      simp only []
      rw [lift_bind hv, bind_ok (he s)]
      rcases List.mem_cons.1 hx with rfl | hx
      · rw [ha] at hn; cases hn
      · exact ih (fun y hy => hids y (List.mem_cons_of_mem _ hy)) ⟨x, hx, hn⟩ _

end QK.Vtk
