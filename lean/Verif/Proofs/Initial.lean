import Verif.Model.Initial
import Verif.Spec.Initial
import Verif.Proofs.Source
import Verif.Proofs.Solvers
import Verif.Proofs.Grid
/-
Helper lemmas about the initial conditions (Model/Initial.lean).
-/
namespace QK
open Spec

theorem Rectilinear.make_sized {α : Type} [Arith α] {range : Range} {s w : List α} {g : Rectilinear α}
    (h : Rectilinear.make range s w = .ok g) : g.Sized := by
  obtain ⟨h1, h2, _, h4, _, h6, _⟩ := Rectilinear.make_fields h
  have : g.rng.dims = range.dims := by rw [h1]; rfl
  exact ⟨by rw [h2, this]; simp [h4], by rw [h6, this]⟩

namespace Init
variable {α : Type} [Arith α]

/-! ### Coordinates -/

theorem xc_steps {g : Rectilinear α} (hg : g.Sized) {index : List Int} (hi : g.rng.dims.length ≤ index.length)
    (x0 : List (Option α)) : ∀ k, k ≤ g.rng.dims.length → k ≤ x0.length →
    (List.range k).foldlM (fun x (i : Nat) => do
      let s ← vget g.startxs i
      let k ← vget index i
      let d ← vget g.dxs i
      vset x i (some (s + (Arith.ofInt k + Arith.lit (1/2)) * d))) x0 =
      .ok (x0.mapIdx fun i o => if i < k then some (centre g index i) else o) := by
  intro k
  induction k with
  | zero =>
    intro _ _
    simp only [List.range_zero, List.foldlM_nil, Res.pure_eq, Nat.not_lt_zero, if_false]
    congr 1
    exact List.ext_getElem? (by simp)
  | succ k ih =>
    intro h1 h2
    rw [Structured.foldlM_range_succ, ih (by omega) (by omega), Res.ok_bind]
    have hs : k < g.startxs.length := by rw [hg.starts]; omega
    have hd : k < g.dxs.length := by rw [hg.widths]; omega
    rw [vget_nat hs, Res.ok_bind, vget_nat (show k < index.length by omega), Res.ok_bind, vget_nat hd, Res.ok_bind,
      vset_nat (by simpa using h2)]
    congr 1
    apply List.ext_getElem?
    intro i
    rw [List.getElem?_set]
    simp only [List.length_mapIdx, List.getElem?_mapIdx]
    split
    · next e =>
      subst e
      rw [if_pos (by omega), List.getElem?_eq_getElem (by omega)]
      simp [centre, hs, hd, show k < index.length by omega]
    · next e =>
      cases x0[i]? with
      | none => rfl
      | some o =>
        simp only [Option.map_some, Option.some.injEq]
        by_cases hik : i < k
        · rw [if_pos hik, if_pos (by omega)]
        · rw [if_neg hik, if_neg (by omega)]

/-- The coordinates of a cell in an array of at least as many entries as the grid has dimensions. -/
theorem xc_eq {g : Rectilinear α} (hg : g.Sized) {index : List Int} (hi : g.rng.dims.length ≤ index.length)
    {x0 : List (Option α)} (h : g.rng.dims.length ≤ x0.length) :
    g.xc index x0 = .ok (x0.mapIdx fun i o => if i < g.rng.dims.length then some (centre g index i) else o) :=
  xc_steps hg hi x0 _ (le_refl _) h

theorem xc_ub {g : Rectilinear α} (hg : g.Sized) {index : List Int} (hi : g.rng.dims.length ≤ index.length)
    {x0 : List (Option α)} (h : x0.length < g.rng.dims.length) : ∃ w, g.xc index x0 = .ub w := by
  unfold Rectilinear.xc
  obtain ⟨k, hk⟩ : ∃ k, g.rng.numDims = (x0.length + 1) + k := ⟨g.rng.dims.length - (x0.length + 1), by
    unfold Range.numDims; omega⟩
  rw [hk, List.range_add, List.foldlM_append, Structured.foldlM_range_succ, xc_steps hg hi x0 _ (by omega) (le_refl _), Res.ok_bind]
  have hs : x0.length < g.startxs.length := by rw [hg.starts]; omega
  have hd : x0.length < g.dxs.length := by rw [hg.widths]; omega
  rw [vget_nat hs, Res.ok_bind, vget_nat (show x0.length < index.length by omega), Res.ok_bind, vget_nat hd, Res.ok_bind]
  unfold vset
  rw [if_neg (by simp)]
  exact ⟨_, rfl⟩

theorem centre_append (g : Rectilinear α) {x y : Cell} {i : Nat} (h : i < x.length) : centre g (x ++ y) i = centre g x i := by
  unfold centre
  simp only [List.getD_eq_getElem?_getD]
  rw [List.getElem?_append_left h]

theorem coords_eq {g : Rectilinear α} (hg : g.Sized) (h3 : g.rng.dims.length ≤ 3) {idx : Indexer}
    (hi : g.rng.dims.length ≤ idx.index.length) :
    coords g idx = .ok (([none, none, none] : List (Option α)).mapIdx
      fun i o => if i < g.rng.dims.length then some (centre g idx.index i) else o) := xc_eq hg hi (by simpa using h3)

theorem coord_ok {g : Rectilinear α} {index : List Int} {i : Nat} (h : i < g.rng.dims.length) (h3 : i < 3) :
    coord (([none, none, none] : List (Option α)).mapIdx
      fun i o => if i < g.rng.dims.length then some (centre g index i) else o) (i : Int) = .ok (centre g index i) := by
  unfold coord
  rw [vget_nat (by simpa using h3), Res.ok_bind]
  match i, h3 with
  | 0, _ => simp [h]
  | 1, _ => simp [h]
  | 2, _ => simp [h]

theorem coord_ub {g : Rectilinear α} {index : List Int} {i : Nat} (h : ¬ i < g.rng.dims.length) (h3 : i < 3) :
    ∃ w, coord (([none, none, none] : List (Option α)).mapIdx
      fun i o => if i < g.rng.dims.length then some (centre g index i) else o) (i : Int) = .ub w := by
  unfold coord
  rw [vget_nat (by simpa using h3), Res.ok_bind]
  match i, h3 with
  | 0, _ => simp [h]
  | 1, _ => simp [h]
  | 2, _ => simp [h]

/-! ### Loops -/

theorem set_eq {a : IFace α} (h : a.WF) (hn : a.rng.dims ≠ []) {y : Cell} (hy : InBox a.rng.dims y) {base : Int}
    (e : base = offset a.rng.dims y) (v : α) : vset a.data base v = .ok (a.upd (y, fun _ => v)).data := by
  obtain ⟨r, hr⟩ := IFace.val_isSome h hn hy
  have ho := offset_nonneg hy.pos hy
  have hl := IFace.InBox_ne_nil h hn hy
  rw [e]
  unfold IFace.upd
  simp only [hr]
  unfold vset
  rw [if_pos (by omega)]
  rfl

theorem loop_spec {c : Chunk α} {sub : Box} (hwf : c.arr.WF) (hn : c.arr.rng.dims ≠ []) (hw : Range.Within c.arr.rng.dims sub)
    (hp : Pos sub) {round : Indexer → List α → Res (List α)} (ws : Cell → List (Cell × α))
    (hb : ∀ x, InBox sub x → ∀ a : IFace α, a.WF → a.rng = c.arr.rng →
      round (Indexer.onCell sub c.arr.rng.dims x) a.data = .ok (((ws x).map fun q => (q.1, fun _ => q.2)).foldl IFace.upd a).data)
    (hin : ∀ x, InBox sub x → ∀ q ∈ ws x, InBox c.arr.rng.dims q.1)
    (hnd : (((cells sub).flatMap ws).map Prod.fst).Nodup) :
    ∃ c', cellLoop (Range.setup sub) round c = .ok c' ∧ c.SameShape c' ∧
      (∀ x, InBox sub x → ∀ q ∈ ws x, c'.arr.val q.1 = some q.2) ∧
      (∀ y, InBox c.arr.rng.dims y → (∀ x, InBox sub x → ∀ q ∈ ws x, q.1 ≠ y) → c'.arr.val y = c.arr.val y) := by
  unfold cellLoop IFace.indexer
  rw [Indexer.forEach_make hn hw hp]
  simp only [Range.setup_dims]
  rw [Source.foldlM_upd c.arr (fun x => (ws x).map fun q => (q.1, fun _ => q.2)) hwf
    (body := fun x d => round (Indexer.onCell sub c.arr.rng.dims x) d) (fun x hx a ha har => hb x (mem_cells.1 hx) a ha har)]
  set L := (cells sub).flatMap (fun x => (ws x).map fun q : Cell × α => (q.1, fun _ : α => q.2)) with hL
  have hmem : ∀ x, InBox sub x → ∀ q ∈ ws x, (q.1, fun _ : α => q.2) ∈ L := by
    intro x hx q hq
    exact List.mem_flatMap.2 ⟨x, mem_cells.2 hx, List.mem_map.2 ⟨q, hq, rfl⟩⟩
  have hmem' : ∀ p ∈ L, ∃ x, InBox sub x ∧ ∃ q ∈ ws x, p = (q.1, fun _ : α => q.2) := by
    intro p hp'
    obtain ⟨x, hx, hq⟩ := List.mem_flatMap.1 hp'
    obtain ⟨q, hq', rfl⟩ := List.mem_map.1 hq
    exact ⟨x, mem_cells.1 hx, q, hq', rfl⟩
  have hfst : L.map Prod.fst = ((cells sub).flatMap ws).map Prod.fst := by
    rw [hL, List.map_flatMap, List.map_flatMap]
    simp [Function.comp_def]
  obtain ⟨h1, h2⟩ := IFace.foldl_upd L hwf hn (fun p hp' => by
    obtain ⟨x, hx, q, hq, rfl⟩ := hmem' p hp'; exact hin x hx q hq) (by rw [hfst]; exact hnd)
  rw [Res.ok_bind]
  have es : ({ c with arr := { c.arr with data := (L.foldl IFace.upd c.arr).data } } : Chunk α) =
      { c with arr := L.foldl IFace.upd c.arr } := by
    congr 1
    simp only []
    rw [← IFace.foldl_upd_rng L c.arr]
  refine ⟨_, rfl, ?_, ?_, ?_⟩
  · rw [es]; exact IFace.foldl_upd_sameShape L c
  · intro x hx q hq
    rw [es]
    have := h1 _ (hmem x hx q hq)
    simp only at this ⊢
    rw [this]
    obtain ⟨r, hr⟩ := IFace.val_isSome hwf hn (hin x hx q hq)
    rw [hr]; rfl
  · intro y hy hne
    rw [es]
    apply h2 y hy
    intro hm
    obtain ⟨p, hp', rfl⟩ := List.mem_map.1 hm
    obtain ⟨x, hx, q, hq, rfl⟩ := hmem' p hp'
    exact hne x hx q hq rfl

/-- Consecutive assignments to components of one cell. -/
theorem writes_eq {G : Box} {n : Nat} {x : Cell} (hx : InBox G x) {l : Int} : ∀ (vals : List (Int × α)) {a : IFace α}, a.WF →
    a.rng.dims = G ++ [(0, (n : Int))] → (∀ q ∈ vals, 0 ≤ l + q.1 ∧ l + q.1 < n) →
    vals.foldlM (fun d q => vset d (offset a.rng.dims (x ++ [l]) + q.1) q.2) a.data =
      .ok ((vals.map fun q => (x ++ [l + q.1], fun _ => q.2)).foldl IFace.upd a).data := by
  intro vals
  induction vals with
  | nil => intro a _ _ _; rfl
  | cons q vals ih =>
    intro a ha hr hq
    have hin : InBox a.rng.dims (x ++ [l + q.1]) := by
      rw [hr]
      exact (inBox_snoc hx.length_eq).2 ⟨hx, hq q List.mem_cons_self⟩
    rw [List.foldlM_cons, set_eq ha (by rw [hr]; simp) hin
      (by rw [hr, offset_snoc (by rw [hx.length_eq]), offset_snoc (by rw [hx.length_eq])]; ring), Res.ok_bind,
      List.map_cons, List.foldl_cons]
    have := ih (a := a.upd (x ++ [l + q.1], fun _ => q.2)) (IFace.upd_wf ha _) (by rw [IFace.upd_rng]; exact hr)
      (fun q' h' => hq q' (List.mem_cons_of_mem _ h'))
    rw [IFace.upd_rng] at this
    exact this

/-- A loop over the cells of `B`, at component `l`, whose rounds assign the components `l + k` of their cell for the entries
`(k, v)` of a list. -/
theorem state_spec {c : Chunk α} {G B : Box} {n : Nat} (hwf : c.arr.WF) (hr : c.arr.rng.dims = G ++ [(0, (n : Int))])
    (hw : Range.Within G B) (hp : Pos B) {l : Int} (h0 : 0 ≤ l) (hln : l < n) {round : Indexer → List α → Res (List α)}
    (vals : Cell → List (Int × α)) (hk : ∀ x, InBox B x → ((vals x).map Prod.fst).Nodup ∧ ∀ q ∈ vals x, 0 ≤ l + q.1 ∧ l + q.1 < n)
    (hb : ∀ x, InBox B x → ∀ d, round (Indexer.onCell (B ++ [(l, l + 1)]) c.arr.rng.dims (x ++ [l])) d =
      (vals x).foldlM (fun d q => vset d (offset c.arr.rng.dims (x ++ [l]) + q.1) q.2) d) :
    ∃ c', cellLoop (Range.setup (B ++ [(l, l + 1)])) round c = .ok c' ∧ c.SameShape c' ∧
      (∀ x, InBox B x → ∀ q ∈ vals x, c'.arr.val (x ++ [l + q.1]) = some q.2) ∧
      (∀ y, InBox c.arr.rng.dims y → (∀ x, InBox B x → ∀ q ∈ vals x, x ++ [l + q.1] ≠ y) → c'.arr.val y = c.arr.val y) := by
  have hsnoc : ∀ y, InBox (B ++ [(l, l + 1)]) y ↔ ∃ x, InBox B x ∧ y = x ++ [l] := by
    intro y
    rw [← mem_cells, Source.cells_snoc_one, List.mem_map]
    exact ⟨fun ⟨x, hx, e⟩ => ⟨x, mem_cells.1 hx, e.symm⟩, fun ⟨x, hx, e⟩ => ⟨x, mem_cells.2 hx, e.symm⟩⟩
  have hG : ∀ x, InBox B x → InBox G x := fun x hx => Range.Within.mem hw hx
  obtain ⟨c', h1, h2, h3, h4⟩ := loop_spec (sub := B ++ [(l, l + 1)]) (round := round) hwf (by rw [hr]; simp)
    (by
      rw [hr]
      unfold Range.Within at hw ⊢
      refine List.rel_append hw ?_
      simp; omega)
    (by rw [pos_append]; exact ⟨hp, by intro d hd; simp at hd; subst hd; simp⟩)
    (fun y => (vals y.dropLast).map fun q => (y.dropLast ++ [l + q.1], q.2))
    (by
      intro y hy a ha har
      obtain ⟨x, hx, rfl⟩ := (hsnoc y).1 hy
      rw [hb x hx, ← har, writes_eq (hG x hx) (vals x) ha (by rw [har]; exact hr) (hk x hx).2]
      simp [Function.comp_def])
    (by
      intro y hy q hq
      obtain ⟨x, hx, rfl⟩ := (hsnoc y).1 hy
      simp only [List.dropLast_concat] at hq
      obtain ⟨q', hq', rfl⟩ := List.mem_map.1 hq
      rw [hr]
      exact (inBox_snoc (hG x hx).length_eq).2 ⟨hG x hx, (hk x hx).2 q' hq'⟩)
    (by
      rw [Source.cells_snoc_one, List.flatMap_map, List.map_flatMap, List.nodup_flatMap]
      constructor
      · intro x hx
        rw [mem_cells] at hx
        simp only [List.dropLast_concat, List.map_map]
        rw [show (Prod.fst ∘ fun q : Int × α => (x ++ [l + q.1], q.2)) = (fun k => x ++ [l + k]) ∘ Prod.fst from rfl,
          ← List.map_map]
        refine (hk x hx).1.map ?_
        intro a b e
        have := (List.append_inj' e rfl).2
        simpa using this
      · refine (cells_nodup _).imp ?_
        intro x y hxy z hz hz'
        simp only [List.dropLast_concat, List.map_map, List.mem_map, Function.comp] at hz hz'
        obtain ⟨q, _, rfl⟩ := hz
        obtain ⟨q', _, e⟩ := hz'
        exact hxy (List.append_inj' e rfl).1.symm)
  refine ⟨c', h1, h2, ?_, ?_⟩
  · intro x hx q hq
    exact h3 (x ++ [l]) ((hsnoc _).2 ⟨x, hx, rfl⟩) (x ++ [l + q.1], q.2) (by
      simp only [List.dropLast_concat]; exact List.mem_map.2 ⟨q, hq, rfl⟩)
  · intro y hy hne
    apply h4 y hy
    intro z hz q hq
    obtain ⟨x, hx, rfl⟩ := (hsnoc z).1 hz
    simp only [List.dropLast_concat] at hq
    obtain ⟨q', hq', rfl⟩ := List.mem_map.1 hq
    exact hne x hx q' hq'

theorem val_fill {c : Chunk α} {v : α} (hwf : c.arr.WF) (hn : c.arr.rng.dims ≠ []) {y : Cell} (hy : InBox c.arr.rng.dims y) :
    (c.arr.fill v).val y = some v := by
  obtain ⟨r, hr⟩ := IFace.val_isSome hwf hn hy
  unfold IFace.val IFace.fill at *
  simp only [List.getElem?_map, hr]
  rfl

theorem fill_sameShape (c : Chunk α) (v : α) : c.SameShape { c with arr := c.arr.fill v } := by
  unfold Chunk.SameShape IFace.fill
  simp

theorem compRange_inner {c : Chunk α} {g : Int} {M : Box} {p n : Int} (h : c.Layout g M [(0, p), (0, n)]) (l u : Int) :
    compRange true c l u = .ok (Range.setup ((M ++ [(0, p)]) ++ [(l, u)])) := by
  have e : (c.arr.rng.numDims : Int) - 1 = ((M ++ [(0, p)]).length : Nat) := by
    unfold Range.numDims
    rw [h.dims]; simp [grow]; omega
  unfold compRange
  rw [e]
  simp only [if_true]
  rw [h.internal, Range.copy_setup, set_setup (by simp), FV.layout_split, FV.snoc_slab]

theorem compRange_all {c : Chunk α} {g : Int} {M : Box} {p n : Int} (h : c.Layout g M [(0, p), (0, n)]) (l u : Int) :
    compRange false c l u = .ok (Range.setup ((grow g M ++ [(0, p)]) ++ [(l, u)])) := by
  have e : (c.arr.rng.numDims : Int) - 1 = ((grow g M ++ [(0, p)]).length : Nat) := by
    unfold Range.numDims
    rw [h.dims]; simp [grow]; omega
  unfold compRange
  rw [e]
  simp only [Bool.false_eq_true, if_false]
  rw [h.arr_range, Range.copy_setup, set_setup (by simp), FV.layout_split, FV.snoc_slab]

/-- A filled array whose cells in `B` then get the components `l + k` for the entries `(k, v)` of a list. -/
theorem filled_spec {c0 : Chunk α} {g : Int} {M B : Box} {p n : Nat} (hl : c0.Layout g M [(0, (p : Int)), (0, (n : Int))])
    (hw : Range.Within (grow g M ++ [(0, (p : Int))]) B) (hp : Pos B) {l : Int} (h0 : 0 ≤ l) (hln : l < n)
    {round : Indexer → List α → Res (List α)} (vals : Cell → List (Int × α)) (f : Cell → Nat → α)
    (hk : ∀ x, InBox B x → ((vals x).map Prod.fst).Nodup ∧ ∀ q ∈ vals x, 0 ≤ l + q.1 ∧ l + q.1 < n)
    (hb : ∀ x, InBox B x → ∀ d, round (Indexer.onCell (B ++ [(l, l + 1)]) c0.arr.rng.dims (x ++ [l])) d =
      (vals x).foldlM (fun d q => vset d (offset c0.arr.rng.dims (x ++ [l]) + q.1) q.2) d)
    (hf : ∀ x, InBox B x → ∀ j, j < n → ((j : Int) - l, f x j) ∈ vals x ∨
      ((j : Int) - l ∉ (vals x).map Prod.fst ∧ f x j = Arith.lit 0)) :
    ∃ c', cellLoop (Range.setup (B ++ [(l, l + 1)])) round { c0 with arr := c0.arr.fill (Arith.lit 0) } = .ok c' ∧
      c0.SameShape c' ∧ c'.Holds B n f ∧
      ∀ y, InBox (grow g M ++ [(0, (p : Int)), (0, (n : Int))]) y → ¬ InBox B y.dropLast → c'.arr.val y = some (Arith.lit 0) := by
  have hs := fill_sameShape c0 (Arith.lit 0 : α)
  have hl1 := hl.sameShape hs
  obtain ⟨c', h1, h2, h3, h4⟩ := state_spec (c := { c0 with arr := c0.arr.fill (Arith.lit 0) }) (round := round) hl1.wf
    (by rw [hl1.dims, FV.layout_split]) hw hp h0 hln vals hk hb
  have hz : ∀ y, InBox (grow g M ++ [(0, (p : Int)), (0, (n : Int))]) y →
      (c0.arr.fill (Arith.lit 0 : α)).val y = some (Arith.lit 0) := by
    intro y hy
    exact val_fill hl.wf (by rw [hl.dims]; simp) (by rw [hl.dims]; exact hy)
  refine ⟨c', h1, hs.trans h2, ?_, ?_⟩
  · intro x hx j hj
    have hin : InBox (grow g M ++ [(0, (p : Int)), (0, (n : Int))]) (x ++ [(j : Int)]) := by
      rw [FV.layout_split]
      exact (inBox_snoc (Range.Within.mem hw hx).length_eq).2 ⟨Range.Within.mem hw hx, by omega, by omega⟩
    rcases hf x hx j hj with hm | ⟨hn, e⟩
    · have := h3 x hx _ hm
      simp only [add_sub_cancel] at this
      exact this
    · rw [h4 _ (by rw [hl1.dims]; exact hin), hz _ hin, e]
      intro x' hx' q hq e'
      obtain ⟨e1, e2⟩ := List.append_inj' e' rfl
      subst e1
      apply hn
      have : q.1 = (j : Int) - l := by simp at e2; omega
      rw [← this]
      exact List.mem_map_of_mem hq
  · intro y hy hyB
    rw [h4 y (by rw [hl1.dims]; exact hy), hz y hy]
    intro x hx q _ e
    apply hyB
    rw [← e]; simpa using hx

/-! ### The rounds -/

theorem pos_snoc {B : Box} {n : Int} (h : Pos B) (hn : 0 < n) : Pos (B ++ [(0, n)]) := by
  rw [pos_append]
  exact ⟨h, by intro d hd; simp at hd; subst hd; simpa using hn⟩

section rounds
variable {g : Rectilinear α} {M : Box}

/-- Rounds at a cell of `B`, whose cells begin with a cell of the grid. -/
theorem coords_onCell (hg : g.Sized) (h3 : g.rng.dims.length ≤ 3) {sub sup : Box} {x : Cell} {l : Int}
    (hx : g.rng.dims.length < x.length) : coords g (Indexer.onCell sub sup (x ++ [l])) =
      .ok (([none, none, none] : List (Option α)).mapIdx
        fun i o => if i < g.rng.dims.length then some (centre g (x ++ [l]) i) else o) :=
  coords_eq hg h3 (by show _ ≤ (x ++ [l]).length; simp; omega)

theorem coords_ub (hg : g.Sized) (h3 : 3 < g.rng.dims.length) {sub sup : Box} {x : Cell}
    (hx : g.rng.dims.length ≤ x.length) : ∃ w, coords g (Indexer.onCell sub sup x) = .ub w :=
  xc_ub hg (by exact hx) (by simpa using h3)

theorem shockRound_eq (s : ShockTube α) (hg : g.Sized) (h3 : g.rng.dims.length ≤ 3) (h1 : 1 ≤ g.rng.dims.length) {sub sup : Box}
    {x : Cell} {l : Int} (hx : g.rng.dims.length < x.length) (d : List α) :
    shockRound s g (Indexer.onCell sub sup (x ++ [l])) d =
      [((0 : Int), jumpState s.rhoJump s.pJump s.gamma (Arith.lt (centre g x 0) (Arith.lit 0)) 0),
       (4, jumpState s.rhoJump s.pJump s.gamma (Arith.lt (centre g x 0) (Arith.lit 0)) 4)].foldlM
        (fun d q => vset d (offset sup (x ++ [l]) + q.1) q.2) d := by
  unfold shockRound
  rw [coords_onCell hg h3 hx, Res.ok_bind, ← Nat.cast_zero, coord_ok (i := 0) (by omega) (by omega), Res.ok_bind, centre_append _ (by omega)]
  simp only [Indexer.onCell, jumpState, List.foldlM_cons, List.foldlM_nil, Nat.cast_zero, add_zero, if_true]
  simp

theorem radialRound_eq (s : Radial α) (hg : g.Sized) (h3 : g.rng.dims.length = 3) {c0 c1 c2 : α} (hc : s.center = [c0, c1, c2]) {sub sup : Box}
    {x : Cell} {l : Int} (hx : g.rng.dims.length < x.length) (d : List α) :
    radialRound s g (Indexer.onCell sub sup (x ++ [l])) d =
      [((0 : Int), jumpState s.rhoJump s.pJump s.gamma
          (Arith.lt (radialDist c0 c1 c2 (centre g x 0) (centre g x 1) (centre g x 2)) (s.radius * s.radius)) 0),
       (4, jumpState s.rhoJump s.pJump s.gamma
          (Arith.lt (radialDist c0 c1 c2 (centre g x 0) (centre g x 1) (centre g x 2)) (s.radius * s.radius)) 4)].foldlM
        (fun d q => vset d (offset sup (x ++ [l]) + q.1) q.2) d := by
  unfold radialRound
  rw [coords_onCell hg (by omega) hx, Res.ok_bind]
  have k0 := coord_ok (g := g) (index := x ++ [l]) (i := 0) (by omega) (by omega)
  have k1 := coord_ok (g := g) (index := x ++ [l]) (i := 1) (by omega) (by omega)
  have k2 := coord_ok (g := g) (index := x ++ [l]) (i := 2) (by omega) (by omega)
  rw [centre_append _ (by omega)] at k0 k1 k2
  simp only [Nat.cast_zero, Nat.cast_one, Nat.cast_ofNat] at k0 k1 k2
  have e0 : vget s.center 0 = .ok c0 := by rw [hc]; rfl
  have e1 : vget s.center 1 = .ok c1 := by rw [hc]; rfl
  have e2 : vget s.center 2 = .ok c2 := by rw [hc]; rfl
  rw [k0, Res.ok_bind, e0, Res.ok_bind, k1, Res.ok_bind, e1, Res.ok_bind, k2, Res.ok_bind, e2, Res.ok_bind]
  simp only [Indexer.onCell, jumpState, List.foldlM_cons, List.foldlM_nil, add_zero, if_true]
  simp

theorem gaussianRound_eq (s : Gaussian α) (hg : g.Sized) (h3 : g.rng.dims.length = 3) {a0 a1 a2 : α} (hc : s.average = [a0, a1, a2]) {sub sup : Box}
    {x : Cell} {l : Int} (hx : g.rng.dims.length < x.length) (d : List α) :
    gaussianRound s g (Indexer.onCell sub sup (x ++ [l])) d =
      vset d (offset sup (x ++ [l])) (gaussianAt s.amplitude s.deviation a0 a1 a2 (centre g x 0) (centre g x 1) (centre g x 2)) := by
  unfold gaussianRound
  rw [coords_onCell hg (by omega) hx, Res.ok_bind]
  have k0 := coord_ok (g := g) (index := x ++ [l]) (i := 0) (by omega) (by omega)
  have k1 := coord_ok (g := g) (index := x ++ [l]) (i := 1) (by omega) (by omega)
  have k2 := coord_ok (g := g) (index := x ++ [l]) (i := 2) (by omega) (by omega)
  rw [centre_append _ (by omega)] at k0 k1 k2
  simp only [Nat.cast_zero, Nat.cast_one, Nat.cast_ofNat] at k0 k1 k2
  have e0 : vget s.average 0 = .ok a0 := by rw [hc]; rfl
  have e1 : vget s.average 1 = .ok a1 := by rw [hc]; rfl
  have e2 : vget s.average 2 = .ok a2 := by rw [hc]; rfl
  rw [k0, Res.ok_bind, e0, Res.ok_bind, k1, Res.ok_bind, e1, Res.ok_bind, k2, Res.ok_bind, e2, Res.ok_bind]
  rfl

theorem pulseRound_eq (amp dev : α) (hg : g.Sized) (h3 : g.rng.dims.length = 3) {sub sup : Box}
    {x : Cell} {l : Int} (hx : g.rng.dims.length < x.length) (d : List α) :
    pulseRound amp dev g (Indexer.onCell sub sup (x ++ [l])) d =
      [((0 : Int), pulseAt amp dev (centre g x 0) (centre g x 1) (centre g x 2))].foldlM
        (fun d q => vset d (offset sup (x ++ [l]) + q.1) q.2) d := by
  unfold pulseRound
  rw [coords_onCell hg (by omega) hx, Res.ok_bind]
  have k0 := coord_ok (g := g) (index := x ++ [l]) (i := 0) (by omega) (by omega)
  have k1 := coord_ok (g := g) (index := x ++ [l]) (i := 1) (by omega) (by omega)
  have k2 := coord_ok (g := g) (index := x ++ [l]) (i := 2) (by omega) (by omega)
  rw [centre_append _ (by omega)] at k0 k1 k2
  simp only [Nat.cast_zero, Nat.cast_one, Nat.cast_ofNat] at k0 k1 k2
  rw [k0, Res.ok_bind, k1, Res.ok_bind, k2, Res.ok_bind]
  simp [Indexer.onCell]

theorem waveRound_eq {w : Wave α} {dim : Nat} (hdim : w.dim = dim) (hd : dim < g.rng.dims.length) (hg : g.Sized) (h3 : g.rng.dims.length ≤ 3) {sub sup : Box}
    {x : Cell} {l : Int} (hx : g.rng.dims.length < x.length) {vs : List α}
    (hvs : waveState w (Arith.sin (w.k * centre g x dim)) = some vs) (d : List α) :
    waveRound w g (Indexer.onCell sub sup (x ++ [l])) d =
      (vs.zipIdx.map fun p => ((p.2 : Int), p.1)).foldlM (fun d q => vset d (offset sup (x ++ [l]) + q.1) q.2) d := by
  unfold waveRound
  rw [coords_onCell hg h3 hx, Res.ok_bind, hdim, coord_ok (i := dim) hd (by omega), Res.ok_bind, centre_append _ (by omega)]
  simp only [hvs, List.foldlM_map]
  rfl

/-! ### Rounds that fail -/

theorem loop_ub {c : Chunk α} {sub : Box} (hn : c.arr.rng.dims ≠ []) (hw : Range.Within c.arr.rng.dims sub)
    (hp : Pos sub) {round : Indexer → List α → Res (List α)}
    (hb : ∀ x, InBox sub x → ∀ d, ∃ w, round (Indexer.onCell sub c.arr.rng.dims x) d = .ub w) :
    ∃ w, cellLoop (Range.setup sub) round c = .ub w := by
  unfold cellLoop IFace.indexer
  rw [Indexer.forEach_make hn hw hp]
  simp only [Range.setup_dims]
  obtain ⟨-, ⟨r, hr⟩, -⟩ := cells_chain sub hp
  have hx : InBox sub (sub.map Prod.fst) := by
    rw [← mem_cells, hr]; exact List.mem_cons_self
  obtain ⟨w, hw⟩ := hb _ hx c.arr.data
  rw [hr, List.foldlM_cons, hw]
  exact ⟨w, rfl⟩

end rounds

end Init

namespace Solve
variable {α : Type} [Arith α] {S : VarId → Prop}

/-- A loop over output variables that succeeds on every chunk of the right layout. -/
theorem eachOutput_all {f : Chunk α → Res (Chunk α)} (P : VarId → Chunk α → Prop) : ∀ (outs : List VarId) {m : Mgr α}, m.Good S → m.Laid →
    (∀ id ∈ outs, S id) →
    (∀ id ∈ outs, ∀ c : Chunk α, c.Layout 2 m.grid.rng.dims [(0, id.basis.points), (0, (id.comps.length : Int))] →
      ∃ c', f c = .ok c' ∧ c.SameShape c' ∧ P id c') →
    ∃ m', eachOutput f outs m = .ok () m' ∧ m'.Good S ∧ m'.Laid ∧ m.Extends m' ∧
      (∀ id ∈ outs, ∃ c, m'.contents id = some c ∧ P id c) ∧ ∀ id, id ∉ outs → m'.contents id = m.contents id := by
  intro outs
  induction outs with
  | nil =>
    intro m h hL _ _
    exact ⟨m, rfl, h, hL, .refl m, by simp, fun _ _ => rfl⟩
  | cons id outs ih =>
    intro m h hL hS hf
    obtain ⟨a, m1, k1, k2, k3, k4, k5, k6⟩ := outputVar_requested h hL (hS id List.mem_cons_self)
    obtain ⟨c, hc⟩ : ∃ c, m1.contents id = some c := by
      obtain ⟨v, c, _, _, _, _, _, _, _, h8⟩ := k2.stored' k5
      exact ⟨c, h8⟩
    have hlay := k3 _ _ hc
    rw [k4.grid] at hlay
    obtain ⟨c', f1, f2, f3⟩ := hf id List.mem_cons_self c hlay
    have hL2 := Mgr.Laid.store k2 k3 k5 hc f2
    have hg : (m1.store a c').grid = m.grid := (Mgr.store_extends m1 a c').grid.trans k4.grid
    obtain ⟨m', r1, r2, r3, r4, r5, r6⟩ := ih (m := m1.store a c') (k2.store a c') hL2 (fun i hi => hS i (List.mem_cons_of_mem _ hi))
      (fun i hi c hc => hf i (List.mem_cons_of_mem _ hi) c (by rw [hg] at hc; exact hc))
    refine ⟨m', ?_, r2, r3, (k4.trans (Mgr.store_extends _ _ _)).trans r4, ?_, ?_⟩
    · rw [eachOutput, SM.bind_ok k1]
      refine Eq.trans (SM.bind_ok (s' := m1.store a c') (a := ()) ?_) r1
      apply forChunks_spec k2 k5
      intro idx hi
      rw [chunkAt_spec k2 k5 hc hi, Res.ok_bind, f1, Res.ok_bind, setChunk_spec k2 k5 _ hi]
    · intro i hi
      by_cases hio : i ∈ outs
      · exact r5 i hio
      · rcases List.mem_cons.1 hi with rfl | hi
        · exact ⟨c', by rw [r6 _ hio, k2.store_contents k5, Function.update_self], f3⟩
        · exact absurd hi hio
    · intro i hi
      rw [List.mem_cons, not_or] at hi
      rw [r6 i hi.2, k2.store_contents k5, Function.update_of_ne hi.1, k6]
      unfold Mgr.requested
      cases m.contents i with
      | some c => rfl
      | none => simp [hi.1]

/-- A loop over output variables whose first variable runs into undefined behaviour. -/
theorem eachOutput_ub {f : Chunk α → Res (Chunk α)} {id : VarId} {outs : List VarId} {m : Mgr α} (h : m.Good S) (hL : m.Laid)
    (hS : S id) (hf : ∀ c : Chunk α, c.Layout 2 m.grid.rng.dims [(0, id.basis.points), (0, (id.comps.length : Int))] → ∃ w, f c = .ub w) :
    ∃ w, eachOutput f (id :: outs) m = .ub w := by
  obtain ⟨a, m1, k1, k2, k3, k4, k5, k6⟩ := outputVar_requested h hL hS
  obtain ⟨v, c, v1, _, _, _, _, _, v7, hc⟩ := k2.stored' k5
  have hlay := k3 _ _ hc
  rw [k4.grid] at hlay
  obtain ⟨w, hw⟩ := hf c hlay
  refine ⟨w, ?_⟩
  rw [eachOutput, SM.bind_ok k1]
  apply SM.bind_ub
  unfold forChunks SM.modifyRes
  simp only []
  rw [vget_ok v1, Res.ok_bind, v7]
  have hne : chunkBox m1.grid.rng.dims.length ≠ [] := by
    intro e
    have := congrArg List.length e
    simp only [chunkBox, List.length_replicate, List.length_nil] at this
    exact k2.mesh_ne (List.length_eq_zero_iff.1 this)
  unfold IFace.indexer
  rw [Indexer.forEach_make hne ((within_iff _ _).2 ⟨rfl, fun j hj => ⟨le_refl _, le_refl _⟩⟩) (pos_chunkBox _)]
  simp only [Range.setup_dims, cells_chunkBox, List.foldlM_cons, List.foldlM_nil]
  rw [chunkAt_spec k2 k5 hc (by simp [Indexer.onCell, offset_chunkBox]), Res.ok_bind, hw]
  rfl

end Solve
end QK
