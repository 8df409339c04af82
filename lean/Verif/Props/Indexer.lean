import Verif.Proofs.Indexer
/- Properties C05-C10: `qk::indexer`. -/
namespace QK.Props
open QK Spec

/-- **C05** The loop over an indexer visits the cells of its sub-range in row-major order, each
once, and terminates: there is a duplicate-free, lexicographically increasing list `L` of exactly
the cells of the sub-range, of length `volume()`, such that for every loop body the loop equals the
fold of the body over `L`; the indexer handed to the body for cell `c` has index `c`. -/
theorem C05_traversal {sub sup : Range} (hn : 0 < sup.numDims) (hinc : sup.includes sub = true)
    (hpos : Pos sub.dims) (hmade : sub.Made) :
    ∃ (L : List Cell) (pos : Cell → Indexer),
      (∀ c, c ∈ L ↔ InBox sub.dims c) ∧ L.Nodup ∧ L.Pairwise LexLt ∧
      (L.length : Int) = sub.volume ∧
      (∀ c, (pos c).index = c ∧ (pos c).ex = true) ∧
      ∀ (σ : Type) (body : Indexer → σ → Res σ) (s : σ),
        (Indexer.make sub sup).forEach body s = L.foldlM (fun s c => body (pos c) s) s := by
  have hw := Range.includes_iff.1 hinc
  have hne : sup.dims ≠ [] := List.length_pos_iff.1 hn
  have hne' : sub.dims ≠ [] := by
    intro h; have := hw.length_eq; rw [h] at this; simp at this; exact hne this
  refine ⟨cells sub.dims, Indexer.onCell sub.dims sup.dims, fun c => mem_cells, cells_nodup _,
    cells_sorted _, ?_, fun c => ⟨rfl, rfl⟩, fun σ body s => Indexer.forEach_make hne hw hpos body s⟩
  rw [cells_length hpos, (Range.made_wf hmade).volume_eq hne']

/-- **C05**, observed: recording the index at every iteration yields the enumeration. -/
theorem C05_trace {sub sup : Range} (hn : 0 < sup.numDims) (hinc : sup.includes sub = true)
    (hpos : Pos sub.dims) :
    (Indexer.make sub sup).forEach (fun i (t : List Cell) => .ok (t ++ [i.index])) []
      = .ok (cells sub.dims) := by
  have hw := Range.includes_iff.1 hinc
  have hne : sup.dims ≠ [] := List.length_pos_iff.1 hn
  rw [Indexer.forEach_make hne hw hpos]
  have : ∀ (L acc : List Cell), L.foldlM (m := Res)
      (fun s c => .ok (s ++ [(Indexer.onCell sub.dims sup.dims c).index])) acc = .ok (acc ++ L) := by
    intro L
    induction L with
    | nil => intro acc; simp
    | cons c L ih =>
      intro acc
      rw [List.foldlM_cons, Res.ok_bind, ih]
      simp [Indexer.onCell]
  rw [this]; rfl

example : cells [(0, 2), (5, 8)] = [[0,5],[0,6],[0,7],[1,5],[1,6],[1,7]] := by decide
example : (Range.setup [(-2, 4), (5, 8)]).includes (Range.setup [(0, 2), (5, 8)]) = true ∧
    Pos (Range.setup [(0, 2), (5, 8)]).dims ∧ (Range.setup [(0,2),(5,8)]).Made :=
  ⟨by decide, by decide, .ofBounds (n := 2) (lo := [0,5]) (hi := [2,8]) rfl⟩

/-- **C06** At every iteration `linear_index()` is the row-major offset of the current index in the
super-range and lies in `[0, volume)`; distinct cells have distinct offsets and every offset is
taken by a cell. The loop body sees `linear = offset`: a body that fails as soon as this is violated
never fails. -/
theorem C06_linear_index {sub sup : Range} (hn : 0 < sup.numDims) (hinc : sup.includes sub = true)
    (hpos : Pos sub.dims) (hmade : sup.Made) :
    (Indexer.make sub sup).forEach (fun i (_ : Unit) =>
        if InBox sub.dims i.index ∧ i.linear = offset sup.dims i.index ∧ 0 ≤ i.linear ∧
          i.linear < sup.volume then .ok () else .throw "wrong linear index") ()
      = .ok () ∧
    (∀ c c', InBox sup.dims c → InBox sup.dims c' → offset sup.dims c = offset sup.dims c' → c = c') ∧
    (∀ k, Pos sup.dims → 0 ≤ k → k < sup.volume → ∃ c, InBox sup.dims c ∧ offset sup.dims c = k) := by
  have hw := Range.includes_iff.1 hinc
  have hne : sup.dims ≠ [] := List.length_pos_iff.1 hn
  have hvol := (Range.made_wf hmade).volume_eq hne
  refine ⟨?_, fun c c' h h' => offset_inj h h', ?_⟩
  · rw [Indexer.forEach_make hne hw hpos]
    have : ∀ (L : List Cell), (∀ c ∈ L, InBox sub.dims c) → L.foldlM (m := Res)
      (fun (_ : Unit) c => if InBox sub.dims (Indexer.onCell sub.dims sup.dims c).index ∧
          (Indexer.onCell sub.dims sup.dims c).linear =
            offset sup.dims (Indexer.onCell sub.dims sup.dims c).index ∧
          0 ≤ (Indexer.onCell sub.dims sup.dims c).linear ∧
          (Indexer.onCell sub.dims sup.dims c).linear < sup.volume
        then .ok () else .throw "wrong linear index") () = .ok () := by
      intro L
      induction L with
      | nil => intro _; rfl
      | cons c L ih =>
        intro h
        have hc := h c List.mem_cons_self
        have hc' := hw.mem hc
        have ho := offset_nonneg hc'.pos hc'
        rw [List.foldlM_cons, if_pos ⟨hc, rfl, ho.1, by rw [hvol]; exact ho.2⟩, Res.ok_bind]
        exact ih (fun c' hc' => h c' (List.mem_cons_of_mem _ hc'))
    exact this _ (fun c hc => mem_cells.1 hc)
  · intro k hp h0 h1
    rw [hvol] at h1
    exact offset_surj hp h0 h1

example : offset [(-2, 4), (5, 8)] [0, 6] = 7 := by decide

/-- **C07** Without inclusion the loop body never runs. -/
theorem C07_foreign {sub sup : Range} (h : sup.includes sub = false ∨ sup.numDims = 0)
    {σ : Type} (body : Indexer → σ → Res σ) (s : σ) :
    (Indexer.make sub sup).forEach body s = .ok s := by
  apply Indexer.forEach_empty
  apply Indexer.make_not_includes
  rcases h with h | h
  · right; intro hw; rw [Range.includes_iff.2 hw] at h; cases h
  · left; exact List.length_eq_zero_iff.1 h

example : (Range.setup [(0, 4)]).includes (Range.setup [(0, 5)]) = false ∧
    (Range.setup [(0, 4)]).includes (Range.setup [(0, 2), (0, 2)]) = false := by decide

theorem finalLoop_eq : ∀ (sup sub : Box), sub.length = sup.length → ∀ acc : Int,
    Indexer.finalLoop acc sup sub (Range.strideLoop sup) =
      .ok (acc - (boxVolume sup - 1) + offset sup (sub.map (fun d => d.2 - 1))) := by
  intro sup
  induction sup with
  | nil =>
    intro sub h acc
    obtain rfl : sub = [] := by simpa using h
    simp [Indexer.finalLoop, boxVolume_nil, offset, offsetFrom]
  | cons d ds ih =>
    intro sub h acc
    cases sub with
    | nil => simp at h
    | cons e es =>
      have hl : es.length = ds.length := by simpa using h
      rw [Range.strideLoop_cons, Indexer.finalLoop, ih es hl, boxVolume_cons]
      rw [List.map_cons, offset_cons (by simpa using hl)]
      congr 1; ring

theorem offset_mono {sup : Box} (hp : Pos sup) : ∀ {a b : Cell}, a.length = sup.length →
    List.Forall₂ (· ≤ ·) a b → offset sup a ≤ offset sup b := by
  induction sup with
  | nil => intro a b h h2; obtain rfl : a = [] := by simpa using h
           cases h2; exact le_refl _
  | cons d ds ih =>
    intro a b h h2
    cases h2 with
    | nil => simp at h
    | @cons x y xs ys h3 h4 =>
      have hl : xs.length = ds.length := by simpa using h
      rw [offset_cons hl, offset_cons (by rw [← h4.length_eq]; exact hl)]
      have := ih hp.tail hl h4
      have hv := boxVolume_pos hp.tail
      nlinarith

/-- **C08** `final_linear_index()` is one past the offset of the last cell (all coordinates at their
maximum), and every cell of the sub-range has its offset in `[first, final)`. -/
theorem C08_final_linear_index {sub sup : Range} (hn : 0 < sup.numDims)
    (hinc : sup.includes sub = true) (hpos : Pos sub.dims) :
    (Indexer.make sub sup).finalLinear =
      .ok (offset sup.dims (sub.dims.map (fun d => d.2 - 1)) + 1) ∧
    ∀ c, InBox sub.dims c → (Indexer.make sub sup).linear ≤ offset sup.dims c ∧
      offset sup.dims c < offset sup.dims (sub.dims.map (fun d => d.2 - 1)) + 1 := by
  have hw := Range.includes_iff.1 hinc
  have hne : sup.dims ≠ [] := List.length_pos_iff.1 hn
  rw [Indexer.make_eq_at hne hw]
  constructor
  · unfold Indexer.finalLinear Indexer.onCell
    simp only [Range.setup_dims, Range.setup_stride]
    rw [finalLoop_eq _ _ hw.length_eq.symm, Range.volume_setup hne]
    congr 1; ring
  · intro c hc
    have hp : Pos sup.dims := (hw.mem hc).pos
    have hl : c.length = sup.dims.length := (hw.mem hc).length_eq
    have h1 : ∀ (b : Box) (c : Cell), InBox b c → List.Forall₂ (· ≤ ·) (b.map Prod.fst) c ∧
        List.Forall₂ (· ≤ ·) c (b.map (fun d => d.2 - 1)) := by
      intro b c h
      induction h with
      | nil => exact ⟨.nil, .nil⟩
      | cons h _ ih => exact ⟨.cons h.1 ih.1, .cons (by show _ ≤ _ - 1; omega) ih.2⟩
    obtain ⟨h1, h2⟩ := h1 _ _ hc
    refine ⟨offset_mono hp (by simp [hw.length_eq]) h1, ?_⟩
    have := offset_mono hp hl h2
    omega

example : (Range.setup [(-2, 6), (0, 3)]).includes (Range.setup [(0, 4), (0, 3)]) = true ∧
    (Indexer.make (Range.setup [(0, 4), (0, 3)]) (Range.setup [(-2, 6), (0, 3)])).linear = 6 ∧
    (Indexer.make (Range.setup [(0, 4), (0, 3)]) (Range.setup [(-2, 6), (0, 3)])).finalLinear = .ok 18 := by
  decide

/-- A cell at or above the lower corner of a box with an empty dimension: the successor never
carries out. -/
theorem succCell_empty : ∀ (b : Box) (c : Cell), (∃ d ∈ b, d.2 ≤ d.1) →
    List.Forall₂ (· ≤ ·) (b.map Prod.fst) c →
    (succCell b c).2 = false ∧ List.Forall₂ (· ≤ ·) (b.map Prod.fst) (succCell b c).1 := by
  intro b
  induction b with
  | nil => rintro c ⟨d, hd, _⟩; cases hd
  | cons e es ih =>
    rintro c ⟨d, hd, hde⟩ hc
    cases c with
    | nil => cases hc
    | cons x xs =>
      rw [List.map_cons, List.forall₂_cons] at hc
      have hlow : ∀ (es : Box) (xs : Cell), List.Forall₂ (· ≤ ·) (es.map Prod.fst) xs →
          List.Forall₂ (· ≤ ·) (es.map Prod.fst) (succCell es xs).1 := by
        intro es
        induction es with
        | nil => intro xs h; simp [succCell]
        | cons f fs ihf =>
          intro xs h
          cases xs with
          | nil => cases h
          | cons y ys =>
            rw [List.map_cons, List.forall₂_cons] at h
            simp only [succCell]
            split_ifs
            · exact .cons (le_refl _) (ihf ys h.2)
            · exact .cons (by have := h.1; omega) (ihf ys h.2)
            · exact .cons h.1 (ihf ys h.2)
      refine ⟨?_, hlow (e :: es) (x :: xs) (by simpa using hc)⟩
      simp only [succCell]
      rcases List.mem_cons.1 hd with rfl | hd
      · split_ifs with h1 h2
        · omega
        · rfl
        · rfl
      · have := (ih xs ⟨d, hd, hde⟩ hc.2).1
        simp [this]

/-- **C09 refuted**: iterating *any* included sub-range with an empty (or inverted) dimension never
ends, for every loop body that always completes. -/
theorem C09_empty_subrange_false {sub sup : Range} (hn : 0 < sup.numDims)
    (hinc : sup.includes sub = true) (hempty : ∃ d ∈ sub.dims, d.2 ≤ d.1)
    {σ : Type} (body : Indexer → σ → Res σ) (hbody : ∀ i s, ∃ s', body i s = .ok s') (s : σ) :
    (Indexer.make sub sup).forEach body s = .diverge := by
  have hw := Range.includes_iff.1 hinc
  have hne : sup.dims ≠ [] := List.length_pos_iff.1 hn
  rw [Indexer.make_eq_at hne hw]
  unfold Indexer.forEach
  apply iter_diverge (fun p => ∃ c, List.Forall₂ (· ≤ ·) (sub.dims.map Prod.fst) c ∧
    p.1 = Indexer.onCell sub.dims sup.dims c)
  · rintro ⟨i, s⟩ ⟨c, hc, rfl⟩
    obtain ⟨s', hs'⟩ := hbody (Indexer.onCell sub.dims sup.dims c) s
    obtain ⟨h1, h2⟩ := succCell_empty _ _ hempty hc
    have hlen : c.length = sup.dims.length := by
      rw [← hc.length_eq, hw.length_eq]; simp
    refine ⟨(Indexer.onCell sub.dims sup.dims (succCell sub.dims c).1, s'), ?_, ⟨_, h2, rfl⟩⟩
    simp only [hs', Res.ok_bind]
    rw [Indexer.next_at hw.length_eq.symm hlen, h1]
    rfl
  · refine ⟨_, ?_, rfl⟩
    exact List.forall₂_same.2 (fun _ _ => le_refl _)

-- The witness: an empty slice `[2,2)` of a line of 4 cells.
example : (Range.setup [(0, 4)]).includes (Range.setup [(2, 2)]) = true ∧
    ∃ d ∈ (Range.setup [(2, 2)]).dims, d.2 ≤ d.1 := by decide

/-- **C09**, the part that holds: an empty sub-range that is *not* inside the super-range runs the
body zero times. Missing: included empty sub-ranges, for which the claim is false
(`C09_empty_subrange_false`). -/
theorem C09_empty_subrange_partial {sub sup : Range} (_hempty : ∃ d ∈ sub.dims, d.2 ≤ d.1)
    (h : sup.includes sub = false) {σ : Type} (body : Indexer → σ → Res σ) (s : σ) :
    (Indexer.make sub sup).forEach body s = .ok s := C07_foreign (.inl h) body s

/-- One move: `(dim, true)` is `increment(dim)`, `(dim, false)` is `decrement(dim)`. -/
def move (i : Indexer) (m : Nat × Bool) : Res Indexer :=
  if m.2 then i.increment m.1 else i.decrement m.1

theorem offset_set : ∀ (b : Box) (c : Cell) (d : Nat) (x : Int), c.length = b.length → d < b.length →
    ∃ s y, (Range.strideLoop b)[d]? = some s ∧ c[d]? = some y ∧
      offset b (c.set d x) = offset b c + (x - y) * s := by
  intro b
  induction b with
  | nil => intro c d x _ h; simp at h
  | cons e es ih =>
    intro c d x hc hd
    cases c with
    | nil => simp at hc
    | cons y ys =>
      have hl : ys.length = es.length := by simpa using hc
      rw [Range.strideLoop_cons]
      cases d with
      | zero =>
        refine ⟨boxVolume es, y, by simp, by simp, ?_⟩
        rw [List.set_cons_zero, offset_cons hl, offset_cons hl]; ring
      | succ d =>
        obtain ⟨s, z, h1, h2, h3⟩ := ih ys d x hl (by simpa using hd)
        refine ⟨s, z, by simpa using h1, by simpa using h2, ?_⟩
        rw [List.set_cons_succ, offset_cons (by simpa using hl), offset_cons hl, h3]; ring

theorem move_spec {sub sup : Box} {e : Bool} {c : Cell} (hc : c.length = sup.length) {d : Nat}
    (hd : d < sup.length) (b : Bool) :
    move { Indexer.onCell sub sup c with ex := e } (d, b) =
      .ok { Indexer.onCell sub sup (c.modify d (fun x => if b then x + 1 else x - 1)) with ex := e } := by
  have hdc : d < c.length := by omega
  have hv : vget (Range.strideLoop sup) (d : Int) = .ok ((Range.strideLoop sup)[d]'(by simpa using hd)) :=
    vget_nat (by simpa using hd)
  have hi : vget c (d : Int) = .ok c[d] := vget_nat hdc
  have hmod : ∀ f : Int → Int, c.modify d f = c.set d (f c[d]) := by
    intro f
    rw [List.modify_eq_set_getElem?, List.getElem?_eq_getElem hdc]; rfl
  have hoff : ∀ x, offset sup (c.set d x) = offset sup c + (x - c[d]) * (Range.strideLoop sup)[d]'(by simpa using hd) := by
    intro x
    obtain ⟨s, y, h1, h2, h3⟩ := offset_set sup c d x hc hd
    rw [List.getElem?_eq_getElem (by simpa using hd)] at h1
    rw [List.getElem?_eq_getElem hdc] at h2
    cases h1; cases h2; exact h3
  cases b
  · simp only [move, Indexer.decrement, Indexer.onCell, Range.setup_stride, hv, hi, Res.ok_bind,
      vset_nat hdc, hmod, hoff]
    simp; ring
  · simp only [move, Indexer.increment, Indexer.onCell, Range.setup_stride, hv, hi, Res.ok_bind,
      vset_nat hdc, hmod, hoff]
    simp

/-- **C10** After any finite sequence of `increment`/`decrement` on existing dimensions the linear
index is still the row-major offset of the current index, and the current index is the start
moved by the sequence. -/
theorem C10_moves {sub sup : Range} (hn : 0 < sup.numDims) (hinc : sup.includes sub = true)
    (ms : List (Nat × Bool)) (hms : ∀ m ∈ ms, m.1 < sup.numDims) :
    ∃ j, ms.foldlM move (Indexer.make sub sup) = .ok j ∧
      j.linear = offset sup.dims j.index ∧
      j.index = ms.foldl (fun c m => c.modify m.1 (fun x => if m.2 then x + 1 else x - 1))
        (sub.dims.map Prod.fst) := by
  have hw := Range.includes_iff.1 hinc
  have hne : sup.dims ≠ [] := List.length_pos_iff.1 hn
  rw [Indexer.make_eq_at hne hw]
  have key : ∀ (ms : List (Nat × Bool)) (c : Cell), (∀ m ∈ ms, m.1 < sup.numDims) →
      c.length = sup.dims.length →
      ms.foldlM move (Indexer.onCell sub.dims sup.dims c) = .ok (Indexer.onCell sub.dims sup.dims
        (ms.foldl (fun c m => c.modify m.1 (fun x => if m.2 then x + 1 else x - 1)) c)) := by
    intro ms
    induction ms with
    | nil => intro c _ _; rfl
    | cons m ms ih =>
      intro c h hc
      rw [List.foldlM_cons]
      have := move_spec (sub := sub.dims) (e := true) hc (h m List.mem_cons_self) m.2
      have e : move (Indexer.onCell sub.dims sup.dims c) m = _ := this
      rw [e, Res.ok_bind]
      exact ih _ (fun m' h' => h m' (List.mem_cons_of_mem _ h')) (by simpa using hc)
  exact ⟨_, key ms _ hms (by simp [hw.length_eq]), rfl, rfl⟩

theorem move_general {i : Indexer} (hs : i.sup.stride.length = i.sup.numDims)
    (hx : i.index.length = i.sup.numDims) {d : Nat} (hd : d < i.sup.numDims) (b : Bool) :
    ∃ s, vget i.sup.stride d = .ok s ∧ move i (d, b) =
      .ok { i with linear := if b then i.linear + s else i.linear - s,
                   index := i.index.modify d (fun x => if b then x + 1 else x - 1) } := by
  have hdc : d < i.index.length := by omega
  have hds : d < i.sup.stride.length := by omega
  have hmod : ∀ f : Int → Int, i.index.modify d f = i.index.set d (f i.index[d]) := by
    intro f
    rw [List.modify_eq_set_getElem?, List.getElem?_eq_getElem hdc]; rfl
  refine ⟨_, vget_nat hds, ?_⟩
  cases b
  · simp only [move, Indexer.decrement, vget_nat hds, vget_nat hdc, Res.ok_bind, vset_nat hdc, hmod]
    simp
  · simp only [move, Indexer.increment, vget_nat hds, vget_nat hdc, Res.ok_bind, vset_nat hdc, hmod]
    simp

/-- **C10** `increment` then `decrement` (or the reverse) restores the indexer, and moves in
different dimensions commute, from any indexer whose vectors have one entry per dimension. -/
theorem C10_inverse {i : Indexer} (hs : i.sup.stride.length = i.sup.numDims)
    (hx : i.index.length = i.sup.numDims) {d d' : Nat} (hd : d < i.sup.numDims)
    (hd' : d' < i.sup.numDims) (hne : d ≠ d') (b b' : Bool) :
    (move i (d, b) >>= fun j => move j (d, !b)) = .ok i ∧
    (move i (d, b) >>= fun j => move j (d', b')) = (move i (d', b') >>= fun j => move j (d, b)) := by
  obtain ⟨s, h1, h2⟩ := move_general hs hx hd b
  obtain ⟨s', h1', h2'⟩ := move_general hs hx hd' b'
  have hx2 : ∀ k (f : Int → Int), (i.index.modify k f).length = i.sup.numDims := by
    intro k f; simpa using hx
  rw [h2, h2', Res.ok_bind, Res.ok_bind, Res.ok_bind]
  constructor
  · obtain ⟨t, h3, h4⟩ := move_general (i := { i with
      linear := if b then i.linear + s else i.linear - s,
      index := i.index.modify d (fun x => if b then x + 1 else x - 1) }) hs (hx2 _ _) hd (!b)
    rw [h4, List.modify_modify_eq]
    have hts : t = s := by
      have : Res.ok t = Res.ok s := h3.symm.trans h1
      simpa using this
    have : (fun x : Int => if (!b) = true then x + 1 else x - 1) ∘ (fun x => if b = true then x + 1 else x - 1) = id := by
      funext x; cases b <;> simp
    rw [this, List.modify_id, hts]
    cases b <;> simp
  · obtain ⟨t, h3, h4⟩ := move_general (i := { i with
      linear := if b then i.linear + s else i.linear - s,
      index := i.index.modify d (fun x => if b then x + 1 else x - 1) }) hs (hx2 _ _) hd' b'
    obtain ⟨t', h3', h4'⟩ := move_general (i := { i with
      linear := if b' then i.linear + s' else i.linear - s',
      index := i.index.modify d' (fun x => if b' then x + 1 else x - 1) }) hs (hx2 _ _) hd b
    have e1 : t = s' := by
      have : Res.ok t = Res.ok s' := h3.symm.trans h1'
      simpa using this
    have e2 : t' = s := by
      have : Res.ok t' = Res.ok s := h3'.symm.trans h1
      simpa using this
    rw [h4, h4', List.modify_modify_ne _ _ _ hne, e1, e2]
    cases b <;> cases b' <;> simp <;> ring

example : [(1, true), (1, true), (0, true), (1, false)].foldlM move
      (Indexer.make (Range.setup [(0, 4), (0, 3)]) (Range.setup [(-2, 6), (0, 3)])) =
    .ok { Indexer.onCell [(0, 4), (0, 3)] [(-2, 6), (0, 3)] [1, 1] with linear := 10 } := by decide

end QK.Props
