import Verif.Proofs.Container
import Verif.Proofs.Chunk
/- Properties C11-C17, C20-C23: containers and copies. -/
namespace QK.Props
open QK Spec

variable {α : Type}

theorem dims_ne {r : Range} (h : 0 < r.numDims) : r.dims ≠ [] := List.length_pos_iff.1 h

/-- **C11** In every history of container operations the container holds `volume()` elements, its
strides match its bounds, and reading through any of its indexers over a non-empty included
sub-range succeeds at every iteration: the loop collects exactly one value per visited cell. -/
theorem C11_size_in_bounds {zero : α} {f : IFace α} (h : f.Made zero) :
    (f.data.length : Int) = f.rng.volume ∧
    ∀ sub : Range, 0 < f.rng.numDims → f.rng.includes sub = true → Pos sub.dims →
      ∃ vs, (f.indexer sub).forEach (fun i (t : List α) => do let v ← f.get i; return t ++ [v]) []
        = .ok vs ∧ vs.map some = (cells sub.dims).map f.val := by
  have hwf := IFace.made_wf h
  refine ⟨hwf.2, ?_⟩
  intro sub hn hinc hpos
  have hw := Range.includes_iff.1 hinc
  have hne := dims_ne hn
  unfold IFace.indexer
  rw [Indexer.forEach_make hne hw hpos]
  have key : ∀ (L : List Cell) (acc : List α), (∀ c ∈ L, InBox sub.dims c) →
      ∃ vs, L.foldlM (m := Res) (fun t c => do
        let v ← f.get (Indexer.onCell sub.dims f.rng.dims c); return t ++ [v]) acc = .ok (acc ++ vs) ∧
        vs.map some = L.map f.val := by
    intro L
    induction L with
    | nil => intro acc _; exact ⟨[], by simp, rfl⟩
    | cons c L ih =>
      intro acc hL
      have hc := hw.mem (hL c List.mem_cons_self)
      obtain ⟨v, hv⟩ := IFace.val_isSome hwf hne hc
      obtain ⟨vs, h1, h2⟩ := ih (acc ++ [v]) (fun c' h' => hL c' (List.mem_cons_of_mem _ h'))
      refine ⟨v :: vs, ?_, by simp [h2, hv]⟩
      rw [List.foldlM_cons, IFace.get_onCell hwf hne hc sub.dims hv]
      simpa using h1
  obtain ⟨vs, h1, h2⟩ := key _ [] (fun c hc => mem_cells.1 hc)
  exact ⟨vs, by simpa using h1, h2⟩

example : ∃ f : IFace Int, IFace.make 0 (Range.setup [(-1, 2), (0, 2)]) = .ok f ∧ f.Made 0 ∧
    f.data = [0,0,0,0,0,0] ∧ f.rng.includes (Range.setup [(0, 1), (0, 2)]) = true ∧
    Pos (Range.setup [(0, 1), (0, 2)]).dims :=
  ⟨_, rfl, .make (r := Range.setup [(-1, 2), (0, 2)]) (.ofBounds (n := 2) (lo := [-1,0]) (hi := [2,2]) rfl) rfl,
   by decide, by decide, by decide⟩

/-- **C12** `fill(sub, v)` writes exactly the cells of `sub`. -/
theorem C12_fill_sub {zero : α} {f : IFace α} (h : f.Made zero) (hn : 0 < f.rng.numDims) {sub : Range}
    (hinc : f.rng.includes sub = true) (hpos : Pos sub.dims) (v : α) :
    ∃ g, f.fillSub sub v = .ok g ∧ g.rng = f.rng ∧
      ∀ c, InBox f.rng.dims c → g.val c = if InBox sub.dims c then some v else f.val c := by
  have hwf := IFace.made_wf h
  have hw := Range.includes_iff.1 hinc
  have hne := dims_ne hn
  unfold IFace.fillSub IFace.indexer
  rw [if_neg (by simp [hinc]), Indexer.forEach_make hne hw hpos]
  rw [IFace.foldlM_map_eq (fun _ => v) sub.dims (fun i f => f.put i v)
    (fun f c _ h1 h2 h3 _ => IFace.put_onCell h1 h2 h3 _ _) f.rng.dims _ f hwf rfl hne
    (fun c hc => hw.mem (mem_cells.1 hc))]
  obtain ⟨_, h2, h3⟩ := IFace.mapCells_spec (fun _ => v) (cells sub.dims) f hwf hne
    (fun c hc => hw.mem (mem_cells.1 hc)) (cells_nodup _)
  refine ⟨_, rfl, h2, ?_⟩
  intro c hc
  rw [h3 c hc]
  obtain ⟨w, hv⟩ := IFace.val_isSome hwf hne hc
  simp only [mem_cells, hv, Option.map_some]

/-- **C12** a range that sticks out is rejected. -/
theorem C12_fill_sub_rejected {f : IFace α} {sub : Range} (hinc : f.rng.includes sub = false) (v : α) :
    ∃ m, f.fillSub sub v = .throw m := ⟨_, by unfold IFace.fillSub; rw [if_pos hinc]⟩

/-- **C12** `fill(v)` sets every cell. -/
theorem C12_fill_all {zero : α} {f : IFace α} (h : f.Made zero) (hn : 0 < f.rng.numDims) (v : α) :
    (f.fill v).rng = f.rng ∧ ∀ c, InBox f.rng.dims c → (f.fill v).val c = some v := by
  refine ⟨rfl, ?_⟩
  intro c hc
  obtain ⟨w, hv⟩ := IFace.val_isSome (IFace.made_wf h) (dims_ne hn) hc
  unfold IFace.val IFace.fill at *
  rw [List.getElem?_map, hv]; rfl

/-- Common hypotheses of the copy functions: both ranges non-empty, inside their containers, of
equal volume; if source and destination are the same object the two ranges share no cell. -/
structure CopyArgs (zero : α) (src : Option (IFace α)) (dst : IFace α) (fromR toR : Range) : Prop where
  src_made : ∀ s, src = some s → s.Made zero
  dst_made : dst.Made zero
  src_dims : 0 < (src.getD dst).rng.numDims
  dst_dims : 0 < dst.rng.numDims
  from_in : (src.getD dst).rng.includes fromR = true
  to_in : dst.rng.includes toR = true
  from_pos : Pos fromR.dims
  to_pos : Pos toR.dims
  from_made : fromR.Made
  to_made : toR.Made
  volumes : fromR.volume = toR.volume
  disjoint : src = none → ∀ c, ¬ (InBox fromR.dims c ∧ InBox toR.dims c)

theorem CopyArgs.ok {zero : α} {src : Option (IFace α)} {dst : IFace α} {fromR toR : Range}
    (h : CopyArgs zero src dst fromR toR) : IFace.CopyOK src dst fromR toR where
  swf := by
    cases hs : src with
    | none => exact IFace.made_wf h.dst_made
    | some s => exact IFace.made_wf (h.src_made s hs)
  dwf := IFace.made_wf h.dst_made
  sne := dims_ne h.src_dims
  dne := dims_ne h.dst_dims
  finc := Range.includes_iff.1 h.from_in
  tinc := Range.includes_iff.1 h.to_in
  fpos := h.from_pos
  tpos := h.to_pos
  fr := Range.made_wf h.from_made
  tr := Range.made_wf h.to_made
  vol := h.volumes
  dis := h.disjoint

/-- The result `g` holds the `k`-th cell of `fromR` (row-major) of the source in the `k`-th cell of
`toR`, for every `k`, and is otherwise the old destination. -/
def CopiedTo (src dst g : IFace α) (fromR toR : Range) : Prop :=
  g.rng = dst.rng ∧ (cells fromR.dims).length = (cells toR.dims).length ∧
  (∀ (k : Nat) a b, (cells fromR.dims)[k]? = some a → (cells toR.dims)[k]? = some b → g.val b = src.val a) ∧
  (∀ c, InBox dst.rng.dims c → ¬ InBox toR.dims c → g.val c = dst.val c)

/-- **C13** `pull(src, from, to)`. -/
theorem C13_pull {zero : α} {src : Option (IFace α)} {dst : IFace α} {fromR toR : Range}
    (h : CopyArgs zero src dst fromR toR) :
    ∃ g, dst.pull src fromR toR = .ok g ∧ CopiedTo (src.getD dst) dst g fromR toR := by
  refine ⟨_, h.ok.pull_eq, ?_⟩
  obtain ⟨_, h2, h3, h4⟩ := h.ok.spec
  exact ⟨h2, h.ok.lens, h3, h4⟩

/-- **C13** a volume mismatch throws. -/
theorem C13_pull_mismatch {src : Option (IFace α)} {dst : IFace α} {fromR toR : Range}
    (h : fromR.volume ≠ toR.volume) : ∃ m, dst.pull src fromR toR = .throw m :=
  ⟨_, by unfold IFace.pull; rw [if_pos h]⟩

/-- **C20** `copy_to` within one chunk (`src = none`) or across chunks. -/
theorem C20_copy_to {zero : α} {src : Option (IFace α)} {dst : IFace α} {fromR toR : Range}
    (h : CopyArgs zero src dst fromR toR) :
    ∃ g, IFace.copyTo src fromR dst toR = .ok g ∧ CopiedTo (src.getD dst) dst g fromR toR := by
  refine ⟨_, h.ok.copyTo_eq, ?_⟩
  obtain ⟨_, h2, h3, h4⟩ := h.ok.spec
  exact ⟨h2, h.ok.lens, h3, h4⟩

/-- **C20** a volume mismatch throws. -/
theorem C20_copy_to_mismatch {src : Option (IFace α)} {dst : IFace α} {fromR toR : Range}
    (h : fromR.volume ≠ toR.volume) : ∃ m, IFace.copyTo src fromR dst toR = .throw m :=
  ⟨_, by unfold IFace.copyTo; rw [if_pos h]⟩

/-- A 3×4 container used in the examples. -/
def demo : IFace Int := ⟨Range.setup [(0, 3), (0, 4)], [1,2,3,4,5,6,7,8,9,10,11,12]⟩

theorem demo_range_made : (Range.setup [(0, 3), (0, 4)]).Made :=
  .ofLengths (n := 2) (d := [3,4]) rfl

theorem demo_made : demo.Made 0 := by
  have h0 : IFace.Made (0:Int) ⟨Range.setup [(0, 3), (0, 4)], [0,0,0,0,0,0,0,0,0,0,0,0]⟩ :=
    .make demo_range_made rfl
  have step : ∀ (d d' : List Int) (i : Indexer) (v : Int),
      IFace.Made 0 ⟨Range.setup [(0, 3), (0, 4)], d⟩ →
      (IFace.mk (Range.setup [(0, 3), (0, 4)]) d).put i v = .ok ⟨Range.setup [(0, 3), (0, 4)], d'⟩ →
      IFace.Made 0 ⟨Range.setup [(0, 3), (0, 4)], d'⟩ := fun d d' i v h h' => .put h h'
  let I (k : Int) : Indexer := ⟨.empty, .empty, k, true, []⟩
  have h1 := step _ [1,0,0,0,0,0,0,0,0,0,0,0] (I 0) 1 h0 rfl
  have h2 := step _ [1,2,0,0,0,0,0,0,0,0,0,0] (I 1) 2 h1 rfl
  have h3 := step _ [1,2,3,0,0,0,0,0,0,0,0,0] (I 2) 3 h2 rfl
  have h4 := step _ [1,2,3,4,0,0,0,0,0,0,0,0] (I 3) 4 h3 rfl
  have h5 := step _ [1,2,3,4,5,0,0,0,0,0,0,0] (I 4) 5 h4 rfl
  have h6 := step _ [1,2,3,4,5,6,0,0,0,0,0,0] (I 5) 6 h5 rfl
  have h7 := step _ [1,2,3,4,5,6,7,0,0,0,0,0] (I 6) 7 h6 rfl
  have h8 := step _ [1,2,3,4,5,6,7,8,0,0,0,0] (I 7) 8 h7 rfl
  have h9 := step _ [1,2,3,4,5,6,7,8,9,0,0,0] (I 8) 9 h8 rfl
  have h10 := step _ [1,2,3,4,5,6,7,8,9,10,0,0] (I 9) 10 h9 rfl
  have h11 := step _ [1,2,3,4,5,6,7,8,9,10,11,0] (I 10) 11 h10 rfl
  exact step _ [1,2,3,4,5,6,7,8,9,10,11,12] (I 11) 12 h11 rfl

/-- The example copy meets the hypotheses: the 2×2 block at (0,0) onto the one at (1,2), inside one
container. -/
example : CopyArgs 0 none demo (Range.setup [(0, 2), (0, 2)]) (Range.setup [(1, 3), (2, 4)]) where
  src_made := by intro s h; cases h
  dst_made := demo_made
  src_dims := by decide
  dst_dims := by decide
  from_in := by decide
  to_in := by decide
  from_pos := by decide
  to_pos := by decide
  from_made := .ofBounds (n := 2) (lo := [0,0]) (hi := [2,2]) rfl
  to_made := .ofBounds (n := 2) (lo := [1,2]) (hi := [3,4]) rfl
  volumes := by decide
  disjoint := by
    rintro _ c ⟨h1, h2⟩
    cases h1 with
    | cons h1 h1' =>
    cases h2 with
    | cons h2 h2' =>
    cases h1' with
    | cons h1' _ =>
    cases h2' with
    | cons h2' _ =>
      simp at h1' h2'; omega

/-- `next` of an indexer that does not exist leaves it that way (same number of dimensions). -/
theorem next_not_exists {sub sup : Range} (hs : sub.WF) (hp : sup.WF)
    (hl : sub.dims.length = sup.dims.length) {i : Indexer} (hi : i = Indexer.make sub sup)
    (hw : ¬ Range.Within sup.dims sub.dims) : i.linear = 0 ∧ ∃ j, i.next = .ok j ∧ j.ex = false := by
  by_cases hn : sup.dims = []
  · exfalso; apply hw
    have : sub.dims = [] := by rw [hn] at hl; exact List.length_eq_zero_iff.1 hl
    rw [this, hn]; exact .nil
  have hi0 : sup.copy.includes sub.copy = false := by
    rw [Bool.eq_false_iff]; intro h; exact hw (Range.includes_iff.1 h)
  have h0 : 0 < sup.copy.numDims := by
    unfold Range.numDims; simp; exact List.length_pos_of_ne_nil hn
  have he : Indexer.make sub sup = Indexer.mk ⟨sup.dims, Range.strideLoop sup.dims⟩ (Range.setup sub.dims) 0 false
      (List.replicate sup.dims.length 0 ++ []) := by
    unfold Indexer.make
    simp only [h0, if_true, hi0]
    simp [Range.copy, Range.setup, Range.numDims]
  have hr := recInc_spec (sub := sub.dims) (stride := Range.strideLoop sup.dims) (supD := sup.dims)
    (n := sup.dims.length) hl (by simp) sup.dims.length (le_refl _) (List.replicate sup.dims.length 0) [] 0 false
    (by simp) (by simp)
  rw [hi, he]
  refine ⟨rfl, ⟨_, hr, ?_⟩⟩
  simp

/-- **C21 refuted**, for every pair of chunks and every pair of ranges: a destination range that has
cells outside the destination chunk is not rejected; element 0 of the chunk (a ghost cell the caller
never named) is overwritten with the first source cell. -/
theorem C21_copy_to_out_of_bounds_false {zero : α} {src : Option (IFace α)} {dst : IFace α}
    {fromR toR : Range} (hs : ∀ s, src = some s → s.Made zero) (hd : dst.Made zero)
    (hsn : 0 < (src.getD dst).rng.numDims) (hdn : dst.data ≠ [])
    (hfm : fromR.Made) (htm : toR.Made) (hfp : Pos fromR.dims)
    (hin : (src.getD dst).rng.includes fromR = true)
    (hout : dst.rng.includes toR = false) (hdim : toR.numDims = dst.rng.numDims)
    (hvol : fromR.volume = toR.volume) :
    ∃ v, (src.getD dst).val (fromR.dims.map Prod.fst) = some v ∧
      IFace.copyTo src fromR dst toR = .ok { dst with data := dst.data.set 0 v } := by
  have hwd := IFace.made_wf hd
  have hws : (src.getD dst).WF := by
    cases src with
    | none => exact hwd
    | some s => exact IFace.made_wf (hs s rfl)
  have hwin := Range.includes_iff.1 hin
  have hwout : ¬ Range.Within dst.rng.dims toR.dims := by
    intro h; rw [Range.includes_iff.2 h] at hout; cases hout
  have hfirst : InBox fromR.dims (fromR.dims.map Prod.fst) := by
    have : ∀ b : Box, Pos b → InBox b (b.map Prod.fst) := by
      intro b
      induction b with
      | nil => intro _; exact .nil
      | cons d ds ih =>
        intro hp
        exact .cons ⟨le_refl _, hp d (by simp)⟩ (ih (fun e he => hp e (by simp [he])))
    exact this _ hfp
  have hfc := hwin.mem hfirst
  obtain ⟨v, hv⟩ := IFace.val_isSome hws (dims_ne hsn) hfc
  refine ⟨v, hv, ?_⟩
  obtain ⟨hl0, j, hj, hjex⟩ := next_not_exists (Range.made_wf htm) hwd.1 hdim
    (i := dst.indexer toR) rfl hwout
  have hfi : (src.getD dst).indexer fromR = Indexer.onCell fromR.dims (src.getD dst).rng.dims (fromR.dims.map Prod.fst) :=
    Indexer.make_eq_at (dims_ne hsn) hwin
  have hnx := Indexer.next_at (sub := fromR.dims) (sup := (src.getD dst).rng.dims) hwin.length_eq.symm
    (c := fromR.dims.map Prod.fst) (by simp [hwin.length_eq])
  have hget : IFace.srcGet src dst ((src.getD dst).indexer fromR) = .ok v := by
    have := IFace.get_onCell hws (dims_ne hsn) hfc fromR.dims hv
    rw [hfi]
    cases src <;> exact this
  have hput : dst.put (dst.indexer toR) v = .ok { dst with data := dst.data.set 0 v } := by
    unfold IFace.put
    rw [hl0]
    have : 0 < dst.data.length := List.length_pos_of_ne_nil hdn
    rw [show (0:Int) = ((0:Nat):Int) from rfl, vset_nat this]; rfl
  unfold IFace.copyTo
  rw [if_neg (by simp [hvol]), iter_unfold]
  unfold IFace.copyStep
  rw [hfi] at hget ⊢
  simp only [hget, hput, hj, hnx, hjex, Res.ok_bind]
  rfl

-- Example: a copy of cell (0,0) of the 3×4 container to its non-existing cell (7,0).
example : (demo.rng.includes (Range.setup [(0, 1), (0, 1)]) = true) ∧
    (demo.rng.includes (Range.setup [(7, 8), (0, 1)]) = false) ∧
    (Range.setup [(0, 1), (0, 1)]).volume = (Range.setup [(7, 8), (0, 1)]).volume ∧
    demo.data ≠ [] ∧ demo.Made 0 := ⟨by decide, by decide, by decide, by decide, demo_made⟩

/-- The same with numbers: cell 2 of a line of 3 cells copied to the non-existing cell 7. -/
theorem C21_witness_false :
    IFace.copyTo none (Range.setup [(2, 3)]) (IFace.mk (Range.setup [(0, 3)]) [10, 20, 30]) (Range.setup [(7, 8)])
      = .ok ⟨Range.setup [(0, 3)], [30, 20, 30]⟩ := by
  unfold IFace.copyTo
  rw [if_neg (by decide)]
  exact iter_eq_ok_of_iterN (n := 8) (by decide)

/-- Offset of a container's data pointer for a cell, against its indexer: used in C16. -/
theorem dataOffset_eq {f : IFace α} (h : f.rng.WF) {c : Cell} (hc : c.length = f.rng.dims.length) :
    f.dataOffset c = offset f.rng.dims c := by
  unfold IFace.dataOffset
  rw [h, linearSum_eq _ _ _ hc]; simp

theorem includes_same_volume {a b : Range} (ha : a.WF) (hb : b.WF) (hne : a.dims ≠ [])
    (hpb : Pos b.dims) (hw : Range.Within a.dims b.dims) (hv : a.volume = b.volume) : a.dims = b.dims := by
  have hne' : b.dims ≠ [] := by
    intro h; have := hw.length_eq; rw [h] at this; exact hne (List.length_eq_zero_iff.1 this)
  rw [ha.volume_eq hne, hb.volume_eq hne'] at hv
  generalize a.dims = A at *
  generalize b.dims = B at *
  clear ha hb hne hne'
  have key : ∀ (A B : Box), Range.Within A B → Pos B → boxVolume B ≤ boxVolume A ∧
      (boxVolume A = boxVolume B → A = B) := by
    intro A B h
    induction h with
    | nil => intro _; exact ⟨le_refl _, fun _ => rfl⟩
    | @cons x y xs ys h1 h2 ih =>
      intro hp
      obtain ⟨i1, i2⟩ := ih hp.tail
      have hy := hp.head
      have hv := boxVolume_pos hp.tail
      have hlen : y.2 - y.1 ≤ x.2 - x.1 := by omega
      rw [boxVolume_cons, boxVolume_cons]
      constructor
      · nlinarith
      · intro he
        have e1 : x.2 - x.1 = y.2 - y.1 := by nlinarith
        have e2 : boxVolume xs = boxVolume ys := by
          rw [e1] at he
          exact Int.eq_of_mul_eq_mul_left (by omega) he
        rw [i2 e2]
        congr 1
        exact Prod.ext (by omega) (by omega)
  exact (key A B hw hpb).2 hv

/-- **C14 refuted**: for containers of equal volume but different ranges `pull(interface)` copies
nothing at all: the destination is returned unchanged. (The arguments of the three-argument `pull`
are passed in the wrong order.) -/
theorem C14_pull_all_false {zero : α} {dst src : IFace α} (hd : dst.Made zero) (hs : src.Made zero)
    (hdp : Pos dst.rng.dims) (hn : 0 < src.rng.numDims)
    (hvol : dst.rng.volume = src.rng.volume) (hdiff : dst.rng.eqv src.rng = false) :
    dst.pullAll (some src) = .ok dst := by
  unfold IFace.pullAll IFace.pull
  rw [if_neg (by simp [hvol])]
  have hex : (src.indexer dst.rng).ex = false := by
    unfold IFace.indexer
    apply Indexer.make_not_includes
    right
    intro hw
    have := includes_same_volume (IFace.made_wf hs).1 (IFace.made_wf hd).1 (dims_ne hn) hdp hw hvol.symm
    have : dst.rng.eqv src.rng = true := Range.eqv_iff.2 this.symm
    rw [this] at hdiff; cases hdiff
  rw [iter_unfold]
  simp [IFace.pullStep, hex]

-- Witness: 3 cells [1,4) pulled into 3 cells [0,3): the destination keeps its old contents.
example : ∃ dst src : IFace Int, dst.Made 0 ∧ src.Made 0 ∧ Pos dst.rng.dims ∧
    dst.rng.volume = src.rng.volume ∧ dst.rng.eqv src.rng = false ∧ dst.data ≠ src.data :=
  ⟨⟨Range.setup [(0, 3)], [0, 0, 0]⟩, (⟨Range.setup [(1, 4)], [0, 0, 0]⟩ : IFace Int).fill 7,
   .make (r := Range.setup [(0, 3)]) (.ofLengths (n := 1) (d := [3]) rfl) rfl,
   .fill (.make (r := Range.setup [(1, 4)]) (.ofBounds (n := 1) (lo := [1]) (hi := [4]) rfl) rfl),
   by decide, by decide, by decide, by decide⟩

/-- **C14**, the part that holds: for containers with equal ranges `pull(interface)` copies every
cell. Missing: containers of equal volume with different ranges (`C14_pull_all_false`). -/
theorem C14_pull_all_partial {zero : α} {dst src : IFace α} (hd : dst.Made zero) (hs : src.Made zero)
    (hdp : Pos dst.rng.dims) (hn : 0 < dst.rng.numDims) (heq : dst.rng.eqv src.rng = true) :
    ∃ g, dst.pullAll (some src) = .ok g ∧ g.rng = dst.rng ∧
      ∀ c, InBox dst.rng.dims c → g.val c = src.val c := by
  have he := Range.eqv_iff.1 heq
  have hr : dst.rng = src.rng := by
    rw [(IFace.made_wf hd).1.eq_setup, (IFace.made_wf hs).1.eq_setup, he]
  have hok : IFace.CopyOK (some src) dst dst.rng src.rng := {
    swf := IFace.made_wf hs, dwf := IFace.made_wf hd,
    sne := by rw [Option.getD_some, ← he]; exact dims_ne hn
    dne := dims_ne hn
    finc := by rw [Option.getD_some, ← hr]; exact Range.Within.refl _
    tinc := by rw [← hr]; exact Range.Within.refl _
    fpos := hdp, tpos := by rw [← he]; exact hdp
    fr := (IFace.made_wf hd).1, tr := (IFace.made_wf hs).1
    vol := by rw [hr]
    dis := by intro h; cases h }
  refine ⟨_, hok.pull_eq, hok.spec.2.1, ?_⟩
  intro c hc
  obtain ⟨k, hk⟩ := List.mem_iff_getElem?.1 (mem_cells.2 hc)
  exact hok.spec.2.2.1 k c c hk (by rw [← he]; exact hk)

/-- **C15** `swap` exchanges the element sequences and keeps the ranges; twice is the identity. -/
theorem C15_swap {a b : IFace α} (h : a.rng.volume = b.rng.volume) :
    ∃ c d, a.swap b = .ok (c, d) ∧ c.data = b.data ∧ d.data = a.data ∧ c.rng = a.rng ∧ d.rng = b.rng ∧
      c.swap d = .ok (a, b) :=
  ⟨{ a with data := b.data }, { b with data := a.data }, by unfold IFace.swap; rw [if_neg (by simp [h])],
    rfl, rfl, rfl, rfl, by unfold IFace.swap; rw [if_neg (by simp [h])]⟩

theorem C15_swap_mismatch {a b : IFace α} (h : a.rng.volume ≠ b.rng.volume) :
    ∃ m, a.swap b = .throw m := ⟨_, by unfold IFace.swap; rw [if_pos h]⟩

example : demo.swap (demo.fill 5) = .ok (demo.fill 5, demo) := by decide

/-- **C16** `*data(index)` is the element of the cell with these global coordinates, and at every
iteration of a traversal it is the element `operator[]` gives. -/
theorem C16_pointer_access {zero : α} {f : IFace α} (h : f.Made zero) (hn : 0 < f.rng.numDims) :
    (∀ c, InBox f.rng.dims c → ∃ v, f.val c = some v ∧ f.dataAt c = .ok v) ∧
    ∀ sub : Range, f.rng.includes sub = true → Pos sub.dims →
      (f.indexer sub).forEach (fun i (_ : Unit) => do
        let v ← f.get i
        let w ← f.dataAt i.index
        (open Classical in if v = w then .ok () else .throw "disagree")) () = .ok () := by
  have hwf := IFace.made_wf h
  have hne := dims_ne hn
  have h1 : ∀ c, InBox f.rng.dims c → ∃ v, f.val c = some v ∧ f.dataAt c = .ok v := by
    intro c hc
    obtain ⟨v, hv⟩ := IFace.val_isSome hwf hne hc
    refine ⟨v, hv, ?_⟩
    unfold IFace.dataAt
    rw [dataOffset_eq hwf.1 hc.length_eq, vget_eq_ok_iff]
    exact ⟨(offset_nonneg hc.pos hc).1, hv⟩
  refine ⟨h1, ?_⟩
  intro sub hinc hpos
  have hw := Range.includes_iff.1 hinc
  unfold IFace.indexer
  rw [Indexer.forEach_make hne hw hpos]
  have key : ∀ (L : List Cell), (∀ c ∈ L, InBox sub.dims c) → L.foldlM (m := Res)
      (fun (_ : Unit) c => do
        let v ← f.get (Indexer.onCell sub.dims f.rng.dims c)
        let w ← f.dataAt (Indexer.onCell sub.dims f.rng.dims c).index
        (open Classical in if v = w then .ok () else .throw "disagree")) () = .ok () := by
    intro L
    induction L with
    | nil => intro _; rfl
    | cons c L ih =>
      intro hL
      have hc := hw.mem (hL c List.mem_cons_self)
      obtain ⟨v, hv, hd⟩ := h1 c hc
      have hd' : f.dataAt (Indexer.onCell sub.dims f.rng.dims c).index = .ok v := hd
      rw [List.foldlM_cons, IFace.get_onCell hwf hne hc sub.dims hv, hd']
      simp only [Res.ok_bind, if_true]
      exact ih (fun c' h' => hL c' (List.mem_cons_of_mem _ h'))
  exact key _ (fun c hc => mem_cells.1 hc)

example : demo.dataAt [1, 2] = .ok 7 ∧ demo.val [1, 2] = some 7 := by decide

/-- **C22** `multiply_by_scalar`. -/
theorem C22_multiply {zero : α} (mul : α → α → α) {c : Chunk α} (h : c.arr.Made zero)
    (hn : 0 < c.arr.rng.numDims) {r : Range} (hinc : c.arr.rng.includes r = true) (hpos : Pos r.dims) (s : α) :
    ∃ g, c.scale mul r s = .ok g ∧ g = { c with arr := g.arr } ∧ g.arr.rng = c.arr.rng ∧
      ∀ x, InBox c.arr.rng.dims x →
        g.arr.val x = if InBox r.dims x then (c.arr.val x).map (fun v => mul v s) else c.arr.val x := by
  obtain ⟨A, h1, _, h3, h4⟩ := scale_spec mul (IFace.made_wf h) (dims_ne hn) (Range.includes_iff.1 hinc) hpos s
  exact ⟨_, h1, rfl, h3, h4⟩

/-- **C22** a range that is not inside the chunk changes nothing. -/
theorem C22_multiply_outside (mul : α → α → α) {c : Chunk α} {r : Range}
    (hinc : c.arr.rng.includes r = false) (s : α) : c.scale mul r s = .ok c := by
  exact scale_outside mul (fun hw => by rw [Range.includes_iff.2 hw] at hinc; cases hinc) s

example : demo.rng.includes (Range.setup [(0, 3), (1, 2)]) = true ∧ Pos (Range.setup [(0, 3), (1, 2)]).dims ∧
    demo.rng.includes (Range.setup [(0, 3), (1, 5)]) = false := by decide

/-- **C23** `full_copy`. -/
theorem C23_full_copy {zero : α} {a b : IFace α} (ha : a.Made zero) (hb : b.Made zero) :
    (a.rng.volume = b.rng.volume → ∃ g, IFace.fullCopy a b = .ok g ∧ g.rng = b.rng ∧ g.data = a.data) ∧
    (a.rng.volume ≠ b.rng.volume → ∃ m, IFace.fullCopy a b = .throw m) := by
  have h1 := (IFace.made_wf ha).2
  have h2 := (IFace.made_wf hb).2
  constructor
  · intro hv
    refine ⟨{ b with data := a.data }, ?_, rfl, rfl⟩
    unfold IFace.fullCopy
    rw [if_neg (by simp [hv]), if_pos ⟨by omega, by omega, by omega⟩]
    rw [List.take_of_length_le (by omega), List.drop_eq_nil_of_le (by omega)]
    simp
  · intro hv
    exact ⟨_, by unfold IFace.fullCopy; rw [if_pos hv]⟩

example : IFace.fullCopy demo (demo.fill 0) = .ok demo := by decide

/-- **C17**, assignment: `b = a` gives `b` the shape and the contents of `a`, whatever `b` held.
`a` is any chunk whose array has the shape its ranges say, with positive lengths. -/
theorem C17_assign {zero : α} {a b : Chunk α} (ha : a.arr.Made zero)
    (hshape : a.arr.rng.dims = a.mesh.dims ++ a.dataR.dims) (hpos : Pos a.arr.rng.dims)
    (hn : 0 < a.arr.rng.numDims) :
    ∃ g, b.assign zero a = .ok g ∧ g.mesh.dims = a.mesh.dims ∧ g.dataR.dims = a.dataR.dims ∧
      g.arr.rng = a.arr.rng ∧ ∀ c, InBox a.arr.rng.dims c → g.arr.val c = a.arr.val c := by
  have hrd : (Chunk.extrudeAll a.mesh.copy.copy a.dataR.dims).copy = a.arr.rng := by
    rw [(IFace.made_wf ha).1.eq_setup, hshape]
    have : (Chunk.extrudeAll a.mesh.copy.copy a.dataR.dims).copy
        = Range.setup (Chunk.extrudeAll a.mesh.copy.copy a.dataR.dims).dims := rfl
    rw [this, extrudeAll_dims]; rfl
  have hvol : 0 ≤ a.arr.rng.volume := by
    have := (IFace.made_wf ha).2; omega
  obtain ⟨arr, harr⟩ : ∃ arr, b.arr.resize zero (Chunk.extrudeAll a.mesh.copy.copy a.dataR.dims) = .ok arr := by
    unfold IFace.resize
    simp only [hrd]
    unfold IFace.vresize
    rw [if_neg (by omega)]
    exact ⟨_, rfl⟩
  obtain ⟨hwf, hrng⟩ := IFace.resize_spec harr
  rw [hrd] at hrng
  have hok : IFace.CopyOK (some a.arr) arr arr.rng a.arr.rng := {
    swf := IFace.made_wf ha, dwf := hwf
    sne := dims_ne hn
    dne := by rw [hrng]; exact dims_ne hn
    finc := by rw [Option.getD_some, hrng]; exact Range.Within.refl _
    tinc := by rw [hrng]; exact Range.Within.refl _
    fpos := by rw [hrng]; exact hpos
    tpos := hpos
    fr := hwf.1, tr := (IFace.made_wf ha).1
    vol := by rw [hrng]
    dis := by intro h; cases h }
  have hpull := hok.pull_eq
  refine ⟨{ b with
    mesh := a.mesh.copy, dataR := a.dataR.copy,
    arr := IFace.copyCells a.arr arr ((cells arr.rng.dims).zip (cells a.arr.rng.dims)) }, ?_, ?_, ?_, ?_, ?_⟩
  · unfold Chunk.assign Chunk.resizeBase
    simp only [harr, Res.ok_bind, Res.pure_eq, IFace.pullAll, Option.getD_some]
    rw [hpull]
    rfl
  · rfl
  · rfl
  · exact hok.spec.2.1.trans hrng
  · intro c hc
    obtain ⟨k, hk⟩ := List.mem_iff_getElem?.1 (mem_cells.2 hc)
    exact hok.spec.2.2.1 k c c (by rw [hrng]; exact hk) hk

/-- **C17 (second half) refuted**: a copy-constructed container has the right shape but its elements
are value-initialised, not copied. -/
theorem C17_copy_ctor_false : IFace.copyCtor 0 demo = .ok ⟨demo.rng, [0,0,0,0,0,0,0,0,0,0,0,0]⟩ ∧
    (⟨demo.rng, [0,0,0,0,0,0,0,0,0,0,0,0]⟩ : IFace Int) ≠ demo := by decide

/-- For every container: the copy constructor yields `zero` in every cell. -/
theorem C17_copy_ctor_drops_contents {zero : α} {f : IFace α} (h : f.Made zero) (hn : 0 < f.rng.numDims) :
    ∃ g, IFace.copyCtor zero f = .ok g ∧ g.rng = f.rng ∧ ∀ c, InBox f.rng.dims c → g.val c = some zero := by
  have hwf := IFace.made_wf h
  have hc : f.rng.copy = f.rng := hwf.1.copy_eq
  have hv : ¬ f.rng.volume < 0 := by have := hwf.2; omega
  refine ⟨⟨f.rng, List.replicate f.rng.volume.toNat zero⟩, ?_, rfl, ?_⟩
  · unfold IFace.copyCtor IFace.resize
    simp only [hc]
    unfold IFace.vresize
    rw [if_neg hv]
    simp
  · intro c hcb
    have := IFace.InBox_ne_nil hwf (dims_ne hn) hcb
    have h2 := hwf.2
    unfold IFace.val
    rw [List.getElem?_replicate, if_pos (by simp only; omega)]

end QK.Props
