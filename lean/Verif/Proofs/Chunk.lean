import Verif.Proofs.Container
import Verif.Spec.Ghost
import Verif.Model.BC
/- Lemmas about chunks with ghost layers. -/
namespace QK
open Spec

/-! ### Pointwise views of boxes -/

theorem lo_cons_zero (d : Int × Int) (B : Box) : lo (d :: B) 0 = d.1 := rfl
theorem hi_cons_zero (d : Int × Int) (B : Box) : hi (d :: B) 0 = d.2 := rfl
theorem lo_cons_succ (d : Int × Int) (B : Box) (i : Nat) : lo (d :: B) (i+1) = lo B i := rfl
theorem hi_cons_succ (d : Int × Int) (B : Box) (i : Nat) : hi (d :: B) (i+1) = hi B i := rfl

theorem inBox_iff (B : Box) : ∀ (x : Cell), InBox B x ↔ x.length = B.length ∧
    ∀ j : Nat, j < B.length → lo B j ≤ x.getD j 0 ∧ x.getD j 0 < hi B j := by
  induction B with
  | nil => intro x; cases x <;> simp [InBox]
  | cons d ds ih =>
    intro x
    cases x with
    | nil => simp [InBox]
    | cons y ys =>
      unfold InBox at *
      rw [List.forall₂_cons, ih ys]
      constructor
      · rintro ⟨h1, h2, h3⟩
        refine ⟨by simp [h2], ?_⟩
        intro j hj
        cases j with
        | zero => exact h1
        | succ j => exact h3 j (by simpa using hj)
      · rintro ⟨h1, h2⟩
        refine ⟨h2 0 (by simp), by simpa using h1, ?_⟩
        intro j hj
        exact h2 (j+1) (by simpa using hj)

theorem within_iff (A : Box) : ∀ (B : Box), Range.Within A B ↔ B.length = A.length ∧
    ∀ j : Nat, j < A.length → lo A j ≤ lo B j ∧ hi B j ≤ hi A j := by
  induction A with
  | nil => intro x; cases x <;> simp [Range.Within]
  | cons d ds ih =>
    intro x
    cases x with
    | nil => simp [Range.Within]
    | cons y ys =>
      unfold Range.Within at *
      rw [List.forall₂_cons, ih ys]
      constructor
      · rintro ⟨h1, h2, h3⟩
        refine ⟨by simp [h2], ?_⟩
        intro j hj
        cases j with
        | zero => exact h1
        | succ j => exact h3 j (by simpa using hj)
      · rintro ⟨h1, h2⟩
        refine ⟨h2 0 (by simp), by simpa using h1, ?_⟩
        intro j hj
        exact h2 (j+1) (by simpa using hj)

theorem pos_iff (B : Box) : Pos B ↔ ∀ j : Nat, j < B.length → lo B j < hi B j := by
  unfold Pos lo hi
  constructor
  · intro h j hj
    have := h (B[j]) (List.getElem_mem hj)
    simpa [List.getD_eq_getElem?_getD, List.getElem?_eq_getElem hj] using this
  · intro h d hd
    obtain ⟨j, hj, rfl⟩ := List.getElem_of_mem hd
    have := h j hj
    simpa [List.getD_eq_getElem?_getD, List.getElem?_eq_getElem hj] using this

@[simp] theorem slab_length (B : Box) (i : Nat) (a b : Int) : (slab B i a b).length = B.length := by
  simp [slab]

theorem lo_slab {B : Box} {i : Nat} (hi : i < B.length) (a b : Int) (j : Nat) :
    lo (slab B i a b) j = if j = i then a else lo B j := by
  unfold lo slab
  simp only [List.getD_eq_getElem?_getD, List.getElem?_set]
  by_cases h : i = j
  · subst h; simp [hi]
  · rw [if_neg h, if_neg (Ne.symm h)]

theorem hi_slab {B : Box} {i : Nat} (h' : i < B.length) (a b : Int) (j : Nat) :
    hi (slab B i a b) j = if j = i then b else hi B j := by
  unfold hi slab
  simp only [List.getD_eq_getElem?_getD, List.getElem?_set]
  by_cases h : i = j
  · subst h; simp [h']
  · rw [if_neg h, if_neg (Ne.symm h)]

theorem inBox_slab {B : Box} {i : Nat} (h : i < B.length) (a b : Int) (x : Cell) :
    InBox (slab B i a b) x ↔ x.length = B.length ∧ a ≤ x.getD i 0 ∧ x.getD i 0 < b ∧
      ∀ j : Nat, j < B.length → j ≠ i → lo B j ≤ x.getD j 0 ∧ x.getD j 0 < hi B j := by
  rw [inBox_iff]
  simp only [slab_length, lo_slab h, hi_slab h]
  constructor
  · rintro ⟨h1, h2⟩
    have := h2 i h
    simp only [if_true] at this
    refine ⟨h1, this.1, this.2, ?_⟩
    intro j hj hne
    have := h2 j hj
    simpa [hne] using this
  · rintro ⟨h1, h2, h3, h4⟩
    refine ⟨h1, ?_⟩
    intro j hj
    by_cases hji : j = i
    · subst hji; simp only [if_true]; exact ⟨h2, h3⟩
    · simpa [hji] using h4 j hj hji

theorem getD_modify {x : Cell} {i : Nat} (h : i < x.length) (f : Int → Int) (j : Nat) :
    (x.modify i f).getD j 0 = if j = i then f (x.getD i 0) else x.getD j 0 := by
  simp only [List.getD_eq_getElem?_getD, List.getElem?_modify]
  by_cases e : i = j
  · subst e
    simp [List.getElem?_eq_getElem h]
  · simp [e, Ne.symm e]

@[simp] theorem moveBy_length (x : Cell) (i : Nat) (s : Int) : (moveBy x i s).length = x.length := by
  simp [moveBy]

theorem moveBy_moveBy (x : Cell) (i : Nat) (s t : Int) : moveBy (moveBy x i s) i t = moveBy x i (s + t) := by
  unfold moveBy
  rw [List.modify_modify_eq]
  congr 1
  funext y; simp; ring

theorem moveBy_zero (x : Cell) (i : Nat) : moveBy x i 0 = x := by
  unfold moveBy
  have : (fun y : Int => y + 0) = id := by funext y; simp
  rw [this, List.modify_id]

theorem inBox_moveBy {B : Box} {i : Nat} {a b s : Int} (h : i < B.length) {x : Cell} :
    InBox (slab B i (a + s) (b + s)) x ↔ InBox (slab B i a b) (moveBy x i (-s)) := by
  rw [inBox_slab h, inBox_slab h, moveBy_length]
  constructor
  · rintro ⟨h1, h2, h3, h4⟩
    have hx : i < x.length := by omega
    unfold moveBy
    simp only [getD_modify hx]
    simp only [if_true]
    refine ⟨h1, by omega, by omega, ?_⟩
    intro j hj hne
    simpa [hne] using h4 j hj hne
  · rintro ⟨h1, h2, h3, h4⟩
    have hx : i < x.length := by omega
    unfold moveBy at h2 h3 h4
    simp only [getD_modify hx] at h2 h3 h4
    simp only [if_true] at h2 h3
    refine ⟨h1, by omega, by omega, ?_⟩
    intro j hj hne
    have := h4 j hj hne
    simpa [hne] using this

/-! ### Slabs are translated by copies -/

theorem cells_translate (B : Box) : ∀ (i : Nat) (a b s : Int),
    cells (slab B i (a + s) (b + s)) = (cells (slab B i a b)).map (fun x => moveBy x i s) ∨ B.length ≤ i := by
  induction B with
  | nil => intro i a b s; right; simp
  | cons d ds ih =>
    intro i a b s
    cases i with
    | zero =>
      left
      simp only [slab, List.set_cons_zero, cells]
      have : interval (a + s) (b + s) = (interval a b).map (fun x => s + x) := by
        rw [interval_map_add]; congr 1 <;> ring
      rw [this, List.flatMap_map, List.map_flatMap]
      congr 1
      funext x
      rw [List.map_map]
      apply List.map_congr_left
      intro c _
      simp [moveBy]; ring
    | succ i =>
      rcases ih i a b s with h | h
      · left
        simp only [slab, List.set_cons_succ, cells] at *
        rw [h, List.map_flatMap]
        congr 1
        funext x
        rw [List.map_map, List.map_map]
        apply List.map_congr_left
        intro c _
        simp [moveBy]
      · right; simpa using h

theorem copyWithin_shift {α : Type} {c : Chunk α} (hwf : c.arr.WF) {B : Box} {i : Nat} {a b s : Int}
    (hi : i < B.length) (hp : Pos (slab B i a b))
    (hf : Range.Within c.arr.rng.dims (slab B i a b))
    (ht : Range.Within c.arr.rng.dims (slab B i (a + s) (b + s)))
    (hd : b ≤ a + s ∨ b + s ≤ a) :
    ∃ A : IFace α, c.copyWithin (Range.setup (slab B i a b)) (Range.setup (slab B i (a + s) (b + s)))
        = .ok { c with arr := A } ∧ A.WF ∧ A.rng = c.arr.rng ∧
      ∀ x, InBox c.arr.rng.dims x →
        A.val x = if InBox (slab B i (a + s) (b + s)) x then c.arr.val (moveBy x i (-s)) else c.arr.val x := by
  have hcells := (cells_translate B i a b s).resolve_right (by omega)
  have hne : c.arr.rng.dims ≠ [] := by
    intro h; have := hf.length_eq; rw [h] at this; simp at this; omega
  have hlenS : ∀ a b : Int, slab B i a b ≠ [] := by
    intro a b h
    have : (slab B i a b).length = 0 := by rw [h]; rfl
    rw [slab_length] at this; omega
  have hpt : Pos (slab B i (a + s) (b + s)) := by
    rw [pos_iff] at hp ⊢
    intro j hj
    have := hp j (by simpa using hj)
    rw [lo_slab hi, hi_slab hi] at this ⊢
    split_ifs at this ⊢ <;> omega
  have hok : IFace.CopyOK none c.arr (Range.setup (slab B i a b)) (Range.setup (slab B i (a + s) (b + s))) := {
    swf := hwf, dwf := hwf, sne := hne, dne := hne, finc := hf, tinc := ht, fpos := hp, tpos := hpt
    fr := Range.setup_wf _, tr := Range.setup_wf _
    vol := by
      rw [Range.volume_setup (hlenS _ _), Range.volume_setup (hlenS _ _)]
      have h1 := cells_length hp
      have h2 := cells_length hpt
      rw [hcells, List.length_map] at h2
      omega
    dis := by
      rintro _ x ⟨h1, h2⟩
      have h1' := (inBox_slab hi _ _ _).1 h1
      have h2' := (inBox_slab hi _ _ _).1 h2
      omega }
  obtain ⟨h1, h2, h3, h4⟩ := hok.spec
  refine ⟨_, ?_, h1, h2, ?_⟩
  · unfold Chunk.copyWithin
    rw [hok.copyTo_eq]; rfl
  · intro x hx
    by_cases hin : InBox (slab B i (a + s) (b + s)) x
    · rw [if_pos hin]
      have hin' := (inBox_moveBy hi).1 hin
      obtain ⟨k, hk⟩ := List.mem_iff_getElem?.1 (mem_cells.2 hin')
      apply h3 k _ _ hk
      simp only [Range.setup_dims]
      rw [hcells, List.getElem?_map, hk]
      simp only [Option.map_some]
      rw [moveBy_moveBy]
      simp [moveBy_zero]
    · rw [if_neg hin]
      exact h4 x hx hin

/-- `multiply_by_scalar` cell by cell. -/
theorem scale_spec {α : Type} (mul : α → α → α) {c : Chunk α} (hwf : c.arr.WF) (hne : c.arr.rng.dims ≠ [])
    {r : Range} (hw : Range.Within c.arr.rng.dims r.dims) (hpos : Pos r.dims) (s : α) :
    ∃ A : IFace α, c.scale mul r s = .ok { c with arr := A } ∧ A.WF ∧ A.rng = c.arr.rng ∧
      ∀ x, InBox c.arr.rng.dims x →
        A.val x = if InBox r.dims x then (c.arr.val x).map (fun v => mul v s) else c.arr.val x := by
  unfold Chunk.scale IFace.indexer
  rw [Indexer.forEach_make hne hw hpos]
  rw [IFace.foldlM_map_eq (fun v => mul v s) r.dims (fun i f => do let v ← f.get i; f.put i (mul v s))
    (fun f c v h1 h2 h3 h4 => by
      rw [IFace.get_onCell h1 h2 h3 _ h4, Res.ok_bind, IFace.put_onCell h1 h2 h3])
    c.arr.rng.dims _ c.arr hwf rfl hne (fun c hc => hw.mem (mem_cells.1 hc))]
  obtain ⟨h1, h2, h3⟩ := IFace.mapCells_spec (fun v => mul v s) (cells r.dims) c.arr hwf hne
    (fun c hc => hw.mem (mem_cells.1 hc)) (cells_nodup _)
  refine ⟨_, rfl, h1, h2, ?_⟩
  intro x hx
  rw [h3 x hx]
  simp only [mem_cells]

theorem scale_outside {α : Type} (mul : α → α → α) {c : Chunk α} {r : Range}
    (hinc : ¬ Range.Within c.arr.rng.dims r.dims) (s : α) : c.scale mul r s = .ok c := by
  unfold Chunk.scale IFace.indexer
  rw [Indexer.forEach_empty (Indexer.make_not_includes (.inr hinc))]
  rfl

/-! ### `resize` establishes the layout -/

@[simp] theorem grow_length (g : Int) (M : Box) : (grow g M).length = M.length := by simp [grow]

theorem expandLoop_spec (g : Int) : ∀ (n : Nat) (r : Range), r.WF → n ≤ r.dims.length →
    Chunk.expandLoop g n r = .ok (Range.setup (grow g (r.dims.take n) ++ r.dims.drop n)) := by
  intro n
  induction n with
  | zero => intro r h _; simp [Chunk.expandLoop, grow]; exact h.eq_setup
  | succ n ih =>
    intro r h hn
    rw [Chunk.expandLoop, ih r h (by omega), Res.ok_bind]
    have hlt : n < (grow g (r.dims.take n) ++ r.dims.drop n).length := by
      simp; omega
    rw [Range.expand_ok (r := Range.setup _) hlt]
    have hm : (r.dims.take n).length = n := by simp; omega
    have hd : r.dims.drop n = r.dims[n] :: r.dims.drop (n+1) := by
      rw [List.drop_eq_getElem_cons (by omega)]
    have hget : (grow g (r.dims.take n) ++ r.dims.drop n)[n]'hlt = r.dims[n] := by
      rw [List.getElem_append_right (by simp)]
      have : n ≤ r.dims.length := by omega
      simp [Nat.min_eq_left this]
    simp only [Range.setup_dims]
    rw [hget]
    congr 2
    rw [List.set_append_right _ _ (by simp), hd]
    simp only [grow_length, hm, Nat.sub_self, List.set_cons_zero]
    rw [List.take_add_one, List.getElem?_eq_getElem (by omega)]
    simp only [grow, Int.sub_eq_add_neg, List.map_append, Option.toList_some, List.map_cons, List.map_nil,
      List.append_assoc, List.cons_append, List.nil_append]

theorem extrudeAll_dims (ds : Box) : ∀ (r : Range), (Chunk.extrudeAll r ds).dims = r.dims ++ ds := by
  induction ds with
  | nil => intro r; simp [Chunk.extrudeAll]
  | cons d ds ih =>
    intro r
    have : Chunk.extrudeAll r (d :: ds) = Chunk.extrudeAll (r.extrude d.1 d.2) ds := rfl
    rw [this, ih]
    simp [Range.extrude]

theorem extrudeAll_wf (ds : Box) : ∀ {r : Range}, r.WF → (Chunk.extrudeAll r ds).WF := by
  induction ds with
  | nil => intro r h; exact h
  | cons d ds ih => intro r _; exact ih (r := r.extrude d.1 d.2) (Range.setup_wf _)

theorem extrudeAll_eq {r : Range} (h : r.WF) (ds : Box) : Chunk.extrudeAll r ds = Range.setup (r.dims ++ ds) := by
  rw [(extrudeAll_wf ds h).eq_setup, extrudeAll_dims]

theorem lower_setup {B : Box} {i : Nat} (h : i < B.length) : (Range.setup B).lower i = .ok (lo B i) := by
  rw [Range.lower_ok (r := Range.setup B) h]
  simp [lo, List.getD_eq_getElem?_getD, List.getElem?_eq_getElem h]
theorem upper_setup {B : Box} {i : Nat} (h : i < B.length) : (Range.setup B).upper i = .ok (hi B i) := by
  rw [Range.upper_ok (r := Range.setup B) h]
  simp [hi, List.getD_eq_getElem?_getD, List.getElem?_eq_getElem h]
theorem set_setup {B : Box} {i : Nat} (h : i < B.length) (a b : Int) :
    (Range.setup B).set i a b = .ok (Range.setup (slab B i a b)) := Range.set_ok (r := Range.setup B) h a b

theorem faces_spec (g : Int) {B : Box} {i : Nat} (h : i < B.length) :
    Chunk.faces g (Range.setup B) i = .ok
      ⟨Range.setup (slab B i (lo B i - g) (lo B i)), Range.setup (slab B i (lo B i) (lo B i + g)),
       Range.setup (slab B i (hi B i - g) (hi B i)), Range.setup (slab B i (hi B i) (hi B i + g))⟩ := by
  unfold Chunk.faces
  simp only [Range.copy_setup, lower_setup h, upper_setup h, set_setup h, Res.ok_bind]
  rfl

theorem facesLoop_spec (g : Int) {B : Box} : ∀ {n : Nat}, n ≤ B.length →
    ∃ fs, Chunk.facesLoop g (Range.setup B) n = .ok fs ∧ fs.length = n ∧ ∀ i, i < n → fs[i]? = some
      ⟨Range.setup (slab B i (lo B i - g) (lo B i)), Range.setup (slab B i (lo B i) (lo B i + g)),
       Range.setup (slab B i (hi B i - g) (hi B i)), Range.setup (slab B i (hi B i) (hi B i + g))⟩ := by
  intro n
  induction n with
  | zero => intro _; exact ⟨[], rfl, rfl, by omega⟩
  | succ n ih =>
    intro hn
    obtain ⟨fs, h1, h2, h3⟩ := ih (by omega)
    rw [Chunk.facesLoop, h1, Res.ok_bind, faces_spec g (by omega), Res.ok_bind]
    refine ⟨_, rfl, by simp [h2], ?_⟩
    intro i hi
    by_cases e : i = n
    · subst e
      rw [List.getElem?_append_right (by omega)]
      simp [h2]
    · rw [List.getElem?_append_left (by omega)]
      exact h3 i (by omega)

theorem lo_append {M D : Box} {i : Nat} (h : i < M.length) : lo (M ++ D) i = lo M i := by
  simp [lo, List.getD_eq_getElem?_getD, List.getElem?_append_left h]
theorem hi_append {M D : Box} {i : Nat} (h : i < M.length) : hi (M ++ D) i = hi M i := by
  simp [hi, List.getD_eq_getElem?_getD, List.getElem?_append_left h]
theorem lo_append_right {M D : Box} {i : Nat} (h : M.length ≤ i) : lo (M ++ D) i = lo D (i - M.length) := by
  simp [lo, List.getD_eq_getElem?_getD, List.getElem?_append_right h]
theorem hi_append_right {M D : Box} {i : Nat} (h : M.length ≤ i) : hi (M ++ D) i = hi D (i - M.length) := by
  simp [hi, List.getD_eq_getElem?_getD, List.getElem?_append_right h]
theorem lo_grow {M : Box} {g : Int} {i : Nat} (h : i < M.length) : lo (grow g M) i = lo M i - g := by
  simp [lo, grow, List.getD_eq_getElem?_getD, List.getElem?_eq_getElem h]
theorem hi_grow {M : Box} {g : Int} {i : Nat} (h : i < M.length) : hi (grow g M) i = hi M i + g := by
  simp [hi, grow, List.getD_eq_getElem?_getD, List.getElem?_eq_getElem h]

theorem pos_append {M D : Box} : Pos (M ++ D) ↔ Pos M ∧ Pos D := by
  unfold Pos
  simp only [List.mem_append]
  constructor
  · intro h; exact ⟨fun d hd => h d (.inl hd), fun d hd => h d (.inr hd)⟩
  · rintro ⟨h1, h2⟩ d (hd | hd)
    · exact h1 d hd
    · exact h2 d hd

theorem pos_grow {M : Box} {g : Int} (hg : 0 ≤ g) (h : Pos M) : Pos (grow g M) := by
  intro d hd
  simp only [grow, List.mem_map] at hd
  obtain ⟨e, he, rfl⟩ := hd
  have := h e he
  simp; omega

theorem setup_volume_nonneg {B : Box} (h : Pos B) : 0 ≤ (Range.setup B).volume := by
  by_cases hB : B = []
  · subst hB; decide
  · rw [Range.volume_setup hB]; exact le_of_lt (boxVolume_pos h)

/-- `extended_datachunk::resize` succeeds and establishes the layout. -/
theorem resize_layout_nonneg {α : Type} (zero : α) (c : Chunk α) {mesh dataR : Range} {g : Int}
    (hg : 0 ≤ g) (hM : Pos mesh.dims) (hD : 0 ≤ boxVolume dataR.dims) :
    ∃ c', c.resize zero mesh dataR g = .ok c' ∧ c'.Layout g mesh.dims dataR.dims ∧
      c'.mesh.dims = grow g mesh.dims ∧ c'.dataR.dims = dataR.dims ∧
      c'.lowExt.length = mesh.dims.length ∧ c'.lowInt.length = mesh.dims.length ∧
      c'.upInt.length = mesh.dims.length ∧ c'.upExt.length = mesh.dims.length ∧
      c'.arr.data = (c.arr.data.take c'.arr.rng.volume.toNat ++
        List.replicate (c'.arr.rng.volume.toNat - c.arr.data.length) zero) := by
  have h1 := expandLoop_spec g mesh.numDims mesh.copy (Range.copy_wf _) (le_refl _)
  have e0 : mesh.copy.dims.take mesh.numDims = mesh.dims := by
    rw [List.take_of_length_le]; · rfl
    · exact le_refl _
  have e1 : mesh.copy.dims.drop mesh.numDims = [] := List.drop_eq_nil_of_le (le_refl _)
  rw [e0, e1, List.append_nil] at h1
  have hvol : 0 ≤ (Range.setup (grow g mesh.dims ++ dataR.dims)).volume := by
    by_cases hB : grow g mesh.dims ++ dataR.dims = []
    · rw [hB]; decide
    · rw [Range.volume_setup hB, boxVolume_append]
      exact mul_nonneg (le_of_lt (boxVolume_pos (pos_grow hg hM))) hD
  have hrange : Chunk.extrudeAll (Range.setup (grow g mesh.dims)).copy.copy dataR.dims
      = Range.setup (grow g mesh.dims ++ dataR.dims) := by
    rw [extrudeAll_eq (Range.copy_wf _)]; rfl
  have hvr : ∃ d, IFace.vresize zero c.arr.data (Range.setup (grow g mesh.dims ++ dataR.dims)).volume = .ok d ∧
      d = (c.arr.data.take (Range.setup (grow g mesh.dims ++ dataR.dims)).volume.toNat ++
        List.replicate ((Range.setup (grow g mesh.dims ++ dataR.dims)).volume.toNat - c.arr.data.length) zero) := by
    unfold IFace.vresize
    rw [if_neg (by omega)]
    exact ⟨_, rfl, rfl⟩
  obtain ⟨d, hd, hdeq⟩ := hvr
  have hint : Chunk.extrudeAll (Chunk.extrudeAll .empty mesh.dims) dataR.dims
      = Range.setup (mesh.dims ++ dataR.dims) := by
    rw [extrudeAll_eq (r := .empty) rfl, extrudeAll_eq (Range.setup_wf _)]; rfl
  obtain ⟨fs, hf1, hf2, hf3⟩ := facesLoop_spec g (B := mesh.dims ++ dataR.dims) (n := mesh.dims.length) (by simp)
  have hnd : (Range.setup (grow g mesh.dims)).numDims = mesh.dims.length := by simp [Range.numDims]
  refine ⟨{ mesh := Range.setup (grow g mesh.dims), dataR := dataR.copy,
            arr := ⟨Range.setup (grow g mesh.dims ++ dataR.dims), d⟩, ghosts := g,
            internal := Range.setup (mesh.dims ++ dataR.dims),
            lowExt := fs.map Chunk.Faces.lowExt, lowInt := fs.map Chunk.Faces.lowInt,
            upInt := fs.map Chunk.Faces.upInt, upExt := fs.map Chunk.Faces.upExt }, ?_, ?_, rfl, rfl,
            by simp [hf2], by simp [hf2], by simp [hf2], by simp [hf2], ?_⟩
  · have hb : c.resizeBase zero (Range.setup (grow g mesh.dims)) dataR = .ok { c with
        mesh := Range.setup (grow g mesh.dims), dataR := dataR.copy,
        arr := ⟨Range.setup (grow g mesh.dims ++ dataR.dims), d⟩ } := by
      unfold Chunk.resizeBase IFace.resize
      simp only [Range.copy_setup] at hrange ⊢
      rw [hrange]
      simp only [Range.copy_setup]
      rw [hd]; rfl
    unfold Chunk.resize
    rw [h1, Res.ok_bind, hb, Res.ok_bind]
    simp only [hint, hnd]
    rw [hf1]; rfl
  · have hsub : ∀ i, i < mesh.dims.length → lo (mesh.dims ++ dataR.dims) i = lo mesh.dims i ∧
        hi (mesh.dims ++ dataR.dims) i = hi mesh.dims i := fun i h => ⟨lo_append h, hi_append h⟩
    refine ⟨rfl, ?_, rfl, rfl, rfl, ?_, ?_, ?_, ?_, by simp [hf2]⟩
    · exact IFace.vresize_length hd
    all_goals
      intro i hi
      simp only [List.getElem?_map, hf3 i hi, Option.map_some, (hsub i hi).1, (hsub i hi).2]
  · exact hdeq

theorem resize_layout {α : Type} (zero : α) (c : Chunk α) {mesh dataR : Range} {g : Int}
    (hg : 0 ≤ g) (hM : Pos mesh.dims) (hD : Pos dataR.dims) :
    ∃ c', c.resize zero mesh dataR g = .ok c' ∧ c'.Layout g mesh.dims dataR.dims ∧
      c'.mesh.dims = grow g mesh.dims ∧ c'.dataR.dims = dataR.dims ∧
      c'.lowExt.length = mesh.dims.length ∧ c'.lowInt.length = mesh.dims.length ∧
      c'.upInt.length = mesh.dims.length ∧ c'.upExt.length = mesh.dims.length ∧
      c'.arr.data = (c.arr.data.take c'.arr.rng.volume.toNat ++
        List.replicate (c'.arr.rng.volume.toNat - c.arr.data.length) zero) :=
  resize_layout_nonneg zero c hg hM (le_of_lt (boxVolume_pos hD))

/-! ### Consequences of the layout -/

namespace Chunk.Layout
variable {α : Type} {g : Int} {M D : Box} {c : Chunk α}

theorem wf (h : c.Layout g M D) : c.arr.WF := ⟨by rw [h.arr_range]; exact Range.setup_wf _, h.arr_size⟩
theorem dims (h : c.Layout g M D) : c.arr.rng.dims = grow g M ++ D := by rw [h.arr_range]; rfl

theorem with_arr (h : c.Layout g M D) {A : IFace α} (hA : A.WF) (hr : A.rng = c.arr.rng) :
    Chunk.Layout g M D { c with arr := A } :=
  ⟨hr.trans h.arr_range, hA.2, h.mesh_dims, h.internal, h.ghosts, h.lowExt, h.lowInt, h.upInt, h.upExt, h.faces⟩

end Chunk.Layout

/-- A slab of the interior box stays inside the allocation if it reaches at most into the ghosts. -/
theorem within_slab {g : Int} {M D : Box} (hg : 0 ≤ g) {i : Nat} (hi' : i < M.length) {a b : Int}
    (ha : lo M i - g ≤ a) (hb : b ≤ hi M i + g) :
    Range.Within (grow g M ++ D) (slab (M ++ D) i a b) := by
  rw [within_iff]
  refine ⟨by simp, ?_⟩
  intro j hj
  have hiB : i < (M ++ D).length := by simp; omega
  rw [lo_slab hiB, hi_slab hiB]
  by_cases hjM : j < M.length
  · have hjg : j < (grow g M).length := by simpa using hjM
    rw [lo_append hjg, hi_append hjg, lo_grow hjM, hi_grow hjM, lo_append hjM, hi_append hjM]
    by_cases e : j = i
    · subst e; simp; omega
    · simp [e]; omega
  · have hji : j ≠ i := by omega
    have hjg : (grow g M).length ≤ j := by rw [grow_length]; omega
    have hjm : M.length ≤ j := by omega
    rw [lo_append_right hjg, hi_append_right hjg, lo_append_right hjm, hi_append_right hjm]
    simp only [hji, if_false, grow_length]
    exact ⟨le_refl _, le_refl _⟩

theorem pos_slab {B : Box} (h : Pos B) {i : Nat} (hi' : i < B.length) {a b : Int} (hab : a < b) :
    Pos (slab B i a b) := by
  rw [pos_iff] at h ⊢
  intro j hj
  rw [slab_length] at hj
  rw [lo_slab hi', hi_slab hi']
  have := h j hj
  split_ifs <;> assumption

end QK
