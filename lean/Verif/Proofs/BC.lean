import Verif.Proofs.Chunk
/- Lemmas about the boundary conditions. -/
namespace QK
open Spec
variable {α : Type}

theorem vget_of_getElem? {β : Type} {l : List β} {i : Nat} {v : β} (h : l[i]? = some v) :
    vget l (i : Int) = .ok v := by
  simp [vget, h]

/-- `c'` is `c` with contents `v`. -/
structure Chunk.Upd (c c' : Chunk α) (v : Cell → Option α) : Prop where
  eq : c' = { c with arr := c'.arr }
  wf : c'.arr.WF
  rng : c'.arr.rng = c.arr.rng
  val : ∀ x, InBox c.arr.rng.dims x → c'.arr.val x = v x

theorem Chunk.Upd.layout {c c' : Chunk α} {v : Cell → Option α} {g : Int} {M D : Box} (h : c.Upd c' v)
    (hl : c.Layout g M D) : c'.Layout g M D := by
  rw [h.eq]; exact hl.with_arr h.wf h.rng

theorem Chunk.Upd.refl {c : Chunk α} (h : c.arr.WF) : c.Upd c c.arr.val := ⟨rfl, h, rfl, fun _ _ => rfl⟩

theorem Chunk.Upd.congr {c c' : Chunk α} {v w : Cell → Option α} (h : c.Upd c' v)
    (e : ∀ x, InBox c.arr.rng.dims x → v x = w x) : c.Upd c' w :=
  ⟨h.eq, h.wf, h.rng, fun x hx => (h.val x hx).trans (e x hx)⟩

theorem Chunk.Upd.trans {c c' c'' : Chunk α} {v w : Cell → Option α} (h : c.Upd c' v) (h' : c'.Upd c'' w) :
    c.Upd c'' w :=
  ⟨by rw [h'.eq, h.eq], h'.wf, h'.rng.trans h.rng, fun x hx => h'.val x (by rw [h.rng]; exact hx)⟩

/-- Containers with the same range and the same contents are equal. -/
theorem IFace.ext_val {a b : IFace α} (ha : a.WF) (hb : b.WF) (hr : a.rng = b.rng) (hn : a.rng.dims ≠ [])
    (hp : Pos a.rng.dims) (h : ∀ x, InBox a.rng.dims x → a.val x = b.val x) : a = b := by
  have hd : a.data = b.data := by
    apply List.ext_getElem?
    intro k
    have la := ha.2
    have lb := hb.2
    rw [← hr] at lb
    have hv := ha.1.volume_eq hn
    by_cases hk : (k : Int) < boxVolume a.rng.dims
    · obtain ⟨x, hx, ho⟩ := offset_surj hp (Int.natCast_nonneg k) hk
      have := h x hx
      unfold IFace.val at this
      rw [← hr, ho] at this
      simpa using this
    · rw [List.getElem?_eq_none (by omega), List.getElem?_eq_none (by omega)]
  cases a; cases b; simp_all

theorem Chunk.Upd.unique {c c' c'' : Chunk α} {v : Cell → Option α} (h : c.Upd c' v) (h' : c.Upd c'' v)
    (hn : c.arr.rng.dims ≠ []) (hp : Pos c.arr.rng.dims) : c' = c'' := by
  have : c'.arr = c''.arr := by
    apply IFace.ext_val h.wf h'.wf (h.rng.trans h'.rng.symm) (by rw [h.rng]; exact hn) (by rw [h.rng]; exact hp)
    intro x hx
    rw [h.rng] at hx
    rw [h.val x hx, h'.val x hx]
  rw [h.eq, h'.eq, this]

theorem modify_congr {f f' : Int → Int} : ∀ {x : Cell} {i : Nat}, f (x.getD i 0) = f' (x.getD i 0) →
    x.modify i f = x.modify i f' := by
  intro x
  induction x with
  | nil => intro i _; simp
  | cons y ys ih =>
    intro i h
    cases i with
    | zero => simpa using h
    | succ i => simp only [List.modify_succ_cons]; rw [ih h]

theorem copyWithin_upd {c : Chunk α} (hwf : c.arr.WF) {B : Box} {i : Nat} {a b a' b' : Int} (s : Int)
    (ea : a' = a + s) (eb : b' = b + s)
    (hi : i < B.length) (hp : Pos (slab B i a b))
    (hf : Range.Within c.arr.rng.dims (slab B i a b))
    (ht : Range.Within c.arr.rng.dims (slab B i a' b'))
    (hd : b ≤ a + s ∨ b + s ≤ a) :
    ∃ c', c.copyWithin (Range.setup (slab B i a b)) (Range.setup (slab B i a' b')) = .ok c' ∧
      c.Upd c' (fun x => if InBox (slab B i a' b') x then c.arr.val (moveBy x i (-s)) else c.arr.val x) := by
  subst ea; subst eb
  obtain ⟨A, h1, h2, h3, h4⟩ := copyWithin_shift hwf hi hp hf ht hd
  exact ⟨_, h1, rfl, h2, h3, h4⟩

section
variable {c : Chunk α} {g : Int} {M D : Box} {i : Nat}

theorem Chunk.Layout.ne (h : c.Layout g M D) (hi' : i < M.length) : c.arr.rng.dims ≠ [] := by
  rw [h.dims]; intro e
  have : (grow g M ++ D).length = 0 := by rw [e]; rfl
  simp only [List.length_append, grow_length] at this; omega

theorem inBox_grow (hg : 0 ≤ g) {x : Cell} (hi' : i < M.length) {a b : Int} (ha : lo M i - g ≤ a)
    (hb : b ≤ hi M i + g) (h : InBox (slab (M ++ D) i a b) x) : InBox (grow g M ++ D) x :=
  (within_slab hg hi' ha hb).mem h

theorem inBox_interior (hg : 0 ≤ g) {x : Cell} (h : InBox (M ++ D) x) : InBox (grow g M ++ D) x := by
  rw [inBox_iff] at h ⊢
  refine ⟨by simp [h.1], ?_⟩
  intro j hj
  have hj' : j < (M ++ D).length := by simpa using hj
  have := h.2 j hj'
  by_cases hm : j < M.length
  · rw [lo_append hm, hi_append hm] at this
    have hgl : j < (grow g M).length := by simpa using hm
    rw [lo_append hgl, hi_append hgl, lo_grow hm, hi_grow hm]
    omega
  · have h1 : M.length ≤ j := by omega
    have h2 : (grow g M).length ≤ j := by rw [grow_length]; omega
    rw [lo_append_right h1, hi_append_right h1] at this
    rw [lo_append_right h2, hi_append_right h2, grow_length]
    exact this

/-- Slabs of `B` inside the bounds of dimension `i` are part of `B`. -/
theorem inBox_of_slab {B : Box} (hi' : i < B.length) {a b : Int} {x : Cell} (ha : lo B i ≤ a) (hb : b ≤ hi B i)
    (h : InBox (slab B i a b) x) : InBox B x := by
  rw [inBox_slab hi'] at h
  rw [inBox_iff]
  refine ⟨h.1, ?_⟩
  intro j hj
  by_cases e : j = i
  · subst e; omega
  · exact h.2.2.2 j hj e

/-- A face ghost cell is a face ghost of one dimension only, and never interior. -/
theorem faceGhost_unique {B : Box} {j : Nat} (hi' : i < B.length) (hj : j < B.length)
    {x : Cell} (h : FaceGhost g B i x) (h' : FaceGhost g B j x) : i = j := by
  by_contra hne
  have key : ∀ a b : Int, InBox (slab B i a b) x → lo B j ≤ x.getD j 0 ∧ x.getD j 0 < hi B j := fun a b hx =>
    ((inBox_slab hi' _ _ _).1 hx).2.2.2 j hj (Ne.symm hne)
  have h1 : lo B j ≤ x.getD j 0 ∧ x.getD j 0 < hi B j := by
    rcases h with h | h <;> exact key _ _ h
  rcases h' with h' | h'
  · have := (inBox_slab hj _ _ _).1 h'; omega
  · have := (inBox_slab hj _ _ _).1 h'; omega

theorem faceGhost_not_interior {B : Box} (hi' : i < B.length) {x : Cell} (h : FaceGhost g B i x) :
    ¬ InBox B x := by
  intro hx
  have := ((inBox_iff B x).1 hx).2 i hi'
  rcases h with h | h
  · have := (inBox_slab hi' _ _ _).1 h; omega
  · have := (inBox_slab hi' _ _ _).1 h; omega

theorem periodicDim_upd (h : c.Layout g M D) (hg : 1 ≤ g) (hM : Pos M) (hD : Pos D) (hi' : i < M.length)
    (hN : g ≤ hi M i - lo M i) :
    ∃ c', BC.periodicDim c i = .ok c' ∧ c.Upd c' (fun x => if FaceGhost g (M ++ D) i x then
      c.arr.val (periodicImage g (M ++ D) i x) else c.arr.val x) := by
  have hB : i < (M ++ D).length := by simp; omega
  have hpB : Pos (M ++ D) := pos_append.2 ⟨hM, hD⟩
  obtain ⟨c1, e1, u1⟩ := copyWithin_upd (a := lo M i) (b := lo M i + g) (a' := hi M i) (b' := hi M i + g)
    h.wf (hi M i - lo M i) (by ring) (by ring) hB (pos_slab hpB hB (by omega))
    (by rw [h.dims]; exact within_slab (by omega) hi' (by omega) (by omega))
    (by rw [h.dims]; exact within_slab (by omega) hi' (by omega) (by omega)) (by omega)
  have h1 := u1.layout h
  obtain ⟨c2, e2, u2⟩ := copyWithin_upd (a := hi M i - g) (b := hi M i) (a' := lo M i - g) (b' := lo M i)
    h1.wf (lo M i - hi M i) (by ring) (by ring) hB (pos_slab hpB hB (by omega))
    (by rw [h1.dims]; exact within_slab (by omega) hi' (by omega) (by omega))
    (by rw [h1.dims]; exact within_slab (by omega) hi' (by omega) (by omega)) (by omega)
  refine ⟨c2, ?_, (u1.trans u2).congr ?_⟩
  · unfold BC.periodicDim BC.range
    rw [vget_of_getElem? (h.lowInt i hi'), Res.ok_bind, vget_of_getElem? (h.upExt i hi'), Res.ok_bind, e1, Res.ok_bind,
      vget_of_getElem? (h1.upInt i hi'), Res.ok_bind, vget_of_getElem? (h1.lowExt i hi'), Res.ok_bind, e2]
  · intro x hx
    have eL : LowGhost g (M ++ D) i x ↔ InBox (slab (M ++ D) i (lo M i - g) (lo M i)) x := by
      unfold LowGhost; rw [lo_append hi']
    have eU : UpGhost g (M ++ D) i x ↔ InBox (slab (M ++ D) i (hi M i) (hi M i + g)) x := by
      unfold UpGhost; rw [hi_append hi']
    unfold periodicImage FaceGhost
    rw [lo_append hi', hi_append hi']
    simp only [eL, eU]
    by_cases hl : InBox (slab (M ++ D) i (lo M i - g) (lo M i)) x
    · simp only [hl, if_true, true_or]
      have e : -(lo M i - hi M i) = hi M i - lo M i := by ring
      rw [e]
      have hy : InBox (slab (M ++ D) i (hi M i - g) (hi M i)) (moveBy x i (hi M i - lo M i)) := by
        rw [← e]
        apply (inBox_moveBy hB).1
        have e1 : hi M i - g + (lo M i - hi M i) = lo M i - g := by ring
        have e2 : hi M i + (lo M i - hi M i) = lo M i := by ring
        rw [e1, e2]; exact hl
      have hyB := inBox_of_slab hB (a := hi M i - g) (b := hi M i) (by rw [lo_append hi']; omega)
        (by rw [hi_append hi']) hy
      rw [u1.val _ (by rw [h.dims]; exact inBox_interior (by omega) hyB)]
      rw [if_neg]
      intro hc
      have a1 := (inBox_slab hB _ _ _).1 hy
      have a2 := (inBox_slab hB _ _ _).1 hc
      omega
    · simp only [hl, if_false, false_or]
      rw [u1.val x hx]
      simp only [Int.neg_sub]

/-! ### Mirror copies -/

theorem slab_slab (B : Box) (i : Nat) (a b a' b' : Int) : slab (slab B i a b) i a' b' = slab B i a' b' := by
  simp [slab]

theorem mirrorLower_upd (h : c.Layout g M D) (hM : Pos M) (hD : Pos D) (hi' : i < M.length)
    (hN : g ≤ hi M i - lo M i) {j : Nat} (hj : (j : Int) < g) :
    ∃ c', BC.mirrorLower i c j = .ok c' ∧ c.Upd c' (fun x =>
      if InBox (slab (M ++ D) i (lo M i - 1 - j) (lo M i - j)) x then
        c.arr.val (x.modify i (fun y => 2 * lo M i - 1 - y)) else c.arr.val x) := by
  have hB : i < (M ++ D).length := by simp; omega
  have hpB : Pos (M ++ D) := pos_append.2 ⟨hM, hD⟩
  obtain ⟨c1, e1, u1⟩ := copyWithin_upd (a := lo M i + j) (b := lo M i + j + 1) (a' := lo M i - 1 - j)
    (b' := lo M i - 1 - j + 1)
    h.wf (-1 - 2 * j) (by ring) (by ring) hB (pos_slab hpB hB (by omega))
    (by rw [h.dims]; exact within_slab (by omega) hi' (by omega) (by omega))
    (by rw [h.dims]; exact within_slab (by omega) hi' (by omega) (by omega)) (by omega)
  refine ⟨c1, ?_, u1.congr ?_⟩
  · unfold BC.mirrorLower BC.range
    rw [vget_of_getElem? (h.lowInt i hi'), Res.ok_bind, vget_of_getElem? (h.lowExt i hi'), Res.ok_bind,
      lower_setup (by simpa using hB), upper_setup (by simpa using hB)]
    simp only [Range.copy_setup, Res.ok_bind]
    rw [set_setup (by simpa using hB), set_setup (by simpa using hB), Res.ok_bind, Res.ok_bind, slab_slab, slab_slab,
      lo_slab hB, hi_slab hB, if_pos rfl, if_pos rfl, e1]
  · intro x _
    have e : lo M i - 1 - j + 1 = lo M i - j := by ring
    rw [e]
    by_cases hx : InBox (slab (M ++ D) i (lo M i - 1 - j) (lo M i - j)) x
    · rw [if_pos hx, if_pos hx]
      congr 1
      unfold moveBy
      apply modify_congr
      have := (inBox_slab hB _ _ _).1 hx
      omega
    · rw [if_neg hx, if_neg hx]

theorem mirrorUpper_upd (h : c.Layout g M D) (hM : Pos M) (hD : Pos D) (hi' : i < M.length)
    (hN : g ≤ hi M i - lo M i) {j : Nat} (hj : (j : Int) < g) :
    ∃ c', BC.mirrorUpper i c j = .ok c' ∧ c.Upd c' (fun x =>
      if InBox (slab (M ++ D) i (hi M i + j) (hi M i + j + 1)) x then
        c.arr.val (x.modify i (fun y => 2 * hi M i - 1 - y)) else c.arr.val x) := by
  have hB : i < (M ++ D).length := by simp; omega
  have hpB : Pos (M ++ D) := pos_append.2 ⟨hM, hD⟩
  obtain ⟨c1, e1, u1⟩ := copyWithin_upd (a := hi M i - 1 - j) (b := hi M i - 1 - j + 1) (a' := hi M i + j)
    (b' := hi M i + j + 1)
    h.wf (1 + 2 * j) (by ring) (by ring) hB (pos_slab hpB hB (by omega))
    (by rw [h.dims]; exact within_slab (by omega) hi' (by omega) (by omega))
    (by rw [h.dims]; exact within_slab (by omega) hi' (by omega) (by omega)) (by omega)
  refine ⟨c1, ?_, u1.congr ?_⟩
  · unfold BC.mirrorUpper BC.range
    rw [vget_of_getElem? (h.upInt i hi'), Res.ok_bind, vget_of_getElem? (h.upExt i hi'), Res.ok_bind,
      lower_setup (by simpa using hB), upper_setup (by simpa using hB)]
    simp only [Range.copy_setup, Res.ok_bind]
    rw [set_setup (by simpa using hB), set_setup (by simpa using hB), Res.ok_bind, Res.ok_bind, slab_slab, slab_slab,
      lo_slab hB, hi_slab hB, if_pos rfl, if_pos rfl, e1]
  · intro x _
    by_cases hx : InBox (slab (M ++ D) i (hi M i + j) (hi M i + j + 1)) x
    · rw [if_pos hx, if_pos hx]
      congr 1
      unfold moveBy
      apply modify_congr
      have := (inBox_slab hB _ _ _).1 hx
      omega
    · rw [if_neg hx, if_neg hx]

theorem mirror_source_lower {B : Box} (hB : i < B.length) {a b : Int} {x : Cell} (p : Int)
    (h : InBox (slab B i a b) x) :
    InBox (slab B i (p - b) (p - a)) (x.modify i (fun y => p - 1 - y)) := by
  rw [inBox_slab hB] at h ⊢
  have hx : i < x.length := by omega
  simp only [getD_modify hx, if_true, List.length_modify]
  refine ⟨h.1, by omega, by omega, ?_⟩
  intro j hj hne
  simpa [hne] using h.2.2.2 j hj hne

theorem mirrorLower_fold (h : c.Layout g M D) (hM : Pos M) (hD : Pos D) (hi' : i < M.length)
    (hN : g ≤ hi M i - lo M i) : ∀ n : Nat, (n : Int) ≤ g →
    ∃ c', (List.range n).foldlM (BC.mirrorLower i) c = .ok c' ∧ c.Upd c' (fun x =>
      if InBox (slab (M ++ D) i (lo M i - n) (lo M i)) x then
        c.arr.val (x.modify i (fun y => 2 * lo M i - 1 - y)) else c.arr.val x) := by
  have hB : i < (M ++ D).length := by simp; omega
  intro n
  induction n with
  | zero =>
    intro _
    refine ⟨c, rfl, (Chunk.Upd.refl h.wf).congr ?_⟩
    intro x _
    rw [if_neg]
    intro hx
    have := (inBox_slab hB _ _ _).1 hx
    omega
  | succ n ih =>
    intro hn
    obtain ⟨c1, e1, u1⟩ := ih (by omega)
    obtain ⟨c2, e2, u2⟩ := mirrorLower_upd (u1.layout h) hM hD hi' hN (j := n) (by omega)
    refine ⟨c2, ?_, (u1.trans u2).congr ?_⟩
    · rw [List.range_succ, List.foldlM_append, e1, Res.ok_bind]
      simp [e2]
    · intro x hx
      by_cases ha : InBox (slab (M ++ D) i (lo M i - 1 - n) (lo M i - n)) x
      · have hb : InBox (slab (M ++ D) i (lo M i - (n + 1 : Nat)) (lo M i)) x := by
          rw [inBox_slab hB] at ha ⊢
          exact ⟨ha.1, by omega, by omega, ha.2.2.2⟩
        rw [if_pos ha, if_pos hb]
        have hs := mirror_source_lower hB (2 * lo M i) ha
        rw [u1.val _ (by
          rw [h.dims]; exact inBox_grow (by omega) hi' (by omega) (by omega) hs)]
        rw [if_neg]
        intro hc
        have a1 := (inBox_slab hB _ _ _).1 hs
        have a2 := (inBox_slab hB _ _ _).1 hc
        omega
      · rw [if_neg ha, u1.val x hx]
        have : InBox (slab (M ++ D) i (lo M i - n) (lo M i)) x ↔
            InBox (slab (M ++ D) i (lo M i - (n + 1 : Nat)) (lo M i)) x := by
          rw [inBox_slab hB] at ha
          rw [inBox_slab hB, inBox_slab hB]
          constructor
          · rintro ⟨a1, a2, a3, a4⟩; exact ⟨a1, by omega, a3, a4⟩
          · rintro ⟨a1, a2, a3, a4⟩
            refine ⟨a1, ?_, a3, a4⟩
            by_contra hc
            exact ha ⟨a1, by omega, by omega, a4⟩
        simp only [this]

theorem mirrorUpper_fold (h : c.Layout g M D) (hM : Pos M) (hD : Pos D) (hi' : i < M.length)
    (hN : g ≤ hi M i - lo M i) : ∀ n : Nat, (n : Int) ≤ g →
    ∃ c', (List.range n).foldlM (BC.mirrorUpper i) c = .ok c' ∧ c.Upd c' (fun x =>
      if InBox (slab (M ++ D) i (hi M i) (hi M i + n)) x then
        c.arr.val (x.modify i (fun y => 2 * hi M i - 1 - y)) else c.arr.val x) := by
  have hB : i < (M ++ D).length := by simp; omega
  intro n
  induction n with
  | zero =>
    intro _
    refine ⟨c, rfl, (Chunk.Upd.refl h.wf).congr ?_⟩
    intro x _
    rw [if_neg]
    intro hx
    have := (inBox_slab hB _ _ _).1 hx
    omega
  | succ n ih =>
    intro hn
    obtain ⟨c1, e1, u1⟩ := ih (by omega)
    obtain ⟨c2, e2, u2⟩ := mirrorUpper_upd (u1.layout h) hM hD hi' hN (j := n) (by omega)
    refine ⟨c2, ?_, (u1.trans u2).congr ?_⟩
    · rw [List.range_succ, List.foldlM_append, e1, Res.ok_bind]
      simp [e2]
    · intro x hx
      by_cases ha : InBox (slab (M ++ D) i (hi M i + n) (hi M i + n + 1)) x
      · have hb : InBox (slab (M ++ D) i (hi M i) (hi M i + (n + 1 : Nat))) x := by
          rw [inBox_slab hB] at ha ⊢
          exact ⟨ha.1, by omega, by omega, ha.2.2.2⟩
        rw [if_pos ha, if_pos hb]
        have hs := mirror_source_lower hB (2 * hi M i) ha
        rw [u1.val _ (by
          rw [h.dims]; exact inBox_grow (by omega) hi' (by omega) (by omega) hs)]
        rw [if_neg]
        intro hc
        have a1 := (inBox_slab hB _ _ _).1 hs
        have a2 := (inBox_slab hB _ _ _).1 hc
        omega
      · rw [if_neg ha, u1.val x hx]
        have : InBox (slab (M ++ D) i (hi M i) (hi M i + n)) x ↔
            InBox (slab (M ++ D) i (hi M i) (hi M i + (n + 1 : Nat))) x := by
          rw [inBox_slab hB] at ha
          rw [inBox_slab hB, inBox_slab hB]
          constructor
          · rintro ⟨a1, a2, a3, a4⟩; exact ⟨a1, by omega, by omega, a4⟩
          · rintro ⟨a1, a2, a3, a4⟩
            refine ⟨a1, a2, ?_, a4⟩
            by_contra hc
            exact ha ⟨a1, by omega, by omega, a4⟩
        simp only [this]

theorem copyOutDim_upd (h : c.Layout g M D) (hg : 0 ≤ g) (hM : Pos M) (hD : Pos D) (hi' : i < M.length)
    (hN : g ≤ hi M i - lo M i) :
    ∃ c', BC.copyOutDim c i = .ok c' ∧ c.Upd c' (fun x => if FaceGhost g (M ++ D) i x then
      c.arr.val (mirrorImage g (M ++ D) i x) else c.arr.val x) := by
  have hB : i < (M ++ D).length := by simp; omega
  have htn : ((g.toNat : Nat) : Int) = g := by omega
  obtain ⟨c1, e1, u1⟩ := mirrorLower_fold h hM hD hi' hN g.toNat (by omega)
  have h1 := u1.layout h
  obtain ⟨c2, e2, u2⟩ := mirrorUpper_fold h1 hM hD hi' hN g.toNat (by omega)
  refine ⟨c2, ?_, (u1.trans u2).congr ?_⟩
  · unfold BC.copyOutDim BC.range
    rw [vget_of_getElem? (h.lowInt i hi'), Res.ok_bind, vget_of_getElem? (h.lowExt i hi'), Res.ok_bind, vget_of_getElem? (h.upInt i hi'), Res.ok_bind,
      vget_of_getElem? (h.upExt i hi'), Res.ok_bind, h.ghosts, e1, Res.ok_bind, h1.ghosts, e2]
  · intro x hx
    have eL : LowGhost g (M ++ D) i x ↔ InBox (slab (M ++ D) i (lo M i - g) (lo M i)) x := by
      unfold LowGhost; rw [lo_append hi']
    have eU : UpGhost g (M ++ D) i x ↔ InBox (slab (M ++ D) i (hi M i) (hi M i + g)) x := by
      unfold UpGhost; rw [hi_append hi']
    unfold mirrorImage FaceGhost
    rw [lo_append hi', hi_append hi', htn]
    rw [htn] at u1
    simp only [eL, eU]
    by_cases hu : InBox (slab (M ++ D) i (hi M i) (hi M i + g)) x
    · have hl : ¬ InBox (slab (M ++ D) i (lo M i - g) (lo M i)) x := by
        intro hl
        have a1 := (inBox_slab hB _ _ _).1 hl
        have a2 := (inBox_slab hB _ _ _).1 hu
        omega
      simp only [hu, hl, if_true, if_false, or_true]
      have hs := mirror_source_lower hB (2 * hi M i) hu
      rw [u1.val _ (by rw [h.dims]; exact inBox_grow (by omega) hi' (by omega) (by omega) hs)]
      rw [if_neg]
      intro hc
      have a1 := (inBox_slab hB _ _ _).1 hs
      have a2 := (inBox_slab hB _ _ _).1 hc
      omega
    · simp only [hu, if_false, or_false]
      rw [u1.val x hx]
      by_cases hl : InBox (slab (M ++ D) i (lo M i - g) (lo M i)) x
      · simp only [hl, if_true]
      · simp only [hl, if_false]

/-- Images of face ghosts are interior. -/
theorem periodicImage_interior {B : Box} (hB : i < B.length) (hN : g ≤ hi B i - lo B i) {x : Cell}
    (h : FaceGhost g B i x) : InBox B (periodicImage g B i x) := by
  have h0 : ∀ a b s : Int, lo B i ≤ a → b ≤ hi B i → InBox (slab B i (a - s) (b - s)) x → InBox B (moveBy x i s) := by
    intro a b s ha hb hx
    apply inBox_of_slab hB ha hb
    have e : moveBy x i s = moveBy x i (-(-s)) := by rw [Int.neg_neg]
    rw [e]
    apply (inBox_moveBy hB).1
    simpa [Int.sub_eq_add_neg] using hx
  unfold periodicImage
  split_ifs with hl
  · apply h0 (hi B i - g) (hi B i) _ (by omega) (by omega)
    have e1 : hi B i - g - (hi B i - lo B i) = lo B i - g := by ring
    have e2 : hi B i - (hi B i - lo B i) = lo B i := by ring
    rw [e1, e2]; exact hl
  · apply h0 (lo B i) (lo B i + g) _ (by omega) (by omega)
    have e1 : lo B i - (lo B i - hi B i) = hi B i := by ring
    have e2 : lo B i + g - (lo B i - hi B i) = hi B i + g := by ring
    rw [e1, e2]; exact h.resolve_left hl

theorem mirrorImage_interior {B : Box} (hB : i < B.length) (hN : g ≤ hi B i - lo B i) {x : Cell}
    (h : FaceGhost g B i x) : InBox B (mirrorImage g B i x) := by
  unfold mirrorImage
  split_ifs with hl
  · exact inBox_of_slab hB (by omega) (by omega) (mirror_source_lower hB (2 * lo B i) hl)
  · exact inBox_of_slab hB (by omega) (by omega) (mirror_source_lower hB (2 * hi B i) (h.resolve_left hl))

/-! ### Loop over the listed dimensions -/

theorem bc_fold {op : Chunk α → Int → Res (Chunk α)} {src : Nat → Cell → Cell} {f : Cell → α → α}
    (hg : 0 ≤ g) (ok : Nat → Prop)
    (hop : ∀ (c : Chunk α), c.Layout g M D → ∀ i, ok i → i < M.length → ∃ c', op c i = .ok c' ∧
      c.Upd c' (fun x => if FaceGhost g (M ++ D) i x then (c.arr.val (src i x)).map (f x) else c.arr.val x))
    (hsrc : ∀ i, ok i → i < M.length → ∀ x, FaceGhost g (M ++ D) i x → InBox (M ++ D) (src i x)) :
    ∀ (ds : List Nat), (∀ i ∈ ds, ok i ∧ i < M.length) → ∀ c : Chunk α, c.Layout g M D →
      ∃ c', (ds.map (Nat.cast : Nat → Int)).foldlM op c = .ok c' ∧ c.Upd c' c'.arr.val ∧
        (∀ i ∈ ds, ∀ x, InBox c.arr.rng.dims x → FaceGhost g (M ++ D) i x →
          c'.arr.val x = (c.arr.val (src i x)).map (f x)) ∧
        (∀ x, InBox c.arr.rng.dims x → (∀ i ∈ ds, ¬ FaceGhost g (M ++ D) i x) → c'.arr.val x = c.arr.val x) := by
  intro ds
  induction ds with
  | nil =>
    intro _ c h
    exact ⟨c, rfl, Chunk.Upd.refl h.wf, by simp, fun _ _ _ => rfl⟩
  | cons j ds ih =>
    intro hds c h
    have hj := hds j List.mem_cons_self
    obtain ⟨c1, e1, u1⟩ := hop c h j hj.1 hj.2
    have h1 := u1.layout h
    obtain ⟨c2, e2, u2, g2, n2⟩ := ih (fun i hi => hds i (List.mem_cons_of_mem _ hi)) c1 h1
    have hBj : j < (M ++ D).length := by simp; omega
    refine ⟨c2, ?_, u1.trans u2, ?_, ?_⟩
    · simp only [List.map_cons, List.foldlM_cons]
      rw [e1, Res.ok_bind]; exact e2
    · intro i hi x hx hgx
      have hi2 := hds i hi
      have hBi : i < (M ++ D).length := by simp; omega
      by_cases hmem : i ∈ ds
      · rw [g2 i hmem x (by rw [u1.rng]; exact hx) hgx]
        have hin := hsrc i hi2.1 hi2.2 x hgx
        rw [u1.val _ (by rw [h.dims]; exact inBox_interior hg hin)]
        rw [if_neg (fun hc => faceGhost_not_interior hBj hc hin)]
      · have hij : i = j := by
          rcases List.mem_cons.1 hi with h | h
          · exact h
          · exact absurd h hmem
        subst hij
        rw [n2 x (by rw [u1.rng]; exact hx), u1.val x hx, if_pos hgx]
        intro k hk hgk
        have hk2 := hds k (List.mem_cons_of_mem _ hk)
        have hBk : k < (M ++ D).length := by simp; omega
        have := faceGhost_unique hBi hBk hgx hgk
        exact hmem (this ▸ hk)
    · intro x hx hno
      rw [n2 x (by rw [u1.rng]; exact hx) (fun i hi => hno i (List.mem_cons_of_mem _ hi)), u1.val x hx,
        if_neg (hno j List.mem_cons_self)]

end
end QK

namespace QK
open Spec
variable {α : Type} {c : Chunk α} {g : Int} {M D : Box} {i : Nat}

/-! ### Idempotence and order independence -/

section
variable {op : Chunk α → Int → Res (Chunk α)} {src : Nat → Cell → Cell} {f : Cell → α → α}

/-- Result of `bc_fold` depends only on which dimensions are listed, and a second application
changes nothing. -/
theorem bc_same {c c' d d' : Chunk α} (h : c.Layout g M D) (hg : 0 ≤ g) (hp : Pos (M ++ D)) {ds es : List Nat}
    (hes : ∀ i ∈ es, i < M.length) (hM : M ≠ [])
    (hmem : ∀ i, i ∈ ds ↔ i ∈ es)
    (hsrc : ∀ i ∈ ds, ∀ x, FaceGhost g (M ++ D) i x → InBox (M ++ D) (src i x))
    (huc : c.Upd c' c'.arr.val) (hud : d.Upd d' d'.arr.val)
    (hcd : d = { c with arr := d.arr }) (hr : d.arr.rng = c.arr.rng)
    (hint : ∀ x, InBox c.arr.rng.dims x → (∀ i ∈ ds, ¬ FaceGhost g (M ++ D) i x) → d.arr.val x = c.arr.val x)
    (c1 : ∀ i ∈ ds, ∀ x, InBox c.arr.rng.dims x → FaceGhost g (M ++ D) i x →
          c'.arr.val x = (c.arr.val (src i x)).map (f x))
    (c2 : ∀ x, InBox c.arr.rng.dims x → (∀ i ∈ ds, ¬ FaceGhost g (M ++ D) i x) → c'.arr.val x = c.arr.val x)
    (d1 : ∀ i ∈ es, ∀ x, InBox d.arr.rng.dims x → FaceGhost g (M ++ D) i x →
          d'.arr.val x = (d.arr.val (src i x)).map (f x))
    (d2 : ∀ x, InBox d.arr.rng.dims x → (∀ i ∈ es, ¬ FaceGhost g (M ++ D) i x) → d'.arr.val x = d.arr.val x) :
    c' = d' := by
  have hlen : 0 < M.length := List.length_pos_of_ne_nil hM
  have hpa : Pos c.arr.rng.dims := by
    rw [h.dims]; exact pos_append.2 ⟨pos_grow hg (pos_append.1 hp).1, (pos_append.1 hp).2⟩
  have hd' : c.Upd d' d'.arr.val :=
    ⟨by rw [hud.eq, hcd], hud.wf, hud.rng.trans hr, fun _ _ => rfl⟩
  refine Chunk.Upd.unique huc (hd'.congr ?_) (h.ne hlen) hpa
  intro x hx
  by_cases hg' : ∃ i ∈ ds, FaceGhost g (M ++ D) i x
  · obtain ⟨i, hi, hgi⟩ := hg'
    rw [c1 i hi x hx hgi, d1 i ((hmem i).1 hi) x (by rw [hr]; exact hx) hgi]
    have hin := hsrc i hi x hgi
    rw [hint _ (by rw [h.dims]; exact inBox_interior hg hin)]
    intro j hj hgj
    have hjM := hes j ((hmem j).1 hj)
    exact faceGhost_not_interior (by simp; omega) hgj hin
  · have hno : ∀ i ∈ ds, ¬ FaceGhost g (M ++ D) i x := fun i hi hgi => hg' ⟨i, hi, hgi⟩
    rw [c2 x hx hno, d2 x (by rw [hr]; exact hx) (fun i hi => hno i ((hmem i).2 hi)), hint x hx hno]

end

/-! ### Sign flips -/

theorem getLastD_eq_getD {x : Cell} {n : Nat} (h : x.length = n + 1) : component x = x.getD n 0 := by
  unfold component
  rw [List.getLastD_eq_getLast?, List.getLast?_eq_getElem?, List.getD_eq_getElem?_getD, h]
  rfl

theorem flip_upd (mul : α → α → α) (m1 : α) (h : c.Layout g M D) (hg : 1 ≤ g) (hM : Pos M) (hD : Pos D)
    (hi' : i < M.length) {a b clo chi : Int} (ha : lo M i - g ≤ a) (hb : b ≤ hi M i + g) (hab : a < b) (hDn : D ≠ [])
    (hlo : lo D (D.length - 1) ≤ clo) (hhi : chi ≤ hi D (D.length - 1)) (hc : clo < chi)
    {l : List Range} (hl : l[i]? = some (Range.setup (slab (M ++ D) i a b))) :
    ∃ c', (do
        let le ← BC.range l (i : Int)
        let r ← le.copy.set ((le.numDims : Int) - 1) clo chi
        c.scale mul r m1) = .ok c' ∧ c.Upd c' (fun x =>
      if InBox (slab (M ++ D) i a b) x ∧ clo ≤ component x ∧ component x < chi then
        (c.arr.val x).map (fun v => mul v m1) else c.arr.val x) := by
  have hB : i < (M ++ D).length := by simp; omega
  have hpB : Pos (M ++ D) := pos_append.2 ⟨hM, hD⟩
  have hDl : 0 < D.length := List.length_pos_of_ne_nil hDn
  obtain ⟨n, hn⟩ : ∃ n, (M ++ D).length = n + 1 := ⟨(M ++ D).length - 1, by omega⟩
  have hin : i < n := by simp at hn; omega
  have hnS : n < (slab (M ++ D) i a b).length := by rw [slab_length]; omega
  have hnM : M.length ≤ n := by simp at hn; omega
  have hnD : n - M.length = D.length - 1 := by simp at hn; omega
  have hloB : lo (M ++ D) n = lo D (D.length - 1) := by rw [lo_append_right hnM, hnD]
  have hhiB : hi (M ++ D) n = hi D (D.length - 1) := by rw [hi_append_right hnM, hnD]
  have hset : (Range.setup (slab (M ++ D) i a b)).copy.set
      (((Range.setup (slab (M ++ D) i a b)).numDims : Int) - 1) clo chi =
      .ok (Range.setup (slab (slab (M ++ D) i a b) n clo chi)) := by
    have e : ((Range.setup (slab (M ++ D) i a b)).numDims : Int) - 1 = (n : Int) := by
      unfold Range.numDims; simp only [Range.setup_dims, slab_length]; omega
    rw [e, Range.copy_setup, set_setup hnS]
  have hmem : ∀ x, InBox (slab (slab (M ++ D) i a b) n clo chi) x ↔
      InBox (slab (M ++ D) i a b) x ∧ clo ≤ component x ∧ component x < chi := by
    intro x
    rw [inBox_slab hnS, slab_length]
    constructor
    · rintro ⟨h1, h2, h3, h4⟩
      rw [getLastD_eq_getD (h1.trans hn)]
      refine ⟨?_, h2, h3⟩
      rw [inBox_iff, slab_length]
      refine ⟨h1, ?_⟩
      intro j hj
      by_cases e : j = n
      · subst e
        rw [lo_slab hB, hi_slab hB, if_neg (by omega), if_neg (by omega), hloB, hhiB]
        omega
      · exact h4 j hj e
    · rintro ⟨h1, h2, h3⟩
      rw [inBox_iff, slab_length] at h1
      rw [getLastD_eq_getD (h1.1.trans hn)] at h2 h3
      exact ⟨h1.1, h2, h3, fun j hj _ => h1.2 j hj⟩
  have hw : Range.Within c.arr.rng.dims (slab (slab (M ++ D) i a b) n clo chi) := by
    have h0 := within_slab (D := D) (by omega : 0 ≤ g) hi' ha hb
    rw [h.dims]
    rw [within_iff] at h0 ⊢
    refine ⟨by rw [slab_length]; exact h0.1, ?_⟩
    intro j hj
    have := h0.2 j hj
    rw [lo_slab hnS, hi_slab hnS]
    by_cases e : j = n
    · subst e
      rw [if_pos rfl, if_pos rfl]
      have hg1 : (grow g M).length ≤ j := by rw [grow_length]; exact hnM
      rw [lo_append_right hg1, hi_append_right hg1, grow_length, hnD]
      exact ⟨hlo, hhi⟩
    · rw [if_neg e, if_neg e]; exact this
  obtain ⟨A, e1, e2, e3, e4⟩ := scale_spec mul h.wf (h.ne hi')
    (r := Range.setup (slab (slab (M ++ D) i a b) n clo chi)) hw
    (pos_slab (pos_slab hpB hB hab) hnS hc) m1
  refine ⟨{ c with arr := A }, ?_, rfl, e2, e3, ?_⟩
  · unfold BC.range
    rw [vget_of_getElem? hl, Res.ok_bind, hset, Res.ok_bind, e1]
  · intro x hx
    rw [e4 x hx]
    simp only [Range.setup_dims, hmem]

/-- The factor applied by a wall condition to a ghost cell. -/
def wallFactor (mul : α → α → α) (m1 : α) (clo chi : Int) (x : Cell) (v : α) : α :=
  if clo ≤ component x ∧ component x < chi then mul v m1 else v

theorem wallDim_upd (mul : α → α → α) (m1 : α) (h : c.Layout g M D) (hg : 1 ≤ g) (hM : Pos M) (hD : Pos D)
    (hi' : i < M.length) (hN : g ≤ hi M i - lo M i) {clo chi : Int} (hDn : D ≠ [])
    (hlo : lo D (D.length - 1) ≤ clo) (hhi : chi ≤ hi D (D.length - 1)) (hc : clo < chi) :
    ∃ c', BC.wallDim mul m1 clo chi c i = .ok c' ∧ c.Upd c' (fun x => if FaceGhost g (M ++ D) i x then
      (c.arr.val (mirrorImage g (M ++ D) i x)).map (wallFactor mul m1 clo chi x) else c.arr.val x) := by
  have hB : i < (M ++ D).length := by simp; omega
  obtain ⟨c1, e1, u1⟩ := copyOutDim_upd h (by omega) hM hD hi' hN
  have h1 := u1.layout h
  obtain ⟨c2, e2, u2⟩ := flip_upd mul m1 h1 hg hM hD hi' (by omega) (by omega) (by omega) hDn hlo hhi hc (h1.lowExt i hi')
  have h2 := u2.layout h1
  obtain ⟨c3, e3, u3⟩ := flip_upd mul m1 h2 hg hM hD hi' (by omega) (by omega) (by omega) hDn hlo hhi hc (h2.upExt i hi')
  refine ⟨c3, ?_, ((u1.trans u2).trans u3).congr ?_⟩
  · unfold BC.wallDim
    rw [e1, Res.ok_bind]
    unfold BC.flip
    have : ∀ (x : Res Range) (k : Range → Res Range) (s : Range → Res (Chunk α)) (t : Chunk α → Res (Chunk α)),
        (do let le ← x
            let r ← k le
            let c ← s r
            t c) = (do let c ← (do let le ← x; let r ← k le; s r); t c) := by
      intro x k s t
      simp only [bind_assoc]
    rw [this, e2, Res.ok_bind, e3]
  · intro x hx
    have eL : LowGhost g (M ++ D) i x ↔ InBox (slab (M ++ D) i (lo M i - g) (lo M i)) x := by
      unfold LowGhost; rw [lo_append hi']
    have eU : UpGhost g (M ++ D) i x ↔ InBox (slab (M ++ D) i (hi M i) (hi M i + g)) x := by
      unfold UpGhost; rw [hi_append hi']
    have hx1 : InBox c1.arr.rng.dims x := by rw [u1.rng]; exact hx
    rw [u2.val x hx1, u1.val x hx]
    have hdis : ¬ (InBox (slab (M ++ D) i (lo M i - g) (lo M i)) x ∧ InBox (slab (M ++ D) i (hi M i) (hi M i + g)) x) := by
      rintro ⟨hl, hu⟩
      have a1 := (inBox_slab hB _ _ _).1 hl
      have a2 := (inBox_slab hB _ _ _).1 hu
      omega
    unfold wallFactor
    have eF : FaceGhost g (M ++ D) i x ↔ InBox (slab (M ++ D) i (lo M i - g) (lo M i)) x ∨
        InBox (slab (M ++ D) i (hi M i) (hi M i + g)) x := by unfold FaceGhost; rw [eL, eU]
    by_cases hl : InBox (slab (M ++ D) i (lo M i - g) (lo M i)) x <;>
    by_cases hu : InBox (slab (M ++ D) i (hi M i) (hi M i + g)) x <;>
    by_cases hcc : clo ≤ component x ∧ component x < chi <;>
    simp only [hl, hu, and_self, not_true, not_false_eq_true, and_true, true_and, and_false, false_and] at hdis <;>
    simp [eF, hl, hu, hcc]

/-- If the component interval does not fit, the flip is silently skipped. -/
theorem flip_skip (mul : α → α → α) (m1 : α) (h : c.Layout g M D) (hi' : i < M.length) {clo chi : Int} (hDn : D ≠ [])
    (hno : clo < lo D (D.length - 1) ∨ hi D (D.length - 1) < chi) : BC.flip mul m1 clo chi c i = .ok c := by
  have hDl : 0 < D.length := List.length_pos_of_ne_nil hDn
  have hB : i < (M ++ D).length := by simp; omega
  obtain ⟨n, hn⟩ : ∃ n, (M ++ D).length = n + 1 := ⟨(M ++ D).length - 1, by omega⟩
  have hnM : M.length ≤ n := by simp at hn; omega
  have hnD : n - M.length = D.length - 1 := by simp at hn; omega
  have key : ∀ a b, (do
        let r ← (Range.setup (slab (M ++ D) i a b)).copy.set
          (((Range.setup (slab (M ++ D) i a b)).numDims : Int) - 1) clo chi
        c.scale mul r m1) = .ok c := by
    intro a b
    have hnS : n < (slab (M ++ D) i a b).length := by rw [slab_length]; omega
    have e : ((Range.setup (slab (M ++ D) i a b)).numDims : Int) - 1 = (n : Int) := by
      unfold Range.numDims; simp only [Range.setup_dims, slab_length]; omega
    rw [e, Range.copy_setup, set_setup hnS, Res.ok_bind]
    apply scale_outside
    intro hw
    rw [h.dims] at hw
    have := ((within_iff _ _).1 hw).2 n (by simp at hn ⊢; omega)
    simp only [Range.setup_dims] at this
    rw [lo_slab hnS, hi_slab hnS, if_pos rfl, if_pos rfl] at this
    have hg1 : (grow g M).length ≤ n := by rw [grow_length]; exact hnM
    rw [lo_append_right hg1, hi_append_right hg1, grow_length, hnD] at this
    omega
  unfold BC.flip BC.range
  rw [vget_of_getElem? (h.lowExt i hi'), Res.ok_bind]
  have k1 := key (lo M i - g) (lo M i)
  have k2 := key (hi M i) (hi M i + g)
  have assoc : ∀ (x : Res Range) (s : Range → Res (Chunk α)) (t : Chunk α → Res (Chunk α)),
      (do let r ← x
          let c ← s r
          t c) = (do let c ← (do let r ← x; s r); t c) := by
    intro x s t
    simp only [bind_assoc]
  rw [assoc, k1, Res.ok_bind, vget_of_getElem? (h.upExt i hi'), Res.ok_bind, k2]

end QK

namespace QK
open Spec
variable {α : Type} {c : Chunk α} {g : Int} {M D : Box} {i : Nat}

theorem Chunk.Upd.sameShape {c c' : Chunk α} {v : Cell → Option α} (h : c.Upd c' v) (hc : c.arr.WF) :
    c.SameShape c' := by
  have h1 := h.wf.2
  have h2 := hc.2
  rw [h.rng] at h1
  refine ⟨?_, by omega⟩
  have e : c'.arr = { c.arr with data := c'.arr.data } := by
    have := h.rng
    cases hA : c'.arr; rw [hA] at this; simp_all
  rw [h.eq]
  simp only
  rw [← e]

theorem faceGhost_in_array (hg : 0 ≤ g) (hM : Pos M) (hi' : i < M.length) {x : Cell}
    (h : FaceGhost g (M ++ D) i x) : InBox (grow g M ++ D) x := by
  have := (pos_iff M).1 hM i hi'
  rcases h with h | h
  · unfold LowGhost at h
    rw [lo_append hi'] at h
    exact inBox_grow hg hi' (le_refl _) (by omega) h
  · unfold UpGhost at h
    rw [hi_append hi'] at h
    exact inBox_grow hg hi' (by omega) (le_refl _) h

/-- Everything the boundary conditions have in common. -/
def BCSpec (g : Int) (M D : Box) (op : Chunk α → Int → Res (Chunk α)) (src : Nat → Cell → Cell) (f : Cell → α → α)
    (ds : List Nat) (c : Chunk α) : Prop :=
    ∃ c', (ds.map (Nat.cast : Nat → Int)).foldlM op c = .ok c' ∧ c.SameShape c' ∧
      (∀ i ∈ ds, ∀ x, FaceGhost g (M ++ D) i x → c'.arr.val x = (c.arr.val (src i x)).map (f x)) ∧
      (∀ x, InBox (grow g M ++ D) x → (∀ i ∈ ds, ¬ FaceGhost g (M ++ D) i x) → c'.arr.val x = c.arr.val x) ∧
      (∀ x, InBox (M ++ D) x → c'.arr.val x = c.arr.val x) ∧
      (ds.map (Nat.cast : Nat → Int)).foldlM op c' = .ok c' ∧
      ∀ es : List Nat, (∀ i, i ∈ es ↔ i ∈ ds) → (es.map (Nat.cast : Nat → Int)).foldlM op c = .ok c'

theorem bc_all {op : Chunk α → Int → Res (Chunk α)} {src : Nat → Cell → Cell} {f : Cell → α → α}
    (hg : 0 ≤ g) (hM : Pos M) (hD : Pos D) (ok : Nat → Prop)
    (hop : ∀ (c : Chunk α), c.Layout g M D → ∀ i, ok i → i < M.length → ∃ c', op c i = .ok c' ∧
      c.Upd c' (fun x => if FaceGhost g (M ++ D) i x then (c.arr.val (src i x)).map (f x) else c.arr.val x))
    (hsrc : ∀ i, ok i → i < M.length → ∀ x, FaceGhost g (M ++ D) i x → InBox (M ++ D) (src i x))
    (ds : List Nat) (hds : ∀ i ∈ ds, i < M.length ∧ ok i) (c : Chunk α) (h : c.Layout g M D) :
    BCSpec g M D op src f ds c := by
  have hds' : ∀ i ∈ ds, ok i ∧ i < M.length := fun i hi => (hds i hi).symm
  obtain ⟨c1, e1, u1, g1, n1⟩ := bc_fold hg ok hop hsrc ds hds' c h
  have h1 := u1.layout h
  have hpB : Pos (M ++ D) := pos_append.2 ⟨hM, hD⟩
  have hS : ∀ i ∈ ds, ∀ x, FaceGhost g (M ++ D) i x → InBox (M ++ D) (src i x) :=
    fun i hi => hsrc i (hds i hi).2 (hds i hi).1
  refine ⟨c1, e1, u1.sameShape h.wf, ?_, ?_, ?_, ?_, ?_⟩
  · intro i hi x hx
    exact g1 i hi x (by rw [h.dims]; exact faceGhost_in_array hg hM (hds i hi).1 hx) hx
  · intro x hx; exact n1 x (by rw [h.dims]; exact hx)
  · intro x hx
    apply n1 x (by rw [h.dims]; exact inBox_interior hg hx)
    intro i hi hgi
    exact faceGhost_not_interior (by have := (hds i hi).1; simp; omega) hgi hx
  · obtain ⟨c2, e2, u2, g2, n2⟩ := bc_fold hg ok hop hsrc ds hds' c1 h1
    by_cases hM0 : M = []
    · have : ds = [] := by
        cases ds with
        | nil => rfl
        | cons i _ => have := (hds i List.mem_cons_self).1; rw [hM0] at this; simp at this
      subst this; rfl
    · rw [e2, bc_same h hg hpB (fun i hi => (hds i hi).1) hM0 (fun _ => Iff.rfl) hS u1 u2 u1.eq u1.rng n1 g1 n1 g2 n2]
  · intro es hes
    have hes' : ∀ i ∈ es, ok i ∧ i < M.length := fun i hi => hds' i ((hes i).1 hi)
    obtain ⟨c2, e2, u2, g2, n2⟩ := bc_fold hg ok hop hsrc es hes' c h
    by_cases hM0 : M = []
    · have h1 : ds = [] := by
        cases ds with
        | nil => rfl
        | cons i _ => have := (hds i List.mem_cons_self).1; rw [hM0] at this; simp at this
      subst h1
      have : es = [] := by
        cases es with
        | nil => rfl
        | cons i _ => exact absurd ((hes i).1 List.mem_cons_self) (by simp)
      subst this; exact e1
    · rw [e2, bc_same h hg hpB (fun i hi => (hes' i hi).2) hM0 (fun i => (hes i).symm) hS u1 u2 rfl rfl
        (fun _ _ _ => rfl) g1 n1 g2 n2]

theorem wallDim_skip (mul : α → α → α) (m1 : α) (h : c.Layout g M D) (hg : 1 ≤ g) (hM : Pos M) (hD : Pos D)
    (hi' : i < M.length) (hN : g ≤ hi M i - lo M i) {clo chi : Int} (hDn : D ≠ [])
    (hno : clo < lo D (D.length - 1) ∨ hi D (D.length - 1) < chi) :
    BC.wallDim mul m1 clo chi c i = BC.copyOutDim c i := by
  obtain ⟨c1, e1, u1⟩ := copyOutDim_upd h (by omega) hM hD hi' hN
  unfold BC.wallDim
  rw [e1, Res.ok_bind, flip_skip mul m1 (u1.layout h) hi' hDn hno]

theorem map_id' (o : Option α) : o.map (fun v => v) = o := by cases o <;> rfl


theorem periodic_all (h : c.Layout g M D) (hg : 1 ≤ g) (hM : Pos M) (hD : Pos D) {ds : List Nat}
    (hds : ∀ i ∈ ds, i < M.length ∧ g ≤ hi M i - lo M i) :
    BCSpec g M D (BC.periodicDim) (periodicImage g (M ++ D)) (fun (_ : Cell) (v : α) => v) ds c :=
  bc_all (op := BC.periodicDim) (src := periodicImage g (M ++ D)) (f := fun (_ : Cell) (v : α) => v)
    (by omega : 0 ≤ g) hM hD (fun i => g ≤ hi M i - lo M i)
    (fun c hc i hok hi' => by
      obtain ⟨c', e, u⟩ := periodicDim_upd hc hg hM hD hi' hok
      exact ⟨c', e, u.congr (fun x _ => by simp only [map_id'])⟩)
    (fun i hok hi' x hx => periodicImage_interior (by simp; omega) (by rw [lo_append hi', hi_append hi']; exact hok) hx)
    ds hds c h

theorem copyOut_all (h : c.Layout g M D) (hg : 0 ≤ g) (hM : Pos M) (hD : Pos D) {ds : List Nat}
    (hds : ∀ i ∈ ds, i < M.length ∧ g ≤ hi M i - lo M i) :
    BCSpec g M D (BC.copyOutDim) (mirrorImage g (M ++ D)) (fun (_ : Cell) (v : α) => v) ds c :=
  bc_all (op := BC.copyOutDim) (src := mirrorImage g (M ++ D)) (f := fun (_ : Cell) (v : α) => v)
    (by omega : 0 ≤ g) hM hD (fun i => g ≤ hi M i - lo M i)
    (fun c hc i hok hi' => by
      obtain ⟨c', e, u⟩ := copyOutDim_upd hc hg hM hD hi' hok
      exact ⟨c', e, u.congr (fun x _ => by simp only [map_id'])⟩)
    (fun i hok hi' x hx => mirrorImage_interior (by simp; omega) (by rw [lo_append hi', hi_append hi']; exact hok) hx)
    ds hds c h

theorem wall_all (mul : α → α → α) (m1 : α) (h : c.Layout g M D) (hg : 1 ≤ g) (hM : Pos M) (hD : Pos D)
    {clo chi : Int} (hDn : D ≠ []) (hlo : lo D (D.length - 1) ≤ clo) (hhi : chi ≤ hi D (D.length - 1)) (hc : clo < chi)
    {ds : List Nat} (hds : ∀ i ∈ ds, i < M.length ∧ g ≤ hi M i - lo M i) :
    BCSpec g M D (BC.wallDim mul m1 clo chi) (mirrorImage g (M ++ D)) (wallFactor mul m1 clo chi) ds c :=
  bc_all (op := BC.wallDim mul m1 clo chi) (src := mirrorImage g (M ++ D)) (f := wallFactor mul m1 clo chi)
    (by omega : 0 ≤ g) hM hD (fun i => g ≤ hi M i - lo M i)
    (fun c hc' i hok hi' => wallDim_upd mul m1 hc' hg hM hD hi' hok hDn hlo hhi hc)
    (fun i hok hi' x hx => mirrorImage_interior (by simp; omega) (by rw [lo_append hi', hi_append hi']; exact hok) hx)
    ds hds c h

theorem wall_skip_all (mul : α → α → α) (m1 : α) (h : c.Layout g M D) (hg : 1 ≤ g) (hM : Pos M) (hD : Pos D)
    {clo chi : Int} (hDn : D ≠ []) (hno : clo < lo D (D.length - 1) ∨ hi D (D.length - 1) < chi)
    {ds : List Nat} (hds : ∀ i ∈ ds, i < M.length ∧ g ≤ hi M i - lo M i) :
    BCSpec g M D (BC.wallDim mul m1 clo chi) (mirrorImage g (M ++ D)) (fun (_ : Cell) (v : α) => v) ds c :=
  bc_all (op := BC.wallDim mul m1 clo chi) (src := mirrorImage g (M ++ D)) (f := fun (_ : Cell) (v : α) => v)
    (by omega : 0 ≤ g) hM hD (fun i => g ≤ hi M i - lo M i)
    (fun c hc' i hok hi' => by
      obtain ⟨c', e, u⟩ := copyOutDim_upd hc' (by omega) hM hD hi' hok
      refine ⟨c', ?_, u.congr (fun x _ => by simp only [map_id'])⟩
      rw [wallDim_skip mul m1 hc' hg hM hD hi' hok hDn hno, e])
    (fun i hok hi' x hx => mirrorImage_interior (by simp; omega) (by rw [lo_append hi', hi_append hi']; exact hok) hx)
    ds hds c h


end QK
