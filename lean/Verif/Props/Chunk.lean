import Verif.Proofs.BC
/-
Properties of the chunk layout: C18.
-/
namespace QK.Props
open Spec
variable {α : Type}

/-- **C18** `extended_datachunk::resize` establishes the layout (`Chunk.Layout`), whatever the chunk
held before. All named ranges are inside the allocation, external cells are never internal, and the
external ranges of different faces have no cell in common. -/
theorem C18_layout (zero : α) (c : Chunk α) {mesh dataR : Range} {g : Int}
    (hg : 0 ≤ g) (hM : Pos mesh.dims) (hD : Pos dataR.dims) :
    ∃ c', c.resize zero mesh dataR g = .ok c' ∧ c'.Layout g mesh.dims dataR.dims ∧
      c'.mesh.dims = grow g mesh.dims ∧ c'.dataR.dims = dataR.dims ∧
      -- one entry per mesh dimension
      (c'.lowExt.length = mesh.dims.length ∧ c'.lowInt.length = mesh.dims.length ∧
        c'.upInt.length = mesh.dims.length ∧ c'.upExt.length = mesh.dims.length) ∧
      -- every named range lies in the allocation
      (∀ r, r = c'.internal ∨ r ∈ c'.lowExt ∨ r ∈ c'.lowInt ∨ r ∈ c'.upInt ∨ r ∈ c'.upExt →
        c'.arr.rng.includes r = true) ∧
      -- external cells are not internal
      (∀ r ∈ c'.lowExt ++ c'.upExt, ∀ x, InBox r.dims x → ¬ InBox c'.internal.dims x) ∧
      -- different faces share no cell
      (∀ (i j : Nat) r q, (c'.lowExt ++ c'.upExt)[i]? = some r → (c'.lowExt ++ c'.upExt)[j]? = some q → i ≠ j →
        ∀ x, ¬ (InBox r.dims x ∧ InBox q.dims x)) := by
  obtain ⟨c', h0, hl, h1, h2, h3, h4, h5, h6, _⟩ := resize_layout zero c hg hM hD
  have hlen : ∀ {i : Nat}, i < mesh.dims.length → i < (mesh.dims ++ dataR.dims).length := by
    intro i hi; simp; omega
  have hmp := (pos_iff mesh.dims).1 hM
  have hext : ∀ (i : Nat) r, (c'.lowExt ++ c'.upExt)[i]? = some r →
      (i < mesh.dims.length ∧ r = Range.setup (slab (mesh.dims ++ dataR.dims) i (lo mesh.dims i - g) (lo mesh.dims i))) ∨
      (mesh.dims.length ≤ i ∧ i - mesh.dims.length < mesh.dims.length ∧
        r = Range.setup (slab (mesh.dims ++ dataR.dims) (i - mesh.dims.length) (hi mesh.dims (i - mesh.dims.length))
          (hi mesh.dims (i - mesh.dims.length) + g))) := by
    intro i r hr
    by_cases hi : i < mesh.dims.length
    · left
      rw [List.getElem?_append_left (by omega), hl.lowExt i hi] at hr
      exact ⟨hi, (Option.some.inj hr).symm⟩
    · right
      rw [List.getElem?_append_right (by omega), h3] at hr
      have hlt : i - mesh.dims.length < mesh.dims.length := by
        have := (List.getElem?_eq_some_iff.1 hr).1
        omega
      rw [hl.upExt _ hlt] at hr
      exact ⟨by omega, hlt, (Option.some.inj hr).symm⟩
  refine ⟨c', h0, hl, h1, h2, ⟨h3, h4, h5, h6⟩, ?_, ?_, ?_⟩
  · intro r hr
    rw [Range.includes_iff, hl.dims]
    have key : ∀ (l : List Range) (a b : Nat → Int), l.length = mesh.dims.length →
        (∀ i, i < mesh.dims.length → l[i]? = some (Range.setup (slab (mesh.dims ++ dataR.dims) i (a i) (b i)))) →
        (∀ i, i < mesh.dims.length → lo mesh.dims i - g ≤ a i ∧ b i ≤ hi mesh.dims i + g) →
        r ∈ l → Range.Within (grow g mesh.dims ++ dataR.dims) r.dims := by
      intro l a b hll hget hab hmem
      obtain ⟨i, hi⟩ := List.mem_iff_getElem?.1 hmem
      have hlt : i < mesh.dims.length := by
        have := (List.getElem?_eq_some_iff.1 hi).1; omega
      rw [hget i hlt] at hi
      rw [← Option.some.inj hi]
      exact within_slab hg hlt (hab i hlt).1 (hab i hlt).2
    rcases hr with hr | hr | hr | hr | hr
    · rw [hr, hl.internal]
      rw [within_iff]
      refine ⟨by simp, ?_⟩
      intro j hj
      by_cases hjm : j < mesh.dims.length
      · have hjg : j < (grow g mesh.dims).length := by simpa using hjm
        simp only [Range.setup_dims]
        rw [lo_append hjg, hi_append hjg, lo_append hjm, hi_append hjm, lo_grow hjm, hi_grow hjm]
        omega
      · have hjm' : mesh.dims.length ≤ j := by omega
        have hjg : (grow g mesh.dims).length ≤ j := by rw [grow_length]; omega
        simp only [Range.setup_dims]
        rw [lo_append_right hjg, hi_append_right hjg, lo_append_right hjm', hi_append_right hjm', grow_length]
        exact ⟨le_refl _, le_refl _⟩
    · exact key _ _ _ h3 hl.lowExt (fun i hi => by have := hmp i hi; omega) hr
    · exact key _ _ _ h4 hl.lowInt (fun i hi => by have := hmp i hi; omega) hr
    · exact key _ _ _ h5 hl.upInt (fun i hi => by have := hmp i hi; omega) hr
    · exact key _ _ _ h6 hl.upExt (fun i hi => by have := hmp i hi; omega) hr
  · intro r hr x hx hin
    obtain ⟨i, hi⟩ := List.mem_iff_getElem?.1 hr
    rw [hl.internal] at hin
    rcases hext i r hi with ⟨hlt, rfl⟩ | ⟨_, hlt, rfl⟩
    · refine faceGhost_not_interior (g := g) (hlen hlt) (.inl ?_) hin
      unfold LowGhost; rw [lo_append hlt]; exact hx
    · refine faceGhost_not_interior (g := g) (hlen hlt) (.inr ?_) hin
      unfold UpGhost; rw [hi_append hlt]; exact hx
  · rintro i j r q hr hq hne x ⟨hxr, hxq⟩
    rcases hext i r hr with ⟨hi, rfl⟩ | ⟨hi0, hi, rfl⟩ <;> rcases hext j q hq with ⟨hj, rfl⟩ | ⟨hj0, hj, rfl⟩
    · have a : FaceGhost g (mesh.dims ++ dataR.dims) i x := .inl (by unfold LowGhost; rw [lo_append hi]; exact hxr)
      have b : FaceGhost g (mesh.dims ++ dataR.dims) j x := .inl (by unfold LowGhost; rw [lo_append hj]; exact hxq)
      exact hne (faceGhost_unique (hlen hi) (hlen hj) a b)
    · have a : FaceGhost g (mesh.dims ++ dataR.dims) i x := .inl (by unfold LowGhost; rw [lo_append hi]; exact hxr)
      have b : FaceGhost g (mesh.dims ++ dataR.dims) (j - mesh.dims.length) x :=
        .inr (by unfold UpGhost; rw [hi_append hj]; exact hxq)
      have e := faceGhost_unique (hlen hi) (hlen hj) a b
      rw [← e] at hxq
      have a1 := (inBox_slab (hlen hi) _ _ _).1 hxr
      have a2 := (inBox_slab (hlen hi) _ _ _).1 hxq
      have := hmp i hi
      omega
    · have a : FaceGhost g (mesh.dims ++ dataR.dims) (i - mesh.dims.length) x :=
        .inr (by unfold UpGhost; rw [hi_append hi]; exact hxr)
      have b : FaceGhost g (mesh.dims ++ dataR.dims) j x := .inl (by unfold LowGhost; rw [lo_append hj]; exact hxq)
      have e := faceGhost_unique (hlen hi) (hlen hj) a b
      rw [e] at hxr
      have a1 := (inBox_slab (hlen hj) _ _ _).1 hxr
      have a2 := (inBox_slab (hlen hj) _ _ _).1 hxq
      have := hmp j hj
      omega
    · have a : FaceGhost g (mesh.dims ++ dataR.dims) (i - mesh.dims.length) x :=
        .inr (by unfold UpGhost; rw [hi_append hi]; exact hxr)
      have b : FaceGhost g (mesh.dims ++ dataR.dims) (j - mesh.dims.length) x :=
        .inr (by unfold UpGhost; rw [hi_append hj]; exact hxq)
      have e := faceGhost_unique (hlen hi) (hlen hj) a b
      omega

-- a 3 × 2 mesh, one basis point, two components, two ghost layers
example : (0:Int) ≤ 2 ∧ Pos (Range.setup [(0, 3), (0, 2)]).dims ∧ Pos (Range.setup [(0, 1), (0, 2)]).dims ∧
    ∃ c : Chunk Int, (Chunk.default.resize 0 (Range.setup [(0, 3), (0, 2)]) (Range.setup [(0, 1), (0, 2)]) 2) = .ok c ∧
      c.arr.rng.dims = [(-2, 5), (-2, 4), (0, 1), (0, 2)] ∧ c.arr.data.length = 84 ∧
      (c.upExt[1]?).map Range.dims = some [(0, 3), (2, 4), (0, 1), (0, 2)] := by
  refine ⟨by decide, by decide, by decide, ?_⟩
  obtain ⟨c, h, hl, _⟩ := C18_layout (0:Int) Chunk.default (mesh := Range.setup [(0, 3), (0, 2)])
    (dataR := Range.setup [(0, 1), (0, 2)]) (g := 2) (by decide) (by decide) (by decide)
  refine ⟨c, h, by rw [hl.dims]; decide, ?_, by rw [hl.upExt 1 (by decide)]; decide⟩
  have := hl.arr_size
  rw [hl.arr_range] at this
  have e : (Range.setup (grow 2 [(0, 3), (0, 2)] ++ [(0, 1), (0, 2)])).volume = 84 := by decide
  have e' : (c.arr.data.length : Int) = 84 := this.trans e
  omega

end QK.Props
