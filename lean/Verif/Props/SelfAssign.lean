import Verif.Proofs.Chunk
/- Property C78: self-assignment of ranges and data chunks. -/
namespace QK.Props
open QK Spec

private theorem selfCopy_ok : ∀ (n : Nat) (v : List Int), n ≤ v.length → Range.selfCopy n v = .ok v := by
  intro n
  induction n with
  | zero => intro v _; rfl
  | succ n ih =>
    intro v h
    rw [Range.selfCopy, ih v (by omega), Res.ok_bind, vget_nat (by omega), Res.ok_bind, vset_nat (by omega)]
    simp

/-- **C78** is false, ranges: `r = r` forgets all bounds (even if the invalidated pointers still work). -/
theorem C78_range_false (r : Range) : ∃ q, r.assignSelf = .ok q ∧ q.dims = List.replicate r.numDims (0, 0) := by
  refine ⟨Range.setup (List.replicate r.numDims (0, 0)), ?_, rfl⟩
  rw [Range.assignSelf, selfCopy_ok _ _ (by simp), Res.ok_bind, Res.ok_bind]
  simp [List.zip_replicate']

/-- **C78**, what holds: ranges without dimensions. Missing: everything else. -/
theorem C78_partial : Range.empty.assignSelf = .ok Range.empty := rfl

/-- **C78** is false, chunks: `c = c` is undefined for every chunk with at least one dimension: the chunk is resized to
volume 0, and the copy loop is entered because an empty range includes itself. -/
theorem C78_chunk_false {α : Type} (zero : α) (c : Chunk α) (h : 0 < c.mesh.numDims + c.dataR.numDims) :
    Chunk.assignSelf zero c = .ub "vector index out of range" := by
  obtain ⟨m, hm, hmd⟩ := C78_range_false c.mesh
  obtain ⟨d, hd, hdd⟩ := C78_range_false c.dataR
  rw [Chunk.assignSelf, hm, Res.ok_bind, hd, Res.ok_bind]
  have hr : Chunk.extrudeAll m.copy d.dims = Range.setup (List.replicate (c.mesh.numDims + c.dataR.numDims) (0, 0)) := by
    rw [extrudeAll_eq (Range.copy_wf _), Range.copy_dims, hmd, hdd, List.replicate_append_replicate]
  obtain ⟨N, hN⟩ : ∃ N, c.mesh.numDims + c.dataR.numDims = N + 1 := ⟨_, (Nat.succ_pred_eq_of_pos h).symm⟩
  have hv : (Range.setup (List.replicate (N + 1) ((0 : Int), (0 : Int)))).volume = 0 := by
    rw [List.replicate_succ, Range.volume_setup_cons, boxVolume_cons]; simp
  simp only [hr, hN, IFace.resize, Range.copy_setup, IFace.vresize, hv, lt_irrefl, if_false, Res.ok_bind, Res.pure_eq]
  have hw : Range.Within (List.replicate (N + 1) ((0 : Int), (0 : Int))) (List.replicate (N + 1) (0, 0)) := Range.Within.refl _
  simp only [IFace.pullAll, IFace.pull, Option.getD_none, ne_eq, not_true_eq_false, if_false]
  rw [iter_unfold, IFace.indexer, Indexer.make_eq_at (by simp) hw]
  have hg : ∀ i, vget ([] : List α) i = .ub "vector index out of range" := by
    intro i; unfold vget; split <;> simp
  simp [IFace.pullStep, Indexer.onCell, IFace.srcGet, IFace.get, hg]

-- a chunk of one dimension with 3 cells
example : 0 < (⟨Range.setup [(0, 3)], Range.empty, ⟨Range.setup [(0, 3)], [1, 2, 3]⟩, 2, .empty, [], [], [], []⟩ :
    Chunk Int).mesh.numDims + 0 := by decide

end QK.Props
