import Verif.Model.Variable
import Verif.Proofs.BC
import Mathlib.Tactic.IntervalCases
/- Lemmas about variable ids and variables. -/
namespace QK
open Spec

/-! ### The single chunk of a variable -/

/-- The range of chunk numbers of a variable on `n` mesh dimensions. -/
def chunkBox (n : Nat) : Box := List.replicate n (0, 1)

theorem cells_chunkBox (n : Nat) : cells (chunkBox n) = [List.replicate n 0] := by
  induction n with
  | zero => rfl
  | succ n ih =>
    unfold chunkBox at *
    simp only [List.replicate_succ, cells, ih]
    rfl

theorem pos_chunkBox (n : Nat) : Pos (chunkBox n) := by
  intro d hd
  rw [chunkBox, List.mem_replicate] at hd
  rw [hd.2]; decide

theorem offset_chunkBox (n : Nat) : offset (chunkBox n) (List.replicate n 0) = 0 := by
  induction n with
  | zero => rfl
  | succ n ih =>
    have : chunkBox (n + 1) = (0, 1) :: chunkBox n := rfl
    rw [this, List.replicate_succ, offset_cons (by simp [chunkBox]), ih]; simp

theorem boxVolume_chunkBox (n : Nat) : boxVolume (chunkBox n) = 1 := by
  induction n with
  | zero => rfl
  | succ n ih =>
    have : chunkBox (n + 1) = (0, 1) :: chunkBox n := rfl
    rw [this, boxVolume_cons, ih]; rfl

/-- The data range of a variable. -/
def dataBox (points : Int) (ncomp : Nat) : Box := [(0, points), (0, (ncomp : Int))]

theorem boxVolume_dataBox (p : Int) (n : Nat) : boxVolume (dataBox p n) = p * n := by
  simp [dataBox, boxVolume_nil]

theorem Var.make_spec {α : Type} (zero : α) (name : String) (comps : List String) (basis : Basis) {mesh : Range}
    {g : Int} (hg : 0 ≤ g) (hn : mesh.dims ≠ []) (hM : Pos mesh.dims) (hp : 0 ≤ basis.points) :
    ∃ c, Chunk.default.resize zero mesh (Range.setup (dataBox basis.points comps.length)) g = .ok c ∧
      Var.make zero name comps basis mesh g = .ok
        { name, comps, basis, dataR := Range.setup (dataBox basis.points comps.length), meshGlobal := mesh.copy,
          chunks := ⟨Range.setup (chunkBox mesh.dims.length), [c]⟩ } ∧
      c.Layout g mesh.dims (dataBox basis.points comps.length) ∧
      c.arr.data = List.replicate c.arr.rng.volume.toNat zero := by
  have hv : (0:Int) ≤ boxVolume (Range.setup (dataBox basis.points comps.length)).dims := by
    rw [Range.setup_dims, boxVolume_dataBox]; positivity
  obtain ⟨c, h1, h2, _, _, _, _, _, _, h3⟩ := resize_layout_nonneg zero (Chunk.default : Chunk α) (mesh := mesh.copy) hg hM hv
  have hmc : Chunk.default.resize zero mesh.copy (Range.setup (dataBox basis.points comps.length)) g =
      Chunk.default.resize zero mesh (Range.setup (dataBox basis.points comps.length)) g := rfl
  refine ⟨c, hmc ▸ h1, ?_, h2, by simpa [Chunk.default] using h3⟩
  have hvol : mesh.copy.volume > 0 := by
    have : mesh.copy = Range.setup mesh.dims := rfl
    rw [this, Range.volume_setup hn]; exact boxVolume_pos hM
  have hcr : Chunk.extrudeAll .empty (List.replicate mesh.copy.numDims ((0:Int), (1:Int))) =
      Range.setup (chunkBox mesh.dims.length) := by
    rw [extrudeAll_eq (r := .empty) rfl]; rfl
  have hne : chunkBox mesh.dims.length ≠ [] := by
    intro e
    have := congrArg List.length e
    simp only [chunkBox, List.length_replicate, List.length_nil] at this
    exact hn (List.length_eq_zero_iff.1 this)
  have hmk : IFace.make (Chunk.default : Chunk α) (Range.setup (chunkBox mesh.dims.length)) =
      .ok ⟨Range.setup (chunkBox mesh.dims.length), [Chunk.default]⟩ := by
    unfold IFace.make IFace.resize IFace.vresize
    simp only [Range.copy_setup, Range.volume_setup hne, boxVolume_chunkBox]
    rfl
  have hdr : (Range.empty.extrude 0 basis.points).extrude 0 (comps.length : Int) =
      Range.setup (dataBox basis.points comps.length) := rfl
  unfold Var.make
  simp only [hdr]
  rw [if_pos hvol, hcr, hmk, Res.ok_bind]
  have : vget [(Chunk.default : Chunk α)] 0 = .ok Chunk.default := rfl
  rw [this, Res.ok_bind, h1, Res.ok_bind]
  rfl

/-! ### The order on ids -/

theorem Basis.ext' {a b : Basis} (h1 : a.name = b.name) (h2 : a.points = b.points) : a = b := by
  cases a; cases b; simp_all

theorem VarId.ext' {a b : VarId} (h1 : a.name = b.name) (h2 : a.comps = b.comps) (h3 : a.basis = b.basis) : a = b := by
  cases a; cases b; simp_all

theorem VarId.lt_of_name {a b : VarId} (h : a.name = b.name → a = b) : a.lt b = .ok (decide (a.name < b.name)) := by
  unfold VarId.lt
  by_cases h1 : a.name < b.name
  · simp [h1]
  · by_cases h2 : b.name < a.name
    · simp [h1, h2]
    · have e : a.name = b.name := le_antisymm (not_lt.1 h2) (not_lt.1 h1)
      have e' := h e
      subst e'
      simp [Basis.lt]

/-! ### Decimal numbers -/

theorem digit_toNat {n : Nat} (h : n < 10) : (VarId.digit n).toNat = 48 + n := by
  interval_cases n <;> rfl

theorem digit_isDigit {n : Nat} (h : n < 10) : (VarId.digit n).isDigit = true := by
  interval_cases n <;> rfl

theorem decimal_isDigit (n : Nat) : ∀ c ∈ VarId.decimal n, c.isDigit = true := by
  induction n using Nat.strong_induction_on with
  | _ n ih =>
    intro c hc
    rw [VarId.decimal] at hc
    split at hc
    · rename_i h
      rw [List.mem_singleton] at hc
      rw [hc]; exact digit_isDigit h
    · rw [List.mem_append, List.mem_singleton] at hc
      rcases hc with hc | hc
      · exact ih _ (by omega) c hc
      · rw [hc]; exact digit_isDigit (Nat.mod_lt _ (by decide))

/-- The number a digit string denotes. -/
def readDecimal (l : List Char) : Nat := l.foldl (fun n c => n * 10 + (c.toNat - 48)) 0

theorem readDecimal_decimal (n : Nat) : readDecimal (VarId.decimal n) = n := by
  induction n using Nat.strong_induction_on with
  | _ n ih =>
    rw [VarId.decimal]
    split
    · rename_i h
      simp [readDecimal, digit_toNat h]
    · rename_i h
      have := ih (n / 10) (by omega)
      unfold readDecimal at this ⊢
      rw [List.foldl_append, this]
      simp only [List.foldl_cons, List.foldl_nil, digit_toNat (Nat.mod_lt n (by decide : 0 < 10))]
      omega

theorem clone_name_toList (tag : Nat) (v : VarId) :
    (VarId.uniqueClone tag v).1.name.toList = v.name.toList ++ "_clone_".toList ++ VarId.decimal tag := by
  simp [VarId.uniqueClone]

/-- The digits at the end of a clone's name are its tag. -/
theorem clone_name_tag (tag : Nat) (v : VarId) :
    readDecimal ((VarId.uniqueClone tag v).1.name.toList.reverse.takeWhile Char.isDigit).reverse = tag := by
  rw [clone_name_toList]
  have h1 : (v.name.toList ++ "_clone_".toList ++ VarId.decimal tag).reverse =
      (VarId.decimal tag).reverse ++ ('_' :: "enolc_".toList ++ v.name.toList.reverse) := by
    rw [List.reverse_append, List.reverse_append]; rfl
  rw [h1, List.takeWhile_append_of_pos]
  · have : List.takeWhile Char.isDigit ('_' :: "enolc_".toList ++ v.name.toList.reverse) = [] := rfl
    rw [this, List.append_nil, List.reverse_reverse, readDecimal_decimal]
  · intro c hc
    exact decimal_isDigit tag c (List.mem_reverse.1 hc)

end QK
