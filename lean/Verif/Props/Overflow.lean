import Verif.Proofs.Chunk32
import Verif.Props.Program
import Verif.Props.Examples
import Verif.Props.AdvectProgram
/- Property C112: signed overflow in the creation of variables, in the kernels and in the writer; the largest meshes. -/
namespace QK.Props
open QK Spec

/-- **C112**: creating a variable on a mesh without empty dimensions, with 32-bit arithmetic: if the shape of the array (mesh
enlarged by the ghost layers, points, components) fits in 32-bit integers, the result is that of unbounded integers; otherwise a
signed overflow occurs. -/
theorem C112_create {α : Type} (zero : α) (name : String) {comps : List String} {basis : Basis} {M : Box} {g : Int} (hg : 0 ≤ g)
    (hne : M ≠ []) (hM : Pos M) (hp : 0 < basis.points) (hc : comps ≠ []) :
    (Fits32 (grow g M ++ [(0, basis.points), (0, (comps.length : Int))]) →
      ∃ v, Var.make32 zero name comps basis (Range.setup M) g = .ok v ∧ Var.make zero name comps basis (Range.setup M) g = .ok v) ∧
    (¬ Fits32 (grow g M ++ [(0, basis.points), (0, (comps.length : Int))]) →
      Var.make32 zero name comps basis (Range.setup M) g = .ub "signed overflow") := by
  obtain ⟨c, -, hv, -⟩ := Var.make_spec zero name comps basis (mesh := Range.setup M) hg (by simpa using hne) (by simpa using hM) hp.le
  refine ⟨fun h => ⟨_, ?_, hv⟩, fun h => ?_⟩
  · rw [← hv]
    refine make32_var_ok zero name comps basis hg (fun d hd => (hM d hd).le) ?_ hp.le h
    obtain ⟨d, hd⟩ := List.exists_mem_of_ne_nil M hne
    have h1 := h.1 (d.1 - g, d.2 + g) (List.mem_append_left _ (List.mem_map.2 ⟨d, hd, rfl⟩))
    have h2 := len_le_volume (pos_grow hg hM) _ (List.mem_map.2 ⟨d, hd, rfl⟩)
    have h3 := h.left.volume.2
    have h4 := hM d hd
    simp only at h2
    omega
  · rcases make32_var_chk zero name comps basis (Range.setup M) g with h1 | h1
    · exact h1
    · exact absurd (make32_var_inv hg hne hM hp hc (h1.trans hv)) h

/-- A box that starts at 0 and is enlarged by `g` fits if its size, with all data, is a 32-bit integer. -/
theorem fits_iff_size {L : List Int} (hL : ∀ l ∈ L, 1 ≤ l) {g p n : Int} (hg : 0 ≤ g) (hp : 1 ≤ p) (hn : 1 ≤ n) :
    Fits32 (grow g (L.map fun l => (0, l)) ++ [(0, p), (0, n)]) ↔ (L.map (· + 2 * g)).prod * p * n ≤ 2147483647 := by
  set b : Box := grow g (L.map fun l => (0, l)) ++ [(0, p), (0, n)] with hb
  have hM : Pos (L.map fun l => ((0 : Int), l)) := by
    intro d hd
    obtain ⟨l, hl, rfl⟩ := List.mem_map.1 hd
    have := hL l hl
    show (0 : Int) < l
    omega
  have hD : Pos [((0 : Int), p), (0, n)] := by
    intro d hd
    simp only [List.mem_cons, List.not_mem_nil, or_false] at hd
    rcases hd with rfl | rfl
    · show (0 : Int) < p
      omega
    · show (0 : Int) < n
      omega
  have hP : Pos b := pos_append.2 ⟨pos_grow hg hM, hD⟩
  have hvol : boxVolume b = (L.map (· + 2 * g)).prod * p * n := by
    rw [hb, boxVolume_append]
    have e1 : boxVolume (grow g (L.map fun l => ((0 : Int), l))) = (L.map (· + 2 * g)).prod := by
      unfold boxVolume lengths grow
      rw [List.map_map, List.map_map]
      congr 1
      refine List.map_congr_left fun l _ => ?_
      simp only [Function.comp]
      ring
    rw [e1]
    simp [boxVolume, lengths]
    ring
  have hmax : (b.map (fun d => max 1 (d.2 - d.1))).prod = boxVolume b := by
    have : b.map (fun d => max 1 (d.2 - d.1)) = lengths b := List.map_congr_left fun d hd => by
      have := hP d hd
      exact max_eq_right (by omega)
    rw [this]; rfl
  constructor
  · intro h
    rw [← hvol]
    exact h.volume.2
  · intro h
    refine ⟨fun d hd => ?_, by rw [hmax, hvol]; exact h⟩
    have h1 := len_le_volume hP d hd
    rw [hvol] at h1
    have h2 := hP d hd
    have h3 : d.1 ≤ 0 ∧ 0 ≤ d.2 := by
      rcases List.mem_append.1 hd with h4 | h4
      · obtain ⟨e, he, rfl⟩ := List.mem_map.1 h4
        obtain ⟨l, hl, rfl⟩ := List.mem_map.1 he
        have := hL l hl
        simp only
        omega
      · simp only [List.mem_cons, List.not_mem_nil, or_false] at h4
        rcases h4 with rfl | rfl <;> simp only <;> omega
    omega

/-- **C112**: on a mesh of `L` cells in its directions, starting at 0, with `g` ghost layers on each side, a variable can be created
exactly if the number of its elements is at most 2147483647; otherwise signed overflow occurs. -/
theorem C112_size {α : Type} (zero : α) (name : String) {comps : List String} {basis : Basis} {L : List Int} (hL : ∀ l ∈ L, 1 ≤ l)
    (hne : L ≠ []) {g : Int} (hg : 0 ≤ g) (hp : 0 < basis.points) (hc : comps ≠ []) :
    ((∃ v, Var.make32 zero name comps basis (Range.setup (L.map fun l => (0, l))) g = .ok v) ↔
      (L.map (· + 2 * g)).prod * basis.points * comps.length ≤ 2147483647) ∧
    (2147483647 < (L.map (· + 2 * g)).prod * basis.points * comps.length →
      Var.make32 zero name comps basis (Range.setup (L.map fun l => (0, l))) g = .ub "signed overflow") := by
  have hM : Pos (L.map fun l => ((0 : Int), l)) := by
    intro d hd
    obtain ⟨l, hl, rfl⟩ := List.mem_map.1 hd
    have := hL l hl
    show (0 : Int) < l
    omega
  have hn : (1 : Int) ≤ comps.length := by exact_mod_cast List.length_pos_iff.2 hc
  have key := fits_iff_size hL hg (show 1 ≤ basis.points from hp) hn
  obtain ⟨h1, h2⟩ := C112_create zero name (comps := comps) (basis := basis) hg (by simpa using hne) hM hp hc
  refine ⟨⟨fun ⟨v, hv⟩ => ?_, fun h => ?_⟩, fun h => h2 fun hf => absurd (key.1 hf) (by omega)⟩
  · by_contra hcon
    rw [h2 fun hf => hcon (key.1 hf)] at hv
    cases hv
  · obtain ⟨v, hv, -⟩ := h1 (key.2 h)
    exact ⟨v, hv⟩

/-- The ranges kept by a chunk: the interior and the slabs inside and outside each face. -/
def chunkRanges {α : Type} (c : Chunk α) : List Range := c.internal :: (c.lowExt ++ c.lowInt ++ c.upInt ++ c.upExt)

/-- **C112**, loops over the cells of a chunk: on an array that fits, the indexers over the interior and over all slabs, for all or
some of the components, and loops over them with any body, do not overflow. -/
theorem C112_loops {α : Type} {c : Chunk α} {g : Int} {M : Box} {p n : Int} (hl : c.Layout g M [(0, p), (0, n)]) (hg : 1 ≤ g) (hM : Pos M)
    (hp : 1 ≤ p) (h : Fits32 (grow g M ++ [(0, p), (0, n)])) {a b : Int} (ha : 0 ≤ a) (hab : a < b) (hb : b ≤ n) :
    ∀ r ∈ chunkRanges c, ∃ r', r.set32 (r.numDims - 1) a b = .ok r' ∧ r.set (r.numDims - 1) a b = .ok r' ∧
      Indexer.make32 r' c.arr.rng = .ok (Indexer.make r' c.arr.rng) ∧
      ∀ {σ : Type} (body : Indexer → σ → Res σ) (s : σ),
        (Indexer.make r' c.arr.rng).forEach32 body s = (Indexer.make r' c.arr.rng).forEach body s := by
  set G : Box := grow g M ++ [(0, p), (0, n)] with hG
  have hg0 : 0 ≤ g := by omega
  have hP : Pos (M ++ [(0, p), (0, n)]) := pos_append.2 ⟨hM, by
    intro d hd
    simp only [List.mem_cons, List.not_mem_nil, or_false] at hd
    rcases hd with rfl | rfl
    · show (0 : Int) < p
      omega
    · show (0 : Int) < n
      omega⟩
  have hslab : ∀ (i : Nat) (x y : Int), i < M.length → lo M i - g ≤ x → x < y → y ≤ Spec.hi M i + g →
      Range.Within G (slab (M ++ [(0, p), (0, n)]) i x y) ∧ Pos (slab (M ++ [(0, p), (0, n)]) i x y) := by
    intro i x y hi h1 h2 h3
    refine ⟨within_slab hg0 hi h1 h3, fun d hd => ?_⟩
    rcases List.mem_or_eq_of_mem_set hd with h4 | rfl
    · exact hP d h4
    · exact h2
  have hset : ∀ B : Box, Range.Within G B → Pos B → ∃ r', (Range.setup B).set32 ((Range.setup B).numDims - 1) a b = .ok r' ∧
      (Range.setup B).set ((Range.setup B).numDims - 1) a b = .ok r' ∧
      Indexer.make32 r' c.arr.rng = .ok (Indexer.make r' c.arr.rng) ∧
      ∀ {σ : Type} (body : Indexer → σ → Res σ) (s : σ),
        (Indexer.make r' c.arr.rng).forEach32 body s = (Indexer.make r' c.arr.rng).forEach body s := by
    intro B hw hpB
    have hlen := hw.length_eq
    have hGl : G.length = M.length + 2 := by simp [hG, grow]
    have hlt : M.length + 1 < B.length := by omega
    have hnd : ((Range.setup B).numDims : Int) - 1 = ((M.length + 1 : Nat) : Int) := by
      show ((B.length : Nat) : Int) - 1 = _
      omega
    have hw' : Range.Within G (B.set (M.length + 1) (a, b)) := within_set hw fun hi => by
      have : G[M.length + 1] = (0, n) := by
        simp only [hG]
        rw [List.getElem_append_right (by simp [grow])]
        simp [grow]
      rw [this]
      exact ⟨ha, hb⟩
    have hp' : Pos (B.set (M.length + 1) (a, b)) := by
      intro d hd
      rcases List.mem_or_eq_of_mem_set hd with h4 | rfl
      · exact hpB d h4
      · exact hab
    refine ⟨Range.setup (B.set (M.length + 1) (a, b)), ?_, ?_, ?_, ?_⟩
    · rw [hnd, Range.set32, vset_nat (by simpa using hlt), Res.ok_bind, Range.setup_dims]
      exact setup32_ok (h.within hw' hp')
    · rw [hnd, Range.set_ok (r := Range.setup B) hlt, Range.setup_dims]
    · rw [hl.arr_range]; exact make32_ok h hw' hp'
    · intro σ body s
      rw [hl.arr_range]; exact forEach32_ok h (by intro e; rw [e] at hGl; simp at hGl) hw' hp' body s
  have hface : ∀ (l : List Range) (x y : Nat → Int), l.length = M.length →
      (∀ i : Nat, i < M.length → l[i]? = some (Range.setup (slab (M ++ [(0, p), (0, n)]) i (x i) (y i)))) →
      (∀ i : Nat, i < M.length → lo M i - g ≤ x i ∧ x i < y i ∧ y i ≤ Spec.hi M i + g) →
      ∀ r ∈ l, ∃ B, r = Range.setup B ∧ Range.Within G B ∧ Pos B := by
    intro l x y hll hget hxy r hr
    obtain ⟨i, hi, rfl⟩ := List.mem_iff_getElem.1 hr
    have h1 := hget i (by omega)
    rw [List.getElem?_eq_getElem hi] at h1
    injection h1 with h1
    have h2 := hxy i (by omega)
    obtain ⟨h3, h4⟩ := hslab i _ _ (by omega) h2.1 h2.2.1 h2.2.2
    exact ⟨_, h1, h3, h4⟩
  have hlohi : ∀ i : Nat, i < M.length → lo M i < Spec.hi M i := fun i hi => by
    have := hM M[i] (List.getElem_mem hi)
    simpa [lo, Spec.hi, List.getD_eq_getElem?_getD, List.getElem?_eq_getElem hi] using this
  obtain ⟨f1, f2, f3, f4⟩ := hl.faces
  have hall : ∀ r ∈ chunkRanges c, ∃ B, r = Range.setup B ∧ Range.Within G B ∧ Pos B := by
    intro r hr
    unfold chunkRanges at hr
    simp only [List.mem_cons, List.mem_append] at hr
    rcases hr with rfl | ((hr | hr) | hr) | hr
    · exact ⟨_, hl.internal, within_append (within_grow hg0 M) (fits_within_refl _), hP⟩
    · exact hface _ _ _ f1 hl.lowExt (fun i hi => by have := hlohi i hi; omega) r hr
    · exact hface _ _ _ f2 hl.lowInt (fun i hi => by have := hlohi i hi; omega) r hr
    · exact hface _ _ _ f3 hl.upInt (fun i hi => by have := hlohi i hi; omega) r hr
    · exact hface _ _ _ f4 hl.upExt (fun i hi => by have := hlohi i hi; omega) r hr
  intro r hr
  obtain ⟨B, rfl, h1, h2⟩ := hall r hr
  exact hset B h1 h2

/-- **C112**, kernels: on an array that fits, the bounds and the counter of the loops of the Euler and Maxwell kernels do not
overflow. The checked values `is` are those for which the model runs the iterations, and each of them and its successor is an
offset into the array or its end. -/
theorem C112_kernels {α : Type} [Arith α] {q : Chunk α} {g : Int} {M : Box} {p n : Nat}
    (hl : q.Layout g M [(0, (p : Int)), (0, (n : Int))]) (hg : 0 ≤ g) (hM : Pos M) (hp : 1 ≤ p) (hn : 2 ≤ n)
    (h : Fits32 (grow g M ++ [(0, (p : Int)), (0, (n : Int))])) :
    ∃ is, FV.countersMp32 n q = .ok is ∧
      (∀ (flux : FV.Flux α) (grid : Rectilinear α) (dim : Nat), FV.itersMp n flux grid q dim = (do
        let d ← grid.dx dim
        let stride ← vget q.arr.rng.stride dim
        return is.map (FV.iterMp n flux d stride))) ∧
      ∀ i ∈ is, 0 ≤ i ∧ i + n ≤ boxVolume (grow g M ++ [(0, (p : Int)), (0, (n : Int))]) := by
  obtain ⟨h1, is, h2, h3⟩ := countersMp32_ok hl hg hM hp hn h
  refine ⟨is, h2, fun flux grid dim => ?_, h3⟩
  rw [h2] at h1
  unfold FV.itersMp
  cases grid.dx dim <;> try rfl
  cases vget q.arr.rng.stride (dim : Int) <;> try rfl
  simp only [Res.ok_bind]
  obtain ⟨r, k1, k2⟩ := Res.bind_eq_ok.1 h1.symm
  obtain ⟨b, k3, k4⟩ := Res.bind_eq_ok.1 k2
  rw [k1, Res.ok_bind, k3, Res.ok_bind]
  injection k4 with k4
  rw [k4]

/-- **C112**, advection: on an array that fits and has at least two cells in the direction, ghost cells included, the bounds of the
loop and the indices `i - s`, `i - 2 s` computed in it do not overflow, for both signs of the velocity; they are the indices of
the iterations in the model. -/
theorem C112_advection {α : Type} [Arith α] {a : Chunk α} {g : Int} {M D : Box} (hl : a.Layout g M D) (hg : 1 ≤ g) (hM : Pos M) (hD : Pos D)
    (h : Fits32 (grow g M ++ D)) {dim : Nat} (hd : dim < M.length) (up : Bool) :
    ∃ (s : Int) (l : List (Int × Int × Int)), vget a.arr.rng.stride dim = .ok s ∧ Advection.counters32 a dim up = .ok l ∧
      (∀ t ∈ l, t.2.1 = t.1 - (if up then s else -s) ∧ t.2.2 = t.1 - 2 * (if up then s else -s)) ∧
      ∀ (dt v : α) (velocity : List α) (grid : Rectilinear α), vget velocity dim = .ok v → Arith.lt (Arith.lit 0) v = up →
        Advection.sweep dt velocity grid a dim = (do
          let d ← grid.dx dim
          return l.map fun t => Advection.iteration (Arith.fabs (dt * v / d)) (if up then s else -s) t.1) := by
  have hP : Pos (grow g M ++ D) := pos_append.2 ⟨pos_grow (by omega) hM, hD⟩
  have hdl : dim < (grow g M ++ D).length := by simp; omega
  have h2 : 2 ≤ ((grow g M ++ D)[dim]).2 - ((grow g M ++ D)[dim]).1 := by
    have e : (grow g M ++ D)[dim] = ((M[dim]).1 - g, (M[dim]).2 + g) := by
      rw [List.getElem_append_left (by simpa using hd)]
      simp [grow]
    have := hM M[dim] (List.getElem_mem hd)
    rw [e]
    simp only
    omega
  obtain ⟨s, h3, h4⟩ := advCounters32_ok hl.arr_range h hP hdl h2 up
  refine ⟨s, _, h3, h4, ?_, ?_⟩
  · intro t ht
    obtain ⟨i, _, rfl⟩ := List.mem_map.1 ht
    exact ⟨rfl, rfl⟩
  · intro dt v velocity grid hv hlt
    unfold Advection.sweep
    rw [hv, Res.ok_bind, h3, Res.ok_bind]
    cases grid.dx dim <;> try rfl
    simp only [Res.ok_bind]
    rw [hlt, List.map_map]
    cases up <;> rfl

/-- **C112**, the writer: the index of component `k` at the mesh position `x`, computed from the last direction to the first as in
the three branches of `write_VTK`, does not overflow and is the offset of the element. -/
theorem C112_writer {α : Type} {c : Chunk α} {g : Int} {M : Box} {n k : Int} (hl : c.Layout g M [(0, 1), (0, n)]) (hg : 0 ≤ g) (hM : Pos M)
    (h : Fits32 (grow g M ++ [(0, 1), (0, n)])) (hk : 0 ≤ k) (hkn : k < n) {x : Cell} (hx : InBox (grow g M) x) :
    Vtk.index32 k x c.arr.rng.dims c.arr.rng.stride = .ok (offset (grow g M ++ [(0, 1), (0, n)]) (x ++ [0, k])) := by
  have hD : Pos [((0 : Int), (1 : Int)), (0, n)] := by
    intro d hd
    simp only [List.mem_cons, List.not_mem_nil, or_false] at hd
    rcases hd with rfl | rfl
    · show (0 : Int) < 1
      omega
    · show (0 : Int) < n
      omega
  have hb : boxVolume [((0 : Int), (1 : Int)), (0, n)] = n := by simp [boxVolume, lengths]
  obtain ⟨h1, -, -⟩ := vtkIndex32_ok hk (D := [((0 : Int), (1 : Int)), (0, n)]) h (pos_append.2 ⟨pos_grow hg hM, hD⟩) hx (by rw [hb]; exact hkn)
  rw [hl.arr_range]
  show Vtk.index32 k x (grow g M ++ _) (Range.strideLoop _) = _
  have e : offset (grow g M ++ [(0, 1), (0, n)]) (x ++ [0, k]) = n * (1 * offset (grow g M) x + 0) + k := by
    have hlx := hx.length_eq
    have e1 := offset_snoc (B := grow g M ++ [(0, 1)]) (x := x ++ [0]) (by simp [hlx]) n k
    simp only [List.append_assoc, List.cons_append, List.nil_append] at e1
    rw [e1, offset_snoc hlx]
  rw [h1, hb, e]
  congr 1
  ring

/-- The variables with these ids can be created on the grid, with two ghost layers, without overflow (variable_manager.cpp:50-61). -/
def Creatable {α : Type} [Arith α] (g : Rectilinear α) (ids : VarId → Prop) : Prop :=
  ∀ id, ids id → ∃ v, Var.make32 (Arith.lit 0 : α) id.name id.comps id.basis g.rng 2 = .ok v

theorem program_size {α : Type} [Arith α] {g : Rectilinear α} {ids : VarId → Prop} {L : List Int} (hr : g.rng = Range.setup (L.map fun l => (0, l)))
    (hL : ∀ l ∈ L, 1 ≤ l) (hne : L ≠ []) {n : Nat} (hid : ∀ id, ids id → id.basis = Basis.volumeAverage ∧ id.comps ≠ [] ∧ id.comps.length ≤ n)
    {big : VarId} (hb : ids big) (hbn : big.comps.length = n) :
    Creatable g ids ↔ (L.map (· + 4)).prod * (n : Int) ≤ 2147483647 := by
  have key : ∀ id, ids id → ((∃ v, Var.make32 (Arith.lit 0 : α) id.name id.comps id.basis g.rng 2 = .ok v) ↔
      (L.map (· + 4)).prod * (id.comps.length : Int) ≤ 2147483647) := by
    intro id h
    obtain ⟨h1, h2, -⟩ := hid id h
    rw [h1, hr]
    have := (C112_size (Arith.lit 0 : α) id.name (basis := Basis.volumeAverage) hL hne (g := 2) (by omega) (by decide) h2).1
    rw [this]
    have e : Basis.volumeAverage.points = 1 := rfl
    rw [e, mul_one]
    norm_num
  constructor
  · intro h
    rw [← hbn]
    exact (key big hb).1 (h big hb)
  · intro h id hi
    refine (key id hi).2 (le_trans ?_ h)
    have h1 : (0 : Int) ≤ (L.map (· + 4)).prod := List.prod_nonneg fun x hx => by
      obtain ⟨l, hl, rfl⟩ := List.mem_map.1 hx
      have := hL l hl
      omega
    have h2 : (id.comps.length : Int) ≤ n := by exact_mod_cast (hid id hi).2.2
    exact mul_le_mul_of_nonneg_left h2 h1

theorem gem_ids {id : VarId} (h : gemIds id) : id.basis = Basis.volumeAverage ∧ id.comps ≠ [] ∧ id.comps.length ≤ 6 := by
  simp only [gemIds, Five.ids, GemChallenge.electrons, GemChallenge.ions, GemChallenge.fields, GemChallenge.five, List.cons_append, List.nil_append,
    List.mem_cons, List.not_mem_nil, or_false] at h
  rcases h with rfl | rfl | rfl | rfl | rfl | rfl | rfl | rfl | rfl | rfl | rfl | rfl | rfl | rfl | rfl <;>
    exact ⟨rfl, by decide, by decide⟩

theorem sod_ids {id : VarId} (h : sodIds id) : id.basis = Basis.volumeAverage ∧ id.comps ≠ [] ∧ id.comps.length ≤ 5 := by
  simp only [sodIds, Five.ids, SodShockTube.fluid, SodShockTube.solo, List.mem_cons, List.not_mem_nil, or_false] at h
  rcases h with rfl | rfl | rfl | rfl | rfl <;> exact ⟨rfl, by decide, by decide⟩

theorem wave_ids {id : VarId} (h : waveIds id) : id.basis = Basis.volumeAverage ∧ id.comps ≠ [] ∧ id.comps.length ≤ 6 := by
  simp only [waveIds, Five.ids, Wave1D.field, SodShockTube.solo, List.mem_cons, List.not_mem_nil, or_false] at h
  rcases h with rfl | rfl | rfl | rfl | rfl <;> exact ⟨rfl, by decide, by decide⟩

theorem advect_ids {id : VarId} (h : advectIds id) : id.basis = Basis.volumeAverage ∧ id.comps ≠ [] ∧ id.comps.length ≤ 1 := by
  rcases h with rfl | rfl | rfl <;> exact ⟨rfl, by decide, by decide⟩

/-- **C112**, the programs: the numbers of cells with which all variables of a program can be created without overflow. -/
theorem C112_programs {α : Type} [Arith α] (g : Rectilinear α) :
    (∀ nx, 1 ≤ nx → GemChallenge.grid GemConstants.make nx = .ok g → (Creatable g gemIds ↔ nx ≤ 13374)) ∧
    (∀ nx, 1 ≤ nx → HarrisCurrentSheet.grid HarrisCurrentSheet.constants nx = .ok g → (Creatable g gemIds ↔ nx ≤ 357913937)) ∧
    (∀ nx, 1 ≤ nx → TwoFluidBrioWu.grid nx = .ok g → (Creatable g gemIds ↔ nx ≤ 357913937)) ∧
    (∀ nx, 1 ≤ nx → GaussianPulse.grid nx = .ok g → (Creatable g waveIds ↔ nx ≤ 357913937)) ∧
    (∀ nx ny, 1 ≤ nx → 1 ≤ ny → SodShockTube.grid nx ny = .ok g → (Creatable g sodIds ↔ (nx + 4) * (ny + 4) ≤ 429496729)) ∧
    (∀ nx ny nz, 1 ≤ nx → 1 ≤ ny → 1 ≤ nz → Wave1D.grid nx ny nz = .ok g →
      (Creatable g waveIds ↔ (nx + 4) * (ny + 4) * (nz + 4) ≤ 357913941)) ∧
    (∀ nx ny, 1 ≤ nx → 1 ≤ ny → AdvectGaussian.grid nx ny = .ok g → (Creatable g advectIds ↔ (nx + 4) * (ny + 4) ≤ 2147483647)) := by
  have e1 : ∀ {x : Int} {s w : List α}, (do let r ← Range.ofLengths 1 [x]; Rectilinear.make r s w) = Res.ok g → g.rng = Range.setup ([x].map fun l => (0, l)) :=
    fun h => (Rectilinear.make_fields h).1
  have e2 : ∀ {x y : Int} {z : List Int} {s w : List α}, (do let r ← Range.ofLengths 2 (x :: y :: z); Rectilinear.make r s w) = Res.ok g →
      g.rng = Range.setup ([x, y].map fun l => (0, l)) := fun {x y z s w} h => (Rectilinear.make_fields h).1
  have e3 : ∀ {x y z : Int} {s w : List α}, (do let r ← Range.ofLengths 3 [x, y, z]; Rectilinear.make r s w) = Res.ok g →
      g.rng = Range.setup ([x, y, z].map fun l => (0, l)) := fun h => (Rectilinear.make_fields h).1
  have gb : gemIds GemChallenge.fields.q := by simp [gemIds, Five.ids]
  have sb : sodIds SodShockTube.fluid.q := by simp [sodIds, Five.ids]
  have wb : waveIds Wave1D.field.q := by simp [waveIds, Five.ids]
  have ab : advectIds AdvectGaussian.var := .inl rfl
  refine ⟨?_, ?_, ?_, ?_, ?_, ?_, ?_⟩
  · intro nx h h1
    rw [program_size (e2 h1) (by simp; omega) (by simp) (fun id => gem_ids) gb rfl]
    simp only [List.map_cons, List.map_nil, List.prod_cons, List.prod_nil]
    push_cast
    constructor
    · intro h2
      by_contra h3
      nlinarith
    · intro h2
      nlinarith
  · intro nx h h1
    rw [program_size (e1 h1) (by simp; omega) (by simp) (fun id => gem_ids) gb rfl]
    simp only [List.map_cons, List.map_nil, List.prod_cons, List.prod_nil]
    push_cast
    omega
  · intro nx h h1
    rw [program_size (e1 h1) (by simp; omega) (by simp) (fun id => gem_ids) gb rfl]
    simp only [List.map_cons, List.map_nil, List.prod_cons, List.prod_nil]
    push_cast
    omega
  · intro nx h h1
    rw [program_size (e1 h1) (by simp; omega) (by simp) (fun id => wave_ids) wb rfl]
    simp only [List.map_cons, List.map_nil, List.prod_cons, List.prod_nil]
    push_cast
    omega
  · intro nx ny h h' h1
    rw [program_size (e2 h1) (by simp; omega) (by simp) (fun id => sod_ids) sb rfl]
    simp only [List.map_cons, List.map_nil, List.prod_cons, List.prod_nil, mul_one]
    generalize (nx + 4) * (ny + 4) = t
    push_cast
    omega
  · intro nx ny nz h h' h'' h1
    rw [program_size (e3 h1) (by simp; omega) (by simp) (fun id => wave_ids) wb rfl]
    simp only [List.map_cons, List.map_nil, List.prod_cons, List.prod_nil, mul_one]
    rw [← mul_assoc]
    generalize (nx + 4) * (ny + 4) * (nz + 4) = t
    push_cast
    omega
  · intro nx ny h h' h1
    rw [program_size (e2 h1) (by simp; omega) (by simp) (fun id => advect_ids) ab rfl]
    simp only [List.map_cons, List.map_nil, List.prod_cons, List.prod_nil, mul_one]
    push_cast
    rw [mul_one]

/-! ### Examples -/

-- the field of the largest mesh of gem_challenge fits, the next one does not
example : Fits32 (grow 2 [(0, 13374), (0, 26748)] ++ [(0, 1), (0, 6)]) ∧ ¬ Fits32 (grow 2 [(0, 13375), (0, 26750)] ++ [(0, 1), (0, 6)]) := by
  decide

-- lower bounds other than 0: the bounds themselves may overflow although the array is small
example : Var.make32 (0 : Rat) "u" ["a"] Basis.volumeAverage (Range.setup [(2147483640, 2147483646)]) 2 = .ub "signed overflow" :=
  (C112_create (0 : Rat) "u" (by decide) (by decide) (by decide) (by decide) (by decide)).2 (by decide)

-- a small chunk with the layout of C112_loops, C112_kernels, C112_advection and C112_writer, and a shape that fits
example : ∃ c : Chunk Rat, c.Layout 2 [(0, 3), (0, 2)] [(0, 1), (0, 5)] ∧ Fits32 (grow 2 [(0, 3), (0, 2)] ++ [(0, 1), (0, 5)]) ∧
    Pos [(0, 3), (0, 2)] ∧ Pos [(0, 1), (0, 5)] := by
  obtain ⟨c, -, -, h, -⟩ := Var.make_spec (0 : Rat) "u" ["a", "b", "c", "d", "e"] Basis.volumeAverage (mesh := Range.setup [(0, 3), (0, 2)])
    (g := 2) (by decide) (by decide) (by decide) (by decide)
  exact ⟨c, h, by decide, by decide, by decide⟩

-- without ghost layers the indices of the advection solver can overflow: one cell across, a stride of more than 2^30
example : Fits32 [(0, 1), (0, 1500000000)] ∧ ∀ up, Advection.counters32 (α := Rat)
    { (Chunk.default : Chunk Rat) with arr := ⟨Range.setup [(0, 1), (0, 1500000000)], []⟩ } 0 up = .ub "signed overflow" := by
  refine ⟨by decide, fun up => ?_⟩
  cases up <;> decide

end QK.Props
