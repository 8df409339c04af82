import Verif.Model.Unused
import Verif.Proofs.Source
import Verif.Proofs.Manager
import Verif.Props.Kernels
import Verif.Props.Indexer
/-
C105: the kernels of the source terms that walk through the arrays; `dataset::sync`, `face_basis`. None of it has a caller.
-/
namespace QK.Props
open QK Spec Source

variable {α : Type} [Arith α]

/-- Fluid component `j` with the Lorentz force and its work added: `u` the fluid, `w` the field, in one cell. -/
def withForce (com : α) (u w : Nat → α) : Nat → α → α
  | 1, v => v + com * (u 0 * w 0 + u 2 * w 5 - u 3 * w 4)
  | 2, v => v + com * (u 0 * w 1 + u 3 * w 3 - u 1 * w 5)
  | 3, v => v + com * (u 0 * w 2 + u 1 * w 4 - u 2 * w 3)
  | 4, v => v + com * (u 1 * w 0 + u 2 * w 1 + u 3 * w 2)
  | _, v => v

/-- Field component `j` with the current added. -/
def withCurrent (mult : α) (u : Nat → α) (j : Nat) (v : α) : α := if j < 3 then v + mult * u (j + 1) else v

/-- First and last cell of a box. -/
def firstCell (B : Box) : Cell := B.map Prod.fst
def lastCell (B : Box) : Cell := B.map fun d => d.2 - 1

/-- The cells from the first interior cell up to, but not including, the last interior cell, in the order of the array `B` (with ghost cells). -/
def Walked (B I : Box) (x : Cell) : Prop := offset B (firstCell I) ≤ offset B x ∧ offset B x < offset B (lastCell I)

instance (B I : Box) (x : Cell) : Decidable (Walked B I x) := by unfold Walked; infer_instance

section
variable {g : Int} {M : Box} {p : Nat}

omit [Arith α] in
theorem inBox_first {B : Box} (h : Pos B) : InBox B (firstCell B) := by
  induction B with
  | nil => exact .nil
  | cons d B ih => exact .cons ⟨le_refl _, h d (by simp)⟩ (ih fun e he => h e (by simp [he]))

omit [Arith α] in
theorem inBox_last {B : Box} (h : Pos B) : InBox B (lastCell B) := by
  induction B with
  | nil => exact .nil
  | cons d B ih => exact .cons ⟨by have := h d (by simp); show d.1 ≤ d.2 - 1; omega, by show d.2 - 1 < d.2; omega⟩ (ih fun e he => h e (by simp [he]))

/-- The bounds of the walk: positions of the first interior cell in both arrays, number of rounds. -/
theorem walk_bounds {c : Chunk α} {n : Nat} (hl : c.Layout g M [(0, (p : Int)), (0, (n : Int))]) (hg : 0 ≤ g) (hM : Pos M) (hp : 1 ≤ p) (hn : 1 ≤ n) :
    c.internal.copy.set (c.internal.numDims - 1) 0 1 = .ok (Range.setup ((M ++ [(0, (p : Int))]) ++ [(0, 1)])) ∧
    (c.arr.indexer (Range.setup ((M ++ [(0, (p : Int))]) ++ [(0, 1)]))).linear = n * offset (grow g M ++ [(0, (p : Int))]) (firstCell (M ++ [(0, (p : Int))])) ∧
    (c.arr.indexer (Range.setup ((M ++ [(0, (p : Int))]) ++ [(0, 1)]))).finalLinear = .ok (n * offset (grow g M ++ [(0, (p : Int))]) (lastCell (M ++ [(0, (p : Int))])) + 1) := by
  have hpos : Pos ((M ++ [(0, (p : Int))]) ++ [(0, 1)]) := by
    rw [pos_append, pos_append]
    exact ⟨⟨hM, by intro d hd; simp at hd; subst hd; simp; omega⟩, by intro d hd; simp at hd; subst hd; simp⟩
  have hw : Range.Within c.arr.rng.dims ((M ++ [(0, (p : Int))]) ++ [(0, 1)]) := by
    rw [hl.dims, FV.layout_split]
    have := FV.within_grow (M := M) hg [(0, (p : Int))]
    unfold Range.Within at this ⊢
    refine List.rel_append this ?_
    simp; omega
  have hne : c.arr.rng.dims ≠ [] := by rw [hl.dims]; simp
  refine ⟨?_, ?_, ?_⟩
  · have e : (c.internal.numDims : Int) - 1 = ((M ++ [(0, (p : Int))]).length : Nat) := by
      rw [hl.internal]; simp [Range.numDims]; omega
    rw [e, hl.internal, Range.copy_setup, set_setup (by simp), FV.layout_split, FV.snoc_slab]
  · unfold IFace.indexer
    rw [Indexer.make_eq_at hne hw]
    unfold Indexer.onCell firstCell
    rw [hl.dims, FV.layout_split, Range.setup_dims, List.map_append (l₁ := M ++ [(0, (p : Int))]), List.map_cons, List.map_nil, offset_snoc (by simp)]
    simp
  · unfold IFace.indexer
    rw [(C08_final_linear_index (List.length_pos_iff.2 hne) (Range.includes_iff.2 hw) hpos).1]
    unfold lastCell
    rw [hl.dims, FV.layout_split, Range.setup_dims, List.map_append (l₁ := M ++ [(0, (p : Int))]), List.map_cons, List.map_nil, offset_snoc (by simp)]
    simp

omit [Arith α] in
/-- The rounds of the walk and their cells. -/
theorem walk_cells (hg : 0 ≤ g) (hM : Pos M) (hp : 1 ≤ p) : ∃ (X : Nat → Cell) (n : Nat), (n : Int) = offset (grow g M ++ [(0, (p : Int))]) (lastCell (M ++ [(0, (p : Int))])) -
      offset (grow g M ++ [(0, (p : Int))]) (firstCell (M ++ [(0, (p : Int))])) ∧
    (∀ k < n, InBox (grow g M ++ [(0, (p : Int))]) (X k) ∧ offset (grow g M ++ [(0, (p : Int))]) (X k) = offset (grow g M ++ [(0, (p : Int))]) (firstCell (M ++ [(0, (p : Int))])) + k) ∧
    ∀ x, InBox (grow g M ++ [(0, (p : Int))]) x → (Walked (grow g M ++ [(0, (p : Int))]) (M ++ [(0, (p : Int))]) x ↔ ∃ k < n, x = X k) := by
  have hpos : Pos (M ++ [(0, (p : Int))]) := by
    rw [pos_append]; exact ⟨hM, by intro d hd; simp at hd; subst hd; simp; omega⟩
  have i1 := inBox_interior (g := g) hg (inBox_first hpos)
  have i2 := inBox_interior (g := g) hg (inBox_last hpos)
  have hle : offset (grow g M ++ [(0, (p : Int))]) (firstCell (M ++ [(0, (p : Int))])) ≤ offset (grow g M ++ [(0, (p : Int))]) (lastCell (M ++ [(0, (p : Int))])) := by
    refine offset_mono i1.pos (by simp [firstCell]) ?_
    unfold firstCell lastCell
    rw [List.forall₂_map_left_iff, List.forall₂_map_right_iff]
    refine List.forall₂_same.2 fun d hd => ?_
    have := hpos d hd; show d.1 ≤ d.2 - 1; omega
  obtain ⟨o1, o2⟩ := offset_nonneg i1.pos i1
  obtain ⟨o3, o4⟩ := offset_nonneg i2.pos i2
  unfold Walked
  generalize offset (grow g M ++ [(0, (p : Int))]) (firstCell (M ++ [(0, (p : Int))])) = a at *
  generalize offset (grow g M ++ [(0, (p : Int))]) (lastCell (M ++ [(0, (p : Int))])) = b at *
  have ex : ∀ k : Nat, ∃ x, k < (b - a).toNat → InBox (grow g M ++ [(0, (p : Int))]) x ∧ offset (grow g M ++ [(0, (p : Int))]) x = a + k := by
    intro k
    by_cases h : k < (b - a).toNat
    · obtain ⟨x, hx, e⟩ := offset_surj i1.pos (k := a + k) (by omega) (by omega)
      exact ⟨x, fun _ => ⟨hx, e⟩⟩
    · exact ⟨[], fun c => absurd c h⟩
  choose X hX using ex
  refine ⟨X, (b - a).toNat, by omega, hX, fun x hx => ⟨fun h => ?_, ?_⟩⟩
  · refine ⟨(offset (grow g M ++ [(0, (p : Int))]) x - a).toNat, by omega, ?_⟩
    obtain ⟨h1, h2⟩ := hX (offset (grow g M ++ [(0, (p : Int))]) x - a).toNat (by omega)
    exact offset_inj hx h1 (by omega)
  · rintro ⟨k, hk, rfl⟩
    obtain ⟨h1, h2⟩ := hX k hk
    omega

/-- A walk whose rounds update single elements of their cells: each cell of the walk gets its updates, all others keep their values. -/
theorem walk_holds {rhs : Chunk α} {n : Nat} (hr : rhs.Layout g M [(0, (p : Int)), (0, (n : Int))]) (hg : 0 ≤ g) (hM : Pos M) (hp : 1 ≤ p) {v : Cell → Nat → α}
    (hv : rhs.Holds (grow g M ++ [(0, (p : Int))]) n v) {js : List Nat} (hjs : js.Nodup) (hjn : ∀ j ∈ js, j < n) (f : Cell → Nat → α → α) (hf : ∀ x j v, j ∉ js → f x j v = v)
    {X : Nat → Cell} {r : Nat} (hX : ∀ k < r, InBox (grow g M ++ [(0, (p : Int))]) (X k)) (hinj : ∀ i < r, ∀ j < r, X i = X j → i = j)
    (hw : ∀ x, InBox (grow g M ++ [(0, (p : Int))]) x → (Walked (grow g M ++ [(0, (p : Int))]) (M ++ [(0, (p : Int))]) x ↔ ∃ k < r, x = X k))
    {body : Nat → List α → Res (List α)}
    (hb : ∀ k < r, ∀ a : IFace α, a.WF → a.rng = rhs.arr.rng → body k a.data = .ok ((js.map fun j : Nat => (X k ++ [(j : Int)], f (X k) j)).foldl IFace.upd a).data) :
    ∃ rhs', ((List.range r).foldlM (fun d k => body k d) rhs.arr.data >>= fun d => .ok { rhs with arr := { rhs.arr with data := d } }) = .ok rhs' ∧
      rhs'.Layout g M [(0, (p : Int)), (0, (n : Int))] ∧
      rhs'.Holds (grow g M ++ [(0, (p : Int))]) n fun x j => if Walked (grow g M ++ [(0, (p : Int))]) (M ++ [(0, (p : Int))]) x then f x j (v x j) else v x j := by
  have hne : rhs.arr.rng.dims ≠ [] := by rw [hr.dims]; simp
  have hin : ∀ x, InBox (grow g M ++ [(0, (p : Int))]) x → ∀ j < n, InBox rhs.arr.rng.dims (x ++ [(j : Int)]) := by
    intro x hx j hj
    rw [hr.dims, FV.layout_split]
    exact (inBox_snoc hx.length_eq).2 ⟨hx, by omega, by omega⟩
  have hlen : ∀ {x : Cell}, InBox (grow g M ++ [(0, (p : Int))]) x → x.length = M.length + 1 := fun h => by rw [h.length_eq]; simp
  rw [foldlM_upd rhs.arr (fun k => js.map fun j : Nat => (X k ++ [(j : Int)], f (X k) j)) hr.wf (fun k hk => hb k (List.mem_range.1 hk)), Res.ok_bind]
  set L := (List.range r).flatMap fun k => js.map fun j : Nat => (X k ++ [(j : Int)], f (X k) j) with hL
  have eq : ({ rhs.arr with data := (L.foldl IFace.upd rhs.arr).data } : IFace α) = L.foldl IFace.upd rhs.arr := by
    have := IFace.foldl_upd_rng L rhs.arr
    generalize L.foldl IFace.upd rhs.arr = a at *
    cases a; simp only at this; rw [this]
  rw [eq]
  have hmem : ∀ q, q ∈ L ↔ ∃ k < r, ∃ j ∈ js, q = (X k ++ [(j : Int)], f (X k) j) := by
    intro q; rw [hL]; simp only [List.mem_flatMap, List.mem_range, List.mem_map]
    exact ⟨fun ⟨k, hk, j, hj, e⟩ => ⟨k, hk, j, hj, e.symm⟩, fun ⟨k, hk, j, hj, e⟩ => ⟨k, hk, j, hj, e.symm⟩⟩
  have hsn : ∀ {x y : Cell} {i j : Int}, x ++ [i] = y ++ [j] → x = y ∧ i = j := fun h => by simpa using List.append_inj' h rfl
  have hnd : (L.map Prod.fst).Nodup := by
    rw [hL, List.map_flatMap, List.nodup_flatMap]
    refine ⟨fun k _ => ?_, ?_⟩
    · rw [List.map_map]
      refine hjs.map ?_
      intro i j h
      have := (hsn h).2
      exact_mod_cast this
    · refine List.Nodup.pairwise_of_forall_ne List.nodup_range fun i hi j hj hij => ?_
      simp only [Function.onFun, List.disjoint_left, List.mem_map, List.map_map]
      rintro y ⟨a, -, rfl⟩ ⟨b, -, e⟩
      exact hij (hinj i (List.mem_range.1 hi) j (List.mem_range.1 hj) (hsn e).1.symm)
  obtain ⟨f1, f2⟩ := IFace.foldl_upd L hr.wf hne (fun q hq => by
    obtain ⟨k, hk, j, hj, rfl⟩ := (hmem q).1 hq
    exact hin _ (hX k hk) _ (hjn j hj)) hnd
  refine ⟨_, rfl, hr.with_arr (IFace.foldl_upd_wf _ hr.wf) (by simp), ?_⟩
  intro x hx j hj
  show (L.foldl IFace.upd rhs.arr).val _ = _
  by_cases c : Walked (grow g M ++ [(0, (p : Int))]) (M ++ [(0, (p : Int))]) x
  · simp only [if_pos c]
    obtain ⟨k, hk, rfl⟩ := (hw x hx).1 c
    by_cases hj' : j ∈ js
    · rw [f1 _ ((hmem (X k ++ [(j : Int)], f (X k) j)).2 ⟨k, hk, j, hj', rfl⟩), hv _ hx j hj]; rfl
    · rw [f2 _ (hin _ hx j hj), hv _ hx j hj, hf _ _ _ hj']
      rw [List.mem_map]
      rintro ⟨q, hq, e⟩
      obtain ⟨k', hk', j', hj2, rfl⟩ := (hmem q).1 hq
      have := (hsn e).2
      exact hj' (by have : j' = j := by exact_mod_cast this
                    exact this ▸ hj2)
  · simp only [if_neg c]
    rw [f2 _ (hin _ hx j hj), hv _ hx j hj]
    rw [List.mem_map]
    rintro ⟨q, hq, e⟩
    obtain ⟨k', hk', j', hj2, rfl⟩ := (hmem q).1 hq
    exact c ((hw x hx).2 ⟨k', hk', (hsn e).1.symm⟩)

/-- **C105** What the unused kernel of the Lorentz force does (on one thread): it adds force and work in the cells from the first interior cell up to the one before the last interior
cell, in the order of the array. It returns: no access is out of bounds. -/
theorem C105_lorentz (com : α) {fluid field rhs : Chunk α} {u w v : Cell → Nat → α} (hf : fluid.Layout g M [(0, (p : Int)), (0, 5)]) (he : field.Layout g M [(0, (p : Int)), (0, 6)])
    (hr : rhs.Layout g M [(0, (p : Int)), (0, 5)]) (hg : 0 ≤ g) (hM : Pos M) (hp : 1 ≤ p) (hu : fluid.Holds (grow g M ++ [(0, (p : Int))]) 5 u)
    (hw : field.Holds (grow g M ++ [(0, (p : Int))]) 6 w) (hv : rhs.Holds (grow g M ++ [(0, (p : Int))]) 5 v) :
    ∃ rhs', lorentzWalk com fluid field rhs = .ok rhs' ∧ rhs'.Layout g M [(0, (p : Int)), (0, 5)] ∧
      rhs'.Holds (grow g M ++ [(0, (p : Int))]) 5 fun x j => if Walked (grow g M ++ [(0, (p : Int))]) (M ++ [(0, (p : Int))]) x then withForce com (u x) (w x) j (v x j) else v x j := by
  have hf' : fluid.Layout g M [(0, (p : Int)), (0, ((5 : Nat) : Int))] := hf
  have he' : field.Layout g M [(0, (p : Int)), (0, ((6 : Nat) : Int))] := he
  have hr' : rhs.Layout g M [(0, (p : Int)), (0, ((5 : Nat) : Int))] := hr
  obtain ⟨a1, a2, a3⟩ := walk_bounds hf' hg hM hp (by decide)
  obtain ⟨b1, b2, -⟩ := walk_bounds he' hg hM hp (by decide)
  obtain ⟨X, n, hn, hX, hW⟩ := walk_cells (p := p) hg hM hp
  unfold lorentzWalk
  rw [a1, Res.ok_bind, b1, Res.ok_bind]
  simp only [a3, Res.ok_bind, a2, b2]
  have e1 : ∀ z : Int, (((5 : Nat) : Int) * z).tdiv 5 = z := fun z => by simp
  have hnn : 0 ≤ offset (grow g M ++ [(0, (p : Int))]) (lastCell (M ++ [(0, (p : Int))])) := by
    have hpos : Pos (M ++ [(0, (p : Int))]) := by
      rw [pos_append]; exact ⟨hM, by intro d hd; simp at hd; subst hd; simp; omega⟩
    have i2 := inBox_interior (g := g) hg (inBox_last hpos)
    exact (offset_nonneg i2.pos i2).1
  have e2 : (((5 : Nat) : Int) * offset (grow g M ++ [(0, (p : Int))]) (lastCell (M ++ [(0, (p : Int))])) + 1 + 1).tdiv 5 = offset (grow g M ++ [(0, (p : Int))]) (lastCell (M ++ [(0, (p : Int))])) := by
    rw [Int.tdiv_eq_ediv_of_nonneg (by omega)]; omega
  rw [e1, e2, ← hn, Int.toNat_natCast]
  refine walk_holds hr' hg hM hp hv (js := [1, 2, 3, 4]) (by decide) (by decide) (fun x j => withForce com (u x) (w x) j) ?_ (fun k hk => (hX k hk).1) ?_ hW ?_
  · intro x j v hj
    unfold withForce
    split <;> first | rfl | (exfalso; revert hj; decide)
  · intro i hi j hj e
    have h1 := (hX i hi).2; have h2 := (hX j hj).2; rw [e] at h1; omega
  · intro k hk a ha har
    obtain ⟨hx, ho⟩ := hX k hk
    have hn : a.rng.dims ≠ [] := by rw [har, hr.dims]; simp
    have hin : ∀ j : Int, 0 ≤ j → j < 5 → InBox a.rng.dims (X k ++ [j]) := by
      intro j h0 h1
      rw [har, hr.dims, FV.layout_split]
      exact (inBox_snoc hx.length_eq).2 ⟨hx, h0, h1⟩
    have hoff : ∀ j : Int, ((5 : Nat) : Int) * offset (grow g M ++ [(0, (p : Int))]) (firstCell (M ++ [(0, (p : Int))])) + 5 * (k : Nat) + j = offset a.rng.dims (X k ++ [j]) := by
      intro j
      rw [har, hr.dims, FV.layout_split, offset_snoc (by rw [hx.length_eq]), ho]; push_cast; ring
    have of5 : ∀ j : Int, ((5 : Nat) : Int) * offset (grow g M ++ [(0, (p : Int))]) (firstCell (M ++ [(0, (p : Int))])) + 5 * (k : Nat) + j = offset fluid.arr.rng.dims (X k ++ [0]) + j := by
      intro j
      rw [hf.dims, FV.layout_split, offset_snoc (by rw [hx.length_eq]), ho]; push_cast; ring
    have of6 : ∀ j : Int, ((6 : Nat) : Int) * offset (grow g M ++ [(0, (p : Int))]) (firstCell (M ++ [(0, (p : Int))])) + 6 * (k : Nat) + j = offset field.arr.rng.dims (X k ++ [0]) + j := by
      intro j
      rw [he.dims, FV.layout_split, offset_snoc (by rw [hx.length_eq]), ho]; push_cast; ring
    unfold lorentzAt
    rw [vget_holds hf' hu hx (j := 0) (by omega) (by simpa using of5 0), Res.ok_bind, vget_holds hf' hu hx (j := 1) (by omega) (of5 1),
      Res.ok_bind, vget_holds hf' hu hx (j := 2) (by omega) (of5 2), Res.ok_bind,
      vget_holds hf' hu hx (j := 3) (by omega) (of5 3), Res.ok_bind, vget_holds he' hw hx (j := 0) (by omega) (by simpa using of6 0),
      Res.ok_bind, vget_holds he' hw hx (j := 1) (by omega) (of6 1), Res.ok_bind,
      vget_holds he' hw hx (j := 2) (by omega) (of6 2), Res.ok_bind, vget_holds he' hw hx (j := 3) (by omega) (of6 3),
      Res.ok_bind, vget_holds he' hw hx (j := 4) (by omega) (of6 4), Res.ok_bind,
      vget_holds he' hw hx (j := 5) (by omega) (of6 5), Res.ok_bind]
    rw [addAt_eq ha hn (hin 1 (by omega) (by omega)) (hoff 1), Res.ok_bind,
      addAt_eq (IFace.upd_wf ha _) (by simpa using hn) (by simpa using hin 2 (by omega) (by omega)) (by simpa using hoff 2), Res.ok_bind,
      addAt_eq (IFace.upd_wf (IFace.upd_wf ha _) _) (by simpa using hn) (by simpa using hin 3 (by omega) (by omega)) (by simpa using hoff 3),
      Res.ok_bind,
      addAt_eq (IFace.upd_wf (IFace.upd_wf (IFace.upd_wf ha _) _) _) (by simpa using hn) (by simpa using hin 4 (by omega) (by omega))
        (by simpa using hoff 4)]
    rfl

/-- **C105** What the unused kernel of the current does (on one thread): it adds the current in the cells from the first interior cell up to the one before the last interior cell, in the
order of the array. It returns: no access is out of bounds. -/
theorem C105_current (mult : α) {fluid rhs : Chunk α} {u v : Cell → Nat → α} (hf : fluid.Layout g M [(0, (p : Int)), (0, 5)])
    (hr : rhs.Layout g M [(0, (p : Int)), (0, 6)]) (hg : 0 ≤ g) (hM : Pos M) (hp : 1 ≤ p) (hu : fluid.Holds (grow g M ++ [(0, (p : Int))]) 5 u)
    (hv : rhs.Holds (grow g M ++ [(0, (p : Int))]) 6 v) :
    ∃ rhs', currentWalk mult fluid rhs = .ok rhs' ∧ rhs'.Layout g M [(0, (p : Int)), (0, 6)] ∧
      rhs'.Holds (grow g M ++ [(0, (p : Int))]) 6 fun x j => if Walked (grow g M ++ [(0, (p : Int))]) (M ++ [(0, (p : Int))]) x then withCurrent mult (u x) j (v x j) else v x j := by
  have hf' : fluid.Layout g M [(0, (p : Int)), (0, ((5 : Nat) : Int))] := hf
  have hr' : rhs.Layout g M [(0, (p : Int)), (0, ((6 : Nat) : Int))] := hr
  obtain ⟨a1, a2, a3⟩ := walk_bounds hf' hg hM hp (by decide)
  obtain ⟨b1, b2, -⟩ := walk_bounds hr' hg hM hp (by decide)
  obtain ⟨X, n, hn, hX, hW⟩ := walk_cells (p := p) hg hM hp
  unfold currentWalk
  rw [a1, Res.ok_bind, b1, Res.ok_bind]
  simp only [a3, Res.ok_bind, a2, b2]
  have e1 : ∀ z : Int, (((5 : Nat) : Int) * z).tdiv 5 = z := fun z => by simp
  have hnn : 0 ≤ offset (grow g M ++ [(0, (p : Int))]) (lastCell (M ++ [(0, (p : Int))])) := by
    have hpos : Pos (M ++ [(0, (p : Int))]) := by
      rw [pos_append]; exact ⟨hM, by intro d hd; simp at hd; subst hd; simp; omega⟩
    have i2 := inBox_interior (g := g) hg (inBox_last hpos)
    exact (offset_nonneg i2.pos i2).1
  have e2 : (((5 : Nat) : Int) * offset (grow g M ++ [(0, (p : Int))]) (lastCell (M ++ [(0, (p : Int))])) + 1 + 1).tdiv 5 = offset (grow g M ++ [(0, (p : Int))]) (lastCell (M ++ [(0, (p : Int))])) := by
    rw [Int.tdiv_eq_ediv_of_nonneg (by omega)]; omega
  rw [e1, e2, ← hn, Int.toNat_natCast]
  refine walk_holds hr' hg hM hp hv (js := [0, 1, 2]) (by decide) (by decide) (fun x j => withCurrent mult (u x) j) ?_ (fun k hk => (hX k hk).1) ?_ hW ?_
  · intro x j v hj
    unfold withCurrent
    rw [if_neg]
    intro h; apply hj; simp; omega
  · intro i hi j hj e
    have h1 := (hX i hi).2; have h2 := (hX j hj).2; rw [e] at h1; omega
  · intro k hk a ha har
    obtain ⟨hx, ho⟩ := hX k hk
    have hn : a.rng.dims ≠ [] := by rw [har, hr.dims]; simp
    have hin : ∀ j : Int, 0 ≤ j → j < 6 → InBox a.rng.dims (X k ++ [j]) := by
      intro j h0 h1
      rw [har, hr.dims, FV.layout_split]
      exact (inBox_snoc hx.length_eq).2 ⟨hx, h0, h1⟩
    have hoff : ∀ j : Int, ((6 : Nat) : Int) * offset (grow g M ++ [(0, (p : Int))]) (firstCell (M ++ [(0, (p : Int))])) + 6 * (k : Nat) + j = offset a.rng.dims (X k ++ [j]) := by
      intro j
      rw [har, hr.dims, FV.layout_split, offset_snoc (by rw [hx.length_eq]), ho]; push_cast; ring
    have of5 : ∀ j : Int, ((5 : Nat) : Int) * offset (grow g M ++ [(0, (p : Int))]) (firstCell (M ++ [(0, (p : Int))])) + 1 + 5 * (k : Nat) + j = offset fluid.arr.rng.dims (X k ++ [0]) + (j + 1) := by
      intro j
      rw [hf.dims, FV.layout_split, offset_snoc (by rw [hx.length_eq]), ho]; push_cast; ring
    unfold Source.currentAt
    rw [vget_holds hf' hu hx (j := 1) (by omega) (by simpa using of5 0), Res.ok_bind, addAt_eq ha hn (hin 0 (by omega) (by omega)) (hoff 0), Res.ok_bind,
      vget_holds hf' hu hx (j := 2) (by omega) (of5 1), Res.ok_bind,
      addAt_eq (IFace.upd_wf ha _) (by simpa using hn) (by simpa using hin 1 (by omega) (by omega)) (by simpa using hoff 1), Res.ok_bind,
      vget_holds hf' hu hx (j := 3) (by omega) (of5 2), Res.ok_bind,
      addAt_eq (IFace.upd_wf (IFace.upd_wf ha _) _) (by simpa using hn) (by simpa using hin 2 (by omega) (by omega)) (by simpa using hoff 2)]
    rfl

omit [Arith α] in
/-- **C105** So the cells are not those of the mesh: the last interior cell is always left out, and with two or more dimensions ghost cells at the upper end of the last dimension are
included (here with at least two cells along the first dimension and one basis point). -/
theorem C105_cells_false (hg : 0 < g) (hM : Pos M) : ¬ Walked (grow g M ++ [(0, 1)]) (M ++ [(0, 1)]) (lastCell (M ++ [(0, 1)])) ∧
    ∀ a b : Int × Int, a.1 + 1 < a.2 → M = [a, b] → InBox (grow g M ++ [(0, 1)]) [a.1, b.2, 0] ∧ ¬ InBox (M ++ [(0, 1)]) [a.1, b.2, 0] ∧ Walked (grow g M ++ [(0, 1)]) (M ++ [(0, 1)]) [a.1, b.2, 0] := by
  refine ⟨fun h => by unfold Walked at h; omega, ?_⟩
  rintro a b h rfl
  have hb : b.1 < b.2 := hM b (by simp)
  refine ⟨?_, ?_, ?_, ?_⟩
  · refine .cons ⟨?_, ?_⟩ (.cons ⟨?_, ?_⟩ (.cons ⟨?_, ?_⟩ .nil)) <;> dsimp <;> omega
  · intro h
    simp [InBox] at h
  · simp [offset, offsetFrom, firstCell, grow]; nlinarith
  · simp [offset, offsetFrom, lastCell, grow]; nlinarith

omit [Arith α] in
/-- **C105**, what holds: in one dimension, with one basis point, the cells are those of the mesh but the last. -/
theorem C105_cells_partial {a : Int × Int} (hg : 0 ≤ g) {x : Cell} (hx : InBox (grow g [a] ++ [(0, 1)]) x) :
    Walked (grow g [a] ++ [(0, 1)]) ([a] ++ [(0, 1)]) x ↔ InBox ([a] ++ [(0, 1)]) x ∧ x ≠ lastCell ([a] ++ [(0, 1)]) := by
  match x, hx with
  | [i, j], .cons h1 (.cons h2 .nil) =>
    have : j = 0 := by dsimp at h2; omega
    subst this
    simp [Walked, offset, offsetFrom, firstCell, lastCell, grow, InBox]
    omega

end

/-- `dataset::sync` always throws: that is all it does. -/
theorem sync_throws (v : Var α) : v.sync = .throw "qk::data::dataset::sync : Function really doesn't work yet." := rfl

/-- **C105** `face_basis::setup` with one point per dimension stores the numbers and appends a point at 0 of weight 1, with any other number it throws with the numbers already stored; after `n`
calls that return there are `n` points and weights more, although the basis has `num_dims` points. -/
theorem C105_face_basis (b : FaceBasis α) (d q : Int) :
    FaceBasis.setup d q b = (if q = 1 then
      .ok () ⟨⟨b.base.name, d⟩, d, 1, b.points ++ [Arith.lit 0], b.weights ++ [Arith.lit 1]⟩
    else .throw "qk::basis::face_basis::setup : Not yet setup for multiple points per dimensions." ⟨⟨b.base.name, d * q⟩, d, q, b.points, b.weights⟩) ∧
    ∀ n : Nat, ∃ b', (List.replicate n ()).forM (fun _ => FaceBasis.setup d 1) b = .ok () b' ∧ b'.points.length = b.points.length + n ∧ b'.weights.length = b.weights.length + n ∧
      (0 < n → b'.base.points = d) := by
  have key : ∀ (b : FaceBasis α) (q : Int), FaceBasis.setup d q b = (if q = 1 then
      .ok () ⟨⟨b.base.name, d⟩, d, 1, b.points ++ [Arith.lit 0], b.weights ++ [Arith.lit 1]⟩
    else .throw "qk::basis::face_basis::setup : Not yet setup for multiple points per dimensions." ⟨⟨b.base.name, d * q⟩, d, q, b.points, b.weights⟩) := by
    intro b q
    by_cases h : q = 1
    · subst h
      rw [if_pos rfl]
      show SRes.ok () _ = _
      simp
    · rw [if_neg h]
      unfold FaceBasis.setup
      rw [if_pos h]
      rfl
  refine ⟨key b q, fun n => ?_⟩
  induction n generalizing b with
  | zero => exact ⟨b, rfl, by simp, by simp, by simp⟩
  | succ n ih =>
    have h1 := key b 1
    rw [if_pos rfl] at h1
    obtain ⟨b', e, e1, e2, e3⟩ := ih ⟨⟨b.base.name, d⟩, d, 1, b.points ++ [Arith.lit 0], b.weights ++ [Arith.lit 1]⟩
    refine ⟨b', ?_, ?_, ?_, ?_⟩
    · rw [List.replicate_succ]
      show (FaceBasis.setup d 1 >>= fun _ => _) b = _
      rw [SM.bind_ok h1]; exact e
    · rw [e1]; simp; omega
    · rw [e2]; simp; omega
    · intro _
      cases n with
      | zero => cases e; rfl
      | succ n => exact e3 (by omega)

/-- The kernels on a mesh of 3 by 2 cells: the ghost cell (0, 2) gets a force and a current, the last interior cell (2, 1) does not. -/
example : ∃ fluid field rhs rhs' src src' : Chunk ℝ, fluid.Layout 2 [(0, 3), (0, 2)] [(0, 1), (0, 5)] ∧ field.Layout 2 [(0, 3), (0, 2)] [(0, 1), (0, 6)] ∧
    lorentzWalk 2 fluid field rhs = .ok rhs' ∧ rhs'.arr.val [0, 2, 0, 1] = some (-2) ∧ rhs'.arr.val [2, 1, 0, 1] = some 0 ∧ rhs'.arr.val [1, 1, 0, 1] = some (-2) ∧
    currentWalk 2 fluid src = .ok src' ∧ src'.arr.val [0, 2, 0, 1] = some 6 ∧ src'.arr.val [2, 1, 0, 1] = some 0 ∧ src'.arr.val [1, 1, 0, 1] = some 6 := by
  obtain ⟨c5, _, h5, _⟩ := resize_layout (0 : ℝ) Chunk.default (mesh := Range.setup [(0, 3), (0, 2)]) (dataR := Range.setup [(0, 1), (0, 5)])
    (g := 2) (by decide) (by decide) (by decide)
  obtain ⟨c6, _, h6, _⟩ := resize_layout (0 : ℝ) Chunk.default (mesh := Range.setup [(0, 3), (0, 2)]) (dataR := Range.setup [(0, 1), (0, 6)])
    (g := 2) (by decide) (by decide) (by decide)
  obtain ⟨fluid, f1, f2⟩ := exists_uniform (p := 1) (n := 5) h5 fun j => j + 1
  obtain ⟨rhs, r1, r2⟩ := exists_uniform (p := 1) (n := 5) h5 fun _ => 0
  obtain ⟨field, e1, e2⟩ := exists_uniform (p := 1) (n := 6) h6 fun j => j + 1
  obtain ⟨src, s1, s2⟩ := exists_uniform (p := 1) (n := 6) h6 fun _ => 0
  obtain ⟨rhs', a1, -, a2⟩ := C105_lorentz (2 : ℝ) f1 e1 r1 (by decide) (by decide) (le_refl _) f2 e2 r2
  obtain ⟨src', b1, -, b2⟩ := C105_current (2 : ℝ) f1 s1 (by decide) (by decide) (le_refl _) f2 s2
  have g1 := a2 [0, 2, 0] (by decide) 1 (by decide)
  have g2 := a2 [2, 1, 0] (by decide) 1 (by decide)
  have g3 := a2 [1, 1, 0] (by decide) 1 (by decide)
  have g4 := b2 [0, 2, 0] (by decide) 1 (by decide)
  have g5 := b2 [2, 1, 0] (by decide) 1 (by decide)
  have g6 := b2 [1, 1, 0] (by decide) 1 (by decide)
  dsimp only at g1 g2 g3 g4 g5 g6
  rw [if_pos (by decide)] at g1 g3 g4 g6
  rw [if_neg (by decide)] at g2 g5
  refine ⟨fluid, field, rhs, rhs', src, src', f1, e1, a1, g1.trans ?_, g2, g3.trans ?_, b1, g4.trans ?_, g5, g6.trans ?_⟩ <;> norm_num [withForce, withCurrent]

/-- The basis after two calls: one point asked for, two in the lists. -/
example : ∃ b' : FaceBasis ℝ, (List.replicate 2 ()).forM (fun _ => FaceBasis.setup 1 1) FaceBasis.default = .ok () b' ∧ b'.base.points = 1 ∧ b'.points.length = 2 := by
  obtain ⟨b', h, h1, -, h2⟩ := (C105_face_basis (FaceBasis.default : FaceBasis ℝ) 1 1).2 2
  exact ⟨b', h, h2 (by decide), h1⟩

end QK.Props
