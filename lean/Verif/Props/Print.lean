import Verif.Spec.Print
import Verif.Proofs.Vtk
import Verif.Proofs.Solvers
import Verif.Proofs.Program
import Verif.Props.Sources
/-
C104: the printing solver.
-/
namespace QK.Props
open QK Spec SM Solve
variable {α : Type}

theorem indexToks_eq (idx : Indexer) (pre : Cell) : ∀ (x : Cell), idx.index = pre ++ x →
    Print.indexToks (α := α) idx (pre ++ x).length x.length = .ok ((x.map Tok.int).intersperse (.text ", "))
  := by
  intro x
  induction x generalizing pre with
  | nil => intro _; rfl
  | cons a x ih =>
    intro h
    have hi : (pre ++ a :: x).length - ((a :: x).length) = pre.length := by simp
    have := ih (pre ++ [a]) (by rw [h]; simp)
    rw [List.append_assoc, List.singleton_append] at this
    rw [List.length_cons] at hi ⊢
    unfold Print.indexToks
    simp only [hi]
    rw [vget_of_getElem? (v := a) (by rw [h]; simp), Res.ok_bind, this, Res.ok_bind]
    cases x with
    | nil => simp
    | cons b x => simp

theorem foldl_lines {σ : Type} {f : List σ → Cell → Res (List σ)} {w : Cell → List σ} : ∀ {L : List Cell}, (∀ x ∈ L, ∀ out, f out x = .ok (out ++ w x)) →
    ∀ out, L.foldlM f out = .ok (out ++ L.flatMap w) := by
  intro L
  induction L with
  | nil => intro _ out; simp
  | cons x L ih =>
    intro h out
    rw [List.foldlM_cons, h x (by simp), Res.ok_bind, ih (fun y hy => h y (List.mem_cons_of_mem _ hy)), List.flatMap_cons, List.append_assoc]

theorem within_interior {g : Int} (hg : 0 ≤ g) (M D : Box) : Range.Within (grow g M ++ D) (M ++ D) := by
  rw [within_iff]
  refine ⟨by simp, fun j hj => ?_⟩
  by_cases c : j < M.length
  · rw [lo_append c, hi_append c, lo_append (by simpa using c), hi_append (by simpa using c), lo_grow c, hi_grow c]; omega
  · have h1 : (grow g M).length ≤ j := by rw [grow_length]; omega
    have h2 : M.length ≤ j := by omega
    rw [lo_append_right h1, hi_append_right h1, lo_append_right h2, hi_append_right h2, grow_length]; simp

theorem printChunk_spec {c : Chunk α} {g : Int} {M D : Box} (hl : c.Layout g M D) (hg : 0 ≤ g) (hp : Pos (M ++ D)) (hne : M ++ D ≠ []) {u : Cell → α}
    (hu : ∀ x, InBox (M ++ D) x → c.arr.val x = some (u x)) (out : List (Tok α)) : Print.chunk c out = .ok (out ++ (cells (M ++ D)).flatMap fun x => printLine x (u x)) := by
  unfold Print.chunk IFace.indexer
  have hd : c.arr.rng.dims = grow g M ++ D := hl.dims
  have hn : c.arr.rng.dims ≠ [] := by rw [hd]; intro e; apply hne; simpa [grow] using e
  rw [hl.internal, Indexer.forEach_make hn (by rw [hd]; exact within_interior hg M D) hp]
  refine foldl_lines ?_ out
  intro x hx out
  have hx' := mem_cells.1 hx
  rw [show (Range.setup (M ++ D)).dims = M ++ D from rfl, IFace.get_onCell hl.wf hn (by rw [hd]; exact inBox_interior hg hx') _ (hu x hx')]
  have e : (Indexer.onCell (M ++ D) c.arr.rng.dims x).sup.numDims = x.length := by
    rw [hx'.length_eq]; simp [Indexer.onCell, Range.numDims, hd]
  have := indexToks_eq (α := α) (Indexer.onCell (M ++ D) c.arr.rng.dims x) [] x rfl
  rw [List.nil_append] at this
  rw [e, this]
  rfl

theorem printVar_spec {S : VarId → Prop} {m : Mgr α} (h : m.Good S) (hL : m.Laid) {id : VarId} {a : Nat} (ha : m.addr id = some a) (hp : 0 < id.basis.points) (hc : id.comps ≠ []) {u : Cell → α}
    (hu : m.Stores id u) (out : List (Tok α)) :
    Print.var a ⟨m, out⟩ = .ok () ⟨m, out ++ printout id.name (m.grid.rng.dims ++ [(0, id.basis.points), (0, (id.comps.length : Int))]) u⟩ := by
  obtain ⟨c, hcon, hval⟩ := hu
  obtain ⟨v, c', h1, e1, _, _, _, _, h7, h8⟩ := h.stored' ha
  rw [hcon] at h8; cases h8
  have hne : chunkBox m.grid.rng.dims.length ≠ [] := by
    intro e
    have := congrArg List.length e
    simp only [chunkBox, List.length_replicate, List.length_nil] at this
    exact h.mesh_ne (List.length_eq_zero_iff.1 this)
  unfold Print.var
  apply modifyRes_ok
  simp only [vget_ok h1, Res.ok_bind, h7]
  unfold IFace.indexer
  rw [Indexer.forEach_make hne ((within_iff _ _).2 ⟨rfl, fun j hj => ⟨le_refl _, le_refl _⟩⟩) (pos_chunkBox _)]
  simp only [Range.setup_dims, cells_chunkBox, List.foldlM_cons, List.foldlM_nil]
  have hget : ∀ idx : Indexer, idx.linear = 0 → (IFace.mk (Range.setup (chunkBox m.grid.rng.dims.length)) [c]).get idx = .ok c := by
    intro idx h; unfold IFace.get; rw [h]; rfl
  rw [hget _ (by simp [Indexer.onCell, offset_chunkBox]), Res.ok_bind]
  have pos : Pos (m.grid.rng.dims ++ [(0, id.basis.points), (0, (id.comps.length : Int))]) := by
    intro d hd
    rcases List.mem_append.1 hd with hd | hd
    · exact h.mesh_pos d hd
    · simp at hd
      rcases hd with rfl | rfl
      · exact hp
      · simpa using List.length_pos_iff.2 hc
  rw [printChunk_spec (hL id c hcon) (by decide) pos (by simp) (fun x hx => hval x (inBox_interior (by decide) hx))]
  simp only [e1, printout, List.append_assoc]
  rfl

/-- **C104** The printing solver returns and appends for each of its ids a heading and one line for every interior position (cell, basis point, component) with its indices and value, the
last index varying fastest; ghost cells are not shown. The stored variables do not change, but those that do not exist are created, with zeros, and shown. -/
theorem C104_print [Arith α] {S : VarId → Prop} (V : VarId → Cell → α) : ∀ (ids : List VarId) {m : Mgr α}, m.Good S → m.Laid →
    (∀ id ∈ ids, S id ∧ 0 < id.basis.points ∧ id.comps ≠ [] ∧ m.Initial id (V id)) → ∀ out : List (Tok α),
    ∃ m', Print.solve ids ⟨m, out⟩ =
        .ok () ⟨m', out ++ ids.flatMap fun id => printout id.name (m.grid.rng.dims ++ [(0, id.basis.points), (0, (id.comps.length : Int))]) (V id)⟩ ∧
      m'.Good S ∧ m'.Laid ∧ m.Extends m' ∧ m'.contents = m.requested (Arith.lit 0) ids := by
  intro ids
  induction ids with
  | nil =>
    intro m h hL _ out
    refine ⟨m, by simp; rfl, h, hL, .refl m, ?_⟩
    funext id; unfold Mgr.requested; cases m.contents id <;> simp
  | cons i ids ih =>
    intro m h hL hids out
    obtain ⟨hS, hp, hc, hI⟩ := hids i (by simp)
    obtain ⟨a, m1, e1, g1, l1, x1, b1, c1⟩ := outputVar_requested h hL hS
    have hst : m1.Stores i (V i) := by
      obtain ⟨c, hc, hx⟩ := requested_initial h hS hI
      refine ⟨c, by rw [c1]; exact hc, ?_⟩
      unfold Mgr.arrayBox; rw [x1.grid]; exact hx
    have hrest : ∀ id ∈ ids, S id ∧ 0 < id.basis.points ∧ id.comps ≠ [] ∧ m1.Initial id (V id) := by
      intro id hid
      obtain ⟨k1, k2, k3, k4⟩ := hids id (List.mem_cons_of_mem _ hid)
      refine ⟨k1, k2, k3, ?_⟩
      by_cases e : id = i
      · subst e; exact .inl hst
      · rcases k4 with ⟨c, hc, hx⟩ | ⟨hn, hz⟩
        · refine .inl ⟨c, by rw [c1, requested_ne e]; exact hc, ?_⟩
          unfold Mgr.arrayBox; rw [x1.grid]; exact hx
        · exact .inr ⟨by rw [c1, requested_ne e]; exact hn, hz⟩
    obtain ⟨m', q1, q2, q3, q4, q5⟩ := ih g1 l1 hrest (out ++ printout i.name (m1.grid.rng.dims ++ [(0, i.basis.points), (0, (i.comps.length : Int))]) (V i))
    refine ⟨m', ?_, q2, q3, x1.trans q4, ?_⟩
    · unfold Print.solve
      have : Print.onMgr (outputVar i) (⟨m, out⟩ : Console α) = .ok a ⟨m1, out⟩ := by unfold Print.onMgr; rw [e1]
      rw [bind_ok this, bind_ok (printVar_spec g1 l1 b1 hp hc hst out), q1, List.flatMap_cons, x1.grid, List.append_assoc]
    · rw [q5, Mgr.requested_cons _ x1.grid c1]

-- the lines of a variable of two components on two cells
example (a b c d : ℝ) : printout "q" [(0, 2), (0, 1), (0, 2)] (fun x => if x = [0, 0, 0] then a else if x = [0, 0, 1] then b else if x = [1, 0, 0] then c else d) =
    [.text "Printing Variable '", .text "q", .text "'\n",
     .text "Index (", .int 0, .text ", ", .int 0, .text ", ", .int 0, .text ") : ", .num a, .text "\n",
     .text "Index (", .int 0, .text ", ", .int 0, .text ", ", .int 1, .text ") : ", .num b, .text "\n",
     .text "Index (", .int 1, .text ", ", .int 0, .text ", ", .int 0, .text ") : ", .num c, .text "\n",
     .text "Index (", .int 1, .text ", ", .int 0, .text ", ", .int 1, .text ") : ", .num d, .text "\n"] := by
  simp [printout, printLine, show cells [(0, 2), (0, 1), (0, 2)] = [[0, 0, 0], [0, 0, 1], [1, 0, 0], [1, 0, 1]] by decide]

-- C104: printing a variable of a new manager creates it
example {g : Rectilinear ℝ} (hn : g.rng.dims ≠ []) (hp : Pos g.rng.dims) : ∃ m', Print.solve [⟨"q", ["a"], Basis.volumeAverage⟩] ⟨Mgr.make g, []⟩ =
    .ok () ⟨m', printout "q" (g.rng.dims ++ [(0, 1), (0, 1)]) fun _ => 0⟩ ∧ m'.contents ⟨"q", ["a"], Basis.volumeAverage⟩ ≠ none := by
  have hG : (Mgr.make g).Good (fun id => id = ⟨"q", ["a"], Basis.volumeAverage⟩) := by
    refine ⟨?_, ?_, hn, hp, ?_, ?_, ?_, ?_⟩
    · rintro a b rfl rfl _; rfl
    · rintro id rfl; decide
    all_goals simp [Mgr.make]
  have hz : (fun _ : Cell => (0 : ℝ)) = fun _ => Arith.lit 0 := by funext _; simp [real_lit]
  obtain ⟨m', h1, -, -, -, h5⟩ := C104_print (fun _ _ => (0 : ℝ)) [⟨"q", ["a"], Basis.volumeAverage⟩] hG (fun id c h => by simp [Mgr.make, Mgr.contents, Mgr.addr] at h)
    (by simp [Basis.volumeAverage]; exact .inr ⟨rfl, hz⟩) []
  refine ⟨m', h1.trans ?_, ?_⟩
  · simp [Mgr.make, Basis.volumeAverage]
  · rw [h5]; unfold Mgr.requested; simp [Mgr.make, Mgr.contents, Mgr.addr]

end QK.Props
