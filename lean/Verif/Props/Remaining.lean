import Verif.Props.BC
import Verif.Props.Container
import Verif.Props.AdvectProgram
import Verif.Props.PulseProgram
/- What holds of properties that are false of the code: C21, C30, C87. -/
namespace QK.Props
open QK Spec

/-! ## C21 -/

section
variable {α : Type}

/-- **C21**, what holds: ranges of different volumes are rejected with nothing changed; a range inside the destination is written and nothing else (`C20_copy_to`). For a destination range
that is not inside the chunk the call changes at most one element, the first.
Missing: that it changes none (`C21_copy_to_out_of_bounds_false`). -/
theorem C21_partial {zero : α} {src : Option (IFace α)} {dst : IFace α} {fromR toR : Range} (hs : ∀ s, src = some s → s.Made zero) (hd : dst.Made zero)
    (hsn : 0 < (src.getD dst).rng.numDims) (hdn : dst.data ≠ []) (hfm : fromR.Made) (htm : toR.Made) (hfp : Pos fromR.dims)
    (hin : (src.getD dst).rng.includes fromR = true) (hout : dst.rng.includes toR = false) (hdim : toR.numDims = dst.rng.numDims) :
    (fromR.volume ≠ toR.volume → ∃ m, IFace.copyTo src fromR dst toR = .throw m) ∧
    (fromR.volume = toR.volume → ∃ g, IFace.copyTo src fromR dst toR = .ok g ∧ g.rng = dst.rng ∧ g.data.length = dst.data.length ∧ ∀ k ≠ 0, g.data[k]? = dst.data[k]?) := by
  refine ⟨C20_copy_to_mismatch, fun hv => ?_⟩
  obtain ⟨v, -, h⟩ := C21_copy_to_out_of_bounds_false hs hd hsn hdn hfm htm hfp hin hout hdim hv
  refine ⟨_, h, rfl, by simp, fun k hk => ?_⟩
  show (dst.data.set 0 v)[k]? = _
  rw [List.getElem?_set_ne (Ne.symm hk)]

/-- **C21**, exactly: a destination range that is not inside the chunk leaves the chunk as it was precisely if its first element equals the first cell of the source range already. -/
theorem C21_exactly {zero : α} {src : Option (IFace α)} {dst : IFace α} {fromR toR : Range} (hs : ∀ s, src = some s → s.Made zero) (hd : dst.Made zero)
    (hsn : 0 < (src.getD dst).rng.numDims) (hdn : dst.data ≠ []) (hfm : fromR.Made) (htm : toR.Made) (hfp : Pos fromR.dims)
    (hin : (src.getD dst).rng.includes fromR = true) (hout : dst.rng.includes toR = false) (hdim : toR.numDims = dst.rng.numDims)
    (hvol : fromR.volume = toR.volume) :
    IFace.copyTo src fromR dst toR = .ok dst ↔ dst.data[0]? = (src.getD dst).val (fromR.dims.map Prod.fst) := by
  obtain ⟨v, hv, h⟩ := C21_copy_to_out_of_bounds_false hs hd hsn hdn hfm htm hfp hin hout hdim hvol
  rw [h, hv]
  have h0 : 0 < dst.data.length := List.length_pos_of_ne_nil hdn
  constructor
  · intro e
    have e := congrArg IFace.data (Res.ok.inj e)
    simp only at e
    rw [← e, List.getElem?_set_self h0]
  · intro e
    congr 1
    have : dst.data.set 0 v = dst.data := by
      refine List.ext_getElem? fun k => ?_
      rcases Nat.eq_zero_or_pos k with rfl | hk
      · rw [List.getElem?_set_self h0, e]
      · rw [List.getElem?_set_ne (by omega)]
    rw [this]

-- the container of C21's example, where the first element is copied onto itself
example : IFace.copyTo none (Range.setup [(0, 1), (0, 1)]) demo (Range.setup [(7, 8), (0, 1)]) = .ok demo :=
  (C21_exactly (zero := 0) (src := none) (fromR := Range.setup [(0, 1), (0, 1)]) (toR := Range.setup [(7, 8), (0, 1)]) (by intro s hs; cases hs) demo_made (by decide) (by decide)
    (.ofBounds (n := 2) (lo := [0, 0]) (hi := [1, 1]) rfl) (.ofBounds (n := 2) (lo := [7, 0]) (hi := [8, 1]) rfl) (by decide) (by decide) (by decide) rfl (by decide)).2 (by decide)

/-! ## C30 -/

variable {c : Chunk α} {g : Int} {M D : Box}

/-- **C30**, what holds: with at least four components every wall condition changes the sign of the momentum normal to the wall (the conducting wall: of the first four components).
Missing: an error for fewer components (`C30_too_few_components_silent`). -/
theorem C30_partial (mul : α → α → α) (m1 : α) (h : c.Layout g M D) (hg : 1 ≤ g) (hM : Pos M) (hD : Pos D) (hDn : D ≠ []) (hlo : lo D (D.length - 1) ≤ 0) (hhi : 4 ≤ hi D (D.length - 1))
    {ds : List Nat} (hds : Wide g M ds) (h3 : M.length ≤ 3) {bc : List Int → Chunk α → Res (Chunk α)} (hbc : bc = BC.noSlip mul m1 ∨ bc = BC.freeSlip mul m1 ∨ bc = BC.conductingWall mul m1) :
    ∃ c', bc (ints ds) c = .ok c' ∧
      ∀ i ∈ ds, ∀ x, FaceGhost g (M ++ D) i x → component x = i + 1 → c'.arr.val x = (c.arr.val (mirrorImage g (M ++ D) i x)).map (fun v => mul v m1) := by
  have dim : ∀ i ∈ ds, i < M.length := fun i hi => (hds i hi).1
  rcases hbc with rfl | rfl | rfl
  · obtain ⟨c', h1, -, h2, -⟩ := C26_no_slip mul m1 h hg hM hD hDn (by omega) hhi hds
    refine ⟨c', h1, fun i hi x hx hc => ?_⟩
    have := dim i hi
    rw [h2 i hi x hx, if_pos (by omega)]
  · obtain ⟨c', h1, -, h2, -⟩ := C28_free_slip_partial mul m1 h hg hM hD hDn (by omega) hhi hds h3
    exact ⟨c', h1, fun i hi x hx hc => (h2 i hi x hx).1 hc⟩
  · obtain ⟨c', h1, -, h2, -⟩ := C27_conducting_wall mul m1 h hg hM hD hDn hlo hhi hds
    refine ⟨c', h1, fun i hi x hx hc => ?_⟩
    have := dim i hi
    rw [h2 i hi x hx, if_pos (by omega)]

-- a chunk with four components, all ones: what is in the ghost cell of the momentum along the mesh
example : ∃ (c c' : Chunk Int), BC.freeSlip (· * ·) (-1) (ints [0]) c = .ok c' ∧ c'.arr.val [-1, 0, 1] = some (-1) := by
  obtain ⟨c, hl, hv⟩ := demo_chunk 4 (by decide)
  obtain ⟨c', h1, h2⟩ := C30_partial (· * ·) (-1) hl (by decide) (by decide) (by decide) (by decide) (by decide) (by decide) (ds := [0]) (by decide) (by decide) (.inr (.inl rfl))
  refine ⟨c, c', h1, ?_⟩
  rw [h2 0 (by simp) [-1, 0, 1] (by decide) (by decide), hv _ (by decide)]
  rfl
end

/-! ## C87 -/

section
variable {α : Type}

theorem ends {canOpen : Nat → Bool} {n : Nat} {file : Nat → List (Tok α)} {r : SRes (Run α) Unit} (h : RunEnds canOpen n file r) : (∃ s, r = .ok () s) ∨ ∃ msg s, r = .throw msg s := by
  by_cases hc : ∀ j ≤ n, canOpen j = true
  · obtain ⟨m, e⟩ := h.1 hc
    exact .inl ⟨_, e⟩
  · classical
    have hc : ∃ j, j ≤ n ∧ canOpen j = false := by
      by_contra hcon
      exact hc fun j hj => by
        by_contra hf
        exact hcon ⟨j, hj, by simpa using hf⟩
    obtain ⟨h1, h2⟩ := Nat.find_spec hc
    obtain ⟨msg, m, e⟩ := h.2 _ h1 (fun j hj => by
      have := Nat.find_min hc hj
      by_contra hf
      exact this ⟨by omega, by simpa using hf⟩) h2
    exact .inr ⟨msg, _, e⟩

variable [Arith α]

/-- **C87**, what holds: after any initial condition that returns and stores their variable, both programs end, normally or with an exception, for all numbers of cells, frames and steps.
Missing: their own initial conditions, which are undefined on these meshes (`C87_false`). -/
theorem C87_partial : (∀ {nx : Int}, 2 ≤ nx → ∃ g : Rectilinear α, GaussianPulse.grid nx = .ok g ∧
      ∀ (ic : SM (Mgr α) Unit) (m0 : Mgr α) (u : Cell → α), ic (Mgr.make g) = .ok () m0 → m0.Good (fun id => id ∈ Wave1D.field.ids) → m0.Laid → m0.grid = g → m0.Stores Wave1D.field.q u →
      ∀ (canOpen : Nat → Bool) (numFrames numSteps : Nat) r,
        Run.main ic canOpen [Wave1D.field.q] ((GaussianPulse.solvers : Light α).step true) (Wave1D.timeDt numFrames numSteps) numFrames numSteps ⟨Mgr.make g, []⟩ = r →
        (∃ s, r = .ok () s) ∨ ∃ msg s, r = .throw msg s) ∧
    (∀ {nx ny : Int}, 1 ≤ nx → 1 ≤ ny → ∃ g : Rectilinear α, AdvectGaussian.grid nx ny = .ok g ∧
      ∀ (ic : SM (Mgr α) Unit) (m0 : Mgr α) (u : Cell → α), ic (Mgr.make g) = .ok () m0 → m0.Good advectIds → m0.Laid → m0.grid = g → m0.Stores AdvectGaussian.var u →
      ∀ (canOpen : Nat → Bool) (numFrames numSteps : Nat) r,
        Run.main ic canOpen [AdvectGaussian.var] AdvectGaussian.step (Wave1D.timeDt numFrames numSteps) numFrames numSteps ⟨Mgr.make g, []⟩ = r →
        (∃ s, r = .ok () s) ∨ ∃ msg s, r = .throw msg s) := by
  constructor
  · intro nx hnx
    obtain ⟨g, h1, -, h2⟩ := C113_program (α := α) hnx
    refine ⟨g, h1, fun ic m0 u a b c d e canOpen nf ns r hr => ?_⟩
    obtain ⟨⟨_, _, _, _, _, k⟩, -⟩ := h2 ic m0 u a b c d e canOpen nf ns
    rw [← hr]
    exact ends k
  · intro nx ny hnx hny
    obtain ⟨g, h1, -, h2⟩ := C96_program (α := α) hnx hny
    refine ⟨g, h1, fun ic m0 u a b c d e canOpen nf ns r hr => ?_⟩
    obtain ⟨_, _, _, _, _, k⟩ := h2 ic m0 u a b c d e (Wave1D.timeDt nf ns) canOpen nf ns
    rw [← hr]
    exact ends k

end
end QK.Props
