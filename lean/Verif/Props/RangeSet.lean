import Verif.Proofs.RangeSet
/-
Properties of `range_set`: C31, C32.
-/
namespace QK.Props
open Spec

/-- **C31** `range_set(super, subdivisions)` tiles the super-range: every cell of the super-range is
in the sub-range of exactly one position, and sub-ranges contain no other cells. Lengths and
subdivision counts are below `2^24`, `rnd` is rounding to `float`. -/
theorem C31_tiles {rnd : ℚ → ℚ} (h : Round32 rnd) {sup : Range} {subs : List Int}
    (hd : 0 < sup.numDims) (hs : Small sup.dims subs) :
    ∃ g, RangeSet.make rnd sup subs = .ok g ∧ g.rng.dims = subs.map (fun n => (0, n)) ∧
      (∀ k, InBox g.rng.dims k → ∃ r, g.val k = some r) ∧
      (∀ x, InBox sup.dims x → ∃ k, (InBox g.rng.dims k ∧ ∃ r, g.val k = some r ∧ InBox r.dims x) ∧
        ∀ k', InBox g.rng.dims k' → (∃ r, g.val k' = some r ∧ InBox r.dims x) → k' = k) ∧
      (∀ k r, InBox g.rng.dims k → g.val k = some r → ∀ x, InBox r.dims x → InBox sup.dims x) := by
  obtain ⟨g, h1, _, h3, h4⟩ := setup_spec h ⟨.empty, []⟩ hd hs
  refine ⟨g, h1, h3, ?_, ?_, ?_⟩
  · intro k hk; exact ⟨_, h4 k (by rw [← h3]; exact hk)⟩
  · intro x hx
    obtain ⟨k, hk1, hk2⟩ := mem_tiles hs hx
    refine ⟨k, ⟨by rw [h3]; exact hk1, _, h4 k hk1, hk2⟩, ?_⟩
    rintro k' hk' ⟨r, hr, hxr⟩
    rw [h3] at hk'
    rw [h4 k' hk'] at hr
    cases hr
    exact tiles_unique hs hk' hk1 hxr hk2
  · intro k r hk hr x hx
    rw [h3] at hk
    rw [h4 k hk] at hr
    cases hr
    exact tiles_sub hs hk hx

-- 10 × 7 cells cut 3 × 2: not divisible, the last pieces are shorter
example : Small [(0, 10), (-3, 4)] [3, 2] ∧ tiles [(0, 10), (-3, 4)] [3, 2] [2, 1] = [(8, 10), (1, 4)] := by decide

/-- **C32** is false: 5 cells in 4 pieces give pieces of `⌈5/4⌉ = 2`, and the last "piece" starts at 6
and ends at 5. -/
theorem C32_well_formed_false :
    ¬ (∀ (rnd : ℚ → ℚ), Round32 rnd → ∀ (sup : Range) (subs : List Int), 0 < sup.numDims → Small sup.dims subs →
      ∀ g, RangeSet.make rnd sup subs = .ok g → ∀ k r, InBox g.rng.dims k → g.val k = some r →
        (∀ d ∈ r.dims, d.1 ≤ d.2) ∧ 0 ≤ r.volume) := by
  intro H
  have hs : Small (Range.setup [(0, 5)]).dims [4] := by decide
  obtain ⟨g, h1, _, h3, h4⟩ := setup_spec round32_id ⟨.empty, []⟩ (sup := Range.setup [(0, 5)]) (by decide) hs
  have hk : InBox ([4].map (fun n => ((0:Int), n))) [3] := by decide
  have := H id round32_id _ _ (by decide) hs g h1 [3] _ (by rw [h3]; exact hk) (h4 [3] hk)
  exact absurd this (by decide)

/-- **C32** holds when no piece would start beyond the end of the super-range (`Fits`): then every
sub-range has `lower ≤ upper` in every dimension and non-negative volume, and the volumes add up to
the volume of the super-range. Missing: the other subdivision counts, for which it is false. -/
theorem C32_well_formed_partial {rnd : ℚ → ℚ} (h : Round32 rnd) {sup : Range} (hsup : sup.WF) {subs : List Int}
    (hd : 0 < sup.numDims) (hs : Small sup.dims subs) (hf : Fits sup.dims subs) :
    ∃ g, RangeSet.make rnd sup subs = .ok g ∧
      (∀ k r, InBox g.rng.dims k → g.val k = some r → (∀ d ∈ r.dims, d.1 ≤ d.2) ∧ 0 ≤ r.volume) ∧
      ((cells g.rng.dims).map (fun k => match g.val k with | some r => r.volume | none => 0)).sum = sup.volume := by
  obtain ⟨g, h1, _, h3, h4⟩ := setup_spec h ⟨.empty, []⟩ hd hs
  have hsn : sup.dims ≠ [] := by intro e; simp [Range.numDims, e] at hd
  have tn : ∀ k, InBox (subs.map (fun n => ((0:Int), n))) k → tiles sup.dims subs k ≠ [] := by
    intro k hk
    cases hB : sup.dims with
    | nil => exact absurd hB hsn
    | cons d B =>
      rw [hB] at hs
      cases hs with
      | cons a b => cases hk with | cons c e => simp [tiles, RangeSet.bounds]
  have vol : ∀ k, InBox (subs.map (fun n => ((0:Int), n))) k →
      (Range.setup (tiles sup.dims subs k)).volume = boxVolume (tiles sup.dims subs k) :=
    fun k hk => Range.volume_setup (tn k hk)
  refine ⟨g, h1, ?_, ?_⟩
  · intro k r hk hr
    rw [h3] at hk
    rw [h4 k hk] at hr
    cases hr
    have hw := tiles_wf hs hf hk
    refine ⟨hw, ?_⟩
    rw [vol k hk]
    unfold boxVolume lengths
    apply prod_nonneg'
    intro a ha
    obtain ⟨d, hd, rfl⟩ := List.mem_map.1 ha
    have := hw d hd
    omega
  · rw [h3, hsup.volume_eq hsn, ← tiles_volume hs hf]
    congr 1
    apply List.map_congr_left
    intro k hk
    have hk' := mem_cells.1 hk
    rw [h4 k hk']
    exact vol k hk'

example : Small [(0, 10), (-3, 4)] [3, 2] ∧ Fits [(0, 10), (-3, 4)] [3, 2] ∧ ¬ Fits [(0, 5)] [4] := by decide

end QK.Props
