import Verif.Proofs.Grid
/-
Properties of the grids: C44 – C46. All in exact arithmetic (`ℝ`).
-/
namespace QK.Props
open Spec

/-! ## C44 -/

/-- **C44** A rectilinear grid on a range of positive lengths: `dx·length = width`, neighbouring centroids
differ by `dx` for every index, and if the index range of the dimension starts at 0 and the width is positive,
every centroid is strictly inside `(start, start+width)` and the first and last one are half a cell from the
ends. -/
theorem C44_rectilinear {range : Range} {s w : List ℝ} {g : Rectilinear ℝ} (h : Rectilinear.make range s w = .ok g)
    (hp : Pos range.dims) {d : Nat} {r : Int × Int} (hd : range.dims[d]? = some r) :
    ∃ st wd dx, s[d]? = some st ∧ w[d]? = some wd ∧ g.start d = .ok st ∧ g.width d = .ok wd ∧ g.dx d = .ok dx ∧
      dx * ((r.2 - r.1 : Int) : ℝ) = wd ∧
      (∀ k : Int, ∃ x x', g.centroid d k = .ok x ∧ g.centroid d (k + 1) = .ok x' ∧ x' - x = dx) ∧
      (r.1 = 0 → 0 < wd →
        (∀ k : Int, r.1 ≤ k → k < r.2 → ∃ x, g.centroid d k = .ok x ∧ st < x ∧ x < st + wd) ∧
        g.centroid d 0 = .ok (st + dx / 2) ∧ g.centroid d (r.2 - 1) = .ok (st + wd - dx / 2)) := by
  obtain ⟨h1, h2, h3, h4, h5, h6, h7⟩ := Rectilinear.make_fields h
  have hlt : d < range.dims.length := (List.getElem?_eq_some_iff.1 hd).1
  obtain ⟨st, hst⟩ : ∃ st, s[d]? = some st := ⟨_, List.getElem?_eq_getElem (by omega)⟩
  obtain ⟨wd, hwd⟩ : ∃ wd, w[d]? = some wd := ⟨_, List.getElem?_eq_getElem (by omega)⟩
  have hdx := h7 d r wd hd hwd
  have hst' : g.startxs[d]? = some st := by rw [h2, List.getElem?_take_of_lt hlt]; exact hst
  have hwd' : g.widths[d]? = some wd := by rw [h3, List.getElem?_take_of_lt hlt]; exact hwd
  have hpos : r.1 < r.2 := hp r (List.mem_of_getElem? hd)
  have hN : (0:ℝ) < ((r.2 - r.1 : Int) : ℝ) := by exact_mod_cast (by omega : 0 < r.2 - r.1)
  have hc : ∀ k : Int, g.centroid d k = .ok (st + ((k:ℝ) + 1/2) * (wd / ((r.2 - r.1 : Int) : ℝ))) := by
    intro k
    unfold Rectilinear.centroid
    rw [vget_ok hst', Res.ok_bind, vget_ok hdx, Res.ok_bind]
    simp only [real_lit, real_ofInt, Res.pure_eq]
    norm_num
  refine ⟨st, wd, wd / ((r.2 - r.1 : Int) : ℝ), hst, hwd, vget_ok hst', vget_ok hwd', vget_ok hdx, ?_, ?_, ?_⟩
  · exact div_mul_cancel₀ _ hN.ne'
  · intro k
    refine ⟨_, _, hc k, hc (k+1), ?_⟩
    push_cast; ring
  · intro h0 hw
    have hdxpos : 0 < wd / ((r.2 - r.1 : Int) : ℝ) := div_pos hw hN
    have hmul : wd / ((r.2 - r.1 : Int) : ℝ) * ((r.2 - r.1 : Int) : ℝ) = wd := div_mul_cancel₀ _ hN.ne'
    refine ⟨?_, ?_, ?_⟩
    · intro k hk0 hk1
      refine ⟨_, hc k, ?_, ?_⟩
      · have : (0:ℝ) ≤ (k:ℝ) := by exact_mod_cast (by omega : 0 ≤ k)
        nlinarith
      · have : (k:ℝ) + 1 ≤ ((r.2 - r.1 : Int) : ℝ) := by exact_mod_cast (by omega : k + 1 ≤ r.2 - r.1)
        nlinarith
    · rw [hc]; congr 1; push_cast; ring
    · rw [hc]; congr 1
      have e : ((r.2 - 1 : Int) : ℝ) = ((r.2 - r.1 : Int) : ℝ) - 1 := by rw [h0]; push_cast; ring
      rw [e]
      generalize ((r.2 - r.1 : Int) : ℝ) = N at *
      field_simp
      ring

/-- **C44** (construction) The constructor succeeds whenever the two arrays are long enough. -/
theorem C44_construct {range : Range} {s w : List ℝ} (hs : range.dims.length ≤ s.length) (hw : range.dims.length ≤ w.length) :
    ∃ g, Rectilinear.make range s w = .ok g := Rectilinear.make_ok hs hw

example : ∃ g, Rectilinear.make (Range.setup [(0, 4), (0, 2)]) [(-1:ℝ), 0] [2, 3] = .ok g ∧
    g.centroid 0 3 = .ok (-1 + 2 - (2/4)/2) := by
  obtain ⟨g, h⟩ := C44_construct (range := Range.setup [(0, 4), (0, 2)]) (s := [(-1:ℝ), 0]) (w := [2, 3]) (by decide) (by decide)
  obtain ⟨st, wd, dx, h1, h2, _, _, _, h3, _, h4⟩ := C44_rectilinear h (by decide) (d := 0) (r := (0, 4)) rfl
  simp at h1 h2
  subst h1; subst h2
  obtain ⟨_, _, h6⟩ := h4 rfl (by norm_num)
  refine ⟨g, h, ?_⟩
  have : dx = 2/4 := by norm_num at h3; linarith
  rw [this] at h6
  simpa using h6

/-! ## C45 -/

/-- **C45** is false: on the index range `[2,4)`, start 0, width 1 the first cell has its centroid at 1.25,
not at 0.25. -/
theorem C45_false : ∃ g, Rectilinear.make (Range.setup [(2, 4)]) [(0:ℝ)] [1] = .ok g ∧
    g.centroid 0 2 = .ok 1.25 ∧ ∃ dx, g.dx 0 = .ok dx ∧ g.centroid 0 2 ≠ .ok (0 + dx / 2) := by
  obtain ⟨g, h⟩ := Rectilinear.make_ok (range := Range.setup [(2, 4)]) (s := [(0:ℝ)]) (w := [1]) (by decide) (by decide)
  obtain ⟨h1, h2, h3, h4, h5, h6, h7⟩ := Rectilinear.make_fields h
  have hdx : g.dxs[0]? = some (1 / ((2 : Int) : ℝ)) := h7 0 (2, 4) 1 rfl rfl
  have hst : g.startxs[0]? = some 0 := by rw [h2]; rfl
  have hc : g.centroid 0 2 = .ok 1.25 := by
    unfold Rectilinear.centroid
    have e1 : vget g.startxs 0 = .ok 0 := vget_ok (i := 0) hst
    have e2 : vget g.dxs 0 = .ok (1 / ((2 : Int) : ℝ)) := vget_ok (i := 0) hdx
    rw [e1, e2]
    simp only [Res.ok_bind, real_lit, real_ofInt, Res.pure_eq, Res.ok.injEq]
    norm_num
  refine ⟨g, h, hc, _, vget_ok (i := 0) hdx, ?_⟩
  rw [hc]
  intro e
  have := Res.ok.inj e
  norm_num at this

/-- **C45**, what holds: the centroid of the first cell is off by `lower·dx`, so it is at `start + dx/2`
exactly when `lower = 0` (or the cells have no width). Missing: grids whose index range does not start at 0
(see `C45_false`). -/
theorem C45_partial {range : Range} {s w : List ℝ} {g : Rectilinear ℝ} (h : Rectilinear.make range s w = .ok g)
    {d : Nat} {r : Int × Int} (hd : range.dims[d]? = some r) :
    ∃ st dx, g.start d = .ok st ∧ g.dx d = .ok dx ∧ g.centroid d r.1 = .ok (st + dx / 2 + r.1 * dx) ∧
      (g.centroid d r.1 = .ok (st + dx / 2) ↔ r.1 = 0 ∨ dx = 0) := by
  obtain ⟨h1, h2, h3, h4, h5, h6, h7⟩ := Rectilinear.make_fields h
  have hlt : d < range.dims.length := (List.getElem?_eq_some_iff.1 hd).1
  obtain ⟨st, hst⟩ : ∃ st, g.startxs[d]? = some st := by
    rw [h2, List.getElem?_take_of_lt hlt]; exact ⟨_, List.getElem?_eq_getElem (by omega)⟩
  obtain ⟨dx, hdx⟩ : ∃ dx, g.dxs[d]? = some dx := ⟨_, List.getElem?_eq_getElem (by omega)⟩
  have hc : g.centroid d r.1 = .ok (st + dx / 2 + r.1 * dx) := by
    unfold Rectilinear.centroid
    rw [vget_ok hst, Res.ok_bind, vget_ok hdx, Res.ok_bind]
    simp only [real_lit, real_ofInt, Res.pure_eq, Res.ok.injEq]
    norm_num; ring
  refine ⟨st, dx, vget_ok hst, vget_ok hdx, hc, ?_⟩
  rw [hc, Res.ok.injEq, add_eq_left, mul_eq_zero, Int.cast_eq_zero]

/-! ## C46 -/

/-- **C46** (centroids) On every structured grid obtained by construction and any number of re-biasing calls,
the centroid of cell `i` of a dimension is `start + Σ_{j<i} dx(j) + dx(i)/2`, for all cells. -/
theorem C46_centroids {g : Structured ℝ} (h : g.Made) {d : Nat} {r : Int × Int} (hd : g.rng.dims[d]? = some r)
    {i : Nat} (hi : (i : Int) < r.2 - r.1) :
    ∃ st, g.startxs[d]? = some st ∧ ∃ dx : Nat → ℝ, (∀ j : Nat, (j : Int) < r.2 - r.1 → g.dx d j = .ok (dx j)) ∧
      g.centroid d i = .ok (st + ((List.range i).map dx).sum + dx i / 2) := by
  obtain ⟨⟨st, dl, xl, a1, a2, a3, a4, a5⟩, ⟨dl', b1, b2⟩⟩ := (Structured.made_inv h).ok d r hd
  rw [a2] at b1; cases b1
  refine ⟨st, a1, fun j => dl.getD j 0, ?_, ?_⟩
  · intro j hj
    unfold Structured.dx
    rw [vget_ok a2, Res.ok_bind]
    have : j < dl.length := by omega
    rw [vget_nat this]; simp [List.getElem?_eq_getElem this]
  · unfold Structured.centroid
    rw [vget_ok a3, Res.ok_bind, vget_ok (a5 i (by omega))]
    have hs : ∀ n, n ≤ dl.length → ((List.range n).map (fun j => dl.getD j 0)).sum = Structured.prefixSum dl n := by
      intro n
      induction n with
      | zero => intro _; simp [Structured.prefixSum]
      | succ n ih =>
        intro hn
        have e : dl.take (n+1) = dl.take n ++ [dl[n]] := by
          rw [List.take_succ, List.getElem?_eq_getElem (show n < dl.length by omega)]; rfl
        rw [List.range_succ, List.map_append, List.sum_append, ih (by omega)]
        unfold Structured.prefixSum
        rw [e, List.sum_append]
        simp [List.getElem?_eq_getElem (show n < dl.length by omega)]
    rw [hs i (by omega)]

/-- **C46** (mirror) After `apply_bias_symmetric` the cell widths of that dimension are mirror symmetric. -/
theorem C46_mirror {g g' : Structured ℝ} (h : g.Made) {d : Int} {p : ℝ} (hb : Structured.biasSymmetric g d p = .ok g') :
    ∃ dl, g'.dxs[d.toNat]? = some dl ∧ dl.reverse = dl := by
  have hI := Structured.made_inv h
  obtain ⟨hI', _, w, L, N, P, nd, _, _, hN, _, _, _, h7⟩ := Structured.biasSymmetric_inv hI hb
  obtain ⟨q, hq, _⟩ := Structured.length_ok hN
  have hlt : d.toNat < g.dxs.length := by
    rw [vget_eq_ok_iff] at hq
    rw [hI.dxs_len]; exact (List.getElem?_eq_some_iff.1 hq.2).1
  refine ⟨_, by rw [h7, List.getElem?_set_self hlt], ?_⟩
  rw [List.reverse_append, List.reverse_reverse]

/-- **C46**, width part, what holds: with an exponent of at least 1 the biased cell widths sum to `2·⌊width/2⌋`
(symmetric) or `⌊width⌋` (linear), where `⌊·⌋` is truncation to an integer. Missing: the sum is the width only
when `width/2` resp. `width` is an integer (see `C46_width_false`). -/
theorem C46_widths_partial {g g' : Structured ℝ} (h : g.Made) {d : Int} {p : ℝ} (hp : 1 ≤ p) :
    (Structured.biasSymmetric g d p = .ok g' → ∃ w dl, vget g.widths d = .ok w ∧ g'.dxs[d.toNat]? = some dl ∧
      dl.sum = 2 * (truncReal (w / 2) : ℝ)) ∧
    (Structured.biasLinear g d p = .ok g' → ∃ w dl, vget g.widths d = .ok w ∧ g'.dxs[d.toNat]? = some dl ∧
      dl.sum = (truncReal w : ℝ)) := by
  have hI := Structured.made_inv h
  have htr : ∀ (x : ℝ) (L : Int), Arith.toInt x = .ok L → L = truncReal x := by
    intro x L h
    have h' : (if -(2 : Int) ^ 31 ≤ truncReal x ∧ truncReal x < 2 ^ 31 then Res.ok (truncReal x)
      else .ub "conversion to int out of range") = .ok L := h
    split at h'
    · exact (Res.ok.inj h').symm
    · cases h'
  have hP1 : ∀ P, Arith.toInt p = .ok P → 1 ≤ P := by
    intro P hP
    rw [htr p P hP, truncReal, if_pos (by linarith)]
    exact Int.le_floor.2 (by exact_mod_cast hp)
  have hlt : ∀ N, g.rng.length d = .ok N → d.toNat < g.dxs.length := by
    intro N hN
    obtain ⟨q, hq, _⟩ := Structured.length_ok hN
    rw [vget_eq_ok_iff] at hq
    rw [hI.dxs_len]; exact (List.getElem?_eq_some_iff.1 hq.2).1
  have hsum : ∀ (c : ℝ) (l : List ℝ), (l.map (fun v => c * v)).sum = c * l.sum := by
    intro c l; rw [List.sum_map_mul_left]; simp
  constructor
  · intro hb
    obtain ⟨_, _, w, L, N, P, nd, h1, h2, h3, _, h4, h5, h7⟩ := Structured.biasSymmetric_inv hI hb
    refine ⟨w, _, h1, by rw [h7, List.getElem?_set_self (hlt N h3)], ?_⟩
    obtain ⟨_, _, _, hs⟩ := Structured.biasArray_spec (hP1 P h4) h5
    rw [List.sum_append, List.sum_reverse, hsum, hs, htr _ _ h2]; ring
  · intro hb
    obtain ⟨_, _, w, L, N, P, nd, h1, h2, h3, h4, h5, h7⟩ := Structured.biasLinear_inv hI hb
    refine ⟨w, _, h1, by rw [h7, List.getElem?_set_self (hlt N h3)], ?_⟩
    obtain ⟨_, _, _, hs⟩ := Structured.biasArray_spec (hP1 P h4) h5
    rw [List.sum_reverse, hsum, hs, htr _ _ h2, mul_one]

/-- A one-dimensional grid of two cells on `[0,1)`. -/
noncomputable def unitGrid : Structured ℝ :=
  { rng := Range.setup [(0, 2)], startxs := [0], widths := [1], dxs := [[1/2, 1/2]], xcs := [[1/4, 3/4]] }

theorem unitGrid_make : Structured.make (Range.setup [(0, 2)]) [(0:ℝ)] [1] = .ok unitGrid := by
  have h : ∀ x : ℝ, (x / Arith.ofInt 2 : ℝ) = x / 2 := by intro x; simp [real_ofInt]
  simp only [Structured.make, Rectilinear.readArray, Range.copy, Range.setup, Range.numDims, Range.strideLoop]
  simp [vget, vset, List.range_succ, Range.length, Range.upper, Range.lower, Structured.recalc, Structured.xcsLoop, h, real_lit,
    unitGrid, Range.setup, Range.strideLoop, List.replicate]
  norm_num

/-- **C46**, width part, is false: on a grid of width 1 both halves of a symmetric bias get width `int(0.5) = 0`,
so all cells have width 0. -/
theorem C46_width_false : ∃ g g' : Structured ℝ, g.Made ∧ g.widths = [1] ∧
    Structured.biasSymmetric g 0 2 = .ok g' ∧ g'.dxs = [[0, 0]] := by
  have h1 : (Arith.toInt ((1:ℝ) / Arith.lit 2) : Res Int) = .ok 0 := by
    have ht : truncReal ((1:ℝ) / Arith.lit 2) = 0 := by
      unfold truncReal
      rw [real_lit, if_pos (by norm_num), Int.floor_eq_iff]
      norm_num
    show (if -(2 : Int) ^ 31 ≤ truncReal ((1:ℝ) / Arith.lit 2) ∧ truncReal ((1:ℝ) / Arith.lit 2) < 2 ^ 31 then
      Res.ok (truncReal ((1:ℝ) / Arith.lit 2)) else _) = _
    rw [ht]; rfl
  have h2 : (Arith.toInt (2:ℝ) : Res Int) = .ok 2 := by
    have ht : truncReal (2:ℝ) = 2 := by
      unfold truncReal
      rw [if_pos (by norm_num), Int.floor_eq_iff]
      norm_num
    show (if -(2 : Int) ^ 31 ≤ truncReal (2:ℝ) ∧ truncReal (2:ℝ) < 2 ^ 31 then
      Res.ok (truncReal (2:ℝ)) else _) = _
    rw [ht]; rfl
  have h3 : ∃ g', Structured.biasSymmetric unitGrid 0 2 = .ok g' ∧ g'.dxs = [[0, 0]] := by
    unfold Structured.biasSymmetric
    have e1 : vget unitGrid.widths 0 = .ok 1 := rfl
    have e2 : unitGrid.rng.length 0 = .ok 2 := rfl
    rw [e1, Res.ok_bind, h1, Res.ok_bind, e2, Res.ok_bind, if_neg (by decide), h2, Res.ok_bind]
    have e3 : ∃ v : ℝ, Structured.biasArray (α := ℝ) ((2:Int).tdiv 2) 2 = .ok [v] := ⟨_, rfl⟩
    obtain ⟨v, e3⟩ := e3
    rw [e3, Res.ok_bind]
    have e4 : (Arith.ofInt 0 : ℝ) * v = 0 := by simp [real_ofInt]
    simp only [List.map_cons, List.map_nil, List.reverse_cons, List.reverse_nil, List.nil_append, e4]
    have e5 : vset unitGrid.dxs 0 ([0] ++ [0]) = .ok [[0, 0]] := rfl
    rw [e5, Res.ok_bind]
    unfold Structured.recalc
    exact ⟨_, rfl, rfl⟩
  obtain ⟨g', h3, h4⟩ := h3
  exact ⟨unitGrid, g', .make unitGrid_make, rfl, h3, h4⟩

-- `unitGrid` is a grid the theorems above speak about
example : unitGrid.Made ∧ unitGrid.centroid 0 1 = .ok (3/4) := ⟨.make unitGrid_make, rfl⟩

end QK.Props
