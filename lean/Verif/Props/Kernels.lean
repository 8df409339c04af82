import Verif.Proofs.FvReal
import Verif.Spec.Parallel
import Verif.Props.BC
/- Properties of the Euler and Maxwell kernels. -/
namespace QK.Props
open QK Spec Prog

variable {g : Int} {M : Box} {p : Nat}

/-! ### C50, C51: the HLL flux -/

private theorem vec2 (a b c : ℝ) : (![a, b, c] : Vec) 2 = c := rfl


/-- **C50** For equal left and right states with positive density and pressure the code's flux is the flux of
the Euler equations (exact arithmetic). -/
theorem C50_hll_consistent (gamma : ℝ) (hgm : 0 < gamma) (d : Fin 3) (q : Gas) (hr : 0 < q.rho) (hP : 0 < q.pressure gamma) :
    Euler.hll gamma (d : Nat) q.comps q.comps = .ok (q.flux gamma d).comps := by
  rw [Euler.hll_gas]
  have hc : 0 < q.sound gamma := Real.sqrt_pos.2 (by positivity)
  have hne : q.vel d + q.sound gamma - (q.vel d - q.sound gamma) ≠ 0 := by linarith
  have key : ∀ f x : ℝ, (1 / (q.vel d + q.sound gamma - (q.vel d - q.sound gamma))) *
      (1 * ((q.vel d + q.sound gamma) * f + -(q.vel d - q.sound gamma) * f) +
        (q.vel d - q.sound gamma) * (q.vel d + q.sound gamma) * (1 * x + -1 * x)) + 0 * x = f := by
    intro f x
    have : (q.vel d + q.sound gamma) * f + -(q.vel d - q.sound gamma) * f =
      (q.vel d + q.sound gamma - (q.vel d - q.sound gamma)) * f := by ring
    rw [one_mul, this]
    field_simp
    ring
  unfold Gas.comps Gas.hllFlux Gas.lin
  simp only [key]
  by_cases h1 : 0 < q.vel d - q.sound gamma
  · rw [if_neg (by rintro ⟨_, h⟩; linarith), if_pos h1, if_neg (by linarith)]
    simp
  · by_cases h2 : q.vel d + q.sound gamma < 0
    · rw [if_neg (by rintro ⟨h, _⟩; linarith), if_neg h1, if_pos h2]
      simp
    · rw [if_pos ⟨by linarith, by linarith⟩, if_neg h1, if_neg h2]
      simp

example : (0 : ℝ) < 5 / 3 ∧ 0 < (⟨1, ![1, 2, 0], 10⟩ : Gas).rho ∧ 0 < (⟨1, ![1, 2, 0], 10⟩ : Gas).pressure (5 / 3) := by
  refine ⟨by norm_num, by norm_num, ?_⟩
  norm_num [Gas.pressure, vdot, vec2]

/-- **C51** is false of the code: for colliding supersonic streams both one-sided multipliers are 1, and the
flux is the sum of both physical fluxes, which is neither the left flux, nor the right flux, nor the
intermediate flux. -/
theorem C51_false : ∃ (gamma : ℝ) (l r : Gas), 1 < gamma ∧ 0 < l.rho ∧ 0 < r.rho ∧ 0 < l.pressure gamma ∧ 0 < r.pressure gamma ∧
    Euler.hll gamma ((0 : Fin 3) : Nat) l.comps r.comps = .ok (Gas.lin 1 (l.flux gamma 0) 1 (r.flux gamma 0)).comps ∧
    (∀ out, Euler.hll gamma ((0 : Fin 3) : Nat) l.comps r.comps = .ok out →
      out ≠ (l.flux gamma 0).comps ∧ out ≠ (r.flux gamma 0).comps ∧
      out ≠ (Gas.hllFlux gamma 0 (l.vel 0 - l.sound gamma) (r.vel 0 + r.sound gamma) l r).comps) := by
  have hPl : (⟨1, ![3, 0, 0], 13 / 2⟩ : Gas).pressure 2 = 2 := by norm_num [Gas.pressure, vdot, vec2]
  have hPr : (⟨1, ![-3, 0, 0], 13 / 2⟩ : Gas).pressure 2 = 2 := by norm_num [Gas.pressure, vdot, vec2]
  have hsq : Real.sqrt (2 * 2 / 1) = 2 := by
    rw [show (2 * 2 / 1 : ℝ) = 2 ^ 2 by norm_num]; exact Real.sqrt_sq (by norm_num)
  have hcl : (⟨1, ![3, 0, 0], 13 / 2⟩ : Gas).sound 2 = 2 := by unfold Gas.sound; rw [hPl]; exact hsq
  have hcr : (⟨1, ![-3, 0, 0], 13 / 2⟩ : Gas).sound 2 = 2 := by unfold Gas.sound; rw [hPr]; exact hsq
  have hvl : (⟨1, ![3, 0, 0], 13 / 2⟩ : Gas).vel 0 = 3 := by norm_num [Gas.vel]
  have hvr : (⟨1, ![-3, 0, 0], 13 / 2⟩ : Gas).vel 0 = -3 := by norm_num [Gas.vel]
  have e : Euler.hll 2 ((0 : Fin 3) : Nat) (⟨1, ![3, 0, 0], 13 / 2⟩ : Gas).comps (⟨1, ![-3, 0, 0], 13 / 2⟩ : Gas).comps =
      .ok (Gas.lin 1 ((⟨1, ![3, 0, 0], 13 / 2⟩ : Gas).flux 2 0) 1 ((⟨1, ![-3, 0, 0], 13 / 2⟩ : Gas).flux 2 0)).comps := by
    rw [Euler.hll_gas, hcl, hcr, hvl, hvr]
    rw [if_neg (by norm_num), if_pos (by norm_num), if_pos (by norm_num)]
    simp [Gas.lin, Gas.comps]
  refine ⟨2, ⟨1, ![3, 0, 0], 13 / 2⟩, ⟨1, ![-3, 0, 0], 13 / 2⟩, by norm_num, by norm_num, by norm_num, ?_, ?_, e, ?_⟩
  · rw [hPl]; norm_num
  · rw [hPr]; norm_num
  · intro out ho
    rw [e] at ho
    injection ho with ho
    subst ho
    refine ⟨?_, ?_, ?_⟩
    · intro h
      have := congrArg (fun l : List ℝ => l.getD 0 0) h
      simp [Gas.lin, Gas.comps, Gas.flux] at this
    · intro h
      have := congrArg (fun l : List ℝ => l.getD 0 0) h
      simp [Gas.lin, Gas.comps, Gas.flux] at this
    · intro h
      have := congrArg (fun l : List ℝ => l.getD 1 0) h
      rw [hcl, hcr, hvl, hvr] at this
      simp only [Gas.hllFlux, Gas.lin, Gas.comps, Gas.flux, hPl, hPr, hvl, hvr, unit, List.getD_cons_succ, List.getD_cons_zero] at this
      norm_num at this

/-- **C51**, the flux in every case (exact arithmetic): the left flux, the right flux or the intermediate flux, and the sum of the left and the
right flux if the left state moves to the right and the right state to the left, both faster than sound. (For negative pressures the code has NaN
and `Real.sqrt` is 0: C79 treats them.) -/
theorem C51_cases (gamma : ℝ) (d : Fin 3) (l r : Gas) :
    Euler.hll gamma (d : Nat) l.comps r.comps = .ok (
      if 0 < l.vel d - l.sound gamma then
        if r.vel d + r.sound gamma < 0 then (Gas.lin 1 (l.flux gamma d) 1 (r.flux gamma d)).comps else (l.flux gamma d).comps
      else if r.vel d + r.sound gamma < 0 then (r.flux gamma d).comps
      else (Gas.hllFlux gamma d (l.vel d - l.sound gamma) (r.vel d + r.sound gamma) l r).comps) := by
  rw [Euler.hll_gas]
  by_cases h1 : 0 < l.vel d - l.sound gamma
  · rw [if_pos h1, if_neg (by rintro ⟨_, h⟩; linarith), if_pos h1]
    by_cases h2 : r.vel d + r.sound gamma < 0
    · rw [if_pos h2, if_pos h2]
      simp [Gas.lin, Gas.comps]
    · rw [if_neg h2, if_neg h2]
      simp [Gas.lin, Gas.comps]
  · rw [if_neg h1]
    by_cases h2 : r.vel d + r.sound gamma < 0
    · rw [if_pos h2, if_neg (by rintro ⟨h, _⟩; linarith), if_neg h1, if_pos h2]
      simp [Gas.lin, Gas.comps]
    · rw [if_neg h2, if_pos ⟨by linarith, by linarith⟩, if_neg h1, if_neg h2]
      simp [Gas.lin, Gas.comps]

/-- **C51**, what holds: unless both states move towards the wall faster than sound, the flux is exactly one of the three, chosen by the signs of the
speeds (exact arithmetic). Missing: colliding supersonic states, see `C51_false`; `C51_exactly` says that these are all. -/
theorem C51_one_branch_partial (gamma : ℝ) (d : Fin 3) (l r : Gas) (h : ¬ (0 < l.vel d - l.sound gamma ∧ r.vel d + r.sound gamma < 0)) :
    Euler.hll gamma (d : Nat) l.comps r.comps = .ok (
      if 0 < l.vel d - l.sound gamma then (l.flux gamma d).comps
      else if r.vel d + r.sound gamma < 0 then (r.flux gamma d).comps
      else (Gas.hllFlux gamma d (l.vel d - l.sound gamma) (r.vel d + r.sound gamma) l r).comps) := by
  rw [C51_cases]
  by_cases h1 : 0 < l.vel d - l.sound gamma
  · rw [if_pos h1, if_pos h1, if_neg fun h2 => h ⟨h1, h2⟩]
  · rw [if_neg h1, if_neg h1]

/-- **C51**: the flux is the one chosen by the signs of the speeds exactly if the states do not collide faster than sound. -/
theorem C51_exactly (gamma : ℝ) (d : Fin 3) (l r : Gas) :
    Euler.hll gamma (d : Nat) l.comps r.comps = .ok (
      if 0 < l.vel d - l.sound gamma then (l.flux gamma d).comps
      else if r.vel d + r.sound gamma < 0 then (r.flux gamma d).comps
      else (Gas.hllFlux gamma d (l.vel d - l.sound gamma) (r.vel d + r.sound gamma) l r).comps) ↔
    ¬ (0 < l.vel d - l.sound gamma ∧ r.vel d + r.sound gamma < 0) := by
  refine ⟨fun h hc => ?_, C51_one_branch_partial gamma d l r⟩
  rw [C51_cases, if_pos hc.1, if_pos hc.2, if_pos hc.1] at h
  injection h with h
  have h0 := congrArg (fun x : List ℝ => x.headI) h
  simp only [Gas.comps, Gas.lin, List.headI] at h0
  have h1 : (r.flux gamma d).rho = 0 := by linarith
  have h2 : 0 ≤ r.sound gamma := Real.sqrt_nonneg _
  have h3 : r.vel d < 0 := by linarith [hc.2]
  have h4 : (r.flux gamma d).rho = r.mom d := rfl
  rw [h4] at h1
  have h5 : r.vel d = 0 := by unfold Gas.vel; rw [h1]; simp
  linarith

example : ∃ (gamma : ℝ) (l r : Gas), l.vel 0 - l.sound gamma ≤ r.vel 0 + r.sound gamma ∧ l.rho ≠ r.rho :=
  ⟨2, ⟨1, ![0, 0, 0], 1⟩, ⟨2, ![1, 0, 0], 1⟩, by
    have a : 0 ≤ (⟨1, ![0, 0, 0], 1⟩ : Gas).sound 2 := Real.sqrt_nonneg _
    have b : 0 ≤ (⟨2, ![1, 0, 0], 1⟩ : Gas).sound 2 := Real.sqrt_nonneg _
    have c : (⟨1, ![0, 0, 0], 1⟩ : Gas).vel 0 = 0 := by norm_num [Gas.vel]
    have d : (⟨2, ![1, 0, 0], 1⟩ : Gas).vel 0 = 1 / 2 := by norm_num [Gas.vel]
    rw [c, d]
    linarith, by norm_num⟩

/-! ### C58: the Rusanov flux -/

/-- **C58** For equal left and right states the code's flux is the flux of Maxwell's equations (exact
arithmetic). -/
theorem C58_rusanov_consistent (c : ℝ) (d : Fin 3) (E B : Vec) :
    Maxwell.rusanov c (d : Nat) [E 0, E 1, E 2, B 0, B 1, B 2] [E 0, E 1, E 2, B 0, B 1, B 2] = .ok (maxwellFlux c d E B) := by
  unfold maxwellFlux cross unit
  fin_cases d <;>
  · simp [Maxwell.rusanov, real_lit, real_fabs]
    try refine ⟨?_, ?_, ?_, ?_⟩
    all_goals ring

/-! ### C52, C53, C59: the kernels -/

section
variable {α : Type} [Arith α] {q rhs : Chunk α} {grid : Rectilinear α}

theorem widths_of (hdx : grid.dxs.length = M.length) {dim : Nat} (hd : dim < M.length) :
    grid.dx (dim : Nat) = .ok (grid.dxs.getD dim (Arith.lit 0)) := by
  unfold Rectilinear.dx
  exact vget_of_getElem? (by simp [List.getElem?_eq_getElem (show dim < grid.dxs.length by omega)])

/-- **C52**, **C53**, **C59**, Maxwell: with at least two ghost layers and six components per point, for every
number of dimensions, the parallel and the serial kernel run without an access outside the chunks, change only
the contents of `rhs`, and both give every interior cell the same, conservative, update: in every direction (up
to the third) the flux of the cell's lower face is added and the flux of its upper face subtracted. The flux
of a face is one function of the face, so the flux a cell subtracts at its upper face is exactly the flux its
upper neighbour adds at its lower face. -/
theorem C53_maxwell (c : α) (hM : Pos M) (hp : 1 ≤ p) (hg : 2 ≤ g)
    (hq : q.Layout g M [(0, (p : Int)), (0, 6)]) (hr : rhs.Layout g M [(0, (p : Int)), (0, 6)])
    (hgr : grid.rng.dims = M) (hdx : grid.dxs.length = M.length) {u : Cell → Nat → α} (hu : q.Holds (grow g M ++ [(0, (p : Int))]) 6 u) :
    ∃ rmp rfast, Maxwell.solveMp c grid q rhs = .ok rmp ∧ Maxwell.solveFast c grid q rhs = .ok rfast ∧
      rhs.SameShape rmp ∧ rhs.SameShape rfast ∧
      ∀ x, InBox (M ++ [(0, (p : Int))]) x → ∀ j : Nat, j < 6 →
        rmp.arr.val (x ++ [(j : Int)]) = (rhs.arr.val (x ++ [(j : Int)])).map
          (fvUpdate (fun dim => fluxOf (Maxwell.rusanov c dim)) 6 u (fun dim => grid.dxs.getD dim (Arith.lit 0)) (List.range (min M.length 3)) x j) ∧
        rfast.arr.val (x ++ [(j : Int)]) = rmp.arr.val (x ++ [(j : Int)]) := by
  have hn : grid.rng.numDims = M.length := by unfold Range.numDims; rw [hgr]
  have hd : ∀ dim ∈ List.range (min M.length 3), dim < M.length := by
    intro dim h; rw [List.mem_range] at h; omega
  obtain ⟨r1, a1, a2, a3, a4⟩ := FV.solveMp_spec (n := 6) hq hr hM hp (by decide) hg hu (dims := List.range (min M.length 3)) hd
    (fun dim _ => Maxwell.rusanov_isFlux c dim) (fun dim h => widths_of hdx (hd dim h))
  obtain ⟨r2, b1, b2, b3, b4⟩ := FV.solveFast_spec (n := 6) hq hr hM hp (by decide) hg hu (dims := List.range (min M.length 3)) hd
    (fun dim _ => Maxwell.rusanov_isFlux c dim) (fun dim h => widths_of hdx (hd dim h))
  refine ⟨r1, r2, ?_, ?_, a2, b2, ?_⟩
  · unfold Maxwell.solveMp; rw [hn]; exact a1
  · unfold Maxwell.solveFast; rw [hn]; exact b1
  · intro x hx j hj
    exact ⟨a4 x hx j hj, by rw [a4 x hx j hj, b4 x hx j hj]⟩

/-- **C52**, **C53**, **C59**, Euler, for up to four dimensions. -/
theorem C53_euler (gamma : α) (hM : Pos M) (h4 : M.length ≤ 4) (hp : 1 ≤ p) (hg : 2 ≤ g)
    (hq : q.Layout g M [(0, (p : Int)), (0, 5)]) (hr : rhs.Layout g M [(0, (p : Int)), (0, 5)])
    (hgr : grid.rng.dims = M) (hdx : grid.dxs.length = M.length) {u : Cell → Nat → α} (hu : q.Holds (grow g M ++ [(0, (p : Int))]) 5 u) :
    ∃ rmp rfast, Euler.solveMp gamma grid q rhs = .ok rmp ∧ Euler.solveFast gamma grid q rhs = .ok rfast ∧
      rhs.SameShape rmp ∧ rhs.SameShape rfast ∧
      ∀ x, InBox (M ++ [(0, (p : Int))]) x → ∀ j : Nat, j < 5 →
        rmp.arr.val (x ++ [(j : Int)]) = (rhs.arr.val (x ++ [(j : Int)])).map
          (fvUpdate (fun dim => fluxOf (Euler.hll gamma dim)) 5 u (fun dim => grid.dxs.getD dim (Arith.lit 0)) (List.range M.length) x j) ∧
        rfast.arr.val (x ++ [(j : Int)]) = rmp.arr.val (x ++ [(j : Int)]) := by
  have hn : grid.rng.numDims = M.length := by unfold Range.numDims; rw [hgr]
  have hd : ∀ dim ∈ List.range M.length, dim < M.length := by
    intro dim h; rw [List.mem_range] at h; omega
  obtain ⟨r1, a1, a2, a3, a4⟩ := FV.solveMp_spec (n := 5) hq hr hM hp (by decide) hg hu (dims := List.range M.length) hd
    (flux := fun dim => Euler.hll gamma dim) (φ := fun dim => fluxOf (Euler.hll gamma dim))
    (fun dim h => Euler.hll_isFlux gamma (by have := hd dim h; omega)) (fun dim h => widths_of hdx (hd dim h))
  obtain ⟨r2, b1, b2, b3, b4⟩ := FV.solveFast_spec (n := 5) hq hr hM hp (by decide) hg hu (dims := List.range M.length) hd
    (flux := fun dim => Euler.hll gamma dim) (φ := fun dim => fluxOf (Euler.hll gamma dim))
    (fun dim h => Euler.hll_isFlux gamma (by have := hd dim h; omega)) (fun dim h => widths_of hdx (hd dim h))
  refine ⟨r1, r2, ?_, ?_, a2, b2, ?_⟩
  · unfold Euler.solveMp; rw [hn]; exact a1
  · unfold Euler.solveFast; rw [hn]; exact b1
  · intro x hx j hj
    exact ⟨a4 x hx j hj, by rw [a4 x hx j hj, b4 x hx j hj]⟩

/-- A chunk that meets the hypotheses. -/
example : ∃ q : Chunk ℝ, q.Layout 2 [(0, 3), (-1, 4)] [(0, 1), (0, 6)] ∧ Pos [((0 : Int), (3 : Int)), (-1, 4)] := by
  obtain ⟨c, _, h, _⟩ := resize_layout (0 : ℝ) Chunk.default (mesh := Range.setup [(0, 3), (-1, 4)]) (dataR := Range.setup [(0, 1), (0, 6)])
    (g := 2) (by decide) (by decide) (by decide)
  exact ⟨c, h, by decide⟩

/-- **C52**, Maxwell: no access outside the chunks. -/
theorem C52_maxwell_in_bounds (c : α) (hM : Pos M) (hp : 1 ≤ p) (hg : 2 ≤ g)
    (hq : q.Layout g M [(0, (p : Int)), (0, 6)]) (hr : rhs.Layout g M [(0, (p : Int)), (0, 6)])
    (hgr : grid.rng.dims = M) (hdx : grid.dxs.length = M.length) :
    (∃ r, Maxwell.solveMp c grid q rhs = .ok r) ∧ ∃ r, Maxwell.solveFast c grid q rhs = .ok r := by
  obtain ⟨u, hu⟩ := FV.exists_field (n := 6) hq
  obtain ⟨a, b, h1, h2, _⟩ := C53_maxwell c hM hp hg hq hr hgr hdx hu
  exact ⟨⟨a, h1⟩, ⟨b, h2⟩⟩

/-- **C52**, Euler: no access outside the chunks for up to four dimensions. Missing: more dimensions, see
`C52_euler_false`. -/
theorem C52_euler_in_bounds_partial (gamma : α) (hM : Pos M) (h4 : M.length ≤ 4) (hp : 1 ≤ p) (hg : 2 ≤ g)
    (hq : q.Layout g M [(0, (p : Int)), (0, 5)]) (hr : rhs.Layout g M [(0, (p : Int)), (0, 5)])
    (hgr : grid.rng.dims = M) (hdx : grid.dxs.length = M.length) :
    (∃ r, Euler.solveMp gamma grid q rhs = .ok r) ∧ ∃ r, Euler.solveFast gamma grid q rhs = .ok r := by
  obtain ⟨u, hu⟩ := FV.exists_field (n := 5) hq
  obtain ⟨a, b, h1, h2, _⟩ := C53_euler gamma hM h4 hp hg hq hr hgr hdx hu
  exact ⟨⟨a, h1⟩, ⟨b, h2⟩⟩

/-- **C52** is false for the Euler kernel on five or more dimensions: in the fifth direction it reads the
sixth entry of local arrays of five. -/
theorem C52_euler_false (gamma : α) (hM : Pos M) (h5 : 5 ≤ M.length) (hp : 1 ≤ p) (hg : 2 ≤ g)
    (hq : q.Layout g M [(0, (p : Int)), (0, 5)]) (hr : rhs.Layout g M [(0, (p : Int)), (0, 5)])
    (hgr : grid.rng.dims = M) (hdx : grid.dxs.length = M.length) :
    ∃ w, Euler.solveMp gamma grid q rhs = .ub w := by
  have hn : grid.rng.numDims = M.length := by unfold Range.numDims; rw [hgr]
  obtain ⟨u, hu⟩ := FV.exists_field (n := 5) hq
  obtain ⟨k, hk⟩ : ∃ k, M.length = 4 + (k + 1) := ⟨M.length - 5, by omega⟩
  have hd : ∀ dim ∈ List.range 4, dim < M.length := by
    intro dim h; rw [List.mem_range] at h; omega
  obtain ⟨r1, a1, a2, a3, a4⟩ := FV.solveMp_spec (n := 5) hq hr hM hp (by decide) hg hu (dims := List.range 4) hd
    (flux := fun dim => Euler.hll gamma dim) (φ := fun dim => fluxOf (Euler.hll gamma dim))
    (fun dim h => Euler.hll_isFlux gamma (by rw [List.mem_range] at h; omega)) (fun dim h => widths_of hdx (hd dim h))
  obtain ⟨w, hw⟩ := FV.sweepMp_ub (rhs := r1) (n := 5) hq hM hp (by decide) hg (dim := 4) (by omega) (flux := Euler.hll gamma ((4 : Nat) : Int))
    (Euler.hll_ub gamma (dim := 4) (by decide))
    (widths_of hdx (by omega))
  refine ⟨w, ?_⟩
  unfold Euler.solveMp
  rw [hn, hk, List.range_add, List.foldlM_append, a1, Res.ok_bind, List.range_succ_eq_map, List.map_cons, List.foldlM_cons]
  show (FV.sweepMp 5 (Euler.hll gamma ((4 : Nat) : Int)) grid q r1 4 >>= _) = _
  rw [hw]; rfl

example : ∃ q : Chunk ℝ, q.Layout 2 (List.replicate 5 (0, 2)) [(0, 1), (0, 5)] ∧ Pos (List.replicate 5 ((0 : Int), (2 : Int))) := by
  obtain ⟨c, _, h, _⟩ := resize_layout (0 : ℝ) Chunk.default (mesh := Range.setup (List.replicate 5 (0, 2)))
    (dataR := Range.setup [(0, 1), (0, 5)]) (g := 2) (by decide) (by decide) (by decide)
  exact ⟨c, h, by decide⟩

/-- **C59** The serial and the parallel kernels give the same interior. -/
theorem C59_fast_eq_mp (hM : Pos M) (hp : 1 ≤ p) (hg : 2 ≤ g) (hgr : grid.rng.dims = M) (hdx : grid.dxs.length = M.length) :
    (∀ c : α, q.Layout g M [(0, (p : Int)), (0, 6)] → rhs.Layout g M [(0, (p : Int)), (0, 6)] →
      ∃ a b, Maxwell.solveMp c grid q rhs = .ok a ∧ Maxwell.solveFast c grid q rhs = .ok b ∧
        ∀ x, InBox (M ++ [(0, (p : Int)), (0, 6)]) x → b.arr.val x = a.arr.val x) ∧
    (∀ gamma : α, M.length ≤ 4 → q.Layout g M [(0, (p : Int)), (0, 5)] → rhs.Layout g M [(0, (p : Int)), (0, 5)] →
      ∃ a b, Euler.solveMp gamma grid q rhs = .ok a ∧ Euler.solveFast gamma grid q rhs = .ok b ∧
        ∀ x, InBox (M ++ [(0, (p : Int)), (0, 5)]) x → b.arr.val x = a.arr.val x) := by
  have split : ∀ (n : Nat) (x : Cell), InBox (M ++ [(0, (p : Int)), (0, (n : Int))]) x →
      ∃ y, ∃ j : Nat, j < n ∧ InBox (M ++ [(0, (p : Int))]) y ∧ x = y ++ [(j : Int)] := by
    intro n x hx
    rw [FV.layout_split] at hx
    obtain ⟨y, j, rfl⟩ : ∃ y j, x = y ++ [j] := by
      have : x ≠ [] := by intro h; subst h; have := hx.length_eq; simp at this
      exact ⟨_, _, (List.dropLast_append_getLast this).symm⟩
    have hl : y.length = (M ++ [((0 : Int), (p : Int))]).length := by have := hx.length_eq; simpa using this
    rw [inBox_snoc hl] at hx
    obtain ⟨k, rfl⟩ := Int.eq_ofNat_of_zero_le hx.2.1
    exact ⟨y, k, by omega, hx.1, rfl⟩
  constructor
  · intro c hq hr
    obtain ⟨u, hu⟩ := FV.exists_field (n := 6) hq
    obtain ⟨a, b, h1, h2, _, _, h3⟩ := C53_maxwell c hM hp hg hq hr hgr hdx hu
    refine ⟨a, b, h1, h2, ?_⟩
    intro x hx
    obtain ⟨y, j, hj, hy, rfl⟩ := split 6 x hx
    exact (h3 y hy j hj).2
  · intro gamma h4 hq hr
    obtain ⟨u, hu⟩ := FV.exists_field (n := 5) hq
    obtain ⟨a, b, h1, h2, _, _, h3⟩ := C53_euler gamma hM h4 hp hg hq hr hgr hdx hu
    refine ⟨a, b, h1, h2, ?_⟩
    intro x hx
    obtain ⟨y, j, hj, hy, rfl⟩ := split 5 x hx
    exact (h3 y hy j hj).2

/-! ### C54, C55: totals and uniform states (exact arithmetic) -/

theorem rhs_total {n : Nat} {q rhs rhs' : Chunk ℝ} (hM : Pos M) (hp : 1 ≤ p) (hg : 2 ≤ g) (hw : ∀ i < M.length, g ≤ hi M i - lo M i)
    (hper : q.Periodic g M [(0, (p : Int)), (0, (n : Int))]) {u : Cell → Nat → ℝ} (hu : q.Holds (grow g M ++ [(0, (p : Int))]) n u)
    {dims : List Nat} (hd : ∀ dim ∈ dims, dim < M.length) {φ : Nat → List ℝ → List ℝ → List ℝ} {dx : Nat → ℝ}
    (h : ∀ x, InBox (M ++ [(0, (p : Int))]) x → ∀ j : Nat, j < n →
      rhs'.arr.val (x ++ [(j : Int)]) = (rhs.arr.val (x ++ [(j : Int)])).map (fvUpdate φ n u dx dims x j))
    {v v' : Cell → Nat → ℝ} (hv : rhs.Holds (M ++ [(0, (p : Int))]) n v) (hv' : rhs'.Holds (M ++ [(0, (p : Int))]) n v') {j : Nat} (hj : j < n) :
    total (M ++ [(0, (p : Int))]) v' j = total (M ++ [(0, (p : Int))]) v j := by
  rw [← fvUpdate_total hg hM hp hd (u := u) (n := n) ?_ φ dx j v]
  · unfold total
    congr 1
    refine List.map_congr_left fun x hx => ?_
    have hx := mem_cells.1 hx
    have := h x hx j hj
    rw [hv x hx j hj, hv' x hx j hj] at this
    exact Option.some.inj this
  · intro dim hdim x hx k hk
    have hdm := hd dim hdim
    have hdl : dim < (M ++ [((0 : Int), (p : Int))]).length := by simp; omega
    have hgh := periodicImage_snoc (n := (n : Int)) (j := (k : Int)) hdl (by omega) (by omega) hx
    have e := hper dim hdm (x ++ [(k : Int)]) (by rw [FV.layout_split]; exact hgh.1)
    rw [FV.layout_split, hgh.2] at e
    have hin : InBox (grow g M ++ [((0 : Int), (p : Int))]) x := faceGhost_in_array (by omega) hM hdm hx
    have himg : InBox (grow g M ++ [((0 : Int), (p : Int))]) (periodicImage g (M ++ [((0 : Int), (p : Int))]) dim x) :=
      inBox_interior (by omega) (periodicImage_interior hdl (by rw [lo_append hdm, hi_append hdm]; exact hw dim hdm) hx)
    rw [hu x hin k hk, hu _ himg k hk] at e
    exact Option.some.inj e

/-- **C54**, Maxwell: with periodic ghost cells in all dimensions the kernel leaves the total of every component of
the right-hand side unchanged. So after a reset to 0 the total is 0. -/
theorem C54_maxwell_rhs (c : ℝ) {grid : Rectilinear ℝ} {q rhs : Chunk ℝ} (hM : Pos M) (hp : 1 ≤ p) (hg : 2 ≤ g)
    (hw : ∀ i < M.length, g ≤ hi M i - lo M i)
    (hq : q.Layout g M [(0, (p : Int)), (0, 6)]) (hr : rhs.Layout g M [(0, (p : Int)), (0, 6)])
    (hgr : grid.rng.dims = M) (hdx : grid.dxs.length = M.length) (hper : q.Periodic g M [(0, (p : Int)), (0, 6)]) :
    ∃ rhs', Maxwell.solveMp c grid q rhs = .ok rhs' ∧ rhs.SameShape rhs' ∧
      ∀ v v', rhs.Holds (M ++ [(0, (p : Int))]) 6 v → rhs'.Holds (M ++ [(0, (p : Int))]) 6 v' → ∀ j < 6,
        total (M ++ [(0, (p : Int))]) v' j = total (M ++ [(0, (p : Int))]) v j := by
  obtain ⟨u, hu⟩ := FV.exists_field (n := 6) hq
  obtain ⟨a, b, h1, _, h2, _, h3⟩ := C53_maxwell c hM hp hg hq hr hgr hdx hu
  refine ⟨a, h1, h2, fun v v' hv hv' j hj => ?_⟩
  exact rhs_total hM hp hg hw hper hu (by intro d h; rw [List.mem_range] at h; omega) (fun x hx j hj => (h3 x hx j hj).1) hv hv' hj

/-- **C54**, Euler. -/
theorem C54_euler_rhs (gamma : ℝ) {grid : Rectilinear ℝ} {q rhs : Chunk ℝ} (hM : Pos M) (h4 : M.length ≤ 4) (hp : 1 ≤ p) (hg : 2 ≤ g)
    (hw : ∀ i < M.length, g ≤ hi M i - lo M i)
    (hq : q.Layout g M [(0, (p : Int)), (0, 5)]) (hr : rhs.Layout g M [(0, (p : Int)), (0, 5)])
    (hgr : grid.rng.dims = M) (hdx : grid.dxs.length = M.length) (hper : q.Periodic g M [(0, (p : Int)), (0, 5)]) :
    ∃ rhs', Euler.solveMp gamma grid q rhs = .ok rhs' ∧ rhs.SameShape rhs' ∧
      ∀ v v', rhs.Holds (M ++ [(0, (p : Int))]) 5 v → rhs'.Holds (M ++ [(0, (p : Int))]) 5 v' → ∀ j < 5,
        total (M ++ [(0, (p : Int))]) v' j = total (M ++ [(0, (p : Int))]) v j := by
  obtain ⟨u, hu⟩ := FV.exists_field (n := 5) hq
  obtain ⟨a, b, h1, _, h2, _, h3⟩ := C53_euler gamma hM h4 hp hg hq hr hgr hdx hu
  refine ⟨a, h1, h2, fun v v' hv hv' j hj => ?_⟩
  exact rhs_total hM hp hg hw hper hu (by intro d h; rw [List.mem_range] at h; omega) (fun x hx j hj => (h3 x hx j hj).1) hv hv' hj

/-- A periodic chunk: the result of `bc_periodic`. -/
example : ∃ q : Chunk ℝ, q.Layout 2 [(0, 3), (-1, 4)] [(0, 1), (0, 6)] ∧ q.Periodic 2 [(0, 3), (-1, 4)] [(0, 1), (0, 6)] := by
  obtain ⟨c, _, h, _⟩ := resize_layout (0 : ℝ) Chunk.default (mesh := Range.setup [(0, 3), (-1, 4)]) (dataR := Range.setup [(0, 1), (0, 6)])
    (g := 2) (by decide) (by decide) (by decide)
  have h : c.Layout 2 [(0, 3), (-1, 4)] [(0, 1), (0, 6)] := h
  obtain ⟨c', _, h2, h3, h4, h5⟩ := C24_periodic h (ds := [0, 1]) (by decide) (by decide) (by decide) (by decide)
  refine ⟨c', h.sameShape h2, ?_⟩
  intro i hi' x hx
  have hm : i ∈ [0, 1] := by
    have : i < 2 := hi'
    simp; omega
  rw [h3 i hm x hx]
  have hin := h4 i hm x hx
  refine (h5 _ (inBox_interior (by decide) hin) ?_).symm
  intro k hk hg
  exact faceGhost_not_interior (by simp at hk; rcases hk with rfl | rfl <;> decide) hg hin

theorem foldlM_fixed {β γ : Type} {f : β → γ → Res β} {b : β} : ∀ {l : List γ}, (∀ c ∈ l, f b c = .ok b) → l.foldlM f b = .ok b := by
  intro l
  induction l with
  | nil => intro _; rfl
  | cons a t ih =>
    intro h
    rw [List.foldlM_cons, h a (by simp), Res.ok_bind]
    exact ih fun c hc => h c (by simp [hc])

/-- **C55**, Maxwell: on uniform data the right-hand side, ghost cells included, is unchanged. -/
theorem C55_maxwell (c : ℝ) {grid : Rectilinear ℝ} {q rhs : Chunk ℝ} (hM : Pos M) (hp : 1 ≤ p) (hg : 2 ≤ g)
    (hq : q.Layout g M [(0, (p : Int)), (0, 6)]) (hr : rhs.Layout g M [(0, (p : Int)), (0, 6)])
    (hgr : grid.rng.dims = M) (hdx : grid.dxs.length = M.length) (_hd0 : ∀ d ∈ grid.dxs, d ≠ 0)
    {w : Nat → ℝ} (hw : q.Holds (grow g M ++ [(0, (p : Int))]) 6 (fun _ => w)) :
    Maxwell.solveMp c grid q rhs = .ok rhs := by
  have hn : grid.rng.numDims = M.length := by unfold Range.numDims; rw [hgr]
  unfold Maxwell.solveMp
  refine foldlM_fixed fun dim hdim => ?_
  rw [List.mem_range, hn] at hdim
  exact FV.sweepMp_uniform (n := 6) hq hr hM hp (by decide) hg hw (fun _ _ _ _ => rfl) (by omega) (Maxwell.rusanov_isFlux c dim)
    (widths_of hdx (by omega))

/-- **C55**, Euler: for a state of positive density and pressure. -/
theorem C55_euler (gamma : ℝ) {grid : Rectilinear ℝ} {q rhs : Chunk ℝ} (hM : Pos M) (h4 : M.length ≤ 4) (hp : 1 ≤ p) (hg : 2 ≤ g)
    (hq : q.Layout g M [(0, (p : Int)), (0, 5)]) (hr : rhs.Layout g M [(0, (p : Int)), (0, 5)])
    (hgr : grid.rng.dims = M) (hdx : grid.dxs.length = M.length) (_hd0 : ∀ d ∈ grid.dxs, d ≠ 0)
    {w : Gas} (_h0 : 0 < w.rho) (_hP : 0 < w.pressure gamma)
    (hw : q.Holds (grow g M ++ [(0, (p : Int))]) 5 (fun _ j => w.comps.getD j 0)) :
    Euler.solveMp gamma grid q rhs = .ok rhs := by
  have hn : grid.rng.numDims = M.length := by unfold Range.numDims; rw [hgr]
  unfold Euler.solveMp
  refine foldlM_fixed fun dim hdim => ?_
  rw [List.mem_range, hn] at hdim
  exact FV.sweepMp_uniform (n := 5) (w := fun j => w.comps.getD j 0) hq hr hM hp (by decide) hg hw (fun _ _ _ _ => rfl) (by omega) (Euler.hll_isFlux gamma (by omega))
    (widths_of hdx (by omega))

/-- A chunk of any layout can be given any uniform contents. -/
theorem exists_uniform {n : Nat} {c : Chunk ℝ} (h : c.Layout g M [(0, (p : Int)), (0, (n : Int))]) (w : Nat → ℝ) :
    ∃ q : Chunk ℝ, q.Layout g M [(0, (p : Int)), (0, (n : Int))] ∧ q.Holds (grow g M ++ [(0, (p : Int))]) n (fun _ => w) := by
  have hs : c.SameShape { c with arr := { c.arr with data := (List.range c.arr.data.length).map fun i : Nat => w (i % n) } } :=
    ⟨rfl, by simp⟩
  have hL := h.sameShape hs
  refine ⟨_, hL, ?_⟩
  intro x hx j hj
  obtain ⟨u, hu⟩ := FV.exists_field hL
  have e := hu x hx j hj
  rw [e]
  unfold IFace.val at e
  rw [hL.dims, FV.layout_split, offset_snoc (by rw [hx.length_eq])] at e
  have h0 := (offset_nonneg hx.pos hx).1
  rw [List.getElem?_map, Option.map_eq_some_iff] at e
  obtain ⟨a, ha, e⟩ := e
  obtain ⟨_, ha⟩ := List.getElem?_eq_some_iff.1 ha
  rw [List.getElem_range] at ha
  rw [← e, ← ha]
  generalize offset (grow g M ++ [((0 : Int), (p : Int))]) x = k at *
  obtain ⟨k, rfl⟩ := Int.eq_ofNat_of_zero_le h0
  have : ((n : Int) * (k : Int) + (j : Int)).toNat = n * k + j := by norm_cast
  rw [this, Nat.mul_add_mod, Nat.mod_eq_of_lt hj]

/-- A uniform gas at rest, and a uniform electromagnetic field. -/
example : (∃ q : Chunk ℝ, q.Layout 2 [(0, 3), (-1, 4)] [(0, 1), (0, 5)] ∧ ∃ w : Gas, 0 < w.rho ∧ 0 < w.pressure 2 ∧
      q.Holds (grow 2 [(0, 3), (-1, 4)] ++ [(0, 1)]) 5 (fun _ j => w.comps.getD j 0)) ∧
    ∃ q : Chunk ℝ, q.Layout 2 [(0, 3), (-1, 4)] [(0, 1), (0, 6)] ∧ q.Holds (grow 2 [(0, 3), (-1, 4)] ++ [(0, 1)]) 6 (fun _ j => j + 1) := by
  constructor
  · obtain ⟨c, _, h, _⟩ := resize_layout (0 : ℝ) Chunk.default (mesh := Range.setup [(0, 3), (-1, 4)]) (dataR := Range.setup [(0, 1), (0, 5)])
      (g := 2) (by decide) (by decide) (by decide)
    obtain ⟨q, h1, h2⟩ := exists_uniform (p := 1) (n := 5) h fun j => (⟨1, ![3, 0, 0], 10⟩ : Gas).comps.getD j 0
    exact ⟨q, h1, ⟨1, ![3, 0, 0], 10⟩, by norm_num, by norm_num [Gas.pressure, vdot, vec2], h2⟩
  · obtain ⟨c, _, h, _⟩ := resize_layout (0 : ℝ) Chunk.default (mesh := Range.setup [(0, 3), (-1, 4)]) (dataR := Range.setup [(0, 1), (0, 6)])
      (g := 2) (by decide) (by decide) (by decide)
    obtain ⟨q, h1, h2⟩ := exists_uniform (p := 1) (n := 6) h fun j => j + 1
    exact ⟨q, h1, h2⟩

/-! ### C56: parallel execution -/

/-- Any parallel kernel of this form. -/
theorem parallel_kernel {n : Nat} (hn : 2 ≤ n) (hM : Pos M) (hp : 1 ≤ p) (hg : 2 ≤ g)
    (hq : q.Layout g M [(0, (p : Int)), (0, (n : Int))]) (hr : rhs.Layout g M [(0, (p : Int)), (0, (n : Int))])
    {dim : Nat} (hd : dim < M.length) {d : α} (hdx : grid.dx dim = .ok d) {flux : FV.Flux α} {φ : List α → List α → List α}
    (hφ : IsFlux n flux φ) :
    ∃ ps m', FV.itersMp n flux grid q dim = .ok ps ∧ runAll ps (Mem.of [q.arr.data, rhs.arr.data]) = .ok m' ∧
      ParallelSafe ps (Mem.of [q.arr.data, rhs.arr.data]) m' := by
  obtain ⟨u, hu⟩ := FV.exists_field hq
  obtain ⟨m', h1, _, _⟩ := FV.mp_mem hq hr hM hp hn hg hu hd hφ d
  refine ⟨_, m', FV.itersMp_eq hq hM hp (by omega) (by omega) hd hdx flux, h1, ?_⟩
  have hsep := FV.steps_sep (imin := n * offset (grow g M ++ [(0, (p : Int))]) ((M ++ [(0, (p : Int))]).map Prod.fst))
    (imax := n * offset (grow g M ++ [(0, (p : Int))]) ((M ++ [(0, (p : Int))]).map fun d : Int × Int => d.2 - 1) + 2)
    (n := n) (by omega)
  generalize FV.steps _ _ n = l at *
  have hw : List.Forall₂ (fun (p : Prog α Unit) (f : Foot) => p.Within f.1 f.2)
      (l.map (FV.iterMp n flux d (n * boxVolume ((grow g M ++ [(0, (p : Int))]).drop (dim + 1))))) (l.map (FV.footMp n)) := by
    rw [List.forall₂_map_left_iff, List.forall₂_map_right_iff, List.forall₂_same]
    intro i _
    exact FV.iterMp_within
  have hs : (l.map (FV.footMp n)).Pairwise Sep := List.pairwise_map.2 hsep
  exact {
    defined := fun ps' m1 h => (interleave hw hs h1 h).1
    raceFree := fun ps' m1 h => (interleave hw hs h1 h).2.1
    result := fun ps' m1 h => (interleave hw hs h1 h).2.2.1
    progress := fun ps' m1 h => (interleave hw hs h1 h).2.2.2
    terminates := step_acc _ }

/-- **C56**, Maxwell: in every direction, every interleaving of the reads and writes of the loop's iterations
is free of races and ends with the memory of the sequential loop. -/
theorem C56_maxwell (c : α) (hM : Pos M) (hp : 1 ≤ p) (hg : 2 ≤ g)
    (hq : q.Layout g M [(0, (p : Int)), (0, 6)]) (hr : rhs.Layout g M [(0, (p : Int)), (0, 6)])
    (hdx : grid.dxs.length = M.length) {dim : Nat} (hd : dim < M.length) :
    ∃ ps m', FV.itersMp 6 (Maxwell.rusanov c dim) grid q dim = .ok ps ∧
      runAll ps (Mem.of [q.arr.data, rhs.arr.data]) = .ok m' ∧ ParallelSafe ps (Mem.of [q.arr.data, rhs.arr.data]) m' :=
  parallel_kernel (n := 6) (by decide) hM hp hg hq hr hd (widths_of hdx hd) (Maxwell.rusanov_isFlux c dim)

/-- **C56**, Euler, in the first four directions. -/
theorem C56_euler (gamma : α) (hM : Pos M) (hp : 1 ≤ p) (hg : 2 ≤ g)
    (hq : q.Layout g M [(0, (p : Int)), (0, 5)]) (hr : rhs.Layout g M [(0, (p : Int)), (0, 5)])
    (hdx : grid.dxs.length = M.length) {dim : Nat} (hd : dim < M.length) (h4 : dim < 4) :
    ∃ ps m', FV.itersMp 5 (Euler.hll gamma dim) grid q dim = .ok ps ∧
      runAll ps (Mem.of [q.arr.data, rhs.arr.data]) = .ok m' ∧ ParallelSafe ps (Mem.of [q.arr.data, rhs.arr.data]) m' :=
  parallel_kernel (n := 5) (by decide) hM hp hg hq hr hd (widths_of hdx hd) (Euler.hll_isFlux gamma (by omega))

end

end QK.Props
