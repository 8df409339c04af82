import Verif.Props.AdvectProgram
/-
Properties of the advection scheme in exact arithmetic: the two stages are Heun's method (C98), new extrema and negative values (C99).
-/
namespace QK.Props
open QK Spec Solve

/-- The limited flux is between the first-order one and the one with the upwind difference: it is an extrapolation from the two upwind cells. -/
theorem flux_extrapolates (c far up down : ℝ) : ∃ θ : ℝ, 0 ≤ θ ∧ θ ≤ 1 / 2 ∧ limitedFlux c far up down = c * (up + θ * (up - far)) := by
  by_cases h : down = up
  · refine ⟨1 / 4, by norm_num, by norm_num, ?_⟩
    subst h
    simp only [limitedFlux, real_feq, real_lit, decide_true, if_true]
    push_cast; ring
  · have hne : down - up ≠ 0 := sub_ne_zero.2 h
    obtain ⟨r, hr⟩ : ∃ r, r = (up - far) / (down - up) := ⟨_, rfl⟩
    have e : up - far = r * (down - up) := by rw [hr, div_mul_cancel₀ _ hne]
    have hp : 0 < r * r + 1 := by nlinarith [mul_self_nonneg r]
    refine ⟨1 / 4 * ((r + 1) * (r + 1) / (r * r + 1)), ?_, ?_, ?_⟩
    · have := mul_self_nonneg (r + 1); positivity
    · have : (r + 1) * (r + 1) / (r * r + 1) ≤ 2 := by
        rw [div_le_iff₀ hp]; nlinarith [mul_self_nonneg (r - 1)]
      linarith
    · simp only [limitedFlux, real_feq, real_lit, h, decide_false, Bool.false_eq_true, if_false]
      rw [← hr, show down - far = (r + 1) * (down - up) by linarith, e]
      push_cast
      field_simp

theorem flux_linear (k c far up down : ℝ) : limitedFlux (k * c) far up down = k * limitedFlux c far up down := by
  unfold limitedFlux; ring

theorem upwind_add (c : ℝ) (pos : Bool) (f : Int → ℝ) (r : ℝ) : upwind c pos f r = r + upwind c pos f 0 := by
  unfold upwind; split <;> ring

theorem upwind_scale (k c : ℝ) (pos : Bool) (f : Int → ℝ) : upwind (k * c) pos f 0 = k * upwind c pos f 0 := by
  unfold upwind
  simp only [flux_linear]
  split <;> ring

/-- What a cell gains is the sum over the directions. -/
theorem advected_sum (t : ℝ) (v dx : Nat → ℝ) (n : Nat) (u : Cell → ℝ) (x : Cell) (r : ℝ) : advected t v dx n u x r =
    r + ((List.range n).map fun d => upwind |t * v d / dx d| (Arith.lt 0 (v d)) (fun k => u (moveBy x d k)) 0).sum := by
  unfold advected
  simp only [real_fabs, real_lit]
  have key : ∀ (l : List Nat) (r : ℝ), l.foldl (fun r dim => upwind |t * v dim / dx dim| (Arith.lt (((0 : ℚ) : ℝ)) (v dim)) (fun k => u (moveBy x dim k)) r) r =
      r + (l.map fun d => upwind |t * v d / dx d| (Arith.lt 0 (v d)) (fun k => u (moveBy x d k)) 0).sum := by
    intro l
    induction l with
    | nil => simp
    | cons d l ih =>
      intro r
      rw [List.foldl_cons, ih, upwind_add, List.map_cons, List.sum_cons]
      simp only [Rat.cast_zero]
      ring
  exact key _ r

/-! ## C98 -/

/-- **C98** In exact arithmetic the two stages are Heun's method (the two-stage strong-stability-preserving scheme): the result is the average of the
field and of what two forward Euler steps make of it. -/
theorem C98_heun {M D : Box} {t : ℝ} {v dx : Nat → ℝ} {u z : Cell → ℝ} : AdvectStep M D t v dx u z ↔
    ∃ w : Cell → ℝ, (∀ x, InBox (M ++ D) x → w x = advected t v dx M.length u x (u x)) ∧
      ∀ x, InBox (M ++ D) x → z x = (u x + advected t v dx M.length w x (w x)) / 2 := by
  have key : ∀ (u w : Cell → ℝ) (x : Cell), advected (Arith.lit (1 / 2) * t) v dx M.length w x (Arith.lit (1 / 2) * (u x + w x)) =
      (u x + advected t v dx M.length w x (w x)) / 2 := by
    intro u w x
    rw [advected_sum, advected_sum]
    have : ∀ d, upwind |Arith.lit (1 / 2) * t * v d / dx d| (Arith.lt 0 (v d)) (fun k => w (moveBy x d k)) 0 =
        1 / 2 * upwind |t * v d / dx d| (Arith.lt 0 (v d)) (fun k => w (moveBy x d k)) 0 := by
      intro d
      rw [← upwind_scale, show (Arith.lit (1 / 2) : ℝ) * t * v d / dx d = 1 / 2 * (t * v d / dx d) by rw [real_lit]; push_cast; ring, abs_mul,
        abs_of_pos (by norm_num : (0:ℝ) < 1 / 2)]
    simp only [this, List.sum_map_mul_left]
    rw [real_lit]
    push_cast; ring
  constructor
  · rintro ⟨w, h1, h2⟩
    exact ⟨w, h1, fun x hx => by rw [h2 x hx, key]⟩
  · rintro ⟨w, h1, h2⟩
    exact ⟨w, h1, fun x hx => by rw [h2 x hx, key]⟩

/-! ## C99 -/

/-- One direction: a share of the cell is replaced by an extrapolation. -/
theorem upwind_range {c lo hi : ℝ} (hc : 0 ≤ c) {pos : Bool} {f : Int → ℝ} (h : ∀ k, -2 ≤ k → k ≤ 2 → lo ≤ f k ∧ f k ≤ hi) :
    ∃ s, 0 ≤ s ∧ s ≤ 3 / 2 * c ∧ s * (lo - f 0) - c / 2 * (hi - lo) ≤ upwind c pos f 0 ∧ upwind c pos f 0 ≤ s * (hi - f 0) + c / 2 * (hi - lo) := by
  have key : ∀ a b d p : ℝ, lo ≤ a ∧ a ≤ hi → lo ≤ b ∧ b ≤ hi → lo ≤ d ∧ d ≤ hi → lo ≤ p ∧ p ≤ hi →
      ∃ s, 0 ≤ s ∧ s ≤ 3 / 2 * c ∧ s * (lo - b) - c / 2 * (hi - lo) ≤ limitedFlux c d a b - limitedFlux c a b p ∧
        limitedFlux c d a b - limitedFlux c a b p ≤ s * (hi - b) + c / 2 * (hi - lo) := by
    intro a b d p ha hb hd hp
    obtain ⟨θ, t0, t1, e1⟩ := flux_extrapolates c d a b
    obtain ⟨η, n0, n1, e2⟩ := flux_extrapolates c a b p
    rw [e1, e2]
    refine ⟨c * (1 + η), by positivity, by nlinarith, ?_, ?_⟩
    · have x1 : 0 ≤ c * (1 + η) * (a - lo) := by have := sub_nonneg.2 ha.1; positivity
      have x2 : c * (θ * (d - a)) ≤ c * (1 / 2 * (hi - lo)) := by
        refine mul_le_mul_of_nonneg_left ?_ hc
        nlinarith [hd.2, ha.1, hd.1, ha.2]
      nlinarith
    · have x1 : 0 ≤ c * (1 + η) * (hi - a) := by have := sub_nonneg.2 ha.2; positivity
      have x2 : c * (θ * (a - d)) ≤ c * (1 / 2 * (hi - lo)) := by
        refine mul_le_mul_of_nonneg_left ?_ hc
        nlinarith [hd.2, ha.1, hd.1, ha.2]
      nlinarith
  unfold upwind
  cases pos
  · obtain ⟨s, s1, s2, s3, s4⟩ := key (f 1) (f 0) (f 2) (f (-1)) (h _ (by decide) (by decide)) (h _ (by decide) (by decide)) (h _ (by decide) (by decide)) (h _ (by decide) (by decide))
    exact ⟨s, s1, s2, by simp only [Bool.false_eq_true, if_false]; linarith, by simp only [Bool.false_eq_true, if_false]; linarith⟩
  · obtain ⟨s, s1, s2, s3, s4⟩ := key (f (-1)) (f 0) (f (-2)) (f 1) (h _ (by decide) (by decide)) (h _ (by decide) (by decide)) (h _ (by decide) (by decide)) (h _ (by decide) (by decide))
    exact ⟨s, s1, s2, by simp only [if_true]; linarith, by simp only [if_true]; linarith⟩

/-- **C99** (partial) A forward Euler step of the scheme in any number of directions, with the sum `C` of the Courant numbers at most 2/3: if the cells within 2 of `x` have values
in `[lo, hi]`, the new value leaves this range by at most `C/2 · (hi - lo)`. Missing: that it does not leave the range, which is false. -/
theorem C99_partial {t lo hi : ℝ} {v dx : Nat → ℝ} {n : Nat} {u : Cell → ℝ} {x : Cell} (h0 : lo ≤ u x ∧ u x ≤ hi)
    (h : ∀ d < n, ∀ k : Int, -2 ≤ k → k ≤ 2 → lo ≤ u (moveBy x d k) ∧ u (moveBy x d k) ≤ hi)
    (hC : ((List.range n).map fun d => |t * v d / dx d|).sum ≤ 2 / 3) :
    lo - ((List.range n).map fun d => |t * v d / dx d|).sum / 2 * (hi - lo) ≤ advected t v dx n u x (u x) ∧
      advected t v dx n u x (u x) ≤ hi + ((List.range n).map fun d => |t * v d / dx d|).sum / 2 * (hi - lo) := by
  rw [advected_sum]
  have key : ∀ l : List Nat, (∀ d ∈ l, d < n) → ∃ s, 0 ≤ s ∧ s ≤ 3 / 2 * (l.map fun d => |t * v d / dx d|).sum ∧
      s * (lo - u x) - (l.map fun d => |t * v d / dx d|).sum / 2 * (hi - lo) ≤
        (l.map fun d => upwind |t * v d / dx d| (Arith.lt 0 (v d)) (fun k => u (moveBy x d k)) 0).sum ∧
      (l.map fun d => upwind |t * v d / dx d| (Arith.lt 0 (v d)) (fun k => u (moveBy x d k)) 0).sum ≤
        s * (hi - u x) + (l.map fun d => |t * v d / dx d|).sum / 2 * (hi - lo) := by
    intro l
    induction l with
    | nil => intro _; exact ⟨0, le_refl _, by simp, by simp, by simp⟩
    | cons d l ih =>
      intro hl
      obtain ⟨s, s1, s2, s3, s4⟩ := ih (fun d' h' => hl d' (List.mem_cons_of_mem _ h'))
      obtain ⟨r, r1, r2, r3, r4⟩ := upwind_range (abs_nonneg (t * v d / dx d)) (pos := Arith.lt 0 (v d)) (f := fun k => u (moveBy x d k)) (h d (hl d List.mem_cons_self))
      have e0 : moveBy x d 0 = x := moveBy_zero x d
      simp only [e0] at r3 r4
      refine ⟨s + r, by linarith, ?_, ?_, ?_⟩
      · simp only [List.map_cons, List.sum_cons]; linarith
      · simp only [List.map_cons, List.sum_cons]; nlinarith
      · simp only [List.map_cons, List.sum_cons]; nlinarith
  obtain ⟨s, s1, s2, s3, s4⟩ := key _ (fun d h => List.mem_range.1 h)
  have s5 : s ≤ 1 := by linarith
  constructor
  · nlinarith [mul_nonneg (sub_nonneg.2 s5) (sub_nonneg.2 h0.1)]
  · nlinarith [mul_nonneg (sub_nonneg.2 s5) (sub_nonneg.2 h0.2)]

/-- The field of the counterexample. -/
noncomputable def dip (x : Cell) : ℝ := if x.getD 0 0 ≤ 4 then 0 else if x.getD 0 0 = 5 then 1 else 10

/-- **C99** (false of the code) Neither stays a field in its range, nor positive: a step of advect_gaussian from a field that is 0, 1 or 10 everywhere, ghost cells included,
makes a negative value in a cell far from the ghost cells, for all Courant numbers `t · nx` less than 2/3. (C97_false is a step from a field of zeros and
ones to values above 1.) -/
theorem C99_false {nx ny : Int} (hnx : 8 ≤ nx) (hny : 9 ≤ ny) : ∃ g : Rectilinear ℝ, AdvectGaussian.grid nx ny = .ok g ∧
    ∀ {t : ℝ}, 0 < t → t * nx < 2 / 3 → ∀ time : ℝ, (∃ m, AdvectBetween advectIds g t time dip m) ∧
      ∀ m, AdvectBetween advectIds g t time dip m →
        ∃ m' z, AdvectGaussian.step t time m = .ok (time + t) m' ∧ m'.Stores AdvectGaussian.var z ∧ z [3, 4, 0, 0] < 0 := by
  obtain ⟨g, e, hd, hp, hw, r, hr, hm⟩ := advect_grid (α := ℝ) (nx := nx) (ny := ny) (by omega) (by omega)
  obtain ⟨g', e', -, hs⟩ := C96_step (α := ℝ) (nx := nx) (ny := ny) (by omega) (by omega)
  rw [e] at e'; cases e'
  refine ⟨g, e, fun {t} ht htc time => ⟨advect_exists (by omega) (by omega) hd _ _ _, fun m B => ?_⟩⟩
  obtain ⟨m', z, a, b, c⟩ := hs m _ time _ B
  refine ⟨m', z, a, b.holds, ?_⟩
  obtain ⟨w, h1, h2⟩ := C98_heun.1 c
  simp only [real_lit, Rat.cast_neg, Rat.cast_one] at h1 h2
  have hn : (0 : ℝ) < nx := by exact_mod_cast (by omega : (0:Int) < nx)
  have dx0 : g.dxAt 0 = 1 / nx := by
    have := dxAt_make hm (i := 0) (d := (0, nx)) (wi := 1) (by rw [hr]; rfl) (by simp [real_lit])
    simpa using this
  have hc : |t * -1 / g.dxAt 0| = t * nx := by
    rw [dx0, abs_div, abs_mul, abs_of_pos ht, abs_of_pos (by positivity : (0:ℝ) < 1 / nx)]
    simp
  have c0 : 0 < t * nx := mul_pos ht hn
  obtain ⟨C, hC⟩ : ∃ C, C = t * nx := ⟨_, rfl⟩
  rw [← hC] at hc htc c0
  have box : ∀ a b : Int, 0 ≤ a → a < nx → 0 ≤ b → b < ny → InBox ([(0, nx), (0, ny)] ++ [(0, 1), (0, 1)]) [a, b, 0, 0] := by
    intro a b a0 a1 b0 b1; simp [InBox]; omega
  have wx : ∀ a b : Int, 0 ≤ a → a < nx → 0 ≤ b → b < ny → w [a, b, 0, 0] = upwind C false (fun k => dip [a + k, b, 0, 0]) (dip [a, b, 0, 0]) := by
    intro a b a0 a1 b0 b1
    have := h1 _ (box a b a0 a1 b0 b1)
    rw [show ([(0, nx), (0, ny)] : Box).length = 2 from rfl, advected_two, hc, upwind_same] at this
    · exact this
    · intro j _ _; simp [dip]
  have w2 : ∀ b, 0 ≤ b → b < ny → w [2, b, 0, 0] = 0 := by
    intro b b0 b1
    rw [wx 2 b (by omega) (by omega) b0 b1]
    norm_num [upwind, dip, limitedFlux, real_feq, real_lit]
  have w3 : ∀ b, 0 ≤ b → b < ny → w [3, b, 0, 0] = -C / 4 := by
    intro b b0 b1
    rw [wx 3 b (by omega) (by omega) b0 b1]
    norm_num [upwind, dip, limitedFlux, real_feq, real_lit]; ring
  have w4 : ∀ b, 0 ≤ b → b < ny → w [4, b, 0, 0] = -(245 / 164) * C := by
    intro b b0 b1
    rw [wx 4 b (by omega) (by omega) b0 b1]
    norm_num [upwind, dip, limitedFlux, real_feq, real_lit]; ring
  have w5 : ∀ b, 0 ≤ b → b < ny → w [5, b, 0, 0] = 1 + (143 / 82 + 10) * C := by
    intro b b0 b1
    rw [wx 5 b (by omega) (by omega) b0 b1]
    norm_num [upwind, dip, limitedFlux, real_feq, real_lit]; ring
  have hz := h2 _ (box 3 4 (by omega) (by omega) (by omega) (by omega))
  rw [show ([(0, nx), (0, ny)] : Box).length = 2 from rfl, advected_two, hc, upwind_same] at hz
  · rw [hz]
    unfold upwind
    simp only [Bool.false_eq_true, if_false]
    norm_num
    rw [w2 4 (by omega) (by omega), w3 4 (by omega) (by omega), w4 4 (by omega) (by omega), w5 4 (by omega) (by omega)]
    obtain ⟨θ, t0, t1, e1⟩ := flux_extrapolates C (-(245 / 164) * C) (-C / 4) 0
    obtain ⟨η, n0, n1, e2⟩ := flux_extrapolates C (1 + (143 / 82 + 10) * C) (-(245 / 164) * C) (-C / 4)
    rw [e1, e2, show dip [3, 4, 0, 0] = 0 by simp [dip]]
    have x1 : 0 ≤ η * (1 + (143 / 82 + 10) * C + 245 / 164 * C) := by positivity
    have x2 : 0 ≤ θ * (245 / 164 * C - C / 4) := by
      have : 0 ≤ 245 / 164 * C - C / 4 := by linarith
      positivity
    have x3 : 0 < C * (2 / 3 - C) := mul_pos c0 (by linarith)
    have x4 := mul_nonneg c0.le x1
    have x5 := mul_nonneg c0.le x2
    nlinarith
  · intro j j0 j1
    show w [3, 4 + j, 0, 0] = w [3, 4 + 0, 0, 0]
    rw [w3 _ (by omega) (by omega), w3 _ (by omega) (by omega)]

-- C98, C99: a step as it is taken, and a cell to which the bound applies
example (u : Cell → ℝ) : ∃ z, AdvectStep [(0, 5), (0, 6)] [(0, 1), (0, 1)] (1 / 10) (fun _ => -1) (fun _ => 1 / 5) u z := ⟨_, _, fun _ _ => rfl, fun _ _ => rfl⟩
example : let u : Cell → ℝ := fun x => if x.getD 0 0 < 3 then 1 else 4
    (1 ≤ u [2, 2] ∧ u [2, 2] ≤ 4) ∧ (∀ d < 2, ∀ k : Int, -2 ≤ k → k ≤ 2 → 1 ≤ u (moveBy [2, 2] d k) ∧ u (moveBy [2, 2] d k) ≤ 4) ∧
    ((List.range 2).map fun _ => |(1 / 20 : ℝ) * 1 / (1 / 5)|).sum ≤ 2 / 3 := by
  refine ⟨by norm_num, ?_, ?_⟩
  · intro d _ k _ _
    dsimp only
    split <;> norm_num
  · rw [abs_of_pos (by norm_num)]; norm_num [List.range_succ]

end QK.Props
