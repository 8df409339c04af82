import Verif.Props.Coupling
/-
C102: the divergence of the magnetic field (exact arithmetic).
-/
namespace QK.Props
open QK Spec

/-- Divergence of the magnetic field in a cell of a mesh of two dimensions, by centred differences. -/
noncomputable def divB (g : Rectilinear ℝ) (u : Cell → ℝ) (x y : Int) : ℝ :=
  (u [x + 1, y, 0, 3] - u [x - 1, y, 0, 3]) / (2 * g.dxAt 0) + (u [x, y + 1, 0, 4] - u [x, y - 1, 0, 4]) / (2 * g.dxAt 1)

/-- A small ring of magnetic field around the cell (3, 3): the discrete curl of a potential that is not zero in one cell. -/
noncomputable def ring (a b : ℝ) : Cell → ℝ := fun z =>
  if z = [3, 4, 0, 3] then -a else if z = [3, 2, 0, 3] then a else if z = [4, 3, 0, 4] then b else if z = [2, 3, 0, 4] then -b else 0

theorem ring_x (a b : ℝ) (x y : Int) : ring a b [x, y, 0, 3] = if x = 3 ∧ y = 4 then -a else if x = 3 ∧ y = 2 then a else 0 := by
  unfold ring; simp

theorem ring_y (a b : ℝ) (x y : Int) : ring a b [x, y, 0, 4] = if x = 4 ∧ y = 3 then b else if x = 2 ∧ y = 3 then -b else 0 := by
  unfold ring; simp

theorem ring_e (a b : ℝ) (x y k : Int) (hk : k ≠ 3) (hk' : k ≠ 4) : ring a b [x, y, 0, k] = 0 := by
  unfold ring; simp [hk, hk']

theorem ring_div {g : Rectilinear ℝ} (h0 : g.dxAt 0 ≠ 0) (h1 : g.dxAt 1 ≠ 0) (x y : Int) : divB g (ring (g.dxAt 0) (g.dxAt 1)) x y = 0 := by
  unfold divB
  rw [ring_x, ring_x, ring_y, ring_y]
  split_ifs <;> first | omega | (field_simp; ring)

theorem recon_zero_left (a : ℝ) (ha : 0 < a) : (FV.recon 0 (-a) 0 0).2 = 0 ∧ (FV.recon 0 (-a) 0 0).1 < 0 := by
  unfold FV.recon
  simp only [real_lit]
  push_cast
  constructor
  · simp
  · generalize (0 - -a) / (-a - 0 + 1 / 10 ^ 12) = r
    have : -a + 1 / 2 * ((r * r + r) / (r * r + 1)) * (-a - 0) = -a * ((3 * r ^ 2 + r + 2) / (2 * (r ^ 2 + 1))) := by
      field_simp; ring
    rw [this]
    have : 0 < 3 * r ^ 2 + r + 2 := by nlinarith [sq_nonneg (r + 1 / 2)]
    have : 0 < (3 * r ^ 2 + r + 2) / (2 * (r ^ 2 + 1)) := by positivity
    nlinarith

/-- The two states at the lower face of a cell. -/
noncomputable def faceStates (v : Cell → Nat → ℝ) (dim : Nat) (z : Cell) (j : Nat) : ℝ × ℝ :=
  FV.recon (v (moveBy z dim (-2)) j) (v (moveBy z dim (-1)) j) (v z j) (v (moveBy z dim 1) j)

theorem bx_flux (c : ℝ) (v : Cell → Nat → ℝ) (z : Cell) : (faceFlux (fluxOf (Maxwell.rusanov c 1)) 6 v 1 z).getD 3 0 =
    1 / 2 * ((faceStates v 1 z 2).2 + (faceStates v 1 z 2).1) - 1 / 2 * |c| * ((faceStates v 1 z 3).2 - (faceStates v 1 z 3).1) := by
  unfold faceFlux
  have h : ∀ f : Nat → ℝ, (List.range 6).map f = [f 0, f 1, f 2, f 3, f 4, f 5] := fun _ => rfl
  dsimp only
  rw [h, h]
  unfold fluxOf Maxwell.rusanov
  simp only [List.getD_cons_succ, List.getD_cons_zero, real_lit, real_fabs]
  unfold faceStates
  push_cast
  ring

theorem by_flux (c : ℝ) (v : Cell → Nat → ℝ) (z : Cell) : (faceFlux (fluxOf (Maxwell.rusanov c 0)) 6 v 0 z).getD 4 0 =
    -(1 / 2) * ((faceStates v 0 z 2).2 + (faceStates v 0 z 2).1) - 1 / 2 * |c| * ((faceStates v 0 z 4).2 - (faceStates v 0 z 4).1) := by
  unfold faceFlux
  have h : ∀ f : Nat → ℝ, (List.range 6).map f = [f 0, f 1, f 2, f 3, f 4, f 5] := fun _ => rfl
  dsimp only
  rw [h, h]
  unfold fluxOf Maxwell.rusanov
  simp only [List.getD_cons_succ, List.getD_cons_zero, real_lit, real_fabs]
  unfold faceStates
  push_cast
  ring

theorem bx_rate {g : Rectilinear ℝ} (h2 : g.rng.dims.length = 2) (c : ℝ) (u : Cell → ℝ) (x : Cell) :
    lightFlux g c u x 3 = ((faceFlux (fluxOf (Maxwell.rusanov c 1)) 6 (fun x j => u (x ++ [(j : Int)])) 1 x).getD 3 0 -
      (faceFlux (fluxOf (Maxwell.rusanov c 1)) 6 (fun x j => u (x ++ [(j : Int)])) 1 (moveBy x 1 1)).getD 3 0) / g.dxAt 1 := by
  unfold lightFlux
  rw [fvUpdate_add, h2]
  simp only [show List.range (min 2 3) = [0, 1] from rfl, List.map_cons, List.map_nil, List.sum_cons, List.sum_nil]
  have z := fun L R => maxwell_normal c (d := 0) (j := 3) (by decide) (.inr rfl) L R
  have z' : ∀ y, (faceFlux (fluxOf (Maxwell.rusanov c 0)) 6 (fun x j => u (x ++ [(j : Int)])) 0 y).getD 3 0 = 0 := fun y => by unfold faceFlux; exact z _ _
  rw [z', z']
  ring

theorem by_rate {g : Rectilinear ℝ} (h2 : g.rng.dims.length = 2) (c : ℝ) (u : Cell → ℝ) (x : Cell) :
    lightFlux g c u x 4 = ((faceFlux (fluxOf (Maxwell.rusanov c 0)) 6 (fun x j => u (x ++ [(j : Int)])) 0 x).getD 4 0 -
      (faceFlux (fluxOf (Maxwell.rusanov c 0)) 6 (fun x j => u (x ++ [(j : Int)])) 0 (moveBy x 0 1)).getD 4 0) / g.dxAt 0 := by
  unfold lightFlux
  rw [fvUpdate_add, h2]
  simp only [show List.range (min 2 3) = [0, 1] from rfl, List.map_cons, List.map_nil, List.sum_cons, List.sum_nil]
  have z := fun L R => maxwell_normal c (d := 1) (j := 4) (by decide) (.inr rfl) L R
  have z' : ∀ y, (faceFlux (fluxOf (Maxwell.rusanov c 1)) 6 (fun x j => u (x ++ [(j : Int)])) 1 y).getD 4 0 = 0 := fun y => by unfold faceFlux; exact z _ _
  rw [z', z']
  ring

/-- **C102** The divergence of the magnetic field does not stay zero in two dimensions: from a small ring of magnetic field without divergence, without electric field, the first stage of
the first step makes a field with divergence, for all step sizes and all boundary conditions. -/
theorem C102_false {g : Rectilinear ℝ} {nx ny : Int} (hd : g.rng.dims = [(0, nx), (0, ny)]) (hnx : 8 ≤ nx) (hny : 8 ≤ ny) (h0 : 0 < g.dxAt 0) (h1 : 0 < g.dxAt 1) :
    (∀ x y, divB g (ring (g.dxAt 0) (g.dxAt 1)) x y = 0) ∧
    ∀ {ws ps : List Nat} {flip : Int → Prop} {c t : ℝ} {u r next : Cell → ℝ}, c ≠ 0 → t ≠ 0 →
      SoloStage g.rng.dims 1 6 ws flip ps (LightRate g.rng.dims 1 g.dxAt c) t 0 u (ring (g.dxAt 0) (g.dxAt 1)) u r next → divB g next 4 5 ≠ 0 := by
  refine ⟨ring_div h0.ne' h1.ne', fun {ws ps flip c t u r next} hc ht S => ?_⟩
  set a := g.dxAt 0 with ha
  set b := g.dxAt 1 with hb
  have len : g.rng.dims.length = 2 := by rw [hd]; rfl
  have z0 : (Arith.lit 0 : ℝ) = 0 := by simp [real_lit]
  -- inside the mesh the field is the ring
  have inside : ∀ x y : Int, 0 ≤ x → x < nx → 0 ≤ y → y < ny → ∀ k : Nat, k < 6 → u [x, y, 0, k] = ring a b [x, y, 0, k] := by
    intro x y x0 x1 y0 y1 k hk
    refine S.fill.inside _ ?_
    rw [hd]; simp [InBox]; omega
  have rate : ∀ x y : Int, 0 ≤ x → x < nx → 0 ≤ y → y < ny → ∀ k : Nat, k < 6 → r [x, y, 0, k] = lightFlux g c u [x, y, 0] k := by
    intro x y x0 x1 y0 y1 k hk
    have := S.rates [x, y, 0] (by rw [hd]; simp [InBox]; omega) k hk
    rw [z0] at this
    exact this
  have colZero : ∀ (x y : Int) (k : Nat), (∀ t : Int, -2 ≤ t → t ≤ 1 → u [x, y + t, 0, k] = 0) → faceStates (fun x j => u (x ++ [(j : Int)])) 1 [x, y, 0] k = (0, 0) := by
    intro x y k h
    unfold faceStates
    have e0 := h 0 (by decide) (by decide)
    rw [add_zero] at e0
    simp only [moveBy, List.modify_succ_cons, List.modify_zero_cons, List.cons_append, List.nil_append]
    rw [h _ (by decide) (by decide), h _ (by decide) (by decide), h _ (by decide) (by decide), e0, recon_const]
  have rowZero : ∀ (x y : Int) (k : Nat), (∀ t : Int, -2 ≤ t → t ≤ 1 → u [x + t, y, 0, k] = 0) → faceStates (fun x j => u (x ++ [(j : Int)])) 0 [x, y, 0] k = (0, 0) := by
    intro x y k h
    unfold faceStates
    have e0 := h 0 (by decide) (by decide)
    rw [add_zero] at e0
    simp only [moveBy, List.modify_zero_cons, List.cons_append, List.nil_append]
    rw [h _ (by decide) (by decide), h _ (by decide) (by decide), h _ (by decide) (by decide), e0, recon_const]
  have ez : ∀ x y : Int, 0 ≤ x → x < nx → 0 ≤ y → y < ny → u [x, y, 0, ((2 : Nat) : Int)] = 0 := fun x y x0 x1 y0 y1 => by
    rw [inside x y x0 x1 y0 y1 2 (by decide)]; exact ring_e _ _ _ _ _ (by decide) (by decide)
  have bx : ∀ x y : Int, 0 ≤ x → x < nx → 0 ≤ y → y < ny → u [x, y, 0, ((3 : Nat) : Int)] = if x = 3 ∧ y = 4 then -a else if x = 3 ∧ y = 2 then a else 0 := fun x y x0 x1 y0 y1 => by
    rw [inside x y x0 x1 y0 y1 3 (by decide)]; exact ring_x _ _ _ _
  have bY : ∀ x y : Int, 0 ≤ x → x < nx → 0 ≤ y → y < ny → u [x, y, 0, ((4 : Nat) : Int)] = if x = 4 ∧ y = 3 then b else if x = 2 ∧ y = 3 then -b else 0 := fun x y x0 x1 y0 y1 => by
    rw [inside x y x0 x1 y0 y1 4 (by decide)]; exact ring_y _ _ _ _
  -- rates
  have r1 : r [5, 5, 0, 3] = 0 := by
    refine (rate 5 5 (by decide) (by omega) (by decide) (by omega) 3 (by decide)).trans ?_
    rw [bx_rate len, bx_flux, bx_flux]
    simp only [moveBy, List.modify_succ_cons, List.modify_zero_cons]
    rw [colZero 5 5 2 (fun t _ _ => ez _ _ (by omega) (by omega) (by omega) (by omega)), colZero 5 (5 + 1) 2 (fun t _ _ => ez _ _ (by omega) (by omega) (by omega) (by omega)),
      colZero 5 5 3 (fun t _ _ => by rw [bx _ _ (by omega) (by omega) (by omega) (by omega), if_neg (by omega), if_neg (by omega)]),
      colZero 5 (5 + 1) 3 (fun t _ _ => by rw [bx _ _ (by omega) (by omega) (by omega) (by omega), if_neg (by omega), if_neg (by omega)])]
    simp
  have r2 : ∀ y : Int, y = 4 ∨ y = 6 → r [4, y, 0, 4] = 0 := by
    intro y hy
    refine (rate 4 y (by decide) (by omega) (by omega) (by omega) 4 (by decide)).trans ?_
    rw [by_rate len, by_flux, by_flux]
    simp only [moveBy, List.modify_zero_cons]
    rw [rowZero 4 y 2 (fun t _ _ => ez _ _ (by omega) (by omega) (by omega) (by omega)), rowZero (4 + 1) y 2 (fun t _ _ => ez _ _ (by omega) (by omega) (by omega) (by omega)),
      rowZero 4 y 4 (fun t _ _ => by rw [bY _ _ (by omega) (by omega) (by omega) (by omega), if_neg (by omega), if_neg (by omega)]),
      rowZero (4 + 1) y 4 (fun t _ _ => by rw [bY _ _ (by omega) (by omega) (by omega) (by omega), if_neg (by omega), if_neg (by omega)])]
    simp
  obtain ⟨q1, q2⟩ := recon_zero_left a h0
  have r3 : r [3, 5, 0, 3] = 1 / 2 * |c| * (FV.recon 0 (-a) 0 0).1 / b := by
    refine (rate 3 5 (by decide) (by omega) (by decide) (by omega) 3 (by decide)).trans ?_
    rw [bx_rate len, bx_flux, bx_flux]
    simp only [moveBy, List.modify_succ_cons, List.modify_zero_cons]
    rw [colZero 3 5 2 (fun t _ _ => ez _ _ (by omega) (by omega) (by omega) (by omega)), colZero 3 (5 + 1) 2 (fun t _ _ => ez _ _ (by omega) (by omega) (by omega) (by omega))]
    have f1 : faceStates (fun x j => u (x ++ [(j : Int)])) 1 [3, 5, 0] 3 = FV.recon 0 (-a) 0 0 := by
      unfold faceStates
      simp only [moveBy, List.modify_succ_cons, List.modify_zero_cons, List.cons_append, List.nil_append]
      rw [bx _ _ (by omega) (by omega) (by omega) (by omega), bx _ _ (by omega) (by omega) (by omega) (by omega), bx _ _ (by omega) (by omega) (by omega) (by omega), bx _ _ (by omega) (by omega) (by omega) (by omega)]
      norm_num
    have f2 : faceStates (fun x j => u (x ++ [(j : Int)])) 1 [3, 5 + 1, 0] 3 = (0, 0) := by
      unfold faceStates
      simp only [moveBy, List.modify_succ_cons, List.modify_zero_cons, List.cons_append, List.nil_append]
      rw [bx _ _ (by omega) (by omega) (by omega) (by omega), bx _ _ (by omega) (by omega) (by omega) (by omega), bx _ _ (by omega) (by omega) (by omega) (by omega), bx _ _ (by omega) (by omega) (by omega) (by omega)]
      norm_num
      exact recon_middle _ _ _
    rw [f1, f2, q1, ← hb]
    ring
  have step : ∀ z, next z = u z + t * r z := fun z => by rw [S.next]; rfl
  unfold divB
  rw [step, step, step, step]
  have e1 := bx 5 5 (by decide) (by omega) (by decide) (by omega)
  have e2 := bx 3 5 (by decide) (by omega) (by decide) (by omega)
  have e3 := bY 4 6 (by decide) (by omega) (by decide) (by omega)
  have e4 := bY 4 4 (by decide) (by omega) (by decide) (by omega)
  norm_num at e1 e2 e3 e4 ⊢
  rw [e1, e2, e3, e4, r1, r2 4 (.inl rfl), r2 6 (.inr rfl), r3, ← ha]
  have : 0 < |c| := abs_pos.2 hc
  have := q2.ne
  simp only [ne_eq]
  intro h
  field_simp at h
  simp_all

/-- **C102**, what holds: a field that does not depend on `y` and has a uniform `Bx` stays so, and its divergence stays zero, in any number of steps. Missing: fields that depend on
both coordinates, see `C102_false`. -/
theorem C102_partial {g : Rectilinear ℝ} {nx ny : Int} (hd : g.rng.dims = [(0, nx), (0, ny)]) (hnx : 2 ≤ nx) (hny : 2 ≤ ny) {c t a : ℝ} {s : Nat → Cell → ℝ} {n : Nat}
    (hs : ∀ j < n, LightStep g 1 [0, 1] c t (s j) (s (j + 1)))
    (hB : ∀ x, InBox [(0, nx), (0, ny), (0, 1)] x → s 0 (x ++ [3]) = a)
    (hy : UniformOn g.rng.dims 1 6 1 (s 0)) :
    ∀ j ≤ n, ∀ x y : Int, 1 ≤ x → x + 1 < nx → 1 ≤ y → y + 1 < ny → divB g (s j) x y = 0 := by
  have C : Covered g.rng.dims [] [0, 1] := by
    rw [hd]
    constructor
    · intro d hd; simp at hd
      obtain rfl | rfl : d = 0 ∨ d = 1 := by omega
      · simp [hi, lo]; omega
      · simp [hi, lo]; omega
    · intro d hd; simp at hd ⊢; omega
  intro j hj x y x0 x1 y0 y1
  have F := flat_chain (I := Flat g.rng.dims 1 6 [1] 3 a) (fun {q q'} H h => by
    refine soloStep_flat C.wide C.all (by rw [hd]; simp) (by omega) (fun _ => .inr rfl) ?_ (fun Y => lightRate_agree Y.mesh) H h
    intro u r hu hr x hx
    rw [hr x hx 3 (by omega)]
    refine flat_fv (fun d hd' => by simp at hd'; omega) (fun d hd' hn => ?_) hu hx _
    have : d < 2 := by rw [hd] at hd'; simpa using hd'
    simp only [List.mem_cons, List.not_mem_nil, or_false] at hn
    exact ⟨0, fun L R _ _ => maxwell_normal _ (by omega) (by omega) L R⟩) hs ⟨by rw [hd]; exact hB, fun d hd' => by
      obtain rfl : d = 1 := by simpa using hd'
      exact uniformOn_iff.1 hy⟩ j hj
  have box : ∀ x y : Int, 0 ≤ x → x < nx → 0 ≤ y → y < ny → InBox (g.rng.dims ++ [(0, 1)]) [x, y, 0] := by
    intro x y a b c d; rw [hd]; simp [InBox]; omega
  have v := fun x y a b c d => F.value [x, y, 0] (box x y a b c d)
  have w := uniformOn_iff.2 (F.uniform 1 (by simp)) [x, y, 0]
  have w1 := w 1 (box _ _ (by omega) (by omega) (by omega) (by omega)) (box x (y + 1) (by omega) (by omega) (by omega) (by omega)) 4 (by decide)
  have w2 := w (-1) (box _ _ (by omega) (by omega) (by omega) (by omega)) (box x (y - 1) (by omega) (by omega) (by omega) (by omega)) 4 (by decide)
  unfold divB
  rw [show s j [x + 1, y, 0, 3] = a from v _ _ (by omega) (by omega) (by omega) (by omega), show s j [x - 1, y, 0, 3] = a from v _ _ (by omega) (by omega) (by omega) (by omega),
    show s j [x, y + 1, 0, 4] = _ from w1, show s j [x, y - 1, 0, 4] = _ from w2]
  simp

/-- A grid of 8 x 8 cells on the unit square. -/
theorem unit_square : ∃ g : Rectilinear ℝ, g.rng.dims = [(0, 8), (0, 8)] ∧ 0 < g.dxAt 0 ∧ 0 < g.dxAt 1 := by
  obtain ⟨g, hg⟩ : ∃ g, Rectilinear.make (Range.setup [(0, 8), (0, 8)]) [(0 : ℝ), 0] [1, 1] = .ok g := ⟨_, rfl⟩
  refine ⟨g, by rw [(Rectilinear.make_fields hg).1]; rfl, ?_, ?_⟩
  · rw [dxAt_make hg (i := 0) rfl rfl]; norm_num
  · rw [dxAt_make hg (i := 1) rfl rfl]; norm_num

-- C102: there are such steps
example : ∃ (g : Rectilinear ℝ) (u r next : Cell → ℝ), SoloStage g.rng.dims 1 6 [] isWallField [0, 1] (LightRate g.rng.dims 1 g.dxAt 1) (1 / 100) 0 u (ring (g.dxAt 0) (g.dxAt 1)) u r next ∧
    (∀ x y, divB g (ring (g.dxAt 0) (g.dxAt 1)) x y = 0) ∧ divB g next 4 5 ≠ 0 := by
  obtain ⟨g, hd, h0, h1⟩ := unit_square
  obtain ⟨s, hs, ⟨q0, r0, q1, q1', r1, q2, q2', r2, H0, -⟩⟩ : ∃ s : Nat → Cell → ℝ, s 0 = ring (g.dxAt 0) (g.dxAt 1) ∧ LightStep g 1 [0, 1] 1 (1 / 100) (s 0) (s 1) := by
    obtain ⟨s, a, b⟩ := (C90_exists (g := g) (p := 1) (ws := []) (ps := [0, 1]) (by simp) (by rw [hd]; decide) (by simp) (1 / 100)).2.1 1 (ring (g.dxAt 0) (g.dxAt 1))
    exact ⟨s, a, b 0⟩
  rw [hs] at H0
  obtain ⟨a, b⟩ := C102_false hd (by decide) (by decide) h0 h1
  exact ⟨g, q0, r0, q1, H0, a, b one_ne_zero (by norm_num) H0⟩

example : ∃ (g : Rectilinear ℝ) (s : Nat → Cell → ℝ), (∀ j, LightStep g 1 [0, 1] 1 (1 / 100) (s j) (s (j + 1))) ∧ (∀ x y, s 0 [x, y, 0, 4] = x) ∧
    ∀ j, divB g (s j) 3 3 = 0 := by
  obtain ⟨g, hd, h0, h1⟩ := unit_square
  obtain ⟨s, a, b⟩ := (C90_exists (g := g) (p := 1) (ws := []) (ps := [0, 1]) (by simp) (by rw [hd]; decide) (by simp) (1 / 100)).2.1 1
    (fun z => if component z = 4 then ((z.getD 0 0 : Int) : ℝ) else 0)
  refine ⟨g, s, b, fun x y => by rw [a]; simp [component], fun j => C102_partial (n := j) hd (by decide) (by decide) (fun j _ => b j) (a := 0) ?_ ?_ j le_rfl 3 3 (by decide) (by decide) (by decide) (by decide)⟩
  · intro x _; rw [a]; simp [component]
  · intro x t hx _ j _
    rw [a]
    match x, hx with
    | [x1, x2, x3], _ => simp [component, moveBy]
    | [], h | [_], h | [_, _], h => rw [hd] at h; simp [InBox] at h
    | _ :: _ :: _ :: _ :: _, h => rw [hd] at h; simp [InBox] at h

end QK.Props
