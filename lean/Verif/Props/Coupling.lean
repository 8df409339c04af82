import Verif.Props.OneDim
/-
C100-C102: how fluids and fields act on each other (exact arithmetic): exchange of energy and momentum, Gauss's law, divergence of the magnetic field.
-/
namespace QK.Props
open QK Spec Solve GemChallenge

/-- The rate of change by fluxes alone of component `j` of a fluid in the cell `x`. -/
noncomputable def fluidFlux (g : Rectilinear ℝ) (gamma : ℝ) (u : Cell → ℝ) (x : Cell) (j : Nat) : ℝ :=
  fvUpdate (fun dim => fluxOf (Euler.hll gamma dim)) 5 (fun x j => u (x ++ [(j : Int)])) g.dxAt (List.range g.rng.dims.length) x j 0

/-- The rate of change by fluxes alone of component `j` of the field in the cell `x`. -/
noncomputable def lightFlux (g : Rectilinear ℝ) (c : ℝ) (u : Cell → ℝ) (x : Cell) (j : Nat) : ℝ :=
  fvUpdate (fun dim => fluxOf (Maxwell.rusanov c dim)) 6 (fun x j => u (x ++ [(j : Int)])) g.dxAt (List.range (min g.rng.dims.length 3)) x j 0

/-- The factors of the current are those of the forces over `-ε₀`. -/
structure Consistent (P : Plasma ℝ) (eps0 : ℝ) : Prop where
  pos : 0 < eps0
  mults : P.mults = [-P.comE / eps0, -P.comI / eps0]

theorem gem_coupled {P : Plasma ℝ} (h : GemPlasma P) : Consistent P (885418782 / 10 ^ 20) := by
  constructor
  · norm_num
  · rw [h.current, h.electron, h.ion]; simp only [real_lit]; push_cast; congr 2 <;> ring

theorem brio_coupled {P : Plasma ℝ} (h : BrioPlasma P) : Consistent P (1 / 10 ^ 6) := by
  constructor
  · norm_num
  · rw [h.current, h.electron, h.ion]; simp only [real_lit]; push_cast; norm_num

/-- Electric field, magnetic field and momentum at a cell. -/
def eVec (w : Cell → ℝ) (x : Cell) : Vec := ![w (x ++ [0]), w (x ++ [1]), w (x ++ [2])]
def bVec (w : Cell → ℝ) (x : Cell) : Vec := ![w (x ++ [3]), w (x ++ [4]), w (x ++ [5])]
def momVec (u : Cell → ℝ) (x : Cell) : Vec := ![u (x ++ [1]), u (x ++ [2]), u (x ++ [3])]

/-- Density of charge and of current of the two fluids. -/
def chargeAt (P : Plasma ℝ) (s : State ℝ) (x : Cell) : ℝ := P.comE * s.e (x ++ [0]) + P.comI * s.i (x ++ [0])
def currentAt (P : Plasma ℝ) (s : State ℝ) (x : Cell) : Vec := fun k => P.comE * momVec s.e x k + P.comI * momVec s.i x k

variable {P : Plasma ℝ} {g : Rectilinear ℝ} {p : Int} {ws ps : List Nat} {t : ℝ} {k : Nat} {start cur cur' rate next : State ℝ} {x : Cell}

/-- What the sources add to the rates of the fluids and of the field, component by component. -/
theorem sources_of (S : PlasmaStage P g p ws ps t k start cur cur' rate next) {eps0 : ℝ} (hc : Consistent P eps0) (hx : InBox (g.rng.dims ++ [(0, p)]) x) :
    (∀ i : Fin 3, rate.e (x ++ [(i : Int) + 1]) - fluidFlux g P.gamma cur'.e x (i + 1) =
      P.comE * (cur'.e (x ++ [0]) * eVec cur'.f x i + cross (momVec cur'.e x) (bVec cur'.f x) i)) ∧
    (∀ i : Fin 3, rate.i (x ++ [(i : Int) + 1]) - fluidFlux g P.gamma cur'.i x (i + 1) =
      P.comI * (cur'.i (x ++ [0]) * eVec cur'.f x i + cross (momVec cur'.i x) (bVec cur'.f x) i)) ∧
    rate.e (x ++ [4]) - fluidFlux g P.gamma cur'.e x 4 = P.comE * vdot (momVec cur'.e x) (eVec cur'.f x) ∧
    rate.i (x ++ [4]) - fluidFlux g P.gamma cur'.i x 4 = P.comI * vdot (momVec cur'.i x) (eVec cur'.f x) ∧
    (∀ i : Fin 3, rate.f (x ++ [(i : Int)]) - lightFlux g P.c cur'.f x i = -currentAt P cur' x i / eps0) ∧
    rate.e (x ++ [0]) = fluidFlux g P.gamma cur'.e x 0 ∧ rate.i (x ++ [0]) = fluidFlux g P.gamma cur'.i x 0 := by
  obtain ⟨re, he, Le⟩ := S.rate_e
  obtain ⟨ri, hi, Li⟩ := S.rate_i
  obtain ⟨rf, hf, Cf⟩ := S.rate_f
  have z : (Arith.lit 0 : ℝ) = 0 := by simp [real_lit]
  have he := he x hx; have hi := hi x hx; have hf := hf x hx
  rw [z] at he hi hf
  refine ⟨fun i => ?_, fun i => ?_, ?_, ?_, fun i => ?_, ?_, ?_⟩
  · have := he (i + 1) (by omega)
    unfold fluidFlux
    rw [← this]
    fin_cases i
    · show rate.e (x ++ [1]) - re (x ++ [1]) = _
      rw [Le.momX x hx, add_sub_cancel_left]; congr 1; simp [eVec, bVec, momVec, cross]; ring
    · show rate.e (x ++ [2]) - re (x ++ [2]) = _
      rw [Le.momY x hx, add_sub_cancel_left]; congr 1; simp [eVec, bVec, momVec, cross]; ring
    · show rate.e (x ++ [3]) - re (x ++ [3]) = _
      rw [Le.momZ x hx, add_sub_cancel_left]; congr 1; simp [eVec, bVec, momVec, cross]; ring
  · have := hi (i + 1) (by omega)
    unfold fluidFlux
    rw [← this]
    fin_cases i
    · show rate.i (x ++ [1]) - ri (x ++ [1]) = _
      rw [Li.momX x hx, add_sub_cancel_left]; congr 1; simp [eVec, bVec, momVec, cross]; ring
    · show rate.i (x ++ [2]) - ri (x ++ [2]) = _
      rw [Li.momY x hx, add_sub_cancel_left]; congr 1; simp [eVec, bVec, momVec, cross]; ring
    · show rate.i (x ++ [3]) - ri (x ++ [3]) = _
      rw [Li.momZ x hx, add_sub_cancel_left]; congr 1; simp [eVec, bVec, momVec, cross]; ring
  · unfold fluidFlux
    rw [← he 4 (by decide)]
    show rate.e (x ++ [4]) - re (x ++ [4]) = _
    rw [Le.energy x hx]; simp [eVec, momVec, vdot]
  · unfold fluidFlux
    rw [← hi 4 (by decide)]
    show rate.i (x ++ [4]) - ri (x ++ [4]) = _
    rw [Li.energy x hx]; simp [eVec, momVec, vdot]
  · unfold lightFlux
    rw [← hf i (by omega)]
    have := Cf.field x i hx (by omega) (by omega)
    rw [hc.mults] at this
    show rate.f (x ++ [((i : Nat) : Int)]) - rf (x ++ [((i : Nat) : Int)]) = _
    rw [this]
    simp only [List.zip_cons_cons, List.zip_nil_right, List.foldl_cons, List.foldl_nil]
    unfold currentAt momVec
    fin_cases i <;> simp <;> ring
  · unfold fluidFlux
    rw [← he 0 (by decide)]
    exact Le.rest _ (fun y k _ h1 h2 => snoc_ne (by omega))
  · unfold fluidFlux
    rw [← hi 0 (by decide)]
    exact Li.rest _ (fun y k _ h1 h2 => snoc_ne (by omega))

/-- **C100** The coupling of fluids and field creates no energy: in every cell, in every stage of every step, what the sources add to the energy of the two fluids they take from
the energy `ε₀ E² / 2` of the electric field (`ε₀ E · ∂E/∂t`). -/
theorem C100_energy (S : PlasmaStage P g p ws ps t k start cur cur' rate next) {eps0 : ℝ} (hc : Consistent P eps0) (hx : InBox (g.rng.dims ++ [(0, p)]) x) :
    (rate.e (x ++ [4]) - fluidFlux g P.gamma cur'.e x 4) + (rate.i (x ++ [4]) - fluidFlux g P.gamma cur'.i x 4) +
      eps0 * vdot (eVec cur'.f x) (fun i => rate.f (x ++ [(i : Int)]) - lightFlux g P.c cur'.f x i) = 0 := by
  obtain ⟨-, -, h1, h2, h3, -⟩ := sources_of S hc hx
  have e := hc.pos.ne'
  rw [h1, h2, funext h3]
  unfold vdot currentAt
  field_simp
  ring

/-- **C100** The force on both fluids together is that on their charge and current: `ρ E + J × B`. The sources add no mass and no charge. -/
theorem C100_momentum (S : PlasmaStage P g p ws ps t k start cur cur' rate next) {eps0 : ℝ} (hc : Consistent P eps0) (hx : InBox (g.rng.dims ++ [(0, p)]) x) :
    (∀ i : Fin 3, (rate.e (x ++ [(i : Int) + 1]) - fluidFlux g P.gamma cur'.e x (i + 1)) + (rate.i (x ++ [(i : Int) + 1]) - fluidFlux g P.gamma cur'.i x (i + 1)) =
      chargeAt P cur' x * eVec cur'.f x i + cross (currentAt P cur' x) (bVec cur'.f x) i) ∧
    rate.e (x ++ [0]) = fluidFlux g P.gamma cur'.e x 0 ∧ rate.i (x ++ [0]) = fluidFlux g P.gamma cur'.i x 0 := by
  obtain ⟨h1, h2, -, -, -, h4⟩ := sources_of S hc hx
  refine ⟨fun i => ?_, h4⟩
  rw [h1, h2]
  unfold chargeAt currentAt
  fin_cases i <;> simp [cross] <;> ring

/-- **C100** The programs satisfy the hypothesis on the factors. -/
theorem C100_programs : (∀ {P : Plasma ℝ}, GemPlasma P → Consistent P (885418782 / 10 ^ 20)) ∧ ∀ {P : Plasma ℝ}, BrioPlasma P → Consistent P (1 / 10 ^ 6) :=
  ⟨gem_coupled, brio_coupled⟩

/-- Gas at rest: density and energy. -/
def still (rho en : ℝ) : Gas := ⟨rho, ![0, 0, 0], en⟩

/-- The mass flux between gases at rest, `γ = 2`. -/
theorem hll_still {a b e f : ℝ} (ha : 0 < a) (hb : 0 < b) (he : 0 < e) (hf : 0 < f) :
    (fluxOf (Euler.hll 2 ((0 : Nat) : Int)) (still a e).comps (still b f).comps).getD 0 0 =
      √(2 * e / a) * √(2 * f / b) * (a - b) / (√(2 * e / a) + √(2 * f / b)) := by
  have pl : (still a e).pressure 2 = e := by simp [Gas.pressure, still, vdot]; norm_num
  have pr : (still b f).pressure 2 = f := by simp [Gas.pressure, still, vdot]; norm_num
  have sl : (still a e).sound 2 = √(2 * e / a) := by unfold Gas.sound; rw [pl]; rfl
  have sr : (still b f).sound 2 = √(2 * f / b) := by unfold Gas.sound; rw [pr]; rfl
  have vl : (still a e).vel 0 = 0 := by simp [Gas.vel, still]
  have vr : (still b f).vel 0 = 0 := by simp [Gas.vel, still]
  have p1 : 0 < √(2 * e / a) := Real.sqrt_pos.2 (by positivity)
  have p2 : 0 < √(2 * f / b) := Real.sqrt_pos.2 (by positivity)
  have := C51_one_branch_partial 2 0 (still a e) (still b f) (by rw [vl, vr, sl, sr]; intro h; linarith [h.1, h.2])
  rw [vl, vr, sl, sr, if_neg (by linarith), if_neg (by linarith)] at this
  unfold fluxOf
  rw [show (((0 : Nat) : Int)) = (((0 : Fin 3) : Nat) : Int) from rfl, this]
  simp only [Gas.comps, Gas.hllFlux, Gas.lin, Gas.flux, List.getD_cons_zero]
  simp only [still, Matrix.cons_val_zero]
  clear this sl sr
  generalize √(2 * e / a) = A at *
  generalize √(2 * f / b) = B at *
  have : A + B ≠ 0 := by positivity
  have : B + A ≠ 0 := by positivity
  rw [show 0 + B - (0 - A) = A + B by ring]
  field_simp
  ring

theorem recon_middle (a b c : ℝ) : FV.recon a b b c = (b, b) := by simp [FV.recon, real_lit]
theorem recon_jump (a b : ℝ) : FV.recon a a b b = (a, b) := by simp [FV.recon, real_lit]

/-- The change of mass in the last cell before a jump between gases at rest. -/
theorem jump_mass {g : Rectilinear ℝ} (h1 : g.rng.dims.length = 1) {u : Cell → ℝ} {i : Int} {a b e f : ℝ} (ha : 0 < a) (hb : 0 < b) (he : 0 < e) (hf : 0 < f)
    (hL : ∀ c : Int, i - 2 ≤ c → c ≤ i → ∀ k : Nat, k < 5 → u [c, 0, k] = (still a e).comps.getD k 0)
    (hR : ∀ c : Int, i < c → c ≤ i + 2 → ∀ k : Nat, k < 5 → u [c, 0, k] = (still b f).comps.getD k 0) :
    fluidFlux g 2 u [i, 0] 0 = -(√(2 * e / a) * √(2 * f / b) * (a - b) / (√(2 * e / a) + √(2 * f / b))) / g.dxAt 0 := by
  have lists : ∀ q : Gas, (List.range 5).map (fun k => q.comps.getD k 0) = q.comps := fun q => rfl
  unfold fluidFlux
  rw [fvUpdate_add, h1]
  simp only [show List.range 1 = [0] from rfl, List.map_cons, List.map_nil, List.sum_cons, List.sum_nil]
  have low : (faceFlux (fluxOf (Euler.hll 2 ((0 : Nat) : Int))) 5 (fun x j => u (x ++ [(j : Int)])) 0 [i, 0]).getD 0 0 = 0 := by
    unfold faceFlux
    have : ∀ k : Nat, k < 5 → FV.recon (u (moveBy [i, 0] 0 (-2) ++ [(k : Int)])) (u (moveBy [i, 0] 0 (-1) ++ [(k : Int)])) (u ([i, 0] ++ [(k : Int)])) (u (moveBy [i, 0] 0 1 ++ [(k : Int)])) =
        ((still a e).comps.getD k 0, (still a e).comps.getD k 0) := by
      intro k hk
      have e1 := hL (i + -1) (by omega) (by omega) k hk
      have e2 := hL i (by omega) (by omega) k hk
      simp only [moveBy, List.modify_zero_cons, List.cons_append, List.nil_append]
      rw [e1, e2, recon_middle]
    dsimp only
    rw [List.map_congr_left (g := fun k => (still a e).comps.getD k 0) (fun k hk => congrArg Prod.fst (this k (by simpa using hk))),
      List.map_congr_left (g := fun k => (still a e).comps.getD k 0) (fun k hk => congrArg Prod.snd (this k (by simpa using hk))), lists, hll_still ha ha he he]
    simp
  have high : (faceFlux (fluxOf (Euler.hll 2 ((0 : Nat) : Int))) 5 (fun x j => u (x ++ [(j : Int)])) 0 (moveBy [i, 0] 0 1)).getD 0 0 =
      √(2 * e / a) * √(2 * f / b) * (a - b) / (√(2 * e / a) + √(2 * f / b)) := by
    unfold faceFlux
    have : ∀ k : Nat, k < 5 → FV.recon (u (moveBy (moveBy [i, 0] 0 1) 0 (-2) ++ [(k : Int)])) (u (moveBy (moveBy [i, 0] 0 1) 0 (-1) ++ [(k : Int)])) (u (moveBy [i, 0] 0 1 ++ [(k : Int)]))
        (u (moveBy (moveBy [i, 0] 0 1) 0 1 ++ [(k : Int)])) = ((still a e).comps.getD k 0, (still b f).comps.getD k 0) := by
      intro k hk
      have e1 := hL (i + 1 + -2) (by omega) (by omega) k hk
      have e2 := hL (i + 1 + -1) (by omega) (by omega) k hk
      have e3 := hR (i + 1) (by omega) (by omega) k hk
      have e4 := hR (i + 1 + 1) (by omega) (by omega) k hk
      simp only [moveBy, List.modify_zero_cons, List.cons_append, List.nil_append]
      rw [e1, e2, e3, e4, recon_jump]
    dsimp only
    rw [List.map_congr_left (g := fun k => (still a e).comps.getD k 0) (fun k hk => congrArg Prod.fst (this k (by simpa using hk))),
      List.map_congr_left (g := fun k => (still b f).comps.getD k 0) (fun k hk => congrArg Prod.snd (this k (by simpa using hk))), lists, lists, hll_still ha hb he hf]
  rw [low, high]
  ring

/-- In one dimension the electric field along it changes by the current alone. -/
theorem ex_rate (S : PlasmaStage P g p ws ps t k start cur cur' rate next) {eps0 : ℝ} (hc : Consistent P eps0) (h1 : g.rng.dims.length = 1) (hx : InBox (g.rng.dims ++ [(0, p)]) x) :
    rate.f (x ++ [0]) = -currentAt P cur' x 0 / eps0 := by
  obtain ⟨-, -, -, -, h, -⟩ := sources_of S hc hx
  have h := h 0
  have z : lightFlux g P.c cur'.f x 0 = 0 := by
    unfold lightFlux
    rw [fvUpdate_add, h1]
    have z := fun L R => maxwell_normal P.c (d := 0) (j := 0) (by decide) (.inl rfl) L R
    simp only [show List.range (min 1 3) = [0] from rfl, List.map_cons, List.map_nil, List.sum_cons, List.sum_nil]
    unfold faceFlux
    rw [z, z]
    simp
  rw [show lightFlux g P.c cur'.f x ((0 : Fin 3) : Nat) = 0 from z, sub_zero] at h
  exact h

/-- **C101** Gauss's law `∂Ex/∂x = ρ / ε₀` is not kept: the two-fluid shock tube starts without charge and without electric field, but after the first stage of the first step, however small,
there is charge next to the jump while `Ex` is zero in all cells: the Riemann solver lets electrons and ions diffuse at different rates, and the current that changes the electric field is that of
the momenta in the cells, not that of the mass fluxes. -/
theorem C101_false {nx : Int} (hnx : 6 ≤ nx) : ∃ (g : Rectilinear ℝ) (P : Plasma ℝ) (m0 : Mgr ℝ) (q : State ℝ), BrioPlasma P ∧ TwoFluidBrioWu.grid nx = .ok g ∧
    brioWu TwoFluidBrioWu.initial [electrons.q, ions.q, fields.q] (Mgr.make g) = .ok () m0 ∧ P.Holds m0 0 q ∧
    (∀ i : Int, 0 ≤ i → i < nx → chargeAt P q [i, 0] = 0 ∧ q.f [i, 0, 0] = 0) ∧
    ∀ {t : ℝ} {q' r next : State ℝ}, t ≠ 0 → PlasmaStage P g 1 [0] [] t 0 q' q q' r next →
      (∀ i : Int, 0 ≤ i → i < nx → next.f [i, 0, 0] = 0) ∧ ∃ i : Int, 0 ≤ i ∧ i < nx ∧ chargeAt P next [i, 0] ≠ 0 := by
  obtain ⟨g, P, m0, hP, hg, hd, hic, -, -, ⟨s, file, h0, -⟩, -⟩ := C84_brio (α := ℝ) (by omega : 2 ≤ nx) (fun _ => true) 1 1
  have start := fun {c : Int} (h0' : 0 ≤ c) (h1' : c < nx) => C88_brio (by omega) hg hic (by have := h0.e; rwa [show P.e.at 0 = electrons.q from hP.electrons] at this)
    (by have := h0.i; rwa [show P.i.at 0 = ions.q from hP.ions] at this) (by have := h0.f; rwa [show P.f.at 0 = fields.q from hP.field] at this) h0' h1'
  have cE : P.comE = -10 := by rw [hP.electron]; simp only [real_lit]; push_cast; norm_num
  have cI : P.comI = 1 := by rw [hP.ion]; simp only [real_lit]; push_cast; norm_num
  have cg : P.gamma = 2 := by rw [hP.gamma]; simp only [real_lit]; push_cast; norm_num
  have mass : ∀ {c : Int}, 0 ≤ c → c < nx → chargeAt P (s 0) [c, 0] = 0 := by
    intro c c0 c1
    obtain ⟨a1, a2, -⟩ := start c0 c1
    have a1 := a1 0 (by decide); have a2 := a2 0 (by decide)
    unfold chargeAt
    rw [cE, cI, show (s 0).e ([c, 0] ++ [0]) = _ from a1, show (s 0).i ([c, 0] ++ [0]) = _ from a2]
    split_ifs <;> simp <;> norm_num
  have inside : ∀ {n : Nat} {fl : Int → Prop} {u u' : Cell → ℝ}, Filled g.rng.dims [(0, 1), (0, (n : Int))] [0] fl [] u u' → ∀ {c : Int}, 0 ≤ c → c < nx → ∀ {k : Nat}, k < n → u' [c, 0, k] = u [c, 0, k] := by
    intro n fl u u' F c c0 c1 k hk
    refine F.inside _ ?_
    rw [hd]; simp [InBox]; omega
  refine ⟨g, P, m0, s 0, hP, hg, hic, h0, fun i i0 i1 => ⟨mass i0 i1, ?_⟩, fun {t q' r next} ht S => ⟨fun i i0 i1 => ?_, (nx - 2) / 2, by omega, by omega, ?_⟩⟩
  · have := (start i0 i1).2.2 0 (by decide)
    rw [show (s 0).f [i, 0, 0] = _ from this]; split_ifs <;> simp
  · have hx : InBox (g.rng.dims ++ [(0, 1)]) [i, 0] := by rw [hd]; simp [InBox]; omega
    have z := inside S.fill_f (n := 6) i0 i1 (k := 0) (by decide)
    have zz := (start i0 i1).2.2 0 (by decide)
    have e1 := inside S.fill_e (n := 5) i0 i1 (k := 1) (by decide)
    have e2 := inside S.fill_i (n := 5) i0 i1 (k := 1) (by decide)
    have ee1 := (start i0 i1).1 1 (by decide)
    have ee2 := (start i0 i1).2.1 1 (by decide)
    have : r.f [i, 0, 0] = 0 := by
      refine (ex_rate S (brio_coupled hP) (by rw [hd]; rfl) hx).trans ?_
      unfold currentAt momVec
      simp only [Matrix.cons_val_zero]
      rw [show q'.e ([i, 0] ++ [1]) = _ from e1, show q'.i ([i, 0] ++ [1]) = _ from e2, ee1, ee2]
      split_ifs <;> simp
    rw [S.next_f, this, show q'.f [i, 0, 0] = _ from z, zz]
    unfold rkStage
    split_ifs <;> simp
  · have hx : InBox (g.rng.dims ++ [(0, 1)]) [(nx - 2) / 2, 0] := by rw [hd]; simp [InBox]; omega
    obtain ⟨-, -, -, -, -, re, ri⟩ := sources_of S (brio_coupled hP) hx
    have dx : g.dxAt 0 = 1 / nx := by
      unfold TwoFluidBrioWu.grid at hg
      rw [show Range.ofLengths 1 [nx] = .ok (Range.setup [(0, nx)]) from rfl, Res.ok_bind] at hg
      rw [dxAt_make hg (i := 0) rfl rfl]; simp [real_lit]
    have Je := jump_mass (g := g) (by rw [hd]; rfl) (u := q'.e) (i := (nx - 2) / 2) (a := 1 / 10) (b := 1 / 80) (e := 1) (f := 1 / 10) (by norm_num) (by norm_num) (by norm_num) (by norm_num)
      (fun c c0 c1 k hk => by
        rw [inside S.fill_e (n := 5) (by omega) (by omega) hk, (start (by omega) (by omega)).1 k hk, if_pos (by omega)]; rfl)
      (fun c c0 c1 k hk => by
        rw [inside S.fill_e (n := 5) (by omega) (by omega) hk, (start (by omega) (by omega)).1 k hk, if_neg (by omega)]; rfl)
    have Ji := jump_mass (g := g) (by rw [hd]; rfl) (u := q'.i) (i := (nx - 2) / 2) (a := 1) (b := 1 / 8) (e := 1) (f := 1 / 10) (by norm_num) (by norm_num) (by norm_num) (by norm_num)
      (fun c c0 c1 k hk => by
        rw [inside S.fill_i (n := 5) (by omega) (by omega) hk, (start (by omega) (by omega)).2.1 k hk, if_pos (by omega)]; rfl)
      (fun c c0 c1 k hk => by
        rw [inside S.fill_i (n := 5) (by omega) (by omega) hk, (start (by omega) (by omega)).2.1 k hk, if_neg (by omega)]; rfl)
    rw [cg] at re ri
    have m0 := mass (c := (nx - 2) / 2) (by omega) (by omega)
    unfold chargeAt at m0 ⊢
    have ie := inside S.fill_e (n := 5) (c := (nx - 2) / 2) (by omega) (by omega) (k := 0) (by decide)
    have ii := inside S.fill_i (n := 5) (c := (nx - 2) / 2) (by omega) (by omega) (k := 0) (by decide)
    rw [S.next_e, S.next_i, re, ri, Je, Ji, show q'.e ([(nx - 2) / 2, 0] ++ [0]) = _ from ie, show q'.i ([(nx - 2) / 2, 0] ++ [0]) = _ from ii]
    simp only [List.cons_append, List.nil_append, cE, cI] at m0 ⊢
    unfold rkStage
    have s10 : 0 < √(10 : ℝ) := Real.sqrt_pos.2 (by norm_num)
    have e1 : √(2 * 1 / (1 / 10) : ℝ) = √10 * √(2 * 1 / 1) := by rw [← Real.sqrt_mul (by norm_num)]; norm_num
    have e2 : √(2 * (1 / 10) / (1 / 80) : ℝ) = √10 * √(2 * (1 / 10) / (1 / 8)) := by rw [← Real.sqrt_mul (by norm_num)]; norm_num
    have p1 : 0 < √(2 * 1 / 1 : ℝ) := Real.sqrt_pos.2 (by norm_num)
    have p2 : 0 < √(2 * (1 / 10) / (1 / 8) : ℝ) := Real.sqrt_pos.2 (by norm_num)
    have s1 : √(10 : ℝ) ≠ 1 := by
      intro h
      have := Real.sq_sqrt (show (0 : ℝ) ≤ 10 by norm_num)
      rw [h] at this; norm_num at this
    rw [e1, e2, dx]
    have hn : (0 : ℝ) < nx := by
      have : 0 < nx := by omega
      exact_mod_cast this
    generalize √(2 * 1 / 1 : ℝ) = A at *
    generalize √(2 * (1 / 10) / (1 / 8) : ℝ) = B at *
    generalize √(10 : ℝ) = R at *
    generalize (s 0).e [(nx - 2) / 2, 0, ((0 : Nat) : Int)] = ue at *
    generalize (s 0).i [(nx - 2) / 2, 0, ((0 : Nat) : Int)] = ui at *
    intro h
    have pAB : 0 < A + B := by positivity
    have key : t * (7 / 8 * nx) * (A * B / (A + B)) * (R - 1) = 0 := by
      have q1 : R * A * (R * B) * (1 / 10 - 1 / 80) / (R * A + R * B) = R * (A * B / (A + B)) * (7 / 80) := by
        rw [show R * A + R * B = R * (A + B) by ring]; field_simp; norm_num
      rw [q1] at h
      have q2 : A * B * (1 - 1 / 8) / (A + B) = A * B / (A + B) * (7 / 8) := by ring
      rw [q2] at h
      generalize A * B / (A + B) = C at *
      simp only [] at h
      rw [div_div_eq_mul_div, div_one, div_div_eq_mul_div, div_one] at h
      linear_combination h - m0
    have : t * (7 / 8 * nx) * (A * B / (A + B)) * (R - 1) ≠ 0 := mul_ne_zero (mul_ne_zero (mul_ne_zero ht (by positivity)) (by positivity)) (sub_ne_zero.2 s1)
    exact this key

/-- The current of the mass fluxes of the two fluids through the lower face of a cell in direction 0: density times velocity as the Riemann solver has it. -/
noncomputable def fluxCurrent (P : Plasma ℝ) (s : State ℝ) (x : Cell) : ℝ :=
  P.comE * (faceFlux (fluxOf (Euler.hll P.gamma ((0 : Nat) : Int))) 5 (fun x j => s.e (x ++ [(j : Int)])) 0 x).getD 0 0 +
    P.comI * (faceFlux (fluxOf (Euler.hll P.gamma ((0 : Nat) : Int))) 5 (fun x j => s.i (x ++ [(j : Int)])) 0 x).getD 0 0

/-- **C101**, what holds: in one dimension the electric field along it changes in each cell exactly by `-J / ε₀` of that cell, and the charge in each cell by the difference of the
currents through its two faces. Missing: the current through the faces is not that in the cells, see `C101_false`. -/
theorem C101_partial (S : PlasmaStage P g p ws ps t k start cur cur' rate next) {eps0 : ℝ} (hc : Consistent P eps0) (h1 : g.rng.dims.length = 1) (hx : InBox (g.rng.dims ++ [(0, p)]) x) :
    rate.f (x ++ [0]) = -currentAt P cur' x 0 / eps0 ∧ chargeAt P rate x = (fluxCurrent P cur' x - fluxCurrent P cur' (moveBy x 0 1)) / g.dxAt 0 := by
  refine ⟨ex_rate S hc h1 hx, ?_⟩
  obtain ⟨-, -, -, -, -, re, ri⟩ := sources_of S hc hx
  unfold chargeAt fluxCurrent
  rw [re, ri]
  unfold fluidFlux
  rw [fvUpdate_add, fvUpdate_add, h1]
  simp only [show List.range 1 = [0] from rfl, List.map_cons, List.map_nil, List.sum_cons, List.sum_nil]
  ring

-- C100, C101: the stages of the first step of the two-fluid shock tube
example : ∃ (g : Rectilinear ℝ) (P : Plasma ℝ) (q q' r next : State ℝ), PlasmaStage P g 1 [0] [] (1 / 1000) 0 q' q q' r next ∧ Consistent P (1 / 10 ^ 6) ∧ g.rng.dims = [(0, 100)] ∧
    ∃ i : Int, 0 ≤ i ∧ i < 100 ∧ chargeAt P next [i, 0] ≠ 0 := by
  obtain ⟨g, P, m0, q, hP, hg, -, -, -, F⟩ := C101_false (nx := 100) (by decide)
  have hd : g.rng.dims = [(0, 100)] := by
    unfold TwoFluidBrioWu.grid at hg
    rw [show Range.ofLengths 1 [100] = .ok (Range.setup [(0, 100)]) from rfl, Res.ok_bind] at hg
    rw [(Rectilinear.make_fields hg).1]; rfl
  obtain ⟨s, hs, b⟩ := (C90_exists (g := g) (p := 1) (ws := [0]) (ps := []) (by rw [hd]; decide) (by simp) (by simp) (1 / 1000)).2.2 P q
  obtain ⟨q0, r0, q1, q1', r1, q2, q2', r2, H0, -⟩ := b 0
  rw [hs] at H0
  exact ⟨g, P, q, q0, r0, q1, H0, brio_coupled hP, hd, (F (by norm_num) H0).2⟩

end QK.Props
