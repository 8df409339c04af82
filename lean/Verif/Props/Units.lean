import Verif.Props.Symmetry
import Verif.Proofs.Axes
/-
C131: the units of length and time.
-/
namespace QK.Props
open QK Spec

/-- The same mesh with cells `s` times as wide. -/
structure Stretched (s : ℝ) (g g' : Rectilinear ℝ) : Prop where
  dims : g'.rng.dims = g.rng.dims
  widths : ∀ d, g'.dxAt d = s * g.dxAt d

/-- The plasma whose charges and currents, which are per time, are measured with a unit of time `s` times as small. -/
noncomputable def slower (s : ℝ) (P : Plasma ℝ) : Plasma ℝ := { P with comE := P.comE / s, comI := P.comI / s, mults := P.mults.map (· / s) }

section
variable {s : ℝ} {g g' : Rectilinear ℝ} {p : Int} {ws ps : List Nat} {t : ℝ}

theorem Stretched.symm (h : Stretched s g g') (hs : s ≠ 0) : Stretched s⁻¹ g' g :=
  ⟨h.dims.symm, fun d => by rw [h.widths, inv_mul_cancel_left₀ hs]⟩

theorem fvUpdate_stretched (φ : Nat → List ℝ → List ℝ → List ℝ) (n : Nat) (u : Cell → Nat → ℝ) {dx dy : Nat → ℝ} (h : ∀ d, dy d = s * dx d) (x : Cell) (j : Nat) :
    ∀ (dims : List Nat) (r : ℝ), fvUpdate φ n u dy dims x j (r / s) = fvUpdate φ n u dx dims x j r / s := by
  intro dims
  induction dims with
  | nil => intro r; rfl
  | cons d ds ih =>
    intro r
    rw [show fvUpdate φ n u dx (d :: ds) x j r = fvUpdate φ n u dx ds x j (r + (faceFlux (φ d) n u d x).getD j (Arith.lit 0) / dx d -
      (faceFlux (φ d) n u d (moveBy x d 1)).getD j (Arith.lit 0) / dx d) from rfl, ← ih]
    show fvUpdate φ n u dy ds x j _ = _
    congr 1
    beta_reduce
    rw [h d]
    simp only [mul_comm s, ← div_div]
    ring

theorem rkStage_stretched (hs : s ≠ 0) (k : Nat) (u0 u r : ℝ) : rkStage k (s * t) u0 u (r / s) = rkStage k t u0 u r := by
  have e : s * t * (r / s) = t * r := by field_simp
  match k with
  | 0 => simp only [rkStage, e]
  | 1 => simp only [rkStage]; rw [mul_assoc, e, mul_assoc]
  | _ + 2 => simp only [rkStage, e]

theorem zero_stretched : (Arith.lit 0 : ℝ) = Arith.lit 0 / s := by simp [real_lit]

theorem gasRate_stretched (h : Stretched s g g') {gamma : ℝ} {u r : Cell → ℝ} (H : GasRate g.rng.dims p g.dxAt gamma u r) :
    GasRate g'.rng.dims p g'.dxAt gamma u (fun x => r x / s) := by
  intro x hx j hj
  rw [h.dims] at hx ⊢
  rw [zero_stretched (s := s), fvUpdate_stretched _ _ _ h.widths, ← H x hx j hj]

theorem lightRate_stretched (h : Stretched s g g') {c : ℝ} {u r : Cell → ℝ} (H : LightRate g.rng.dims p g.dxAt c u r) :
    LightRate g'.rng.dims p g'.dxAt c u (fun x => r x / s) := by
  intro x hx j hj
  rw [h.dims] at hx ⊢
  rw [zero_stretched (s := s), fvUpdate_stretched _ _ _ h.widths, ← H x hx j hj]

theorem soloStep_stretched (h : Stretched s g g') (hs : s ≠ 0) {n : Nat} {flip : Int → Prop} {Rate Rate' : (Cell → ℝ) → (Cell → ℝ) → Prop}
    (hR : ∀ {u r}, Rate u r → Rate' u (fun x => r x / s)) {q q' : Cell → ℝ} (H : SoloStep g.rng.dims p n ws flip ps Rate t q q') :
    SoloStep g'.rng.dims p n ws flip ps Rate' (s * t) q q' := by
  obtain ⟨q0, r0, q1, q1', r1, q2, q2', r2, h0, h1, h2⟩ := H
  rw [h.dims]
  refine ⟨q0, _, q1, q1', _, q2, q2', _, ⟨h0.fill, hR h0.rates, ?_⟩, ⟨h1.fill, hR h1.rates, ?_⟩, ⟨h2.fill, hR h2.rates, ?_⟩⟩
  · intro x; rw [rkStage_stretched hs]; exact h0.next x
  · intro x; rw [rkStage_stretched hs]; exact h1.next x
  · intro x; rw [rkStage_stretched hs]; exact h2.next x

theorem gasStep_stretched (h : Stretched s g g') (hs : s ≠ 0) {gamma : ℝ} {q q' : Cell → ℝ} (H : GasStep g p ws ps gamma t q q') : GasStep g' p ws ps gamma (s * t) q q' := by
  unfold GasStep at H ⊢
  exact soloStep_stretched h hs (Rate' := GasRate g'.rng.dims p g'.dxAt gamma) (fun {u r} k => gasRate_stretched h k) H

theorem lightStep_stretched (h : Stretched s g g') (hs : s ≠ 0) {c : ℝ} {q q' : Cell → ℝ} (H : LightStep g p ps c t q q') : LightStep g' p ps c (s * t) q q' := by
  unfold LightStep at H ⊢
  exact soloStep_stretched h hs (Rate' := LightRate g'.rng.dims p g'.dxAt c) (fun {u r} k => lightRate_stretched h k) H

theorem fluidRate_stretched (h : Stretched s g g') {gamma com : ℝ} {u w r : Cell → ℝ} (H : FluidRate g.rng.dims p g.dxAt gamma com u w r) :
    FluidRate g'.rng.dims p g'.dxAt gamma (com / s) u w (fun x => r x / s) := by
  obtain ⟨r0, h0, h1⟩ := H
  refine ⟨fun x => r0 x / s, gasRate_stretched h h0, ?_⟩
  rw [h.dims]
  exact ⟨fun x hx => by simp only [h1.momX x hx]; ring, fun x hx => by simp only [h1.momY x hx]; ring, fun x hx => by simp only [h1.momZ x hx]; ring,
    fun x hx => by simp only [h1.energy x hx]; ring, fun y hy => by simp only [h1.rest y hy]⟩

theorem currents_stretched (y : Cell) : ∀ (ms : List ℝ) (fs : List (Cell → ℝ)) (v : ℝ),
    ((ms.map (· / s)).zip fs).foldl (fun r f => r + f.1 * f.2 y) (v / s) = (ms.zip fs).foldl (fun r f => r + f.1 * f.2 y) v / s
  | [], _, _ => by simp
  | _ :: _, [], _ => by simp
  | m :: ms, f :: fs, v => by
    simp only [List.map_cons, List.zip_cons_cons, List.foldl_cons]
    rw [← currents_stretched y ms fs]
    congr 1; ring

theorem fieldRate_stretched (h : Stretched s g g') {c : ℝ} {ms : List ℝ} {fs : List (Cell → ℝ)} {w r : Cell → ℝ} (H : FieldRate g.rng.dims p g.dxAt c (ms.zip fs) w r) :
    FieldRate g'.rng.dims p g'.dxAt c ((ms.map (· / s)).zip fs) w (fun x => r x / s) := by
  obtain ⟨r0, h0, h1⟩ := H
  refine ⟨fun x => r0 x / s, lightRate_stretched h h0, ?_⟩
  rw [h.dims]
  exact ⟨fun x k hx hk hk' => by simp only [h1.field x k hx hk hk', currents_stretched], fun y hy => by simp only [h1.rest y hy]⟩

theorem plasmaStage_stretched (h : Stretched s g g') (hs : s ≠ 0) {P : Plasma ℝ} {k : Nat} {a c c' r n : State ℝ} (H : PlasmaStage P g p ws ps t k a c c' r n) :
    PlasmaStage (slower s P) g' p ws ps (s * t) k a c c' ⟨fun x => r.e x / s, fun x => r.i x / s, fun x => r.f x / s⟩ n := by
  refine ⟨h.dims ▸ H.fill_e, h.dims ▸ H.fill_i, h.dims ▸ H.fill_f, fluidRate_stretched h H.rate_e, fluidRate_stretched h H.rate_i, fieldRate_stretched h H.rate_f, ?_, ?_, ?_⟩
  · intro x; rw [rkStage_stretched hs]; exact H.next_e x
  · intro x; rw [rkStage_stretched hs]; exact H.next_i x
  · intro x; rw [rkStage_stretched hs]; exact H.next_f x

theorem plasmaStep_stretched (h : Stretched s g g') (hs : s ≠ 0) {P : Plasma ℝ} {q q' : State ℝ} (H : PlasmaStep P g p ws ps t q q') :
    PlasmaStep (slower s P) g' p ws ps (s * t) q q' := by
  obtain ⟨q0, r0, q1, q1', r1, q2, q2', r2, h0, h1, h2⟩ := H
  exact ⟨_, _, _, _, _, _, _, _, plasmaStage_stretched h hs h0, plasmaStage_stretched h hs h1, plasmaStage_stretched h hs h2⟩

theorem slower_slower (hs : s ≠ 0) (P : Plasma ℝ) : slower s⁻¹ (slower s P) = P := by
  have e : ∀ x : ℝ, x / s * s = x := fun x => by field_simp
  simp [slower, e, List.map_map, Function.comp_def]

/-- **C131** Only the ratio of the step size to the cell widths matters: with cells and step `s` times as large the time steps are the same, for a gas, for light, and
for a plasma whose rates (charge over mass, multipliers of the currents) are `s` times as small. Exact arithmetic. -/
theorem C131_ratio (h : Stretched s g g') (hs : s ≠ 0) :
    (∀ (gamma : ℝ) (q q' : Cell → ℝ), GasStep g p ws ps gamma t q q' ↔ GasStep g' p ws ps gamma (s * t) q q') ∧
    (∀ (c : ℝ) (q q' : Cell → ℝ), LightStep g p ps c t q q' ↔ LightStep g' p ps c (s * t) q q') ∧
    (∀ (P : Plasma ℝ) (q q' : State ℝ), PlasmaStep P g p ws ps t q q' ↔ PlasmaStep (slower s P) g' p ws ps (s * t) q q') := by
  have hs' : s⁻¹ ≠ 0 := inv_ne_zero hs
  have h' := h.symm hs
  have ht : s⁻¹ * (s * t) = t := inv_mul_cancel_left₀ hs t
  refine ⟨fun gamma q q' => ⟨gasStep_stretched h hs, fun H => ?_⟩, fun c q q' => ⟨lightStep_stretched h hs, fun H => ?_⟩,
    fun P q q' => ⟨plasmaStep_stretched h hs, fun H => ?_⟩⟩
  · have := gasStep_stretched h' hs' H; rwa [ht] at this
  · have := lightStep_stretched h' hs' H; rwa [ht] at this
  · have := plasmaStep_stretched h' hs' H; rwa [ht, slower_slower hs] at this

end

-- a tube of 100 cells of width 1/100, made ten times as long
example : Stretched 10 (⟨Range.setup [(0, 100)], [0], [1], [1 / 100]⟩ : Rectilinear ℝ) ⟨Range.setup [(0, 100)], [5], [10], [1 / 10]⟩ := by
  refine ⟨rfl, fun d => ?_⟩
  rcases d with _ | d
  · simp [Rectilinear.dxAt]; norm_num
  · simp [Rectilinear.dxAt, real_lit]

end QK.Props
