import Verif.Props.TruncationPlasma
import Verif.Props.Disturbance
/-
C142: small disturbances of a uniform plasma in balance.
-/
namespace QK.Props
open QK Spec Truncation

/-- Two uniform gases in uniform fields. -/
def uniformPlasma (we wi : Gas) (E B : Vec) : PlasmaFields :=
  ⟨fun _ _ => we, fun _ _ => wi, fun _ _ => E, fun _ _ => B, fun _ _ _ => ⟨0, 0, 0⟩, fun _ _ _ => ⟨0, 0, 0⟩, fun _ _ _ => ⟨0, 0, 0⟩, fun _ _ _ => ⟨0, 0, 0⟩, fun _ _ _ => 0, fun _ _ _ => 0⟩

/-- No force acts on either gas, and their currents cancel: for instance both at rest without an electric field, in any magnetic field. -/
structure Balanced (P : Plasma ℝ) (we wi : Gas) (E B : Vec) : Prop where
  force_e : ∀ i, we.rho * E i + cross we.mom B i = 0
  force_i : ∀ i, wi.rho * E i + cross wi.mom B i = 0
  work_e : vdot we.mom E = 0
  work_i : vdot wi.mom E = 0
  current : ∀ i, P.comE * we.mom i + P.comI * wi.mom i = 0

/-- What walls ask of a uniform plasma: gases at rest, no electric field, no magnetic field in x (bc_conducting_wall reverses these, C27). -/
def WallsAllow (ws : List Nat) (we wi : Gas) (E B : Vec) : Prop := ws ≠ [] → (∀ i, we.mom i = 0) ∧ (∀ i, wi.mom i = 0) ∧ (∀ i, E i = 0) ∧ B 0 = 0

/-- A time step in whose stages no denominator of the limiter is zero. -/
def CleanStep (P : Plasma ℝ) (g : Rectilinear ℝ) (p : Int) (ws ps : List Nat) (t : ℝ) (q q' : State ℝ) : Prop :=
  ∃ q0 r0 q1 q1' r1 q2 q2' r2 : State ℝ, PlasmaStage P g p ws ps t 0 q0 q q0 r0 q1 ∧ PlasmaStage P g p ws ps t 1 q0 q1 q1' r1 q2 ∧ PlasmaStage P g p ws ps t 2 q0 q2 q2' r2 q' ∧
    PlasmaNoZero g p q0 ∧ PlasmaNoZero g p q1' ∧ PlasmaNoZero g p q2'

/-- The rate at which disturbances may grow: fluxes of the gases, fluxes of the fields, forces and currents. -/
noncomputable def plasmaRate (g : Rectilinear ℝ) (P : Plasma ℝ) (eps0 ρ0 R N δmax : ℝ) : ℝ :=
  9 / 2 * (fluxLip P.gamma ρ0 R + 2 * speedMax P.gamma ρ0 R + (1 + |P.c| + P.c ^ 2)) * invWidths g g.rng.dims.length + (|P.comE| + |P.comI|) * (3 * (R + N + δmax) + 1 / eps0)

private theorem const_smooth (d : Nat) (a : ℝ) : SmoothIn d 0 (fun _ => a) (fun _ => 0) where
  deriv _ := hasDerivAt_const _ _
  lip p s := by simp

private theorem zero_comps : ∀ j < 5, (⟨0, 0, 0⟩ : Gas).comps.getD j 0 = 0 := fun j hj => by unfold Gas.comps; interval_cases j <;> rfl

section
variable {g : Rectilinear ℝ} {P : Plasma ℝ} {eps0 ρ0 p0 R N δmax t τ δ : ℝ} {W : PlasmaFields} {p : Int} {ws ps : List Nat} {k : Nat} {start cur cur' rate next : State ℝ} {we wi : Gas} {E B : Vec}

private theorem no_force {w : Gas} (com : ℝ) (h : ∀ i, w.rho * E i + cross w.mom B i = 0) (h' : vdot w.mom E = 0) : ∀ j < 5, fluidRhs com w E B (fun _ => ⟨0, 0, 0⟩) j = 0 := by
  intro j hj
  unfold fluidRhs
  rw [zero_comps j hj]
  unfold lorentz
  simp only [h, h', mul_zero]
  rw [show (⟨0, fun _ => 0, 0⟩ : Gas) = ⟨0, 0, 0⟩ from rfl, zero_comps j hj]
  norm_num

private theorem no_current (c : ℝ) (h : Balanced P we wi E B) : ∀ j < 6, fieldRhs c eps0 P.comE P.comI we wi (fun _ => 0) (fun _ => 0) j = 0 := by
  intro j hj
  unfold fieldRhs
  interval_cases j <;> simp [emState, curl, h.current]

/-- **C142** Such a plasma is a solution of the two-fluid equations. -/
theorem uniform_solution (Ie : InRange P.gamma ρ0 p0 R we) (Ii : InRange P.gamma ρ0 p0 R wi) (hE : ∀ i, |E i| ≤ N) (hB : ∀ i, |B i| ≤ N) (h : Balanced P we wi E B) :
    TwoFluid g P eps0 ρ0 p0 R N 0 0 0 (uniformPlasma we wi E B) := by
  refine ⟨fun _ _ => Ie, fun _ _ => Ii, fun _ _ => hE, fun _ _ => hB, ?_, ?_, ?_, ?_, ?_, ?_, fun _ _ d _ j hj => zero_comps j hj, fun _ _ d _ j hj => zero_comps j hj, fun _ _ _ _ => ⟨rfl, rfl⟩, ?_, ?_, ?_⟩
  · intro _ d j hj; simp only [uniformPlasma]; rw [zero_comps j hj]; exact const_smooth _ _
  · intro _ d j hj; simp only [uniformPlasma]; rw [zero_comps j hj]; exact const_smooth _ _
  · intro _ d j hj; simp only [uniformPlasma]; rw [zero_comps j hj]; exact const_smooth _ _
  · intro _ d j hj; simp only [uniformPlasma]; rw [zero_comps j hj]; exact const_smooth _ _
  · intro _ d i; exact const_smooth _ _
  · intro _ d i; exact const_smooth _ _
  · exact ⟨fun _ _ j hj => by simp only [uniformPlasma]; rw [no_force _ h.force_e h.work_e j hj]; exact hasDerivAt_const _ _, fun _ _ _ j hj => by simp [uniformPlasma]⟩
  · exact ⟨fun _ _ j hj => by simp only [uniformPlasma]; rw [no_force _ h.force_i h.work_i j hj]; exact hasDerivAt_const _ _, fun _ _ _ j hj => by simp [uniformPlasma]⟩
  · exact ⟨fun _ _ j hj => by simp only [uniformPlasma]; rw [no_current _ h j hj]; exact hasDerivAt_const _ _, fun _ _ _ j hj => by simp [uniformPlasma]⟩

theorem uniform_meets (h : WallsAllow ws we wi E B) : PlasmaMeets g ws ps (uniformPlasma we wi E B) τ := by
  have gas : ∀ w : Gas, (ws ≠ [] → ∀ i, w.mom i = 0) → Meets g ws isMomentum ps 5 fun _ j => w.comps.getD j 0 := by
    intro w rest
    refine ⟨fun _ _ _ _ _ => rfl, fun d hd _ _ _ j hj hm => ?_, fun _ _ _ _ _ _ _ _ => rfl⟩
    have z := rest (List.ne_nil_of_mem hd)
    have c : ∀ i, w.mom i = -w.mom i := fun i => by rw [z i]; simp
    obtain ⟨m1, m2⟩ : 1 ≤ (j : Int) ∧ (j : Int) ≤ 3 := by unfold isMomentum at hm; omega
    obtain rfl | rfl | rfl : j = 1 ∨ j = 2 ∨ j = 3 := by omega
    exacts [c 0, c 1, c 2]
  refine ⟨gas we fun e => (h e).1, gas wi fun e => (h e).2.1, ⟨fun _ _ _ _ _ => rfl, fun d hd _ _ _ j hj hm => ?_, fun _ _ _ _ _ _ _ _ => rfl⟩⟩
  obtain ⟨_, _, e0, b0⟩ := h (List.ne_nil_of_mem hd)
  have c : ∀ i, E i = -E i := fun i => by rw [e0 i]; simp
  have c' : B 0 = -B 0 := by rw [b0]; simp
  obtain rfl | rfl | rfl | rfl : j = 0 ∨ j = 1 ∨ j = 2 ∨ j = 3 := by unfold isWallField at hm; omega
  exacts [c 0, c 1, c 2, c']

private theorem light_face {c : ℝ} {v : Cell → Nat → ℝ} (d : Fin 3) {x : Cell} (h : ∀ s : Int, -2 ≤ s → s ≤ 1 → ∀ j < 6, |v (moveBy x d s) j - emState E B j| ≤ δ) {j : Nat} (hj : j < 6) :
    |(faceFlux (fluxOf (Maxwell.rusanov c (d : Nat))) 6 v d x).getD j 0 - (maxwellFlux c d E B).getD j 0| ≤ (1 + |c| + c ^ 2) * (9 / 4 * δ) := by
  have hx := fun j hj => h 0 (by omega) (by omega) j hj
  simp only [moveBy_zero] at hx
  have gap : ∀ {a b c : ℝ}, |a - c| ≤ δ → |b - c| ≤ δ → |b - a| ≤ 2 * δ := by
    intro a b c h1 h2; rw [abs_le] at *; constructor <;> linarith [h1.1, h1.2, h2.1, h2.2]
  have sum : ∀ {a b c : ℝ}, |a - b| ≤ 5 / 8 * (2 * δ) → |b - c| ≤ δ → |a - c| ≤ 9 / 4 * δ := by
    intro a b c h1 h2; rw [abs_le] at *; constructor <;> linarith [h1.1, h1.2, h2.1, h2.2]
  unfold faceFlux
  refine light_near (d := d) (fun j hj => ?_) (fun j hj => ?_) hj
  · have b := h (-1) (by omega) (by omega) j hj
    exact sum ((recon_bound _ _ _ _).1.trans (by have := gap (h (-2) (by omega) (by omega) j hj) b; linarith)) b
  · have b := hx j hj
    exact sum ((recon_bound _ _ _ _).2.trans (by have := gap (h 1 (by omega) (by omega) j hj) b; linarith)) b

private theorem light_close {c : ℝ} {u r : Cell → ℝ} {x : Cell} (hr : LightRate g.rng.dims p g.dxAt c u r) (hx : InBox (g.rng.dims ++ [(0, p)]) x) (h3 : g.rng.dims.length ≤ 3)
    (hw : ∀ d < g.rng.dims.length, 0 < g.dxAt d) (S : Samples g g.rng.dims.length 6 (fun _ => emState E B) δ (fun x j => u (x ++ [(j : Int)])) x) {j : Nat} (hj : j < 6) :
    |r (x ++ [(j : Int)])| ≤ 9 / 2 * (1 + |c| + c ^ 2) * invWidths g g.rng.dims.length * δ := by
  rw [hr x hx j hj, fvUpdate_sum, show (Arith.lit 0 : ℝ) = 0 by simp [real_lit], zero_add, Nat.min_eq_left h3]
  unfold invWidths
  have each : ∀ d ∈ List.range g.rng.dims.length, |(faceFlux (fluxOf (Maxwell.rusanov c (d : Nat))) 6 (fun x j => u (x ++ [(j : Int)])) d x).getD j 0 / g.dxAt d -
      (faceFlux (fluxOf (Maxwell.rusanov c (d : Nat))) 6 (fun x j => u (x ++ [(j : Int)])) d (moveBy x d 1)).getD j 0 / g.dxAt d| ≤ 9 / 2 * (1 + |c| + c ^ 2) * δ * (1 / g.dxAt d) := by
    intro d hd
    have hd := List.mem_range.1 hd
    have w0 := hw d hd
    have a := light_face (c := c) (v := fun x j => u (x ++ [(j : Int)])) ⟨d, by omega⟩ (x := x) (fun s s1 s2 j hj => S d hd s s1 (by omega) j hj) hj
    have b := light_face (c := c) (v := fun x j => u (x ++ [(j : Int)])) ⟨d, by omega⟩ (x := moveBy x d 1)
      (fun s s1 s2 j hj => by rw [moveBy_moveBy]; exact S d hd _ (by omega) (by omega) j hj) hj
    dsimp only at a b
    rw [← sub_div, abs_div, abs_of_pos w0, mul_one_div]
    refine div_le_div_of_nonneg_right ?_ w0.le
    rw [abs_le] at *
    constructor <;> linarith [a.1, a.2, b.1, b.2]
  have : ∀ (l : List Nat) (f k : Nat → ℝ), (∀ d ∈ l, |f d| ≤ k d) → |(l.map f).sum| ≤ (l.map k).sum := by
    intro l f k
    induction l with
    | nil => simp
    | cons d l ih =>
      intro h
      simp only [List.map_cons, List.sum_cons]
      exact (abs_add_le _ _).trans (add_le_add (h d (by simp)) (ih fun e he => h e (by simp [he])))
  refine (this _ _ _ each).trans (le_of_eq ?_)
  rw [List.sum_map_mul_left]
  ring

private theorem prod_near {a a' b b' δ R N δm : ℝ} (ha : |a - a'| ≤ δ) (hb : |b - b'| ≤ δ) (hR : |a'| ≤ R) (hN : |b'| ≤ N) (hd : δ ≤ δm) : |a * b - a' * b'| ≤ (R + N + δm) * δ := by
  have d0 : 0 ≤ δ := (abs_nonneg _).trans ha
  rw [show a * b - a' * b' = (a - a') * (b - b') + (a - a') * b' + a' * (b - b') by ring]
  have h1 : |(a - a') * (b - b')| ≤ δ * δ := by rw [abs_mul]; exact mul_le_mul ha hb (abs_nonneg _) d0
  have h2 : |(a - a') * b'| ≤ δ * N := by rw [abs_mul]; exact mul_le_mul ha hN (abs_nonneg _) d0
  have h3 : |a' * (b - b')| ≤ R * δ := by rw [abs_mul]; exact mul_le_mul hR hb (abs_nonneg _) ((abs_nonneg _).trans hR)
  have h4 : δ * δ ≤ δm * δ := mul_le_mul_of_nonneg_right hd d0
  have := abs_add_three ((a - a') * (b - b')) ((a - a') * b') (a' * (b - b'))
  linarith

private theorem three_near {a b c a' b' c' η : ℝ} (h1 : |a - a'| ≤ η) (h2 : |b - b'| ≤ η) (h3 : |c - c'| ≤ η) : |(a + b + c) - (a' + b' + c')| ≤ 3 * η ∧ |(a + b - c) - (a' + b' - c')| ≤ 3 * η := by
  rw [abs_le] at h1 h2 h3
  constructor <;> rw [abs_le] <;> constructor <;> linarith [h1.1, h1.2, h2.1, h2.2, h3.1, h3.2]

private theorem add_source {r r0 s s' d T η com : ℝ} (h : r = r0 + com * s) (h0 : |r0 + d| ≤ T) (hs : |s - s'| ≤ η) : |r - (com * s' - d)| ≤ T + |com| * η := by
  rw [h, show r0 + com * s - (com * s' - d) = (r0 + d) + com * (s - s') by ring]
  refine (abs_add_le _ _).trans (add_le_add h0 ?_)
  rw [abs_mul]
  exact mul_le_mul_of_nonneg_left hs (abs_nonneg _)

/-- The rates of one charged gas: those of the gas and the force. -/
private theorem force_close {com T : ℝ} {w : Gas} {u v r0 r : Cell → ℝ} {x : Cell} (hL : LorentzAdded com (g.rng.dims ++ [(0, p)]) u v r0 r) (hx : InBox (g.rng.dims ++ [(0, p)]) x) {gamma : ℝ}
    (h0 : 0 < ρ0) (I : InRange gamma ρ0 p0 R w) (hE : ∀ i, |E i| ≤ N) (hB : ∀ i, |B i| ≤ N) (ux : ∀ j < 5, |u (x ++ [((j : Nat) : Int)]) - w.comps.getD j 0| ≤ δ)
    (vx : ∀ j < 6, |v (x ++ [((j : Nat) : Int)]) - emState E B j| ≤ δ) (hd : δ ≤ δmax) (j : Nat) (hj : j < 5) (key : |r0 (x ++ [(j : Int)])| ≤ T) :
    |r (x ++ [(j : Int)]) - fluidRhs com w E B (fun _ => ⟨0, 0, 0⟩) j| ≤ T + |com| * (3 * ((R + N + δmax) * δ)) := by
  have key : |r0 (x ++ [(j : Int)]) + ((⟨0, 0, 0⟩ : Gas).comps.getD j 0 + (⟨0, 0, 0⟩ : Gas).comps.getD j 0 + (⟨0, 0, 0⟩ : Gas).comps.getD j 0)| ≤ T := by
    rw [zero_comps j hj]; simpa using key
  have rho : |w.rho| ≤ R := by rw [abs_of_pos (by linarith [I.low])]; exact I.high
  have d0 : 0 ≤ δ := (abs_nonneg _).trans (ux 0 (by omega))
  have pr : ∀ {a b a' b' : ℝ}, |a - a'| ≤ δ → |b - b'| ≤ δ → |a'| ≤ R → |b'| ≤ N → |a * b - a' * b'| ≤ (R + N + δmax) * δ := fun ha hb h1 h2 => prod_near ha hb h1 h2 hd
  have q0 := ux 0 (by omega); have q1 := ux 1 (by omega); have q2 := ux 2 (by omega); have q3 := ux 3 (by omega)
  have w0 := vx 0 (by omega); have w1 := vx 1 (by omega); have w2 := vx 2 (by omega); have w3 := vx 3 (by omega); have w4 := vx 4 (by omega); have w5 := vx 5 (by omega)
  unfold Gas.comps at q0 q1 q2 q3
  simp only [emState] at w0 w1 w2 w3 w4 w5
  unfold fluidRhs
  interval_cases j
  · have e : r (x ++ [((0 : Nat) : Int)]) = r0 (x ++ [((0 : Nat) : Int)]) := hL.rest _ (fun y k _ h1 h2 => snoc_ne (by omega))
    rw [e]
    have z : (lorentz com w E B).comps.getD 0 0 = 0 := rfl
    rw [z, zero_sub, sub_neg_eq_add]
    have : 0 ≤ (R + N + δmax) * δ := (abs_nonneg _).trans (pr q0 w0 rho (hE 0))
    have : 0 ≤ |com| * (3 * ((R + N + δmax) * δ)) := by positivity
    linarith
  · refine add_source (hL.momX x hx) key ?_
    have := (three_near (pr q0 w0 rho (hE 0)) (pr q2 w5 (I.mom 1) (hB 2)) (pr q3 w4 (I.mom 2) (hB 1))).2
    refine le_trans (le_of_eq ?_) this
    congr 1
    simp [cross]
    ring
  · refine add_source (hL.momY x hx) key ?_
    have := (three_near (pr q0 w1 rho (hE 1)) (pr q3 w3 (I.mom 2) (hB 0)) (pr q1 w5 (I.mom 0) (hB 2))).2
    refine le_trans (le_of_eq ?_) this
    congr 1
    simp [cross]
    ring
  · refine add_source (hL.momZ x hx) key ?_
    have := (three_near (pr q0 w2 rho (hE 2)) (pr q1 w4 (I.mom 0) (hB 1)) (pr q2 w3 (I.mom 1) (hB 0))).2
    refine le_trans (le_of_eq ?_) this
    congr 1
    simp [cross]
    ring
  · refine add_source (hL.energy x hx) key ?_
    have := (three_near (pr q1 w0 (I.mom 0) (hE 0)) (pr q2 w1 (I.mom 1) (hE 1)) (pr q3 w2 (I.mom 2) (hE 2))).1
    exact this

/-- **C142** Where a plasma is within `δ` of a uniform one in balance, all its rates of change are at most `plasmaRate * δ`. -/
theorem C142_rate (Ie : InRange P.gamma ρ0 p0 R we) (Ii : InRange P.gamma ρ0 p0 R wi) (hE : ∀ i, |E i| ≤ N) (hB : ∀ i, |B i| ≤ N) (bal : Balanced P we wi E B) (walls : WallsAllow ws we wi E B)
    (hc : Consistent P eps0) (h3 : g.rng.dims.length ≤ 3) (hw : ∀ d < g.rng.dims.length, 0 < g.dxAt d) (C : Covered g.rng.dims ws ps) (hg : 1 < P.gamma) (h0 : 0 < ρ0) (hp : 0 < p0)
    (fine : Fine P.gamma ρ0 p0 R (9 / 4 * δmax)) (S : PlasmaStage P g p ws ps t k start cur cur' rate next) (hz : PlasmaNoZero g p cur') (d0 : 0 ≤ δ) (hd : δ ≤ δmax)
    (h : PlasmaOnMesh g p (uniformPlasma we wi E B) τ δ cur) {x : Cell} (hx : InBox (g.rng.dims ++ [(0, p)]) x) :
    (∀ j < 5, |rate.e (x ++ [((j : Nat) : Int)])| ≤ plasmaRate g P eps0 ρ0 R N δmax * δ) ∧ (∀ j < 5, |rate.i (x ++ [((j : Nat) : Int)])| ≤ plasmaRate g P eps0 ρ0 R N δmax * δ) ∧
    (∀ j < 6, |rate.f (x ++ [((j : Nat) : Int)])| ≤ plasmaRate g P eps0 ρ0 R N δmax * δ) := by
  have R0 : 0 < R := by have := Ie.low; have := Ie.high; linarith
  have N0 : 0 ≤ N := (abs_nonneg _).trans (hE 0)
  have m0 : 0 ≤ δmax := d0.trans hd
  have e0 := hc.pos
  have L0 := lip_nonneg hg h0 R0
  have i0 : 0 ≤ invWidths g g.rng.dims.length := list_sum_nonneg fun d hd => by have := hw d (List.mem_range.1 hd); positivity
  have F : Fine P.gamma ρ0 p0 R (9 / 4 * δ) := fine.mono hg h0 R0 (by positivity) (by linarith)
  have meets := uniform_meets (g := g) (ps := ps) (τ := τ) walls
  have ex : ∀ j < 5, |cur'.e (x ++ [((j : Nat) : Int)]) - we.comps.getD j 0| ≤ δ := fun j hj => by rw [S.fill_e.inside _ (inBox_comp hx hj)]; exact h.e x hx j hj
  have ix : ∀ j < 5, |cur'.i (x ++ [((j : Nat) : Int)]) - wi.comps.getD j 0| ≤ δ := fun j hj => by rw [S.fill_i.inside _ (inBox_comp hx hj)]; exact h.i x hx j hj
  have fx : ∀ j < 6, |cur'.f (x ++ [((j : Nat) : Int)]) - emState E B j| ≤ δ := fun j hj => by rw [S.fill_f.inside _ (inBox_comp hx hj)]; exact h.f x hx j hj
  unfold plasmaRate
  have a1 : 0 ≤ |P.comE| * (3 * ((R + N + δmax) * δ)) := by positivity
  have a2 : 0 ≤ |P.comI| * (3 * ((R + N + δmax) * δ)) := by positivity
  have a3 : 0 ≤ |P.comE| * (1 / eps0) * δ := by positivity
  have a4 : 0 ≤ |P.comI| * (1 / eps0) * δ := by positivity
  have a6 : 0 ≤ 9 / 2 * (1 + |P.c| + P.c ^ 2) * invWidths g g.rng.dims.length * δ := by positivity
  have a7 : 0 ≤ 9 / 2 * (fluxLip P.gamma ρ0 R + 2 * speedMax P.gamma ρ0 R) * invWidths g g.rng.dims.length * δ := by positivity
  refine ⟨fun j hj => ?_, fun j hj => ?_, ?_⟩
  · obtain ⟨r0, hG, hL⟩ := S.rate_e
    have key := C139_rate hg h0 hp Ie F h3 hw C (fun e => (walls e).1) S.fill_e (r := r0) hG (fun x hx => (hz x hx).1) h.e hx hj
    unfold growthRate at key
    have := force_close hL hx h0 Ie hE hB ex fx hd j hj key
    rw [no_force _ bal.force_e bal.work_e j hj, sub_zero] at this
    linarith
  · obtain ⟨r0, hG, hL⟩ := S.rate_i
    have key := C139_rate hg h0 hp Ii F h3 hw C (fun e => (walls e).2.1) S.fill_i (r := r0) hG (fun x hx => (hz x hx).2.1) h.i hx hj
    unfold growthRate at key
    have := force_close hL hx h0 Ii hE hB ix fx hd j hj key
    rw [no_force _ bal.force_i bal.work_i j hj, sub_zero] at this
    linarith
  · obtain ⟨rf, hf, Cf⟩ := S.rate_f
    have key := fun (j : Nat) (hj : j < 6) => light_close (r := rf) hf hx h3 hw (E := E) (B := B) (samples_fill C.wide C.all meets.f S.fill_f h.f hx) hj
    have cur3 : ∀ i : Fin 3, |rate.f (x ++ [((i : Nat) : Int)])| ≤ 9 / 2 * (1 + |P.c| + P.c ^ 2) * invWidths g g.rng.dims.length * δ + (|P.comE| * (1 / eps0) * δ + |P.comI| * (1 / eps0) * δ) := by
      intro i
      have e := Cf.field x i hx (by omega) (by omega)
      rw [hc.mults] at e
      simp only [List.zip_cons_cons, List.zip_nil_right, List.foldl_cons, List.foldl_nil] at e
      have h1 := key i (by omega)
      have h2 : |cur'.e (x ++ [((i : Nat) : Int) + 1]) - we.mom i| ≤ δ := by
        fin_cases i
        · exact ex 1 (by omega)
        · exact ex 2 (by omega)
        · exact ex 3 (by omega)
      have h3 : |cur'.i (x ++ [((i : Nat) : Int) + 1]) - wi.mom i| ≤ δ := by
        fin_cases i
        · exact ix 1 (by omega)
        · exact ix 2 (by omega)
        · exact ix 3 (by omega)
      have none := bal.current i
      rw [e]
      generalize cur'.e (x ++ [((i : Nat) : Int) + 1]) = ve at *
      generalize cur'.i (x ++ [((i : Nat) : Int) + 1]) = vi at *
      generalize we.mom i = me at *
      generalize wi.mom i = mi at *
      generalize rf (x ++ [((i : Nat) : Int)]) = v at *
      rw [show v + -P.comE / eps0 * ve + -P.comI / eps0 * vi = v - P.comE * (1 / eps0) * (ve - me) - P.comI * (1 / eps0) * (vi - mi) - 1 / eps0 * (P.comE * me + P.comI * mi) by ring, none, mul_zero, sub_zero]
      have b1 : |P.comE * (1 / eps0) * (ve - me)| ≤ |P.comE| * (1 / eps0) * δ := by
        rw [abs_mul, abs_mul, abs_of_pos (by positivity : (0 : ℝ) < 1 / eps0)]; exact mul_le_mul_of_nonneg_left h2 (by positivity)
      have b2 : |P.comI * (1 / eps0) * (vi - mi)| ≤ |P.comI| * (1 / eps0) * δ := by
        rw [abs_mul, abs_mul, abs_of_pos (by positivity : (0 : ℝ) < 1 / eps0)]; exact mul_le_mul_of_nonneg_left h3 (by positivity)
      have c1 := abs_sub (v - P.comE * (1 / eps0) * (ve - me)) (P.comI * (1 / eps0) * (vi - mi))
      have c2 := abs_sub v (P.comE * (1 / eps0) * (ve - me))
      linarith
    have mag : ∀ i : Fin 3, |rate.f (x ++ [((i : Nat) : Int) + 3])| ≤ 9 / 2 * (1 + |P.c| + P.c ^ 2) * invWidths g g.rng.dims.length * δ := by
      intro i
      have e : rate.f (x ++ [((i : Nat) : Int) + 3]) = rf (x ++ [((i : Nat) : Int) + 3]) := Cf.rest _ (fun y k _ h1 h2 => snoc_ne (by omega))
      rw [e]
      exact_mod_cast key (i + 3) (by omega)
    intro j hj
    interval_cases j
    · have := cur3 0; exact this.trans (by linarith)
    · have := cur3 1; exact this.trans (by linarith)
    · have := cur3 2; exact this.trans (by linarith)
    · exact (mag 0).trans (by linarith)
    · exact (mag 1).trans (by linarith)
    · exact (mag 2).trans (by linarith)

/-- Component `j` of species `k` in the cell `x`. -/
private def valueAt (s : State ℝ) (a : Cell × Nat × Nat) : ℝ :=
  match a.2.1 with
  | 0 => s.e (a.1 ++ [(a.2.2 : Int)])
  | 1 => s.i (a.1 ++ [(a.2.2 : Int)])
  | _ => s.f (a.1 ++ [(a.2.2 : Int)])

private def compsOf : Nat → Nat
  | 0 => 5
  | 1 => 5
  | _ => 6

private noncomputable def exactAt (g : Rectilinear ℝ) (W : PlasmaFields) (τ : ℝ) (a : Cell × Nat × Nat) : ℝ :=
  match a.2.1 with
  | 0 => (W.e τ (centre g a.1)).comps.getD a.2.2 0
  | 1 => (W.i τ (centre g a.1)).comps.getD a.2.2 0
  | _ => emState (W.E τ (centre g a.1)) (W.B τ (centre g a.1)) a.2.2

private def GoodAt (g : Rectilinear ℝ) (p : Int) (a : Cell × Nat × Nat) : Prop := InBox (g.rng.dims ++ [(0, p)]) a.1 ∧ a.2.2 < compsOf a.2.1

private theorem onMesh_iff {s : State ℝ} : PlasmaOnMesh g p W τ δ s ↔ ∀ a, GoodAt g p a → |valueAt s a - exactAt g W τ a| ≤ δ := by
  constructor
  · rintro h ⟨x, k, j⟩ ⟨hx, hj⟩
    match k, hj with
    | 0, hj => exact h.e x hx j hj
    | 1, hj => exact h.i x hx j hj
    | k + 2, hj => exact h.f x hx j hj
  · intro h
    exact ⟨fun x hx j hj => h (x, 0, j) ⟨hx, hj⟩, fun x hx j hj => h (x, 1, j) ⟨hx, hj⟩, fun x hx j hj => h (x, 2, j) ⟨hx, hj⟩⟩

private theorem stage_value (S : PlasmaStage P g p ws ps t k start cur cur' rate next) {a : Cell × Nat × Nat} (ha : GoodAt g p a) :
    valueAt next a = rkStage k t (valueAt start a) (valueAt cur a) (valueAt rate a) := by
  obtain ⟨x, m, j⟩ := a
  obtain ⟨hx, hj⟩ := ha
  match m, hj with
  | 0, hj => have := S.next_e (x ++ [(j : Int)]); rw [S.fill_e.inside _ (inBox_comp hx hj)] at this; exact this
  | 1, hj => have := S.next_i (x ++ [(j : Int)]); rw [S.fill_i.inside _ (inBox_comp hx hj)] at this; exact this
  | m + 2, hj => have := S.next_f (x ++ [(j : Int)]); rw [S.fill_f.inside _ (inBox_comp hx hj)] at this; exact this

private theorem inside_value (S : PlasmaStage P g p ws ps t k start cur cur' rate next) {a : Cell × Nat × Nat} (ha : GoodAt g p a) : valueAt cur' a = valueAt cur a := by
  obtain ⟨x, m, j⟩ := a
  obtain ⟨hx, hj⟩ := ha
  match m, hj with
  | 0, hj => exact S.fill_e.inside _ (inBox_comp hx hj)
  | 1, hj => exact S.fill_i.inside _ (inBox_comp hx hj)
  | m + 2, hj => exact S.fill_f.inside _ (inBox_comp hx hj)

/-- Three stages. -/
private theorem stages_grow {z D : ℝ} (hz : 0 ≤ z) (hD : 0 ≤ D) : (1 + z) * D ≤ Real.exp z * D ∧ (1 + z / 2 + z ^ 2 / 4) * D ≤ Real.exp z * D ∧ (1 + z + z ^ 2 / 2 + z ^ 3 / 6) * D ≤ Real.exp z * D := by
  have e3 : 1 + z + z ^ 2 / 2 + z ^ 3 / 6 ≤ Real.exp z := by
    have := Real.sum_le_exp_of_nonneg hz 4
    simp [Finset.sum_range_succ, Nat.factorial] at this
    linarith
  refine ⟨mul_le_mul_of_nonneg_right ?_ hD, mul_le_mul_of_nonneg_right ?_ hD, mul_le_mul_of_nonneg_right e3 hD⟩
  · have : 0 ≤ z ^ 2 / 2 + z ^ 3 / 6 := by positivity
    linarith
  · have : 0 ≤ z / 2 + z ^ 2 / 4 + z ^ 3 / 6 := by positivity
    linarith

theorem plasmaRate_nonneg (hc : Consistent P eps0) (hw : ∀ d < g.rng.dims.length, 0 < g.dxAt d) (hg : 1 < P.gamma) (h0 : 0 < ρ0) (R0 : 0 < R) (N0 : 0 ≤ N) (m0 : 0 ≤ δmax) :
    0 ≤ plasmaRate g P eps0 ρ0 R N δmax := by
  have e0 := hc.pos
  have L0 := lip_nonneg hg h0 R0
  have i0 : 0 ≤ invWidths g g.rng.dims.length := list_sum_nonneg fun d hd => by have := hw d (List.mem_range.1 hd); positivity
  unfold plasmaRate
  positivity

/-- **C142** A time step multiplies the distance from a uniform plasma in balance at most by `exp (t * plasmaRate)`. -/
theorem C142_step (Ie : InRange P.gamma ρ0 p0 R we) (Ii : InRange P.gamma ρ0 p0 R wi) (hE : ∀ i, |E i| ≤ N) (hB : ∀ i, |B i| ≤ N) (bal : Balanced P we wi E B) (walls : WallsAllow ws we wi E B)
    (hc : Consistent P eps0) (h3 : g.rng.dims.length ≤ 3) (hw : ∀ d < g.rng.dims.length, 0 < g.dxAt d) (C : Covered g.rng.dims ws ps) (hg : 1 < P.gamma) (h0 : 0 < ρ0) (hp : 0 < p0)
    (fine : Fine P.gamma ρ0 p0 R (9 / 4 * δmax)) (ht : 0 ≤ t) (d0 : 0 ≤ δ) (hd : Real.exp (t * plasmaRate g P eps0 ρ0 R N δmax) * δ ≤ δmax) {q q' : State ℝ}
    (H : CleanStep P g p ws ps t q q') (h : PlasmaOnMesh g p (uniformPlasma we wi E B) 0 δ q) :
    PlasmaOnMesh g p (uniformPlasma we wi E B) 0 (Real.exp (t * plasmaRate g P eps0 ρ0 R N δmax) * δ) q' := by
  obtain ⟨q0, r0, q1, q1', r1, q2, q2', r2, S0, S1, S2, z0, z1, z2⟩ := H
  have R0 : 0 < R := by have := Ie.low; have := Ie.high; linarith
  have N0 : 0 ≤ N := (abs_nonneg _).trans (hE 0)
  have hδ : 0 ≤ δ := d0
  have m0 : 0 ≤ δmax := le_trans (by positivity) hd
  have G0 := plasmaRate_nonneg (N := N) hc hw hg h0 R0 N0 m0
  have key := fun {k : Nat} {start cur cur' rate next : State ℝ} {δ' : ℝ} (S : PlasmaStage P g p ws ps t k start cur cur' rate next) (z : PlasmaNoZero g p cur') (a : 0 ≤ δ') (b : δ' ≤ δmax)
    (h : PlasmaOnMesh g p (uniformPlasma we wi E B) 0 δ' cur) {x : Cell} (hx : InBox (g.rng.dims ++ [(0, p)]) x) => C142_rate Ie Ii hE hB bal walls hc h3 hw C hg h0 hp fine S z a b h hx
  generalize hG : plasmaRate g P eps0 ρ0 R N δmax = G at *
  have z0' : 0 ≤ t * G := mul_nonneg ht G0
  obtain ⟨k1, k2, k3⟩ := stages_grow z0' hδ
  have hδ' : δ ≤ Real.exp (t * G) * δ := by nlinarith [Real.add_one_le_exp (t * G)]
  have rate : ∀ {k : Nat} {start cur cur' rate next : State ℝ} {δ' : ℝ}, PlasmaStage P g p ws ps t k start cur cur' rate next → PlasmaNoZero g p cur' → 0 ≤ δ' → δ' ≤ Real.exp (t * G) * δ →
      (∀ a, GoodAt g p a → |valueAt cur a - exactAt g (uniformPlasma we wi E B) 0 a| ≤ δ') → ∀ a, GoodAt g p a → |t * valueAt rate a| ≤ t * (G * δ') := by
    rintro k start cur cur' rate next δ' S hz d0 d1 h ⟨x, m, j⟩ ⟨hx, hj⟩
    obtain ⟨k1, k2, k3⟩ := key S hz d0 (d1.trans hd) (onMesh_iff.2 h) hx
    rw [abs_mul, abs_of_nonneg ht]
    refine mul_le_mul_of_nonneg_left ?_ ht
    match m, hj with
    | 0, hj => exact k1 j hj
    | 1, hj => exact k2 j hj
    | m + 2, hj => exact k3 j hj
  have h := onMesh_iff.1 h
  have h1 : ∀ a, GoodAt g p a → |valueAt q1 a - exactAt g (uniformPlasma we wi E B) 0 a| ≤ (1 + t * G) * δ := by
    intro a ha
    have e := stage_value S0 ha
    simp only [rkStage] at e
    rw [inside_value S0 ha] at e
    rw [e]
    have r := abs_le.1 (rate S0 z0 d0 hδ' h a ha)
    have b := abs_le.1 (h a ha)
    rw [abs_le]; constructor <;> linarith [r.1, r.2, b.1, b.2]
  have h2 : ∀ a, GoodAt g p a → |valueAt q2 a - exactAt g (uniformPlasma we wi E B) 0 a| ≤ (1 + t * G / 2 + (t * G) ^ 2 / 4) * δ := by
    intro a ha
    have e := stage_value S1 ha
    rw [inside_value S0 ha] at e
    simp only [rkStage, real_lit] at e
    push_cast at e
    rw [e]
    have r := abs_le.1 (rate S1 z1 (by nlinarith) k1 h1 a ha)
    have b := abs_le.1 (h a ha)
    have c := abs_le.1 (h1 a ha)
    rw [abs_le]; constructor <;> linarith [r.1, r.2, b.1, b.2, c.1, c.2]
  refine onMesh_iff.2 fun a ha => le_trans ?_ k3
  have e := stage_value S2 ha
  rw [inside_value S0 ha] at e
  simp only [rkStage, real_lit] at e
  push_cast at e
  rw [e]
  have r := abs_le.1 (rate S2 z2 (by nlinarith [mul_nonneg z0' hδ, mul_nonneg (sq_nonneg (t * G)) hδ]) k2 h2 a ha)
  have b := abs_le.1 (h a ha)
  have c := abs_le.1 (h2 a ha)
  rw [abs_le]; constructor <;> linarith [r.1, r.2, b.1, b.2, c.1, c.2]

/-- **C142** Runs: from a start within `δ` of a uniform plasma in balance, after `i` steps the plasma is within `exp (i t * plasmaRate) * δ` of it and the densities and pressures of both gases are
positive in all cells, as long as this is at most `δmax`. -/
theorem C142_run (Ie : InRange P.gamma ρ0 p0 R we) (Ii : InRange P.gamma ρ0 p0 R wi) (hE : ∀ i, |E i| ≤ N) (hB : ∀ i, |B i| ≤ N) (bal : Balanced P we wi E B) (walls : WallsAllow ws we wi E B)
    (hc : Consistent P eps0) (h3 : g.rng.dims.length ≤ 3) (hw : ∀ d < g.rng.dims.length, 0 < g.dxAt d) (C : Covered g.rng.dims ws ps) (hg : 1 < P.gamma) (h0 : 0 < ρ0) (hp : 0 < p0)
    (fine : Fine P.gamma ρ0 p0 R (9 / 4 * δmax)) (ht : 0 ≤ t) (d0 : 0 ≤ δ) {n : Nat} (hd : Real.exp (n * t * plasmaRate g P eps0 ρ0 R N δmax) * δ ≤ δmax) {s : Nat → State ℝ}
    (H : ∀ i < n, CleanStep P g p ws ps t (s i) (s (i + 1))) (h : PlasmaOnMesh g p (uniformPlasma we wi E B) 0 δ (s 0)) :
    ∀ i ≤ n, PlasmaOnMesh g p (uniformPlasma we wi E B) 0 (Real.exp (i * t * plasmaRate g P eps0 ρ0 R N δmax) * δ) (s i) ∧
      ∀ x, InBox (g.rng.dims ++ [(0, p)]) x → (ρ0 / 2 ≤ (gasIn (s i).e x).rho ∧ p0 / 2 ≤ (gasIn (s i).e x).pressure P.gamma) ∧ ρ0 / 2 ≤ (gasIn (s i).i x).rho ∧ p0 / 2 ≤ (gasIn (s i).i x).pressure P.gamma := by
  have R0 : 0 < R := by have := Ie.low; have := Ie.high; linarith
  have N0 : 0 ≤ N := (abs_nonneg _).trans (hE 0)
  have hδ : 0 ≤ δ := d0
  have m0 : 0 ≤ δmax := le_trans (by positivity) hd
  have G0 := plasmaRate_nonneg (N := N) hc hw hg h0 R0 N0 m0
  have le : ∀ i ≤ n, Real.exp (i * t * plasmaRate g P eps0 ρ0 R N δmax) * δ ≤ δmax := by
    intro i hi'
    refine le_trans (mul_le_mul_of_nonneg_right (Real.exp_le_exp.2 ?_) hδ) hd
    have : (i : ℝ) ≤ n := by exact_mod_cast hi'
    exact mul_le_mul_of_nonneg_right (mul_le_mul_of_nonneg_right this ht) G0
  have close : ∀ i ≤ n, PlasmaOnMesh g p (uniformPlasma we wi E B) 0 (Real.exp (i * t * plasmaRate g P eps0 ρ0 R N δmax) * δ) (s i) := by
    intro i
    induction i with
    | zero => intro _; simpa using h
    | succ i ih =>
      intro hi'
      have e : Real.exp (t * plasmaRate g P eps0 ρ0 R N δmax) * (Real.exp (i * t * plasmaRate g P eps0 ρ0 R N δmax) * δ) = Real.exp ((i + 1 : Nat) * t * plasmaRate g P eps0 ρ0 R N δmax) * δ := by
        rw [← mul_assoc, ← Real.exp_add]; push_cast; ring_nf
      have one : 1 ≤ Real.exp (i * t * plasmaRate g P eps0 ρ0 R N δmax) := Real.one_le_exp (by positivity)
      have := C142_step (δ := Real.exp (i * t * plasmaRate g P eps0 ρ0 R N δmax) * δ) Ie Ii hE hB bal walls hc h3 hw C hg h0 hp fine ht (by nlinarith) (by rw [e]; exact le _ hi') (H i (by omega)) (ih (by omega))
      rwa [e] at this
  intro i hi'
  have F : Fine P.gamma ρ0 p0 R (Real.exp (i * t * plasmaRate g P eps0 ρ0 R N δmax) * δ) := fine.mono hg h0 R0 (by positivity) (by
    have := le i hi'
    linarith)
  exact ⟨close i hi', fun x hx => ⟨close_positive hg h0 Ie F (close i hi').e hx, close_positive hg h0 Ii F (close i hi').i hx⟩⟩

/-- **C142** Such plasmas are stable against small disturbances: there are `c > 0`, `A` and `L`, which depend on the plasma only, such that on every mesh, for all times `n t`, every disturbance that the factor
`exp (n t (A + L Σ 1/dx))` leaves below `c` stays below the disturbance times this factor and leaves densities and pressures positive during all steps. -/
theorem C142_stable (hg : 1 < P.gamma) (pe : 0 < we.rho) (qe : 0 < we.pressure P.gamma) (pi : 0 < wi.rho) (qi : 0 < wi.pressure P.gamma) (bal : Balanced P we wi E B) (hc : Consistent P eps0) :
    ∃ c A L : ℝ, 0 < c ∧ 0 ≤ A ∧ 0 ≤ L ∧ ∀ (g : Rectilinear ℝ) (p : Int) (ws ps : List Nat), g.rng.dims.length ≤ 3 → (∀ d < g.rng.dims.length, 0 < g.dxAt d) → Covered g.rng.dims ws ps →
      WallsAllow ws we wi E B → ∀ (t δ : ℝ) (n : Nat) (s : Nat → State ℝ), 0 ≤ t → 0 ≤ δ → (∀ i < n, CleanStep P g p ws ps t (s i) (s (i + 1))) →
      PlasmaOnMesh g p (uniformPlasma we wi E B) 0 δ (s 0) → Real.exp (n * t * (A + L * invWidths g g.rng.dims.length)) * δ ≤ c →
      ∀ i ≤ n, PlasmaOnMesh g p (uniformPlasma we wi E B) 0 (Real.exp (i * t * (A + L * invWidths g g.rng.dims.length)) * δ) (s i) ∧
        ∀ x, InBox (g.rng.dims ++ [(0, p)]) x → (0 < (gasIn (s i).e x).rho ∧ 0 < (gasIn (s i).e x).pressure P.gamma) ∧ 0 < (gasIn (s i).i x).rho ∧ 0 < (gasIn (s i).i x).pressure P.gamma := by
  let size : Gas → ℝ := fun w => w.rho + (|w.mom 0| + |w.mom 1| + |w.mom 2|) + |w.en|
  let vec : Vec → ℝ := fun v => |v 0| + |v 1| + |v 2|
  obtain ⟨R, hR⟩ : ∃ R, R = size we + size wi := ⟨_, rfl⟩
  obtain ⟨N, hN⟩ : ∃ N, N = vec E + vec B := ⟨_, rfl⟩
  obtain ⟨r, hr⟩ : ∃ r, r = min we.rho wi.rho := ⟨_, rfl⟩
  obtain ⟨q, hq⟩ : ∃ q, q = min (we.pressure P.gamma) (wi.pressure P.gamma) := ⟨_, rfl⟩
  have r0 : 0 < r := hr ▸ lt_min pe pi
  have q0 : 0 < q := hq ▸ lt_min qe qi
  have parts : ∀ w : Gas, 0 < w.rho → w.rho ≤ size w ∧ (∀ i, |w.mom i| ≤ size w) ∧ |w.en| ≤ size w := by
    intro w hw
    have m0 := abs_nonneg (w.mom 0)
    have m1 := abs_nonneg (w.mom 1)
    have m2 := abs_nonneg (w.mom 2)
    have e0 := abs_nonneg w.en
    refine ⟨?_, fun i => ?_, ?_⟩
    · show _ ≤ w.rho + _ + _; linarith
    · show _ ≤ w.rho + _ + _; fin_cases i <;> simp <;> linarith
    · show _ ≤ w.rho + _ + _; linarith
  have vparts : ∀ v : Vec, ∀ i, |v i| ≤ vec v := by
    intro v i
    have m0 := abs_nonneg (v 0)
    have m1 := abs_nonneg (v 1)
    have m2 := abs_nonneg (v 2)
    show _ ≤ |v 0| + _ + _
    fin_cases i <;> simp <;> linarith
  obtain ⟨e1, e2, e3⟩ := parts we pe
  obtain ⟨i1, i2, i3⟩ := parts wi pi
  have E0 := (abs_nonneg _).trans (vparts E 0)
  have B0 := (abs_nonneg _).trans (vparts B 0)
  have R0 : 0 < R := by linarith
  have N0 : 0 ≤ N := by linarith
  have Ie : InRange P.gamma r q R we := ⟨hr ▸ min_le_left _ _, by linarith, fun i => by linarith [e2 i], by linarith, hq ▸ min_le_left _ _⟩
  have Ii : InRange P.gamma r q R wi := ⟨hr ▸ min_le_right _ _, by linarith, fun i => by linarith [i2 i], by linarith, hq ▸ min_le_right _ _⟩
  obtain ⟨c, c0, F⟩ : ∃ c : ℝ, 0 < c ∧ Fine P.gamma r q R (9 / 4 * c) := by
    have g1 : 0 < P.gamma - 1 := by linarith
    have lv : 0 ≤ velLip r R := by unfold velLip; positivity
    have vm : 0 ≤ velMax r R := by unfold velMax; positivity
    have lp : 0 ≤ presLip P.gamma r R := by unfold presLip; positivity
    have K0 : 0 < P.gamma * q / (4 * R) := by positivity
    have s0 := Real.sqrt_pos.2 K0
    have sq := Real.sq_sqrt K0.le
    let η := min (r / 2) (min (q / (2 * (presLip P.gamma r R + 1))) (√(P.gamma * q / (4 * R)) / (2 * (velLip r R + 1))))
    have η0 : 0 < η := lt_min (by positivity) (lt_min (by positivity) (by positivity))
    have η1 : η ≤ r / 2 := min_le_left _ _
    have η2 : η ≤ q / (2 * (presLip P.gamma r R + 1)) := (min_le_right _ _).trans (min_le_left _ _)
    have η3 : η ≤ √(P.gamma * q / (4 * R)) / (2 * (velLip r R + 1)) := (min_le_right _ _).trans (min_le_right _ _)
    refine ⟨4 / 9 * η, by positivity, ?_⟩
    rw [show 9 / 4 * (4 / 9 * η) = η by ring]
    generalize η = e at *
    rw [le_div_iff₀ (by positivity)] at η2 η3
    refine ⟨by linarith, by nlinarith, ?_⟩
    have small : velLip r R * e ≤ √(P.gamma * q / (4 * R)) / 2 := by nlinarith
    have := pow_le_pow_left₀ (by positivity) small 2
    rw [div_pow, sq] at this
    linarith
  have eps := hc.pos
  have L0 := lip_nonneg hg r0 R0
  refine ⟨c, (|P.comE| + |P.comI|) * (3 * (R + N + c) + 1 / eps0), 9 / 2 * (fluxLip P.gamma r R + 2 * speedMax P.gamma r R + (1 + |P.c| + P.c ^ 2)), c0, by positivity, by positivity, ?_⟩
  intro g p ws ps h3 hw C walls t δ n s ht hδ H h small i hi'
  have e : ∀ b : ℝ, b + 9 / 2 * (fluxLip P.gamma r R + 2 * speedMax P.gamma r R + (1 + |P.c| + P.c ^ 2)) * invWidths g g.rng.dims.length =
      9 / 2 * (fluxLip P.gamma r R + 2 * speedMax P.gamma r R + (1 + |P.c| + P.c ^ 2)) * invWidths g g.rng.dims.length + b := fun b => add_comm _ _
  rw [e] at small ⊢
  have := C142_run (δmax := c) Ie Ii (fun i => by linarith [vparts E i]) (fun i => by linarith [vparts B i]) bal walls hc h3 hw C hg r0 q0 F ht hδ small H h i hi'
  exact ⟨this.1, fun x hx => ⟨⟨by linarith [(this.2 x hx).1.1], by linarith [(this.2 x hx).1.2]⟩, by linarith [(this.2 x hx).2.1], by linarith [(this.2 x hx).2.2]⟩⟩

end

/-! ### Example: both gases drift across electric and magnetic fields -/

private theorem drift_cell {x : Cell} (hx : InBox (exTwo.rng.dims ++ [(0, 1)]) x) : ∃ a b : Int, x = [a, b] := by
  have := hx.length_eq
  match x, this with
  | [a, b], _ => exact ⟨a, b, rfl⟩

private theorem drift_cover : Covered exTwo.rng.dims [] [0] := by
  rw [exTwo_dims]
  refine ⟨fun d h => ?_, fun d h => by simp at h; simp [h]⟩
  match d, h with
  | 0, _ => simp [lo, hi]

/-- The drifting gas of C119, a little hotter. -/
noncomputable def exHotter : Gas := ⟨2, ![1, 0, 0], 2 + 1 / 10000⟩

-- the cells of C119 are a disturbance of drifting gases that are a little hotter, and the hypotheses of `C142_run` hold for all numbers and sizes of steps with `exp (n t 27000) / 10000` at most 1/1000
example (v : Five) (t : ℝ) (ht : 0 ≤ t) (n : Nat) (hn : Real.exp (n * t * 27000) * (1 / 10000) ≤ 1 / 1000) : (∀ i < n, CleanStep (exDriftPlasma v) exTwo 1 [] [0] t exDriftCells exDriftCells) ∧
    ∀ i ≤ n, PlasmaOnMesh exTwo 1 (uniformPlasma exHotter exHotter ![0, 1, 0] ![0, 0, 2]) 0 (Real.exp (i * t * plasmaRate exTwo (exDriftPlasma v) 1 1 3 2 (1 / 1000)) * (1 / 10000)) exDriftCells ∧
      ∀ x, InBox (exTwo.rng.dims ++ [(0, 1)]) x → (1 / 2 ≤ (gasIn exDriftCells.e x).rho ∧ 1 / 2 ≤ (gasIn exDriftCells.e x).pressure (exDriftPlasma v).gamma) ∧
        1 / 2 ≤ (gasIn exDriftCells.i x).rho ∧ 1 / 2 ≤ (gasIn exDriftCells.i x).pressure (exDriftPlasma v).gamma := by
  have one : ∀ {d : Nat}, d < exTwo.rng.dims.length → d = 0 := fun {d} hd => Nat.lt_one_iff.1 hd
  have per : ∀ (x : Cell) (m : Int), (moveBy x 0 m).getD 2 0 = x.getD 2 0 := by
    intro x m
    match x with
    | [] => rfl
    | a :: l => rfl
  have fill : ∀ (n : Nat) (flip : Int → Prop) (h : Nat → ℝ), Filled exTwo.rng.dims [(0, 1), (0, (n : Int))] [] flip [0] (fun y : Cell => h (y.getD 2 0).toNat) (fun y => h (y.getD 2 0).toNat) := by
    intro n flip h
    refine ⟨fun _ _ => rfl, fun i hi => by simp at hi, fun i hi => by simp at hi, ?_⟩
    intro i hi x hx
    rw [List.mem_singleton] at hi
    subst hi
    unfold periodicImage
    split <;> · show h _ = h _; rw [per]
  have gas : GasRate exTwo.rng.dims 1 exTwo.dxAt 2 exDriftCells.e (fun _ => 0) := by
    intro x hx j hj
    rw [fvUpdate_add, show List.range exTwo.rng.dims.length = [0] from rfl]
    simp only [List.map_cons, List.map_nil, List.sum_cons, List.sum_nil]
    obtain ⟨a, b, rfl⟩ := drift_cell hx
    rw [faceFlux_const (w := fun j => exMoving.comps.getD j 0) _ _ (fun _ _ _ _ _ => rfl), faceFlux_const (w := fun j => exMoving.comps.getD j 0) _ _ (fun _ _ _ _ _ => rfl), real_lit]
    simp
  have light : LightRate exTwo.rng.dims 1 exTwo.dxAt 1 exDriftCells.f (fun _ => 0) := by
    intro x hx j hj
    rw [fvUpdate_add, show List.range (min exTwo.rng.dims.length 3) = [0] from rfl]
    simp only [List.map_cons, List.map_nil, List.sum_cons, List.sum_nil]
    obtain ⟨a, b, rfl⟩ := drift_cell hx
    rw [faceFlux_const (w := emState ![0, 1, 0] ![0, 0, 2]) _ _ (fun _ _ _ _ _ => rfl), faceFlux_const (w := emState ![0, 1, 0] ![0, 0, 2]) _ _ (fun _ _ _ _ _ => rfl), real_lit]
    simp
  have lor : ∀ com : ℝ, LorentzAdded com (exTwo.rng.dims ++ [(0, 1)]) exDriftCells.e exDriftCells.f (fun _ => 0) (fun _ => 0) := by
    intro com
    constructor
    · intro x hx; obtain ⟨a, b, rfl⟩ := drift_cell hx; simp [exDriftCells, exMoving, Gas.comps, emState]
    · intro x hx; obtain ⟨a, b, rfl⟩ := drift_cell hx; simp [exDriftCells, exMoving, Gas.comps, emState]
    · intro x hx; obtain ⟨a, b, rfl⟩ := drift_cell hx; simp [exDriftCells, exMoving, Gas.comps, emState]
    · intro x hx; obtain ⟨a, b, rfl⟩ := drift_cell hx; simp [exDriftCells, exMoving, Gas.comps, emState]
    · intro _ _; rfl
  have cur : CurrentAdded (exTwo.rng.dims ++ [(0, 1)]) [((1 : ℝ), exDriftCells.e), (-1, exDriftCells.i)] (fun _ => 0) (fun _ => 0) := by
    constructor
    · intro x k hx h1 h2
      simp only [List.foldl_cons, List.foldl_nil, exDriftCells]
      ring
    · intro _ _; rfl
  have st : ∀ k : Nat, PlasmaStage (exDriftPlasma v) exTwo 1 [] [0] t k exDriftCells exDriftCells exDriftCells ⟨fun _ => 0, fun _ => 0, fun _ => 0⟩ exDriftCells := by
    intro k
    have rk : ∀ u : ℝ, u = rkStage k t u u 0 := by
      intro u
      unfold rkStage
      split <;> simp [real_lit] <;> ring
    exact ⟨fill 5 _ (fun j => exMoving.comps.getD j 0), fill 5 _ (fun j => exMoving.comps.getD j 0), fill 6 _ (emState ![0, 1, 0] ![0, 0, 2]), ⟨fun _ => 0, gas, lor _⟩, ⟨fun _ => 0, gas, lor _⟩, ⟨fun _ => 0, light, cur⟩, fun _ => rk _, fun _ => rk _, fun _ => rk _⟩
  have nz : PlasmaNoZero exTwo 1 exDriftCells := by
    intro x hx
    obtain ⟨a, b, rfl⟩ := drift_cell hx
    refine ⟨?_, ?_, ?_⟩ <;>
    · intro d hd s _ _ j hj
      rw [one hd]
      first
        | show exMoving.comps.getD j 0 - exMoving.comps.getD j 0 + 1 / 10 ^ 12 ≠ 0; norm_num
        | show emState ![0, 1, 0] ![0, 0, 2] j - emState ![0, 1, 0] ![0, 0, 2] j + 1 / 10 ^ 12 ≠ 0; norm_num
  have L : fluxLip 2 1 3 + 2 * speedMax 2 1 3 = 2638 := by norm_num [fluxLip, speedMax, velMax, velLip, presMax, presLip]
  have W : invWidths exTwo exTwo.rng.dims.length = 1 := by
    unfold invWidths
    rw [show List.range exTwo.rng.dims.length = [0] from rfl]
    simp [show exTwo.dxAt 0 = 1 from rfl]
  have clean : CleanStep (exDriftPlasma v) exTwo 1 [] [0] t exDriftCells exDriftCells := ⟨_, _, _, _, _, _, _, _, st 0, st 1, st 2, nz, nz, nz⟩
  have range : InRange (exDriftPlasma v).gamma 1 1 3 exHotter := by
    refine ⟨by norm_num [exHotter], by norm_num [exHotter], fun i => by fin_cases i <;> norm_num [exHotter], by norm_num [exHotter], ?_⟩
    simp [exDriftPlasma, exHotter, Gas.pressure, vdot]
    norm_num
  have bal : Balanced (exDriftPlasma v) exHotter exHotter ![0, 1, 0] ![0, 0, 2] := by
    refine ⟨?_, ?_, ?_, ?_, ?_⟩
    · intro i; fin_cases i <;> simp [cross, exHotter]
    · intro i; fin_cases i <;> simp [cross, exHotter]
    · simp [vdot, exHotter]
    · simp [vdot, exHotter]
    · intro i; simp [exDriftPlasma]
  have fine : Fine (exDriftPlasma v).gamma 1 1 3 (9 / 4 * (1 / 1000)) := ⟨by norm_num, by norm_num [exDriftPlasma, presLip, velMax, velLip], by norm_num [exDriftPlasma, velLip]⟩
  have G : plasmaRate exTwo (exDriftPlasma v) 1 1 3 2 (1 / 1000) ≤ 27000 := by
    unfold plasmaRate exDriftPlasma
    dsimp only
    rw [L, W]
    norm_num
  have near : ∀ j < 5, |exMoving.comps.getD j 0 - exHotter.comps.getD j 0| ≤ 1 / 10000 := by
    intro j hj
    interval_cases j <;> simp [exMoving, exHotter, Gas.comps]
  have start : PlasmaOnMesh exTwo 1 (uniformPlasma exHotter exHotter ![0, 1, 0] ![0, 0, 2]) 0 (1 / 10000) exDriftCells := by
    refine ⟨?_, ?_, ?_⟩ <;> intro x hx j hj <;> obtain ⟨a, b, rfl⟩ := drift_cell hx
    · exact near j hj
    · exact near j hj
    · show |emState ![0, 1, 0] ![0, 0, 2] j - emState ![0, 1, 0] ![0, 0, 2] j| ≤ 1 / 10000; simp
  refine ⟨fun _ _ => clean, C142_run (s := fun _ => exDriftCells) range range ?_ ?_ bal (fun h => absurd rfl h) ⟨one_pos, by simp [exDriftPlasma]⟩ (by decide) (fun d hd => by rw [one hd]; exact one_pos)
    drift_cover (by norm_num [exDriftPlasma]) one_pos one_pos fine ht (by norm_num) ?_ (fun _ _ => clean) start⟩
  · intro i; fin_cases i <;> norm_num
  · intro i; fin_cases i <;> norm_num
  · refine le_trans (mul_le_mul_of_nonneg_right (Real.exp_le_exp.2 (mul_le_mul_of_nonneg_left G (by positivity))) (by norm_num)) hn

end QK.Props
