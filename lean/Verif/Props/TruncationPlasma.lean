import Verif.Props.Truncation
import Verif.Props.Coupling
/- Property C119 for the two-fluid plasma: fluids and field together, with forces and currents (exact arithmetic). -/
namespace QK.Props
open QK Spec Truncation

/-- Two gases and an electromagnetic field in time and space, with the partial derivatives of states, fluxes and fields in the three directions. -/
structure PlasmaFields where
  e : ℝ → (Nat → ℝ) → Gas
  i : ℝ → (Nat → ℝ) → Gas
  E : ℝ → (Nat → ℝ) → Vec
  B : ℝ → (Nat → ℝ) → Vec
  de : ℝ → Fin 3 → (Nat → ℝ) → Gas
  di : ℝ → Fin 3 → (Nat → ℝ) → Gas
  fe : ℝ → Fin 3 → (Nat → ℝ) → Gas
  fi : ℝ → Fin 3 → (Nat → ℝ) → Gas
  dE : ℝ → Fin 3 → (Nat → ℝ) → Vec
  dB : ℝ → Fin 3 → (Nat → ℝ) → Vec

/-- The Lorentz force on a gas with `com` charge per mass, and its power. -/
def lorentz (com : ℝ) (q : Gas) (E B : Vec) : Gas := ⟨0, fun i => com * (q.rho * E i + cross q.mom B i), com * vdot q.mom E⟩

/-- Right-hand side of the equations of a charged gas: force minus divergence of the fluxes. -/
def fluidRhs (com : ℝ) (q : Gas) (E B : Vec) (dF : Fin 3 → Gas) (j : Nat) : ℝ :=
  (lorentz com q E B).comps.getD j 0 - ((dF 0).comps.getD j 0 + (dF 1).comps.getD j 0 + (dF 2).comps.getD j 0)

/-- Right-hand side of Maxwell's equations with the current of two gases. -/
noncomputable def fieldRhs (c eps0 comE comI : ℝ) (qe qi : Gas) (dE dB : Fin 3 → Vec) : Nat → ℝ :=
  emState (fun i => c ^ 2 * curl dB i - (comE * qe.mom i + comI * qi.mom i) / eps0) (fun i => -curl dE i)

/-- `W` is a smooth solution of the two-fluid equations with bounded states; it does not vary in the directions that the mesh lacks. -/
structure TwoFluid (g : Rectilinear ℝ) (P : Plasma ℝ) (eps0 ρ0 p0 R N K K' A : ℝ) (W : PlasmaFields) : Prop where
  range_e : ∀ τ p, InRange P.gamma ρ0 p0 R (W.e τ p)
  range_i : ∀ τ p, InRange P.gamma ρ0 p0 R (W.i τ p)
  range_E : ∀ τ p i, |W.E τ p i| ≤ N
  range_B : ∀ τ p i, |W.B τ p i| ≤ N
  smooth_e : ∀ τ, ∀ d : Fin 3, SmoothGas d K (W.e τ) (W.de τ d)
  smooth_i : ∀ τ, ∀ d : Fin 3, SmoothGas d K (W.i τ) (W.di τ d)
  smooth_fe : ∀ τ, ∀ d : Fin 3, SmoothGas d K' (fun p => (W.e τ p).flux P.gamma d) (W.fe τ d)
  smooth_fi : ∀ τ, ∀ d : Fin 3, SmoothGas d K' (fun p => (W.i τ p).flux P.gamma d) (W.fi τ d)
  smooth_E : ∀ τ, ∀ d i : Fin 3, SmoothIn d K (fun p => W.E τ p i) (fun p => W.dE τ d p i)
  smooth_B : ∀ τ, ∀ d i : Fin 3, SmoothIn d K (fun p => W.B τ p i) (fun p => W.dB τ d p i)
  flat_fe : ∀ τ p, ∀ d : Fin 3, g.rng.dims.length ≤ d → ∀ j < 5, (W.fe τ d p).comps.getD j 0 = 0
  flat_fi : ∀ τ p, ∀ d : Fin 3, g.rng.dims.length ≤ d → ∀ j < 5, (W.fi τ d p).comps.getD j 0 = 0
  flat_em : ∀ τ p, ∀ d : Fin 3, g.rng.dims.length ≤ d → W.dE τ d p = 0 ∧ W.dB τ d p = 0
  electrons : Evolves 5 A (fun τ p j => (W.e τ p).comps.getD j 0) (fun τ p => fluidRhs P.comE (W.e τ p) (W.E τ p) (W.B τ p) (fun d => W.fe τ d p))
  ions : Evolves 5 A (fun τ p j => (W.i τ p).comps.getD j 0) (fun τ p => fluidRhs P.comI (W.i τ p) (W.E τ p) (W.B τ p) (fun d => W.fi τ d p))
  light : Evolves 6 A (fun τ p => emState (W.E τ p) (W.B τ p)) (fun τ p => fieldRhs P.c eps0 P.comE P.comI (W.e τ p) (W.i τ p) (fun d => W.dE τ d p) (fun d => W.dB τ d p))

/-- The three species in the cells of the mesh are within `δ` of the fields `W` at time `τ`. -/
structure PlasmaOnMesh (g : Rectilinear ℝ) (p : Int) (W : PlasmaFields) (τ δ : ℝ) (s : State ℝ) : Prop where
  e : OnMesh g p 5 (fun p j => (W.e τ p).comps.getD j 0) δ s.e
  i : OnMesh g p 5 (fun p j => (W.i τ p).comps.getD j 0) δ s.i
  f : OnMesh g p 6 (fun p => emState (W.E τ p) (W.B τ p)) δ s.f

/-- The fields meet the boundary conditions of the programs. -/
structure PlasmaMeets (g : Rectilinear ℝ) (ws ps : List Nat) (W : PlasmaFields) (τ : ℝ) : Prop where
  e : Meets g ws isMomentum ps 5 (fun p j => (W.e τ p).comps.getD j 0)
  i : Meets g ws isMomentum ps 5 (fun p j => (W.i τ p).comps.getD j 0)
  f : Meets g ws isWallField ps 6 (fun p => emState (W.E τ p) (W.B τ p))

/-- No denominator of the limiter is zero, in all three species. -/
def PlasmaNoZero (g : Rectilinear ℝ) (p : Int) (s : State ℝ) : Prop :=
  ∀ x, InBox (g.rng.dims ++ [(0, p)]) x → NoZero g.rng.dims.length 5 (fun x j => s.e (x ++ [(j : Int)])) x ∧ NoZero g.rng.dims.length 5 (fun x j => s.i (x ++ [(j : Int)])) x ∧
    NoZero g.rng.dims.length 6 (fun x j => s.f (x ++ [(j : Int)])) x

/-- How far the rates may be from the equations for exact values, and how much more per unit of distance from exact values. -/
noncomputable def plasmaTruncation (g : Rectilinear ℝ) (P : Plasma ℝ) (ρ0 R K K' : ℝ) : ℝ :=
  gasTruncation g g.rng.dims.length (fluxLip P.gamma ρ0 R + 2 * speedMax P.gamma ρ0 R) K K' 0 + (1 + |P.c| + P.c ^ 2) * truncation g g.rng.dims.length K 0
noncomputable def plasmaGrowth (g : Rectilinear ℝ) (P : Plasma ℝ) (eps0 ρ0 R N δmax : ℝ) : ℝ :=
  6 * (fluxLip P.gamma ρ0 R + 2 * speedMax P.gamma ρ0 R) * invWidths g g.rng.dims.length + (1 + |P.c| + P.c ^ 2) * (6 * invWidths g g.rng.dims.length) +
    (|P.comE| + |P.comI|) * (3 * (R + N + δmax) + 1 / eps0)

private theorem prod_near {a a' b b' δ R N δm : ℝ} (ha : |a - a'| ≤ δ) (hb : |b - b'| ≤ δ) (hR : |a'| ≤ R) (hN : |b'| ≤ N) (hd : δ ≤ δm) : |a * b - a' * b'| ≤ (R + N + δm) * δ := by
  have d0 : 0 ≤ δ := (abs_nonneg _).trans ha
  rw [show a * b - a' * b' = (a - a') * (b - b') + (a - a') * b' + a' * (b - b') by ring]
  have h1 : |(a - a') * (b - b')| ≤ δ * δ := by rw [abs_mul]; exact mul_le_mul ha hb (abs_nonneg _) d0
  have h2 : |(a - a') * b'| ≤ δ * N := by rw [abs_mul]; exact mul_le_mul ha hN (abs_nonneg _) d0
  have h3 : |a' * (b - b')| ≤ R * δ := by rw [abs_mul]; exact mul_le_mul hR hb (abs_nonneg _) ((abs_nonneg _).trans hR)
  have h4 : δ * δ ≤ δm * δ := mul_le_mul_of_nonneg_right hd d0
  have := abs_add_three ((a - a') * (b - b')) ((a - a') * b') (a' * (b - b'))
  linarith

private theorem three_near {a b c a' b' c' η : ℝ} (h1 : |a - a'| ≤ η) (h2 : |b - b'| ≤ η) (h3 : |c - c'| ≤ η) : |(a + b + c) - (a' + b' + c')| ≤ 3 * η ∧ |(a + b - c) - (a' + b' - c')| ≤ 3 * η := by
  rw [abs_le] at h1 h2 h3
  constructor <;> rw [abs_le] <;> constructor <;> linarith [h1.1, h1.2, h2.1, h2.2, h3.1, h3.2]

private theorem add_source {r r0 s s' d T η com : ℝ} (h : r = r0 + com * s) (h0 : |r0 + d| ≤ T) (hs : |s - s'| ≤ η) : |r - (com * s' - d)| ≤ T + |com| * η := by
  rw [h, show r0 + com * s - (com * s' - d) = (r0 + d) + com * (s - s') by ring]
  refine (abs_add_le _ _).trans (add_le_add h0 ?_)
  rw [abs_mul]
  exact mul_le_mul_of_nonneg_left hs (abs_nonneg _)

/-- The rates of one charged gas. -/
private theorem fluid_near {g : Rectilinear ℝ} {gamma com ρ0 p0 R N K K' δ δm : ℝ} {Q : (Nat → ℝ) → Gas} {E B : Vec} {dQ dF : Fin 3 → (Nat → ℝ) → Gas} {u w r : Cell → ℝ} {p : Int} {x : Cell}
    (hR : FluidRate g.rng.dims p g.dxAt gamma com u w r) (hx : InBox (g.rng.dims ++ [(0, p)]) x) (h3 : g.rng.dims.length ≤ 3) (hw : ∀ d < g.rng.dims.length, 0 < g.dxAt d)
    (hg : 1 < gamma) (h0 : 0 < ρ0) (hp : 0 < p0) (hI : ∀ p, InRange gamma ρ0 p0 R (Q p)) (hE : ∀ i, |E i| ≤ N) (hB : ∀ i, |B i| ≤ N)
    (hQ : ∀ d : Fin 3, SmoothGas d K Q (dQ d)) (hF : ∀ d : Fin 3, SmoothGas d K' (fun p => (Q p).flux gamma d) (dF d))
    (flat : ∀ d : Fin 3, g.rng.dims.length ≤ d → ∀ j < 5, (dF d (centre g x)).comps.getD j 0 = 0)
    (hu : Samples g g.rng.dims.length 5 (fun p j => (Q p).comps.getD j 0) δ (fun x j => u (x ++ [(j : Int)])) x)
    (hz : NoZero g.rng.dims.length 5 (fun x j => u (x ++ [(j : Int)])) x)
    (ux : ∀ j < 5, |u (x ++ [((j : Nat) : Int)]) - (Q (centre g x)).comps.getD j 0| ≤ δ) (wx : ∀ j < 6, |w (x ++ [((j : Nat) : Int)]) - emState E B j| ≤ δ)
    (fine : ∀ d < g.rng.dims.length, Fine gamma ρ0 p0 R (K * g.dxAt d ^ 2 + 3 * δ + 2 / 10 ^ 12)) (hd : δ ≤ δm) (j : Nat) (hj : j < 5) :
    |r (x ++ [(j : Int)]) - fluidRhs com (Q (centre g x)) E B (fun d => dF d (centre g x)) j| ≤
      gasTruncation g g.rng.dims.length (fluxLip gamma ρ0 R + 2 * speedMax gamma ρ0 R) K K' δ + |com| * (3 * ((R + N + δm) * δ)) := by
  obtain ⟨r0, hG, hL⟩ := hR
  have key := C119_gas (r := r0) hG hx h3 hw hg h0 hp hI hQ hF flat hu hz fine j hj
  have I := hI (centre g x)
  have rho : |(Q (centre g x)).rho| ≤ R := by rw [abs_of_pos (by linarith [I.low])]; exact I.high
  have d0 : 0 ≤ δ := (abs_nonneg _).trans (ux 0 (by omega))
  have pr : ∀ {a b a' b' : ℝ}, |a - a'| ≤ δ → |b - b'| ≤ δ → |a'| ≤ R → |b'| ≤ N → |a * b - a' * b'| ≤ (R + N + δm) * δ := fun ha hb h1 h2 => prod_near ha hb h1 h2 hd
  have q0 := ux 0 (by omega); have q1 := ux 1 (by omega); have q2 := ux 2 (by omega); have q3 := ux 3 (by omega)
  have w0 := wx 0 (by omega); have w1 := wx 1 (by omega); have w2 := wx 2 (by omega); have w3 := wx 3 (by omega); have w4 := wx 4 (by omega); have w5 := wx 5 (by omega)
  unfold Gas.comps at q0 q1 q2 q3
  simp only [emState] at w0 w1 w2 w3 w4 w5
  unfold fluidRhs
  interval_cases j
  · have e : r (x ++ [((0 : Nat) : Int)]) = r0 (x ++ [((0 : Nat) : Int)]) := hL.rest _ (fun y k _ h1 h2 => snoc_ne (by omega))
    rw [e]
    have z : (lorentz com (Q (centre g x)) E B).comps.getD 0 0 = 0 := rfl
    rw [z, zero_sub, sub_neg_eq_add]
    have : 0 ≤ (R + N + δm) * δ := (abs_nonneg _).trans (pr q0 w0 rho (hE 0))
    have : 0 ≤ |com| * (3 * ((R + N + δm) * δ)) := by positivity
    linarith
  · refine add_source (hL.momX x hx) key ?_
    have := (three_near (pr q0 w0 rho (hE 0)) (pr q2 w5 (I.mom 1) (hB 2)) (pr q3 w4 (I.mom 2) (hB 1))).2
    refine le_trans (le_of_eq ?_) this
    congr 1
    simp [cross]
    ring
  · refine add_source (hL.momY x hx) key ?_
    have := (three_near (pr q0 w1 rho (hE 1)) (pr q3 w3 (I.mom 2) (hB 0)) (pr q1 w5 (I.mom 0) (hB 2))).2
    refine le_trans (le_of_eq ?_) this
    congr 1
    simp [cross]
    ring
  · refine add_source (hL.momZ x hx) key ?_
    have := (three_near (pr q0 w2 rho (hE 2)) (pr q1 w4 (I.mom 0) (hB 1)) (pr q2 w3 (I.mom 1) (hB 0))).2
    refine le_trans (le_of_eq ?_) this
    congr 1
    simp [cross]
    ring
  · refine add_source (hL.energy x hx) key ?_
    have := (three_near (pr q1 w0 (I.mom 0) (hE 0)) (pr q2 w1 (I.mom 1) (hE 1)) (pr q3 w2 (I.mom 2) (hE 2))).1
    exact this

private theorem fluxLip_nonneg {gamma ρ0 R : ℝ} (hg : 1 < gamma) (h0 : 0 < ρ0) (R0 : 0 < R) : 0 ≤ fluxLip gamma ρ0 R + 2 * speedMax gamma ρ0 R := by
  have g1 : 0 < gamma - 1 := by linarith
  have : 0 ≤ velMax ρ0 R := by unfold velMax; positivity
  have : 0 ≤ velLip ρ0 R := by unfold velLip; positivity
  have : 0 ≤ presMax gamma ρ0 R := by unfold presMax; positivity
  have : 0 ≤ presLip gamma ρ0 R := by unfold presLip; positivity
  unfold fluxLip speedMax
  positivity

section
variable {g : Rectilinear ℝ} {P : Plasma ℝ} {eps0 ρ0 p0 R N K K' A δmax t τ δ : ℝ} {W : PlasmaFields} {p : Int} {ws ps : List Nat} {k : Nat} {start cur cur' rate next : State ℝ}

/-- **C119** The two-fluid plasma: if the values in the cells are within `δ` of those of a smooth solution of the two-fluid equations (Euler equations with the Lorentz force for electrons and ions,
Maxwell's equations with their current) that meets the boundary conditions, then all rates that a stage computes are the right-hand sides of these equations up to `plasmaTruncation`, first order in the
cell widths, and a multiple of `δ`. -/
theorem C119_plasma (hW : TwoFluid g P eps0 ρ0 p0 R N K K' A W) (hc : Consistent P eps0) (h3 : g.rng.dims.length ≤ 3) (hw : ∀ d < g.rng.dims.length, 0 < g.dxAt d)
    (hn : ∀ d < g.rng.dims.length, 2 ≤ hi g.rng.dims d - lo g.rng.dims d) (hb : ∀ d < g.rng.dims.length, d ∈ ws ∨ d ∈ ps) (hg : 1 < P.gamma) (h0 : 0 < ρ0) (hp : 0 < p0)
    (fine : ∀ d < g.rng.dims.length, Fine P.gamma ρ0 p0 R (K * g.dxAt d ^ 2 + 3 * δmax + 2 / 10 ^ 12)) (meets : PlasmaMeets g ws ps W τ)
    (S : PlasmaStage P g p ws ps t k start cur cur' rate next) (hz : PlasmaNoZero g p cur') (d0 : 0 ≤ δ) (hd : δ ≤ δmax) (h : PlasmaOnMesh g p W τ δ cur) {x : Cell} (hx : InBox (g.rng.dims ++ [(0, p)]) x) :
    (∀ j < 5, |rate.e (x ++ [((j : Nat) : Int)]) - fluidRhs P.comE (W.e τ (centre g x)) (W.E τ (centre g x)) (W.B τ (centre g x)) (fun d => W.fe τ d (centre g x)) j| ≤
      plasmaTruncation g P ρ0 R K K' + plasmaGrowth g P eps0 ρ0 R N δmax * δ) ∧
    (∀ j < 5, |rate.i (x ++ [((j : Nat) : Int)]) - fluidRhs P.comI (W.i τ (centre g x)) (W.E τ (centre g x)) (W.B τ (centre g x)) (fun d => W.fi τ d (centre g x)) j| ≤
      plasmaTruncation g P ρ0 R K K' + plasmaGrowth g P eps0 ρ0 R N δmax * δ) ∧
    (∀ j < 6, |rate.f (x ++ [((j : Nat) : Int)]) - fieldRhs P.c eps0 P.comE P.comI (W.e τ (centre g x)) (W.i τ (centre g x)) (fun d => W.dE τ d (centre g x)) (fun d => W.dB τ d (centre g x)) j| ≤
      plasmaTruncation g P ρ0 R K K' + plasmaGrowth g P eps0 ρ0 R N δmax * δ) := by
  have hK := smooth_nonneg (hW.smooth_E 0 0 0)
  have hK' := smooth_nonneg (hW.smooth_fe 0 0 0 (by omega))
  have R0 : 0 < R := by have := (hW.range_e 0 fun _ => 0).low; have := (hW.range_e 0 fun _ => 0).high; linarith
  have N0 : 0 ≤ N := (abs_nonneg _).trans (hW.range_E 0 (fun _ => 0) 0)
  have m0 : 0 ≤ δmax := d0.trans hd
  have e0 := hc.pos
  have L0 := fluxLip_nonneg hg h0 R0
  have i0 : 0 ≤ invWidths g g.rng.dims.length := list_sum_nonneg fun d hd => by have := hw d (List.mem_range.1 hd); positivity
  have T0 : 0 ≤ gasTruncation g g.rng.dims.length (fluxLip P.gamma ρ0 R + 2 * speedMax P.gamma ρ0 R) K K' 0 := list_sum_nonneg fun d hd => by have := hw d (List.mem_range.1 hd); positivity
  have T1 : 0 ≤ truncation g g.rng.dims.length K 0 := list_sum_nonneg fun d hd => by have := hw d (List.mem_range.1 hd); positivity
  have l0 : 0 ≤ 1 + |P.c| + P.c ^ 2 := by positivity
  have fine' : ∀ d < g.rng.dims.length, Fine P.gamma ρ0 p0 R (K * g.dxAt d ^ 2 + 3 * δ + 2 / 10 ^ 12) := fun d hd => (fine d hd).mono hg h0 R0 (by have := hw d hd; positivity) (by linarith)
  have ex : ∀ j < 5, |cur'.e (x ++ [((j : Nat) : Int)]) - (W.e τ (centre g x)).comps.getD j 0| ≤ δ := fun j hj => by rw [S.fill_e.inside _ (inBox_comp hx hj)]; exact h.e x hx j hj
  have ix : ∀ j < 5, |cur'.i (x ++ [((j : Nat) : Int)]) - (W.i τ (centre g x)).comps.getD j 0| ≤ δ := fun j hj => by rw [S.fill_i.inside _ (inBox_comp hx hj)]; exact h.i x hx j hj
  have fx : ∀ j < 6, |cur'.f (x ++ [((j : Nat) : Int)]) - emState (W.E τ (centre g x)) (W.B τ (centre g x)) j| ≤ δ := fun j hj => by rw [S.fill_f.inside _ (inBox_comp hx hj)]; exact h.f x hx j hj
  obtain ⟨ze, zi, zf⟩ := hz x hx
  unfold plasmaTruncation plasmaGrowth
  have a1 : 0 ≤ |P.comE| * (3 * ((R + N + δmax) * δ)) := by positivity
  have a2 : 0 ≤ |P.comI| * (3 * ((R + N + δmax) * δ)) := by positivity
  have a3 : 0 ≤ |P.comE| * (1 / eps0) * δ := by positivity
  have a4 : 0 ≤ |P.comI| * (1 / eps0) * δ := by positivity
  have a5 : 0 ≤ (1 + |P.c| + P.c ^ 2) * truncation g g.rng.dims.length K 0 := by positivity
  have a6 : 0 ≤ (1 + |P.c| + P.c ^ 2) * (6 * invWidths g g.rng.dims.length) * δ := by positivity
  have a7 : 0 ≤ 6 * (fluxLip P.gamma ρ0 R + 2 * speedMax P.gamma ρ0 R) * invWidths g g.rng.dims.length * δ := by positivity
  refine ⟨fun j hj => ?_, fun j hj => ?_, ?_⟩
  · have := fluid_near S.rate_e hx h3 hw hg h0 hp (hW.range_e τ) (hW.range_E τ _) (hW.range_B τ _) (hW.smooth_e τ) (hW.smooth_fe τ) (fun d hd => hW.flat_fe τ _ d hd)
      (samples_fill hn hb meets.e S.fill_e h.e hx) ze ex fx fine' hd j hj
    rw [gasTruncation_split] at this
    linarith
  · have := fluid_near S.rate_i hx h3 hw hg h0 hp (hW.range_i τ) (hW.range_E τ _) (hW.range_B τ _) (hW.smooth_i τ) (hW.smooth_fi τ) (fun d hd => hW.flat_fi τ _ d hd)
      (samples_fill hn hb meets.i S.fill_i h.i hx) zi ix fx fine' hd j hj
    rw [gasTruncation_split] at this
    linarith
  · obtain ⟨rf, hf, Cf⟩ := S.rate_f
    have m3 : min g.rng.dims.length 3 = g.rng.dims.length := Nat.min_eq_left h3
    have sf := samples_fill hn hb meets.f S.fill_f h.f hx
    have key := C119_light (r := rf) hf hx (fun d hd => hw d (by omega)) (hW.smooth_E τ) (hW.smooth_B τ) (fun d hd => hW.flat_em τ _ d hd) (by rw [m3]; exact sf) (by rw [m3]; exact zf)
    rw [m3, truncation_split] at key
    have cur3 : ∀ i : Fin 3, |rate.f (x ++ [((i : Nat) : Int)]) - (P.c ^ 2 * curl (fun d => W.dB τ d (centre g x)) i - (P.comE * (W.e τ (centre g x)).mom i + P.comI * (W.i τ (centre g x)).mom i) / eps0)| ≤
        (1 + |P.c| + P.c ^ 2) * (truncation g g.rng.dims.length K 0 + 6 * invWidths g g.rng.dims.length * δ) + (|P.comE| * (1 / eps0) * δ + |P.comI| * (1 / eps0) * δ) := by
      intro i
      have e := Cf.field x i hx (by omega) (by omega)
      rw [hc.mults] at e
      simp only [List.zip_cons_cons, List.zip_nil_right, List.foldl_cons, List.foldl_nil] at e
      have h1 := (key i).1
      have h2 : |cur'.e (x ++ [((i : Nat) : Int) + 1]) - (W.e τ (centre g x)).mom i| ≤ δ := by
        fin_cases i
        · exact ex 1 (by omega)
        · exact ex 2 (by omega)
        · exact ex 3 (by omega)
      have h3 : |cur'.i (x ++ [((i : Nat) : Int) + 1]) - (W.i τ (centre g x)).mom i| ≤ δ := by
        fin_cases i
        · exact ix 1 (by omega)
        · exact ix 2 (by omega)
        · exact ix 3 (by omega)
      rw [e]
      generalize cur'.e (x ++ [((i : Nat) : Int) + 1]) = ve at *
      generalize cur'.i (x ++ [((i : Nat) : Int) + 1]) = vi at *
      generalize (W.e τ (centre g x)).mom i = me at *
      generalize (W.i τ (centre g x)).mom i = mi at *
      generalize rf (x ++ [((i : Nat) : Int)]) = v at *
      generalize P.c ^ 2 * curl (fun d => W.dB τ d (centre g x)) i = cu at *
      rw [show v + -P.comE / eps0 * ve + -P.comI / eps0 * vi - (cu - (P.comE * me + P.comI * mi) / eps0) = (v - cu) - P.comE * (1 / eps0) * (ve - me) - P.comI * (1 / eps0) * (vi - mi) by ring]
      have b1 : |P.comE * (1 / eps0) * (ve - me)| ≤ |P.comE| * (1 / eps0) * δ := by
        rw [abs_mul, abs_mul, abs_of_pos (by positivity : (0 : ℝ) < 1 / eps0)]; exact mul_le_mul_of_nonneg_left h2 (by positivity)
      have b2 : |P.comI * (1 / eps0) * (vi - mi)| ≤ |P.comI| * (1 / eps0) * δ := by
        rw [abs_mul, abs_mul, abs_of_pos (by positivity : (0 : ℝ) < 1 / eps0)]; exact mul_le_mul_of_nonneg_left h3 (by positivity)
      have c1 := abs_sub (v - cu - P.comE * (1 / eps0) * (ve - me)) (P.comI * (1 / eps0) * (vi - mi))
      have c2 := abs_sub (v - cu) (P.comE * (1 / eps0) * (ve - me))
      linarith
    have mag : ∀ i : Fin 3, |rate.f (x ++ [((i : Nat) : Int) + 3]) - -curl (fun d => W.dE τ d (centre g x)) i| ≤
        (1 + |P.c| + P.c ^ 2) * (truncation g g.rng.dims.length K 0 + 6 * invWidths g g.rng.dims.length * δ) := by
      intro i
      have e : rate.f (x ++ [((i : Nat) : Int) + 3]) = rf (x ++ [((i : Nat) : Int) + 3]) := Cf.rest _ (fun y k _ h1 h2 => snoc_ne (by omega))
      rw [e, sub_neg_eq_add]
      exact (key i).2
    have fin : ∀ {v w : ℝ}, |v - w| ≤ (1 + |P.c| + P.c ^ 2) * (truncation g g.rng.dims.length K 0 + 6 * invWidths g g.rng.dims.length * δ) + (|P.comE| * (1 / eps0) * δ + |P.comI| * (1 / eps0) * δ) →
        |v - w| ≤ gasTruncation g g.rng.dims.length (fluxLip P.gamma ρ0 R + 2 * speedMax P.gamma ρ0 R) K K' 0 + (1 + |P.c| + P.c ^ 2) * truncation g g.rng.dims.length K 0 +
          (6 * (fluxLip P.gamma ρ0 R + 2 * speedMax P.gamma ρ0 R) * invWidths g g.rng.dims.length + (1 + |P.c| + P.c ^ 2) * (6 * invWidths g g.rng.dims.length) +
            (|P.comE| + |P.comI|) * (3 * (R + N + δmax) + 1 / eps0)) * δ := fun h => by linarith
    intro j hj
    refine fin ?_
    interval_cases j
    · exact cur3 0
    · exact cur3 1
    · exact cur3 2
    · exact (mag 0).trans (by linarith)
    · exact (mag 1).trans (by linarith)
    · exact (mag 2).trans (by linarith)

/-- Component `j` of species `k` in the cell `x`. -/
private def valueAt (s : State ℝ) (a : Cell × Nat × Nat) : ℝ :=
  match a.2.1 with
  | 0 => s.e (a.1 ++ [(a.2.2 : Int)])
  | 1 => s.i (a.1 ++ [(a.2.2 : Int)])
  | _ => s.f (a.1 ++ [(a.2.2 : Int)])

private def compsOf : Nat → Nat
  | 0 => 5
  | 1 => 5
  | _ => 6

private noncomputable def exactAt (g : Rectilinear ℝ) (W : PlasmaFields) (τ : ℝ) (a : Cell × Nat × Nat) : ℝ :=
  match a.2.1 with
  | 0 => (W.e τ (centre g a.1)).comps.getD a.2.2 0
  | 1 => (W.i τ (centre g a.1)).comps.getD a.2.2 0
  | _ => emState (W.E τ (centre g a.1)) (W.B τ (centre g a.1)) a.2.2

private noncomputable def rhsAt (g : Rectilinear ℝ) (P : Plasma ℝ) (eps0 : ℝ) (W : PlasmaFields) (τ : ℝ) (a : Cell × Nat × Nat) : ℝ :=
  match a.2.1 with
  | 0 => fluidRhs P.comE (W.e τ (centre g a.1)) (W.E τ (centre g a.1)) (W.B τ (centre g a.1)) (fun d => W.fe τ d (centre g a.1)) a.2.2
  | 1 => fluidRhs P.comI (W.i τ (centre g a.1)) (W.E τ (centre g a.1)) (W.B τ (centre g a.1)) (fun d => W.fi τ d (centre g a.1)) a.2.2
  | _ => fieldRhs P.c eps0 P.comE P.comI (W.e τ (centre g a.1)) (W.i τ (centre g a.1)) (fun d => W.dE τ d (centre g a.1)) (fun d => W.dB τ d (centre g a.1)) a.2.2

private def GoodAt (g : Rectilinear ℝ) (p : Int) (a : Cell × Nat × Nat) : Prop := InBox (g.rng.dims ++ [(0, p)]) a.1 ∧ a.2.2 < compsOf a.2.1

private theorem onMesh_iff {s : State ℝ} : PlasmaOnMesh g p W τ δ s ↔ ∀ a, GoodAt g p a → |valueAt s a - exactAt g W τ a| ≤ δ := by
  constructor
  · rintro h ⟨x, k, j⟩ ⟨hx, hj⟩
    match k, hj with
    | 0, hj => exact h.e x hx j hj
    | 1, hj => exact h.i x hx j hj
    | k + 2, hj => exact h.f x hx j hj
  · intro h
    exact ⟨fun x hx j hj => h (x, 0, j) ⟨hx, hj⟩, fun x hx j hj => h (x, 1, j) ⟨hx, hj⟩, fun x hx j hj => h (x, 2, j) ⟨hx, hj⟩⟩

private theorem stage_value (S : PlasmaStage P g p ws ps t k start cur cur' rate next) {a : Cell × Nat × Nat} (ha : GoodAt g p a) :
    valueAt next a = rkStage k t (valueAt start a) (valueAt cur a) (valueAt rate a) := by
  obtain ⟨x, m, j⟩ := a
  obtain ⟨hx, hj⟩ := ha
  match m, hj with
  | 0, hj => have := S.next_e (x ++ [(j : Int)]); rw [S.fill_e.inside _ (inBox_comp hx hj)] at this; exact this
  | 1, hj => have := S.next_i (x ++ [(j : Int)]); rw [S.fill_i.inside _ (inBox_comp hx hj)] at this; exact this
  | m + 2, hj => have := S.next_f (x ++ [(j : Int)]); rw [S.fill_f.inside _ (inBox_comp hx hj)] at this; exact this

private theorem inside_value (S : PlasmaStage P g p ws ps t k start cur cur' rate next) {a : Cell × Nat × Nat} (ha : GoodAt g p a) : valueAt cur' a = valueAt cur a := by
  obtain ⟨x, m, j⟩ := a
  obtain ⟨hx, hj⟩ := ha
  match m, hj with
  | 0, hj => exact S.fill_e.inside _ (inBox_comp hx hj)
  | 1, hj => exact S.fill_i.inside _ (inBox_comp hx hj)
  | m + 2, hj => exact S.fill_f.inside _ (inBox_comp hx hj)

/-- **C119** A whole time step of a plasma program from the values of a smooth solution of the two-fluid equations gives its values one step later, up to the step size times (`plasmaTruncation` plus the
step size): first order in cell width and step size, as long as the errors of the stages stay below `δmax`. -/
theorem C119_plasma_step {q q0 r0 q1 q1' r1 q2 q2' r2 q' : State ℝ} (hW : TwoFluid g P eps0 ρ0 p0 R N K K' A W) (hc : Consistent P eps0) (h3 : g.rng.dims.length ≤ 3)
    (hw : ∀ d < g.rng.dims.length, 0 < g.dxAt d) (hn : ∀ d < g.rng.dims.length, 2 ≤ hi g.rng.dims d - lo g.rng.dims d) (hb : ∀ d < g.rng.dims.length, d ∈ ws ∨ d ∈ ps) (hg : 1 < P.gamma)
    (h0 : 0 < ρ0) (hp : 0 < p0) (ht : 0 ≤ t) (hA : 0 ≤ A) (m0 : 0 ≤ δmax) (fine : ∀ d < g.rng.dims.length, Fine P.gamma ρ0 p0 R (K * g.dxAt d ^ 2 + 3 * δmax + 2 / 10 ^ 12))
    (meets : ∀ τ, PlasmaMeets g ws ps W τ)
    (S0 : PlasmaStage P g p ws ps t 0 q0 q q0 r0 q1) (S1 : PlasmaStage P g p ws ps t 1 q0 q1 q1' r1 q2) (S2 : PlasmaStage P g p ws ps t 2 q0 q2 q2' r2 q')
    (z0 : PlasmaNoZero g p q0) (z1 : PlasmaNoZero g p q1') (z2 : PlasmaNoZero g p q2')
    (short : (1 + t * plasmaGrowth g P eps0 ρ0 R N δmax) * (t * plasmaTruncation g P ρ0 R K K' + A * t ^ 2) ≤ δmax) (exact : PlasmaOnMesh g p W τ 0 q) :
    PlasmaOnMesh g p W (τ + t) (2 * (1 + t * plasmaGrowth g P eps0 ρ0 R N δmax) ^ 2 * (t * plasmaTruncation g P ρ0 R K K' + A * t ^ 2)) q' := by
  have hK := smooth_nonneg (hW.smooth_E 0 0 0)
  have hK' := smooth_nonneg (hW.smooth_fe 0 0 0 (by omega))
  have R0 : 0 < R := by have := (hW.range_e 0 fun _ => 0).low; have := (hW.range_e 0 fun _ => 0).high; linarith
  have N0 : 0 ≤ N := (abs_nonneg _).trans (hW.range_E 0 (fun _ => 0) 0)
  have e0 := hc.pos
  have L0 := fluxLip_nonneg hg h0 R0
  have i0 : 0 ≤ invWidths g g.rng.dims.length := list_sum_nonneg fun d hd => by have := hw d (List.mem_range.1 hd); positivity
  have T0 : 0 ≤ gasTruncation g g.rng.dims.length (fluxLip P.gamma ρ0 R + 2 * speedMax P.gamma ρ0 R) K K' 0 := list_sum_nonneg fun d hd => by have := hw d (List.mem_range.1 hd); positivity
  have T1 : 0 ≤ truncation g g.rng.dims.length K 0 := list_sum_nonneg fun d hd => by have := hw d (List.mem_range.1 hd); positivity
  have hT : 0 ≤ plasmaTruncation g P ρ0 R K K' := by unfold plasmaTruncation; positivity
  have hS : 0 ≤ plasmaGrowth g P eps0 ρ0 R N δmax := by unfold plasmaGrowth; positivity
  have rate_at : ∀ {k : Nat} {start cur cur' rate next : State ℝ}, PlasmaStage P g p ws ps t k start cur cur' rate next → PlasmaNoZero g p cur' → ∀ τ δ, 0 ≤ δ → δ ≤ δmax →
      (∀ a, GoodAt g p a → |valueAt cur a - exactAt g W τ a| ≤ δ) → ∀ a, GoodAt g p a → |valueAt rate a - rhsAt g P eps0 W τ a| ≤ plasmaTruncation g P ρ0 R K K' + plasmaGrowth g P eps0 ρ0 R N δmax * δ := by
    rintro k start cur cur' rate next S hz τ δ d0 hd h ⟨x, m, j⟩ ⟨hx, hj⟩
    obtain ⟨k1, k2, k3⟩ := C119_plasma hW hc h3 hw hn hb hg h0 hp fine (meets τ) S hz d0 hd (onMesh_iff.2 h) hx
    match m, hj with
    | 0, hj => exact k1 j hj
    | 1, hj => exact k2 j hj
    | m + 2, hj => exact k3 j hj
  refine onMesh_iff.2 fun a ha => ?_
  refine stages_near (G := GoodAt g p) (V := exactAt g W) (f := rhsAt g P eps0 W) (q := valueAt q) (q1 := valueAt q1) (q2 := valueAt q2) (q' := valueAt q')
    (r0 := valueAt r0) (r1 := valueAt r1) (r2 := valueAt r2) (δmax := δmax) ht hS hT hA ?_ ?_ ?_ ?_ ?_ (rate_at S0 z0) (rate_at S1 z1) (rate_at S2 z2) short ?_ ha
  · rintro ⟨x, m, j⟩ ⟨hx, hj⟩ τ
    match m, hj with
    | 0, hj => exact hW.electrons.deriv τ _ j hj
    | 1, hj => exact hW.ions.deriv τ _ j hj
    | m + 2, hj => exact hW.light.deriv τ _ j hj
  · rintro ⟨x, m, j⟩ ⟨hx, hj⟩ τ s
    match m, hj with
    | 0, hj => exact hW.electrons.lip τ s _ j hj
    | 1, hj => exact hW.ions.lip τ s _ j hj
    | m + 2, hj => exact hW.light.lip τ s _ j hj
  · intro a ha
    have e := stage_value S0 ha
    rw [inside_value S0 ha] at e
    exact e
  · intro a ha
    have e := stage_value S1 ha
    rw [inside_value S0 ha] at e
    simp only [rkStage, real_lit] at e
    push_cast at e
    exact e
  · intro a ha
    have e := stage_value S2 ha
    rw [inside_value S0 ha] at e
    simp only [rkStage, real_lit] at e
    push_cast at e
    exact e
  · intro a ha
    exact sub_eq_zero.1 (abs_eq_zero.1 (le_antisymm (onMesh_iff.1 exact a ha) (abs_nonneg _)))

end

/-! ### Example: both gases drift across electric and magnetic fields -/

/-- Electrons and ions with the same velocity in x, an electric field in y and a magnetic field in z whose forces cancel. -/
noncomputable def exDrift : PlasmaFields :=
  ⟨fun _ _ => exMoving, fun _ _ => exMoving, fun _ _ => ![0, 1, 0], fun _ _ => ![0, 0, 2], fun _ _ _ => ⟨0, 0, 0⟩, fun _ _ _ => ⟨0, 0, 0⟩, fun _ _ _ => ⟨0, 0, 0⟩, fun _ _ _ => ⟨0, 0, 0⟩,
    fun _ _ _ => 0, fun _ _ _ => 0⟩

noncomputable def exDriftCells : State ℝ :=
  ⟨fun y => exMoving.comps.getD (y.getD 2 0).toNat 0, fun y => exMoving.comps.getD (y.getD 2 0).toNat 0, fun y => emState ![0, 1, 0] ![0, 0, 2] (y.getD 2 0).toNat⟩

noncomputable def exDriftPlasma (v : Five) : Plasma ℝ := ⟨v, v, v, [], none, 2, 1, -1, 1, [1, -1]⟩

private theorem drift_const {K : ℝ} (hK : 0 ≤ K) (d : Nat) (a : ℝ) : SmoothIn d K (fun _ => a) (fun _ => 0) where
  deriv _ := hasDerivAt_const _ _
  lip p s := by simp; positivity

private theorem drift_cell {x : Cell} (hx : InBox (exTwo.rng.dims ++ [(0, 1)]) x) : ∃ a b : Int, x = [a, b] := by
  have := hx.length_eq
  match x, this with
  | [a, b], _ => exact ⟨a, b, rfl⟩

-- it is a solution of the two-fluid equations
theorem exDrift_solution (v : Five) : TwoFluid exTwo (exDriftPlasma v) 1 1 1 3 2 0 0 0 exDrift := by
  have zero : ∀ j < 5, (⟨0, 0, 0⟩ : Gas).comps.getD j 0 = 0 := fun j hj => by unfold Gas.comps; interval_cases j <;> rfl
  have pres : exMoving.pressure 2 = 7 / 4 := by simp [exMoving, Gas.pressure, vdot]; norm_num
  have range : InRange 2 1 1 3 exMoving := ⟨by norm_num [exMoving], by norm_num [exMoving], fun i => by fin_cases i <;> norm_num [exMoving], by norm_num [exMoving], by rw [pres]; norm_num⟩
  have force : ∀ com : ℝ, ∀ j < 5, fluidRhs com exMoving ![0, 1, 0] ![0, 0, 2] (fun _ => ⟨0, 0, 0⟩) j = 0 := by
    intro com j hj
    unfold fluidRhs lorentz
    rw [zero j hj]
    unfold Gas.comps
    interval_cases j <;> simp [cross, vdot, exMoving]
  have light : ∀ j < 6, fieldRhs 1 1 (-1) 1 exMoving exMoving (fun _ => 0) (fun _ => 0) j = 0 := by
    intro j hj
    unfold fieldRhs
    interval_cases j <;> simp [emState, curl]
  refine ⟨fun _ _ => range, fun _ _ => range, ?_, ?_, ?_, ?_, ?_, ?_, ?_, ?_, fun _ _ d _ j hj => zero j hj, fun _ _ d _ j hj => zero j hj, fun _ _ _ _ => ⟨rfl, rfl⟩, ?_, ?_, ?_⟩
  · intro _ _ i; simp only [exDrift]; fin_cases i <;> norm_num
  · intro _ _ i; simp only [exDrift]; fin_cases i <;> norm_num
  · intro _ d j hj; simp only [exDrift]; rw [zero j hj]; exact drift_const le_rfl _ _
  · intro _ d j hj; simp only [exDrift]; rw [zero j hj]; exact drift_const le_rfl _ _
  · intro _ d j hj; simp only [exDrift]; rw [zero j hj]; exact drift_const le_rfl _ _
  · intro _ d j hj; simp only [exDrift]; rw [zero j hj]; exact drift_const le_rfl _ _
  · intro _ d i; exact drift_const le_rfl _ _
  · intro _ d i; exact drift_const le_rfl _ _
  · exact ⟨fun _ _ j hj => by simp only [exDrift, exDriftPlasma]; rw [force _ j hj]; exact hasDerivAt_const _ _, fun _ _ _ j hj => by simp [exDrift]⟩
  · exact ⟨fun _ _ j hj => by simp only [exDrift, exDriftPlasma]; rw [force _ j hj]; exact hasDerivAt_const _ _, fun _ _ _ j hj => by simp [exDrift]⟩
  · exact ⟨fun _ _ j hj => by simp only [exDrift, exDriftPlasma]; rw [light j hj]; exact hasDerivAt_const _ _, fun _ _ _ j hj => by simp [exDrift]⟩

-- the hypotheses of the theorem on time steps hold for it, for all steps up to 1
example (v : Five) (t τ : ℝ) (ht : 0 ≤ t) (ht1 : t ≤ 1) : PlasmaOnMesh exTwo 1 exDrift (τ + t)
    (2 * (1 + t * plasmaGrowth exTwo (exDriftPlasma v) 1 1 3 2 (1 / 1000)) ^ 2 * (t * plasmaTruncation exTwo (exDriftPlasma v) 1 3 0 0 + 0 * t ^ 2)) exDriftCells := by
  have one : ∀ {d : Nat}, d < exTwo.rng.dims.length → d = 0 := fun {d} hd => Nat.lt_one_iff.1 hd
  have per : ∀ (x : Cell) (m : Int), (moveBy x 0 m).getD 2 0 = x.getD 2 0 := by
    intro x m
    match x with
    | [] => rfl
    | a :: l => rfl
  have fill : ∀ (n : Nat) (flip : Int → Prop) (h : Nat → ℝ), Filled exTwo.rng.dims [(0, 1), (0, (n : Int))] [] flip [0] (fun y : Cell => h (y.getD 2 0).toNat) (fun y => h (y.getD 2 0).toNat) := by
    intro n flip h
    refine ⟨fun _ _ => rfl, fun i hi => by simp at hi, fun i hi => by simp at hi, ?_⟩
    intro i hi x hx
    rw [List.mem_singleton] at hi
    subst hi
    unfold periodicImage
    split <;> · show h _ = h _; rw [per]
  have gas : GasRate exTwo.rng.dims 1 exTwo.dxAt 2 exDriftCells.e (fun _ => 0) := by
    intro x hx j hj
    rw [fvUpdate_add, show List.range exTwo.rng.dims.length = [0] from rfl]
    simp only [List.map_cons, List.map_nil, List.sum_cons, List.sum_nil]
    obtain ⟨a, b, rfl⟩ := drift_cell hx
    rw [faceFlux_const (w := fun j => exMoving.comps.getD j 0) _ _ (fun _ _ _ _ _ => rfl), faceFlux_const (w := fun j => exMoving.comps.getD j 0) _ _ (fun _ _ _ _ _ => rfl), real_lit]
    simp
  have light : LightRate exTwo.rng.dims 1 exTwo.dxAt 1 exDriftCells.f (fun _ => 0) := by
    intro x hx j hj
    rw [fvUpdate_add, show List.range (min exTwo.rng.dims.length 3) = [0] from rfl]
    simp only [List.map_cons, List.map_nil, List.sum_cons, List.sum_nil]
    obtain ⟨a, b, rfl⟩ := drift_cell hx
    rw [faceFlux_const (w := emState ![0, 1, 0] ![0, 0, 2]) _ _ (fun _ _ _ _ _ => rfl), faceFlux_const (w := emState ![0, 1, 0] ![0, 0, 2]) _ _ (fun _ _ _ _ _ => rfl), real_lit]
    simp
  have lor : ∀ com : ℝ, LorentzAdded com (exTwo.rng.dims ++ [(0, 1)]) exDriftCells.e exDriftCells.f (fun _ => 0) (fun _ => 0) := by
    intro com
    constructor
    · intro x hx; obtain ⟨a, b, rfl⟩ := drift_cell hx; simp [exDriftCells, exMoving, Gas.comps, emState]
    · intro x hx; obtain ⟨a, b, rfl⟩ := drift_cell hx; simp [exDriftCells, exMoving, Gas.comps, emState]
    · intro x hx; obtain ⟨a, b, rfl⟩ := drift_cell hx; simp [exDriftCells, exMoving, Gas.comps, emState]
    · intro x hx; obtain ⟨a, b, rfl⟩ := drift_cell hx; simp [exDriftCells, exMoving, Gas.comps, emState]
    · intro _ _; rfl
  have cur : CurrentAdded (exTwo.rng.dims ++ [(0, 1)]) [((1 : ℝ), exDriftCells.e), (-1, exDriftCells.i)] (fun _ => 0) (fun _ => 0) := by
    constructor
    · intro x k hx h1 h2
      simp only [List.foldl_cons, List.foldl_nil, exDriftCells]
      ring
    · intro _ _; rfl
  have st : ∀ k : Nat, PlasmaStage (exDriftPlasma v) exTwo 1 [] [0] t k exDriftCells exDriftCells exDriftCells ⟨fun _ => 0, fun _ => 0, fun _ => 0⟩ exDriftCells := by
    intro k
    have rk : ∀ u : ℝ, u = rkStage k t u u 0 := by
      intro u
      unfold rkStage
      split <;> simp [real_lit] <;> ring
    exact ⟨fill 5 _ (fun j => exMoving.comps.getD j 0), fill 5 _ (fun j => exMoving.comps.getD j 0), fill 6 _ (emState ![0, 1, 0] ![0, 0, 2]), ⟨fun _ => 0, gas, lor _⟩, ⟨fun _ => 0, gas, lor _⟩, ⟨fun _ => 0, light, cur⟩, fun _ => rk _, fun _ => rk _, fun _ => rk _⟩
  have nz : PlasmaNoZero exTwo 1 exDriftCells := by
    intro x hx
    obtain ⟨a, b, rfl⟩ := drift_cell hx
    refine ⟨?_, ?_, ?_⟩ <;>
    · intro d hd s _ _ j hj
      rw [one hd]
      first
        | show exMoving.comps.getD j 0 - exMoving.comps.getD j 0 + 1 / 10 ^ 12 ≠ 0; norm_num
        | show emState ![0, 1, 0] ![0, 0, 2] j - emState ![0, 1, 0] ![0, 0, 2] j + 1 / 10 ^ 12 ≠ 0; norm_num
  have L : fluxLip 2 1 3 + 2 * speedMax 2 1 3 = 2638 := by norm_num [fluxLip, speedMax, velMax, velLip, presMax, presLip]
  have W : invWidths exTwo exTwo.rng.dims.length = 1 := by
    unfold invWidths
    rw [show List.range exTwo.rng.dims.length = [0] from rfl]
    simp [show exTwo.dxAt 0 = 1 from rfl]
  have T : plasmaTruncation exTwo (exDriftPlasma v) 1 3 0 0 = 10564 / 10 ^ 12 := by
    unfold plasmaTruncation gasTruncation truncation exDriftPlasma
    dsimp only
    rw [L, show List.range exTwo.rng.dims.length = [0] from rfl]
    simp only [List.map_cons, List.map_nil, List.sum_cons, List.sum_nil, show exTwo.dxAt 0 = 1 from rfl]
    norm_num
  have G : plasmaGrowth exTwo (exDriftPlasma v) 1 1 3 2 (1 / 1000) ≤ 16000 := by
    unfold plasmaGrowth exDriftPlasma
    dsimp only
    rw [L, W]
    norm_num
  have meets : ∀ τ, PlasmaMeets exTwo [] [0] exDrift τ := fun τ =>
    ⟨⟨fun _ _ _ _ _ => rfl, fun d hd => by simp at hd, fun d hd => by simp at hd⟩, ⟨fun _ _ _ _ _ => rfl, fun d hd => by simp at hd, fun d hd => by simp at hd⟩,
      ⟨fun _ _ _ _ _ => rfl, fun d hd => by simp at hd, fun d hd => by simp at hd⟩⟩
  have exact : PlasmaOnMesh exTwo 1 exDrift τ 0 exDriftCells := by
    refine ⟨?_, ?_, ?_⟩ <;>
    · intro x hx j hj
      obtain ⟨a, b, rfl⟩ := drift_cell hx
      first
        | show |exMoving.comps.getD j 0 - exMoving.comps.getD j 0| ≤ 0; simp
        | show |emState ![0, 1, 0] ![0, 0, 2] j - emState ![0, 1, 0] ![0, 0, 2] j| ≤ 0; simp
  refine C119_plasma_step (ws := []) (ps := [0]) (p0 := 1) (exDrift_solution v) ⟨one_pos, by simp [exDriftPlasma]⟩ (Nat.le_of_ble_eq_true rfl) (fun d hd => by rw [one hd]; exact one_pos) (fun d hd => by rw [one hd]; decide)
    (fun d hd => by rw [one hd]; simp) (by norm_num [exDriftPlasma]) one_pos one_pos ht le_rfl (by norm_num)
    (fun d hd => by rw [one hd]; exact ⟨by norm_num, by norm_num [exDriftPlasma, presLip, velMax, velLip], by norm_num [exDriftPlasma, velLip]⟩) meets (st 0) (st 1) (st 2) nz nz nz ?_ exact
  rw [T]
  nlinarith [mul_le_mul_of_nonneg_left G ht]

-- a gas at rest between walls meets their conditions
example : Meets exTwo [0] isMomentum [] 5 (fun p j => (⟨2 + Real.cos (Real.pi * p 0), 0, 7⟩ : Gas).comps.getD j 0) := by
  have mir : ∀ k : Int, (k = lo exTwo.rng.dims 0 ∨ k = hi exTwo.rng.dims 0) → ∀ p : Nat → ℝ, Real.cos (Real.pi * mirrorAt p 0 (facePos exTwo 0 k) 0) = Real.cos (Real.pi * p 0) := by
    intro k hk p
    have e : mirrorAt p 0 (facePos exTwo 0 k) 0 = 2 * k - p 0 := by
      simp [mirrorAt, facePos, exTwo, Rectilinear.dxAt]
    rw [e]
    rw [show Real.pi * (2 * (k : ℝ) - p 0) = k * (2 * Real.pi) - Real.pi * p 0 by ring, Real.cos_int_mul_two_pi_sub]
  refine ⟨fun d hd => by simp at hd, ?_, ?_⟩
  · intro d hd k hk p j hj hf
    unfold isMomentum at hf
    unfold Gas.comps
    interval_cases j <;> simp_all
  · intro d hd k hk p j hj hf
    rw [List.mem_singleton] at hd
    subst hd
    unfold Gas.comps
    interval_cases j
    · simp only [List.getD_cons_zero, mir k hk p]
    all_goals rfl

end QK.Props
