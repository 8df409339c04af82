import Verif.Proofs.Truncation
import Verif.Props.Limiter
import Verif.Props.Kernels
import Mathlib.Tactic.IntervalCases
import Mathlib.Tactic.FinCases
import Mathlib.Analysis.SpecialFunctions.Trigonometric.Deriv
import Mathlib.Analysis.Real.Pi.Bounds
/- Property C119: how close the numerical rates of change are to the differential equations (exact arithmetic). -/
namespace QK.Props
open QK Spec Truncation

/-! ### The electromagnetic field -/

/-- The curl of a vector field with partial derivatives `D d` in direction `d`. -/
def curl (D : Fin 3 → Vec) : Vec := ![D 1 2 - D 2 1, D 2 0 - D 0 2, D 0 1 - D 1 0]

private theorem smooth_neg {d : Nat} {K : ℝ} {f f' : (Nat → ℝ) → ℝ} (a : ℝ) (S : SmoothIn d K f f') : SmoothIn d (|a| * K) (fun p => a * f p) (fun p => a * f' p) where
  deriv p := (S.deriv p).const_mul a
  lip p s := by
    rw [← mul_sub, abs_mul, mul_assoc]
    exact mul_le_mul_of_nonneg_left (S.lip p s) (abs_nonneg a)

private theorem smooth_mono {d : Nat} {K K' : ℝ} {f f' : (Nat → ℝ) → ℝ} (S : SmoothIn d K f f') (h : K ≤ K') : SmoothIn d K' f f' where
  deriv := S.deriv
  lip p s := (S.lip p s).trans (mul_le_mul_of_nonneg_right h (abs_nonneg s))

private theorem smooth_zero (d : Nat) {K : ℝ} (hK : 0 ≤ K) : SmoothIn d K (fun _ => 0) (fun _ => 0) where
  deriv _ := hasDerivAt_const _ _
  lip p s := by simp; positivity

theorem smooth_nonneg {d : Nat} {K : ℝ} {f f' : (Nat → ℝ) → ℝ} (S : SmoothIn d K f f') : 0 ≤ K := by
  have := (abs_nonneg _).trans (S.lip (fun _ => 0) 1)
  simpa using this

/-- The flux of Maxwell's equations of a smooth field is smooth. -/
theorem light_smooth {d : Fin 3} {c K : ℝ} {E B dE dB : (Nat → ℝ) → Vec} (hE : ∀ i, SmoothIn d K (fun p => E p i) (fun p => dE p i)) (hB : ∀ i, SmoothIn d K (fun p => B p i) (fun p => dB p i))
    {j : Nat} (hj : j < 6) : SmoothIn d ((1 + |c| + c ^ 2) * K) (fun p => (maxwellFlux c d (E p) (B p)).getD j 0) (fun p => (maxwellFlux c d (dE p) (dB p)).getD j 0) := by
  have hK := smooth_nonneg (hE 0)
  have k1 : |(1 : ℝ)| * K ≤ (1 + |c| + c ^ 2) * K := mul_le_mul_of_nonneg_right (by rw [abs_one]; have := abs_nonneg c; have := sq_nonneg c; linarith) hK
  have k2 : |(-1 : ℝ)| * K ≤ (1 + |c| + c ^ 2) * K := by rw [abs_neg]; exact k1
  have k3 : |c ^ 2| * K ≤ (1 + |c| + c ^ 2) * K := mul_le_mul_of_nonneg_right (by rw [abs_of_nonneg (sq_nonneg c)]; have := abs_nonneg c; linarith) hK
  have k4 : |-c ^ 2| * K ≤ (1 + |c| + c ^ 2) * K := by rw [abs_neg]; exact k3
  have z := smooth_zero d (K := (1 + |c| + c ^ 2) * K) ((abs_nonneg _ |> fun h => mul_nonneg h hK).trans k1)
  have e1 := fun i => smooth_mono (smooth_neg 1 (hE i)) k1
  have e2 := fun i => smooth_mono (smooth_neg (-1) (hE i)) k2
  have b1 := fun i => smooth_mono (smooth_neg (c ^ 2) (hB i)) k3
  have b2 := fun i => smooth_mono (smooth_neg (-c ^ 2) (hB i)) k4
  have cl : ∀ {f f' f1 f1' : (Nat → ℝ) → ℝ}, SmoothIn d ((1 + |c| + c ^ 2) * K) f f' → f1 = f → f1' = f' → SmoothIn d ((1 + |c| + c ^ 2) * K) f1 f1' := by
    intro f f' f1 f1' S h1 h2; rw [h1, h2]; exact S
  unfold maxwellFlux cross unit
  interval_cases j <;> fin_cases d <;> simp only [List.getD_cons_zero, List.getD_cons_succ, Matrix.cons_val_zero, Matrix.cons_val_one, Matrix.cons_val, Fin.isValue, Fin.zero_eta, Fin.mk_one, Fin.reduceFinMk, Fin.reduceEq, if_true, if_false]
  · exact cl z (by funext p; ring) (by funext p; ring)
  · exact cl (b2 2) (by funext p; ring) (by funext p; ring)
  · exact cl (b1 1) (by funext p; ring) (by funext p; ring)
  · exact cl (b1 2) (by funext p; ring) (by funext p; ring)
  · exact cl z (by funext p; ring) (by funext p; ring)
  · exact cl (b2 0) (by funext p; ring) (by funext p; ring)
  · exact cl (b2 1) (by funext p; ring) (by funext p; ring)
  · exact cl (b1 0) (by funext p; ring) (by funext p; ring)
  · exact cl z (by funext p; ring) (by funext p; ring)
  · exact cl z (by funext p; ring) (by funext p; ring)
  · exact cl (e1 2) (by funext p; ring) (by funext p; ring)
  · exact cl (e2 1) (by funext p; ring) (by funext p; ring)
  · exact cl (e2 2) (by funext p; ring) (by funext p; ring)
  · exact cl z (by funext p; ring) (by funext p; ring)
  · exact cl (e1 0) (by funext p; ring) (by funext p; ring)
  · exact cl (e1 1) (by funext p; ring) (by funext p; ring)
  · exact cl (e2 0) (by funext p; ring) (by funext p; ring)
  · exact cl z (by funext p; ring) (by funext p; ring)

/-- The numerical flux of states near a state is near its flux. -/
theorem light_near {d : Fin 3} {c η : ℝ} {E B : Vec} {wl wr : Nat → ℝ} (hl : ∀ j < 6, |wl j - emState E B j| ≤ η) (hr : ∀ j < 6, |wr j - emState E B j| ≤ η) {j : Nat} (hj : j < 6) :
    |(fluxOf (Maxwell.rusanov c (d : Nat)) ((List.range 6).map wl) ((List.range 6).map wr)).getD j 0 - (maxwellFlux c d E B).getD j 0| ≤ (1 + |c| + c ^ 2) * η := by
  have h : ∀ f : Nat → ℝ, (List.range 6).map f = emComps ![f 0, f 1, f 2] ![f 3, f 4, f 5] := fun _ => rfl
  have η0 : 0 ≤ η := (abs_nonneg _).trans (hl 0 (by omega))
  rw [h, h]
  unfold fluxOf
  rw [C74_rusanov]
  have l0 := hl 0 (by omega); have l1 := hl 1 (by omega); have l2 := hl 2 (by omega); have l3 := hl 3 (by omega); have l4 := hl 4 (by omega); have l5 := hl 5 (by omega)
  have r0 := hr 0 (by omega); have r1 := hr 1 (by omega); have r2 := hr 2 (by omega); have r3 := hr 3 (by omega); have r4 := hr 4 (by omega); have r5 := hr 5 (by omega)
  simp only [emState] at l0 l1 l2 l3 l4 l5 r0 r1 r2 r3 r4 r5
  -- average and jump of two numbers near a third
  have avg : ∀ {a b q : ℝ}, |a - q| ≤ η → |b - q| ≤ η → |(a + b) / 2 - q| ≤ η := by
    intro a b q h1 h2; rw [abs_le] at *; constructor <;> linarith [h1.1, h1.2, h2.1, h2.2]
  have jump : ∀ {a b q : ℝ}, |a - q| ≤ η → |b - q| ≤ η → |(|c| / 2 * (b - a))| ≤ |c| * η := by
    intro a b q h1 h2
    rw [abs_mul, abs_of_nonneg (by positivity : (0 : ℝ) ≤ |c| / 2)]
    have : |b - a| ≤ 2 * η := by rw [abs_le] at *; constructor <;> linarith [h1.1, h1.2, h2.1, h2.2]
    nlinarith [abs_nonneg c]
  have c0 := abs_nonneg c
  have c2 := sq_nonneg c
  -- with a factor and a jump
  have fin : ∀ {a b q s t r k : ℝ} (v : ℝ), |k| ≤ 1 + c ^ 2 → |a - q| ≤ η → |b - q| ≤ η → |s - r| ≤ η → |t - r| ≤ η → v = k * ((a + b) / 2 - q) - |c| / 2 * (t - s) → |v| ≤ (1 + |c| + c ^ 2) * η := by
    intro a b q s t r k v hk h1 h2 h3 h4 hv
    rw [hv]
    have j1 := avg h1 h2
    have j2 := jump h3 h4
    have j3 : |k * ((a + b) / 2 - q)| ≤ (1 + c ^ 2) * η := by
      rw [abs_mul]; exact mul_le_mul hk j1 (abs_nonneg _) (by positivity)
    have := abs_sub (k * ((a + b) / 2 - q)) (|c| / 2 * (t - s))
    linarith
  have k1 : |(1 : ℝ)| ≤ 1 + c ^ 2 := by rw [abs_one]; linarith
  have k2 : |(-1 : ℝ)| ≤ 1 + c ^ 2 := by rw [abs_neg]; exact k1
  have k3 : |c ^ 2| ≤ 1 + c ^ 2 := by rw [abs_of_nonneg c2]; linarith
  have k4 : |-c ^ 2| ≤ 1 + c ^ 2 := by rw [abs_neg]; exact k3
  have zz : |(0 : ℝ)| ≤ (1 + |c| + c ^ 2) * η := by rw [abs_zero]; positivity
  unfold dampedFlux maxwellFlux emComps cross unit transverse
  interval_cases j <;> fin_cases d <;> simp only [List.getD_cons_zero, List.getD_cons_succ, Matrix.cons_val_zero, Matrix.cons_val_one, Matrix.cons_val, Fin.isValue, Fin.zero_eta, Fin.mk_one, Fin.reduceFinMk, Fin.reduceEq, if_true, if_false]
  · convert zz using 2; ring
  · exact fin _ k4 l5 r5 l0 r0 (by ring)
  · exact fin _ k3 l4 r4 l0 r0 (by ring)
  · exact fin _ k3 l5 r5 l1 r1 (by ring)
  · convert zz using 2; ring
  · exact fin _ k4 l3 r3 l1 r1 (by ring)
  · exact fin _ k4 l4 r4 l2 r2 (by ring)
  · exact fin _ k3 l3 r3 l2 r2 (by ring)
  · convert zz using 2; ring
  · convert zz using 2; ring
  · exact fin _ k1 l2 r2 l3 r3 (by ring)
  · exact fin _ k2 l1 r1 l3 r3 (by ring)
  · exact fin _ k2 l2 r2 l4 r4 (by ring)
  · convert zz using 2; ring
  · exact fin _ k1 l0 r0 l4 r4 (by ring)
  · exact fin _ k1 l1 r1 l5 r5 (by ring)
  · exact fin _ k2 l0 r0 l5 r5 (by ring)
  · convert zz using 2; ring

/-- Sum over the directions of a mesh of at most three dimensions of something that is zero in the others. -/
theorem sum_dirs {m : Nat} {f : Nat → ℝ} (h : ∀ d < 3, m ≤ d → f d = 0) : ((List.range (min m 3)).map f).sum = f 0 + f 1 + f 2 := by
  match m with
  | 0 => have := h 0 (by omega) (by omega); have := h 1 (by omega) (by omega); have := h 2 (by omega) (by omega); simp_all
  | 1 => have := h 1 (by omega) (by omega); have := h 2 (by omega) (by omega); simp_all [List.range_succ]
  | 2 => have := h 2 (by omega) (by omega); simp_all [List.range_succ]
  | m + 3 => rw [show min (m + 3) 3 = 3 by omega]; simp [List.range_succ]; ring

/-- How far the numerical rates of a smooth field may be from the differential equations on a mesh: first order in the cell widths `h`; `δ` is the distance of the values in the cells from the
smooth field. -/
noncomputable def truncation (g : Rectilinear ℝ) (m : Nat) (K δ : ℝ) : ℝ :=
  ((List.range m).map fun d => 2 * (K * g.dxAt d ^ 2 + 3 * δ + 2 / 10 ^ 12) / g.dxAt d + K / 4 * g.dxAt d).sum

/-- **C119** Where the values in the cells are (within `δ`) those of an electric and a magnetic field with derivatives that are Lipschitz with constant `K`, the rates of change are those of Maxwell's
equations, `c²` times the curl of the magnetic field and minus the curl of the electric field, up to `truncation` times a constant that depends on the speed of light only: for all meshes of all
dimensions, all cell widths and all fields, also where they have extrema. -/
theorem C119_light {g : Rectilinear ℝ} {c K δ : ℝ} {E B : (Nat → ℝ) → Vec} {dE dB : Fin 3 → (Nat → ℝ) → Vec} {u r : Cell → ℝ} {p : Int} {x : Cell}
    (hR : LightRate g.rng.dims p g.dxAt c u r) (hx : InBox (g.rng.dims ++ [(0, p)]) x) (hw : ∀ d < min g.rng.dims.length 3, 0 < g.dxAt d)
    (hE : ∀ d i : Fin 3, SmoothIn d K (fun p => E p i) (fun p => dE d p i)) (hB : ∀ d i : Fin 3, SmoothIn d K (fun p => B p i) (fun p => dB d p i))
    (flat : ∀ d : Fin 3, g.rng.dims.length ≤ d → dE d (centre g x) = 0 ∧ dB d (centre g x) = 0)
    (hu : Samples g (min g.rng.dims.length 3) 6 (fun p => emState (E p) (B p)) δ (fun x j => u (x ++ [(j : Int)])) x)
    (hz : NoZero (min g.rng.dims.length 3) 6 (fun x j => u (x ++ [(j : Int)])) x) (i : Fin 3) :
    |r (x ++ [((i : Nat) : Int)]) - c ^ 2 * curl (fun d => dB d (centre g x)) i| ≤ (1 + |c| + c ^ 2) * truncation g (min g.rng.dims.length 3) K δ ∧
    |r (x ++ [((i : Nat) : Int) + 3]) + curl (fun d => dE d (centre g x)) i| ≤ (1 + |c| + c ^ 2) * truncation g (min g.rng.dims.length 3) K δ := by
  have hl : x.length = g.rng.dims.length + 1 := by have := hx.length_eq; simpa using this
  have z0 : (Arith.lit 0 : ℝ) = 0 := by simp [real_lit]
  have key : ∀ j : Nat, j < 6 → |r (x ++ [(j : Int)]) - ((List.range (min g.rng.dims.length 3)).map fun d => -(if h : d < 3 then (maxwellFlux c ⟨d, h⟩ (dE ⟨d, h⟩ (centre g x)) (dB ⟨d, h⟩ (centre g x))).getD j 0 else 0)).sum| ≤
      (1 + |c| + c ^ 2) * truncation g (min g.rng.dims.length 3) K δ := by
    intro j hj
    rw [hR x hx j hj, z0]
    have := update_near (g := g) (m := min g.rng.dims.length 3) (n := 6) (φ := fun dim => fluxOf (Maxwell.rusanov c dim)) (U := fun p => emState (E p) (B p))
      (D := fun d p => if h : d < 3 then emState (dE ⟨d, h⟩ p) (dB ⟨d, h⟩ p) else 0)
      (u := fun x j => u (x ++ [(j : Int)])) (x := x) (K := K) (L := 1 + |c| + c ^ 2) (K' := (1 + |c| + c ^ 2) * K) (δ := δ) (j := j)
      (F := fun d p => if h : d < 3 then (maxwellFlux c ⟨d, h⟩ (E p) (B p)).getD j 0 else 0)
      (dF := fun d p => if h : d < 3 then (maxwellFlux c ⟨d, h⟩ (dE ⟨d, h⟩ p) (dB ⟨d, h⟩ p)).getD j 0 else 0)
      (by omega) hw ?_ hu hz ?_ ?_
    · refine this.trans (le_of_eq ?_)
      unfold truncation
      rw [← List.sum_map_mul_left]
      refine congrArg List.sum (List.map_congr_left fun d _ => ?_)
      ring
    · intro d hd j hj
      have h3 : d < 3 := by omega
      simp only [dif_pos h3]
      interval_cases j <;> simp only [emState]
      · exact hE ⟨d, h3⟩ 0
      · exact hE ⟨d, h3⟩ 1
      · exact hE ⟨d, h3⟩ 2
      · exact hB ⟨d, h3⟩ 0
      · exact hB ⟨d, h3⟩ 1
      · exact hB ⟨d, h3⟩ 2
    · intro d hd
      have h3 : d < 3 := by omega
      simp only [dif_pos h3]
      exact light_smooth (d := ⟨d, h3⟩) (hE ⟨d, h3⟩) (hB ⟨d, h3⟩) hj
    · intro d hd p wl wr h1 h2
      have h3 : d < 3 := by omega
      simp only [dif_pos h3]
      exact light_near (d := ⟨d, h3⟩) h1 h2 hj
  have zero : ∀ j < 6, ∀ d < 3, g.rng.dims.length ≤ d → -(if h : d < 3 then (maxwellFlux c ⟨d, h⟩ (dE ⟨d, h⟩ (centre g x)) (dB ⟨d, h⟩ (centre g x))).getD j 0 else 0) = 0 := by
    intro j hj d hd hdl
    rw [dif_pos hd, (flat ⟨d, hd⟩ hdl).1, (flat ⟨d, hd⟩ hdl).2]
    unfold maxwellFlux cross
    interval_cases j <;> simp
  have tot : ∀ j : Nat, j < 6 → |r (x ++ [(j : Int)]) - (-(maxwellFlux c 0 (dE 0 (centre g x)) (dB 0 (centre g x))).getD j 0 + -(maxwellFlux c 1 (dE 1 (centre g x)) (dB 1 (centre g x))).getD j 0 +
      -(maxwellFlux c 2 (dE 2 (centre g x)) (dB 2 (centre g x))).getD j 0)| ≤ (1 + |c| + c ^ 2) * truncation g (min g.rng.dims.length 3) K δ := by
    intro j hj
    have := key j hj
    rw [sum_dirs (zero j hj)] at this
    exact this
  clear key zero
  constructor
  · have := tot i (by omega)
    refine le_trans (le_of_eq ?_) this
    congr 2
    unfold maxwellFlux curl cross unit
    fin_cases i <;> simp <;> ring
  · have := tot (i + 3) (by omega)
    push_cast at this
    refine le_trans (le_of_eq ?_) this
    rw [← sub_neg_eq_add]
    congr 2
    unfold maxwellFlux curl cross unit
    fin_cases i <;> simp <;> ring

/-! ### The gas -/

/-- A gas with density, momentum and energy within `R`, density at least `ρ0` and pressure at least `p0`. -/
structure InRange (gamma ρ0 p0 R : ℝ) (q : Gas) : Prop where
  low : ρ0 ≤ q.rho
  high : q.rho ≤ R
  mom : ∀ i, |q.mom i| ≤ R
  en : |q.en| ≤ R
  pres : p0 ≤ q.pressure gamma

/-- The states differ by at most `η` in each component. -/
structure NearGas (η : ℝ) (q r : Gas) : Prop where
  rho : |r.rho - q.rho| ≤ η
  mom : ∀ i, |r.mom i - q.mom i| ≤ η
  en : |r.en - q.en| ≤ η

/-- Bounds for a gas in this range and for all states near it: for the velocity, for the change of the velocity, for the pressure, for the change of the pressure, for the change of the flux,
for the signal speeds. -/
noncomputable def velMax (ρ0 R : ℝ) : ℝ := 4 * R / ρ0
noncomputable def velLip (ρ0 R : ℝ) : ℝ := 2 / ρ0 + 2 * R / ρ0 ^ 2
noncomputable def presMax (gamma ρ0 R : ℝ) : ℝ := (gamma - 1) * (2 * R + 3 * R * velMax ρ0 R)
noncomputable def presLip (gamma ρ0 R : ℝ) : ℝ := (gamma - 1) * (1 + 3 / 2 * (velMax ρ0 R + R * velLip ρ0 R))
noncomputable def fluxLip (gamma ρ0 R : ℝ) : ℝ :=
  1 + (velMax ρ0 R + R * velLip ρ0 R + presLip gamma ρ0 R) + ((1 + presLip gamma ρ0 R) * velMax ρ0 R + (R + presMax gamma ρ0 R) * velLip ρ0 R)
noncomputable def speedMax (gamma ρ0 R : ℝ) : ℝ := velMax ρ0 R + 1 + 2 * gamma * presMax gamma ρ0 R / ρ0

/-- `η` is small compared with the density, the pressure and the speed of sound. -/
structure Fine (gamma ρ0 p0 R η : ℝ) : Prop where
  rho : 2 * η ≤ ρ0
  pres : 2 * (presLip gamma ρ0 R * η) ≤ p0
  sound : (velLip ρ0 R * η) ^ 2 < gamma * p0 / (4 * R)

theorem Fine.mono {gamma ρ0 p0 R η η' : ℝ} (F : Fine gamma ρ0 p0 R η) (hg : 1 < gamma) (h0 : 0 < ρ0) (hR : 0 < R) (h : 0 ≤ η') (h' : η' ≤ η) : Fine gamma ρ0 p0 R η' := by
  have g1 : 0 < gamma - 1 := by linarith
  have lv : 0 ≤ velLip ρ0 R := by unfold velLip; positivity
  have vm : 0 ≤ velMax ρ0 R := by unfold velMax; positivity
  have lp : 0 ≤ presLip gamma ρ0 R := by unfold presLip; positivity
  refine ⟨by linarith [F.rho], ?_, lt_of_le_of_lt ?_ F.sound⟩
  · have := mul_le_mul_of_nonneg_left h' lp; linarith [F.pres]
  · exact pow_le_pow_left₀ (by positivity) (mul_le_mul_of_nonneg_left h' lv) 2

section gas
variable {gamma ρ0 p0 R η : ℝ} {q r : Gas}

private theorem prod_near {a b a' b' ea eb A B : ℝ} (ha : |a' - a| ≤ ea) (hb : |b' - b| ≤ eb) (hB : |b'| ≤ B) (hA : |a| ≤ A) : |a' * b' - a * b| ≤ ea * B + A * eb := by
  rw [show a' * b' - a * b = (a' - a) * b' + a * (b' - b) by ring]
  refine (abs_add_le _ _).trans (add_le_add ?_ ?_) <;> rw [abs_mul]
  · exact mul_le_mul ha hB (abs_nonneg _) ((abs_nonneg _).trans ha)
  · exact mul_le_mul hA hb (abs_nonneg _) ((abs_nonneg _).trans hA)

variable (hg : 1 < gamma) (h0 : 0 < ρ0) (hp : 0 < p0) (I : InRange gamma ρ0 p0 R q) (N : NearGas η q r) (F : Fine gamma ρ0 p0 R η)
include hg h0 hp I N F

omit hg hp in
theorem near_base : 0 < R ∧ ρ0 / 2 ≤ r.rho ∧ r.rho ≤ 2 * R ∧ 0 ≤ η ∧ η ≤ R ∧ (∀ i, |r.mom i| ≤ 2 * R) ∧ |r.en| ≤ 2 * R := by
  have l := I.low; have h := I.high; have f := F.rho
  have n := N.rho
  have η0 : 0 ≤ η := (abs_nonneg _).trans n
  have n' := abs_le.1 n
  have lem : ∀ {a b : ℝ}, |a| ≤ R → |b - a| ≤ η → |b| ≤ 2 * R := by
    intro a b h1 h2; rw [abs_le] at *; constructor <;> linarith [h1.1, h1.2, h2.1, h2.2]
  exact ⟨by linarith, by linarith [n'.1], by linarith [n'.2], η0, by linarith, fun i => lem (I.mom i) (N.mom i), lem I.en N.en⟩

omit hg hp in
theorem near_vel (d : Fin 3) : |r.vel d| ≤ velMax ρ0 R ∧ |r.vel d - q.vel d| ≤ velLip ρ0 R * η := by
  obtain ⟨R0, l, -, η0, -, m, -⟩ := near_base h0 I N F
  have l0 := I.low
  have rp : 0 < r.rho := by linarith
  have qp : 0 < q.rho := by linarith
  have inv : 1 / r.rho ≤ 2 / ρ0 := by rw [div_le_div_iff₀ rp h0]; linarith
  have inv' : 1 / (r.rho * q.rho) ≤ 2 / ρ0 ^ 2 := by
    rw [div_le_div_iff₀ (by positivity) (by positivity)]; nlinarith
  constructor
  · unfold Gas.vel velMax
    rw [abs_div, abs_of_pos rp, show |r.mom d| / r.rho = |r.mom d| * (1 / r.rho) by ring, show 4 * R / ρ0 = 2 * R * (2 / ρ0) by ring]
    exact mul_le_mul (m d) inv (by positivity) (by positivity)
  · have e : r.vel d - q.vel d = (r.mom d - q.mom d) * (1 / r.rho) + q.mom d * ((q.rho - r.rho) * (1 / (r.rho * q.rho))) := by
      unfold Gas.vel; field_simp; ring
    rw [e]
    refine (abs_add_le _ _).trans ?_
    have t1 : |(r.mom d - q.mom d) * (1 / r.rho)| ≤ η * (2 / ρ0) := by
      rw [abs_mul, abs_of_pos (show 0 < 1 / r.rho by positivity)]
      exact mul_le_mul (N.mom d) inv (by positivity) η0
    have t2 : |q.mom d * ((q.rho - r.rho) * (1 / (r.rho * q.rho)))| ≤ R * (η * (2 / ρ0 ^ 2)) := by
      rw [abs_mul, abs_mul, abs_of_pos (show 0 < 1 / (r.rho * q.rho) by positivity), abs_sub_comm]
      exact mul_le_mul (I.mom d) (mul_le_mul N.rho inv' (by positivity) η0) (by positivity) R0.le
    refine (add_le_add t1 t2).trans (le_of_eq ?_)
    unfold velLip; ring

omit hp in
theorem near_pres : |r.pressure gamma| ≤ presMax gamma ρ0 R ∧ |r.pressure gamma - q.pressure gamma| ≤ presLip gamma ρ0 R * η := by
  obtain ⟨R0, l, -, η0, -, m, en⟩ := near_base h0 I N F
  have v := fun d => near_vel h0 I N F d
  have l0 := I.low
  have rp : 0 < r.rho := by linarith
  have qp : 0 < q.rho := by linarith
  have form : ∀ {s : Gas}, 0 < s.rho → s.pressure gamma = (gamma - 1) * (s.en - 1 / 2 * (s.mom 0 * s.vel 0 + s.mom 1 * s.vel 1 + s.mom 2 * s.vel 2)) := by
    intro s hs; unfold Gas.pressure vdot Gas.vel; field_simp
  have g1 : 0 < gamma - 1 := by linarith
  have V0 : 0 ≤ velMax ρ0 R := (abs_nonneg _).trans (v 0).1
  have prod : ∀ d, |r.mom d * r.vel d| ≤ 2 * R * velMax ρ0 R := fun d => by
    rw [abs_mul]; exact mul_le_mul (m d) (v d).1 (abs_nonneg _) (by linarith)
  have dif : ∀ d, |r.mom d * r.vel d - q.mom d * q.vel d| ≤ η * velMax ρ0 R + R * (velLip ρ0 R * η) := fun d => prod_near (N.mom d) (v d).2 (v d).1 (I.mom d)
  rw [form rp, form qp]
  constructor
  · rw [abs_mul, abs_of_pos g1]
    unfold presMax
    refine mul_le_mul_of_nonneg_left ?_ g1.le
    have a := abs_le.1 (prod 0); have b := abs_le.1 (prod 1); have c := abs_le.1 (prod 2); have e := abs_le.1 en
    rw [abs_le]
    constructor <;> linarith [a.1, a.2, b.1, b.2, c.1, c.2, e.1, e.2]
  · rw [← mul_sub, abs_mul, abs_of_pos g1]
    unfold presLip
    rw [mul_assoc]
    refine mul_le_mul_of_nonneg_left ?_ g1.le
    have a := abs_le.1 (dif 0); have b := abs_le.1 (dif 1); have c := abs_le.1 (dif 2); have e := abs_le.1 N.en
    rw [abs_le]
    constructor <;> linarith [a.1, a.2, b.1, b.2, c.1, c.2, e.1, e.2]

omit hp in
private theorem near_flux (d : Fin 3) {j : Nat} (hj : j < 5) : |(r.flux gamma d).comps.getD j 0 - (q.flux gamma d).comps.getD j 0| ≤ fluxLip gamma ρ0 R * η := by
  obtain ⟨R0, l, -, η0, -, m, en⟩ := near_base h0 I N F
  have v := fun d => near_vel h0 I N F d
  obtain ⟨P1, P2⟩ := near_pres hg h0 I N F
  have Pq : |q.pressure gamma| ≤ presMax gamma ρ0 R := by
    have : NearGas 0 q q := ⟨by simp, fun _ => by simp, by simp⟩
    have f0 : Fine gamma ρ0 p0 R 0 := ⟨by linarith [F.rho], by have := F.pres; have := (abs_nonneg _).trans P2; rw [mul_zero, mul_zero]; linarith, by rw [mul_zero]; exact lt_of_le_of_lt (by rw [zero_pow two_ne_zero]; exact sq_nonneg _) F.sound⟩
    exact (near_pres hg h0 I this f0).1
  have V0 : 0 ≤ velMax ρ0 R := (abs_nonneg _).trans (v 0).1
  have lv0 : 0 ≤ velLip ρ0 R := by unfold velLip; positivity
  have lp0 : 0 ≤ presLip gamma ρ0 R := by unfold presLip; have : 0 < gamma - 1 := by linarith
                                          positivity
  have pm0 : 0 ≤ presMax gamma ρ0 R := (abs_nonneg _).trans P1
  have mv : ∀ i, |r.mom i * r.vel d - q.mom i * q.vel d| ≤ η * velMax ρ0 R + R * (velLip ρ0 R * η) := fun i => prod_near (N.mom i) (v d).2 (v d).1 (I.mom i)
  have key : fluxLip gamma ρ0 R * η = η + (η * velMax ρ0 R + R * (velLip ρ0 R * η) + presLip gamma ρ0 R * η) + ((η + presLip gamma ρ0 R * η) * velMax ρ0 R + (R + presMax gamma ρ0 R) * (velLip ρ0 R * η)) := by
    unfold fluxLip; ring
  have n1 : 0 ≤ η * velMax ρ0 R + R * (velLip ρ0 R * η) + presLip gamma ρ0 R * η := by positivity
  have n2 : 0 ≤ (η + presLip gamma ρ0 R * η) * velMax ρ0 R + (R + presMax gamma ρ0 R) * (velLip ρ0 R * η) := by positivity
  have mom : ∀ i, |r.mom i * r.vel d + r.pressure gamma * unit d i - (q.mom i * q.vel d + q.pressure gamma * unit d i)| ≤ fluxLip gamma ρ0 R * η := by
    intro i
    rw [key, show r.mom i * r.vel d + r.pressure gamma * unit d i - (q.mom i * q.vel d + q.pressure gamma * unit d i) = (r.mom i * r.vel d - q.mom i * q.vel d) + (r.pressure gamma - q.pressure gamma) * unit d i by ring]
    have : |(r.pressure gamma - q.pressure gamma) * unit d i| ≤ presLip gamma ρ0 R * η := by
      unfold unit
      split
      · rw [mul_one]; exact P2
      · rw [mul_zero, abs_zero]; positivity
    have := abs_add_le (r.mom i * r.vel d - q.mom i * q.vel d) ((r.pressure gamma - q.pressure gamma) * unit d i)
    linarith [mv i]
  unfold Gas.flux Gas.comps
  interval_cases j <;> simp only [List.getD_cons_zero, List.getD_cons_succ]
  · rw [key]; linarith [N.mom d]
  · exact mom 0
  · exact mom 1
  · exact mom 2
  · rw [key]
    have e1 : |r.en + r.pressure gamma - (q.en + q.pressure gamma)| ≤ η + presLip gamma ρ0 R * η := by
      rw [show r.en + r.pressure gamma - (q.en + q.pressure gamma) = (r.en - q.en) + (r.pressure gamma - q.pressure gamma) by ring]
      exact (abs_add_le _ _).trans (add_le_add N.en P2)
    have e2 : |q.en + q.pressure gamma| ≤ R + presMax gamma ρ0 R := (abs_add_le _ _).trans (add_le_add I.en Pq)
    have := prod_near e1 (v d).2 (v d).1 e2
    linarith

private theorem near_sound : 0 < r.pressure gamma ∧ r.sound gamma ≤ 1 + 2 * gamma * presMax gamma ρ0 R / ρ0 ∧ velLip ρ0 R * η < r.sound gamma := by
  obtain ⟨R0, l, h, η0, -, m, en⟩ := near_base h0 I N F
  obtain ⟨P1, P2⟩ := near_pres hg h0 I N F
  have rp : 0 < r.rho := by linarith
  have pr : p0 / 2 ≤ r.pressure gamma := by have := (abs_le.1 P2).1; linarith [I.pres, F.pres]
  have ppos : 0 < r.pressure gamma := by linarith
  have lv0 : 0 ≤ velLip ρ0 R := by unfold velLip; positivity
  refine ⟨ppos, ?_, ?_⟩
  · unfold Gas.sound
    have x0 : 0 ≤ gamma * r.pressure gamma / r.rho := by positivity
    have : Real.sqrt (gamma * r.pressure gamma / r.rho) ≤ 1 + gamma * r.pressure gamma / r.rho := by
      rw [Real.sqrt_le_left (by positivity)]; nlinarith
    refine this.trans (add_le_add le_rfl ?_)
    rw [div_le_div_iff₀ rp h0]
    have a := (le_abs_self _).trans P1
    nlinarith [mul_le_mul a (show ρ0 ≤ 2 * r.rho by linarith) h0.le (ppos.le.trans a)]
  · unfold Gas.sound
    refine Real.lt_sqrt_of_sq_lt (F.sound.trans_le ?_)
    rw [div_le_div_iff₀ (by positivity) rp]
    nlinarith [mul_le_mul pr (show r.rho ≤ 2 * R by linarith) rp.le ppos.le]

end gas

/-- The numerical flux of two states near a state is near its flux. -/
theorem gas_near {gamma ρ0 p0 R η : ℝ} {q l r : Gas} (hg : 1 < gamma) (h0 : 0 < ρ0) (hp : 0 < p0) (I : InRange gamma ρ0 p0 R q) (Nl : NearGas η q l) (Nr : NearGas η q r)
    (F : Fine gamma ρ0 p0 R η) (d : Fin 3) {j : Nat} (hj : j < 5) :
    |(fluxOf (Euler.hll gamma (d : Nat)) l.comps r.comps).getD j 0 - (q.flux gamma d).comps.getD j 0| ≤ (fluxLip gamma ρ0 R + 2 * speedMax gamma ρ0 R) * η := by
  obtain ⟨R0, -, -, η0, -, -, -⟩ := near_base h0 I Nl F
  have fl := near_flux hg h0 I Nl F d hj
  have fr := near_flux hg h0 I Nr F d hj
  obtain ⟨pl, sl, cl⟩ := near_sound hg h0 hp I Nl F
  obtain ⟨pr, sr, cr⟩ := near_sound hg h0 hp I Nr F
  have vl := near_vel h0 I Nl F d
  have vr := near_vel h0 I Nr F d
  have gap : l.vel d - r.vel d < l.sound gamma + r.sound gamma := by
    have a := abs_le.1 vl.2; have b := abs_le.1 vr.2; linarith [a.2, b.1]
  have S0 : 0 ≤ speedMax gamma ρ0 R * η := by
    have a := (abs_nonneg _).trans vl.1
    have : 0 ≤ l.sound gamma := Real.sqrt_nonneg _
    have : 0 ≤ speedMax gamma ρ0 R := by unfold speedMax; linarith
    positivity
  have jump : |r.comps.getD j 0 - l.comps.getD j 0| ≤ 2 * η := by
    have two : ∀ {a b c : ℝ}, |a - c| ≤ η → |b - c| ≤ η → |b - a| ≤ 2 * η := by
      intro a b c h1 h2; rw [abs_le] at *; constructor <;> linarith [h1.1, h1.2, h2.1, h2.2]
    unfold Gas.comps
    interval_cases j <;> simp only [List.getD_cons_zero, List.getD_cons_succ]
    · exact two Nl.rho Nr.rho
    · exact two (Nl.mom 0) (Nr.mom 0)
    · exact two (Nl.mom 1) (Nr.mom 1)
    · exact two (Nl.mom 2) (Nr.mom 2)
    · exact two Nl.en Nr.en
  unfold fluxOf
  rw [C51_one_branch_partial _ _ _ _ (by intro h; linarith [h.1, h.2])]
  dsimp only
  by_cases c1 : 0 < l.vel d - l.sound gamma
  · rw [if_pos c1]; linarith
  · rw [if_neg c1]
    by_cases c2 : r.vel d + r.sound gamma < 0
    · rw [if_pos c2]; linarith
    · rw [if_neg c2]
      have form : (Gas.hllFlux gamma d (l.vel d - l.sound gamma) (r.vel d + r.sound gamma) l r).comps.getD j 0 =
          ((r.vel d + r.sound gamma) * (l.flux gamma d).comps.getD j 0 - (l.vel d - l.sound gamma) * (r.flux gamma d).comps.getD j 0 +
            (l.vel d - l.sound gamma) * (r.vel d + r.sound gamma) * (r.comps.getD j 0 - l.comps.getD j 0)) / ((r.vel d + r.sound gamma) - (l.vel d - l.sound gamma)) := by
        unfold Gas.hllFlux Gas.lin Gas.comps
        interval_cases j <;> simp only [List.getD_cons_zero, List.getD_cons_succ] <;> ring
      rw [form]
      have smax : |l.vel d - l.sound gamma| ≤ speedMax gamma ρ0 R := by
        have : 0 ≤ l.sound gamma := Real.sqrt_nonneg _
        have a := abs_le.1 vl.1
        unfold speedMax
        rw [abs_le]; constructor <;> linarith [a.1, a.2]
      have hab : l.vel d - l.sound gamma < r.vel d + r.sound gamma := by linarith
      clear form gap sl cl sr cr vl vr
      generalize l.vel d - l.sound gamma = a at *
      generalize r.vel d + r.sound gamma = b at *
      rw [not_lt] at c1 c2
      have w : 0 < b - a := by linarith
      generalize (l.flux gamma d).comps.getD j 0 = A at *
      generalize (r.flux gamma d).comps.getD j 0 = B at *
      generalize (q.flux gamma d).comps.getD j 0 = f at *
      generalize r.comps.getD j 0 - l.comps.getD j 0 = Δ at *
      rw [show (b * A - a * B + a * b * Δ) / (b - a) - f = (b * (A - f) - a * (B - f) + b * (a * Δ)) / (b - a) by field_simp; ring, abs_div, abs_of_pos w, div_le_iff₀ w]
      have t1 : |b * (A - f)| ≤ b * (fluxLip gamma ρ0 R * η) := by
        rw [abs_mul, abs_of_nonneg c2]; exact mul_le_mul_of_nonneg_left fl c2
      have t2 : |a * (B - f)| ≤ -a * (fluxLip gamma ρ0 R * η) := by
        rw [abs_mul, abs_of_nonpos c1]; exact mul_le_mul_of_nonneg_left fr (by linarith)
      have t3 : |b * (a * Δ)| ≤ b * (speedMax gamma ρ0 R * (2 * η)) := by
        rw [abs_mul, abs_of_nonneg c2, abs_mul]
        exact mul_le_mul_of_nonneg_left (mul_le_mul smax jump (abs_nonneg _) ((abs_nonneg _).trans smax)) c2
      have t4 := abs_add_le (b * (A - f) - a * (B - f)) (b * (a * Δ))
      have t5 := abs_sub (b * (A - f)) (a * (B - f))
      have t6 : 0 ≤ -a * (speedMax gamma ρ0 R * η) := mul_nonneg (by linarith) S0
      linarith

/-- All components of `Q` are smooth in direction `d`, with derivatives `Q'`. -/
def SmoothGas (d : Nat) (K : ℝ) (Q Q' : (Nat → ℝ) → Gas) : Prop := ∀ j < 5, SmoothIn d K (fun p => (Q p).comps.getD j 0) (fun p => (Q' p).comps.getD j 0)

/-- How far the numerical rates of a smooth gas may be from the differential equations. -/
noncomputable def gasTruncation (g : Rectilinear ℝ) (m : Nat) (L K K' δ : ℝ) : ℝ :=
  ((List.range m).map fun d => 2 * L * (K * g.dxAt d ^ 2 + 3 * δ + 2 / 10 ^ 12) / g.dxAt d + K' / 4 * g.dxAt d).sum

/-- **C119** Where the values in the cells are (within `δ`) those of a gas with density and pressure bounded from below and with derivatives that are Lipschitz with constant `K` (those of the fluxes
with `K'`), the rates of change are those of the Euler equations, minus the divergence of the fluxes, up to `gasTruncation`: for all cell widths that are fine enough for the limiter to keep the
states at the walls in the range. -/
theorem C119_gas {g : Rectilinear ℝ} {gamma ρ0 p0 R K K' δ : ℝ} {Q : (Nat → ℝ) → Gas} {dQ dF : Fin 3 → (Nat → ℝ) → Gas} {u r : Cell → ℝ} {p : Int} {x : Cell}
    (hR : GasRate g.rng.dims p g.dxAt gamma u r) (hx : InBox (g.rng.dims ++ [(0, p)]) x) (h3 : g.rng.dims.length ≤ 3) (hw : ∀ d < g.rng.dims.length, 0 < g.dxAt d)
    (hg : 1 < gamma) (h0 : 0 < ρ0) (hp : 0 < p0) (hI : ∀ p, InRange gamma ρ0 p0 R (Q p))
    (hQ : ∀ d : Fin 3, SmoothGas d K Q (dQ d)) (hF : ∀ d : Fin 3, SmoothGas d K' (fun p => (Q p).flux gamma d) (dF d))
    (flat : ∀ d : Fin 3, g.rng.dims.length ≤ d → ∀ j < 5, (dF d (centre g x)).comps.getD j 0 = 0)
    (hu : Samples g g.rng.dims.length 5 (fun p j => (Q p).comps.getD j 0) δ (fun x j => u (x ++ [(j : Int)])) x)
    (hz : NoZero g.rng.dims.length 5 (fun x j => u (x ++ [(j : Int)])) x)
    (fine : ∀ d < g.rng.dims.length, Fine gamma ρ0 p0 R (K * g.dxAt d ^ 2 + 3 * δ + 2 / 10 ^ 12)) (j : Nat) (hj : j < 5) :
    |r (x ++ [(j : Int)]) + ((dF 0 (centre g x)).comps.getD j 0 + (dF 1 (centre g x)).comps.getD j 0 + (dF 2 (centre g x)).comps.getD j 0)| ≤
      gasTruncation g g.rng.dims.length (fluxLip gamma ρ0 R + 2 * speedMax gamma ρ0 R) K K' δ := by
  have hl : x.length = g.rng.dims.length + 1 := by have := hx.length_eq; simpa using this
  have z0 : (Arith.lit 0 : ℝ) = 0 := by simp [real_lit]
  have key := update_near (g := g) (m := g.rng.dims.length) (n := 5) (φ := fun dim => fluxOf (Euler.hll gamma dim)) (U := fun p j => (Q p).comps.getD j 0)
      (D := fun d p j => if h : d < 3 then (dQ ⟨d, h⟩ p).comps.getD j 0 else 0)
      (u := fun x j => u (x ++ [(j : Int)])) (x := x) (K := K) (L := fluxLip gamma ρ0 R + 2 * speedMax gamma ρ0 R) (K' := K') (δ := δ) (j := j)
      (F := fun d p => if h : d < 3 then ((Q p).flux gamma ⟨d, h⟩).comps.getD j 0 else 0)
      (dF := fun d p => if h : d < 3 then (dF ⟨d, h⟩ p).comps.getD j 0 else 0)
      (by omega) hw ?_ hu hz ?_ ?_
  · have zero : ∀ d < 3, g.rng.dims.length ≤ d → -(if h : d < 3 then (dF ⟨d, h⟩ (centre g x)).comps.getD j 0 else 0) = 0 := by
      intro d hd hdl
      rw [dif_pos hd, flat ⟨d, hd⟩ hdl j hj, neg_zero]
    have e := sum_dirs zero
    rw [Nat.min_eq_left h3] at e
    rw [e] at key
    rw [hR x hx j hj, z0]
    refine le_trans (le_of_eq ?_) key
    rw [← sub_neg_eq_add]
    congr 2
    simp only [show (0 : Nat) < 3 by omega, show (1 : Nat) < 3 by omega, show (2 : Nat) < 3 by omega, dif_pos]
    show _ = -(dF 0 _).comps.getD j 0 + -(dF 1 _).comps.getD j 0 + -(dF 2 _).comps.getD j 0
    ring
  · intro d hd j hj
    have hd3 : d < 3 := by omega
    simp only [dif_pos hd3]
    exact hQ ⟨d, hd3⟩ j hj
  · intro d hd
    have hd3 : d < 3 := by omega
    simp only [dif_pos hd3]
    exact hF ⟨d, hd3⟩ j hj
  · intro d hd p wl wr h1 h2
    have hd3 : d < 3 := by omega
    simp only [dif_pos hd3]
    have near : ∀ w : Nat → ℝ, (∀ j < 5, |w j - (Q p).comps.getD j 0| ≤ K * g.dxAt d ^ 2 + 3 * δ + 2 / 10 ^ 12) → NearGas (K * g.dxAt d ^ 2 + 3 * δ + 2 / 10 ^ 12) (Q p) ⟨w 0, ![w 1, w 2, w 3], w 4⟩ := by
      intro w h
      exact ⟨h 0 (by omega), fun i => by fin_cases i; exacts [h 1 (by omega), h 2 (by omega), h 3 (by omega)], h 4 (by omega)⟩
    exact gas_near (d := ⟨d, hd3⟩) hg h0 hp (hI p) (near wl h1) (near wr h2) (fine d hd) hj

/-! ### Time steps -/

/-- Sum of the inverse cell widths. -/
noncomputable def invWidths (g : Rectilinear ℝ) (m : Nat) : ℝ := ((List.range m).map fun d => 1 / g.dxAt d).sum

private theorem list_sum_lin {a b : ℝ} {f k : Nat → ℝ} (l : List Nat) : (l.map fun d => a * f d + b * k d).sum = a * (l.map f).sum + b * (l.map k).sum := by
  induction l with
  | nil => simp
  | cons d l ih => simp only [List.map_cons, List.sum_cons, ih]; ring

theorem truncation_split (g : Rectilinear ℝ) (m : Nat) (K δ : ℝ) : truncation g m K δ = truncation g m K 0 + 6 * invWidths g m * δ := by
  unfold truncation invWidths
  have := list_sum_lin (a := 1) (b := 6 * δ) (f := fun d => 2 * (K * g.dxAt d ^ 2 + 3 * 0 + 2 / 10 ^ 12) / g.dxAt d + K / 4 * g.dxAt d) (k := fun d => 1 / g.dxAt d) (List.range m)
  rw [one_mul] at this
  rw [show 6 * ((List.range m).map fun d => 1 / g.dxAt d).sum * δ = 6 * δ * ((List.range m).map fun d => 1 / g.dxAt d).sum by ring, ← this]
  refine congrArg List.sum (List.map_congr_left fun d _ => ?_)
  ring

theorem gasTruncation_split (g : Rectilinear ℝ) (m : Nat) (L K K' δ : ℝ) : gasTruncation g m L K K' δ = gasTruncation g m L K K' 0 + 6 * L * invWidths g m * δ := by
  unfold gasTruncation invWidths
  have := list_sum_lin (a := 1) (b := 6 * L * δ) (f := fun d => 2 * L * (K * g.dxAt d ^ 2 + 3 * 0 + 2 / 10 ^ 12) / g.dxAt d + K' / 4 * g.dxAt d) (k := fun d => 1 / g.dxAt d) (List.range m)
  rw [one_mul] at this
  rw [show 6 * L * ((List.range m).map fun d => 1 / g.dxAt d).sum * δ = 6 * L * δ * ((List.range m).map fun d => 1 / g.dxAt d).sum by ring, ← this]
  refine congrArg List.sum (List.map_congr_left fun d _ => ?_)
  ring

theorem list_sum_nonneg {f : Nat → ℝ} {l : List Nat} (h : ∀ d ∈ l, 0 ≤ f d) : 0 ≤ (l.map f).sum := by
  induction l with
  | nil => simp
  | cons d l ih => simp only [List.map_cons, List.sum_cons]; exact add_nonneg (h d (by simp)) (ih fun e he => h e (by simp [he]))

/-- **C119** A whole time step (three stages, any combination of walls and periodic directions the solution meets) started from the values of an exact, smooth solution of Maxwell's equations gives the values of this solution one step later, up to the step
size times `truncation` and the step size: first order in cell width and step size, for every bound on the Courant number. -/
theorem C119_light_step {g : Rectilinear ℝ} {c K A t τ : ℝ} {E B : ℝ → (Nat → ℝ) → Vec} {dE dB : ℝ → Fin 3 → (Nat → ℝ) → Vec} {p : Int} {ws ps : List Nat} {flip : Int → Prop}
    {q q0 r0 q1 q1' r1 q2 q2' r2 q' : Cell → ℝ} (ht : 0 ≤ t) (hA : 0 ≤ A)
    (hw : ∀ d < g.rng.dims.length, 0 < g.dxAt d) (hn : ∀ d < g.rng.dims.length, 2 ≤ hi g.rng.dims d - lo g.rng.dims d) (hc : ∀ d < g.rng.dims.length, d ∈ ws ∨ d ∈ ps)
    (hE : ∀ τ, ∀ d i : Fin 3, SmoothIn d K (fun p => E τ p i) (fun p => dE τ d p i)) (hB : ∀ τ, ∀ d i : Fin 3, SmoothIn d K (fun p => B τ p i) (fun p => dB τ d p i))
    (flat : ∀ τ p, ∀ d : Fin 3, g.rng.dims.length ≤ d → dE τ d p = 0 ∧ dB τ d p = 0)
    (maxwell : Evolves 6 A (fun τ p => emState (E τ p) (B τ p)) (fun τ p => emState (fun i => c ^ 2 * curl (fun d => dB τ d p) i) (fun i => -curl (fun d => dE τ d p) i)))
    (bounds : ∀ τ, Meets g ws flip ps 6 (fun p => emState (E τ p) (B τ p)))
    (S0 : SoloStage g.rng.dims p 6 ws flip ps (LightRate g.rng.dims p g.dxAt c) t 0 q0 q q0 r0 q1) (S1 : SoloStage g.rng.dims p 6 ws flip ps (LightRate g.rng.dims p g.dxAt c) t 1 q0 q1 q1' r1 q2)
    (S2 : SoloStage g.rng.dims p 6 ws flip ps (LightRate g.rng.dims p g.dxAt c) t 2 q0 q2 q2' r2 q')
    (z0 : ∀ x, InBox (g.rng.dims ++ [(0, p)]) x → NoZero g.rng.dims.length 6 (fun x j => q0 (x ++ [(j : Int)])) x)
    (z1 : ∀ x, InBox (g.rng.dims ++ [(0, p)]) x → NoZero g.rng.dims.length 6 (fun x j => q1' (x ++ [(j : Int)])) x)
    (z2 : ∀ x, InBox (g.rng.dims ++ [(0, p)]) x → NoZero g.rng.dims.length 6 (fun x j => q2' (x ++ [(j : Int)])) x)
    (exact : OnMesh g p 6 (fun p => emState (E τ p) (B τ p)) 0 q) :
    OnMesh g p 6 (fun p => emState (E (τ + t) p) (B (τ + t) p))
      (2 * (1 + t * ((1 + |c| + c ^ 2) * (6 * invWidths g (min g.rng.dims.length 3)))) ^ 2 * (t * ((1 + |c| + c ^ 2) * truncation g (min g.rng.dims.length 3) K 0) + A * t ^ 2)) q' := by
  have hK := smooth_nonneg (hE 0 0 0)
  have L0 : 0 ≤ 1 + |c| + c ^ 2 := by positivity
  have hw' : ∀ d < min g.rng.dims.length 3, 0 < g.dxAt d := fun d hd => hw d (by omega)
  have i0 : 0 ≤ invWidths g (min g.rng.dims.length 3) := list_sum_nonneg fun d hd => by have := hw' d (List.mem_range.1 hd); positivity
  have T0 : 0 ≤ truncation g (min g.rng.dims.length 3) K 0 := list_sum_nonneg fun d hd => by have := hw' d (List.mem_range.1 hd); positivity
  refine step_near (δmax := (1 + t * ((1 + |c| + c ^ 2) * (6 * invWidths g (min g.rng.dims.length 3)))) * (t * ((1 + |c| + c ^ 2) * truncation g (min g.rng.dims.length 3) K 0) + A * t ^ 2))
    ht (by positivity) (by positivity) hA hn hc bounds maxwell S0 S1 S2 z0 z1 z2 ?_ le_rfl exact
  intro τ δ u r x _ _ hR hx hu hz
  have key := C119_light hR hx hw' (hE τ) (hB τ) (fun d hd => flat τ _ d hd) (fun d hd => hu d (by omega)) (fun d hd => hz d (by omega))
  rw [truncation_split, show (1 + |c| + c ^ 2) * (truncation g (min g.rng.dims.length 3) K 0 + 6 * invWidths g (min g.rng.dims.length 3) * δ) =
    (1 + |c| + c ^ 2) * truncation g (min g.rng.dims.length 3) K 0 + (1 + |c| + c ^ 2) * (6 * invWidths g (min g.rng.dims.length 3)) * δ by ring] at key
  intro j hj
  interval_cases j
  · exact (key 0).1
  · exact (key 1).1
  · exact (key 2).1
  · have k := (key 0).2
    rw [← sub_neg_eq_add] at k
    exact k
  · have k := (key 1).2
    rw [← sub_neg_eq_add] at k
    exact k
  · have k := (key 2).2
    rw [← sub_neg_eq_add] at k
    exact k

/-- **C119** The same for a gas and the Euler equations, if cells and steps are fine enough. -/
theorem C119_gas_step {g : Rectilinear ℝ} {gamma ρ0 p0 R K K' A t τ δmax : ℝ} {Q : ℝ → (Nat → ℝ) → Gas} {dQ dF : ℝ → Fin 3 → (Nat → ℝ) → Gas} {p : Int} {ws ps : List Nat} {flip : Int → Prop}
    {q q0 r0 q1 q1' r1 q2 q2' r2 q' : Cell → ℝ} (ht : 0 ≤ t) (hA : 0 ≤ A) (h3 : g.rng.dims.length ≤ 3)
    (hw : ∀ d < g.rng.dims.length, 0 < g.dxAt d) (hn : ∀ d < g.rng.dims.length, 2 ≤ hi g.rng.dims d - lo g.rng.dims d) (hc : ∀ d < g.rng.dims.length, d ∈ ws ∨ d ∈ ps)
    (hg : 1 < gamma) (h0 : 0 < ρ0) (hp : 0 < p0) (hI : ∀ τ p, InRange gamma ρ0 p0 R (Q τ p))
    (hQ : ∀ τ, ∀ d : Fin 3, SmoothGas d K (Q τ) (dQ τ d)) (hF : ∀ τ, ∀ d : Fin 3, SmoothGas d K' (fun p => (Q τ p).flux gamma d) (dF τ d))
    (flat : ∀ τ p, ∀ d : Fin 3, g.rng.dims.length ≤ d → ∀ j < 5, (dF τ d p).comps.getD j 0 = 0)
    (euler : Evolves 5 A (fun τ p j => (Q τ p).comps.getD j 0) (fun τ p j => -((dF τ 0 p).comps.getD j 0 + (dF τ 1 p).comps.getD j 0 + (dF τ 2 p).comps.getD j 0)))
    (bounds : ∀ τ, Meets g ws flip ps 5 (fun p j => (Q τ p).comps.getD j 0))
    (S0 : SoloStage g.rng.dims p 5 ws flip ps (GasRate g.rng.dims p g.dxAt gamma) t 0 q0 q q0 r0 q1) (S1 : SoloStage g.rng.dims p 5 ws flip ps (GasRate g.rng.dims p g.dxAt gamma) t 1 q0 q1 q1' r1 q2)
    (S2 : SoloStage g.rng.dims p 5 ws flip ps (GasRate g.rng.dims p g.dxAt gamma) t 2 q0 q2 q2' r2 q')
    (z0 : ∀ x, InBox (g.rng.dims ++ [(0, p)]) x → NoZero g.rng.dims.length 5 (fun x j => q0 (x ++ [(j : Int)])) x)
    (z1 : ∀ x, InBox (g.rng.dims ++ [(0, p)]) x → NoZero g.rng.dims.length 5 (fun x j => q1' (x ++ [(j : Int)])) x)
    (z2 : ∀ x, InBox (g.rng.dims ++ [(0, p)]) x → NoZero g.rng.dims.length 5 (fun x j => q2' (x ++ [(j : Int)])) x)
    (fine : ∀ d < g.rng.dims.length, Fine gamma ρ0 p0 R (K * g.dxAt d ^ 2 + 3 * δmax + 2 / 10 ^ 12))
    (short : (1 + t * (6 * (fluxLip gamma ρ0 R + 2 * speedMax gamma ρ0 R) * invWidths g g.rng.dims.length)) *
      (t * gasTruncation g g.rng.dims.length (fluxLip gamma ρ0 R + 2 * speedMax gamma ρ0 R) K K' 0 + A * t ^ 2) ≤ δmax)
    (exact : OnMesh g p 5 (fun p j => (Q τ p).comps.getD j 0) 0 q) :
    OnMesh g p 5 (fun p j => (Q (τ + t) p).comps.getD j 0)
      (2 * (1 + t * (6 * (fluxLip gamma ρ0 R + 2 * speedMax gamma ρ0 R) * invWidths g g.rng.dims.length)) ^ 2 *
        (t * gasTruncation g g.rng.dims.length (fluxLip gamma ρ0 R + 2 * speedMax gamma ρ0 R) K K' 0 + A * t ^ 2)) q' := by
  have hK := smooth_nonneg (hQ 0 0 0 (by omega))
  have hK' := smooth_nonneg (hF 0 0 0 (by omega))
  have R0 : 0 < R := by have := (hI 0 fun _ => 0).low; have := (hI 0 fun _ => 0).high; linarith
  have g1 : 0 < gamma - 1 := by linarith
  have L0 : 0 ≤ fluxLip gamma ρ0 R + 2 * speedMax gamma ρ0 R := by
    have : 0 ≤ velMax ρ0 R := by unfold velMax; positivity
    have : 0 ≤ velLip ρ0 R := by unfold velLip; positivity
    have : 0 ≤ presMax gamma ρ0 R := by unfold presMax; positivity
    have : 0 ≤ presLip gamma ρ0 R := by unfold presLip; positivity
    unfold fluxLip speedMax
    positivity
  have i0 : 0 ≤ invWidths g g.rng.dims.length := list_sum_nonneg fun d hd => by have := hw d (List.mem_range.1 hd); positivity
  have T0 : 0 ≤ gasTruncation g g.rng.dims.length (fluxLip gamma ρ0 R + 2 * speedMax gamma ρ0 R) K K' 0 := list_sum_nonneg fun d hd => by have := hw d (List.mem_range.1 hd); positivity
  refine step_near (δmax := δmax) ht (by positivity) T0 hA hn hc bounds euler S0 S1 S2 z0 z1 z2 ?_ short exact
  intro τ δ u r x hδ hδ' hR hx hu hz j hj
  have key := C119_gas hR hx h3 hw hg h0 hp (hI τ) (hQ τ) (hF τ) (fun d hd => flat τ _ d hd) hu hz
    (fun d hd => (fine d hd).mono hg h0 R0 (by have := hw d hd; positivity) (by linarith)) j hj
  rw [gasTruncation_split, ← sub_neg_eq_add] at key
  exact key

/-! ### The order is not higher -/

private theorem ey_flux (c : ℝ) (v : Cell → Nat → ℝ) (z : Cell) (hE : ∀ s : Int, -2 ≤ s → s ≤ 1 → v (moveBy z 0 s) 1 = 0) :
    (faceFlux (fluxOf (Maxwell.rusanov c 0)) 6 v 0 z).getD 1 0 =
      c ^ 2 / 2 * ((FV.recon (v (moveBy z 0 (-2)) 5) (v (moveBy z 0 (-1)) 5) (v z 5) (v (moveBy z 0 1) 5)).1 +
        (FV.recon (v (moveBy z 0 (-2)) 5) (v (moveBy z 0 (-1)) 5) (v z 5) (v (moveBy z 0 1) 5)).2) := by
  have h0 : FV.recon (v (moveBy z 0 (-2)) 1) (v (moveBy z 0 (-1)) 1) (v z 1) (v (moveBy z 0 1) 1) = ((0 : ℝ), (0 : ℝ)) := by
    have := hE 0 (by omega) (by omega)
    rw [moveBy_zero] at this
    rw [hE _ (by omega) (by omega), hE _ (by omega) (by omega), hE _ (by omega) (by omega), this]
    simp [FV.recon]
  unfold faceFlux
  have h : ∀ f : Nat → ℝ, (List.range 6).map f = [f 0, f 1, f 2, f 3, f 4, f 5] := fun _ => rfl
  dsimp only
  rw [h, h, h0]
  unfold fluxOf Maxwell.rusanov
  simp only [List.getD_cons_succ, List.getD_cons_zero, real_lit, real_fabs]
  push_cast
  ring

/-- The values at the walls of the two cells above the minimum of a parabola. -/
private theorem recon_parabola {h : ℝ} (hh : 1 / 10 ^ 6 ≤ h) :
    (FV.recon (9 / 4 * h ^ 2) (1 / 4 * h ^ 2) (1 / 4 * h ^ 2) (9 / 4 * h ^ 2)).1 + (FV.recon (9 / 4 * h ^ 2) (1 / 4 * h ^ 2) (1 / 4 * h ^ 2) (9 / 4 * h ^ 2)).2 = 1 / 2 * h ^ 2 ∧
    (FV.recon (1 / 4 * h ^ 2) (1 / 4 * h ^ 2) (9 / 4 * h ^ 2) (25 / 4 * h ^ 2)).1 + (FV.recon (1 / 4 * h ^ 2) (1 / 4 * h ^ 2) (9 / 4 * h ^ 2) (25 / 4 * h ^ 2)).2 ≤ 5 / 2 * h ^ 2 - 4 / 5 * h ^ 2 := by
  have h0 : 0 < h := lt_of_lt_of_le (by norm_num) hh
  have he : (1 : ℝ) / 10 ^ 12 ≤ h ^ 2 := by
    have := pow_le_pow_left₀ (by norm_num) hh 2
    linarith [show ((1 : ℝ) / 10 ^ 6) ^ 2 = 1 / 10 ^ 12 by norm_num]
  have h2 : 0 < h ^ 2 := by positivity
  have e0 : (0 : ℝ) < 1 / 10 ^ 12 := by norm_num
  simp only [FV.recon, real_lit]
  push_cast
  generalize (1 : ℝ) / 10 ^ 12 = e at *
  generalize h ^ 2 = k at *
  constructor
  · simp; ring
  · simp only [sub_self, mul_zero, add_zero]
    have q : 25 / 4 * k - 9 / 4 * k + e = 4 * k + e := by ring
    have q' : 9 / 4 * k - 1 / 4 * k = 2 * k := by ring
    rw [q, q']
    have p : 0 < 4 * k + e := by linarith
    have : 2 * k / (4 * k + e) * (2 * k / (4 * k + e)) + 1 = (4 * k ^ 2 + (4 * k + e) ^ 2) / (4 * k + e) ^ 2 := by field_simp; ring
    have h4 : 2 * k / (4 * k + e) * (2 * k / (4 * k + e)) + 2 * k / (4 * k + e) = (2 * k * (6 * k + e)) / (4 * k + e) ^ 2 := by field_simp; ring
    rw [this, h4, div_div_div_cancel_right₀ (by positivity)]
    have h5 : 4 / 5 / 2 ≤ 2 * k * (6 * k + e) / (4 * k ^ 2 + (4 * k + e) ^ 2) := by
      rw [le_div_iff₀ (by positivity)]; nlinarith
    nlinarith

/-- **C119** The order is not two: for the magnetic field `B_z = x²` and no electric field, the rate of change of `E_y` in the cell next to the minimum is off by at least `2/5 c² h`, for all cell
widths `h` of at least `1e-6`, although the values in the cells are exact. -/
theorem C119_order {g : Rectilinear ℝ} {n : Int} (hd : g.rng.dims = [(0, n)]) {c : ℝ} {u r : Cell → ℝ} {p : Int} {x : Cell}
    (hR : LightRate g.rng.dims p g.dxAt c u r) (hx : InBox (g.rng.dims ++ [(0, p)]) x) (hw : 1 / 10 ^ 6 ≤ g.dxAt 0) (h0 : centre g x 0 = g.dxAt 0 / 2)
    (hu : Samples g 1 6 (fun p => emState 0 ![0, 0, p 0 ^ 2]) 0 (fun x j => u (x ++ [(j : Int)])) x) :
    c ^ 2 * curl (fun d => if d = 0 then ![0, 0, 2 * centre g x 0] else 0) 1 = -c ^ 2 * g.dxAt 0 ∧
    2 / 5 * c ^ 2 * g.dxAt 0 ≤ |r (x ++ [1]) - -c ^ 2 * g.dxAt 0| := by
  have hl : x.length = 2 := by have := hx.length_eq; rw [hd] at this; simpa using this
  have hp : 0 < g.dxAt 0 := lt_of_lt_of_le (by norm_num) hw
  have hh : g.dxs.getD 0 0 = g.dxAt 0 := by unfold Rectilinear.dxAt; rw [real_lit]; norm_num
  have z0 : (Arith.lit 0 : ℝ) = 0 := by simp [real_lit]
  have val : ∀ s : Int, -2 ≤ s → s ≤ 2 → u (moveBy x 0 s ++ [5]) = (s + 1 / 2) ^ 2 * g.dxAt 0 ^ 2 ∧ u (moveBy x 0 s ++ [1]) = 0 := by
    intro s s1 s2
    have a := hu 0 (by omega) s s1 s2 5 (by omega)
    have b := hu 0 (by omega) s s1 s2 1 (by omega)
    rw [centre_moveBy (by omega)] at a b
    have a' := abs_eq_zero.1 (le_antisymm a (abs_nonneg _))
    have b' := abs_eq_zero.1 (le_antisymm b (abs_nonneg _))
    simp only [emState, along, if_true, h0, hh] at a' b'
    constructor
    · have : u (moveBy x 0 s ++ [5]) = (g.dxAt 0 / 2 + s * g.dxAt 0) ^ 2 := sub_eq_zero.1 a'
      rw [this]; ring
    · exact sub_eq_zero.1 b'
  have cu : curl (fun d => if d = 0 then ![0, 0, 2 * centre g x 0] else 0) 1 = -g.dxAt 0 := by simp [curl, h0]; ring
  refine ⟨by rw [cu]; ring, ?_⟩
  have one : List.range (min g.rng.dims.length 3) = [0] := by rw [hd]; rfl
  have rate := hR x hx 1 (by omega)
  rw [z0, fvUpdate_add, one] at rate
  simp only [List.map_cons, List.map_nil, List.sum_cons, List.sum_nil, add_zero, zero_add] at rate
  rw [ey_flux c _ x (fun s s1 s2 => (val s s1 (by omega)).2), ey_flux c _ (moveBy x 0 1) (fun s s1 s2 => by rw [moveBy_moveBy]; exact (val _ (by omega) (by omega)).2)] at rate
  simp only [moveBy_moveBy] at rate
  have v := fun s s1 s2 => (val s s1 s2).1
  have vx := v 0 (by omega) (by omega)
  rw [moveBy_zero] at vx
  obtain ⟨P1, P2⟩ := recon_parabola hw
  have w1 := v (-2) (by omega) (by omega)
  have w2 := v (-1) (by omega) (by omega)
  have w3 := v 1 (by omega) (by omega)
  have w4 := v 2 (by omega) (by omega)
  have w5 := v 0 (by omega) (by omega)
  push_cast at rate w1 w2 w3 w4 w5 vx
  norm_num at rate w1 w2 w3 w4 w5 vx
  rw [w1, w2, w3, w4, w5, vx, P1] at rate
  rw [rate]
  generalize (FV.recon (1 / 4 * g.dxAt 0 ^ 2) (1 / 4 * g.dxAt 0 ^ 2) (9 / 4 * g.dxAt 0 ^ 2) (25 / 4 * g.dxAt 0 ^ 2)).1 +
      (FV.recon (1 / 4 * g.dxAt 0 ^ 2) (1 / 4 * g.dxAt 0 ^ 2) (9 / 4 * g.dxAt 0 ^ 2) (25 / 4 * g.dxAt 0 ^ 2)).2 = S at *
  refine le_trans ?_ (le_abs_self _)
  rw [show c ^ 2 / 2 * (1 / 2 * g.dxAt 0 ^ 2) / g.dxAt 0 - c ^ 2 / 2 * S / g.dxAt 0 - -c ^ 2 * g.dxAt 0 = c ^ 2 / 2 * (5 / 2 * g.dxAt 0 ^ 2 - S) / g.dxAt 0 by field_simp; ring, le_div_iff₀ hp]
  nlinarith [mul_le_mul_of_nonneg_left P2 (sq_nonneg c)]

/-! ### Examples -/

/-- Two cells of width 1. -/
noncomputable def exTwo : Rectilinear ℝ := ⟨Range.setup [(0, 2)], [0], [2], [1]⟩

theorem exTwo_dims : exTwo.rng.dims = [(0, 2)] := rfl
theorem exTwo_dx : exTwo.dxAt 0 = 1 := rfl

theorem exTwo_centre (x : Cell) : centre exTwo x 0 = (x.getD 0 0 : ℝ) + 1 / 2 := by
  have : ∀ z : Int, (Arith.ofInt z : ℝ) = (z : ℝ) := fun z => rfl
  simp [centre, exTwo, real_lit, this]

theorem exTwo_cell {p : Int} {x : Cell} (hx : InBox (exTwo.rng.dims ++ [(0, p)]) x) : ∃ a b : Int, x = [a, b] ∧ 0 ≤ a ∧ a < 2 := by
  rw [exTwo_dims] at hx
  match x, hx with
  | [a, b], h => exact ⟨a, b, rfl, by simp [InBox] at h; omega, by simp [InBox] at h; omega⟩

private theorem lip_of_deriv {f f' : ℝ → ℝ} {K : ℝ} (hf : ∀ s, HasDerivAt f (f' s) s) (h : ∀ s, |f' s| ≤ K) (a b : ℝ) : |f a - f b| ≤ K * |a - b| := by
  have := Convex.norm_image_sub_le_of_norm_hasDerivWithin_le (f := f) (f' := f') (s := Set.univ) (C := K) (fun x _ => (hf x).hasDerivWithinAt) (fun x _ => h x) convex_univ (Set.mem_univ b) (Set.mem_univ a)
  exact this

/-- `a + b sin (π p₀)`. -/
private theorem smooth_sin (a b : ℝ) : SmoothIn 0 (|b| * Real.pi ^ 2) (fun p => a + b * Real.sin (Real.pi * p 0)) (fun p => b * (Real.cos (Real.pi * p 0) * Real.pi)) where
  deriv p := by
    have h : HasDerivAt (fun s : ℝ => Real.pi * (p 0 + s)) Real.pi 0 := by
      have := (((hasDerivAt_id (0 : ℝ)).const_add (p 0)).const_mul Real.pi)
      rw [mul_one] at this; exact this
    have := ((h.sin).const_mul b).const_add a
    simpa [along] using this
  lip p s := by
    have d : ∀ y : ℝ, HasDerivAt (fun y => Real.cos (Real.pi * y)) (-Real.sin (Real.pi * y) * Real.pi) y := fun y => by
      have h : HasDerivAt (fun s : ℝ => Real.pi * s) Real.pi y := by
        have := (hasDerivAt_id y).const_mul Real.pi
        rw [mul_one] at this; exact this
      exact h.cos
    have l := lip_of_deriv d (K := Real.pi) (fun y => by
      rw [abs_mul, abs_neg, abs_of_pos Real.pi_pos]; exact mul_le_of_le_one_left Real.pi_pos.le (Real.abs_sin_le_one _)) (p 0 + s) (p 0)
    rw [add_sub_cancel_left] at l
    show |b * (Real.cos (Real.pi * along p 0 s 0) * Real.pi) - b * (Real.cos (Real.pi * p 0) * Real.pi)| ≤ _
    rw [show along p 0 s 0 = p 0 + s by simp [along], show b * (Real.cos (Real.pi * (p 0 + s)) * Real.pi) - b * (Real.cos (Real.pi * p 0) * Real.pi) =
      b * Real.pi * (Real.cos (Real.pi * (p 0 + s)) - Real.cos (Real.pi * p 0)) by ring, abs_mul, abs_mul, abs_of_pos Real.pi_pos]
    have := mul_le_mul_of_nonneg_left l (show 0 ≤ |b| * Real.pi by positivity)
    linarith

theorem smooth_const (d : Nat) {K : ℝ} (hK : 0 ≤ K) (a : ℝ) : SmoothIn d K (fun _ => a) (fun _ => 0) where
  deriv _ := hasDerivAt_const _ _
  lip p s := by simp; positivity

theorem smooth_other {d : Nat} (hd : d ≠ 0) {K : ℝ} (hK : 0 ≤ K) (f : ℝ → ℝ) : SmoothIn d K (fun p => f (p 0)) (fun _ => 0) where
  deriv p := by
    have : ∀ s, along p d s 0 = p 0 := fun s => by simp [along, Ne.symm hd]
    simp only [this]
    exact hasDerivAt_const _ _
  lip p s := by simp; positivity

/-- At the centres of the cells the sine is one or minus one. -/
private theorem sin_centre (k : Int) : Real.sin (Real.pi * ((k : ℝ) + 1 / 2)) = Real.cos (Real.pi * k) ∧ Real.cos (Real.pi * k) ^ 2 = 1 ∧ Real.cos (Real.pi * ((k + 1 : Int) : ℝ)) = -Real.cos (Real.pi * k) := by
  have s0 : Real.sin (Real.pi * k) = 0 := by rw [mul_comm]; exact Real.sin_int_mul_pi k
  refine ⟨?_, ?_, ?_⟩
  · rw [show Real.pi * ((k : ℝ) + 1 / 2) = Real.pi * k + Real.pi / 2 by ring, Real.sin_add_pi_div_two]
  · have := Real.sin_sq_add_cos_sq (Real.pi * k); rw [s0] at this; linarith
  · push_cast; rw [mul_add, mul_one, Real.cos_add_pi]

/-- The electric field `E_x = sin (π x)`, which does not change with time, in the cells. -/
noncomputable def exStatic : Cell → ℝ := fun y => if y.getD 2 0 = 0 then Real.cos (Real.pi * (y.getD 0 0 : Int)) else 0

-- the hypotheses of the theorem on time steps hold for it, on two cells, for all step sizes and speeds of light
example (c t τ : ℝ) (ht : 0 ≤ t) : OnMesh exTwo 1 6 (fun p => emState ![Real.sin (Real.pi * p 0), 0, 0] 0)
    (2 * (1 + t * ((1 + |c| + c ^ 2) * (6 * invWidths exTwo 1))) ^ 2 * (t * ((1 + |c| + c ^ 2) * truncation exTwo 1 (Real.pi ^ 2) 0) + 0 * t ^ 2)) exStatic := by
  have val : ∀ a b j : Int, exStatic [a, b, j] = if j = 0 then Real.cos (Real.pi * a) else 0 := fun a b j => rfl
  have per : ∀ (x : Cell) (m : Int), exStatic (moveBy x 0 (m * 2)) = exStatic x := by
    intro x m
    match x with
    | [] => rfl
    | a :: l =>
      show (if l.getD 1 0 = 0 then Real.cos (Real.pi * ((a + m * 2 : Int) : ℝ)) else 0) = if l.getD 1 0 = 0 then Real.cos (Real.pi * ((a : Int) : ℝ)) else 0
      rw [show Real.pi * ((a + m * 2 : Int) : ℝ) = Real.pi * a + m * (2 * Real.pi) by push_cast; ring, Real.cos_add_int_mul_two_pi]
  have zero : ∀ (v : Cell → ℝ) (z : Cell), (∀ s : Int, ∀ j : Nat, 0 < j → v (moveBy z 0 s ++ [(j : Int)]) = 0) → ∀ j < 6, (faceFlux (fluxOf (Maxwell.rusanov c 0)) 6 (fun x j => v (x ++ [(j : Int)])) 0 z).getD j 0 = 0 := by
    intro v z hv j hj
    have h0 : ∀ j : Nat, 0 < j → FV.recon (v (moveBy z 0 (-2) ++ [(j : Int)])) (v (moveBy z 0 (-1) ++ [(j : Int)])) (v (z ++ [(j : Int)])) (v (moveBy z 0 1 ++ [(j : Int)])) = ((0 : ℝ), (0 : ℝ)) := by
      intro j hj
      have := hv 0 j hj
      rw [moveBy_zero] at this
      rw [hv _ j hj, hv _ j hj, hv _ j hj, this]
      simp [FV.recon]
    unfold faceFlux
    have h : ∀ f : Nat → ℝ, (List.range 6).map f = [f 0, f 1, f 2, f 3, f 4, f 5] := fun _ => rfl
    dsimp only
    rw [h, h, h0 1 (by omega), h0 2 (by omega), h0 3 (by omega), h0 4 (by omega), h0 5 (by omega)]
    unfold fluxOf Maxwell.rusanov
    interval_cases j <;> simp [real_lit]
  have only : ∀ (x : Cell), x.length = 2 → ∀ s : Int, ∀ j : Nat, 0 < j → exStatic (moveBy x 0 s ++ [(j : Int)]) = 0 := by
    intro x hx s j hj
    match x, hx with
    | [a, b], _ =>
      show (if ((j : Nat) : Int) = 0 then Real.cos (Real.pi * ((a + s : Int) : ℝ)) else 0) = 0
      rw [if_neg (by omega)]
  have st : ∀ k : Nat, SoloStage exTwo.rng.dims 1 6 [] isWallField [0] (LightRate exTwo.rng.dims 1 exTwo.dxAt c) t k exStatic exStatic exStatic (fun _ => 0) exStatic := by
    intro k
    refine ⟨⟨fun _ _ => rfl, fun i hi => by simp at hi, fun i hi => by simp at hi, ?_⟩, ?_, ?_⟩
    · intro i hi x hx
      rw [List.mem_singleton] at hi
      subst hi
      unfold periodicImage
      split
      · exact (per x (1 : Int)).symm
      · exact (per x (-1 : Int)).symm
    · intro x hx j hj
      rw [fvUpdate_add, show List.range (min exTwo.rng.dims.length 3) = [0] from rfl]
      simp only [List.map_cons, List.map_nil, List.sum_cons, List.sum_nil]
      obtain ⟨a, b, rfl, -⟩ := exTwo_cell hx
      rw [zero exStatic _ (only _ rfl) j hj, zero exStatic _ (only _ rfl) j hj, real_lit]
      simp
    · intro x
      unfold rkStage
      split <;> simp [real_lit] <;> ring
  have nz : ∀ x, InBox (exTwo.rng.dims ++ [(0, 1)]) x → NoZero exTwo.rng.dims.length 6 (fun x j => exStatic (x ++ [(j : Int)])) x := by
    intro x hx d hd s _ _ j hj
    obtain ⟨a, b, rfl, -⟩ := exTwo_cell hx
    rw [exTwo_dims] at hd
    have hd0 : d = 0 := by simp at hd; exact hd
    subst hd0
    by_cases h : j = 0
    · subst h
      show Real.cos (Real.pi * ((a + (s + 1) : Int) : ℝ)) - Real.cos (Real.pi * ((a + s : Int) : ℝ)) + 1 / 10 ^ 12 ≠ 0
      obtain ⟨-, e1, e2⟩ := sin_centre (a + s)
      rw [show a + (s + 1) = a + s + 1 by ring, e2]
      intro e
      have : Real.cos (Real.pi * ((a + s : Int) : ℝ)) = 1 / 2 / 10 ^ 12 := by linarith
      rw [this] at e1
      norm_num at e1
    · dsimp only
      rw [only _ rfl _ j (by omega), only _ rfl _ j (by omega)]
      norm_num
  exact C119_light_step (E := fun _ p => ![Real.sin (Real.pi * p 0), 0, 0]) (B := fun _ _ => 0) (dE := fun _ d p => if d = 0 then ![Real.cos (Real.pi * p 0) * Real.pi, 0, 0] else 0) (dB := fun _ _ _ => 0)
    (K := Real.pi ^ 2) (A := 0) (τ := τ) ht le_rfl
    (fun d hd => by rw [exTwo_dims] at hd; simp at hd; rw [hd, exTwo_dx]; norm_num) (fun d hd => by rw [exTwo_dims] at hd; simp at hd; rw [hd]; decide)
    (fun d hd => by rw [exTwo_dims] at hd; simp at hd; simp [hd])
    (fun τ d i => by
      fin_cases d
      · fin_cases i
        · have := smooth_sin 0 1
          simpa using this
        · exact smooth_const _ (by positivity) _
        · exact smooth_const _ (by positivity) _
      · fin_cases i
        · exact smooth_other (by simp) (by positivity) (fun y => Real.sin (Real.pi * y))
        · exact smooth_const _ (by positivity) _
        · exact smooth_const _ (by positivity) _
      · fin_cases i
        · exact smooth_other (by simp) (by positivity) (fun y => Real.sin (Real.pi * y))
        · exact smooth_const _ (by positivity) _
        · exact smooth_const _ (by positivity) _) (fun τ d i => smooth_const _ (by positivity) _)
    (fun τ p d hd => ⟨by rw [exTwo_dims] at hd; rw [if_neg (by rintro rfl; simp at hd)], rfl⟩)
    ⟨fun τ p j hj => by
      have z : (fun i => c ^ 2 * curl (fun _ : Fin 3 => (0 : Vec)) i) = 0 := by funext i; fin_cases i <;> simp [curl]
      have z' : (fun i => -curl (fun d : Fin 3 => if d = 0 then ![Real.cos (Real.pi * p 0) * Real.pi, 0, 0] else (0 : Vec)) i) = 0 := by funext i; fin_cases i <;> simp [curl]
      rw [z, z']
      have : emState 0 0 j = 0 := by interval_cases j <;> rfl
      rw [this]
      exact hasDerivAt_const _ _, fun τ s p j hj => by simp⟩
    (fun τ => ⟨fun d hd pt j hj => by
      have hd0 : d = 0 := List.mem_singleton.1 hd
      subst hd0
      rw [exTwo_dx, show along pt 0 (((hi exTwo.rng.dims 0 - lo exTwo.rng.dims 0 : Int) : ℝ) * 1) 0 = pt 0 + 2 by simp [along, exTwo_dims, hi, lo],
        show Real.pi * (pt 0 + 2) = Real.pi * pt 0 + 2 * Real.pi by ring, Real.sin_add_two_pi], fun d hd => by simp at hd, fun d hd => by simp at hd⟩) (st 0) (st 1) (st 2) nz nz nz (fun x hx j hj => by
      obtain ⟨a, b, rfl, -⟩ := exTwo_cell hx
      dsimp only
      rw [exTwo_centre]
      show |exStatic [a, b, (j : Int)] - emState ![Real.sin (Real.pi * ((a : ℝ) + 1 / 2)), 0, 0] 0 j| ≤ 0
      rw [(sin_centre a).1, val]
      interval_cases j <;> simp [emState])

-- the hypotheses of the theorem on the order hold for a field on two cells
example (c : ℝ) : ∃ u r : Cell → ℝ, LightRate exTwo.rng.dims 1 exTwo.dxAt c u r ∧ InBox (exTwo.rng.dims ++ [(0, 1)]) [0, 0] ∧ 1 / 10 ^ 6 ≤ exTwo.dxAt 0 ∧ centre exTwo [0, 0] 0 = exTwo.dxAt 0 / 2 ∧
    Samples exTwo 1 6 (fun p => emState 0 ![0, 0, p 0 ^ 2]) 0 (fun x j => u (x ++ [(j : Int)])) [0, 0] ∧ 2 / 5 * c ^ 2 ≤ |r [0, 0, 1] + c ^ 2| := by
  have last : ∀ (x : Cell) (j : Nat), (x ++ [(j : Int)]).dropLast = x ∧ ((x ++ [(j : Int)]).getLastD 0).toNat = j := fun x j => ⟨by simp, by simp⟩
  obtain ⟨u, hu⟩ : ∃ u : Cell → ℝ, ∀ a b j : Int, u [a, b, j] = if j = 5 then ((a : ℝ) + 1 / 2) ^ 2 else 0 :=
    ⟨fun y => if y.getD 2 0 = 5 then ((y.getD 0 0 : Int) + 1 / 2 : ℝ) ^ 2 else 0, fun a b j => rfl⟩
  have hR : LightRate exTwo.rng.dims 1 exTwo.dxAt c u (fun y => fvUpdate (fun dim => fluxOf (Maxwell.rusanov c dim)) 6 (fun x j => u (x ++ [(j : Int)])) exTwo.dxAt
      (List.range (min exTwo.rng.dims.length 3)) y.dropLast (y.getLastD 0).toNat (Arith.lit 0)) := by
    intro x hx j hj
    dsimp only
    rw [(last x j).1, (last x j).2]
  have hx : InBox (exTwo.rng.dims ++ [(0, 1)]) [0, 0] := by rw [exTwo_dims]; simp [InBox]
  have hc : centre exTwo [0, 0] 0 = exTwo.dxAt 0 / 2 := by rw [exTwo_centre, exTwo_dx]; norm_num
  have hs : Samples exTwo 1 6 (fun p => emState 0 ![0, 0, p 0 ^ 2]) 0 (fun x j => u (x ++ [(j : Int)])) [0, 0] := by
    intro d hd s s1 s2 j hj
    have hd0 : d = 0 := by omega
    subst hd0
    dsimp only
    rw [exTwo_centre]
    show |u [0 + s, 0, (j : Int)] - emState 0 ![0, 0, (((0 + s : Int) : ℝ) + 1 / 2) ^ 2] j| ≤ 0
    rw [hu]
    interval_cases j <;> simp [emState]
  refine ⟨u, _, hR, hx, by rw [exTwo_dx]; norm_num, hc, hs, ?_⟩
  have := (C119_order (n := 2) exTwo_dims hR hx (by rw [exTwo_dx]; norm_num) hc hs).2
  rw [exTwo_dx] at this
  simpa using this

/-- A gas at rest with pressure 1 and a density that varies. -/
noncomputable def exRest (p : Nat → ℝ) : Gas := ⟨2 + 1 / 2000 * Real.sin (Real.pi * p 0), 0, 1⟩

-- the hypotheses of the theorem on the gas hold for it, on two cells
example : ∃ u r : Cell → ℝ, GasRate exTwo.rng.dims 1 exTwo.dxAt 2 u r ∧ ∀ j < 5, |r ([0, 0] ++ [((j : Nat) : Int)])| ≤ gasTruncation exTwo exTwo.rng.dims.length (fluxLip 2 1 3 + 2 * speedMax 2 1 3) (1 / 2000 * Real.pi ^ 2) 0 0 := by
  have last : ∀ (x : Cell) (j : Nat), (x ++ [(j : Int)]).dropLast = x ∧ ((x ++ [(j : Int)]).getLastD 0).toNat = j := fun x j => ⟨by simp, by simp⟩
  obtain ⟨u, hu⟩ : ∃ u : Cell → ℝ, ∀ a b j : Int, u [a, b, j] = if j = 0 then 2 + 1 / 2000 * Real.cos (Real.pi * a) else if j = 4 then 1 else 0 :=
    ⟨fun y => if y.getD 2 0 = 0 then 2 + 1 / 2000 * Real.cos (Real.pi * (y.getD 0 0 : Int)) else if y.getD 2 0 = 4 then 1 else 0, fun a b j => rfl⟩
  have hR : GasRate exTwo.rng.dims 1 exTwo.dxAt 2 u (fun y => fvUpdate (fun dim => fluxOf (Euler.hll 2 dim)) 5 (fun x j => u (x ++ [(j : Int)])) exTwo.dxAt
      (List.range exTwo.rng.dims.length) y.dropLast (y.getLastD 0).toNat (Arith.lit 0)) := by
    intro x hx j hj
    dsimp only
    rw [(last x j).1, (last x j).2]
  have hx : InBox (exTwo.rng.dims ++ [(0, 1)]) [0, 0] := by rw [exTwo_dims]; simp [InBox]
  refine ⟨u, _, hR, fun j hj => ?_⟩
  have one : ∀ {d : Nat}, d < exTwo.rng.dims.length → d = 0 := fun {d} hd => by rw [exTwo_dims] at hd; simp at hd; exact hd
  have pi10 : Real.pi ^ 2 ≤ 10 := by nlinarith [Real.pi_gt_three, Real.pi_lt_d2]
  have pres : ∀ p, (exRest p).pressure 2 = 1 := fun p => by simp [exRest, Gas.pressure, vdot]; norm_num
  have hF : ∀ (p : Nat → ℝ) (d : Fin 3) (j : Nat), ((exRest p).flux 2 d).comps.getD j 0 = ((exRest fun _ => 0).flux 2 d).comps.getD j 0 := by
    intro p d j
    unfold Gas.flux
    rw [pres, pres]
    simp [exRest, Gas.vel, Gas.comps]
  have key := C119_gas (ρ0 := 1) (p0 := 1) (R := 3) (K := 1 / 2000 * Real.pi ^ 2) (K' := 0) (δ := 0) (Q := exRest) (dQ := fun d p => if d = 0 then ⟨1 / 2000 * (Real.cos (Real.pi * p 0) * Real.pi), 0, 0⟩ else ⟨0, 0, 0⟩)
    (dF := fun _ _ => ⟨0, 0, 0⟩) hR hx (by rw [exTwo_dims]; simp) (fun d hd => by rw [one hd, exTwo_dx]; norm_num) (by norm_num) (by norm_num) (by norm_num)
    (fun p => ?_) (fun d j hj => ?_) (fun d j hj => ?_) (fun d hd j hj => ?_) ?_ ?_ (fun d hd => ?_) j hj
  · have z : (⟨0, 0, 0⟩ : Gas).comps.getD j 0 = 0 := by unfold Gas.comps; interval_cases j <;> rfl
    rw [z] at key
    simpa using key
  · have := Real.abs_sin_le_one (Real.pi * p 0)
    have := abs_le.1 this
    exact ⟨by simp only [exRest]; linarith, by simp only [exRest]; linarith, fun i => by simp [exRest], by simp [exRest], by rw [pres]⟩
  · have pos : (0 : ℝ) ≤ 1 / 2000 * Real.pi ^ 2 := by positivity
    by_cases h : d = 0
    · subst h
      simp only [if_true, exRest, Gas.comps]
      interval_cases j
      · have := smooth_sin 2 (1 / 2000)
        rw [abs_of_pos (by norm_num : (0 : ℝ) < 1 / 2000)] at this
        exact this
      all_goals exact smooth_const _ pos _
    · simp only [if_neg h, exRest, Gas.comps]
      have h' : (d : Nat) ≠ 0 := fun e => h (Fin.ext e)
      interval_cases j
      · exact smooth_other h' pos (fun y => 2 + 1 / 2000 * Real.sin (Real.pi * y))
      all_goals exact smooth_const _ pos _
  · have z : (⟨0, 0, 0⟩ : Gas).comps.getD j 0 = 0 := by unfold Gas.comps; interval_cases j <;> rfl
    simp only [hF _ d j]
    rw [z]
    exact smooth_const _ le_rfl _
  · unfold Gas.comps; interval_cases j <;> rfl
  · intro d hd s s1 s2 j hj
    rw [one hd]
    dsimp only
    show |u [0 + s, 0, (j : Int)] - (exRest (centre exTwo [0 + s, 0])).comps.getD j 0| ≤ 0
    unfold exRest Gas.comps
    rw [exTwo_centre]
    show |u [0 + s, 0, (j : Int)] - [2 + 1 / 2000 * Real.sin (Real.pi * (((0 + s : Int) : ℝ) + 1 / 2)), 0, 0, 0, 1].getD j 0| ≤ 0
    rw [(sin_centre (0 + s)).1, hu]
    interval_cases j <;> simp
  · intro d hd s s1 s2 j hj
    rw [one hd]
    dsimp only
    show u [0 + (s + 1), 0, (j : Int)] - u [0 + s, 0, (j : Int)] + 1 / 10 ^ 12 ≠ 0
    rw [hu, hu]
    interval_cases j
    · obtain ⟨-, e1, e2⟩ := sin_centre (0 + s)
      rw [show (0 + (s + 1) : Int) = 0 + s + 1 by ring, e2]
      intro e
      simp only [Nat.cast_zero, if_true] at e
      have : Real.cos (Real.pi * ((0 + s : Int) : ℝ)) = 1000 / 10 ^ 12 := by linarith
      rw [this] at e1
      norm_num at e1
    all_goals norm_num
  · rw [one hd, exTwo_dx]
    refine ⟨?_, ?_, ?_⟩
    · norm_num; nlinarith
    · norm_num [presLip, velMax, velLip]; nlinarith
    · norm_num [velLip]
      have : 0 ≤ Real.pi ^ 2 := by positivity
      generalize Real.pi ^ 2 = y at *
      nlinarith

/-- A gas that moves with the same velocity everywhere. -/
noncomputable def exMoving : Gas := ⟨2, ![1, 0, 0], 2⟩

-- the hypotheses of the theorem on time steps hold for it, on two cells, for all steps up to 1
example (t τ : ℝ) (ht : 0 ≤ t) (ht1 : t ≤ 1) : OnMesh exTwo 1 5 (fun _ j => exMoving.comps.getD j 0)
    (2 * (1 + t * (6 * (fluxLip 2 1 3 + 2 * speedMax 2 1 3) * invWidths exTwo exTwo.rng.dims.length)) ^ 2 *
      (t * gasTruncation exTwo exTwo.rng.dims.length (fluxLip 2 1 3 + 2 * speedMax 2 1 3) 0 0 0 + 0 * t ^ 2)) (fun y => exMoving.comps.getD (y.getD 2 0).toNat 0) := by
  have one : ∀ {d : Nat}, d < exTwo.rng.dims.length → d = 0 := fun {d} hd => by rw [exTwo_dims] at hd; simp at hd; exact hd
  have zero : ∀ j < 5, (⟨0, 0, 0⟩ : Gas).comps.getD j 0 = 0 := fun j hj => by unfold Gas.comps; interval_cases j <;> rfl
  have per : ∀ (x : Cell) (m : Int), exMoving.comps.getD ((moveBy x 0 m).getD 2 0).toNat 0 = exMoving.comps.getD (x.getD 2 0).toNat 0 := by
    intro x m
    match x with
    | [] => rfl
    | a :: l => rfl
  have st : ∀ k : Nat, SoloStage exTwo.rng.dims 1 5 [] isMomentum [0] (GasRate exTwo.rng.dims 1 exTwo.dxAt 2) t k (fun y => exMoving.comps.getD (y.getD 2 0).toNat 0)
      (fun y => exMoving.comps.getD (y.getD 2 0).toNat 0) (fun y => exMoving.comps.getD (y.getD 2 0).toNat 0) (fun _ => 0) (fun y => exMoving.comps.getD (y.getD 2 0).toNat 0) := by
    intro k
    refine ⟨⟨fun _ _ => rfl, fun i hi => by simp at hi, fun i hi => by simp at hi, ?_⟩, ?_, ?_⟩
    · intro i hi x hx
      rw [List.mem_singleton] at hi
      subst hi
      unfold periodicImage
      split <;> exact (per x _).symm
    · intro x hx j hj
      rw [fvUpdate_add, show List.range exTwo.rng.dims.length = [0] from rfl]
      simp only [List.map_cons, List.map_nil, List.sum_cons, List.sum_nil]
      obtain ⟨a, b, rfl, -⟩ := exTwo_cell hx
      rw [faceFlux_const (w := fun j => exMoving.comps.getD j 0) _ _ (fun _ _ _ _ _ => rfl), faceFlux_const (w := fun j => exMoving.comps.getD j 0) _ _ (fun _ _ _ _ _ => rfl), real_lit]
      simp
    · intro x
      unfold rkStage
      split <;> simp [real_lit] <;> ring
  have nz : ∀ x, InBox (exTwo.rng.dims ++ [(0, 1)]) x → NoZero exTwo.rng.dims.length 5 (fun x j => (fun y : Cell => exMoving.comps.getD (y.getD 2 0).toNat 0) (x ++ [(j : Int)])) x := by
    intro x hx d hd s _ _ j hj
    obtain ⟨a, b, rfl, -⟩ := exTwo_cell hx
    rw [one hd]
    show exMoving.comps.getD j 0 - exMoving.comps.getD j 0 + 1 / 10 ^ 12 ≠ 0
    norm_num
  have pres : exMoving.pressure 2 = 7 / 4 := by simp [exMoving, Gas.pressure, vdot]; norm_num
  have L : fluxLip 2 1 3 + 2 * speedMax 2 1 3 = 2638 := by norm_num [fluxLip, speedMax, velMax, velLip, presMax, presLip]
  have T : gasTruncation exTwo exTwo.rng.dims.length 2638 0 0 0 = 10552 / 10 ^ 12 := by
    unfold gasTruncation
    rw [show List.range exTwo.rng.dims.length = [0] from rfl]
    simp only [List.map_cons, List.map_nil, List.sum_cons, List.sum_nil, exTwo_dx]
    norm_num
  have W : invWidths exTwo exTwo.rng.dims.length = 1 := by
    unfold invWidths
    rw [show List.range exTwo.rng.dims.length = [0] from rfl]
    simp [exTwo_dx]
  exact C119_gas_step (ρ0 := 1) (p0 := 1) (R := 3) (K := 0) (K' := 0) (A := 0) (δmax := 1 / 1000) (τ := τ) (ws := []) (ps := [0]) (Q := fun _ _ => exMoving) (dQ := fun _ _ _ => ⟨0, 0, 0⟩) (dF := fun _ _ _ => ⟨0, 0, 0⟩) ht le_rfl
    (by rw [exTwo_dims]; simp) (fun d hd => by rw [one hd, exTwo_dx]; norm_num) (fun d hd => by rw [one hd]; decide) (fun d hd => by rw [one hd]; simp)
    (by norm_num) (by norm_num) (by norm_num) (fun _ _ => ⟨by norm_num [exMoving], by norm_num [exMoving], fun i => by fin_cases i <;> norm_num [exMoving], by norm_num [exMoving], by rw [pres]; norm_num⟩)
    (fun _ d j hj => by dsimp only; rw [zero j hj]; exact smooth_const _ le_rfl _) (fun _ d j hj => by dsimp only; rw [zero j hj]; exact smooth_const _ le_rfl _)
    (fun _ _ d hd j hj => zero j hj) ⟨fun _ _ j hj => by rw [zero j hj]; simpa using hasDerivAt_const _ _, fun _ _ _ j hj => by simp⟩
    (fun _ => ⟨fun _ _ _ _ _ => rfl, fun d hd => by simp at hd, fun d hd => by simp at hd⟩) (st 0) (st 1) (st 2) nz nz nz
    (fun d hd => by rw [one hd, exTwo_dx]; exact ⟨by norm_num, by norm_num [presLip, velMax, velLip], by norm_num [velLip]⟩)
    (by rw [L, T, W]; nlinarith) (fun x hx j hj => by
      obtain ⟨a, b, rfl, -⟩ := exTwo_cell hx
      show |exMoving.comps.getD j 0 - exMoving.comps.getD j 0| ≤ 0
      simp)

end QK.Props
