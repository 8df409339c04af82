import Verif.Props.TruncationSecond
/- Property C119, continued: second order away from extrema for a gas. -/
namespace QK.Props
open QK Spec Truncation

/-! ### Second differences of the flux -/

/-- Bounds for a function of the state: for its size, for its change and for its second differences, relative to those of the state. -/
structure Size where
  M : ℝ
  l : ℝ
  k : ℝ

namespace Size
def add (a b : Size) : Size := ⟨a.M + b.M, a.l + b.l, a.k + b.k⟩
def mul (a b : Size) : Size := ⟨a.M * b.M, a.l * b.M + a.M * b.l, a.k * b.M + 2 * (a.l * b.l) + a.M * b.k⟩
def smul (c : ℝ) (a : Size) : Size := ⟨c * a.M, c * a.l, c * a.k⟩
end Size

/-- The function `f` on four states (corners of almost a parallelogram with sides `A` and `B`, `C` from closing) within the bounds `z`. -/
structure Bent (A B C : ℝ) (s : Bool → Bool → Gas) (z : Size) (f : Gas → ℝ) : Prop where
  l0 : 0 ≤ z.l
  k0 : 0 ≤ z.k
  size : ∀ i j, |f (s i j)| ≤ z.M
  first : ∀ j, |f (s true j) - f (s false j)| ≤ z.l * A
  second : ∀ i, |f (s i true) - f (s i false)| ≤ z.l * B
  both : |f (s true true) - f (s true false) - f (s false true) + f (s false false)| ≤ z.k * (A * B + C)

section bent
variable {A B C : ℝ} {s : Bool → Bool → Gas} {z w : Size} {f f' : Gas → ℝ}

theorem Bent.M0 (h : Bent A B C s z f) : 0 ≤ z.M := (abs_nonneg _).trans (h.size true true)

theorem Bent.add (h : Bent A B C s z f) (h' : Bent A B C s w f') : Bent A B C s (z.add w) (fun q => f q + f' q) where
  l0 := add_nonneg h.l0 h'.l0
  k0 := add_nonneg h.k0 h'.k0
  size i j := (abs_add_le _ _).trans (add_le_add (h.size i j) (h'.size i j))
  first j := by
    rw [add_sub_add_comm]; refine (abs_add_le _ _).trans ((add_le_add (h.first j) (h'.first j)).trans (le_of_eq ?_)); unfold Size.add; ring
  second i := by
    rw [add_sub_add_comm]; refine (abs_add_le _ _).trans ((add_le_add (h.second i) (h'.second i)).trans (le_of_eq ?_)); unfold Size.add; ring
  both := by
    rw [show f (s true true) + f' (s true true) - (f (s true false) + f' (s true false)) - (f (s false true) + f' (s false true)) + (f (s false false) + f' (s false false)) =
      (f (s true true) - f (s true false) - f (s false true) + f (s false false)) + (f' (s true true) - f' (s true false) - f' (s false true) + f' (s false false)) by ring]
    refine (abs_add_le _ _).trans ((add_le_add h.both h'.both).trans (le_of_eq ?_)); unfold Size.add; ring

theorem Bent.scale (h : Bent A B C s z f) {c c' : ℝ} (hc : |c| ≤ c') : Bent A B C s (z.smul c') (fun q => c * f q) := by
  have c0 : 0 ≤ c' := (abs_nonneg c).trans hc
  have m : ∀ {x y : ℝ}, |x| ≤ y → |c * x| ≤ c' * y := fun {x y} hx => by rw [abs_mul]; exact mul_le_mul hc hx (abs_nonneg _) c0
  refine ⟨mul_nonneg c0 h.l0, mul_nonneg c0 h.k0, fun i j => m (h.size i j), fun j => ?_, fun i => ?_, ?_⟩
  · rw [← mul_sub]; refine (m (h.first j)).trans (le_of_eq ?_); unfold Size.smul; ring
  · rw [← mul_sub]; refine (m (h.second i)).trans (le_of_eq ?_); unfold Size.smul; ring
  · rw [← mul_sub, ← mul_sub, ← mul_add]; refine (m h.both).trans (le_of_eq ?_); unfold Size.smul; ring

private theorem two_prod {a b x y : ℝ} (ha : |a| ≤ x) (hb : |b| ≤ y) : |a * b| ≤ x * y := by
  rw [abs_mul]; exact mul_le_mul ha hb (abs_nonneg _) ((abs_nonneg _).trans ha)

theorem Bent.mul (h : Bent A B C s z f) (h' : Bent A B C s w f') (hC : 0 ≤ C) : Bent A B C s (z.mul w) (fun q => f q * f' q) := by
  have M0 := h.M0; have M0' := h'.M0
  have l0 := h.l0; have l0' := h'.l0
  have k0 := h.k0; have k0' := h'.k0
  have pr : ∀ {a b a' b' e e' : ℝ}, |a - b| ≤ e → |a' - b'| ≤ e' → |a'| ≤ w.M → |b| ≤ z.M → |a * a' - b * b'| ≤ e * w.M + z.M * e' := by
    intro a b a' b' e e' h1 h2 h3 h4
    rw [show a * a' - b * b' = (a - b) * a' + b * (a' - b') by ring]
    exact (abs_add_le _ _).trans (add_le_add (two_prod h1 h3) (two_prod h4 h2))
  refine ⟨?_, ?_, fun i j => two_prod (h.size i j) (h'.size i j), fun j => ?_, fun i => ?_, ?_⟩
  · unfold Size.mul; positivity
  · unfold Size.mul; positivity
  · refine (pr (h.first j) (h'.first j) (h'.size _ _) (h.size _ _)).trans (le_of_eq ?_); unfold Size.mul; ring
  · refine (pr (h.second i) (h'.second i) (h'.size _ _) (h.size _ _)).trans (le_of_eq ?_); unfold Size.mul; ring
  · have t1 := two_prod h.both (h'.size true true)
    have t2 := two_prod (h.first false) (h'.second true)
    have t3 := two_prod (h.second false) (h'.first true)
    have t4 := two_prod (h.size false false) h'.both
    rw [show f (s true true) * f' (s true true) - f (s true false) * f' (s true false) - f (s false true) * f' (s false true) + f (s false false) * f' (s false false) =
      (f (s true true) - f (s true false) - f (s false true) + f (s false false)) * f' (s true true) + (f (s true false) - f (s false false)) * (f' (s true true) - f' (s true false)) +
      (f (s false true) - f (s false false)) * (f' (s true true) - f' (s false true)) + f (s false false) * (f' (s true true) - f' (s true false) - f' (s false true) + f' (s false false)) by ring]
    refine (abs_add_le _ _).trans ((add_le_add ((abs_add_le _ _).trans (add_le_add ((abs_add_le _ _).trans (add_le_add t1 t2)) t3)) t4).trans ?_)
    unfold Size.mul
    have : 0 ≤ z.l * w.l * C := by positivity
    nlinarith

/-- Bounds for the components of a state, and for the inverse of the density. -/
def compSize (R : ℝ) : Size := ⟨2 * R, 1, 1⟩
noncomputable def invSize (ρ0 : ℝ) : Size := ⟨2 / ρ0, 4 / ρ0 ^ 2, (2 * (4 / ρ0 ^ 2) + 2 / ρ0) * (2 / ρ0)⟩

theorem Bent.inv {R ρ0 : ℝ} (h : Bent A B C s (compSize R) f) (h0 : 0 < ρ0) (hl : ∀ i j, ρ0 / 2 ≤ f (s i j)) (hA : 0 ≤ A) (hB : 0 ≤ B) (hC : 0 ≤ C) : Bent A B C s (invSize ρ0) (fun q => 1 / f q) := by
  have pos : ∀ i j, 0 < f (s i j) := fun i j => lt_of_lt_of_le (by linarith) (hl i j)
  have iv : ∀ i j, |1 / f (s i j)| ≤ 2 / ρ0 := fun i j => by
    rw [abs_of_pos (by have := pos i j; positivity), div_le_div_iff₀ (pos i j) h0]; linarith [hl i j]
  have df : ∀ i j i' j' e, |f (s i j) - f (s i' j')| ≤ 1 * e → |1 / f (s i j) - 1 / f (s i' j')| ≤ 4 / ρ0 ^ 2 * e := by
    intro i j i' j' e he
    have p := pos i j; have p' := pos i' j'
    rw [show 1 / f (s i j) - 1 / f (s i' j') = (1 / f (s i j)) * (1 / f (s i' j')) * -(f (s i j) - f (s i' j')) by field_simp; try ring]
    rw [one_mul, ← abs_neg] at he
    refine (two_prod (two_prod (iv i j) (iv i' j')) he).trans (le_of_eq ?_)
    ring
  have dA : ∀ j, |1 / f (s true j) - 1 / f (s false j)| ≤ 4 / ρ0 ^ 2 * A := fun j => df _ _ _ _ _ (h.first j)
  have dB : ∀ i, |1 / f (s i true) - 1 / f (s i false)| ≤ 4 / ρ0 ^ 2 * B := fun i => df _ _ _ _ _ (h.second i)
  refine ⟨?_, ?_, iv, dA, dB, ?_⟩
  · unfold invSize; positivity
  · unfold invSize; positivity
  have e : 1 / f (s true true) - 1 / f (s true false) - 1 / f (s false true) + 1 / f (s false false) =
      -((1 / f (s true false) - 1 / f (s false false)) * (f (s true true) - f (s true false)) + (1 / f (s false true) - 1 / f (s false false)) * (f (s true true) - f (s false true)) +
        1 / f (s false false) * (f (s true true) - f (s true false) - f (s false true) + f (s false false))) * (1 / f (s true true)) := by
    have a := pos true true; have b := pos true false; have c := pos false true; have d := pos false false
    field_simp
    ring
  rw [e]
  have t2 := two_prod (dA false) (h.second true)
  have t3 := two_prod (dB false) (h.first true)
  have t4 := two_prod (iv false false) h.both
  have t := (abs_add_le _ _).trans (add_le_add ((abs_add_le _ _).trans (add_le_add t2 t3)) t4)
  rw [← abs_neg] at t
  refine (two_prod t (iv true true)).trans ?_
  unfold invSize compSize
  rw [show (2 * (4 / ρ0 ^ 2) + 2 / ρ0) * (2 / ρ0) * (A * B + C) = ((2 * (4 / ρ0 ^ 2) + 2 / ρ0) * (A * B + C)) * (2 / ρ0) by ring]
  refine mul_le_mul_of_nonneg_right ?_ (by positivity)
  dsimp only
  have : 0 ≤ 4 / ρ0 ^ 2 * C := by positivity
  nlinarith

/-- Bounds for the velocity, the pressure and the two kinds of fluxes. -/
noncomputable def velSize (ρ0 R : ℝ) : Size := (compSize R).mul (invSize ρ0)
noncomputable def workSize (ρ0 R : ℝ) : Size := (compSize R).mul (velSize ρ0 R)
noncomputable def presSize (gamma ρ0 R : ℝ) : Size := ((compSize R).add ((((workSize ρ0 R).add (workSize ρ0 R)).add (workSize ρ0 R)).smul (1 / 2))).smul (gamma - 1)
noncomputable def momSize (gamma ρ0 R : ℝ) : Size := (workSize ρ0 R).add (presSize gamma ρ0 R)
noncomputable def enSize (gamma ρ0 R : ℝ) : Size := ((compSize R).add (presSize gamma ρ0 R)).mul (velSize ρ0 R)

/-- Bound for the second differences of the flux. -/
noncomputable def fluxBend (gamma ρ0 R : ℝ) : ℝ := 1 + (momSize gamma ρ0 R).k + (enSize gamma ρ0 R).k

theorem flux_bent {gamma ρ0 R : ℝ} (hg : 1 < gamma) (h0 : 0 < ρ0) (hA : 0 ≤ A) (hB : 0 ≤ B) (hC : 0 ≤ C) (low : ∀ i j, ρ0 / 2 ≤ (s i j).rho)
    (hs : ∀ j < 5, Bent A B C s (compSize R) (fun q => q.comps.getD j 0)) (d : Fin 3) {j : Nat} (hj : j < 5) :
    |((s true true).flux gamma d).comps.getD j 0 - ((s true false).flux gamma d).comps.getD j 0 - ((s false true).flux gamma d).comps.getD j 0 + ((s false false).flux gamma d).comps.getD j 0| ≤
      fluxBend gamma ρ0 R * (A * B + C) := by
  have hr : Bent A B C s (compSize R) Gas.rho := hs 0 (by omega)
  have hm : ∀ i : Fin 3, Bent A B C s (compSize R) (fun q => q.mom i) := fun i => by
    fin_cases i
    exacts [hs 1 (by omega), hs 2 (by omega), hs 3 (by omega)]
  have he : Bent A B C s (compSize R) Gas.en := hs 4 (by omega)
  have hv : ∀ i, Bent A B C s (velSize ρ0 R) (fun q => q.vel i) := fun i => by
    have := (hm i).mul (hr.inv h0 low hA hB hC) hC
    unfold velSize Gas.vel
    simpa only [mul_one_div] using this
  have hmv : ∀ i k, Bent A B C s (workSize ρ0 R) (fun q => q.mom i * q.vel k) := fun i k => (hm i).mul (hv k) hC
  have hp' := (he.add ((((hmv 0 0).add (hmv 1 1)).add (hmv 2 2)).scale (c := -(1 / 2)) (c' := 1 / 2) (by norm_num))).scale (c := gamma - 1) (c' := gamma - 1) (by rw [abs_of_pos (by linarith)])
  have cg : ∀ {z : Size} {f f' : Gas → ℝ}, Bent A B C s z f → (∀ i j, f' (s i j) = f (s i j)) → Bent A B C s z f' := by
    intro z f f' h e
    refine ⟨h.l0, h.k0, fun i j => ?_, fun j => ?_, fun i => ?_, ?_⟩
    · rw [e]; exact h.size i j
    · rw [e, e]; exact h.first j
    · rw [e, e]; exact h.second i
    · rw [e, e, e, e]; exact h.both
  have hp : Bent A B C s (presSize gamma ρ0 R) (fun q => q.pressure gamma) := by
    refine cg hp' fun i j => ?_
    have p : 0 < (s i j).rho := lt_of_lt_of_le (by linarith) (low i j)
    unfold Gas.pressure vdot Gas.vel
    field_simp
    ring
  have hu : ∀ i, Bent A B C s (presSize gamma ρ0 R) (fun q => q.pressure gamma * unit d i) := by
    intro i
    have h1 : |unit d i| ≤ 1 := by unfold unit; split <;> norm_num
    have := hp.scale h1
    have e : (presSize gamma ρ0 R).smul 1 = presSize gamma ρ0 R := by simp [Size.smul]
    rw [e] at this
    exact cg this fun i j => mul_comm _ _
  have kk : ∀ {k : ℝ}, k ≤ fluxBend gamma ρ0 R → k * (A * B + C) ≤ fluxBend gamma ρ0 R * (A * B + C) := fun {k} h => mul_le_mul_of_nonneg_right h (by positivity)
  have hF := fun i => (hmv i d).add (hu i)
  have hE := (he.add hp).mul (hv d) hC
  have k1 := (hF 0).k0
  have k2 := hE.k0
  have b1 : (momSize gamma ρ0 R).k ≤ fluxBend gamma ρ0 R := by unfold fluxBend momSize enSize; linarith
  have b2 : (enSize gamma ρ0 R).k ≤ fluxBend gamma ρ0 R := by unfold fluxBend momSize enSize; linarith
  have b3 : (compSize R).k ≤ fluxBend gamma ρ0 R := by unfold fluxBend momSize enSize; have : (compSize R).k = 1 := rfl; linarith
  unfold Gas.flux Gas.comps
  interval_cases j <;> simp only [List.getD_cons_zero, List.getD_cons_succ]
  · exact (hm d).both.trans (kk b3)
  · exact (hF 0).both.trans (kk b1)
  · exact (hF 1).both.trans (kk b1)
  · exact (hF 2).both.trans (kk b1)
  · exact hE.both.trans (kk b2)

end bent

/-! ### The rates -/

/-- The state `q` less `a` times `v`. -/
def less (q : Gas) (a : ℝ) (v : Gas) : Gas := ⟨q.rho - a * v.rho, fun i => q.mom i - a * v.mom i, q.en - a * v.en⟩

private theorem less_comps (q v : Gas) (a : ℝ) {j : Nat} (hj : j < 5) : (less q a v).comps.getD j 0 = q.comps.getD j 0 - a * v.comps.getD j 0 := by
  interval_cases j <;> rfl

private theorem nearGas_of {η : ℝ} {q r : Gas} (h : ∀ j < 5, |r.comps.getD j 0 - q.comps.getD j 0| ≤ η) : NearGas η q r :=
  ⟨h 0 (by omega), fun i => by fin_cases i; exacts [h 1 (by omega), h 2 (by omega), h 3 (by omega)], h 4 (by omega)⟩

/-- How far the numerical rates of a smooth gas without extrema nearby may be from the differential equations: second order in the cell widths. `K1`, `K` and `L` bound the first, second and third
derivatives of the gas, `K2` the third derivatives of its flux, `s` is the least slope. -/
noncomputable def gasSecond (g : Rectilinear ℝ) (m : Nat) (C W K1 K L K2 s δ : ℝ) : ℝ :=
  ((List.range m).map fun d => 2 * C * wallError K L s (g.dxAt d) δ / g.dxAt d + (K2 / 24 + W * (K / 8 * (K1 + L / 8 * g.dxAt d ^ 2) + L / 8)) * g.dxAt d ^ 2).sum

/-- **C119** Away from extrema the rates of change of a gas are those of the Euler equations up to the square of the cell widths: within two cell widths of the centre of the cell each component has, in
each direction, a slope of at least `s`, or does not change at all, and the cells are fine enough for the limiter to keep the states at the walls in the range. -/
theorem C119_gas_second {g : Rectilinear ℝ} {gamma ρ0 p0 R K1 K L K' K2 s δ : ℝ} {Q : (Nat → ℝ) → Gas} {dQ ddQ dF ddF : Fin 3 → (Nat → ℝ) → Gas} {u r : Cell → ℝ} {p : Int} {x : Cell}
    (hR : GasRate g.rng.dims p g.dxAt gamma u r) (hx : InBox (g.rng.dims ++ [(0, p)]) x) (h3 : g.rng.dims.length ≤ 3) (hw : ∀ d < g.rng.dims.length, 0 < g.dxAt d)
    (hg : 1 < gamma) (h0 : 0 < ρ0) (hp : 0 < p0) (hI : ∀ p, InRange gamma ρ0 p0 R (Q p))
    (hQ : ∀ d : Fin 3, SmoothGas d K Q (dQ d)) (hQ' : ∀ d : Fin 3, SmoothGas d L (dQ d) (ddQ d)) (hb : ∀ d : Fin 3, ∀ p, ∀ j < 5, |(dQ d p).comps.getD j 0| ≤ K1)
    (hF : ∀ d : Fin 3, SmoothGas d K' (fun p => (Q p).flux gamma d) (dF d)) (hF' : ∀ d : Fin 3, SmoothGas d K2 (dF d) (ddF d))
    (flat : ∀ d : Fin 3, g.rng.dims.length ≤ d → ∀ j < 5, (dF d (centre g x)).comps.getD j 0 = 0)
    (hs : 0 < s) (hδ : ∀ d < g.rng.dims.length, 4 * δ ≤ s * g.dxAt d) (he : ∀ d < g.rng.dims.length, 2 / 10 ^ 12 ≤ s * g.dxAt d)
    (hv : ∀ d : Fin 3, d < g.rng.dims.length → ∀ j < 5, Sloped d s (2 * g.dxAt d) (fun p => (Q p).comps.getD j 0) (fun p => (dQ d p).comps.getD j 0) (centre g x))
    (hu : Samples g g.rng.dims.length 5 (fun p j => (Q p).comps.getD j 0) δ (fun x j => u (x ++ [(j : Int)])) x)
    (hz : NoZero g.rng.dims.length 5 (fun x j => u (x ++ [(j : Int)])) x)
    (fine : ∀ d < g.rng.dims.length, Fine gamma ρ0 p0 R (K / 8 * g.dxAt d ^ 2)) (fine' : ∀ d < g.rng.dims.length, Fine gamma (ρ0 / 2) (p0 / 2) (2 * R) (wallError K L s (g.dxAt d) δ))
    (j : Nat) (hj : j < 5) :
    |r (x ++ [(j : Int)]) + ((dF 0 (centre g x)).comps.getD j 0 + (dF 1 (centre g x)).comps.getD j 0 + (dF 2 (centre g x)).comps.getD j 0)| ≤
      gasSecond g g.rng.dims.length (fluxLip gamma (ρ0 / 2) (2 * R) + 2 * speedMax gamma (ρ0 / 2) (2 * R)) (fluxBend gamma ρ0 R) K1 K L K2 s δ := by
  have hl : x.length = g.rng.dims.length + 1 := by have := hx.length_eq; simpa using this
  have z0 : (Arith.lit 0 : ℝ) = 0 := by simp [real_lit]
  have hK : 0 ≤ K := smooth_nonneg (hQ 0 0 (by omega))
  have hL : 0 ≤ L := smooth_nonneg (hQ' 0 0 (by omega))
  have hK1 : 0 ≤ K1 := (abs_nonneg _).trans (hb 0 (fun _ => 0) 0 (by omega))
  -- the state less an eighth of the squared width times the second derivative
  have near : ∀ d (hd : d < g.rng.dims.length) (hd3 : d < 3) (p : Nat → ℝ), NearGas (K / 8 * g.dxAt d ^ 2) (Q p) (less (Q p) (g.dxAt d ^ 2 / 8) (ddQ ⟨d, hd3⟩ p)) := by
    intro d hd hd3 p
    refine nearGas_of fun j hj => ?_
    rw [less_comps _ _ _ hj, sub_sub_cancel_left, abs_neg, abs_mul, abs_of_nonneg (by positivity)]
    have := mul_le_mul_of_nonneg_left (deriv_le (hQ ⟨d, hd3⟩ j hj) (hQ' ⟨d, hd3⟩ j hj) p) (by positivity : 0 ≤ g.dxAt d ^ 2 / 8)
    linarith
  have range : ∀ d (hd : d < g.rng.dims.length) (hd3 : d < 3) (p : Nat → ℝ), InRange gamma (ρ0 / 2) (p0 / 2) (2 * R) (less (Q p) (g.dxAt d ^ 2 / 8) (ddQ ⟨d, hd3⟩ p)) := by
    intro d hd hd3 p
    obtain ⟨-, l, h, -, -, m, e⟩ := near_base h0 (hI p) (near d hd hd3 p) (fine d hd)
    have P := (near_pres hg h0 (hI p) (near d hd hd3 p) (fine d hd)).2
    refine ⟨l, h, m, e, ?_⟩
    have := (abs_le.1 P).1
    linarith [(fine d hd).pres, (hI p).pres]
  have key := update_second (g := g) (m := g.rng.dims.length) (n := 5) (φ := fun dim => fluxOf (Euler.hll gamma dim)) (U := fun p j => (Q p).comps.getD j 0)
      (D := fun d p j => if h : d < 3 then (dQ ⟨d, h⟩ p).comps.getD j 0 else 0) (D2 := fun d p j => if h : d < 3 then (ddQ ⟨d, h⟩ p).comps.getD j 0 else 0)
      (u := fun x j => u (x ++ [(j : Int)])) (x := x) (K := K) (L := L) (s := s) (C := fluxLip gamma (ρ0 / 2) (2 * R) + 2 * speedMax gamma (ρ0 / 2) (2 * R)) (K1 := K') (K2 := K2) (δ := δ) (j := j)
      (K3 := fun d => fluxBend gamma ρ0 R * (K / 8 * (K1 + L / 8 * g.dxAt d ^ 2) + L / 8))
      (F := fun d p => if h : d < 3 then ((Q p).flux gamma ⟨d, h⟩).comps.getD j 0 else 0)
      (dF := fun d p => if h : d < 3 then (dF ⟨d, h⟩ p).comps.getD j 0 else 0) (ddF := fun d p => if h : d < 3 then (ddF ⟨d, h⟩ p).comps.getD j 0 else 0)
      (P := fun d p => if h : d < 3 then ((less (Q p) (g.dxAt d ^ 2 / 8) (ddQ ⟨d, h⟩ p)).flux gamma ⟨d, h⟩).comps.getD j 0 else 0)
      (by omega) hw hs hδ he ?_ ?_ ?_ hu hz ?_ ?_ ?_ ?_
  · have zero : ∀ d < 3, g.rng.dims.length ≤ d → -(if h : d < 3 then (dF ⟨d, h⟩ (centre g x)).comps.getD j 0 else 0) = 0 := by
      intro d hd hdl
      rw [dif_pos hd, flat ⟨d, hd⟩ hdl j hj, neg_zero]
    have e := sum_dirs zero
    rw [Nat.min_eq_left h3] at e
    rw [e] at key
    rw [hR x hx j hj, z0]
    refine le_trans (le_of_eq ?_) key
    rw [← sub_neg_eq_add]
    congr 2
    simp only [show (0 : Nat) < 3 by omega, show (1 : Nat) < 3 by omega, show (2 : Nat) < 3 by omega, dif_pos]
    show _ = -(dF 0 _).comps.getD j 0 + -(dF 1 _).comps.getD j 0 + -(dF 2 _).comps.getD j 0
    ring
  · intro d hd j hj
    have hd3 : d < 3 := by omega
    simp only [dif_pos hd3]
    exact hQ ⟨d, hd3⟩ j hj
  · intro d hd j hj
    have hd3 : d < 3 := by omega
    simp only [dif_pos hd3]
    exact hQ' ⟨d, hd3⟩ j hj
  · intro d hd j hj
    have hd3 : d < 3 := by omega
    simp only [dif_pos hd3]
    exact hv ⟨d, hd3⟩ hd j hj
  · intro d hd
    have hd3 : d < 3 := by omega
    simp only [dif_pos hd3]
    exact hF ⟨d, hd3⟩ j hj
  · intro d hd
    have hd3 : d < 3 := by omega
    simp only [dif_pos hd3]
    exact hF' ⟨d, hd3⟩ j hj
  · intro d hd p
    have hd3 : d < 3 := by omega
    simp only [dif_pos hd3]
    have w0 := hw d hd
    have hA : 0 ≤ K / 8 * g.dxAt d ^ 2 := by positivity
    have hB : 0 ≤ K1 * g.dxAt d + L / 8 * g.dxAt d ^ 3 := by positivity
    have hC : 0 ≤ L / 8 * g.dxAt d ^ 3 := by positivity
    have b := flux_bent (s := fun i k => if i then less (Q (if k then along p d (g.dxAt d) else p)) (g.dxAt d ^ 2 / 8) (ddQ ⟨d, hd3⟩ (if k then along p d (g.dxAt d) else p))
      else Q (if k then along p d (g.dxAt d) else p)) (R := R) hg h0 hA hB hC ?_ ?_ ⟨d, hd3⟩ hj
    · simp only [if_true, if_false, Bool.false_eq_true] at b
      refine le_trans (le_of_eq ?_) (b.trans (le_of_eq ?_))
      · congr 1; ring
      · ring
    · intro i k
      cases i
      · have := (hI (if k then along p d (g.dxAt d) else p)).low
        simp only [if_false, Bool.false_eq_true]
        linarith
      · simp only [if_true]
        exact (range d hd hd3 _).low
    · intro j hj
      have inR : ∀ {q : Gas} {a b c : ℝ}, InRange gamma a b c q → 0 < a → |q.comps.getD j 0| ≤ c := by
        intro q a b c h ha
        interval_cases j
        · show |q.rho| ≤ c
          rw [abs_of_nonneg (by linarith [h.low])]; exact h.high
        exacts [h.mom 0, h.mom 1, h.mom 2, h.en]
      have dd := fun p => deriv_le (hQ ⟨d, hd3⟩ j hj) (hQ' ⟨d, hd3⟩ j hj) p
      have c1 := change_le (hQ ⟨d, hd3⟩ j hj) (fun p => hb ⟨d, hd3⟩ p j hj) p (g.dxAt d)
      have c2 := (hQ' ⟨d, hd3⟩ j hj).lip p (g.dxAt d)
      rw [abs_of_pos w0] at c1 c2
      dsimp only at dd c1 c2
      have e0 : 0 ≤ g.dxAt d ^ 2 / 8 := by positivity
      have m2 := mul_le_mul_of_nonneg_left c2 e0
      rw [← abs_of_nonneg e0, ← abs_mul, abs_of_nonneg e0] at m2
      have R0 : 0 ≤ R := (abs_nonneg _).trans (hI p).en
      refine ⟨by simp [compSize], by simp [compSize], fun i k => ?_, fun k => ?_, fun i => ?_, ?_⟩
      · cases i
        · simp only [if_false, Bool.false_eq_true]
          refine (inR (hI _) h0).trans ?_
          simp only [compSize]; linarith
        · simp only [if_true]
          exact inR (range d hd hd3 _) (by linarith)
      · simp only [if_true, if_false, Bool.false_eq_true]
        rw [less_comps _ _ _ hj, sub_sub_cancel_left, abs_neg, abs_mul, abs_of_nonneg e0]
        have := mul_le_mul_of_nonneg_left (dd (if k then along p d (g.dxAt d) else p)) e0
        simp only [compSize]
        linarith
      · cases i
        · simp only [if_true, if_false, Bool.false_eq_true, compSize]
          linarith
        · simp only [if_true, if_false, Bool.false_eq_true, compSize]
          rw [less_comps _ _ _ hj, less_comps _ _ _ hj,
            show ∀ a b e a' b' : ℝ, a - e * b - (a' - e * b') = (a - a') - e * (b - b') from fun _ _ _ _ _ => by ring]
          refine (abs_sub _ _).trans ?_
          linarith
      · simp only [if_true, if_false, Bool.false_eq_true, compSize]
        rw [less_comps _ _ _ hj, less_comps _ _ _ hj,
          show ∀ a b e a' b' : ℝ, a - e * b - (a' - e * b') - a + a' = -(e * (b - b')) from fun _ _ _ _ _ => by ring, abs_neg]
        have : 0 ≤ K / 8 * g.dxAt d ^ 2 * (K1 * g.dxAt d + L / 8 * g.dxAt d ^ 3) := by positivity
        linarith
  · intro d hd p wl wr h1 h2
    have hd3 : d < 3 := by omega
    simp only [dif_pos hd3] at h1 h2 ⊢
    have near' : ∀ w : Nat → ℝ, (∀ j < 5, |w j - ((Q p).comps.getD j 0 - g.dxAt d ^ 2 / 8 * (ddQ ⟨d, hd3⟩ p).comps.getD j 0)| ≤ wallError K L s (g.dxAt d) δ) →
        NearGas (wallError K L s (g.dxAt d) δ) (less (Q p) (g.dxAt d ^ 2 / 8) (ddQ ⟨d, hd3⟩ p)) ⟨w 0, ![w 1, w 2, w 3], w 4⟩ := by
      intro w h
      exact ⟨h 0 (by omega), fun i => by fin_cases i; exacts [h 1 (by omega), h 2 (by omega), h 3 (by omega)], h 4 (by omega)⟩
    exact gas_near (d := ⟨d, hd3⟩) hg (by linarith) (by linarith) (range d hd hd3 p) (near' wl h1) (near' wr h2) (fine' d hd) hj

/-! ### Example -/

/-- Two cells of width 1/1000. -/
noncomputable def exFine : Rectilinear ℝ := ⟨Range.setup [(0, 2)], [0], [1 / 500], [1 / 1000]⟩

private theorem exFine_dims : exFine.rng.dims = [(0, 2)] := rfl
private theorem exFine_dx : exFine.dxAt 0 = 1 / 1000 := rfl

private theorem exFine_centre (x : Cell) : centre exFine x 0 = ((x.getD 0 0 : ℝ) + 1 / 2) / 1000 := by
  have : ∀ z : Int, (Arith.ofInt z : ℝ) = (z : ℝ) := fun z => rfl
  simp [centre, exFine, real_lit, this]
  ring

/-- A gas at rest with pressure 1 and density `2 + sin x / 2`. -/
noncomputable def exDense (p : Nat → ℝ) : Gas := ⟨2 + 1 / 2 * Real.sin (p 0), 0, 1⟩

private theorem sin_lip (a b : ℝ) : |Real.sin a - Real.sin b| ≤ |a - b| := by
  have := Convex.norm_image_sub_le_of_norm_hasDerivWithin_le (f := Real.sin) (f' := Real.cos) (s := Set.univ) (C := 1) (fun x _ => (Real.hasDerivAt_sin x).hasDerivWithinAt)
    (fun x _ => Real.abs_cos_le_one x) convex_univ (Set.mem_univ b) (Set.mem_univ a)
  rw [one_mul] at this
  exact this

private theorem cos_lip (a b : ℝ) : |Real.cos a - Real.cos b| ≤ |a - b| := by
  have := Convex.norm_image_sub_le_of_norm_hasDerivWithin_le (f := Real.cos) (f' := fun x => -Real.sin x) (s := Set.univ) (C := 1) (fun x _ => (Real.hasDerivAt_cos x).hasDerivWithinAt)
    (fun x _ => by rw [Real.norm_eq_abs, abs_neg]; exact Real.abs_sin_le_one x) convex_univ (Set.mem_univ b) (Set.mem_univ a)
  rw [one_mul] at this
  exact this

private theorem smooth_half_sin : SmoothIn 0 (1 / 2) (fun p => 2 + 1 / 2 * Real.sin (p 0)) (fun p => 1 / 2 * Real.cos (p 0)) where
  deriv p := by
    have h : HasDerivAt (fun s : ℝ => p 0 + s) 1 0 := (hasDerivAt_id (0 : ℝ)).const_add (p 0)
    have := ((h.sin).const_mul (1 / 2)).const_add 2
    simpa [along] using this
  lip p s := by
    have := cos_lip (p 0 + s) (p 0)
    rw [add_sub_cancel_left] at this
    rw [show along p 0 s 0 = p 0 + s by simp [along], ← mul_sub, abs_mul, abs_of_pos (by norm_num : (0 : ℝ) < 1 / 2)]
    linarith

private theorem smooth_half_cos : SmoothIn 0 (1 / 2) (fun p => 1 / 2 * Real.cos (p 0)) (fun p => 1 / 2 * -Real.sin (p 0)) where
  deriv p := by
    have h : HasDerivAt (fun s : ℝ => p 0 + s) 1 0 := (hasDerivAt_id (0 : ℝ)).const_add (p 0)
    have := (h.cos).const_mul (1 / 2)
    simpa [along] using this
  lip p s := by
    have := sin_lip (p 0 + s) (p 0)
    rw [add_sub_cancel_left] at this
    rw [show along p 0 s 0 = p 0 + s by simp [along], ← mul_sub, abs_mul, abs_of_pos (by norm_num : (0 : ℝ) < 1 / 2), neg_sub_neg, abs_sub_comm]
    linarith

-- the hypotheses of the theorem hold for it
example : ∃ u r : Cell → ℝ, GasRate exFine.rng.dims 1 exFine.dxAt 2 u r ∧ ∀ j < 5, |r ([0, 0] ++ [((j : Nat) : Int)])| ≤
    gasSecond exFine exFine.rng.dims.length (fluxLip 2 (1 / 2) (2 * 3) + 2 * speedMax 2 (1 / 2) (2 * 3)) (fluxBend 2 1 3) (1 / 2) (1 / 2) (1 / 2) 0 (1 / 4) 0 := by
  have last : ∀ (x : Cell) (j : Nat), (x ++ [(j : Int)]).dropLast = x ∧ ((x ++ [(j : Int)]).getLastD 0).toNat = j := fun x j => ⟨by simp, by simp⟩
  obtain ⟨u, hu⟩ : ∃ u : Cell → ℝ, ∀ (x : Cell) (j : Nat), u (x ++ [(j : Int)]) = (exDense (centre exFine x)).comps.getD j 0 :=
    ⟨fun y => (exDense (centre exFine y.dropLast)).comps.getD (y.getLastD 0).toNat 0, fun x j => by dsimp only; rw [(last x j).1, (last x j).2]⟩
  have hR : GasRate exFine.rng.dims 1 exFine.dxAt 2 u (fun y => fvUpdate (fun dim => fluxOf (Euler.hll 2 dim)) 5 (fun x j => u (x ++ [(j : Int)])) exFine.dxAt
      (List.range exFine.rng.dims.length) y.dropLast (y.getLastD 0).toNat (Arith.lit 0)) := by
    intro x hx j hj
    dsimp only
    rw [(last x j).1, (last x j).2]
  have hx : InBox (exFine.rng.dims ++ [(0, 1)]) [0, 0] := by rw [exFine_dims]; simp [InBox]
  refine ⟨u, _, hR, fun j hj => ?_⟩
  have one : ∀ {d : Nat}, d < exFine.rng.dims.length → d = 0 := fun {d} hd => by rw [exFine_dims] at hd; simp at hd; exact hd
  have pres : ∀ p, (exDense p).pressure 2 = 1 := fun p => by simp [exDense, Gas.pressure, vdot]; norm_num
  have hF : ∀ (p : Nat → ℝ) (d : Fin 3) (j : Nat), ((exDense p).flux 2 d).comps.getD j 0 = ((exDense fun _ => 0).flux 2 d).comps.getD j 0 := by
    intro p d j
    unfold Gas.flux
    rw [pres, pres]
    simp [exDense, Gas.vel, Gas.comps]
  have z : ∀ {j : Nat}, j < 5 → (⟨0, 0, 0⟩ : Gas).comps.getD j 0 = 0 := fun {j} hj => by unfold Gas.comps; interval_cases j <;> rfl
  have half : (0 : ℝ) ≤ 1 / 2 := by norm_num
  have key := C119_gas_second (ρ0 := 1) (p0 := 1) (R := 3) (K1 := 1 / 2) (K := 1 / 2) (L := 1 / 2) (K' := 0) (K2 := 0) (s := 1 / 4) (δ := 0) (Q := exDense)
    (dQ := fun d p => if d = 0 then ⟨1 / 2 * Real.cos (p 0), 0, 0⟩ else ⟨0, 0, 0⟩) (ddQ := fun d p => if d = 0 then ⟨1 / 2 * -Real.sin (p 0), 0, 0⟩ else ⟨0, 0, 0⟩)
    (dF := fun _ _ => ⟨0, 0, 0⟩) (ddF := fun _ _ => ⟨0, 0, 0⟩) hR hx (by rw [exFine_dims]; simp) (fun d hd => by rw [one hd, exFine_dx]; norm_num) (by norm_num) (by norm_num) (by norm_num)
    (fun p => ?_) (fun d j hj => ?_) (fun d j hj => ?_) (fun d p j hj => ?_) (fun d j hj => ?_) (fun d j hj => ?_) (fun d hd j hj => z hj) (by norm_num)
    (fun d hd => by rw [one hd, exFine_dx]; norm_num) (fun d hd => by rw [one hd, exFine_dx]; norm_num) (fun d hd j hj => ?_) (fun d hd s s1 s2 j hj => ?_) (fun d hd s s1 s2 j hj => ?_)
    (fun d hd => ?_) (fun d hd => ?_) j hj
  · rw [z hj] at key
    simpa using key
  · have := Real.abs_sin_le_one (p 0)
    have := abs_le.1 this
    exact ⟨by simp only [exDense]; linarith, by simp only [exDense]; linarith, fun i => by simp [exDense], by simp [exDense], by rw [pres]⟩
  · by_cases h : d = 0
    · subst h
      simp only [if_true, exDense, Gas.comps]
      interval_cases j
      · exact smooth_half_sin
      all_goals exact smooth_const _ half _
    · simp only [if_neg h, exDense, Gas.comps]
      have h' : (d : Nat) ≠ 0 := fun e => h (Fin.ext e)
      interval_cases j
      · exact smooth_other h' half (fun y => 2 + 1 / 2 * Real.sin y)
      all_goals exact smooth_const _ half _
  · by_cases h : d = 0
    · subst h
      simp only [if_true, Gas.comps]
      interval_cases j
      · exact smooth_half_cos
      all_goals exact smooth_const _ half _
    · simp only [if_neg h, Gas.comps]
      interval_cases j <;> exact smooth_const _ half _
  · by_cases h : d = 0
    · simp only [if_pos h, Gas.comps]
      have := Real.abs_cos_le_one (p 0)
      interval_cases j <;> simp [abs_mul]
      linarith
    · simp only [if_neg h]
      rw [z hj, abs_zero]; norm_num
  · simp only [hF _ d j]
    rw [z hj]
    exact smooth_const _ le_rfl _
  · simp only [z hj]
    exact smooth_const _ le_rfl _
  · have hd0 : d = 0 := Fin.ext (one hd)
    subst hd0
    simp only [if_true, exDense, Gas.comps]
    interval_cases j
    · refine .inl fun t ht => ?_
      have e : exFine.dxAt ((0 : Fin 3) : Nat) = 1 / 1000 := exFine_dx
      rw [e] at ht
      have ht' := abs_le.1 ht
      have c0 : centre exFine [0, 0] 0 = 1 / 2000 := by rw [exFine_centre]; norm_num
      show 1 / 4 ≤ |1 / 2 * Real.cos (along (centre exFine [0, 0]) 0 t 0)|
      rw [show along (centre exFine [0, 0]) 0 t 0 = 1 / 2000 + t by simp [along, c0]]
      refine le_trans ?_ (le_abs_self _)
      have := Real.one_sub_sq_div_two_le_cos (x := 1 / 2000 + t)
      nlinarith [ht'.1, ht'.2]
    all_goals exact .inr fun t _ => rfl
  · dsimp only; rw [hu, sub_self, abs_zero]
  · rw [one hd]
    dsimp only
    rw [hu, hu]
    unfold exDense Gas.comps
    rw [exFine_centre, exFine_centre]
    show [2 + 1 / 2 * Real.sin ((((0 + (s + 1) : Int) : ℝ) + 1 / 2) / 1000), 0, 0, 0, 1].getD j 0 - [2 + 1 / 2 * Real.sin ((((0 + s : Int) : ℝ) + 1 / 2) / 1000), 0, 0, 0, 1].getD j 0 + 1 / 10 ^ 12 ≠ 0
    have l1 : (-2 : ℝ) ≤ s := by exact_mod_cast s1
    have l2 : (s : ℝ) ≤ 1 := by exact_mod_cast s2
    have := Real.pi_gt_three
    have lt := Real.sin_lt_sin_of_lt_of_le_pi_div_two (x := (((0 + s : Int) : ℝ) + 1 / 2) / 1000) (y := (((0 + (s + 1) : Int) : ℝ) + 1 / 2) / 1000) (by push_cast; linarith) (by push_cast; linarith) (by push_cast; linarith)
    have e0 : (0 : ℝ) < 1 / 10 ^ 12 := by norm_num
    interval_cases j <;> simp only [List.getD_cons_zero, List.getD_cons_succ]
    · refine ne_of_gt ?_; linarith
    all_goals norm_num
  · rw [one hd, exFine_dx]
    refine ⟨?_, ?_, ?_⟩ <;> norm_num [presLip, velMax, velLip]
  · rw [one hd, exFine_dx]
    refine ⟨?_, ?_, ?_⟩ <;> norm_num [presLip, velMax, velLip, wallError]

end QK.Props
