import Verif.Proofs.Converge
import Verif.Props.Integrators
import Verif.Props.Oscillation
import Mathlib.Analysis.SpecialFunctions.Trigonometric.Deriv
import Mathlib.Analysis.Calculus.Deriv.Prod
/-
C115: the order of the time integrators (exact arithmetic), for any smooth problem, and the convergence of runs of a uniform plasma.
-/
namespace QK.Props
open QK Spec Solve Topology Filter Set
open QK.Proofs (stage1 stage2 stage3 step_uniform many_steps)

section
variable {E : Type} [NormedAddCommGroup E] [NormedSpace ℝ E] {S : VarId → Prop} {q rhs q1 q2 q3 : VarId}

/-- **C115** ssprk3 has order three. Let `y` be a solution of `y' = f y` with a smooth `f` in any normed space, whose value in the cell `x` is read by the linear form `val x`, and let the solvers
before the integrator compute the rate `f`. Then after one step of size `t` from `y 0`, in each cell the result differs from `y t` by at most a constant times `t⁴`. -/
theorem C115_order (V : RKVars S q rhs q1 q2 q3) {f : E → E} {val : Cell → E →L[ℝ] ℝ} {run : VarId → SM (Mgr ℝ) Unit} {L : (Cell → ℝ) → Cell → ℝ}
    (hL : ∀ e x, L (fun x => val x e) x = val x (f e)) (hrun : ∀ s ∈ [q, q1, q2], Computes S rhs run L s)
    {y : ℝ → E} (hf : ContDiffAt ℝ 3 f (y 0)) (hy : ∀ᶠ s in 𝓝 0, HasDerivAt y (f (y s)) s) :
    ∃ K > 0, ∃ δ > 0, ∀ (m : Mgr ℝ) (t : ℝ), |t| < δ → m.Good S → m.Laid → m.dt = some t → m.Stores q (fun x => val x (y 0)) →
      ∃ m' u3, rkStep run q rhs q1 q2 q3 m = .ok () m' ∧ m'.Stores q3 u3 ∧ ∀ x, |u3 x - val x (y t)| ≤ ‖val x‖ * (K * |t| ^ 4) := by
  have mem : ∀ t ∈ Icc (0 : ℝ) 0, t = 0 := fun t ht => le_antisymm ht.2 ht.1
  obtain ⟨K, hK, δ, hδ, step⟩ := step_uniform (f := f) (y := y) (T := 0) (fun t ht => by rw [mem t ht]; exact hf) (fun t ht => by rw [mem t ht]; exact hy)
  refine ⟨K, hK, δ, hδ, fun m t ht h hLd hdt h0 => ?_⟩
  obtain ⟨m', u1, u2, u3, k1, _, _, _, _, _, _, k8, e1, e2, e3⟩ := C47_shu_osher V h hLd hdt hrun h0
  refine ⟨m', u3, k1, k8, fun x => ?_⟩
  have s1 : u1 = fun x => val x (stage1 f t (y 0)) := by
    funext x; rw [e1, hL]; simp [stage1]
  have s2 : u2 = fun x => val x (stage2 f t (y 0)) := by
    funext x; rw [e2, s1, hL]; simp only [stage2, map_add, map_smul, smul_eq_mul]; ring
  have s3 : u3 x = val x (stage3 f t (y 0)) := by
    rw [e3, s2, hL]; simp only [stage3, map_add, map_smul, smul_eq_mul]; ring
  have := (step 0 ⟨le_rfl, le_rfl⟩ t ht).2
  rw [zero_add] at this
  rw [s3, ← map_sub, ← Real.norm_eq_abs]
  exact ((val x).le_opNorm _).trans (mul_le_mul_of_nonneg_left this (norm_nonneg _))

/-- **C115** rk1 has order one: its error in one step is at most a constant times `t²`. -/
theorem C115_rk1 (k : ∀ id ∈ [q, rhs, q1], S id) (nq : q ≠ q1) (nr : rhs ≠ q1) (hcomps : rhs.comps = q.comps ∧ q1.comps = q.comps) (hbasis : rhs.basis = q.basis ∧ q1.basis = q.basis)
    {f : E → E} {val : Cell → E →L[ℝ] ℝ} {y : ℝ → E} (hf : ContDiffAt ℝ 3 f (y 0)) (hy : ∀ᶠ s in 𝓝 0, HasDerivAt y (f (y s)) s) :
    ∃ K > 0, ∃ δ > 0, ∀ (m : Mgr ℝ) (t : ℝ), |t| < δ → m.Good S → m.Laid → m.dt = some t → m.Stores q (fun x => val x (y 0)) → m.Stores rhs (fun x => val x (f (y 0))) →
      ∃ m' u1, rk1 [q, rhs] [q1] 0 m = .ok () m' ∧ m'.Stores q1 u1 ∧ ∀ x, |u1 x - val x (y t)| ≤ ‖val x‖ * (K * |t| ^ 2) := by
  have mem : ∀ t ∈ Icc (0 : ℝ) 0, t = 0 := fun t ht => le_antisymm ht.2 ht.1
  obtain ⟨K, hK, δ, hδ, step⟩ := step_uniform (f := f) (y := y) (T := 0) (fun t ht => by rw [mem t ht]; exact hf) (fun t ht => by rw [mem t ht]; exact hy)
  refine ⟨K, hK, δ, hδ, fun m t ht h hLd hdt h0 hr => ?_⟩
  obtain ⟨m', k1, _, _, _, _, k6, _⟩ := C49_rk1 k nq nr hcomps hbasis h hLd hdt h0 hr [] 0
  refine ⟨m', _, k1, k6 rfl, fun x => ?_⟩
  have := (step 0 ⟨le_rfl, le_rfl⟩ t ht).1
  rw [zero_add] at this
  have e : val x (y 0) + t * val x (f (y 0)) = val x (stage1 f t (y 0)) := by simp [stage1]
  rw [e, ← map_sub, ← Real.norm_eq_abs]
  exact ((val x).le_opNorm _).trans (mul_le_mul_of_nonneg_left this (norm_nonneg _))

end

/-- **C115** The order is not higher: for `y' = y` the error of a step of size `t ≥ 0` from 1 is at least `t⁴ / 24`. -/
theorem C115_sharp {S : VarId → Prop} {q rhs q1 q2 q3 : VarId} (V : RKVars S q rhs q1 q2 q3) {run : VarId → SM (Mgr ℝ) Unit} (hrun : ∀ s ∈ [q, q1, q2], Computes S rhs run (fun u x => 1 * u x) s)
    {m : Mgr ℝ} (h : m.Good S) (hLd : m.Laid) {t : ℝ} (h0 : 0 ≤ t) (ht : m.dt = some t) (hq : m.Stores q fun _ => Real.exp 0) :
    ∃ m' u3, rkStep run q rhs q1 q2 q3 m = .ok () m' ∧ m'.Stores q3 u3 ∧ ∀ x, t ^ 4 / 24 ≤ |u3 x - Real.exp t| := by
  obtain ⟨m', k1, k2⟩ := C47_amplification V h hLd ht 1 hrun hq
  refine ⟨m', _, k1, k2, fun x => ?_⟩
  have := Real.sum_le_exp_of_nonneg h0 5
  simp only [Finset.sum_range_succ, Finset.sum_range_zero, Nat.factorial] at this
  norm_num at this
  rw [abs_sub_comm]
  refine le_trans ?_ (le_abs_self _)
  rw [Real.exp_zero]
  linarith

/-! ## Uniform plasma -/

/-- The numbers of a uniform plasma: five for each fluid, six for the field. -/
abbrev Numbers : Type := (Fin 5 → ℝ) × (Fin 5 → ℝ) × (Fin 6 → ℝ)

/-- The numbers of a point. -/
def Point.numbers (s : Point) : Numbers := (fun k => s.e k, fun k => s.i k, fun k => s.f k)

/-- A point with these numbers. -/
def point (e : Numbers) : Point := ⟨fun k => if h : k < 5 then e.1 ⟨k, h⟩ else 0, fun k => if h : k < 5 then e.2.1 ⟨k, h⟩ else 0, fun k => if h : k < 6 then e.2.2 ⟨k, h⟩ else 0⟩

/-- The rates in these numbers. -/
noncomputable def numRate (comE comI eps0 : ℝ) (e : Numbers) : Numbers := (Point.rate comE comI eps0 (point e)).numbers

theorem numRate_numbers (comE comI eps0 : ℝ) (s : Point) : numRate comE comI eps0 s.numbers = (Point.rate comE comI eps0 s).numbers := by
  unfold numRate
  have f : ∀ (com : ℝ) (w b : Nat → ℝ) (w' b' : Nat → ℝ), (∀ k < 5, w k = w' k) → (∀ k < 6, b k = b' k) → fluidOde com w b = fluidOde com w' b' := by
    intro com w b w' b' hw hb
    funext k
    unfold fluidOde
    simp only [hw 0 (by decide), hw 1 (by decide), hw 2 (by decide), hw 3 (by decide), hb 0 (by decide), hb 1 (by decide), hb 2 (by decide), hb 3 (by decide), hb 4 (by decide), hb 5 (by decide)]
  have pe : ∀ k < 5, (point s.numbers).e k = s.e k := fun k hk => by simp [point, Point.numbers, hk]
  have pi : ∀ k < 5, (point s.numbers).i k = s.i k := fun k hk => by simp [point, Point.numbers, hk]
  have pf : ∀ k < 6, (point s.numbers).f k = s.f k := fun k hk => by simp [point, Point.numbers, hk]
  unfold Point.rate
  rw [f comE _ _ _ _ pe pf, f comI _ _ _ _ pi pf]
  have : fieldOde comE comI eps0 (point s.numbers).e (point s.numbers).i = fieldOde comE comI eps0 s.e s.i := by
    funext k
    unfold fieldOde
    split
    · rw [pe _ (by omega), pi _ (by omega)]
    · rfl
  rw [this]

theorem numbers_mix (a : ℝ) (s : Point) (b t : ℝ) (r x : Point) : (Point.mix a s b t r x).numbers = a • s.numbers + b • (r.numbers + t • x.numbers) := rfl

theorem numbers_shuOsher (comE comI eps0 t : ℝ) (s : Point) : (shuOsher (Point.rate comE comI eps0) t s).numbers = stage3 (numRate comE comI eps0) t s.numbers := by
  have h1 : (Point.mix 0 s 1 t s (Point.rate comE comI eps0 s)).numbers = stage1 (numRate comE comI eps0) t s.numbers := by
    rw [numbers_mix, stage1, numRate_numbers]; module
  have h2 : ∀ s1 : Point, s1.numbers = stage1 (numRate comE comI eps0) t s.numbers →
      (Point.mix (3 / 4) s (1 / 4) t s1 (Point.rate comE comI eps0 s1)).numbers = stage2 (numRate comE comI eps0) t s.numbers := by
    intro s1 e
    rw [numbers_mix, stage2, ← numRate_numbers, e]; module
  have h3 : ∀ s2 : Point, s2.numbers = stage2 (numRate comE comI eps0) t s.numbers →
      (Point.mix (1 / 3) s (2 / 3) t s2 (Point.rate comE comI eps0 s2)).numbers = stage3 (numRate comE comI eps0) t s.numbers := by
    intro s2 e
    rw [numbers_mix, stage3, ← numRate_numbers, e]; module
  unfold shuOsher
  exact h3 _ (h2 _ h1)

theorem numRate_smooth (comE comI eps0 : ℝ) : ContDiff ℝ 3 (numRate comE comI eps0) := by
  unfold numRate Point.numbers
  refine ContDiff.prodMk (contDiff_pi.2 fun k => ?_) (ContDiff.prodMk (contDiff_pi.2 fun k => ?_) (contDiff_pi.2 fun k => ?_))
  all_goals
    fin_cases k
    all_goals
      simp only [Point.rate, fluidOde, fieldOde, point]
      norm_num
      try fun_prop

/-- The values of `y` move according to the equations of a uniform plasma at the time `s`. -/
structure Follows (comE comI eps0 : ℝ) (y : ℝ → Point) (s : ℝ) : Prop where
  e : ∀ k < 5, HasDerivAt (fun s => (y s).e k) (fluidOde comE (y s).e (y s).f k) s
  i : ∀ k < 5, HasDerivAt (fun s => (y s).i k) (fluidOde comI (y s).i (y s).f k) s
  f : ∀ k < 6, HasDerivAt (fun s => (y s).f k) (fieldOde comE comI eps0 (y s).e (y s).i k) s

/-- All values in all cells of a state are within `d` of those of a point. -/
structure Within (g : Rectilinear ℝ) (p : Int) (d : ℝ) (s : Point) (q : State ℝ) : Prop where
  e : ∀ x, InBox (g.rng.dims ++ [(0, p)]) x → ∀ k : Nat, k < 5 → |q.e (x ++ [(k : Int)]) - s.e k| ≤ d
  i : ∀ x, InBox (g.rng.dims ++ [(0, p)]) x → ∀ k : Nat, k < 5 → |q.i (x ++ [(k : Int)]) - s.i k| ≤ d
  f : ∀ x, InBox (g.rng.dims ++ [(0, p)]) x → ∀ k : Nat, k < 6 → |q.f (x ++ [(k : Int)]) - s.f k| ≤ d

/-- **C115** Convergence: let `y` be a solution of the equations of motion of a uniform plasma for the times from 0 to `T`. Then all runs of the program in periodic boxes that start from `y 0` stay, up to
the time `T`, within a constant times `t³` of `y`, if the time step `t` is small enough. The constant and the bound do not depend on the mesh. -/
theorem C115_converges {P : Plasma ℝ} {eps0 : ℝ} (hc : Consistent P eps0) {y : ℝ → Point} {T : ℝ} (hT : 0 ≤ T) (hy : ∀ t ∈ Icc 0 T, ∀ᶠ s in 𝓝 t, Follows P.comE P.comI eps0 y s) :
    ∃ K > 0, ∃ δ > 0, ∀ t : ℝ, 0 < t → t < δ → ∀ (g : Rectilinear ℝ) (p : Int) (ps : List Nat), Covered g.rng.dims [] ps → ∀ (u : Nat → State ℝ) (n : Nat), n * t ≤ T →
      (∀ j < n, PlasmaStep P g p [] ps t (u j) (u (j + 1))) → UniformAt g p (y 0) (u 0) → Within g p (K * t ^ 3) (y (n * t)) (u n) := by
  obtain ⟨K, hK, δ, hδ, H⟩ := many_steps (f := numRate P.comE P.comI eps0) (y := fun s => (y s).numbers) hT (fun t _ => (numRate_smooth _ _ _).contDiffAt) (by
    intro t ht
    filter_upwards [hy t ht] with s hs
    rw [numRate_numbers]
    refine HasDerivAt.prodMk ?_ (HasDerivAt.prodMk ?_ ?_)
    · exact hasDerivAt_pi.2 fun k => hs.e k k.2
    · exact hasDerivAt_pi.2 fun k => hs.i k k.2
    · exact hasDerivAt_pi.2 fun k => hs.f k k.2)
  refine ⟨K, hK, δ, hδ, fun t t0 t1 g p ps C u n hn hu h0 => ?_⟩
  have err := H t t0 t1 n hn
  have un : UniformAt g p ((shuOsher (Point.rate P.comE P.comI eps0) t)^[n] (y 0)) (u n) := by
    clear hn err
    induction n with
    | zero => exact h0
    | succ n ih =>
      rw [Function.iterate_succ_apply']
      exact C103_uniform C hc (hu n (by omega)) (ih fun j hj => hu j (by omega))
  have nn : ((shuOsher (Point.rate P.comE P.comI eps0) t)^[n] (y 0)).numbers = (stage3 (numRate P.comE P.comI eps0) t)^[n] (y 0).numbers := by
    clear hn err hu un
    induction n with
    | zero => rfl
    | succ n ih => rw [Function.iterate_succ_apply', Function.iterate_succ_apply', numbers_shuOsher, ih]
  rw [← nn] at err
  generalize (shuOsher (Point.rate P.comE P.comI eps0) t)^[n] (y 0) = s at un err
  have ee := (norm_fst_le _).trans err
  have e2 := (norm_snd_le _).trans err
  have ei := (norm_fst_le _).trans e2
  have ef := (norm_snd_le _).trans e2
  refine ⟨fun x hx k hk => ?_, fun x hx k hk => ?_, fun x hx k hk => ?_⟩
  · rw [un.e x hx k hk]; exact (norm_le_pi_norm _ (⟨k, hk⟩ : Fin 5)).trans ee
  · rw [un.i x hx k hk]; exact (norm_le_pi_norm _ (⟨k, hk⟩ : Fin 5)).trans ei
  · rw [un.f x hx k hk]; exact (norm_le_pi_norm _ (⟨k, hk⟩ : Fin 6)).trans ef

/-- A plasma oscillation of frequency `w` in direction `x`: fluids of densities `re` and `ri` that are at rest at the time 0, with energies `ee` and `ei`, in the field `a`. -/
noncomputable def swing (comE comI w re ri ee ei a s : ℝ) : Point :=
  ⟨fun k => [re, comE * re * a * (Real.sin (w * s) / w), 0, 0, ee + comE ^ 2 * re * a ^ 2 * (Real.sin (w * s) ^ 2 / (2 * w ^ 2))].getD k 0,
   fun k => [ri, comI * ri * a * (Real.sin (w * s) / w), 0, 0, ei + comI ^ 2 * ri * a ^ 2 * (Real.sin (w * s) ^ 2 / (2 * w ^ 2))].getD k 0,
   fun k => [a * Real.cos (w * s), 0, 0, 0, 0, 0].getD k 0⟩

/-- The oscillation solves the equations of motion if `w` is the plasma frequency. -/
theorem swing_moves {comE comI eps0 w re ri : ℝ} (h0 : eps0 ≠ 0) (hw : w ≠ 0) (hw2 : w ^ 2 * eps0 = comE ^ 2 * re + comI ^ 2 * ri) (ee ei a s : ℝ) :
    Follows comE comI eps0 (swing comE comI w re ri ee ei a) s := by
  have lin : HasDerivAt (fun s => w * s) w s := by simpa using (hasDerivAt_id s).const_mul w
  have dsin : HasDerivAt (fun s => Real.sin (w * s) / w) (Real.cos (w * s)) s := by
    refine (lin.sin.div_const w).congr_deriv ?_
    field_simp
  have dcos : HasDerivAt (fun s => Real.cos (w * s)) (-Real.sin (w * s) * w) s := lin.cos
  have dsq : HasDerivAt (fun s => Real.sin (w * s) ^ 2 / (2 * w ^ 2)) (Real.sin (w * s) / w * Real.cos (w * s)) s := by
    refine ((lin.sin.pow 2).div_const (2 * w ^ 2)).congr_deriv ?_
    field_simp
    push_cast
    ring
  have c : ∀ z : ℝ, HasDerivAt (fun _ : ℝ => z) 0 s := fun z => hasDerivAt_const s z
  refine ⟨fun k hk => ?_, fun k hk => ?_, fun k hk => ?_⟩
  · obtain rfl | rfl | rfl | rfl | rfl : k = 0 ∨ k = 1 ∨ k = 2 ∨ k = 3 ∨ k = 4 := by omega
    · simpa [swing, fluidOde] using c re
    · refine (dsin.const_mul (comE * re * a)).congr_deriv ?_
      simp [swing, fluidOde]; ring
    · simpa [swing, fluidOde] using c 0
    · simpa [swing, fluidOde] using c 0
    · refine ((dsq.const_mul (comE ^ 2 * re * a ^ 2)).const_add ee).congr_deriv ?_
      simp [swing, fluidOde]; ring
  · obtain rfl | rfl | rfl | rfl | rfl : k = 0 ∨ k = 1 ∨ k = 2 ∨ k = 3 ∨ k = 4 := by omega
    · simpa [swing, fluidOde] using c ri
    · refine (dsin.const_mul (comI * ri * a)).congr_deriv ?_
      simp [swing, fluidOde]; ring
    · simpa [swing, fluidOde] using c 0
    · simpa [swing, fluidOde] using c 0
    · refine ((dsq.const_mul (comI ^ 2 * ri * a ^ 2)).const_add ei).congr_deriv ?_
      simp [swing, fluidOde]; ring
  · obtain rfl | rfl | rfl | hk : k = 0 ∨ k = 1 ∨ k = 2 ∨ 3 ≤ k := by omega
    · refine (dcos.const_mul a).congr_deriv ?_
      simp [swing, fieldOde]
      have : comI ^ 2 * ri = w ^ 2 * eps0 - comE ^ 2 * re := by linarith
      field_simp
      linear_combination (a * Real.sin (w * s)) * this
    · simpa [swing, fieldOde] using c 0
    · simpa [swing, fieldOde] using c 0
    · obtain rfl | rfl | rfl : k = 3 ∨ k = 4 ∨ k = 5 := by omega
      all_goals simpa [swing, fieldOde] using c 0

/-- **C115** Plasma oscillations: in all runs from fluids at rest in a uniform field `a` along `x` in a periodic box, up to any time `T`, the electric field is `a cos (ω time)` up to a constant times the
third power of the time step, where `ω` is the plasma frequency; momenta and energies likewise. -/
theorem C115_oscillation {P : Plasma ℝ} {eps0 : ℝ} (hc : Consistent P eps0) {w re ri : ℝ} (hw : w ≠ 0) (hw2 : w ^ 2 * eps0 = P.comE ^ 2 * re + P.comI ^ 2 * ri) (ee ei a : ℝ) {T : ℝ} (hT : 0 ≤ T) :
    ∃ K > 0, ∃ δ > 0, ∀ t : ℝ, 0 < t → t < δ → ∀ (g : Rectilinear ℝ) (p : Int) (ps : List Nat), Covered g.rng.dims [] ps → ∀ (u : Nat → State ℝ) (n : Nat), n * t ≤ T →
      (∀ j < n, PlasmaStep P g p [] ps t (u j) (u (j + 1))) →
      UniformAt g p ⟨fun k => [re, 0, 0, 0, ee].getD k 0, fun k => [ri, 0, 0, 0, ei].getD k 0, fun k => [a, 0, 0, 0, 0, 0].getD k 0⟩ (u 0) →
      Within g p (K * t ^ 3) (swing P.comE P.comI w re ri ee ei a (n * t)) (u n) ∧
      ∀ x, InBox (g.rng.dims ++ [(0, p)]) x → |(u n).f (x ++ [0]) - a * Real.cos (w * (n * t))| ≤ K * t ^ 3 := by
  obtain ⟨K, hK, δ, hδ, H⟩ := C115_converges hc (y := swing P.comE P.comI w re ri ee ei a) hT (fun t _ => Eventually.of_forall fun s => swing_moves hc.pos.ne' hw hw2 ee ei a s)
  refine ⟨K, hK, δ, hδ, fun t t0 t1 g p ps C u n hn hu h0 => ?_⟩
  have : swing P.comE P.comI w re ri ee ei a 0 = ⟨fun k => [re, 0, 0, 0, ee].getD k 0, fun k => [ri, 0, 0, 0, ei].getD k 0, fun k => [a, 0, 0, 0, 0, 0].getD k 0⟩ := by
    simp [swing]
  rw [← this] at h0
  have W := H t t0 t1 g p ps C u n hn hu h0
  exact ⟨W, fun x hx => by simpa [swing] using W.f x hx 0 (by decide)⟩

/-! ## Instances of the hypotheses -/

-- C115: `y' = y²`, solved by `1 / (1 - s)`, is smooth
example : ContDiffAt ℝ 3 (fun y : ℝ => y ^ 2) ((fun s : ℝ => 1 / (1 - s)) 0) ∧ ∀ᶠ s in 𝓝 (0 : ℝ), HasDerivAt (fun s : ℝ => 1 / (1 - s)) ((1 / (1 - s)) ^ 2) s := by
  refine ⟨by fun_prop, ?_⟩
  filter_upwards [gt_mem_nhds (show (0 : ℝ) < 1 by norm_num)] with s hs
  have h1 : HasDerivAt (fun s : ℝ => 1 - s) (-1) s := by simpa using (hasDerivAt_id s).const_sub 1
  have h2 : (1 - s) ≠ 0 := by linarith [show s < 1 from hs] |> ne_of_gt
  refine ((hasDerivAt_const s (1 : ℝ)).div h1 h2).congr_deriv ?_
  field_simp
  ring

-- C115: a step of `q' = -2 q` computed by the code of the example of C47
example : ∃ K > 0, ∃ δ > 0, ∀ (m : Mgr ℝ) (t : ℝ), |t| < δ → m.Good exIds → m.Laid → m.dt = some t → m.Stores (exId "q") (fun _ => 1) →
    ∃ m' u3, rkStep (exRun (-2)) (exId "q") (exId "r") (exId "q1") (exId "q2") (exId "q3") m = .ok () m' ∧ m'.Stores (exId "q3") u3 ∧ ∀ x, |u3 x - Real.exp (-2 * t)| ≤ K * |t| ^ 4 := by
  obtain ⟨K, hK, δ, hδ, H⟩ := C115_order (E := ℝ) exVars (f := fun y => -2 * y) (val := fun _ => ContinuousLinearMap.id ℝ ℝ) (run := exRun (-2)) (L := fun u x => -2 * u x) (by simp)
    (fun s hs => exRun_computes (-2) (by unfold exIds; simp at hs ⊢; tauto)) (y := fun s => Real.exp (-2 * s)) (by fun_prop) (Eventually.of_forall fun s => by
      have h1 : HasDerivAt (fun s : ℝ => -2 * s) (-2) s := by simpa using (hasDerivAt_id s).const_mul (-2)
      exact h1.exp.congr_deriv (by ring))
  refine ⟨K, hK, δ, hδ, fun m t a b c d e => ?_⟩
  obtain ⟨m', u3, k1, k2, k3⟩ := H m t a b c d (by simpa using e)
  exact ⟨m', u3, k1, k2, fun x => by simpa [ContinuousLinearMap.norm_id] using k3 x⟩

-- C115: a step of rk1 for `q' = -2 q`
example : ∃ K > 0, ∃ δ > 0, ∀ (m : Mgr ℝ) (t : ℝ), |t| < δ → m.Good exIds → m.Laid → m.dt = some t → m.Stores (exId "q") (fun _ => 1) → m.Stores (exId "r") (fun _ => -2) →
    ∃ m' u1, rk1 [exId "q", exId "r"] [exId "q1"] 0 m = .ok () m' ∧ m'.Stores (exId "q1") u1 ∧ ∀ x, |u1 x - Real.exp (-2 * t)| ≤ K * |t| ^ 2 := by
  obtain ⟨K, hK, δ, hδ, H⟩ := C115_rk1 (E := ℝ) (S := exIds) (q := exId "q") (rhs := exId "r") (q1 := exId "q1") (by intro id h; unfold exIds; simp at h ⊢; tauto) (by decide) (by decide)
    ⟨rfl, rfl⟩ ⟨rfl, rfl⟩ (f := fun y => -2 * y) (val := fun _ => ContinuousLinearMap.id ℝ ℝ) (y := fun s => Real.exp (-2 * s)) (by fun_prop) (Eventually.of_forall fun s => by
      have h1 : HasDerivAt (fun s : ℝ => -2 * s) (-2) s := by simpa using (hasDerivAt_id s).const_mul (-2)
      exact h1.exp.congr_deriv (by ring))
  refine ⟨K, hK, δ, hδ, fun m t a b c d e g => ?_⟩
  obtain ⟨m', u3, k1, k2, k3⟩ := H m t a b c d (by simpa using e) (by simpa using g)
  exact ⟨m', u3, k1, k2, fun x => by simpa [ContinuousLinearMap.norm_id] using k3 x⟩

-- C115: `q' = q` computed by the code of the example of C47, with time step 1/10
example : ∃ m m' : Mgr ℝ, ∃ u3, rkStep (exRun 1) (exId "q") (exId "r") (exId "q1") (exId "q2") (exId "q3") m = .ok () m' ∧ m'.Stores (exId "q3") u3 ∧ ∀ x, (1 / 10) ^ 4 / 24 ≤ |u3 x - Real.exp (1 / 10)| := by
  obtain ⟨m, h1, h2, h3, h4, h5, _⟩ := exManager (fun _ _ => Real.exp 0)
  obtain ⟨m', u3, k⟩ := C115_sharp exVars (fun s hs => exRun_computes 1 (by unfold exIds; simp at hs ⊢; tauto)) h1 h2 (by norm_num) h3 h4
  exact ⟨m, m', u3, k⟩

-- C115: with the constants of the two-fluid shock tube and its left densities, `ω² = 11 · 10⁶`
example {P : Plasma ℝ} (hP : BrioPlasma P) : Consistent P (1 / 10 ^ 6) ∧ Real.sqrt (11 * 10 ^ 6) ≠ 0 ∧
    Real.sqrt (11 * 10 ^ 6) ^ 2 * (1 / 10 ^ 6) = P.comE ^ 2 * (1 / 10) + P.comI ^ 2 * 1 := by
  refine ⟨brio_coupled hP, ?_, ?_⟩
  · rw [Real.sqrt_ne_zero'] ; norm_num
  · rw [Real.sq_sqrt (by norm_num), hP.electron, hP.ion]
    simp only [real_lit]
    norm_num

end QK.Props
