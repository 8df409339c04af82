import Verif.Proofs.Order
import Mathlib.Analysis.SpecialFunctions.Exp
import Mathlib.Analysis.Calculus.Deriv.Shift
/-
Helper lemmas for C115: the error of many steps of ssprk3, for any smooth problem in a normed space.
-/
namespace QK.Proofs
open Asymptotics Filter Topology Set

variable {E : Type*} [NormedAddCommGroup E] [NormedSpace ℝ E] {f : E → E}

theorem eventually_compact {X Z : Type*} [TopologicalSpace X] [TopologicalSpace Z] {K : Set X} (hK : IsCompact K) {z : Z} {P : X × Z → Prop} (h : ∀ k ∈ K, ∀ᶠ p in 𝓝 k ×ˢ 𝓝 z, P p) : ∀ᶠ p in 𝓟 K ×ˢ 𝓝 z, P p := by
  refine hK.induction_on (p := fun s => ∀ᶠ p in 𝓟 s ×ˢ 𝓝 z, P p) ?_ ?_ ?_ ?_
  · rw [principal_empty, bot_prod]; exact eventually_bot
  · intro s t hst ht
    exact ht.filter_mono (prod_mono (principal_mono.2 hst) le_rfl)
  · intro s t hs ht
    rw [← sup_principal, sup_prod]
    exact eventually_sup.2 ⟨hs, ht⟩
  · intro k hk
    obtain ⟨a, ha, b, hb, H⟩ := eventually_prod_iff.1 (h k hk)
    exact ⟨{x | a x}, mem_nhdsWithin_of_mem_nhds ha, eventually_prod_iff.2 ⟨a, mem_principal_self _, b, hb, fun {_} hx {_} hy => H hx hy⟩⟩

section
variable {y : ℝ → E} {T : ℝ} (hf : ∀ t ∈ Icc 0 T, ContDiffAt ℝ 3 f (y t)) (hy : ∀ t ∈ Icc 0 T, ∀ᶠ s in 𝓝 t, HasDerivAt y (f (y s)) s)
include hf hy

/-- The error of one step is small uniformly in its starting time. -/
theorem step_uniform : ∃ K > 0, ∃ δ > 0, ∀ t ∈ Icc 0 T, ∀ h : ℝ, |h| < δ → ‖stage1 f h (y t) - y (t + h)‖ ≤ K * |h| ^ 2 ∧ ‖stage3 f h (y t) - y (t + h)‖ ≤ K * |h| ^ 4 := by
  have yc : ContinuousOn y (Icc 0 T) := fun t ht => (hy t ht).self_of_nhds.continuousAt.continuousWithinAt
  have Kc : IsCompact (y '' Icc 0 T) := isCompact_Icc.image_of_continuousOn yc
  have T0 := taylor_compact (f := f) Kc (by rintro _ ⟨t, ht, rfl⟩; exact hf t ht)
  have tend : Tendsto y (𝓟 (Icc 0 T)) (𝓟 (y '' Icc 0 T)) := tendsto_principal_principal.2 fun t ht => ⟨t, ht, rfl⟩
  have Ty : Taylor2 f (𝓟 (Icc 0 T)) y (fun t => fderiv ℝ f (y t)) (fun t => fderiv ℝ (fderiv ℝ f) (y t)) :=
    ⟨T0.value.comp_tendsto tend, T0.first.comp_tendsto tend, T0.second.comp_tendsto tend, T0.rest.comp_tendsto (k := fun p : ℝ × E => (y p.1, p.2)) ((tend.comp tendsto_fst).prodMk tendsto_snd)⟩
  have sum : ∀ k : ℝ, Tendsto (fun p : ℝ × ℝ => p.1 + p.2) (𝓝 k ×ˢ 𝓝 0) (𝓝 k) := by
    intro k
    rw [← nhds_prod_eq]
    have : Continuous fun p : ℝ × ℝ => p.1 + p.2 := by fun_prop
    simpa using this.tendsto (k, 0)
  have H1 : ∀ᶠ p : ℝ × ℝ in 𝓟 (Icc 0 T) ×ˢ 𝓝 0, HasDerivAt (fun s => y (p.1 + s)) (f (y (p.1 + p.2))) p.2 := by
    refine eventually_compact isCompact_Icc fun k hk => ?_
    filter_upwards [(sum k).eventually (hy k hk)] with p hp
    exact hp.comp_const_add p.1 p.2
  have H2 : (fun p : ℝ × ℝ => f (y (p.1 + p.2))) =O[𝓟 (Icc 0 T) ×ˢ 𝓝 0] fun _ => (1 : ℝ) := by
    refine bigO_compact isCompact_Icc fun k hk => ?_
    have c : ContinuousAt (fun s => f (y s)) k := (hf k hk).continuousAt.comp (f := y) (hy k hk).self_of_nhds.continuousAt
    exact (c.tendsto.comp (sum k)).isBigO_one ℝ
  obtain ⟨e1, e2⟩ := step_error Ty (y := fun t s => y (t + s)) (by simp) H1 H2
  obtain ⟨c1, k1, b1⟩ := e1.exists_pos
  obtain ⟨c2, k2, b2⟩ := e2.exists_pos
  obtain ⟨a, ha, b, hb, H⟩ := eventually_prod_iff.1 (b1.bound.and b2.bound)
  obtain ⟨δ, hδ, Hb⟩ := Metric.eventually_nhds_iff_ball.1 hb
  refine ⟨max c1 c2, lt_max_of_lt_left k1, δ, hδ, fun t ht h hh => ?_⟩
  obtain ⟨h1, h2⟩ := H (eventually_principal.1 ha t ht) (Hb h (by simpa using hh))
  dsimp only at h1 h2
  rw [norm_pow, Real.norm_eq_abs] at h1 h2
  exact ⟨h1.trans (mul_le_mul_of_nonneg_right (le_max_left _ _) (by positivity)), h2.trans (mul_le_mul_of_nonneg_right (le_max_right _ _) (by positivity))⟩

end

/-- Near a compact set a smooth function is Lipschitz, uniformly. -/
theorem lipschitz_compact {K : Set E} (hK : IsCompact K) (hf : ∀ k ∈ K, ContDiffAt ℝ 1 f k) :
    ∃ L > 0, ∃ r > 0, ∀ k ∈ K, ∀ u ∈ Metric.ball k r, ∀ v ∈ Metric.ball k r, ‖f u - f v‖ ≤ L * ‖u - v‖ := by
  refine hK.induction_on (p := fun s => ∃ L > 0, ∃ r > 0, ∀ k ∈ s, ∀ u ∈ Metric.ball k r, ∀ v ∈ Metric.ball k r, ‖f u - f v‖ ≤ L * ‖u - v‖) ?_ ?_ ?_ ?_
  · exact ⟨1, one_pos, 1, one_pos, by simp⟩
  · rintro s t hst ⟨L, hL, r, hr, h⟩
    exact ⟨L, hL, r, hr, fun k hk => h k (hst hk)⟩
  · rintro s t ⟨L, hL, r, hr, h⟩ ⟨L', hL', r', hr', h'⟩
    refine ⟨max L L', lt_max_of_lt_left hL, min r r', lt_min hr hr', fun k hk u hu v hv => ?_⟩
    rw [Metric.mem_ball] at hu hv
    rcases hk with hk | hk
    · exact (h k hk u (hu.trans_le (min_le_left _ _)) v (hv.trans_le (min_le_left _ _))).trans (mul_le_mul_of_nonneg_right (le_max_left _ _) (norm_nonneg _))
    · exact (h' k hk u (hu.trans_le (min_le_right _ _)) v (hv.trans_le (min_le_right _ _))).trans (mul_le_mul_of_nonneg_right (le_max_right _ _) (norm_nonneg _))
  · intro k hk
    obtain ⟨c, s, hs, hl⟩ := (hf k hk).exists_lipschitzOnWith
    obtain ⟨r, hr, H⟩ := Metric.mem_nhds_iff.1 hs
    refine ⟨Metric.ball k (r / 2), mem_nhdsWithin_of_mem_nhds (Metric.ball_mem_nhds _ (by linarith)), c + 1, by positivity, r / 2, by linarith, fun k' hk' u hu v hv => ?_⟩
    rw [Metric.mem_ball] at hu hv hk'
    have h1 := hl.dist_le_mul u (H (by rw [Metric.mem_ball]; linarith [dist_triangle u k' k])) v (H (by rw [Metric.mem_ball]; linarith [dist_triangle v k' k]))
    rw [dist_eq_norm, dist_eq_norm] at h1
    refine h1.trans (mul_le_mul_of_nonneg_right (by linarith) (norm_nonneg _))

/-- One step moves nearby states apart by a factor of at most `1 + 2 L h`. -/
theorem step_stable {L M r h : ℝ} (hL : 0 < L) (hr : 0 < r) (hh : 0 ≤ h) (h1 : h * L ≤ 1) (h2 : h * M ≤ r / 8) {k u : E} (hM : ‖f k‖ ≤ M)
    (lip : ∀ u ∈ Metric.ball k r, ∀ v ∈ Metric.ball k r, ‖f u - f v‖ ≤ L * ‖u - v‖) (hu : ‖u - k‖ ≤ r / 8) :
    ‖stage3 f h u - stage3 f h k‖ ≤ (1 + 2 * (L * h)) * ‖u - k‖ := by
  have ball : ∀ {v : E}, ‖v - k‖ < r → v ∈ Metric.ball k r := by intro v hv; rwa [Metric.mem_ball, dist_eq_norm]
  have M0 : 0 ≤ M := (norm_nonneg _).trans hM
  have hk : k ∈ Metric.ball k r := Metric.mem_ball_self hr
  have hu' : u ∈ Metric.ball k r := ball (by linarith)
  have n1 : ‖stage1 f h k - k‖ ≤ r / 8 := by
    unfold stage1
    rw [add_sub_cancel_left, norm_smul, Real.norm_eq_abs, abs_of_nonneg hh]
    exact (mul_le_mul_of_nonneg_left hM hh).trans h2
  have d1 : ‖stage1 f h u - stage1 f h k‖ ≤ (1 + L * h) * ‖u - k‖ := by
    unfold stage1
    have : u + h • f u - (k + h • f k) = (u - k) + h • (f u - f k) := by module
    rw [this]
    refine (norm_add_le _ _).trans ?_
    rw [norm_smul, Real.norm_eq_abs, abs_of_nonneg hh]
    nlinarith [lip u hu' k hk]
  have x1 : L * h ≤ 1 := by linarith [mul_comm L h]
  have x0 : 0 ≤ L * h := by positivity
  have e0 := norm_nonneg (u - k)
  have b1k : stage1 f h k ∈ Metric.ball k r := ball (by linarith)
  have b1u : stage1 f h u ∈ Metric.ball k r := by
    refine ball ?_
    have : stage1 f h u - k = (stage1 f h u - stage1 f h k) + (stage1 f h k - k) := by abel
    rw [this]
    refine lt_of_le_of_lt (norm_add_le _ _) ?_
    nlinarith
  have f1 : ‖f (stage1 f h k)‖ ≤ 2 * M + L * h * M := by
    have := lip _ b1k k hk
    have e : ‖stage1 f h k - k‖ ≤ h * M := by
      unfold stage1
      rw [add_sub_cancel_left, norm_smul, Real.norm_eq_abs, abs_of_nonneg hh]
      exact mul_le_mul_of_nonneg_left hM hh
    have t := norm_add_le (f (stage1 f h k) - f k) (f k)
    rw [sub_add_cancel] at t
    nlinarith
  have n2 : ‖stage2 f h k - k‖ ≤ r / 4 := by
    have : stage2 f h k - k = (1 / 4 : ℝ) • (stage1 f h k - k) + (h * (1 / 4)) • f (stage1 f h k) := by unfold stage2; module
    rw [this]
    refine (norm_add_le _ _).trans ?_
    rw [norm_smul, norm_smul, Real.norm_eq_abs, Real.norm_eq_abs, abs_of_nonneg (by positivity), abs_of_nonneg (by positivity)]
    have : h * ‖f (stage1 f h k)‖ ≤ 3 * (r / 8) := by
      have a := mul_le_mul_of_nonneg_left f1 hh
      have b := mul_le_mul_of_nonneg_right x1 (mul_nonneg hh M0)
      nlinarith
    nlinarith
  have d2 : ‖stage2 f h u - stage2 f h k‖ ≤ (1 + L * h) * ‖u - k‖ := by
    have : stage2 f h u - stage2 f h k = (3 / 4 : ℝ) • (u - k) + (1 / 4 : ℝ) • (stage1 f h u - stage1 f h k) + (h * (1 / 4)) • (f (stage1 f h u) - f (stage1 f h k)) := by unfold stage2; module
    rw [this]
    refine (norm_add_le _ _).trans ((add_le_add_left (norm_add_le _ _) _).trans ?_)
    rw [norm_smul, norm_smul, norm_smul, Real.norm_eq_abs, Real.norm_eq_abs, Real.norm_eq_abs, abs_of_nonneg (by positivity), abs_of_nonneg (by positivity), abs_of_nonneg (by positivity)]
    have a := lip _ b1u _ b1k
    have b := mul_le_mul_of_nonneg_left a hh
    have c := mul_le_mul_of_nonneg_left d1 (show 0 ≤ 1 / 4 + L * h / 4 by positivity)
    have d : L * h * (L * h) * ‖u - k‖ ≤ L * h * ‖u - k‖ := by
      refine mul_le_mul_of_nonneg_right ?_ e0
      nlinarith
    nlinarith
  have b2k : stage2 f h k ∈ Metric.ball k r := ball (by linarith)
  have b2u : stage2 f h u ∈ Metric.ball k r := by
    refine ball ?_
    have : stage2 f h u - k = (stage2 f h u - stage2 f h k) + (stage2 f h k - k) := by abel
    rw [this]
    refine lt_of_le_of_lt (norm_add_le _ _) ?_
    nlinarith
  have : stage3 f h u - stage3 f h k = (1 / 3 : ℝ) • (u - k) + (2 / 3 : ℝ) • (stage2 f h u - stage2 f h k) + (h * (2 / 3)) • (f (stage2 f h u) - f (stage2 f h k)) := by unfold stage3; module
  rw [this]
  refine (norm_add_le _ _).trans ((add_le_add_left (norm_add_le _ _) _).trans ?_)
  rw [norm_smul, norm_smul, norm_smul, Real.norm_eq_abs, Real.norm_eq_abs, Real.norm_eq_abs, abs_of_nonneg (by positivity), abs_of_nonneg (by positivity), abs_of_nonneg (by positivity)]
  have a := lip _ b2u _ b2k
  have b := mul_le_mul_of_nonneg_left a hh
  have c := mul_le_mul_of_nonneg_left d2 (show 0 ≤ 2 / 3 + L * h * (2 / 3) by positivity)
  have d : L * h * (L * h) * ‖u - k‖ ≤ L * h * ‖u - k‖ := by
    refine mul_le_mul_of_nonneg_right ?_ e0
    nlinarith
  nlinarith

/-- Many steps of ssprk3 follow the exact solution up to the third power of the time step. -/
theorem many_steps {y : ℝ → E} {T : ℝ} (hT : 0 ≤ T) (hf : ∀ t ∈ Icc 0 T, ContDiffAt ℝ 3 f (y t)) (hy : ∀ t ∈ Icc 0 T, ∀ᶠ s in 𝓝 t, HasDerivAt y (f (y s)) s) :
    ∃ K > 0, ∃ δ > 0, ∀ h : ℝ, 0 < h → h < δ → ∀ n : Nat, n * h ≤ T → ‖(stage3 f h)^[n] (y 0) - y (n * h)‖ ≤ K * h ^ 3 := by
  have yc : ContinuousOn y (Icc 0 T) := fun t ht => (hy t ht).self_of_nhds.continuousAt.continuousWithinAt
  have Kc : IsCompact (y '' Icc 0 T) := isCompact_Icc.image_of_continuousOn yc
  obtain ⟨K, hK, δ, hδ, step⟩ := step_uniform hf hy
  obtain ⟨L, hL, r, hr, lip⟩ := lipschitz_compact (f := f) Kc (by rintro _ ⟨t, ht, rfl⟩; exact (hf t ht).of_le (by norm_num))
  obtain ⟨M, hM⟩ := Kc.exists_bound_of_continuousOn (f := f) (by rintro _ ⟨t, ht, rfl⟩; exact (hf t ht).continuousAt.continuousWithinAt)
  obtain ⟨N, hN⟩ : ∃ N, N = K * (T + 1) * Real.exp (2 * L * T) := ⟨_, rfl⟩
  have N0 : 0 < N := by rw [hN]; positivity
  obtain ⟨b, b0, hb⟩ : ∃ b > 0, ∀ h : ℝ, 0 < h → h < b → h < δ ∧ h * L ≤ 1 ∧ h * |M| ≤ r / 8 ∧ N * h ^ 3 ≤ r / 8 := by
    have t1 : Tendsto (fun h : ℝ => h * L) (𝓝 0) (𝓝 0) := by simpa using (show Continuous fun h : ℝ => h * L by fun_prop).tendsto 0
    have t2 : Tendsto (fun h : ℝ => h * |M|) (𝓝 0) (𝓝 0) := by simpa using (show Continuous fun h : ℝ => h * |M| by fun_prop).tendsto 0
    have t3 : Tendsto (fun h : ℝ => N * h ^ 3) (𝓝 0) (𝓝 0) := by simpa using (show Continuous fun h : ℝ => N * h ^ 3 by fun_prop).tendsto 0
    have ev := ((tendsto_id (x := 𝓝 (0 : ℝ))).eventually (gt_mem_nhds hδ)).and ((t1.eventually (gt_mem_nhds one_pos)).and ((t2.eventually (gt_mem_nhds (show 0 < r / 8 by linarith))).and
      (t3.eventually (gt_mem_nhds (show 0 < r / 8 by linarith)))))
    obtain ⟨b, b0, hb⟩ := Metric.eventually_nhds_iff_ball.1 ev
    refine ⟨b, b0, fun h h0 h1 => ?_⟩
    obtain ⟨k1, k2, k3, k4⟩ := hb h (by rw [Metric.mem_ball, dist_zero_right, Real.norm_eq_abs, abs_of_pos h0]; exact h1)
    exact ⟨k1, k2.le, k3.le, k4.le⟩
  refine ⟨N, N0, b, b0, fun h h0 h1 n => ?_⟩
  obtain ⟨k1, k2, k3, k4⟩ := hb h h0 h1
  have grow : ∀ n : Nat, n * h ≤ T → n * (K * h ^ 4) * (1 + 2 * (L * h)) ^ n ≤ N * h ^ 3 := by
    intro n hn
    have e1 : (1 + 2 * (L * h)) ^ n ≤ Real.exp (2 * L * T) := by
      have := pow_le_pow_left₀ (by positivity) (show 1 + 2 * (L * h) ≤ Real.exp (2 * (L * h)) by linarith [Real.add_one_le_exp (2 * (L * h))]) n
      rw [← Real.exp_nat_mul] at this
      refine this.trans (Real.exp_le_exp.2 ?_)
      nlinarith
    have e2 : (n : ℝ) * (K * h ^ 4) ≤ K * (T + 1) * h ^ 3 := by
      have : (n : ℝ) * (K * h ^ 4) = K * (n * h) * h ^ 3 := by ring
      rw [this]
      refine mul_le_mul_of_nonneg_right (mul_le_mul_of_nonneg_left (by linarith) hK.le) (by positivity)
    rw [hN]
    calc (n : ℝ) * (K * h ^ 4) * (1 + 2 * (L * h)) ^ n ≤ K * (T + 1) * h ^ 3 * Real.exp (2 * L * T) := mul_le_mul e2 e1 (by positivity) (by positivity)
      _ = _ := by ring
  have main : ∀ n : Nat, n * h ≤ T → ‖(stage3 f h)^[n] (y 0) - y (n * h)‖ ≤ n * (K * h ^ 4) * (1 + 2 * (L * h)) ^ n := by
    intro n
    induction n with
    | zero => intro _; simp
    | succ n ih =>
      intro hn
      push_cast at hn
      have hn' : (n : ℝ) * h ≤ T := by linarith [add_mul (n : ℝ) 1 h]
      have hi := ih hn'
      have mem : (n : ℝ) * h ∈ Icc 0 T := ⟨by positivity, hn'⟩
      have mem' : y (n * h) ∈ y '' Icc 0 T := ⟨_, mem, rfl⟩
      rw [Function.iterate_succ_apply']
      generalize (stage3 f h)^[n] (y 0) = u at hi ⊢
      have st := step_stable (f := f) hL hr h0.le k2 (M := |M|) k3 ((hM _ mem').trans (le_abs_self _)) (lip _ mem') (u := u) ((hi.trans (grow n hn')).trans k4)
      have lo := (step _ mem h (by rw [abs_of_pos h0]; exact k1)).2
      rw [abs_of_pos h0] at lo
      have e : stage3 f h u - y ((n + 1 : Nat) * h) = (stage3 f h u - stage3 f h (y (n * h))) + (stage3 f h (y (n * h)) - y (n * h + h)) := by
        have : ((n + 1 : Nat) : ℝ) * h = n * h + h := by push_cast; ring
        rw [this]; abel
      rw [e]
      refine (norm_add_le _ _).trans ?_
      have p1 : (1 : ℝ) ≤ (1 + 2 * (L * h)) ^ (n + 1) := one_le_pow₀ (by nlinarith [mul_pos hL h0])
      have p2 := mul_le_mul_of_nonneg_left hi (show 0 ≤ 1 + 2 * (L * h) by positivity)
      have p3 := mul_le_mul_of_nonneg_left p1 (show 0 ≤ K * h ^ 4 by positivity)
      have p4 : (1 + 2 * (L * h)) * (n * (K * h ^ 4) * (1 + 2 * (L * h)) ^ n) = n * (K * h ^ 4) * (1 + 2 * (L * h)) ^ (n + 1) := by ring
      push_cast
      linarith [add_mul (n : ℝ) 1 ((K * h ^ 4) * (1 + 2 * (L * h)) ^ (n + 1))]
  exact fun hn => (main n hn).trans (grow n hn)

end QK.Proofs
