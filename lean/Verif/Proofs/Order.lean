import Mathlib.Analysis.Calculus.MeanValue
import Mathlib.Analysis.Asymptotics.Lemmas
import Mathlib.Analysis.Calculus.Deriv.Pow
import Mathlib.Analysis.Calculus.Deriv.Add
import Mathlib.Analysis.Calculus.Deriv.Mul
import Mathlib.Analysis.Calculus.ContDiff.RCLike
import Mathlib.Analysis.Calculus.FDeriv.Symmetric
/-
Helper lemmas for C115: the error of one step of a Runge-Kutta method, for any smooth problem in a normed space, uniformly in a parameter
(the starting point of the step).
-/
namespace QK.Proofs
open Asymptotics Filter Topology

variable {ι : Type*} {l : Filter ι} {E F : Type*} [NormedAddCommGroup E] [NormedSpace ℝ E] [NormedAddCommGroup F] [NormedSpace ℝ F]

/-- `f` has a Taylor expansion of second order with a remainder of third order, uniformly in the points `Y i`. -/
structure Taylor2 (f : E → E) (l : Filter ι) (Y : ι → E) (B : ι → E →L[ℝ] E) (C : ι → E →L[ℝ] E →L[ℝ] E) : Prop where
  value : (fun i => f (Y i)) =O[l] fun _ => (1 : ℝ)
  first : B =O[l] fun _ => (1 : ℝ)
  second : C =O[l] fun _ => (1 : ℝ)
  rest : (fun p : ι × E => f (Y p.1 + p.2) - (f (Y p.1) + B p.1 p.2 + (1 / 2 : ℝ) • C p.1 p.2 p.2)) =O[l ×ˢ 𝓝 0] fun p => ‖p.2‖ ^ 3

/-- A function whose derivative is of order `k` and that is zero at 0 is of order `k + 1`. -/
theorem bigO_of_fderiv {z : ι → E → F} {z' : ι × E → E →L[ℝ] F} {k : Nat} (h0 : ∀ i, z i 0 = 0)
    (hd : ∀ᶠ p in l ×ˢ 𝓝 (0 : E), HasFDerivAt (z p.1) (z' p) p.2) (h : z' =O[l ×ˢ 𝓝 0] fun p => ‖p.2‖ ^ k) :
    (fun p : ι × E => z p.1 p.2) =O[l ×ˢ 𝓝 0] fun p => ‖p.2‖ ^ (k + 1) := by
  obtain ⟨K, hp, hK⟩ := h.exists_pos
  obtain ⟨a, ha, b, hb, H⟩ := eventually_prod_iff.1 (hd.and hK.bound)
  obtain ⟨δ, hδ, Hb⟩ := Metric.eventually_nhds_iff_ball.1 hb
  refine IsBigO.of_bound K (eventually_prod_iff.2 ⟨a, ha, fun d => d ∈ Metric.ball 0 δ, Metric.ball_mem_nhds _ hδ, fun {i} hi {d} hd => ?_⟩)
  have sub : ∀ r ∈ Metric.closedBall (0 : E) ‖d‖, r ∈ Metric.ball (0 : E) δ := by
    intro r hr
    have hd' : ‖d‖ < δ := by simpa using hd
    rw [Metric.mem_ball, dist_zero_right]
    rw [Metric.mem_closedBall, dist_zero_right] at hr
    linarith
  have key := Convex.norm_image_sub_le_of_norm_hasFDerivWithin_le (𝕜 := ℝ) (f := z i) (f' := fun r => z' (i, r)) (s := Metric.closedBall (0 : E) ‖d‖)
    (C := K * ‖d‖ ^ k) (x := 0) (y := d) ?_ ?_ (convex_closedBall _ _) (by simp) (by simp)
  · rw [h0, sub_zero, sub_zero] at key
    refine key.trans (le_of_eq ?_)
    rw [norm_pow, norm_norm]; ring
  · intro r hr
    exact (H hi (Hb r (sub r hr))).1.hasFDerivWithinAt
  · intro r hr
    refine (H hi (Hb r (sub r hr))).2.trans ?_
    refine mul_le_mul_of_nonneg_left ?_ hp.le
    rw [norm_pow, norm_norm]
    exact pow_le_pow_left₀ (norm_nonneg _) (by simpa using hr) k

theorem bigO_of_deriv {z : ι → ℝ → E} {z' : ι × ℝ → E} {k : Nat} (h0 : ∀ i, z i 0 = 0)
    (hd : ∀ᶠ p in l ×ˢ 𝓝 (0 : ℝ), HasDerivAt (z p.1) (z' p) p.2) (h : z' =O[l ×ˢ 𝓝 0] fun p => p.2 ^ k) :
    (fun p : ι × ℝ => z p.1 p.2) =O[l ×ˢ 𝓝 0] fun p => p.2 ^ (k + 1) := by
  have := bigO_of_fderiv (k := k) h0 (hd.mono fun p h => h.hasFDerivAt) ?_
  · refine this.trans (IsBigO.of_bound 1 (Eventually.of_forall fun p => ?_))
    simp
  · refine IsBigO.trans (IsBigO.of_bound 1 (Eventually.of_forall fun p => ?_)) (h.trans (IsBigO.of_bound 1 (Eventually.of_forall fun p => ?_)))
    · simp
    · simp

/-- Higher orders are lower orders. -/
theorem bigO_pow_le {k m : Nat} (h : k ≤ m) : (fun p : ι × ℝ => p.2 ^ m) =O[l ×ˢ 𝓝 0] fun p : ι × ℝ => p.2 ^ k := by
  refine IsBigO.of_bound 1 (tendsto_snd.eventually (p := fun s : ℝ => ‖s ^ m‖ ≤ 1 * ‖s ^ k‖) (Metric.eventually_nhds_iff_ball.2 ⟨1, one_pos, fun s hs => ?_⟩))
  rw [Metric.mem_ball, dist_zero_right] at hs
  rw [one_mul, norm_pow, norm_pow]
  exact pow_le_pow_of_le_one (norm_nonneg _) hs.le h

omit [NormedSpace ℝ E] in
theorem bigO_mono {z : ι × ℝ → E} {k m : Nat} (h : z =O[l ×ˢ 𝓝 0] fun p : ι × ℝ => p.2 ^ m) (hk : k ≤ m) : z =O[l ×ˢ 𝓝 0] fun p : ι × ℝ => p.2 ^ k := h.trans (bigO_pow_le hk)

theorem bigO_smul {z : ι × ℝ → E} {k : Nat} (h : z =O[l ×ˢ 𝓝 0] fun p : ι × ℝ => p.2 ^ k) (m : Nat) : (fun p => p.2 ^ m • z p) =O[l ×ˢ 𝓝 0] fun p : ι × ℝ => p.2 ^ (k + m) := by
  refine (IsBigO.smul (isBigO_refl (fun p : ι × ℝ => p.2 ^ m) (l ×ˢ 𝓝 0)) h).congr_right fun p => ?_
  rw [smul_eq_mul, ← pow_add, Nat.add_comm]

theorem bigO_const_smul {e : ι → E} (he : e =O[l] fun _ => (1 : ℝ)) (k : Nat) : (fun p : ι × ℝ => p.2 ^ k • e p.1) =O[l ×ˢ 𝓝 0] fun p : ι × ℝ => p.2 ^ k := by
  have h1 : (fun p : ι × ℝ => e p.1) =O[l ×ˢ 𝓝 (0 : ℝ)] fun _ => (1 : ℝ) := he.comp_tendsto tendsto_fst
  refine (IsBigO.smul (isBigO_refl (fun p : ι × ℝ => p.2 ^ k) (l ×ˢ 𝓝 0)) h1).congr_right fun p => ?_
  simp

theorem bounded_apply {B : ι → E →L[ℝ] F} (hB : B =O[l] fun _ => (1 : ℝ)) {e : ι → E} (he : e =O[l] fun _ => (1 : ℝ)) : (fun i => B i (e i)) =O[l] fun _ => (1 : ℝ) := by
  refine (IsBigO.of_bound 1 (Eventually.of_forall fun i => ?_) : (fun i => B i (e i)) =O[l] fun i => ‖B i‖ * ‖e i‖).trans ?_
  · rw [one_mul, norm_mul, norm_norm, norm_norm]; exact (B i).le_opNorm _
  · simpa using hB.norm_left.mul he.norm_left

theorem bigO_apply {B : ι → E →L[ℝ] F} (hB : B =O[l] fun _ => (1 : ℝ)) {v : ι × ℝ → E} {k : Nat} (hv : v =O[l ×ˢ 𝓝 0] fun p : ι × ℝ => p.2 ^ k) :
    (fun p => B p.1 (v p)) =O[l ×ˢ 𝓝 0] fun p : ι × ℝ => p.2 ^ k := by
  have h1 : (fun p : ι × ℝ => B p.1) =O[l ×ˢ 𝓝 (0 : ℝ)] fun _ => (1 : ℝ) := hB.comp_tendsto tendsto_fst
  refine (IsBigO.of_bound 1 (Eventually.of_forall fun p => ?_) : (fun p => B p.1 (v p)) =O[l ×ˢ 𝓝 0] fun p => ‖B p.1‖ * ‖v p‖).trans ?_
  · rw [one_mul, norm_mul, norm_norm, norm_norm]; exact (B p.1).le_opNorm _
  · simpa using h1.norm_left.mul hv.norm_left

theorem bigO_apply₂ {C : ι → E →L[ℝ] E →L[ℝ] E} (hC : C =O[l] fun _ => (1 : ℝ)) {u v : ι × ℝ → E} {k m : Nat} (hu : u =O[l ×ˢ 𝓝 0] fun p : ι × ℝ => p.2 ^ k)
    (hv : v =O[l ×ˢ 𝓝 0] fun p : ι × ℝ => p.2 ^ m) : (fun p => C p.1 (u p) (v p)) =O[l ×ˢ 𝓝 0] fun p : ι × ℝ => p.2 ^ (k + m) := by
  have h1 := bigO_apply hC hu
  refine (IsBigO.of_bound 1 (Eventually.of_forall fun p => ?_) : (fun p => C p.1 (u p) (v p)) =O[l ×ˢ 𝓝 0] fun p => ‖C p.1 (u p)‖ * ‖v p‖).trans ?_
  · rw [one_mul, norm_mul, norm_norm, norm_norm]; exact (C p.1 (u p)).le_opNorm _
  · refine (h1.norm_left.mul hv.norm_left).congr_right fun p => ?_
    rw [← pow_add]

omit [NormedSpace ℝ E] in
theorem small_tendsto {d : ι × ℝ → E} (h : d =O[l ×ˢ 𝓝 0] fun p : ι × ℝ => p.2 ^ 1) : Tendsto d (l ×ˢ 𝓝 0) (𝓝 0) := by
  refine h.trans_tendsto ?_
  have : Tendsto (fun p : ι × ℝ => p.2) (l ×ˢ 𝓝 0) (𝓝 0) := tendsto_snd
  simpa using this

section
variable {f : E → E} {Y : ι → E} {B : ι → E →L[ℝ] E} {C : ι → E →L[ℝ] E →L[ℝ] E} (T : Taylor2 f l Y B C)
include T

/-- The Taylor expansion along a curve through `Y i`. -/
theorem Taylor2.along {d : ι × ℝ → E} (h : d =O[l ×ˢ 𝓝 0] fun p : ι × ℝ => p.2 ^ 1) :
    (fun p => f (Y p.1 + d p) - (f (Y p.1) + B p.1 (d p) + (1 / 2 : ℝ) • C p.1 (d p) (d p))) =O[l ×ˢ 𝓝 0] fun p : ι × ℝ => p.2 ^ 3 := by
  have t0 : Tendsto (fun p : ι × ℝ => (p.1, d p)) (l ×ˢ 𝓝 0) (l ×ˢ 𝓝 0) := tendsto_fst.prodMk (small_tendsto h)
  refine (T.rest.comp_tendsto t0).trans ?_
  have := h.norm_left.pow 3
  refine this.congr_right fun s => ?_
  ring

omit T in
/-- The quadratic term of a curve known to second order. -/
theorem quadratic (hC : C =O[l] fun _ => (1 : ℝ)) {d : ι × ℝ → E} {a : ι → E} (ha : a =O[l] fun _ => (1 : ℝ))
    (h : (fun p => d p - p.2 • a p.1) =O[l ×ˢ 𝓝 0] fun p : ι × ℝ => p.2 ^ 2) :
    (fun p => C p.1 (d p) (d p) - p.2 ^ 2 • C p.1 (a p.1) (a p.1)) =O[l ×ˢ 𝓝 0] fun p : ι × ℝ => p.2 ^ 3 := by
  have ha : (fun p : ι × ℝ => p.2 • a p.1) =O[l ×ˢ 𝓝 0] fun p : ι × ℝ => p.2 ^ 1 := by simpa using bigO_const_smul ha 1
  have hd : d =O[l ×ˢ 𝓝 0] fun p : ι × ℝ => p.2 ^ 1 := ((bigO_mono (k := 1) h (by decide)).add ha).congr_left fun s => by abel
  refine ((bigO_apply₂ hC h hd).add (bigO_apply₂ (k := 1) (m := 2) hC ha h)).congr_left fun s => ?_
  simp only [map_sub, map_smul, sub_apply, smul_apply, smul_smul]
  rw [sq]
  abel

omit T in
theorem first_small {d : ι × ℝ → E} {a : ι → E} (ha : a =O[l] fun _ => (1 : ℝ)) (h : (fun p => d p - p.2 • a p.1) =O[l ×ˢ 𝓝 0] fun p : ι × ℝ => p.2 ^ 2) :
    d =O[l ×ˢ 𝓝 0] fun p : ι × ℝ => p.2 ^ 1 := by
  have ha : (fun p : ι × ℝ => p.2 • a p.1) =O[l ×ˢ 𝓝 0] fun p : ι × ℝ => p.2 ^ 1 := by simpa using bigO_const_smul ha 1
  exact ((bigO_mono (k := 1) h (by decide)).add ha).congr_left fun s => by abel

/-- The value of `f` on a curve known to first order. -/
theorem Taylor2.at0 {d : ι × ℝ → E} (h : d =O[l ×ˢ 𝓝 0] fun p : ι × ℝ => p.2 ^ 1) : (fun p => f (Y p.1 + d p) - f (Y p.1)) =O[l ×ˢ 𝓝 0] fun p : ι × ℝ => p.2 ^ 1 := by
  have h1 := bigO_mono (k := 1) (T.along h) (by decide)
  have h2 := bigO_apply T.first h
  have h3 := (bigO_mono (k := 1) (bigO_apply₂ T.second h h) (by decide)).const_smul_left (1 / 2 : ℝ)
  refine ((h1.add h2).add h3).congr_left fun s => ?_
  simp only [Pi.smul_apply]
  abel

theorem Taylor2.at1 {d : ι × ℝ → E} {a : ι → E} (ha : a =O[l] fun _ => (1 : ℝ)) (h : (fun p => d p - p.2 • a p.1) =O[l ×ˢ 𝓝 0] fun p : ι × ℝ => p.2 ^ 2) :
    (fun p => f (Y p.1 + d p) - (f (Y p.1) + p.2 • B p.1 (a p.1))) =O[l ×ˢ 𝓝 0] fun p : ι × ℝ => p.2 ^ 2 := by
  have hd := first_small ha h
  have h1 := bigO_mono (k := 2) (T.along hd) (by decide)
  have h2 := bigO_apply T.first h
  have h3 := (bigO_apply₂ T.second hd hd).const_smul_left (1 / 2 : ℝ)
  refine ((h1.add h2).add h3).congr_left fun s => ?_
  simp only [map_sub, map_smul, Pi.smul_apply]
  abel

theorem Taylor2.at2 {d : ι × ℝ → E} {a b : ι → E} (ha : a =O[l] fun _ => (1 : ℝ)) (hb : b =O[l] fun _ => (1 : ℝ))
    (h : (fun p => d p - (p.2 • a p.1 + p.2 ^ 2 • b p.1)) =O[l ×ˢ 𝓝 0] fun p : ι × ℝ => p.2 ^ 3) :
    (fun p => f (Y p.1 + d p) - (f (Y p.1) + p.2 • B p.1 (a p.1) + p.2 ^ 2 • (B p.1 (b p.1) + (1 / 2 : ℝ) • C p.1 (a p.1) (a p.1)))) =O[l ×ˢ 𝓝 0] fun p : ι × ℝ => p.2 ^ 3 := by
  have h' : (fun p => d p - p.2 • a p.1) =O[l ×ˢ 𝓝 0] fun p : ι × ℝ => p.2 ^ 2 := ((bigO_mono (k := 2) h (by decide)).add (bigO_const_smul hb 2)).congr_left fun s => by abel
  have h1 := T.along (first_small ha h')
  have h2 := bigO_apply T.first h
  have h3 := (quadratic T.second ha h').const_smul_left (1 / 2 : ℝ)
  refine ((h1.add h2).add h3).congr_left fun s => ?_
  simp only [map_sub, map_add, map_smul, smul_sub, smul_add, smul_smul, Pi.smul_apply]
  rw [mul_comm (1 / 2 : ℝ) (s.2 ^ 2)]
  abel

/-- Exact solutions, to second and to fourth order in the time. -/
theorem exact_expansion {y : ι → ℝ → E} (y0 : ∀ i, y i 0 = Y i) (hy : ∀ᶠ p in l ×ˢ 𝓝 (0 : ℝ), HasDerivAt (y p.1) (f (y p.1 p.2)) p.2)
    (hb : (fun p : ι × ℝ => f (y p.1 p.2)) =O[l ×ˢ 𝓝 0] fun _ => (1 : ℝ)) :
    (fun p : ι × ℝ => y p.1 p.2 - Y p.1 - p.2 • f (Y p.1)) =O[l ×ˢ 𝓝 0] (fun p : ι × ℝ => p.2 ^ 2) ∧
    (fun p : ι × ℝ => y p.1 p.2 - Y p.1 - (p.2 • f (Y p.1) + p.2 ^ 2 • (1 / 2 : ℝ) • B p.1 (f (Y p.1)) +
      p.2 ^ 3 • (1 / 6 : ℝ) • (B p.1 (B p.1 (f (Y p.1))) + C p.1 (f (Y p.1)) (f (Y p.1))))) =O[l ×ˢ 𝓝 0] fun p : ι × ℝ => p.2 ^ 4 := by
  have dz : ∀ᶠ p in l ×ˢ 𝓝 (0 : ℝ), HasDerivAt (fun s => y p.1 s - Y p.1) (f (Y p.1 + (y p.1 p.2 - Y p.1))) p.2 := by
    filter_upwards [hy] with p h
    have := h.sub_const (Y p.1)
    rwa [add_sub_cancel]
  have s1 : (fun p : ι × ℝ => y p.1 p.2 - Y p.1) =O[l ×ˢ 𝓝 0] fun p : ι × ℝ => p.2 ^ 1 := by
    refine bigO_of_deriv (z := fun i s => y i s - Y i) (z' := fun p => f (Y p.1 + (y p.1 p.2 - Y p.1))) (k := 0) (by simp [y0]) dz ?_
    simpa using hb
  have s2 : (fun p : ι × ℝ => y p.1 p.2 - Y p.1 - p.2 • f (Y p.1)) =O[l ×ˢ 𝓝 0] fun p : ι × ℝ => p.2 ^ 2 := by
    refine bigO_of_deriv (z := fun i s => y i s - Y i - s • f (Y i)) (z' := fun p => f (Y p.1 + (y p.1 p.2 - Y p.1)) - f (Y p.1)) (by simp [y0]) ?_ (T.at0 s1)
    filter_upwards [dz] with p h
    refine (h.sub ((hasDerivAt_id p.2).smul_const (f (Y p.1)))).congr_deriv ?_
    simp
  have bB := bounded_apply T.first T.value
  have s3 : (fun p : ι × ℝ => y p.1 p.2 - Y p.1 - (p.2 • f (Y p.1) + p.2 ^ 2 • (1 / 2 : ℝ) • B p.1 (f (Y p.1)))) =O[l ×ˢ 𝓝 0] fun p : ι × ℝ => p.2 ^ 3 := by
    refine bigO_of_deriv (z := fun i s => y i s - Y i - (s • f (Y i) + s ^ 2 • (1 / 2 : ℝ) • B i (f (Y i))))
      (z' := fun p => f (Y p.1 + (y p.1 p.2 - Y p.1)) - (f (Y p.1) + p.2 • B p.1 (f (Y p.1)))) (by simp [y0]) ?_ (T.at1 T.value s2)
    filter_upwards [dz] with p h
    have := h.sub (((hasDerivAt_id p.2).smul_const (f (Y p.1))).add ((hasDerivAt_pow 2 p.2).smul_const ((1 / 2 : ℝ) • B p.1 (f (Y p.1)))))
    refine this.congr_deriv ?_
    norm_num [smul_smul]
    congr 1
    ring
  refine ⟨s2, ?_⟩
  refine bigO_of_deriv (z := fun i s => y i s - Y i - (s • f (Y i) + s ^ 2 • (1 / 2 : ℝ) • B i (f (Y i)) + s ^ 3 • (1 / 6 : ℝ) • (B i (B i (f (Y i))) + C i (f (Y i)) (f (Y i)))))
    (z' := fun p => f (Y p.1 + (y p.1 p.2 - Y p.1)) - (f (Y p.1) + p.2 • B p.1 (f (Y p.1)) +
      p.2 ^ 2 • (B p.1 ((1 / 2 : ℝ) • B p.1 (f (Y p.1))) + (1 / 2 : ℝ) • C p.1 (f (Y p.1)) (f (Y p.1))))) (by simp [y0]) ?_
    (T.at2 (b := fun i => (1 / 2 : ℝ) • B i (f (Y i))) T.value (bB.const_smul_left (1 / 2 : ℝ)) s3)
  filter_upwards [dz] with p h
  have := h.sub ((((hasDerivAt_id p.2).smul_const (f (Y p.1))).add ((hasDerivAt_pow 2 p.2).smul_const ((1 / 2 : ℝ) • B p.1 (f (Y p.1))))).add
    ((hasDerivAt_pow 3 p.2).smul_const ((1 / 6 : ℝ) • (B p.1 (B p.1 (f (Y p.1))) + C p.1 (f (Y p.1)) (f (Y p.1))))))
  refine this.congr_deriv ?_
  rw [one_smul, smul_smul, smul_smul, map_smul, ← smul_add, smul_smul]
  norm_num
  ring_nf

end

/-- The three stages of ssprk3 for `y' = f y`, in any vector space. -/
noncomputable def stage1 (f : E → E) (t : ℝ) (u : E) : E := u + t • f u
noncomputable def stage2 (f : E → E) (t : ℝ) (u : E) : E := (3 / 4 : ℝ) • u + (1 / 4 : ℝ) • stage1 f t u + (t * (1 / 4)) • f (stage1 f t u)
noncomputable def stage3 (f : E → E) (t : ℝ) (u : E) : E := (1 / 3 : ℝ) • u + (2 / 3 : ℝ) • stage2 f t u + (t * (2 / 3)) • f (stage2 f t u)

section
variable {f : E → E} {Y : ι → E} {B : ι → E →L[ℝ] E} {C : ι → E →L[ℝ] E →L[ℝ] E} (T : Taylor2 f l Y B C)
include T

/-- One step of ssprk3, to fourth order in the time step. -/
theorem stages_expansion :
    (fun p : ι × ℝ => stage3 f p.2 (Y p.1) - Y p.1 - (p.2 • f (Y p.1) + p.2 ^ 2 • (1 / 2 : ℝ) • B p.1 (f (Y p.1)) +
      p.2 ^ 3 • (1 / 6 : ℝ) • (B p.1 (B p.1 (f (Y p.1))) + C p.1 (f (Y p.1)) (f (Y p.1))))) =O[l ×ˢ 𝓝 0] fun p : ι × ℝ => p.2 ^ 4 := by
  have bB := bounded_apply T.first T.value
  have bC := bounded_apply (bounded_apply T.second T.value) T.value
  have l1 : (fun p : ι × ℝ => f (stage1 f p.2 (Y p.1)) - (f (Y p.1) + p.2 • B p.1 (f (Y p.1)) + p.2 ^ 2 • (1 / 2 : ℝ) • C p.1 (f (Y p.1)) (f (Y p.1)))) =O[l ×ˢ 𝓝 0] fun p : ι × ℝ => p.2 ^ 3 := by
    have := T.at2 (d := fun p => p.2 • f (Y p.1)) (a := fun i => f (Y i)) (b := fun _ => 0) T.value (isBigO_zero _ _) (by simpa using isBigO_zero (E' := E) (fun p : ι × ℝ => p.2 ^ 3) _)
    refine this.congr_left fun s => ?_
    unfold stage1
    simp
  have l1' := (bigO_smul l1 1).const_smul_left (1 / 4 : ℝ)
  have l2 : (fun p : ι × ℝ => f (stage2 f p.2 (Y p.1)) - (f (Y p.1) + p.2 • B p.1 ((1 / 2 : ℝ) • f (Y p.1)) +
      p.2 ^ 2 • (B p.1 ((1 / 4 : ℝ) • B p.1 (f (Y p.1))) + (1 / 2 : ℝ) • C p.1 ((1 / 2 : ℝ) • f (Y p.1)) ((1 / 2 : ℝ) • f (Y p.1))))) =O[l ×ˢ 𝓝 0] fun p : ι × ℝ => p.2 ^ 3 := by
    have := T.at2 (d := fun p => stage2 f p.2 (Y p.1) - Y p.1) (a := fun i => (1 / 2 : ℝ) • f (Y i)) (b := fun i => (1 / 4 : ℝ) • B i (f (Y i)))
      (T.value.const_smul_left (1 / 2 : ℝ)) (bB.const_smul_left (1 / 4 : ℝ)) ?_
    · simpa using this
    · refine ((bigO_mono l1' (k := 3) (by decide)).add ((bigO_const_smul bC 3).const_smul_left (1 / 8 : ℝ))).congr_left fun s => ?_
      simp only [Pi.smul_apply]
      unfold stage2
      generalize f (stage1 f s.2 (Y s.1)) = w
      unfold stage1
      module
  refine (((bigO_smul l2 1).const_smul_left (2 / 3 : ℝ)).add (l1'.const_smul_left (2 / 3 : ℝ))).congr_left fun s => ?_
  simp only [Pi.smul_apply, map_smul, smul_apply]
  unfold stage3
  generalize f (stage2 f s.2 (Y s.1)) = w
  unfold stage2
  generalize f (stage1 f s.2 (Y s.1)) = w
  unfold stage1
  module

/-- One step of ssprk3 differs from the exact solution by the fourth power of the step, one step of Euler's method by the second. -/
theorem step_error {y : ι → ℝ → E} (y0 : ∀ i, y i 0 = Y i) (hy : ∀ᶠ p in l ×ˢ 𝓝 (0 : ℝ), HasDerivAt (y p.1) (f (y p.1 p.2)) p.2)
    (hb : (fun p : ι × ℝ => f (y p.1 p.2)) =O[l ×ˢ 𝓝 0] fun _ => (1 : ℝ)) :
    (fun p : ι × ℝ => stage1 f p.2 (Y p.1) - y p.1 p.2) =O[l ×ˢ 𝓝 0] (fun p : ι × ℝ => p.2 ^ 2) ∧
    (fun p : ι × ℝ => stage3 f p.2 (Y p.1) - y p.1 p.2) =O[l ×ˢ 𝓝 0] fun p : ι × ℝ => p.2 ^ 4 := by
  obtain ⟨h1, h2⟩ := exact_expansion T y0 hy hb
  refine ⟨h1.neg_left.congr_left fun s => ?_, ((stages_expansion T).sub h2).congr_left fun s => ?_⟩
  · unfold stage1; abel
  · abel

end

/-- A function of a point and a small displacement that is of order `g` near each point of a compact set is so uniformly. -/
theorem bigO_compact {X : Type*} [TopologicalSpace X] {K : Set X} (hK : IsCompact K) {z : X × E → F} {g : X × E → ℝ} (h : ∀ k ∈ K, z =O[𝓝 k ×ˢ 𝓝 0] g) : z =O[𝓟 K ×ˢ 𝓝 0] g := by
  refine hK.induction_on (p := fun s => z =O[𝓟 s ×ˢ 𝓝 0] g) ?_ ?_ ?_ ?_
  · rw [principal_empty, bot_prod]; exact isBigO_bot _ _
  · intro s t hst ht
    exact ht.mono (prod_mono (principal_mono.2 hst) le_rfl)
  · intro s t hs ht
    rw [← sup_principal, sup_prod]
    exact hs.sup ht
  · intro k hk
    obtain ⟨c, hc⟩ := (h k hk).bound
    obtain ⟨a, ha, b, hb, H⟩ := eventually_prod_iff.1 hc
    refine ⟨{x | a x}, mem_nhdsWithin_of_mem_nhds ha, IsBigO.of_bound c (eventually_prod_iff.2 ⟨a, ?_, b, hb, fun {_} hx {_} hy => H hx hy⟩)⟩
    exact mem_principal_self _

omit [NormedSpace ℝ F] in
theorem bounded_compact {X : Type*} [TopologicalSpace X] {K : Set X} (hK : IsCompact K) {z : X → F} (h : ContinuousOn z K) : z =O[𝓟 K] fun _ => (1 : ℝ) := by
  obtain ⟨c, hc⟩ := hK.exists_bound_of_continuousOn h
  refine IsBigO.of_bound c ?_
  rw [eventually_principal]
  intro x hx
  simpa using hc x hx

/-- Taylor's theorem, uniformly on a compact set. -/
theorem taylor_compact {f : E → E} {K : Set E} (hK : IsCompact K) (hf : ∀ k ∈ K, ContDiffAt ℝ 3 f k) :
    Taylor2 f (𝓟 K) id (fderiv ℝ f) (fderiv ℝ (fderiv ℝ f)) := by
  have d1 : ∀ k ∈ K, ContDiffAt ℝ 2 (fderiv ℝ f) k := fun k hk => (hf k hk).fderiv_right (m := 2) (by norm_num)
  have d2 : ∀ k ∈ K, ContDiffAt ℝ 1 (fderiv ℝ (fderiv ℝ f)) k := fun k hk => (d1 k hk).fderiv_right (m := 1) (by norm_num)
  refine ⟨bounded_compact hK fun k hk => (hf k hk).continuousAt.continuousWithinAt, bounded_compact hK fun k hk => (d1 k hk).continuousAt.continuousWithinAt,
    bounded_compact hK fun k hk => (d2 k hk).continuousAt.continuousWithinAt, bigO_compact hK fun k hk => ?_⟩
  have sum : Tendsto (fun p : E × E => p.1 + p.2) (𝓝 k ×ˢ 𝓝 0) (𝓝 k) := by
    rw [← nhds_prod_eq]
    have : Continuous fun p : E × E => p.1 + p.2 := by fun_prop
    simpa using this.tendsto (k, 0)
  have z2 : (fun p : E × E => fderiv ℝ (fderiv ℝ f) (p.1 + p.2) - fderiv ℝ (fderiv ℝ f) p.1) =O[𝓝 k ×ˢ 𝓝 0] fun p => ‖p.2‖ ^ 1 := by
    obtain ⟨c, s, hs, hl⟩ := (d2 k hk).exists_lipschitzOnWith
    refine IsBigO.of_bound c ?_
    filter_upwards [sum.eventually hs, tendsto_fst.eventually hs] with p h1 h2
    have := hl.dist_le_mul _ h1 _ h2
    rw [dist_eq_norm, dist_eq_norm, add_sub_cancel_left] at this
    simpa using this
  have e1 : ∀ᶠ p : E × E in 𝓝 k ×ˢ 𝓝 0, HasFDerivAt (fderiv ℝ f) (fderiv ℝ (fderiv ℝ f) (p.1 + p.2)) (p.1 + p.2) := by
    refine sum.eventually (p := fun x => HasFDerivAt (fderiv ℝ f) (fderiv ℝ (fderiv ℝ f) x) x) ?_
    filter_upwards [(d1 k hk).eventually (by simp)] with x hx
    exact (hx.differentiableAt (by norm_num)).hasFDerivAt
  have e0 : ∀ᶠ p : E × E in 𝓝 k ×ˢ 𝓝 0, HasFDerivAt f (fderiv ℝ f (p.1 + p.2)) (p.1 + p.2) ∧ IsSymmSndFDerivAt ℝ f p.1 := by
    refine (sum.eventually (p := fun x => HasFDerivAt f (fderiv ℝ f x) x) ?_).and (tendsto_fst.eventually (p := fun x => IsSymmSndFDerivAt ℝ f x) ?_)
    · filter_upwards [(hf k hk).eventually (by simp)] with x hx
      exact (hx.differentiableAt (by norm_num)).hasFDerivAt
    · filter_upwards [(hf k hk).eventually (by simp)] with x hx
      exact hx.isSymmSndFDerivAt (by simp; norm_num)
  have z1 : (fun p : E × E => fderiv ℝ f (p.1 + p.2) - (fderiv ℝ f p.1 + fderiv ℝ (fderiv ℝ f) p.1 p.2)) =O[𝓝 k ×ˢ 𝓝 0] fun p => ‖p.2‖ ^ 2 := by
    refine bigO_of_fderiv (z := fun i d => fderiv ℝ f (i + d) - (fderiv ℝ f i + fderiv ℝ (fderiv ℝ f) i d)) (by simp) ?_ z2
    filter_upwards [e1] with p h
    have h1 := (hasFDerivAt_comp_add_left p.1).2 h
    refine (h1.sub ((hasFDerivAt_const (fderiv ℝ f p.1) p.2).add (fderiv ℝ (fderiv ℝ f) p.1).hasFDerivAt)).congr_fderiv ?_
    simp
  refine bigO_of_fderiv (z := fun i d => f (i + d) - (f i + fderiv ℝ f i d + (1 / 2 : ℝ) • fderiv ℝ (fderiv ℝ f) i d d)) (by simp) ?_ z1
  filter_upwards [e0] with p h
  have h1 := (hasFDerivAt_comp_add_left p.1).2 h.1
  have h2 : HasFDerivAt (fun d => fderiv ℝ (fderiv ℝ f) p.1 d d) _ p.2 := (fderiv ℝ (fderiv ℝ f) p.1).hasFDerivAt.clm_apply (hasFDerivAt_id p.2)
  refine (h1.sub (((hasFDerivAt_const (f p.1) p.2).add (fderiv ℝ f p.1).hasFDerivAt).add (h2.const_smul (1 / 2 : ℝ)))).congr_fderiv ?_
  ext v
  simp only [sub_apply, add_apply, smul_apply, zero_add, ContinuousLinearMap.flip_apply, ContinuousLinearMap.comp_apply, id, ContinuousLinearMap.coe_id']
  rw [h.2 v p.2]
  module

end QK.Proofs
