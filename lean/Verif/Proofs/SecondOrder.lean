import Verif.Proofs.Truncation
/- Lemmas on second order: the update from values of a smooth field away from its extrema. -/
namespace QK.Truncation
open QK Spec

/-! ### Bounds from derivatives -/

/-- A derivative of a Lipschitz function is bounded. -/
theorem deriv_le {d : Nat} {K L : ℝ} {f f' f'' : (Nat → ℝ) → ℝ} (S : SmoothIn d K f f') (S' : SmoothIn d L f' f'') (p : Nat → ℝ) : |f'' p| ≤ K := by
  have hK : 0 ≤ K := by simpa using (abs_nonneg _).trans (S.lip p 1)
  refine HasDerivAt.le_of_lip' (S'.deriv p) hK (Filter.Eventually.of_forall fun s => ?_)
  have := S.lip p s
  rw [along_zero, sub_zero]
  exact this

/-- A function with bounded derivative changes little. -/
theorem change_le {d : Nat} {K M : ℝ} {f f' : (Nat → ℝ) → ℝ} (S : SmoothIn d K f f') (h : ∀ p, |f' p| ≤ M) (p : Nat → ℝ) (s : ℝ) : |f (along p d s) - f p| ≤ M * |s| := by
  have := Convex.norm_image_sub_le_of_norm_hasDerivWithin_le (f := fun s => f (along p d s)) (f' := fun s => f' (along p d s)) (s := Set.univ) (C := M)
    (fun x _ => (S.at p x).hasDerivWithinAt) (fun x _ => h _) convex_univ (Set.mem_univ 0) (Set.mem_univ s)
  rw [along_zero, sub_zero] at this
  exact this

/-! ### Second order -/

/-- The limited increment, compared with that of a centred slope. -/
theorem inc_slope {a b : ℝ} (h : a + 1 / 10 ^ 12 ≠ 0) (hb : 1 / 10 ^ 12 ≤ |b|) :
    |1 / 2 * (((b / (a + 1 / 10 ^ 12)) * (b / (a + 1 / 10 ^ 12)) + b / (a + 1 / 10 ^ 12)) / ((b / (a + 1 / 10 ^ 12)) * (b / (a + 1 / 10 ^ 12)) + 1)) * a - (a + b) / 4| ≤
      (a - b) ^ 2 / |b| + 2 / 10 ^ 12 := by
  have he : (0 : ℝ) < 1 / 10 ^ 12 := by positivity
  rw [show (2 : ℝ) / 10 ^ 12 = 2 * (1 / 10 ^ 12) by ring]
  generalize (1 : ℝ) / 10 ^ 12 = e at *
  obtain ⟨t, ht⟩ : ∃ t, t = a + e := ⟨_, rfl⟩
  rw [← ht] at h ⊢
  have h3 : 0 < b ^ 2 + t ^ 2 := by positivity
  have b0 : 0 < |b| := by linarith
  have bb : |b| ^ 2 = b ^ 2 := sq_abs b
  have e1 : 1 / 2 * ((b / t * (b / t) + b / t) / (b / t * (b / t) + 1)) * a - (a + b) / 4 = -((t + b) / (b ^ 2 + t ^ 2)) * ((t - b) ^ 2 / 4) - e / 2 * (b * (b + t) / (b ^ 2 + t ^ 2)) + e / 4 := by
    have : b / t * (b / t) + 1 = (b ^ 2 + t ^ 2) / t ^ 2 := by field_simp
    have h4 : b / t * (b / t) + b / t = (b ^ 2 + b * t) / t ^ 2 := by field_simp
    rw [this, h4, div_div_div_cancel_right₀ (by positivity), show a = t - e by linarith]
    field_simp
    ring
  rw [e1]
  have r0 : |b * (b + t) / (b ^ 2 + t ^ 2)| ≤ 3 / 2 := by
    rw [abs_div, abs_of_pos h3, div_le_iff₀ h3, abs_le]
    constructor <;> nlinarith [sq_nonneg (b + t), sq_nonneg (b - t), sq_nonneg b, sq_nonneg t]
  have r1 : |(t + b) / (b ^ 2 + t ^ 2)| ≤ 2 / |b| := by
    rw [abs_div, abs_of_pos h3, div_le_div_iff₀ h3 b0]
    have : |t + b| * |b| = |(t + b) * b| := (abs_mul _ _).symm
    rw [this, abs_le]
    constructor <;> nlinarith [sq_nonneg (b + t), sq_nonneg (b - t), sq_nonneg b, sq_nonneg t]
  have s1 : |-((t + b) / (b ^ 2 + t ^ 2)) * ((t - b) ^ 2 / 4)| ≤ (a - b) ^ 2 / |b| + e := by
    rw [abs_mul, abs_neg, abs_of_nonneg (by positivity : (0 : ℝ) ≤ (t - b) ^ 2 / 4)]
    refine (mul_le_mul_of_nonneg_right r1 (by positivity)).trans ?_
    rw [div_add' _ _ _ b0.ne', div_mul_eq_mul_div, div_le_div_iff_of_pos_right b0]
    have : e * e ≤ e * |b| := mul_le_mul_of_nonneg_left hb he.le
    rw [ht]
    nlinarith [sq_nonneg (a - b - e)]
  have s2 : |e / 2 * (b * (b + t) / (b ^ 2 + t ^ 2))| ≤ e / 2 * (3 / 2) := by
    rw [abs_mul, abs_of_pos (show (0 : ℝ) < e / 2 by linarith)]
    exact mul_le_mul_of_nonneg_left r0 (by linarith)
  have s3 : |(-((t + b) / (b ^ 2 + t ^ 2)) * ((t - b) ^ 2 / 4) - e / 2 * (b * (b + t) / (b ^ 2 + t ^ 2)) + e / 4)| ≤
      |-((t + b) / (b ^ 2 + t ^ 2)) * ((t - b) ^ 2 / 4)| + |e / 2 * (b * (b + t) / (b ^ 2 + t ^ 2)) - e / 4| := by
    rw [show ∀ x y : ℝ, x - y + e / 4 = x - (y - e / 4) from fun x y => by ring]
    exact abs_sub _ _
  have s4 : |e / 2 * (b * (b + t) / (b ^ 2 + t ^ 2)) - e / 4| ≤ e := by
    rw [abs_le] at s2 ⊢
    constructor
    · have : -(1 / 4) ≤ b * (b + t) / (b ^ 2 + t ^ 2) := by
        rw [le_div_iff₀ h3]; nlinarith [sq_nonneg (b + t), sq_nonneg (b - t), sq_nonneg b, sq_nonneg t, sq_nonneg (5 * b + 2 * t)]
      nlinarith
    · linarith [s2.2]
  linarith

private theorem taylor3_pos {f f' : ℝ → ℝ} {c L : ℝ} (hf : ∀ s, HasDerivAt f (f' s) s) (hl : ∀ s, |f' s - f' 0 - s * c| ≤ L / 2 * s ^ 2) {s : ℝ} (hs : 0 ≤ s) :
    |f s - f 0 - s * f' 0 - s ^ 2 / 2 * c| ≤ L / 6 * s ^ 3 := by
  have hq : ∀ x : ℝ, HasDerivAt (fun s : ℝ => s ^ 2 / 2 * c) (x * c) x := fun x => by
    have := ((hasDerivAt_pow 2 x).div_const 2).mul_const c
    rw [show ((2 : ℕ) : ℝ) * x ^ (2 - 1) / 2 * c = x * c by push_cast; ring] at this
    exact this
  have hg : ∀ x, HasDerivAt (fun s => f s - f 0 - s * f' 0 - s ^ 2 / 2 * c) (f' x - f' 0 - x * c) x := fun x => by
    have := (((hf x).sub_const (f 0)).sub ((hasDerivAt_id x).mul_const (f' 0))).sub (hq x)
    rw [one_mul] at this
    exact this
  have hB : ∀ x, HasDerivAt (fun s => L / 6 * s ^ 3) (L / 2 * x ^ 2) x := fun x => by
    have := (hasDerivAt_pow 3 x).const_mul (L / 6)
    rw [show L / 6 * (((3 : ℕ) : ℝ) * x ^ (3 - 1)) = L / 2 * x ^ 2 by push_cast; ring] at this
    exact this
  exact image_norm_le_of_norm_deriv_right_le_deriv_boundary (f := fun s => f s - f 0 - s * f' 0 - s ^ 2 / 2 * c) (f' := fun x => f' x - f' 0 - x * c) (a := 0) (b := s)
    (fun x _ => (hg x).continuousAt.continuousWithinAt) (fun x _ => (hg x).hasDerivWithinAt) (B := fun s => L / 6 * s ^ 3) (B' := fun x => L / 2 * x ^ 2)
    (by simp) hB (fun x _ => hl x) (Set.right_mem_Icc.2 hs)

private theorem taylor3_all {f f' : ℝ → ℝ} {c L : ℝ} (hf : ∀ s, HasDerivAt f (f' s) s) (hl : ∀ s, |f' s - f' 0 - s * c| ≤ L / 2 * s ^ 2) (s : ℝ) :
    |f s - f 0 - s * f' 0 - s ^ 2 / 2 * c| ≤ L / 6 * |s| ^ 3 := by
  rcases le_total 0 s with h | h
  · rw [abs_of_nonneg h]; exact taylor3_pos hf hl h
  · have := taylor3_pos (f := fun s => f (-s)) (f' := fun s => -f' (-s)) (c := c) (L := L) (fun s => ?_) (fun s => ?_) (s := -s) (by linarith)
    · simp only [neg_neg, neg_zero] at this
      rw [abs_of_nonpos h, show f s - f 0 - s * f' 0 - s ^ 2 / 2 * c = f s - f 0 - -s * -f' 0 - (-s) ^ 2 / 2 * c by ring]
      exact this
    · have h2 := (hf (-s)).comp s (hasDerivAt_neg s)
      rw [mul_neg_one] at h2
      exact h2
    · have := hl (-s)
      rw [neg_zero, show -f' (-s) - -f' 0 - s * c = -(f' (-s) - f' 0 - -s * c) by ring, abs_neg]
      rwa [neg_sq] at this

/-- Third-order Taylor expansion. -/
theorem taylor3 {d : Nat} {K L : ℝ} {f f' f'' : (Nat → ℝ) → ℝ} (S : SmoothIn d K f f') (S' : SmoothIn d L f' f'') (p : Nat → ℝ) (s : ℝ) :
    |f (along p d s) - f p - s * f' p - s ^ 2 / 2 * f'' p| ≤ L / 6 * |s| ^ 3 := by
  have := taylor3_all (f := fun s => f (along p d s)) (f' := fun s => f' (along p d s)) (c := f'' p) (L := L) (fun s => S.at p s) (fun s => by rw [along_zero]; exact S'.taylor p s) s
  simpa only [along_zero] using this

/-- Where the slope is at least `m`, values at a distance `h` differ by at least `m h`. -/
theorem steep {d : Nat} {K m h : ℝ} {f f' : (Nat → ℝ) → ℝ} (S : SmoothIn d K f f') (p : Nat → ℝ) {a : ℝ} (hh : 0 < h) (hm : ∀ t, a ≤ t → t ≤ a + h → m ≤ |f' (along p d t)|) :
    m * h ≤ |f (along p d (a + h)) - f (along p d a)| := by
  obtain ⟨c, hc, e⟩ := exists_hasDerivAt_eq_slope (fun s => f (along p d s)) (fun s => f' (along p d s)) (show a < a + h by linarith)
    (fun x _ => (S.at p x).continuousAt.continuousWithinAt) (fun x _ => S.at p x)
  have := hm c hc.1.le hc.2.le
  rw [e, abs_div, add_sub_cancel_left, abs_of_pos hh, le_div_iff₀ hh] at this
  exact this

/-- Central differences. -/
theorem central3 {d : Nat} {K L : ℝ} {f f' f'' : (Nat → ℝ) → ℝ} (S : SmoothIn d K f f') (S' : SmoothIn d L f' f'') (p : Nat → ℝ) {h : ℝ} (hh : 0 < h) :
    |(f (along p d (h / 2)) - f (along p d (-(h / 2)))) / h - f' p| ≤ L / 24 * h ^ 2 := by
  have a := taylor3 S S' p (h / 2)
  have b := taylor3 S S' p (-(h / 2))
  rw [abs_neg] at b
  rw [abs_of_pos (by linarith : 0 < h / 2)] at a b
  rw [show (f (along p d (h / 2)) - f (along p d (-(h / 2)))) / h - f' p =
    ((f (along p d (h / 2)) - f p - h / 2 * f' p - (h / 2) ^ 2 / 2 * f'' p) - (f (along p d (-(h / 2))) - f p - -(h / 2) * f' p - (-(h / 2)) ^ 2 / 2 * f'' p)) / h by field_simp; ring, abs_div, abs_of_pos hh, div_le_iff₀ hh]
  refine (abs_sub _ _).trans ?_
  nlinarith


/-- How far the values at a wall may be from the field there less an eighth of the squared width times its second derivative. -/
noncomputable def wallError (K L m h δ : ℝ) : ℝ := L / 6 * h ^ 3 + 4 * K ^ 2 / m * h ^ 3 + 18 * δ + 2 / 10 ^ 12

private theorem mid_real {f f' f'' L h δ E A B C qn qc qp i : ℝ} (hL : 0 ≤ L) (hh : 0 < h)
    (tA : |A - f - -(3 * h / 2) * f' - (-(3 * h / 2)) ^ 2 / 2 * f''| ≤ L / 6 * (3 * h / 2) ^ 3)
    (tB : |B - f - -(h / 2) * f' - (-(h / 2)) ^ 2 / 2 * f''| ≤ L / 6 * (h / 2) ^ 3)
    (tC : |C - f - h / 2 * f' - (h / 2) ^ 2 / 2 * f''| ≤ L / 6 * (h / 2) ^ 3)
    (hn : |qn - A| ≤ δ) (hc : |qc - B| ≤ δ) (hp : |qp - C| ≤ δ) (hi : |i - ((qc - qn) + (qp - qc)) / 4| ≤ E) :
    |qc + i - (f - h ^ 2 / 8 * f'')| ≤ L / 6 * h ^ 3 + E + 2 * δ := by
  have δ0 : 0 ≤ δ := (abs_nonneg _).trans hn
  have e1 : L / 6 * (3 * h / 2) ^ 3 = 27 / 48 * (L * h ^ 3) := by ring
  have e2 : L / 6 * (h / 2) ^ 3 = 1 / 48 * (L * h ^ 3) := by ring
  have e3 : L / 6 * h ^ 3 = 8 / 48 * (L * h ^ 3) := by ring
  rw [e1] at tA
  rw [e2] at tB tC
  rw [e3]
  rw [show A - f - -(3 * h / 2) * f' - (-(3 * h / 2)) ^ 2 / 2 * f'' = A - f + 3 / 2 * (h * f') - 9 / 8 * (h ^ 2 * f'') by ring] at tA
  rw [show B - f - -(h / 2) * f' - (-(h / 2)) ^ 2 / 2 * f'' = B - f + 1 / 2 * (h * f') - 1 / 8 * (h ^ 2 * f'') by ring] at tB
  rw [show C - f - h / 2 * f' - (h / 2) ^ 2 / 2 * f'' = C - f - 1 / 2 * (h * f') - 1 / 8 * (h ^ 2 * f'') by ring] at tC
  rw [show h ^ 2 / 8 * f'' = 1 / 8 * (h ^ 2 * f'') by ring]
  have : 0 ≤ L * h ^ 3 := by positivity
  generalize L * h ^ 3 = w at *
  generalize h * f' = w1 at *
  generalize h ^ 2 * f'' = w2 at *
  rw [abs_le] at *
  constructor <;> linarith [tA.1, tA.2, tB.1, tB.2, tC.1, tC.2, hn.1, hn.2, hc.1, hc.2, hp.1, hp.2, hi.1, hi.2]

private theorem slope_real {K m h δ a b : ℝ} (hh : 0 < h) (hm : 0 < m) (h0 : 0 ≤ δ) (hδ : 4 * δ ≤ m * h) (hab : |a - b| ≤ K * h ^ 2 + 4 * δ) (hb : m * h / 2 ≤ |b|) :
    (a - b) ^ 2 / |b| ≤ 4 * K ^ 2 / m * h ^ 3 + 16 * δ := by
  have mh : 0 < m * h := by positivity
  have b0 : 0 < |b| := by linarith
  rw [div_le_iff₀ b0]
  have h1 : (a - b) ^ 2 ≤ (K * h ^ 2 + 4 * δ) ^ 2 := by
    rw [← sq_abs (a - b)]; exact pow_le_pow_left₀ (abs_nonneg _) hab 2
  have h2 : (K * h ^ 2 + 4 * δ) ^ 2 ≤ 2 * K ^ 2 * h ^ 4 + 32 * δ ^ 2 := by nlinarith [sq_nonneg (K * h ^ 2 - 4 * δ)]
  have h3 : 32 * δ ^ 2 ≤ 16 * δ * (m * h / 2) := by nlinarith
  have h4 : 2 * K ^ 2 * h ^ 4 = 4 * K ^ 2 / m * h ^ 3 * (m * h / 2) := by field_simp; ring
  have h5 : (4 * K ^ 2 / m * h ^ 3 + 16 * δ) * (m * h / 2) ≤ (4 * K ^ 2 / m * h ^ 3 + 16 * δ) * |b| := mul_le_mul_of_nonneg_left hb (by positivity)
  linarith

/-- The values at a wall from values near a smooth function without extrema nearby. -/
theorem recon_second {d : Nat} {K L m δ h : ℝ} {f f' f'' : (Nat → ℝ) → ℝ} (S : SmoothIn d K f f') (S' : SmoothIn d L f' f'') (p : Nat → ℝ) (hh : 0 < h) (hm : 0 < m)
    (hδ : 4 * δ ≤ m * h) (he : 2 / 10 ^ 12 ≤ m * h) (V : Sloped d m (3 * h / 2) f f' p) {qn qc qp qpp : ℝ}
    (hn : |qn - f (along p d (-(3 * h / 2)))| ≤ δ) (hc : |qc - f (along p d (-(h / 2)))| ≤ δ) (hp : |qp - f (along p d (h / 2))| ≤ δ) (hpp : |qpp - f (along p d (3 * h / 2))| ≤ δ)
    (h1 : qc - qn + 1 / 10 ^ 12 ≠ 0) (h2 : qpp - qp + 1 / 10 ^ 12 ≠ 0) :
    |(FV.recon qn qc qp qpp).1 - (f p - h ^ 2 / 8 * f'' p)| ≤ wallError K L m h δ ∧ |(FV.recon qn qc qp qpp).2 - (f p - h ^ 2 / 8 * f'' p)| ≤ wallError K L m h δ := by
  have δ0 : 0 ≤ δ := (abs_nonneg _).trans hn
  have hK : 0 ≤ K := by simpa using (abs_nonneg _).trans (S.lip p 1)
  have hL : 0 ≤ L := by simpa using (abs_nonneg _).trans (S'.lip p 1)
  have tA := taylor3 S S' p (-(3 * h / 2))
  have tB := taylor3 S S' p (-(h / 2))
  have tC := taylor3 S S' p (h / 2)
  have tD := taylor3 S S' p (3 * h / 2)
  rw [abs_neg] at tA tB
  rw [abs_of_pos (by linarith : 0 < 3 * h / 2)] at tA tD
  rw [abs_of_pos (by linarith : 0 < h / 2)] at tB tC
  rcases V with V | V
  · have st := steep S p (a := -(h / 2)) hh (m := m) fun t l u => V t (by rw [abs_le]; constructor <;> linarith)
    rw [show -(h / 2) + h = h / 2 by ring] at st
    have s1 := second S (along p d (-(h / 2))) h
    have s2 := second S (along p d (h / 2)) h
    rw [along_along, along_along] at s1 s2
    rw [show -(h / 2) + -h = -(3 * h / 2) by ring, show -(h / 2) + h = h / 2 by ring] at s1
    rw [show h / 2 + -h = -(h / 2) by ring, show h / 2 + h = 3 * h / 2 by ring] at s2
    generalize f (along p d (-(3 * h / 2))) = A at *
    generalize f (along p d (-(h / 2))) = B at *
    generalize f (along p d (h / 2)) = C at *
    generalize f (along p d (3 * h / 2)) = D at *
    have hb : m * h / 2 ≤ |qp - qc| := by
      have : |C - B| ≤ |qp - qc| + 2 * δ := by
        rw [show C - B = (qp - qc) + ((qc - B) - (qp - C)) by ring]
        refine (abs_add_le _ _).trans ?_
        have := abs_sub (qc - B) (qp - C)
        linarith
      linarith
    have d1 : |(qc - qn) - (qp - qc)| ≤ K * h ^ 2 + 4 * δ := by
      clear tA tB tC tD st hb
      rw [abs_le] at *; constructor <;> linarith [hn.1, hn.2, hc.1, hc.2, hp.1, hp.2, s1.1, s1.2]
    have d2 : |(qpp - qp) - (qp - qc)| ≤ K * h ^ 2 + 4 * δ := by
      clear tA tB tC tD st hb
      rw [abs_le] at *; constructor <;> linarith [hpp.1, hpp.2, hc.1, hc.2, hp.1, hp.2, s2.1, s2.2]
    have i1 := (inc_slope (b := qp - qc) h1 (by linarith)).trans (add_le_add_left (slope_real hh hm δ0 hδ d1 hb) _)
    have i2 := (inc_slope (b := qp - qc) h2 (by linarith)).trans (add_le_add_left (slope_real hh hm δ0 hδ d2 hb) _)
    constructor
    · have := mid_real hL hh tA tB tC hn hc hp i1
      unfold wallError
      refine le_trans (le_of_eq ?_) (this.trans (le_of_eq (by ring)))
      simp only [FV.recon, real_lit]
      push_cast
      congr 2
    · have := mid_real (f := f p) (f' := -f' p) (f'' := f'' p) (A := D) (B := C) (C := B) (qn := qpp) (qc := qp) (qp := qc) hL hh (by convert tD using 2; ring) (by convert tC using 2; ring) (by convert tB using 2; ring) hpp hp hc
        (i := -(1 / 2 * (((qp - qc) / (qpp - qp + 1 / 10 ^ 12) * ((qp - qc) / (qpp - qp + 1 / 10 ^ 12)) + (qp - qc) / (qpp - qp + 1 / 10 ^ 12)) / ((qp - qc) / (qpp - qp + 1 / 10 ^ 12) * ((qp - qc) / (qpp - qp + 1 / 10 ^ 12)) + 1)) * (qpp - qp)))
        (le_trans (le_of_eq (by rw [← abs_neg]; congr 1; ring)) i2)
      unfold wallError
      refine le_trans (le_of_eq ?_) (this.trans (le_of_eq (by ring)))
      simp only [FV.recon, real_lit]
      push_cast
      congr 2
      ring
  · have v1 := V (-(3 * h / 2)) (by rw [abs_neg, abs_of_pos (by linarith)])
    have v2 := V (-(h / 2)) (by rw [abs_neg, abs_of_pos (by linarith)]; linarith)
    have v3 := V (h / 2) (by rw [abs_of_pos (by linarith)]; linarith)
    have v4 := V (3 * h / 2) (by rw [abs_of_pos (by linarith)])
    rw [v1] at hn
    rw [v2] at hc tB
    rw [v3] at hp tC
    rw [v4] at hpp
    obtain ⟨r1, r2⟩ := recon_mid h1 h2
    have t1 : |qn - 2 * qc + qp| ≤ 4 * δ := by
      clear tA tB tC tD r1 r2 h1 h2; rw [abs_le] at *; constructor <;> linarith [hn.1, hn.2, hc.1, hc.2, hp.1, hp.2]
    have t2 : |qc - 2 * qp + qpp| ≤ 4 * δ := by
      clear tA tB tC tD r1 r2 h1 h2; rw [abs_le] at *; constructor <;> linarith [hpp.1, hpp.2, hc.1, hc.2, hp.1, hp.2]
    have q : |h ^ 2 / 8 * f'' p| ≤ L / 6 * h ^ 3 := by
      clear tA tD r1 r2 h1 h2 hn hc hp hpp t1 t2
      have w : 0 ≤ L * h ^ 3 := by positivity
      rw [show L / 6 * (h / 2) ^ 3 = 1 / 48 * (L * h ^ 3) by ring, show f p - f p - -(h / 2) * f' p - (-(h / 2)) ^ 2 / 2 * f'' p = 1 / 2 * (h * f' p) - h ^ 2 / 8 * f'' p by ring] at tB
      rw [show L / 6 * (h / 2) ^ 3 = 1 / 48 * (L * h ^ 3) by ring, show f p - f p - h / 2 * f' p - (h / 2) ^ 2 / 2 * f'' p = -(1 / 2 * (h * f' p)) - h ^ 2 / 8 * f'' p by ring] at tC
      rw [show L / 6 * h ^ 3 = 8 / 48 * (L * h ^ 3) by ring]
      generalize L * h ^ 3 = w at *
      generalize h * f' p = w1 at *
      rw [abs_le] at *
      constructor <;> linarith [tB.1, tB.2, tC.1, tC.2]
    have z : 0 ≤ 4 * K ^ 2 / m * h ^ 3 := by positivity
    unfold wallError
    generalize h ^ 2 / 8 * f'' p = w2 at *
    generalize L / 6 * h ^ 3 = w3 at *
    generalize 4 * K ^ 2 / m * h ^ 3 = w4 at *
    clear tA tB tC tD h1 h2
    constructor
    · clear r2; rw [abs_le] at r1 hc hp q ⊢; constructor <;> linarith [r1.1, r1.2, q.1, q.2, hc.1, hc.2, hp.1, hp.2]
    · clear r1; rw [abs_le] at r2 hc hp q ⊢; constructor <;> linarith [r2.1, r2.2, q.1, q.2, hc.1, hc.2, hp.1, hp.2]

/-- The values at the lower face of `y`. -/
theorem face_second {g : Rectilinear ℝ} {n : Nat} {U D D2 : (Nat → ℝ) → Nat → ℝ} {u : Cell → Nat → ℝ} {d : Nat} {y : Cell} {K L m δ h : ℝ}
    (hd : d < y.length) (hh : g.dxs.getD d 0 = h) (h0 : 0 < h) (hm : 0 < m) (hδ : 4 * δ ≤ m * h) (he : 2 / 10 ^ 12 ≤ m * h)
    (hs : ∀ j < n, SmoothIn d K (fun p => U p j) (fun p => D p j)) (hs' : ∀ j < n, SmoothIn d L (fun p => D p j) (fun p => D2 p j))
    (V : ∀ j < n, Sloped d m (3 * h / 2) (fun p => U p j) (fun p => D p j) (along (centre g y) d (-(h / 2))))
    (hu : ∀ s : Int, -2 ≤ s → s ≤ 1 → ∀ j < n, |u (moveBy y d s) j - U (centre g (moveBy y d s)) j| ≤ δ)
    (hz : ∀ s : Int, -2 ≤ s → s ≤ 0 → ∀ j < n, u (moveBy y d (s + 1)) j - u (moveBy y d s) j + 1 / 10 ^ 12 ≠ 0) (j : Nat) (hj : j < n) :
    |(FV.recon (u (moveBy y d (-2)) j) (u (moveBy y d (-1)) j) (u y j) (u (moveBy y d 1) j)).1 -
      (U (along (centre g y) d (-(h / 2))) j - h ^ 2 / 8 * D2 (along (centre g y) d (-(h / 2))) j)| ≤ wallError K L m h δ ∧
    |(FV.recon (u (moveBy y d (-2)) j) (u (moveBy y d (-1)) j) (u y j) (u (moveBy y d 1) j)).2 -
      (U (along (centre g y) d (-(h / 2))) j - h ^ 2 / 8 * D2 (along (centre g y) d (-(h / 2))) j)| ≤ wallError K L m h δ := by
  have m0 : moveBy y d 0 = y := moveBy_zero y d
  have a1 := hu (-2) (by omega) (by omega) j hj
  have a2 := hu (-1) (by omega) (by omega) j hj
  have a3 := hu 0 (by omega) (by omega) j hj
  have a4 := hu 1 (by omega) (by omega) j hj
  have z1 := hz (-2) (by omega) (by omega) j hj
  have z2 := hz 0 (by omega) (by omega) j hj
  rw [centre_moveBy hd, hh] at a1 a2 a3 a4
  rw [m0] at a3 z2
  rw [show (-2 + 1 : Int) = -1 by omega] at z1
  rw [show (0 + 1 : Int) = 1 by omega] at z2
  refine recon_second (hs j hj) (hs' j hj) _ h0 hm hδ he (V j hj) ?_ ?_ ?_ ?_ z1 z2 <;> rw [along_along]
  · convert a1 using 6; push_cast; ring
  · convert a2 using 6; push_cast; ring
  · convert a3 using 6; push_cast; ring
  · convert a4 using 6; push_cast; ring

/-- A field that is sloped around `p` is sloped around points near `p`. -/
theorem sloped_near {d : Nat} {m r r' s : ℝ} {f f' : (Nat → ℝ) → ℝ} {p : Nat → ℝ} (h : Sloped d m r f f' p) (hs : |s| + r' ≤ r) (h0 : 0 ≤ r') : Sloped d m r' f f' (along p d s) := by
  have k : ∀ t, |t| ≤ r' → |s + t| ≤ r := fun t ht => (abs_add_le s t).trans (by linarith)
  rcases h with h | h
  · left; intro t ht; rw [along_along]; exact h _ (k t ht)
  · right; intro t ht; rw [along_along, h _ (k t ht), h s (by linarith)]

/-- The update from values near a smooth field without extrema nearby, for a numerical flux which for states near `U - h²/8 U''` is near `P`, of which the
distance from the flux `F` changes little. -/
theorem update_second {g : Rectilinear ℝ} {m n : Nat} {φ : Nat → List ℝ → List ℝ → List ℝ} {U : (Nat → ℝ) → Nat → ℝ} {D D2 : Nat → (Nat → ℝ) → Nat → ℝ}
    {u : Cell → Nat → ℝ} {x : Cell} {K L s δ C K1 K2 : ℝ} {K3 : Nat → ℝ} {j : Nat} {F dF ddF P : Nat → (Nat → ℝ) → ℝ} (hm : m ≤ x.length) (hw : ∀ d < m, 0 < g.dxAt d)
    (h0 : 0 < s) (hδ : ∀ d < m, 4 * δ ≤ s * g.dxAt d) (he : ∀ d < m, 2 / 10 ^ 12 ≤ s * g.dxAt d)
    (hs : ∀ d < m, ∀ j < n, SmoothIn d K (fun p => U p j) (fun p => D d p j)) (hs' : ∀ d < m, ∀ j < n, SmoothIn d L (fun p => D d p j) (fun p => D2 d p j))
    (V : ∀ d < m, ∀ j < n, Sloped d s (2 * g.dxAt d) (fun p => U p j) (fun p => D d p j) (centre g x))
    (hu : Samples g m n U δ u x) (hz : NoZero m n u x)
    (hF : ∀ d < m, SmoothIn d K1 (F d) (dF d)) (hF' : ∀ d < m, SmoothIn d K2 (dF d) (ddF d)) 
    (hP : ∀ d < m, ∀ p, |P d (along p d (g.dxAt d)) - F d (along p d (g.dxAt d)) - (P d p - F d p)| ≤ K3 d * g.dxAt d ^ 3)
    (hφ : ∀ d < m, ∀ p, ∀ wl wr : Nat → ℝ, (∀ j < n, |wl j - (U p j - g.dxAt d ^ 2 / 8 * D2 d p j)| ≤ wallError K L s (g.dxAt d) δ) →
      (∀ j < n, |wr j - (U p j - g.dxAt d ^ 2 / 8 * D2 d p j)| ≤ wallError K L s (g.dxAt d) δ) →
      |(φ d ((List.range n).map wl) ((List.range n).map wr)).getD j 0 - P d p| ≤ C * wallError K L s (g.dxAt d) δ) :
    |fvUpdate φ n u g.dxAt (List.range m) x j 0 - ((List.range m).map fun d => -dF d (centre g x)).sum| ≤
      ((List.range m).map fun d => 2 * C * wallError K L s (g.dxAt d) δ / g.dxAt d + (K2 / 24 + K3 d) * g.dxAt d ^ 2).sum := by
  rw [fvUpdate_add, zero_add]
  refine list_sum_near fun d hd => ?_
  rw [List.mem_range] at hd
  have hd' : d < x.length := by omega
  have w0 := hw d hd
  have hh : g.dxs.getD d 0 = g.dxAt d := by unfold Rectilinear.dxAt; rw [real_lit]; norm_num
  have a := face_second (g := g) (n := n) (D := D d) (D2 := D2 d) (u := u) (y := x) (δ := δ) hd' hh w0 h0 (hδ d hd) (he d hd) (hs d hd) (hs' d hd)
    (fun j hj => sloped_near (V d hd j hj) (by rw [abs_neg, abs_of_pos (by linarith)]; linarith) (by linarith))
    (fun s h1 h2 => hu d hd s h1 (by omega)) (fun s h1 h2 => hz d hd s h1 (by omega))
  have e1 : ∀ t, along (centre g (moveBy x d 1)) d t = along (centre g x) d (g.dxAt d + t) := fun t => by
    rw [centre_moveBy hd', along_along, hh]; push_cast; rw [one_mul]
  have e2 : along (centre g (moveBy x d 1)) d (-(g.dxAt d / 2)) = along (centre g x) d (g.dxAt d / 2) := by rw [e1]; congr 1; ring
  have b := face_second (g := g) (n := n) (D := D d) (D2 := D2 d) (u := u) (y := moveBy x d 1) (δ := δ) (by simpa using hd') hh w0 h0 (hδ d hd) (he d hd) (hs d hd) (hs' d hd)
    (fun j hj => by rw [e2]; exact sloped_near (V d hd j hj) (by rw [abs_of_pos (by linarith)]; linarith) (by linarith))
    (fun s h1 h2 => by rw [moveBy_moveBy]; exact hu d hd (1 + s) (by omega) (by omega))
    (fun s h1 h2 => by rw [moveBy_moveBy, moveBy_moveBy, show 1 + (s + 1) = 1 + s + 1 by ring]; exact hz d hd (1 + s) (by omega) (by omega))
  rw [e2] at b
  have fa := hφ d hd _ _ _ (fun j hj => (a j hj).1) (fun j hj => (a j hj).2)
  have fb := hφ d hd _ _ _ (fun j hj => (b j hj).1) (fun j hj => (b j hj).2)
  have cd := central3 (hF d hd) (hF' d hd) (centre g x) w0
  have gd := hP d hd (along (centre g x) d (-(g.dxAt d / 2)))
  rw [along_along, show -(g.dxAt d / 2) + g.dxAt d = g.dxAt d / 2 by ring] at gd
  unfold faceFlux
  dsimp only at *
  generalize List.getD (φ d (List.map (fun j => (FV.recon (u (moveBy x d (-2)) j) (u (moveBy x d (-1)) j) (u x j) (u (moveBy x d 1) j)).1) (List.range n))
    (List.map (fun j => (FV.recon (u (moveBy x d (-2)) j) (u (moveBy x d (-1)) j) (u x j) (u (moveBy x d 1) j)).2) (List.range n))) j 0 = A at *
  generalize List.getD (φ d (List.map (fun j => (FV.recon (u (moveBy (moveBy x d 1) d (-2)) j) (u (moveBy (moveBy x d 1) d (-1)) j) (u (moveBy x d 1) j) (u (moveBy (moveBy x d 1) d 1) j)).1) (List.range n))
    (List.map (fun j => (FV.recon (u (moveBy (moveBy x d 1) d (-2)) j) (u (moveBy (moveBy x d 1) d (-1)) j) (u (moveBy x d 1) j) (u (moveBy (moveBy x d 1) d 1) j)).2) (List.range n))) j 0 = B at *
  generalize F d (along (centre g x) d (g.dxAt d / 2)) = F1 at *
  generalize F d (along (centre g x) d (-(g.dxAt d / 2))) = F0 at *
  generalize P d (along (centre g x) d (g.dxAt d / 2)) = P1 at *
  generalize P d (along (centre g x) d (-(g.dxAt d / 2))) = P0 at *
  rw [show A / g.dxAt d - B / g.dxAt d - -dF d (centre g x) = ((A - P0) - (B - P1)) / g.dxAt d
    - ((F1 - F0) / g.dxAt d - dF d (centre g x) + (P1 - F1 - (P0 - F0)) / g.dxAt d) by field_simp; ring]
  refine (abs_sub _ _).trans (add_le_add ?_ ?_)
  · rw [abs_div, abs_of_pos w0]
    refine div_le_div_of_nonneg_right ?_ w0.le
    have := abs_sub (A - P0) (B - P1)
    linarith
  · refine (abs_add_le _ _).trans ?_
    have : |(P1 - F1 - (P0 - F0)) / g.dxAt d| ≤ K3 d * g.dxAt d ^ 2 := by
      rw [abs_div, abs_of_pos w0, div_le_iff₀ w0]
      linarith
    linarith

end QK.Truncation
