import Verif.Model.ArithX
import Verif.Proofs.FvReal
import Verif.Spec.Limiter
/- Properties C74-C76, C79, C80: the Maxwell flux, the reconstruction at cell walls, and special values. -/
namespace QK.Props
open QK Spec

/-! ### C74: the Maxwell flux -/

/-- **C74** The code's flux is the average of the fluxes of both sides minus `|c|/2` times the jump of the transverse fields
(exact arithmetic). -/
theorem C74_rusanov (c : ℝ) (d : Fin 3) (El Bl Er Br : Vec) :
    Maxwell.rusanov c (d : Nat) (emComps El Bl) (emComps Er Br) =
      .ok (emComps (dampedFlux c d El Bl Er Br).1 (dampedFlux c d El Bl Er Br).2) := by
  unfold dampedFlux cross unit transverse emComps
  fin_cases d <;>
  · simp [Maxwell.rusanov, real_lit, real_fabs]
    try refine ⟨?_, ?_, ?_, ?_⟩
    all_goals ring

/-- **C74** It is energy stable: with the energy variables `(E, c² B)`, the jump of the variables times the flux is the jump
of the energy flux minus the damping, which is never negative (exact arithmetic). -/
theorem C74_energy (c : ℝ) (d : Fin 3) (El Bl Er Br : Vec) (FE FB : Vec)
    (h : Maxwell.rusanov c (d : Nat) (emComps El Bl) (emComps Er Br) = .ok (emComps FE FB)) :
    vdot (fun i => Er i - El i) FE + vdot (fun i => c ^ 2 * (Br i - Bl i)) FB =
      poynting c d Er Br - poynting c d El Bl
      - |c| / 2 * (vdot (transverse d (fun i => Er i - El i)) (transverse d (fun i => Er i - El i))
        + c ^ 2 * vdot (transverse d (fun i => Br i - Bl i)) (transverse d (fun i => Br i - Bl i))) ∧
    vdot (fun i => Er i - El i) FE + vdot (fun i => c ^ 2 * (Br i - Bl i)) FB ≤ poynting c d Er Br - poynting c d El Bl := by
  rw [C74_rusanov] at h
  have h' : emComps (dampedFlux c d El Bl Er Br).1 (dampedFlux c d El Bl Er Br).2 = emComps FE FB := by injection h
  unfold emComps at h'
  injection h' with h0 h'; injection h' with h1 h'; injection h' with h2 h'; injection h' with h3 h'
  injection h' with h4 h'; injection h' with h5 _
  have e : vdot (fun i => Er i - El i) FE + vdot (fun i => c ^ 2 * (Br i - Bl i)) FB =
      poynting c d Er Br - poynting c d El Bl
      - |c| / 2 * (vdot (transverse d (fun i => Er i - El i)) (transverse d (fun i => Er i - El i))
        + c ^ 2 * vdot (transverse d (fun i => Br i - Bl i)) (transverse d (fun i => Br i - Bl i))) := by
    unfold vdot
    rw [← h0, ← h1, ← h2, ← h3, ← h4, ← h5]
    unfold dampedFlux poynting cross unit transverse
    fin_cases d <;> simp <;> ring
  refine ⟨e, ?_⟩
  rw [e]
  have hv : ∀ v : Vec, 0 ≤ vdot v v := by
    intro v; unfold vdot; nlinarith [mul_self_nonneg (v 0), mul_self_nonneg (v 1), mul_self_nonneg (v 2)]
  have : 0 ≤ |c| / 2 * (vdot (transverse d (fun i => Er i - El i)) (transverse d (fun i => Er i - El i))
        + c ^ 2 * vdot (transverse d (fun i => Br i - Bl i)) (transverse d (fun i => Br i - Bl i))) := by
    have := hv (transverse d (fun i => Er i - El i))
    have := hv (transverse d (fun i => Br i - Bl i))
    positivity
  linarith

-- a jump that is damped: speed of light -2, direction 0, `E_y` jumps from 0 to 1
example : ∃ FE FB, Maxwell.rusanov (-2 : ℝ) ((0 : Fin 3) : Nat) (emComps ![0, 0, 0] ![0, 0, 0]) (emComps ![0, 1, 0] ![0, 0, 0]) =
    .ok (emComps FE FB) ∧ FE 1 = -1 := by
  refine ⟨_, _, C74_rusanov _ _ _ _ _ _, ?_⟩
  simp [dampedFlux, cross, unit, transverse]

/-! ### C75, C80: the reconstruction -/

private noncomputable abbrev eps : ℝ := 1 / 10 ^ 12

/-- The limited increment, as the code computes it. -/
private noncomputable def inc (a b : ℝ) : ℝ := 1 / 2 * (((b / (a + eps)) * (b / (a + eps)) + b / (a + eps)) / ((b / (a + eps)) * (b / (a + eps)) + 1)) * a

private theorem recon_inc (qn qc qp qpp : ℝ) :
    FV.recon qn qc qp qpp = (qc + inc (qc - qn) (qp - qc), qp - inc (qpp - qp) (qp - qc)) := by
  simp only [FV.recon, real_lit, inc, eps]
  push_cast
  refine Prod.ext ?_ ?_
  · ring
  · simp only []; ring

private theorem inc_eq {a b : ℝ} (h : a + eps ≠ 0) :
    inc a b = a * b * (b + (a + eps)) / (2 * (b ^ 2 + (a + eps) ^ 2)) := by
  unfold inc
  generalize a + eps = t at *
  have h3 : 0 < b ^ 2 + t ^ 2 := by positivity
  have h2 : b / t * (b / t) + 1 = (b ^ 2 + t ^ 2) / t ^ 2 := by field_simp
  have h4 : b / t * (b / t) + b / t = (b ^ 2 + b * t) / t ^ 2 := by field_simp
  rw [h2, h4, div_div_div_cancel_right₀ (by positivity)]
  field_simp

private theorem inc_up {a b : ℝ} (ha : 0 ≤ a) (hb : 0 ≤ b) : 0 ≤ inc a b ∧ inc a b ≤ b := by
  have he : 0 < a + eps := by positivity
  rw [inc_eq he.ne']
  have hp : 0 < 2 * (b ^ 2 + (a + eps) ^ 2) := by positivity
  refine ⟨by positivity, ?_⟩
  rw [div_le_iff₀ hp]
  have ha' : a ≤ a + eps := by have : (0:ℝ) < eps := by positivity
                               linarith
  generalize a + eps = t at *
  have h1 : a * (b + t) ≤ t * (b + t) := mul_le_mul_of_nonneg_right ha' (by linarith)
  have h2 : t * (b + t) ≤ 2 * (b ^ 2 + t ^ 2) := by nlinarith [sq_nonneg (b - t), sq_nonneg b, sq_nonneg t]
  nlinarith [mul_le_mul_of_nonneg_left (h1.trans h2) hb]

private theorem inc_down {a b : ℝ} (ha : a ≤ 0) (hb : b ≤ 0) (h : a + eps ≠ 0) : b - eps ≤ inc a b ∧ inc a b ≤ eps := by
  have hE : (0:ℝ) < eps := by positivity
  rw [inc_eq h]
  have hp : 0 < 2 * (b ^ 2 + (a + eps) ^ 2) := by positivity
  rw [div_le_iff₀ hp, le_div_iff₀ hp]
  generalize ht : a + eps = t at *
  have hat : a = t - eps := by linarith
  generalize eps = e at *
  subst hat
  rcases lt_or_gt_of_ne h with ht | ht
  · constructor
    · have h1 : 0 ≤ b * (b + t) := by nlinarith
      have h2 : b * (b + t) ≤ 2 * (b ^ 2 + t ^ 2) := by nlinarith [sq_nonneg (b - t), sq_nonneg b, sq_nonneg t]
      have h3 : t * (b + t) ≤ 2 * (b ^ 2 + t ^ 2) := by nlinarith [sq_nonneg (b - t), sq_nonneg b, sq_nonneg t]
      nlinarith [mul_le_mul_of_nonpos_left h3 hb, mul_le_mul_of_nonneg_left h2 hE.le]
    · have h1 : 0 ≤ b * (b + t) := by nlinarith
      have : (t - e) * b * (b + t) ≤ 0 := by nlinarith
      have : 0 ≤ e * (2 * (b ^ 2 + t ^ 2)) := by positivity
      linarith
  · have h2 : b * (b + t) ≤ 2 * (b ^ 2 + t ^ 2) := by nlinarith [sq_nonneg (b - t), sq_nonneg b, sq_nonneg t]
    have h3 : -(2 * (b ^ 2 + t ^ 2)) ≤ b * (b + t) := by nlinarith [sq_nonneg (b + t), sq_nonneg b, sq_nonneg t]
    have h4 : 0 ≤ e - t := by linarith
    have h5 : e - t ≤ e := by linarith
    have hS : 0 ≤ 2 * (b ^ 2 + t ^ 2) := by positivity
    constructor
    · nlinarith [mul_le_mul_of_nonneg_left h2 h4, mul_le_mul_of_nonneg_right h5 hS, mul_nonneg_of_nonpos_of_nonpos hb (neg_nonpos.2 hS)]
    · nlinarith [mul_le_mul_of_nonneg_left h3 h4, mul_le_mul_of_nonneg_right h5 hS]

/-- **C75**, what holds, for increasing data: both reconstructed values lie between the values of the two cells at the wall
(exact arithmetic). Missing: data with an extremum (`C75_false`), and for decreasing data the small term in the denominators
allows an error, see `C75_decreasing_partial`. -/
theorem C75_increasing_partial {qn qc qp qpp : ℝ} (h1 : qn ≤ qc) (h2 : qc ≤ qp) (h3 : qp ≤ qpp) :
    qc ≤ (FV.recon qn qc qp qpp).1 ∧ (FV.recon qn qc qp qpp).1 ≤ qp ∧
    qc ≤ (FV.recon qn qc qp qpp).2 ∧ (FV.recon qn qc qp qpp).2 ≤ qp := by
  rw [recon_inc]
  have a := inc_up (a := qc - qn) (b := qp - qc) (by linarith) (by linarith)
  have b := inc_up (a := qpp - qp) (b := qp - qc) (by linarith) (by linarith)
  refine ⟨by linarith [a.1], by linarith [a.2], by linarith [b.2], by linarith [b.1]⟩

/-- **C75**, what holds, for decreasing data: the values lie between those of the two cells up to `1e-12`, unless a
denominator is zero (exact arithmetic). -/
theorem C75_decreasing_partial {qn qc qp qpp : ℝ} (h1 : qc ≤ qn) (h2 : qp ≤ qc) (h3 : qpp ≤ qp)
    (d1 : qc - qn + 1 / 10 ^ 12 ≠ 0) (d2 : qpp - qp + 1 / 10 ^ 12 ≠ 0) :
    qp - 1 / 10 ^ 12 ≤ (FV.recon qn qc qp qpp).1 ∧ (FV.recon qn qc qp qpp).1 ≤ qc + 1 / 10 ^ 12 ∧
    qp - 1 / 10 ^ 12 ≤ (FV.recon qn qc qp qpp).2 ∧ (FV.recon qn qc qp qpp).2 ≤ qc + 1 / 10 ^ 12 := by
  rw [recon_inc]
  have a := inc_down (a := qc - qn) (b := qp - qc) (by linarith) (by linarith) d1
  have b := inc_down (a := qpp - qp) (b := qp - qc) (by linarith) (by linarith) d2
  unfold eps at a b
  refine ⟨by linarith [a.1], by linarith [a.2], by linarith [b.2], by linarith [b.1]⟩

example : ∃ qn qc qp qpp : ℝ, qc < qn ∧ qp < qc ∧ qpp < qp ∧ qc - qn + 1 / 10 ^ 12 ≠ 0 ∧ qpp - qp + 1 / 10 ^ 12 ≠ 0 :=
  ⟨4, 3, 2, 1, by norm_num, by norm_num, by norm_num, by norm_num, by norm_num⟩

/-- **C75** is false: at an extremum the reconstruction overshoots all four values, and positive cell values (densities,
say) give a negative wall value (exact arithmetic). -/
theorem C75_false :
    (∃ qn qc qp qpp : ℝ, qn < (FV.recon qn qc qp qpp).1 ∧ qc < (FV.recon qn qc qp qpp).1 ∧ qp < (FV.recon qn qc qp qpp).1 ∧
      qpp < (FV.recon qn qc qp qpp).1) ∧
    (∃ qn qc qp qpp : ℝ, 0 < qn ∧ 0 < qc ∧ 0 < qp ∧ 0 < qpp ∧ (FV.recon qn qc qp qpp).1 < 0) := by
  refine ⟨⟨-1, 0, -2, -4, ?_⟩, ⟨11 / 10, 1 / 10, 21 / 10, 1, ?_⟩⟩
  · rw [recon_inc, inc_eq (by norm_num)]; norm_num
  · rw [recon_inc, inc_eq (by norm_num)]; norm_num

/-- The limited increment `y` stays between 0 and the step `b` at the wall exactly under this condition on the step `a` behind it. -/
private theorem inc_between {a b : ℝ} (h : a + eps ≠ 0) (hb : b ≠ 0) :
    (0 ≤ a * (b + (a + eps)) ∧ a * (b + (a + eps)) ≤ 2 * (b ^ 2 + (a + eps) ^ 2)) ↔ min 0 b ≤ inc a b ∧ inc a b ≤ max 0 b := by
  rw [inc_eq h]
  have hp : 0 < 2 * (b ^ 2 + (a + eps) ^ 2) := by positivity
  generalize a + eps = t at *
  rw [show a * b * (b + t) = b * (a * (b + t)) by ring, div_le_iff₀ hp, le_div_iff₀ hp]
  generalize a * (b + t) = x at *
  generalize 2 * (b ^ 2 + t ^ 2) = y at *
  rcases lt_or_gt_of_ne hb with hb | hb
  · rw [min_eq_right hb.le, max_eq_left hb.le, mul_le_mul_left_of_neg hb, zero_mul]
    exact ⟨fun h => ⟨h.2, mul_nonpos_of_nonpos_of_nonneg hb.le h.1⟩, fun h => ⟨nonneg_of_mul_nonpos_right h.2 hb, h.1⟩⟩
  · rw [min_eq_left hb.le, max_eq_right hb.le, mul_le_mul_iff_of_pos_left hb, zero_mul]
    exact ⟨fun h => ⟨mul_nonneg hb.le h.1, h.2⟩, fun h => ⟨nonneg_of_mul_nonneg_right h.1 hb, h.2⟩⟩

/-- **C75**, exactly when it holds (exact arithmetic): with `a` the step behind the wall, `b ≠ 0` the step at the wall and `t = a + 1e-12 ≠ 0` the denominator of the
code, the reconstructed value lies between the values of the two cells if and only if `0 ≤ a (b + t) ≤ 2 (b² + t²)`. Both sides of the wall. -/
theorem C75_exactly {qn qc qp qpp a t b : ℝ} (hb : b = qp - qc) (hb0 : b ≠ 0) (ht : t = a + 1 / 10 ^ 12) (ht0 : t ≠ 0) :
    (a = qc - qn → (min qc qp ≤ (FV.recon qn qc qp qpp).1 ∧ (FV.recon qn qc qp qpp).1 ≤ max qc qp ↔
      0 ≤ a * (b + t) ∧ a * (b + t) ≤ 2 * (b ^ 2 + t ^ 2))) ∧
    (a = qpp - qp → (min qc qp ≤ (FV.recon qn qc qp qpp).2 ∧ (FV.recon qn qc qp qpp).2 ≤ max qc qp ↔
      0 ≤ a * (b + t) ∧ a * (b + t) ≤ 2 * (b ^ 2 + t ^ 2))) := by
  have key := inc_between (a := a) (b := b) (by rw [ht] at ht0; exact ht0) hb0
  rw [show a + eps = t from ht.symm] at key
  rw [recon_inc, key, ← hb]
  have e : qp = qc + b := by linarith
  have e1 : min qc qp = qc + min 0 b := by rw [e, ← min_add_add_left, add_zero]
  have e2 : max qc qp = qc + max 0 b := by rw [e, ← max_add_add_left, add_zero]
  rw [e1, e2]
  refine ⟨fun ha => ?_, fun ha => ?_⟩
  · simp only [← ha]
    constructor <;> rintro ⟨h, k⟩ <;> exact ⟨by linarith, by linarith⟩
  · simp only [← ha]
    have s1 : min 0 b + max 0 b = b := by rw [min_add_max, zero_add]
    constructor <;> rintro ⟨h, k⟩ <;> exact ⟨by linarith, by linarith⟩

/-- **C75** at an extremum (exact arithmetic): the reconstructed value lies beyond the extremum if and only if the step at the wall is larger than the step on the other
side of the cell, up to the 1e-12 of the code. First a maximum and a minimum in the left cell, then in the right cell of the wall. -/
theorem C75_extrema {qn qc qp qpp : ℝ} (d1 : qc - qn + 1 / 10 ^ 12 ≠ 0) (d2 : qpp - qp + 1 / 10 ^ 12 ≠ 0) :
    (qn < qc → qp < qc → (qc < (FV.recon qn qc qp qpp).1 ↔ qc - qn + 1 / 10 ^ 12 < qc - qp)) ∧
    (qc < qn → qc < qp → ((FV.recon qn qc qp qpp).1 < qc ↔ qn - qc - 1 / 10 ^ 12 < qp - qc)) ∧
    (qc < qp → qpp < qp → (qp < (FV.recon qn qc qp qpp).2 ↔ qp - qpp - 1 / 10 ^ 12 < qp - qc)) ∧
    (qp < qc → qp < qpp → ((FV.recon qn qc qp qpp).2 < qp ↔ qpp - qp + 1 / 10 ^ 12 < qc - qp)) := by
  rw [recon_inc]
  -- the sign of the increment
  have pos : ∀ {a b : ℝ}, a + eps ≠ 0 → 0 < a → b < 0 → (0 < inc a b ↔ b + (a + eps) < 0) := by
    intro a b h ha hb
    rw [inc_eq h]
    have hp : 0 < 2 * (b ^ 2 + (a + eps) ^ 2) := by positivity
    generalize a + eps = t at *
    have hab : a * b < 0 := mul_neg_of_pos_of_neg ha hb
    rw [div_pos_iff_of_pos_right hp]
    exact ⟨fun h => by by_contra hc; exact absurd h (not_lt.2 (mul_nonpos_of_nonpos_of_nonneg hab.le (not_lt.1 hc))), fun h => mul_pos_of_neg_of_neg hab h⟩
  have neg : ∀ {a b : ℝ}, a + eps ≠ 0 → a < 0 → 0 < b → (inc a b < 0 ↔ 0 < b + (a + eps)) := by
    intro a b h ha hb
    rw [inc_eq h]
    have hp : 0 < 2 * (b ^ 2 + (a + eps) ^ 2) := by positivity
    generalize a + eps = t at *
    have hab : a * b < 0 := mul_neg_of_neg_of_pos ha hb
    rw [div_lt_iff₀ hp, zero_mul]
    exact ⟨fun h => by by_contra hc; exact absurd h (not_lt.2 (mul_nonneg_of_nonpos_of_nonpos hab.le (not_lt.1 hc))), fun h => mul_neg_of_neg_of_pos hab h⟩
  refine ⟨fun h1 h2 => ?_, fun h1 h2 => ?_, fun h1 h2 => ?_, fun h1 h2 => ?_⟩
  · have := pos (a := qc - qn) (b := qp - qc) d1 (by linarith) (by linarith)
    simp only [eps] at this ⊢
    constructor <;> intro h
    · have := this.1 (by linarith); linarith
    · have := this.2 (by linarith); linarith
  · have := neg (a := qc - qn) (b := qp - qc) d1 (by linarith) (by linarith)
    simp only [eps] at this ⊢
    constructor <;> intro h
    · have := this.1 (by linarith); linarith
    · have := this.2 (by linarith); linarith
  · have := neg (a := qpp - qp) (b := qp - qc) d2 (by linarith) (by linarith)
    simp only [eps] at this ⊢
    constructor <;> intro h
    · have := this.1 (by linarith); linarith
    · have := this.2 (by linarith); linarith
  · have := pos (a := qpp - qp) (b := qp - qc) d2 (by linarith) (by linarith)
    simp only [eps] at this ⊢
    constructor <;> intro h
    · have := this.1 (by linarith); linarith
    · have := this.2 (by linarith); linarith

-- a maximum with a small step at the wall is kept, with a large one it is exceeded
example : ¬ 0 < (FV.recon (-2 : ℝ) 0 (-1) 0).1 ∧ 0 < (FV.recon (-1 : ℝ) 0 (-2) 0).1 := by
  refine ⟨?_, ?_⟩
  · rw [(C75_extrema (qn := -2) (qc := 0) (qp := -1) (qpp := 0) (by norm_num) (by norm_num)).1 (by norm_num) (by norm_num)]; norm_num
  · rw [(C75_extrema (qn := -1) (qc := 0) (qp := -2) (qpp := 0) (by norm_num) (by norm_num)).1 (by norm_num) (by norm_num)]; norm_num

/-- **C80** On linear data both reconstructed values are the value at the wall up to `1e-12` (exact arithmetic), unless the
denominator is zero. -/
theorem C80_linear (q b : ℝ) (h : b + 1 / 10 ^ 12 ≠ 0) :
    |(FV.recon (q - b) q (q + b) (q + 2 * b)).1 - (q + b / 2)| ≤ 1 / 10 ^ 12 ∧
    |(FV.recon (q - b) q (q + b) (q + 2 * b)).2 - (q + b / 2)| ≤ 1 / 10 ^ 12 := by
  have key : |inc b b - b / 2| ≤ eps := by
    have hE : (0:ℝ) < eps := by positivity
    rw [inc_eq (show b + eps ≠ 0 from h)]
    have hp : 0 < 2 * (b ^ 2 + (b + eps) ^ 2) := by
      have : 0 < (b + eps) ^ 2 := by have : b + eps ≠ 0 := h
                                     positivity
      positivity
    have e : b * b * (b + (b + eps)) / (2 * (b ^ 2 + (b + eps) ^ 2)) - b / 2 =
        -(eps * b * (b + eps)) / (2 * (b ^ 2 + (b + eps) ^ 2)) := by
      rw [eq_div_iff hp.ne', sub_mul, div_mul_cancel₀ _ hp.ne']
      ring
    rw [e, abs_div, abs_of_pos hp, div_le_iff₀ hp, abs_neg, mul_assoc, abs_mul, abs_of_pos hE]
    apply mul_le_mul_of_nonneg_left _ hE.le
    rw [abs_le]
    constructor <;> nlinarith [sq_nonneg (b - (b + eps)), sq_nonneg (b + (b + eps)), sq_nonneg b, sq_nonneg (b + eps)]
  rw [recon_inc]
  have e1 : q - (q - b) = b := by ring
  have e2 : q + b - q = b := by ring
  have e3 : q + 2 * b - (q + b) = b := by ring
  simp only [e1, e2, e3]
  refine ⟨?_, ?_⟩
  · rw [show q + inc b b - (q + b / 2) = inc b b - b / 2 by ring]; exact key
  · rw [show q + b - inc b b - (q + b / 2) = -(inc b b - b / 2) by ring, abs_neg]; exact key

example : (3 : ℝ) + 1 / 10 ^ 12 ≠ 0 := by norm_num

/-! ### C76, C79: special values -/

open XReal in
/-- **C76**, what holds: if neither denominator is zero, finite values are reconstructed to finite values, the ones of real
arithmetic. Missing: zero denominators, see `C76_false`. -/
theorem C76_partial {qn qc qp qpp : ℝ} (d1 : qc - qn + 1 / 10 ^ 12 ≠ 0) (d2 : qpp - qp + 1 / 10 ^ 12 ≠ 0) :
    FV.recon (fin qn) (fin qc) (fin qp) (fin qpp) =
      (fin (FV.recon qn qc qp qpp).1, fin (FV.recon qn qc qp qpp).2) := by
  have p : ∀ x : ℝ, x * x + 1 ≠ 0 := fun x => (by nlinarith [mul_self_nonneg x] : (0:ℝ) < x * x + 1).ne'
  have e1 : qc - qn + (((1 / 10 ^ 12 : ℚ)) : ℝ) ≠ 0 := by push_cast; exact d1
  have e2 : qpp - qp + (((1 / 10 ^ 12 : ℚ)) : ℝ) ≠ 0 := by push_cast; exact d2
  have p' : ∀ x : ℝ, x * x + ((1 : ℚ) : ℝ) ≠ 0 := fun x => by push_cast; exact p x
  simp only [FV.recon, fin_lit, fin_sub, fin_add, fin_div _ _ e1, fin_div _ _ e2, fin_mul, fin_div _ _ (p' _), real_lit]

/-- With a quotient whose denominator is zero the limited state is NaN. -/
private theorem nan_of_zero (n : ℝ) {z q d : XReal} (hz : z = .fin 0) :
    q + Arith.lit (1 / 2) * ((XReal.fin n / z * (XReal.fin n / z) + XReal.fin n / z) / (XReal.fin n / z * (XReal.fin n / z) + Arith.lit 1)) * d = .nan := by
  subst hz
  obtain ⟨y, hy, h⟩ : ∃ y, (XReal.fin n / XReal.fin 0 : XReal) = y ∧ (y = .nan ∨ ∃ s, y = .inf s) := by
    refine ⟨_, rfl, ?_⟩
    show XReal.div _ _ = .nan ∨ ∃ s, XReal.div _ _ = .inf s
    by_cases h0 : n = 0 <;> simp [XReal.div, h0]
  rw [hy]
  have hn : ∀ a : XReal, a * .nan = .nan := by intro a; cases a <;> rfl
  have hn' : ∀ a : XReal, .nan * a = .nan := by intro a; cases a <;> rfl
  have ha : ∀ a : XReal, a + .nan = .nan := by intro a; cases a <;> rfl
  have hphi : (y * y + y) / (y * y + Arith.lit 1) = .nan := by
    rcases h with rfl | ⟨s, rfl⟩
    · rfl
    · cases s <;> rfl
  rw [hphi, hn, hn', ha]

open XReal in
/-- **C76** is false: whenever the value left of the wall's left cell is larger by exactly `1e-12`, the left state is NaN. -/
theorem C76_false (qc qp qpp : ℝ) :
    (FV.recon (fin (qc + 1 / 10 ^ 12)) (fin qc) (fin qp) (fin qpp)).1 = nan := by
  have z : fin qc - fin (qc + 1 / 10 ^ 12) + Arith.lit (1 / 10 ^ 12) = fin 0 := by
    simp only [fin_lit, fin_sub, fin_add]; congr 1; push_cast; ring
  simp only [FV.recon, fin_sub qp qc]
  exact nan_of_zero _ z

open XReal in
/-- **C76**, exactly when it holds: each wall value of finite cell values is finite if and only if the denominator of its side is not zero; otherwise it is NaN. -/
theorem C76_exactly (qn qc qp qpp : ℝ) :
    ((∃ x, (FV.recon (fin qn) (fin qc) (fin qp) (fin qpp)).1 = fin x) ↔ qc - qn + 1 / 10 ^ 12 ≠ 0) ∧
    ((∃ x, (FV.recon (fin qn) (fin qc) (fin qp) (fin qpp)).2 = fin x) ↔ qpp - qp + 1 / 10 ^ 12 ≠ 0) ∧
    (qc - qn + 1 / 10 ^ 12 = 0 → (FV.recon (fin qn) (fin qc) (fin qp) (fin qpp)).1 = nan) ∧
    (qpp - qp + 1 / 10 ^ 12 = 0 → (FV.recon (fin qn) (fin qc) (fin qp) (fin qpp)).2 = nan) := by
  have p' : ∀ x : ℝ, x * x + ((1 : ℚ) : ℝ) ≠ 0 := fun x => by push_cast; exact (by nlinarith [mul_self_nonneg x] : (0:ℝ) < x * x + 1).ne'
  have n1 : qc - qn + 1 / 10 ^ 12 = 0 → (FV.recon (fin qn) (fin qc) (fin qp) (fin qpp)).1 = nan := by
    intro h
    have z : fin qc - fin qn + Arith.lit (1 / 10 ^ 12) = fin 0 := by
      simp only [fin_lit, fin_sub, fin_add]; congr 1; push_cast; exact h
    simp only [FV.recon, fin_sub qp qc]
    exact nan_of_zero _ z
  have n2 : qpp - qp + 1 / 10 ^ 12 = 0 → (FV.recon (fin qn) (fin qc) (fin qp) (fin qpp)).2 = nan := by
    intro h
    have z : fin qpp - fin qp + Arith.lit (1 / 10 ^ 12) = fin 0 := by
      simp only [fin_lit, fin_sub, fin_add]; congr 1; push_cast; exact h
    simp only [FV.recon, fin_sub qp qc]
    exact nan_of_zero _ z
  refine ⟨⟨?_, fun d1 => ?_⟩, ⟨?_, fun d2 => ?_⟩, n1, n2⟩
  · rintro ⟨x, hx⟩ h
    rw [n1 h] at hx; cases hx
  · have e1 : qc - qn + (((1 / 10 ^ 12 : ℚ)) : ℝ) ≠ 0 := by push_cast; exact d1
    simp only [FV.recon, fin_lit, fin_sub, fin_add, fin_div _ _ e1, fin_mul, fin_div _ _ (p' _)]
    exact ⟨_, rfl⟩
  · rintro ⟨x, hx⟩ h
    rw [n2 h] at hx; cases hx
  · have e2 : qpp - qp + (((1 / 10 ^ 12 : ℚ)) : ℝ) ≠ 0 := by push_cast; exact d2
    simp only [FV.recon, fin_lit, fin_sub, fin_add, fin_div _ _ e2, fin_mul, fin_div _ _ (p' _)]
    exact ⟨_, rfl⟩

-- the values 0, 1 and the one 1e-12 above 0 have no zero denominator on the right
example : (1 : ℝ) - 1 + 1 / 10 ^ 12 ≠ 0 := by norm_num


section
open XReal Euler

private theorem combine_fin {sll srr : ℝ} (h : srr - sll ≠ 0) (f f' q q' : ℝ) :
    combine (fin sll) (fin srr) (fin f) (fin f') (fin q) (fin q') = fin (combine sll srr f f' q q') := by
  simp only [combine, fin_lit, fin_lt, fin_le, fin_ofBool, fin_mul, fin_sub, fin_add, fin_div _ _ h]
  rfl

private theorem combine_notFin (s f f' q q' : ℝ) : ∀ x, combine (fin s) (fin s) (fin f) (fin f') (fin q) (fin q') ≠ fin x := by
  intro x
  simp only [combine, fin_ofBool, fin_mul, fin_sub, fin_add, sub_self]
  generalize s * f - s * f' + s * s * (q' - q) = n
  have hd : ∃ y, (fin n / fin 0 : XReal) = y ∧ (y = nan ∨ ∃ s, y = inf s) := by
    refine ⟨_, rfl, ?_⟩
    show XReal.div _ _ = nan ∨ ∃ s, XReal.div _ _ = inf s
    by_cases h0 : n = 0 <;> simp [XReal.div, h0]
  obtain ⟨y, hy, h⟩ := hd
  rw [hy]
  have hm : ∀ a : ℝ, (fin a * y = nan ∨ ∃ s, fin a * y = inf s) := by
    intro a
    rcases h with rfl | ⟨t, rfl⟩
    · exact .inl rfl
    · show XReal.mul _ _ = nan ∨ ∃ s, XReal.mul _ _ = inf s
      by_cases h0 : a = 0 <;> simp [XReal.mul, h0]
  have ha : ∀ {z : XReal} (a : ℝ), (z = nan ∨ ∃ s, z = inf s) → (z + fin a = nan ∨ ∃ s, z + fin a = inf s) := by
    rintro z a (rfl | ⟨t, rfl⟩)
    · exact .inl rfl
    · exact .inr ⟨t, rfl⟩
  intro he
  rcases ha _ (ha _ (hm _)) with h' | ⟨t, h'⟩ <;> rw [h'] at he <;> cases he

private theorem pOf_fin {rho : ℝ} (gamma m0 m1 m2 e : ℝ) (h : rho ≠ 0) :
    pOf (fin gamma) (fin rho) (fin m0) (fin m1) (fin m2) (fin e) = fin (pOf gamma rho m0 m1 m2 e) := by
  simp only [pOf, fin_lit, fin_mul, fin_sub, fin_add, fin_div _ _ h, real_lit]

private theorem pOf_pressure (gamma : ℝ) (q : Gas) :
    pOf gamma q.rho (q.mom 0) (q.mom 1) (q.mom 2) q.en = q.pressure gamma := by
  unfold pOf Gas.pressure vdot; simp only [real_lit]; push_cast; ring

/-- The components of a gas as doubles. -/
def xcomps (q : Gas) : List XReal := q.comps.map fin

/-- **C79**, what holds: if both densities are nonzero, the arguments of the square roots are not negative, and the two
computed signal speeds differ, the flux is finite and the one of real arithmetic. Missing: equal signal speeds, see
`C79_false`. -/
theorem C79_partial (gamma : ℝ) (d : Fin 3) (l r : Gas) (hl : l.rho ≠ 0) (hr : r.rho ≠ 0)
    (pl : 0 ≤ gamma * l.pressure gamma / l.rho) (pr : 0 ≤ gamma * r.pressure gamma / r.rho)
    (hne : l.vel d - l.sound gamma ≠ r.vel d + r.sound gamma) :
    ∃ out, hll gamma (d : Nat) l.comps r.comps = .ok out ∧
      hll (fin gamma) (d : Nat) (xcomps l) (xcomps r) = .ok (out.map fin) := by
  have h : (r.vel d + r.sound gamma) - (l.vel d - l.sound gamma) ≠ 0 := fun h => hne (by linarith)
  have sl : Arith.sqrt (fin (gamma * l.pressure gamma / l.rho)) = fin (l.sound gamma) := fin_sqrt _ pl
  have sr : Arith.sqrt (fin (gamma * r.pressure gamma / r.rho)) = fin (r.sound gamma) := fin_sqrt _ pr
  have sl' : Arith.sqrt (gamma * l.pressure gamma / l.rho) = l.sound gamma := rfl
  have sr' : Arith.sqrt (gamma * r.pressure gamma / r.rho) = r.sound gamma := rfl
  unfold xcomps Gas.comps Gas.vel at *
  simp only [List.map_cons, List.map_nil]
  fin_cases d
  · simp only [Fin.zero_eta] at h
    refine ⟨_, hll_dim0 .., ?_⟩
    refine (hll_dim0 ..).trans ?_
    simp only [pOf_fin _ _ _ _ _ hl, pOf_fin _ _ _ _ _ hr, pOf_pressure, fin_mul, fin_div _ _ hl, fin_div _ _ hr, sl, sr, sl', sr',
      fin_sub, fin_add, hllWith, of5, combine_fin h, List.map_cons, List.map_nil]
  · simp only [Fin.mk_one] at h
    refine ⟨_, hll_dim1 .., ?_⟩
    refine (hll_dim1 ..).trans ?_
    simp only [pOf_fin _ _ _ _ _ hl, pOf_fin _ _ _ _ _ hr, pOf_pressure, fin_mul, fin_div _ _ hl, fin_div _ _ hr, sl, sr, sl', sr',
      fin_sub, fin_add, hllWith, of5, combine_fin h, List.map_cons, List.map_nil]
  · simp only [Fin.reduceFinMk] at h
    refine ⟨_, hll_dim2 .., ?_⟩
    refine (hll_dim2 ..).trans ?_
    simp only [pOf_fin _ _ _ _ _ hl, pOf_fin _ _ _ _ _ hr, pOf_pressure, fin_mul, fin_div _ _ hl, fin_div _ _ hr, sl, sr, sl', sr',
      fin_sub, fin_add, hllWith, of5, combine_fin h, List.map_cons, List.map_nil]

/-- **C79** is false: if the two computed signal speeds are equal, no component of the flux is finite, although the intermediate
flux that divides by their difference is multiplied by 0. There are admissible states with equal speeds. -/
theorem C79_false :
    (∀ (gamma : ℝ) (d : Fin 3) (l r : Gas), l.rho ≠ 0 → r.rho ≠ 0 →
      0 ≤ gamma * l.pressure gamma / l.rho → 0 ≤ gamma * r.pressure gamma / r.rho →
      l.vel d - l.sound gamma = r.vel d + r.sound gamma →
      ∃ out, hll (fin gamma) (d : Nat) (xcomps l) (xcomps r) = .ok out ∧ out.length = 5 ∧ ∀ x ∈ out, ∀ y, x ≠ fin y) ∧
    (∃ (gamma : ℝ) (l r : Gas), 1 < gamma ∧ 0 < l.rho ∧ 0 < r.rho ∧ 0 < l.pressure gamma ∧ 0 < r.pressure gamma ∧
      l.vel 0 - l.sound gamma = r.vel 0 + r.sound gamma) := by
  refine ⟨?_, ?_⟩
  · intro gamma d l r hl hr pl pr h
    have sl : Arith.sqrt (fin (gamma * l.pressure gamma / l.rho)) = fin (l.sound gamma) := fin_sqrt _ pl
    have sr : Arith.sqrt (fin (gamma * r.pressure gamma / r.rho)) = fin (r.sound gamma) := fin_sqrt _ pr
    unfold xcomps Gas.comps Gas.vel at *
    simp only [List.map_cons, List.map_nil]
    fin_cases d
    · refine ⟨_, hll_dim0 .., rfl, ?_⟩
      simp only [Fin.zero_eta] at h
      simp only [pOf_fin _ _ _ _ _ hl, pOf_fin _ _ _ _ _ hr, pOf_pressure, fin_mul, fin_div _ _ hl, fin_div _ _ hr, sl, sr,
        fin_sub, fin_add, hllWith, of5, h]
      intro x hx y
      simp only [List.mem_cons, List.not_mem_nil, or_false] at hx
      rcases hx with rfl | rfl | rfl | rfl | rfl <;> exact combine_notFin _ _ _ _ _ _
    · refine ⟨_, hll_dim1 .., rfl, ?_⟩
      simp only [Fin.mk_one] at h
      simp only [pOf_fin _ _ _ _ _ hl, pOf_fin _ _ _ _ _ hr, pOf_pressure, fin_mul, fin_div _ _ hl, fin_div _ _ hr, sl, sr,
        fin_sub, fin_add, hllWith, of5, h]
      intro x hx y
      simp only [List.mem_cons, List.not_mem_nil, or_false] at hx
      rcases hx with rfl | rfl | rfl | rfl | rfl <;> exact combine_notFin _ _ _ _ _ _
    · refine ⟨_, hll_dim2 .., rfl, ?_⟩
      simp only [Fin.reduceFinMk] at h
      simp only [pOf_fin _ _ _ _ _ hl, pOf_fin _ _ _ _ _ hr, pOf_pressure, fin_mul, fin_div _ _ hl, fin_div _ _ hr, sl, sr,
        fin_sub, fin_add, hllWith, of5, h]
      intro x hx y
      simp only [List.mem_cons, List.not_mem_nil, or_false] at hx
      rcases hx with rfl | rfl | rfl | rfl | rfl <;> exact combine_notFin _ _ _ _ _ _
  · have v2 : ∀ a b c : ℝ, (![a, b, c] : Vec) 2 = c := fun _ _ _ => rfl
    have hPl : (⟨1, ![3, 0, 0], 13 / 2⟩ : Gas).pressure 2 = 2 := by norm_num [Gas.pressure, vdot, v2]
    have hPr : (⟨1, ![-1, 0, 0], 5 / 2⟩ : Gas).pressure 2 = 2 := by norm_num [Gas.pressure, vdot, v2]
    have hsq : Real.sqrt (2 * 2 / 1) = 2 := by
      rw [show (2 * 2 / 1 : ℝ) = 2 ^ 2 by norm_num]; exact Real.sqrt_sq (by norm_num)
    refine ⟨2, ⟨1, ![3, 0, 0], 13 / 2⟩, ⟨1, ![-1, 0, 0], 5 / 2⟩, by norm_num, by norm_num, by norm_num, by rw [hPl]; norm_num,
      by rw [hPr]; norm_num, ?_⟩
    unfold Gas.sound Gas.vel
    rw [hPl, hPr]
    simp only [hsq]
    norm_num

/-- **C79**, exactly when it holds: the flux of two states with positive density and pressure is finite if and only if the two computed signal speeds differ. -/
theorem C79_exactly {gamma : ℝ} (hg : 0 < gamma) (d : Fin 3) {l r : Gas} (hl : 0 < l.rho) (hr : 0 < r.rho) (pl : 0 < l.pressure gamma) (pr : 0 < r.pressure gamma) :
    (∃ out : List ℝ, hll (fin gamma) (d : Nat) (xcomps l) (xcomps r) = .ok (out.map fin)) ↔ l.vel d - l.sound gamma ≠ r.vel d + r.sound gamma := by
  refine ⟨fun ⟨out, h⟩ he => ?_, fun h => ?_⟩
  · obtain ⟨out', h', hlen, hn⟩ := C79_false.1 gamma d l r hl.ne' hr.ne' (by positivity) (by positivity) he
    rw [h] at h'
    injection h' with h'
    subst h'
    cases out with
    | nil => simp at hlen
    | cons a out => exact hn (fin a) (by simp) a rfl
  · obtain ⟨out, -, h'⟩ := C79_partial gamma d l r hl.ne' hr.ne' (by positivity) (by positivity) h
    exact ⟨out, h'⟩

/-- **C79** for equal states (the uniform flow): density and pressure positive is enough. -/
theorem C79_uniform (gamma : ℝ) (hg : 0 < gamma) (d : Fin 3) (q : Gas) (hr : 0 < q.rho) (hP : 0 < q.pressure gamma) :
    ∃ out, hll gamma (d : Nat) q.comps q.comps = .ok out ∧ hll (fin gamma) (d : Nat) (xcomps q) (xcomps q) = .ok (out.map fin) := by
  have hc : 0 < q.sound gamma := Real.sqrt_pos.2 (by positivity)
  exact C79_partial gamma d q q hr.ne' hr.ne' (by positivity) (by positivity) (by intro h; linarith)

end
end QK.Props
