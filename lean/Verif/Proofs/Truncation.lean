import Verif.Proofs.FvReal
import Verif.Proofs.Stencil
import Verif.Spec.Truncation
import Mathlib.Analysis.Calculus.MeanValue
import Mathlib.Analysis.Calculus.Deriv.Add
import Mathlib.Analysis.Calculus.Deriv.Mul
import Mathlib.Analysis.Calculus.Deriv.Pow
import Mathlib.Analysis.Calculus.Deriv.Comp
/- Lemmas on the truncation error of the finite volume update. -/
namespace QK.Truncation
open QK Spec

/-! ### The limiter -/

/-- The value at a wall differs from the average of the two cells by at most half the second difference, and a little. -/
theorem inc_half {a b : ℝ} (h : a + 1 / 10 ^ 12 ≠ 0) :
    |1 / 2 * (((b / (a + 1 / 10 ^ 12)) * (b / (a + 1 / 10 ^ 12)) + b / (a + 1 / 10 ^ 12)) / ((b / (a + 1 / 10 ^ 12)) * (b / (a + 1 / 10 ^ 12)) + 1)) * a - b / 2| ≤
      1 / 2 * |a - b| + 2 / 10 ^ 12 := by
  have he : (0 : ℝ) < 1 / 10 ^ 12 := by positivity
  rw [show (2 : ℝ) / 10 ^ 12 = 2 * (1 / 10 ^ 12) by ring]
  generalize (1 : ℝ) / 10 ^ 12 = e at *
  obtain ⟨t, ht⟩ : ∃ t, t = a + e := ⟨_, rfl⟩
  rw [← ht] at h ⊢
  have h3 : 0 < b ^ 2 + t ^ 2 := by positivity
  have e1 : 1 / 2 * ((b / t * (b / t) + b / t) / (b / t * (b / t) + 1)) * a - b / 2 = b ^ 2 / (b ^ 2 + t ^ 2) * ((t - b) / 2) - e / 2 * (b * (b + t) / (b ^ 2 + t ^ 2)) := by
    have : b / t * (b / t) + 1 = (b ^ 2 + t ^ 2) / t ^ 2 := by field_simp
    have h4 : b / t * (b / t) + b / t = (b ^ 2 + b * t) / t ^ 2 := by field_simp
    rw [this, h4, div_div_div_cancel_right₀ (by positivity), show a = t - e by linarith]
    field_simp
    ring
  rw [e1]
  have q0 : 0 ≤ b ^ 2 / (b ^ 2 + t ^ 2) := by positivity
  have q1 : b ^ 2 / (b ^ 2 + t ^ 2) ≤ 1 := by rw [div_le_one h3]; nlinarith [sq_nonneg t]
  have r0 : |b * (b + t) / (b ^ 2 + t ^ 2)| ≤ 3 / 2 := by
    rw [abs_div, abs_of_pos h3, div_le_iff₀ h3, abs_le]
    constructor <;> nlinarith [sq_nonneg (b + t), sq_nonneg (b - t), sq_nonneg b, sq_nonneg t]
  have s : |(t - b) / 2| ≤ 1 / 2 * |a - b| + e / 2 := by
    rw [show (t - b) / 2 = 1 / 2 * (a - b) + e / 2 by rw [ht]; ring]
    refine (abs_add_le _ _).trans ?_
    rw [abs_mul, abs_of_pos (show (0 : ℝ) < 1 / 2 by norm_num), abs_of_pos (show (0 : ℝ) < e / 2 by linarith)]
  have s1 : |b ^ 2 / (b ^ 2 + t ^ 2) * ((t - b) / 2)| ≤ 1 / 2 * |a - b| + e / 2 := by
    rw [abs_mul, abs_of_nonneg q0]
    exact (mul_le_of_le_one_left (abs_nonneg _) q1).trans s
  have s2 : |e / 2 * (b * (b + t) / (b ^ 2 + t ^ 2))| ≤ e / 2 * (3 / 2) := by
    rw [abs_mul, abs_of_pos (show (0 : ℝ) < e / 2 by linarith)]
    exact mul_le_mul_of_nonneg_left r0 (by linarith)
  have := abs_sub (b ^ 2 / (b ^ 2 + t ^ 2) * ((t - b) / 2)) (e / 2 * (b * (b + t) / (b ^ 2 + t ^ 2)))
  linarith

/-- Both values at a wall, in terms of the average of the two cells. -/
theorem recon_mid {qn qc qp qpp : ℝ} (h1 : qc - qn + 1 / 10 ^ 12 ≠ 0) (h2 : qpp - qp + 1 / 10 ^ 12 ≠ 0) :
    |(FV.recon qn qc qp qpp).1 - (qc + qp) / 2| ≤ 1 / 2 * |qn - 2 * qc + qp| + 2 / 10 ^ 12 ∧
    |(FV.recon qn qc qp qpp).2 - (qc + qp) / 2| ≤ 1 / 2 * |qc - 2 * qp + qpp| + 2 / 10 ^ 12 := by
  have a := inc_half (b := qp - qc) h1
  have b := inc_half (b := qp - qc) h2
  constructor
  · rw [show qn - 2 * qc + qp = -((qc - qn) - (qp - qc)) by ring, abs_neg]
    refine le_trans (le_of_eq ?_) a
    congr 1
    simp only [FV.recon, real_lit]
    push_cast
    ring
  · rw [show qc - 2 * qp + qpp = (qpp - qp) - (qp - qc) by ring]
    rw [abs_sub_comm]
    refine le_trans (le_of_eq ?_) b
    congr 1
    simp only [FV.recon, real_lit]
    push_cast
    ring

/-! ### Taylor -/

theorem along_along (p : Nat → ℝ) (d : Nat) (s t : ℝ) : along (along p d s) d t = along p d (s + t) := by
  funext k; unfold along; split <;> ring

theorem along_zero (p : Nat → ℝ) (d : Nat) : along p d 0 = p := by
  funext k; unfold along; split <;> ring

theorem _root_.QK.Spec.SmoothIn.at {d : Nat} {K : ℝ} {f f' : (Nat → ℝ) → ℝ} (S : SmoothIn d K f f') (p : Nat → ℝ) (s : ℝ) :
    HasDerivAt (fun s => f (along p d s)) (f' (along p d s)) s := by
  have := S.deriv (along p d s)
  have h : HasDerivAt (fun t : ℝ => t - s) 1 s := (hasDerivAt_id s).sub_const s
  have h2 := HasDerivAt.comp_of_eq (h₂ := fun t => f (along (along p d s) d t)) s this h (sub_self s).symm
  simp only [mul_one] at h2
  refine h2.congr_of_eventuallyEq (Filter.Eventually.of_forall fun t => ?_)
  show f (along p d t) = f (along (along p d s) d (t - s))
  rw [along_along]
  ring_nf

/-- First order Taylor expansion of a function of one variable, forward. -/
private theorem taylor_pos {f f' : ℝ → ℝ} {K : ℝ} (hf : ∀ s, HasDerivAt f (f' s) s) (hl : ∀ s, |f' s - f' 0| ≤ K * |s|) {s : ℝ} (hs : 0 ≤ s) :
    |f s - f 0 - s * f' 0| ≤ K / 2 * s ^ 2 := by
  have hg : ∀ x, HasDerivAt (fun s => f s - f 0 - s * f' 0) (f' x - f' 0) x := fun x => by
    have := ((hf x).sub_const (f 0)).sub ((hasDerivAt_id x).mul_const (f' 0))
    rw [one_mul] at this
    exact this
  have hB : ∀ x, HasDerivAt (fun s => K / 2 * s ^ 2) (K * x) x := fun x => by
    have := (hasDerivAt_pow 2 x).const_mul (K / 2)
    rw [show K / 2 * (((2 : ℕ) : ℝ) * x ^ (2 - 1)) = K * x by push_cast; ring] at this
    exact this
  have := image_norm_le_of_norm_deriv_right_le_deriv_boundary (f := fun s => f s - f 0 - s * f' 0) (f' := fun x => f' x - f' 0) (a := 0) (b := s)
    (fun x _ => (hg x).continuousAt.continuousWithinAt) (fun x _ => (hg x).hasDerivWithinAt) (B := fun s => K / 2 * s ^ 2) (B' := fun x => K * x)
    (by simp) hB (fun x hx => by rw [Real.norm_eq_abs]; have := hl x; rwa [abs_of_nonneg hx.1] at this) (Set.right_mem_Icc.2 hs)
  exact this

theorem taylor {f f' : ℝ → ℝ} {K : ℝ} (hf : ∀ s, HasDerivAt f (f' s) s) (hl : ∀ s, |f' s - f' 0| ≤ K * |s|) (s : ℝ) :
    |f s - f 0 - s * f' 0| ≤ K / 2 * s ^ 2 := by
  rcases le_total 0 s with h | h
  · exact taylor_pos hf hl h
  · have := taylor_pos (f := fun s => f (-s)) (f' := fun s => -f' (-s)) (K := K) (fun s => ?_) (fun s => ?_) (s := -s) (by linarith)
    · simp only [neg_neg, neg_zero] at this
      rw [show f s - f 0 - s * f' 0 = f s - f 0 - -s * -f' 0 by ring]
      linarith [this, show (-s) ^ 2 = s ^ 2 by ring]
    · have h2 := (hf (-s)).comp s (hasDerivAt_neg s)
      rw [mul_neg_one] at h2
      exact h2
    · have := hl (-s)
      rw [abs_neg] at this
      rw [neg_zero, show -f' (-s) - -f' 0 = -(f' (-s) - f' 0) by ring, abs_neg]
      exact this

theorem _root_.QK.Spec.SmoothIn.taylor {d : Nat} {K : ℝ} {f f' : (Nat → ℝ) → ℝ} (S : SmoothIn d K f f') (p : Nat → ℝ) (s : ℝ) :
    |f (along p d s) - f p - s * f' p| ≤ K / 2 * s ^ 2 := by
  have := Truncation.taylor (f := fun s => f (along p d s)) (f' := fun s => f' (along p d s)) (K := K) (fun s => S.at p s) (fun s => by rw [along_zero]; exact S.lip p s) s
  simpa only [along_zero] using this

/-- Central differences. -/
theorem central {d : Nat} {K : ℝ} {f f' : (Nat → ℝ) → ℝ} (S : SmoothIn d K f f') (p : Nat → ℝ) {h : ℝ} (hh : 0 < h) :
    |(f (along p d (h / 2)) - f (along p d (-(h / 2)))) / h - f' p| ≤ K / 4 * h := by
  have a := S.taylor p (h / 2)
  have b := S.taylor p (-(h / 2))
  rw [show (f (along p d (h / 2)) - f (along p d (-(h / 2)))) / h - f' p =
    ((f (along p d (h / 2)) - f p - h / 2 * f' p) - (f (along p d (-(h / 2))) - f p - -(h / 2) * f' p)) / h by field_simp; ring, abs_div, abs_of_pos hh, div_le_iff₀ hh]
  refine (abs_sub _ _).trans ?_
  nlinarith

/-- Average over two cells, and second difference. -/
theorem average {d : Nat} {K : ℝ} {f f' : (Nat → ℝ) → ℝ} (S : SmoothIn d K f f') (p : Nat → ℝ) (h : ℝ) :
    |(f (along p d (-(h / 2))) + f (along p d (h / 2))) / 2 - f p| ≤ K / 8 * h ^ 2 := by
  have a := S.taylor p (h / 2)
  have b := S.taylor p (-(h / 2))
  rw [show (f (along p d (-(h / 2))) + f (along p d (h / 2))) / 2 - f p =
    ((f (along p d (h / 2)) - f p - h / 2 * f' p) + (f (along p d (-(h / 2))) - f p - -(h / 2) * f' p)) / 2 by ring, abs_div, abs_two]
  have := abs_add_le (f (along p d (h / 2)) - f p - h / 2 * f' p) (f (along p d (-(h / 2))) - f p - -(h / 2) * f' p)
  nlinarith

theorem second {d : Nat} {K : ℝ} {f f' : (Nat → ℝ) → ℝ} (S : SmoothIn d K f f') (p : Nat → ℝ) (h : ℝ) :
    |f (along p d (-h)) - 2 * f p + f (along p d h)| ≤ K * h ^ 2 := by
  have a := S.taylor p h
  have b := S.taylor p (-h)
  rw [show f (along p d (-h)) - 2 * f p + f (along p d h) = (f (along p d h) - f p - h * f' p) + (f (along p d (-h)) - f p - -h * f' p) by ring]
  refine (abs_add_le _ _).trans ?_
  nlinarith

/-- The values at a wall from values near a smooth function. -/
theorem recon_near {d : Nat} {K δ : ℝ} {f f' : (Nat → ℝ) → ℝ} (S : SmoothIn d K f f') (p : Nat → ℝ) (h : ℝ) {qn qc qp qpp : ℝ}
    (hn : |qn - f (along p d (-(3 * h / 2)))| ≤ δ) (hc : |qc - f (along p d (-(h / 2)))| ≤ δ) (hp : |qp - f (along p d (h / 2))| ≤ δ) (hpp : |qpp - f (along p d (3 * h / 2))| ≤ δ)
    (h1 : qc - qn + 1 / 10 ^ 12 ≠ 0) (h2 : qpp - qp + 1 / 10 ^ 12 ≠ 0) :
    |(FV.recon qn qc qp qpp).1 - f p| ≤ K * h ^ 2 + 3 * δ + 2 / 10 ^ 12 ∧ |(FV.recon qn qc qp qpp).2 - f p| ≤ K * h ^ 2 + 3 * δ + 2 / 10 ^ 12 := by
  have m := average S p h
  have s1 := second S (along p d (-(h / 2))) h
  have s2 := second S (along p d (h / 2)) h
  rw [along_along, along_along] at s1 s2
  rw [show -(h / 2) + -h = -(3 * h / 2) by ring, show -(h / 2) + h = h / 2 by ring] at s1
  rw [show h / 2 + -h = -(h / 2) by ring, show h / 2 + h = 3 * h / 2 by ring] at s2
  obtain ⟨r1, r2⟩ := recon_mid h1 h2
  generalize f (along p d (-(3 * h / 2))) = A at *
  generalize f (along p d (-(h / 2))) = B at *
  generalize f (along p d (h / 2)) = C at *
  generalize f (along p d (3 * h / 2)) = D at *
  have K0 : 0 ≤ K * h ^ 2 := (abs_nonneg _).trans s1
  have t1 : |qn - 2 * qc + qp| ≤ K * h ^ 2 + 4 * δ := by
    rw [abs_le] at *; constructor <;> linarith [hn.1, hn.2, hc.1, hc.2, hp.1, hp.2, s1.1, s1.2]
  have t2 : |qc - 2 * qp + qpp| ≤ K * h ^ 2 + 4 * δ := by
    rw [abs_le] at *; constructor <;> linarith [hpp.1, hpp.2, hc.1, hc.2, hp.1, hp.2, s2.1, s2.2]
  clear h1 h2
  constructor
  · rw [abs_le] at r1 m hc hp ⊢; constructor <;> linarith [r1.1, r1.2, m.1, m.2, hc.1, hc.2, hp.1, hp.2]
  · rw [abs_le] at r2 m hc hp ⊢; constructor <;> linarith [r2.1, r2.2, m.1, m.2, hc.1, hc.2, hp.1, hp.2]

/-! ### The update -/

theorem centre_moveBy {g : Rectilinear ℝ} {x : Cell} {d : Nat} (hd : d < x.length) (s : Int) : centre g (moveBy x d s) = along (centre g x) d (s * g.dxs.getD d 0) := by
  funext k
  unfold centre along moveBy
  by_cases h : k = d
  · subst h
    rw [if_pos rfl]
    simp only [List.getD_eq_getElem?_getD, List.getElem?_modify, if_true, List.getElem?_eq_getElem hd, Option.map_eq_map, Option.map_some, Option.getD_some, real_lit]
    have : ∀ z : Int, (Arith.ofInt z : ℝ) = (z : ℝ) := fun z => rfl
    rw [this, this]
    push_cast
    ring
  · rw [if_neg h]
    simp only [List.getD_eq_getElem?_getD, List.getElem?_modify, if_neg (Ne.symm h)]
    cases x[k]? <;> simp

/-- The flux through the lower face of `y` (`y` a cell on the line through `x` in direction `d`). -/
theorem face_near {g : Rectilinear ℝ} {n : Nat} {U D : (Nat → ℝ) → Nat → ℝ} {u : Cell → Nat → ℝ} {d : Nat} {y : Cell} {K δ : ℝ}
    (hd : d < y.length) (hs : ∀ j < n, SmoothIn d K (fun p => U p j) (fun p => D p j))
    (hu : ∀ s : Int, -2 ≤ s → s ≤ 1 → ∀ j < n, |u (moveBy y d s) j - U (centre g (moveBy y d s)) j| ≤ δ)
    (hz : ∀ s : Int, -2 ≤ s → s ≤ 0 → ∀ j < n, u (moveBy y d (s + 1)) j - u (moveBy y d s) j + 1 / 10 ^ 12 ≠ 0) (j : Nat) (hj : j < n) :
    |(FV.recon (u (moveBy y d (-2)) j) (u (moveBy y d (-1)) j) (u y j) (u (moveBy y d 1) j)).1 - U (along (centre g y) d (-(g.dxs.getD d 0 / 2))) j| ≤
      K * (g.dxs.getD d 0) ^ 2 + 3 * δ + 2 / 10 ^ 12 ∧
    |(FV.recon (u (moveBy y d (-2)) j) (u (moveBy y d (-1)) j) (u y j) (u (moveBy y d 1) j)).2 - U (along (centre g y) d (-(g.dxs.getD d 0 / 2))) j| ≤
      K * (g.dxs.getD d 0) ^ 2 + 3 * δ + 2 / 10 ^ 12 := by
  have m0 : moveBy y d 0 = y := moveBy_zero y d
  set h := g.dxs.getD d 0
  have a1 := hu (-2) (by omega) (by omega) j hj
  have a2 := hu (-1) (by omega) (by omega) j hj
  have a3 := hu 0 (by omega) (by omega) j hj
  have a4 := hu 1 (by omega) (by omega) j hj
  have z1 := hz (-2) (by omega) (by omega) j hj
  have z2 := hz 0 (by omega) (by omega) j hj
  rw [centre_moveBy hd] at a1 a2 a3 a4
  rw [m0] at a3 z2
  rw [show (-2 + 1 : Int) = -1 by omega] at z1
  rw [show (0 + 1 : Int) = 1 by omega] at z2
  refine recon_near (hs j hj) _ h ?_ ?_ ?_ ?_ z1 z2 <;> rw [along_along]
  · convert a1 using 6; push_cast; show _ = _ * h; ring
  · convert a2 using 6; push_cast; show _ = _ * h; ring
  · convert a3 using 6; push_cast; show _ = _ * h; ring
  · convert a4 using 6; push_cast; show _ = _ * h; ring

theorem list_sum_near {f f' ε : Nat → ℝ} {l : List Nat} (h : ∀ d ∈ l, |f d - f' d| ≤ ε d) : |(l.map f).sum - (l.map f').sum| ≤ (l.map ε).sum := by
  induction l with
  | nil => simp
  | cons d l ih =>
    simp only [List.map_cons, List.sum_cons]
    rw [show f d + (l.map f).sum - (f' d + (l.map f').sum) = (f d - f' d) + ((l.map f).sum - (l.map f').sum) by ring]
    exact (abs_add_le _ _).trans (add_le_add (h d (by simp)) (ih fun e he => h e (by simp [he])))

/-- The update from values near a smooth field, for a numerical flux that is near the flux of the equations. -/
theorem update_near {g : Rectilinear ℝ} {m n : Nat} {φ : Nat → List ℝ → List ℝ → List ℝ} {U : (Nat → ℝ) → Nat → ℝ} {D : Nat → (Nat → ℝ) → Nat → ℝ}
    {u : Cell → Nat → ℝ} {x : Cell} {K L K' δ : ℝ} {j : Nat} {F dF : Nat → (Nat → ℝ) → ℝ} (hm : m ≤ x.length) (hw : ∀ d < m, 0 < g.dxAt d)
    (hs : ∀ d < m, ∀ j < n, SmoothIn d K (fun p => U p j) (fun p => D d p j)) (hu : Samples g m n U δ u x) (hz : NoZero m n u x)
    (hF : ∀ d < m, SmoothIn d K' (F d) (dF d))
    (hφ : ∀ d < m, ∀ p, ∀ wl wr : Nat → ℝ, (∀ j < n, |wl j - U p j| ≤ K * g.dxAt d ^ 2 + 3 * δ + 2 / 10 ^ 12) → (∀ j < n, |wr j - U p j| ≤ K * g.dxAt d ^ 2 + 3 * δ + 2 / 10 ^ 12) →
      |(φ d ((List.range n).map wl) ((List.range n).map wr)).getD j 0 - F d p| ≤ L * (K * g.dxAt d ^ 2 + 3 * δ + 2 / 10 ^ 12)) :
    |fvUpdate φ n u g.dxAt (List.range m) x j 0 - ((List.range m).map fun d => -dF d (centre g x)).sum| ≤
      ((List.range m).map fun d => 2 * L * (K * g.dxAt d ^ 2 + 3 * δ + 2 / 10 ^ 12) / g.dxAt d + K' / 4 * g.dxAt d).sum := by
  rw [fvUpdate_add, zero_add]
  refine list_sum_near fun d hd => ?_
  rw [List.mem_range] at hd
  have hd' : d < x.length := by omega
  have h0 := hw d hd
  have hh : g.dxs.getD d 0 = g.dxAt d := by unfold Rectilinear.dxAt; rw [real_lit]; norm_num
  have a := face_near (g := g) (n := n) (D := D d) (u := u) (y := x) (δ := δ) hd' (hs d hd) (fun s h1 h2 => hu d hd s h1 (by omega)) (fun s h1 h2 => hz d hd s h1 (by omega))
  have b := face_near (g := g) (n := n) (D := D d) (u := u) (y := moveBy x d 1) (δ := δ) (by simpa using hd') (hs d hd)
    (fun s h1 h2 => by rw [moveBy_moveBy]; exact hu d hd (1 + s) (by omega) (by omega))
    (fun s h1 h2 => by rw [moveBy_moveBy, moveBy_moveBy, show 1 + (s + 1) = 1 + s + 1 by ring]; exact hz d hd (1 + s) (by omega) (by omega))
  rw [centre_moveBy hd', along_along] at b
  rw [hh] at a b
  rw [show ((1 : Int) : ℝ) * g.dxAt d + -(g.dxAt d / 2) = g.dxAt d / 2 by push_cast; ring] at b
  have fa := hφ d hd _ _ _ (fun j hj => (a j hj).1) (fun j hj => (a j hj).2)
  have fb := hφ d hd _ _ _ (fun j hj => (b j hj).1) (fun j hj => (b j hj).2)
  have cd := central (hF d hd) (centre g x) h0
  unfold faceFlux
  dsimp only at *
  generalize List.getD (φ d (List.map (fun j => (FV.recon (u (moveBy x d (-2)) j) (u (moveBy x d (-1)) j) (u x j) (u (moveBy x d 1) j)).1) (List.range n))
    (List.map (fun j => (FV.recon (u (moveBy x d (-2)) j) (u (moveBy x d (-1)) j) (u x j) (u (moveBy x d 1) j)).2) (List.range n))) j 0 = A at *
  generalize List.getD (φ d (List.map (fun j => (FV.recon (u (moveBy (moveBy x d 1) d (-2)) j) (u (moveBy (moveBy x d 1) d (-1)) j) (u (moveBy x d 1) j) (u (moveBy (moveBy x d 1) d 1) j)).1) (List.range n))
    (List.map (fun j => (FV.recon (u (moveBy (moveBy x d 1) d (-2)) j) (u (moveBy (moveBy x d 1) d (-1)) j) (u (moveBy x d 1) j) (u (moveBy (moveBy x d 1) d 1) j)).2) (List.range n))) j 0 = B at *
  generalize F d (along (centre g x) d (g.dxAt d / 2)) = P at *
  generalize F d (along (centre g x) d (-(g.dxAt d / 2))) = Q at *
  rw [show A / g.dxAt d - B / g.dxAt d - -dF d (centre g x) = ((A - Q) - (B - P)) / g.dxAt d - ((P - Q) / g.dxAt d - dF d (centre g x)) by field_simp; ring]
  refine (abs_sub _ _).trans (add_le_add ?_ cd)
  rw [abs_div, abs_of_pos h0]
  refine div_le_div_of_nonneg_right ?_ h0.le
  have := abs_sub (A - Q) (B - P)
  linarith

/-! ### A time step -/

theorem periodic_int {g : Rectilinear ℝ} {n d : Nat} {U : (Nat → ℝ) → Nat → ℝ}
    (P : ∀ p, ∀ j < n, U (along p d (((hi g.rng.dims d - lo g.rng.dims d : Int) : ℝ) * g.dxAt d)) j = U p j) {j : Nat} (hj : j < n) (m : Int) (p : Nat → ℝ) :
    U (along p d (((m * (hi g.rng.dims d - lo g.rng.dims d) : Int) : ℝ) * g.dxAt d)) j = U p j := by
  induction m using Int.induction_on generalizing p with
  | zero => rw [zero_mul, Int.cast_zero, zero_mul, along_zero]
  | succ k ih =>
    rw [show (((k + 1 : Int) * (hi g.rng.dims d - lo g.rng.dims d) : Int) : ℝ) * g.dxAt d =
      (((hi g.rng.dims d - lo g.rng.dims d : Int)) : ℝ) * g.dxAt d + ((k * (hi g.rng.dims d - lo g.rng.dims d) : Int) : ℝ) * g.dxAt d by push_cast; ring, ← along_along, ih, P p j hj]
  | pred k ih =>
    rw [← P _ j hj, along_along, ← ih p]
    congr 2
    push_cast
    ring

/-- The centre of the mirror image of a cell is the mirror image of its centre. -/
theorem centre_mirror {g : Rectilinear ℝ} {x : Cell} {d : Nat} (hd : d < x.length) (s k : Int) :
    centre g (moveBy x d (2 * k - 1 - (x.getD d 0 + s) - x.getD d 0)) = mirrorAt (centre g (moveBy x d s)) d (facePos g d k) := by
  rw [centre_moveBy hd, centre_moveBy hd]
  funext i
  unfold mirrorAt along facePos
  by_cases h : i = d
  · subst h
    simp only [if_true]
    have hh : g.dxAt i = g.dxs.getD i 0 := by unfold Rectilinear.dxAt; rw [real_lit]; norm_num
    have : ∀ z : Int, (Arith.ofInt z : ℝ) = (z : ℝ) := fun z => rfl
    rw [hh]
    unfold centre
    rw [this, real_lit, real_lit]
    push_cast
    ring
  · simp only [if_neg h]

theorem samples_fill {g : Rectilinear ℝ} {p : Int} {n : Nat} {flip : Int → Prop} {ws ps : List Nat} {U : (Nat → ℝ) → Nat → ℝ} {δ : ℝ} {u u' : Cell → ℝ}
    (hw : ∀ d < g.rng.dims.length, 2 ≤ hi g.rng.dims d - lo g.rng.dims d) (hc : ∀ d < g.rng.dims.length, d ∈ ws ∨ d ∈ ps) (P : Meets g ws flip ps n U)
    (F : Filled g.rng.dims [(0, p), (0, (n : Int))] ws flip ps u u') (h : OnMesh g p n U δ u) {x : Cell} (hx : InBox (g.rng.dims ++ [(0, p)]) x) :
    Samples g g.rng.dims.length n U δ (fun x j => u' (x ++ [(j : Int)])) x := by
  intro d hd s s1 s2 j hj
  have hl : x.length = g.rng.dims.length + 1 := by have := hx.length_eq; simpa using this
  obtain ⟨a, b⟩ := filled_image F hx hd (hw d hd) (hc d hd) s1 s2 hj
  have e := h _ (image_mesh (ws := ws) hx hd (hw d hd) s1 s2) j hj
  dsimp only
  have hh : g.dxs.getD d 0 = g.dxAt d := by unfold Rectilinear.dxAt; rw [real_lit]; norm_num
  by_cases hdw : d ∈ ws
  · by_cases hB : Beyond g.rng.dims x d s
    · obtain ⟨k, hk, hi⟩ : ∃ k, (k = lo g.rng.dims d ∨ k = hi g.rng.dims d) ∧ centre g (image g.rng.dims ws x d s) = mirrorAt (centre g (moveBy x d s)) d (facePos g d k) := by
        unfold image imageShift
        rw [if_neg hB, show decide (d ∈ ws) = true by simpa using hdw, if_pos rfl]
        split
        · exact ⟨_, .inl rfl, centre_mirror (by omega) s _⟩
        · exact ⟨_, .inr rfl, centre_mirror (by omega) s _⟩
      rw [hi] at e
      by_cases hf : flip j
      · rw [P.flipped d hdw k hk _ j hj hf] at e
        rw [a ⟨hB, hdw, hf⟩, real_lit, ← abs_neg]
        push_cast
        convert e using 2
        ring
      · rw [P.kept d hdw k hk _ j hj hf] at e
        rw [b (by tauto)]
        exact e
    · rw [b (by tauto)]
      have : image g.rng.dims ws x d s = moveBy x d s := by
        unfold image imageShift
        rw [if_pos (by unfold Beyond at hB; tauto)]
      rw [this] at e ⊢
      exact e
  · have hdp : d ∈ ps := (hc d hd).resolve_left hdw
    rw [b (by tauto)]
    obtain ⟨m, hm⟩ := imageShift_wrap (lo g.rng.dims d) (hi g.rng.dims d) (x.getD d 0) s
    have c : U (centre g (image g.rng.dims ws x d s)) j = U (centre g (moveBy x d s)) j := by
      unfold image
      rw [show decide (d ∈ ws) = false by simpa using hdw, hm, centre_moveBy (by omega), centre_moveBy (by omega), hh,
        show ((s + m * (hi g.rng.dims d - lo g.rng.dims d) : Int) : ℝ) * g.dxAt d = (s : ℝ) * g.dxAt d + ((m * (hi g.rng.dims d - lo g.rng.dims d) : Int) : ℝ) * g.dxAt d by push_cast; ring,
        ← along_along, periodic_int (P.wrap d hdp) hj]
    rw [c] at e
    exact e

private theorem stage_one {t T A X U0 U1 f0 y r : ℝ} (ht : 0 ≤ t) (hA : 0 ≤ A) (hX : X = t * T + A * t ^ 2) (a : y = U0) (b : |r - f0| ≤ T) (c : |U1 - U0 - t * f0| ≤ A / 2 * t ^ 2) :
    |y + t * r - U1| ≤ X := by
  have b' : |t * (r - f0)| ≤ t * T := by rw [abs_mul, abs_of_nonneg ht]; exact mul_le_mul_of_nonneg_left b ht
  rw [show y + t * r - U1 = (y - U0) + t * (r - f0) - (U1 - U0 - t * f0) by ring, a, sub_self, zero_add]
  refine (abs_sub _ _).trans ?_
  have : 0 ≤ A * t ^ 2 := by positivity
  linarith

private theorem stage_two {t T S A X U0 U1 Uh f0 f1 y1 r : ℝ} (ht : 0 ≤ t) (hT : 0 ≤ T) (hS : 0 ≤ S) (hA : 0 ≤ A) (hX : X = t * T + A * t ^ 2) (a : |y1 - U1| ≤ X) (b : |r - f1| ≤ T + S * X)
    (c : |U1 - U0 - t * f0| ≤ A / 2 * t ^ 2) (c' : |Uh - U0 - t / 2 * f0| ≤ A / 2 * (t / 2) ^ 2) (l : |f1 - f0| ≤ A * |t|) :
    |3 / 4 * U0 + 1 / 4 * y1 + 1 / 4 * t * r - Uh| ≤ (1 + t * S) * X := by
  have b' : |t * (r - f1)| ≤ t * (T + S * X) := by rw [abs_mul, abs_of_nonneg ht]; exact mul_le_mul_of_nonneg_left b ht
  have l' : |t * (f1 - f0)| ≤ t * (A * t) := by rw [abs_mul, abs_of_nonneg ht]; rw [abs_of_nonneg ht] at l; exact mul_le_mul_of_nonneg_left l ht
  rw [show 3 / 4 * U0 + 1 / 4 * y1 + 1 / 4 * t * r - Uh = 1 / 4 * (y1 - U1) + 1 / 4 * (t * (r - f1)) + 1 / 4 * (U1 - U0 - t * f0) + 1 / 4 * (t * (f1 - f0)) - (Uh - U0 - t / 2 * f0) by ring]
  generalize t * (r - f1) = v1 at *
  generalize t * (f1 - f0) = v2 at *
  generalize U1 - U0 - t * f0 = v3 at *
  generalize Uh - U0 - t / 2 * f0 = v4 at *
  have tt : 0 ≤ A * t ^ 2 := by positivity
  have tT0 : 0 ≤ t * T := by positivity
  have sX : 0 ≤ t * S * X := by rw [hX]; positivity
  rw [show (1 + t * S) * X = X + t * S * X by ring]
  rw [show t * (T + S * X) = t * T + t * S * X by ring] at b'
  rw [show t * (A * t) = A * t ^ 2 by ring] at l'
  rw [show A / 2 * (t / 2) ^ 2 = A * t ^ 2 / 8 by ring] at c'
  rw [show A / 2 * t ^ 2 = A * t ^ 2 / 2 by ring] at c
  generalize t * S * X = w1 at *
  generalize A * t ^ 2 = w2 at *
  generalize t * T = w3 at *
  rw [abs_le] at *
  constructor <;> linarith [a.1, a.2, b'.1, b'.2, c.1, c.2, c'.1, c'.2, l'.1, l'.2]

private theorem stage_three {t T S A X U0 U1 Uh f0 fh y2 r : ℝ} (ht : 0 ≤ t) (hT : 0 ≤ T) (hS : 0 ≤ S) (hA : 0 ≤ A) (hX : X = t * T + A * t ^ 2) (a : |y2 - Uh| ≤ (1 + t * S) * X)
    (b : |r - fh| ≤ T + S * ((1 + t * S) * X)) (c : |U1 - U0 - t * f0| ≤ A / 2 * t ^ 2) (c' : |Uh - U0 - t / 2 * f0| ≤ A / 2 * (t / 2) ^ 2) (l : |fh - f0| ≤ A * |t / 2|) :
    |(U0 + 2 * (y2 + t * r)) / 3 - U1| ≤ 2 * (1 + t * S) ^ 2 * X := by
  have b' : |t * (r - fh)| ≤ t * (T + S * ((1 + t * S) * X)) := by rw [abs_mul, abs_of_nonneg ht]; exact mul_le_mul_of_nonneg_left b ht
  have l' : |t * (fh - f0)| ≤ t * (A * (t / 2)) := by
    rw [abs_mul, abs_of_nonneg ht]; rw [abs_of_nonneg (by linarith : 0 ≤ t / 2)] at l; exact mul_le_mul_of_nonneg_left l ht
  rw [show (U0 + 2 * (y2 + t * r)) / 3 - U1 = 2 / 3 * (y2 - Uh) + 2 / 3 * (t * (r - fh)) + 2 / 3 * (Uh - U0 - t / 2 * f0) + 2 / 3 * (t * (fh - f0)) - (U1 - U0 - t * f0) by ring]
  generalize t * (r - fh) = v1 at *
  generalize t * (fh - f0) = v2 at *
  generalize U1 - U0 - t * f0 = v3 at *
  generalize Uh - U0 - t / 2 * f0 = v4 at *
  have tt : 0 ≤ A * t ^ 2 := by positivity
  have tT0 : 0 ≤ t * T := by positivity
  have sX : 0 ≤ t * S * X := by rw [hX]; positivity
  have ssX : 0 ≤ (t * S) ^ 2 * X := by rw [hX]; positivity
  rw [show 2 * (1 + t * S) ^ 2 * X = 2 * X + 4 * (t * S * X) + 2 * ((t * S) ^ 2 * X) by ring]
  rw [show t * (T + S * ((1 + t * S) * X)) = t * T + t * S * X + (t * S) ^ 2 * X by ring] at b'
  rw [show (1 + t * S) * X = X + t * S * X by ring] at a
  rw [show t * (A * (t / 2)) = A * t ^ 2 / 2 by ring] at l'
  rw [show A / 2 * (t / 2) ^ 2 = A * t ^ 2 / 8 by ring] at c'
  rw [show A / 2 * t ^ 2 = A * t ^ 2 / 2 by ring] at c
  generalize (t * S) ^ 2 * X = w0 at *
  generalize t * S * X = w1 at *
  generalize A * t ^ 2 = w2 at *
  generalize t * T = w3 at *
  rw [abs_le] at *
  constructor <;> linarith [a.1, a.2, b'.1, b'.2, c.1, c.2, c'.1, c'.2, l'.1, l'.2]

/-- Three stages from exact values follow the exact evolution, if the rates are close. -/
theorem stages_near {ι : Type} {G : ι → Prop} {t τ A T S δmax : ℝ} {V f : ℝ → ι → ℝ} {q r0 q1 r1 q2 r2 q' : ι → ℝ} (ht : 0 ≤ t) (hS : 0 ≤ S) (hT : 0 ≤ T) (hA : 0 ≤ A)
    (deriv : ∀ a, G a → ∀ τ, HasDerivAt (fun τ => V τ a) (f τ a) τ) (lip : ∀ a, G a → ∀ τ s, |f (τ + s) a - f τ a| ≤ A * |s|)
    (e0 : ∀ a, G a → q1 a = q a + t * r0 a) (e1 : ∀ a, G a → q2 a = 3 / 4 * q a + 1 / 4 * q1 a + 1 / 4 * t * r1 a) (e2 : ∀ a, G a → q' a = (q a + 2 * (q2 a + t * r2 a)) / 3)
    (b0 : ∀ τ δ, 0 ≤ δ → δ ≤ δmax → (∀ a, G a → |q a - V τ a| ≤ δ) → ∀ a, G a → |r0 a - f τ a| ≤ T + S * δ)
    (b1 : ∀ τ δ, 0 ≤ δ → δ ≤ δmax → (∀ a, G a → |q1 a - V τ a| ≤ δ) → ∀ a, G a → |r1 a - f τ a| ≤ T + S * δ)
    (b2 : ∀ τ δ, 0 ≤ δ → δ ≤ δmax → (∀ a, G a → |q2 a - V τ a| ≤ δ) → ∀ a, G a → |r2 a - f τ a| ≤ T + S * δ)
    (small : (1 + t * S) * (t * T + A * t ^ 2) ≤ δmax) (h : ∀ a, G a → q a = V τ a) {a : ι} (ha : G a) :
    |q' a - V (τ + t) a| ≤ 2 * (1 + t * S) ^ 2 * (t * T + A * t ^ 2) := by
  obtain ⟨X, hX⟩ : ∃ X, X = t * T + A * t ^ 2 := ⟨_, rfl⟩
  rw [← hX] at small ⊢
  have X0 : 0 ≤ X := by rw [hX]; positivity
  have σ0 : 0 ≤ t * S := by positivity
  have tay : ∀ (s : ℝ) (a : ι), G a → |V (τ + s) a - V τ a - s * f τ a| ≤ A / 2 * s ^ 2 := by
    intro s a ha
    have := taylor (f := fun s => V (τ + s) a) (f' := fun s => f (τ + s) a) (K := A) (fun s => by
      have h1 := deriv a ha (τ + s)
      have h2 : HasDerivAt (fun s : ℝ => τ + s) 1 s := (hasDerivAt_id s).const_add τ
      have h3 := h1.comp s h2
      rw [mul_one] at h3
      exact h3) (fun s => by rw [add_zero]; exact lip a ha τ s) s
    simpa only [add_zero] using this
  have d1 : ∀ a, G a → |q1 a - V (τ + t) a| ≤ X := by
    intro a ha
    have b := b0 τ 0 le_rfl (le_trans (by positivity) small) (fun a ha => by rw [h a ha, sub_self, abs_zero]) a ha
    rw [mul_zero, add_zero] at b
    rw [e0 a ha]
    exact stage_one ht hA hX (h a ha) b (tay t a ha)
  have d2 : ∀ a, G a → |q2 a - V (τ + t / 2) a| ≤ (1 + t * S) * X := by
    intro a ha
    have b := b1 (τ + t) X X0 (le_trans (le_mul_of_one_le_left X0 (by linarith)) small) d1 a ha
    rw [e1 a ha, h a ha]
    exact stage_two ht hT hS hA hX (d1 a ha) b (tay t a ha) (tay (t / 2) a ha) (lip a ha τ t)
  have b := b2 (τ + t / 2) ((1 + t * S) * X) (by positivity) small d2 a ha
  rw [e2 a ha, h a ha]
  exact stage_three ht hT hS hA hX (d2 a ha) b (tay t a ha) (tay (t / 2) a ha) (lip a ha τ (t / 2))

theorem inBox_comp {M : Box} {p : Int} {n : Nat} {x : Cell} (hx : InBox (M ++ [(0, p)]) x) {k : Nat} (hk : k < n) : InBox (M ++ [((0 : Int), p), (0, (n : Int))]) (x ++ [(k : Int)]) := by
  rw [show M ++ [((0 : Int), p), (0, (n : Int))] = (M ++ [((0 : Int), p)]) ++ [(0, (n : Int))] by simp]
  exact (inBox_snoc hx.length_eq).2 ⟨hx, by omega, by omega⟩

/-- A time step from exact values follows the exact evolution, if the rates are close. -/
theorem step_near {g : Rectilinear ℝ} {p : Int} {n : Nat} {flip : Int → Prop} {ws ps : List Nat} {Rate : (Cell → ℝ) → (Cell → ℝ) → Prop} {t τ A T S δmax : ℝ} {U f : ℝ → (Nat → ℝ) → Nat → ℝ}
    {q q0 r0 q1 q1' r1 q2 q2' r2 q' : Cell → ℝ} (ht : 0 ≤ t) (hS : 0 ≤ S) (hT : 0 ≤ T) (hA : 0 ≤ A)
    (hw : ∀ d < g.rng.dims.length, 2 ≤ hi g.rng.dims d - lo g.rng.dims d) (hc : ∀ d < g.rng.dims.length, d ∈ ws ∨ d ∈ ps) (P : ∀ τ, Meets g ws flip ps n (U τ)) (Ev : Evolves n A U f)
    (S0 : SoloStage g.rng.dims p n ws flip ps Rate t 0 q0 q q0 r0 q1) (S1 : SoloStage g.rng.dims p n ws flip ps Rate t 1 q0 q1 q1' r1 q2)
    (S2 : SoloStage g.rng.dims p n ws flip ps Rate t 2 q0 q2 q2' r2 q')
    (z0 : ∀ x, InBox (g.rng.dims ++ [(0, p)]) x → NoZero g.rng.dims.length n (fun x j => q0 (x ++ [(j : Int)])) x)
    (z1 : ∀ x, InBox (g.rng.dims ++ [(0, p)]) x → NoZero g.rng.dims.length n (fun x j => q1' (x ++ [(j : Int)])) x)
    (z2 : ∀ x, InBox (g.rng.dims ++ [(0, p)]) x → NoZero g.rng.dims.length n (fun x j => q2' (x ++ [(j : Int)])) x)
    (rate : ∀ τ δ u r x, 0 ≤ δ → δ ≤ δmax → Rate u r → InBox (g.rng.dims ++ [(0, p)]) x → Samples g g.rng.dims.length n (U τ) δ (fun x j => u (x ++ [(j : Int)])) x →
      NoZero g.rng.dims.length n (fun x j => u (x ++ [(j : Int)])) x → ∀ j < n, |r (x ++ [((j : Nat) : Int)]) - f τ (centre g x) j| ≤ T + S * δ)
    (small : (1 + t * S) * (t * T + A * t ^ 2) ≤ δmax) (h : OnMesh g p n (U τ) 0 q) :
    OnMesh g p n (U (τ + t)) (2 * (1 + t * S) ^ 2 * (t * T + A * t ^ 2)) q' := by
  intro x hx j hj
  refine stages_near (ι := Cell × Nat) (G := fun a => InBox (g.rng.dims ++ [(0, p)]) a.1 ∧ a.2 < n) (V := fun τ a => U τ (centre g a.1) a.2) (f := fun τ a => f τ (centre g a.1) a.2)
    (q := fun a => q (a.1 ++ [(a.2 : Int)])) (q1 := fun a => q1 (a.1 ++ [(a.2 : Int)])) (q2 := fun a => q2 (a.1 ++ [(a.2 : Int)])) (q' := fun a => q' (a.1 ++ [(a.2 : Int)]))
    (r0 := fun a => r0 (a.1 ++ [(a.2 : Int)])) (r1 := fun a => r1 (a.1 ++ [(a.2 : Int)])) (r2 := fun a => r2 (a.1 ++ [(a.2 : Int)]))
    (a := (x, j)) (δmax := δmax) ht hS hT hA (fun a ha τ => Ev.deriv τ _ _ ha.2) (fun a ha τ s => Ev.lip τ s _ _ ha.2) ?_ ?_ ?_ ?_ ?_ ?_ small ?_ ⟨hx, hj⟩
  · rintro ⟨x, j⟩ ⟨hx, hj⟩
    have e := S0.next (x ++ [(j : Int)])
    simp only [rkStage] at e
    rw [S0.fill.inside _ (inBox_comp hx hj)] at e
    exact e
  · rintro ⟨x, j⟩ ⟨hx, hj⟩
    have e := S1.next (x ++ [(j : Int)])
    simp only [rkStage, real_lit] at e
    push_cast at e
    rw [S1.fill.inside _ (inBox_comp hx hj), S0.fill.inside _ (inBox_comp hx hj)] at e
    exact e
  · rintro ⟨x, j⟩ ⟨hx, hj⟩
    have e := S2.next (x ++ [(j : Int)])
    simp only [rkStage, real_lit] at e
    push_cast at e
    rw [S2.fill.inside _ (inBox_comp hx hj), S0.fill.inside _ (inBox_comp hx hj)] at e
    exact e
  · rintro τ δ h1 h2 h ⟨x, j⟩ ⟨hx, hj⟩
    exact rate τ δ q0 r0 x h1 h2 S0.rates hx (samples_fill hw hc (P τ) S0.fill (fun x hx j hj => h (x, j) ⟨hx, hj⟩) hx) (z0 x hx) j hj
  · rintro τ δ h1 h2 h ⟨x, j⟩ ⟨hx, hj⟩
    exact rate τ δ q1' r1 x h1 h2 S1.rates hx (samples_fill hw hc (P τ) S1.fill (fun x hx j hj => h (x, j) ⟨hx, hj⟩) hx) (z1 x hx) j hj
  · rintro τ δ h1 h2 h ⟨x, j⟩ ⟨hx, hj⟩
    exact rate τ δ q2' r2 x h1 h2 S2.rates hx (samples_fill hw hc (P τ) S2.fill (fun x hx j hj => h (x, j) ⟨hx, hj⟩) hx) (z2 x hx) j hj
  · rintro ⟨x, j⟩ ⟨hx, hj⟩
    exact sub_eq_zero.1 (abs_eq_zero.1 (le_antisymm (h x hx j hj) (abs_nonneg _)))

end QK.Truncation
