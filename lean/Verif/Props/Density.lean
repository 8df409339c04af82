import Verif.Props.Limiter
import Verif.Props.Kernels
import Verif.Props.Symmetry
import Verif.Proofs.Rest
import Verif.Spec.Program
import Verif.Spec.Sources
/-
C106: does the density of a gas stay positive? What one stage of the Euler solver does to the density.
-/
namespace QK.Props
open QK Spec

/-- The gas with these components. -/
def gasOf (w : Nat → ℝ) : Gas := ⟨w 0, ![w 1, w 2, w 3], w 4⟩

theorem gasOf_comps (w : Nat → ℝ) : (gasOf w).comps = (List.range 5).map w := rfl

/-- The reconstructed states on both sides of the lower face of cell `x` in direction `d`. -/
noncomputable def below (u : Cell → Nat → ℝ) (d : Nat) (x : Cell) : Gas :=
  gasOf fun j => (FV.recon (u (moveBy x d (-2)) j) (u (moveBy x d (-1)) j) (u x j) (u (moveBy x d 1) j)).1
noncomputable def above (u : Cell → Nat → ℝ) (d : Nat) (x : Cell) : Gas :=
  gasOf fun j => (FV.recon (u (moveBy x d (-2)) j) (u (moveBy x d (-1)) j) (u x j) (u (moveBy x d 1) j)).2

/-- A gas of positive density with a real speed of sound; along `d` it moves at most at speed `a`, and so does sound in it. -/
structure Tame (gamma a : ℝ) (d : Fin 3) (q : Gas) : Prop where
  rho : 0 < q.rho
  root : 0 ≤ gamma * q.pressure gamma / q.rho
  vel : |q.vel d| ≤ a
  sound : q.sound gamma ≤ a

/-! ### The mass flux -/

/-- **C106** The mass that the HLL flux of the code takes out of either side is at most the density there times the larger of the two speeds there; the signal speeds are supposed to differ (the
flux is not finite otherwise, C79). This holds also where two branches of the code are added (C51). -/
theorem C106_flux {gamma a : ℝ} {d : Fin 3} {l r : Gas} (hl : Tame gamma a d l) (hr : Tame gamma a d r) (hne : l.vel d - l.sound gamma ≠ r.vel d + r.sound gamma) :
    ∃ F, Euler.hll gamma (d : Nat) l.comps r.comps = .ok F ∧ F.length = 5 ∧ F.getD 0 0 ≤ a * l.rho ∧ -(a * r.rho) ≤ F.getD 0 0 := by
  refine ⟨_, Euler.hll_gas gamma d l r, rfl, ?_⟩
  have ml : l.mom d = l.rho * l.vel d := by unfold Gas.vel; field_simp [hl.rho.ne']
  have mr : r.mom d = r.rho * r.vel d := by unfold Gas.vel; field_simp [hr.rho.ne']
  have cl : 0 ≤ l.sound gamma := Real.sqrt_nonneg _
  have cr : 0 ≤ r.sound gamma := Real.sqrt_nonneg _
  have hal := hl.sound
  have har := hr.sound
  have vl := abs_le.1 hl.vel
  have vr := abs_le.1 hr.vel
  have pl := hl.rho
  have pr := hr.rho
  show _ + _ ≤ _ ∧ _ ≤ _ + _
  simp only [Gas.comps, Gas.lin, Gas.hllFlux, Gas.flux, ml, mr, List.getD_cons_zero, one_mul, zero_mul, add_zero]
  generalize l.vel d = ul at *
  generalize r.vel d = ur at *
  generalize l.sound gamma = sl at *
  generalize r.sound gamma = sr at *
  generalize l.rho = pl' at *
  generalize r.rho = pr' at *
  have e : (ur + sr) * (pl' * ul) + -(ul - sl) * (pr' * ur) + (ul - sl) * (ur + sr) * (pr' + -1 * pl') = (ur + sr) * (pl' * sl) + (ul - sl) * (pr' * sr) := by ring
  rw [e]
  by_cases h1 : 0 < ul - sl
  · rw [if_neg (by rintro ⟨_, h⟩; linarith), if_pos h1]
    by_cases h2 : ur + sr < 0
    · rw [if_pos h2]; constructor <;> nlinarith
    · rw [if_neg h2]; constructor <;> nlinarith
  · rw [if_neg h1]
    by_cases h2 : ur + sr < 0
    · rw [if_neg (by rintro ⟨h, _⟩; linarith), if_pos h2]; constructor <;> nlinarith
    · rw [if_pos ⟨by linarith, by linarith⟩, if_neg h2]
      have hp : 0 < ur + sr - (ul - sl) := lt_of_le_of_ne (by linarith) fun h => hne (by linarith)
      have hA : 0 ≤ ur + sr := by linarith
      have hB : ul - sl ≤ 0 := by linarith
      generalize ur + sr = A at *
      generalize ul - sl = B at *
      have x1 : 0 ≤ pl' * sl := by positivity
      have x2 : 0 ≤ pr' * sr := by positivity
      have x3 : pl' * sl ≤ a * pl' := by nlinarith
      have x4 : pr' * sr ≤ a * pr' := by nlinarith
      have key : 1 / (A - B) * (A * (pl' * sl) + B * (pr' * sr)) ≤ pl' * sl ∧ -(pr' * sr) ≤ 1 / (A - B) * (A * (pl' * sl) + B * (pr' * sr)) := by
        rw [one_div, inv_mul_eq_div, div_le_iff₀ hp, le_div_iff₀ hp]
        constructor <;> nlinarith [mul_nonneg hA x1, mul_nonneg hA x2, mul_nonneg (neg_nonneg.2 hB) x1, mul_nonneg (neg_nonneg.2 hB) x2]
      constructor <;> linarith [key.1, key.2]

/-! ### The reconstructed densities of a cell -/

private noncomputable abbrev ep : ℝ := 1 / 10 ^ 12

private noncomputable def half (a b : ℝ) : ℝ := a * b * (b + (a + ep)) / (2 * (b ^ 2 + (a + ep) ^ 2))

/-- A difference that does not come near the zero of a denominator of the reconstruction. -/
def Clear (a : ℝ) : Prop := 0 ≤ a ∨ a ≤ -(2 / 10 ^ 12)

private theorem Clear.ne {a : ℝ} (h : Clear a) : a + ep ≠ 0 := by
  unfold Clear at h
  intro h'
  rcases h with h | h <;> norm_num [ep] at h' <;> norm_num at h <;> linarith

private theorem Clear.sq {a : ℝ} (h : Clear a) : a ^ 2 ≤ 4 * (a + ep) ^ 2 := by
  have he : (0 : ℝ) < ep := by positivity
  rcases h with h | h
  · nlinarith
  · have : a + 2 * ep ≤ 0 := by unfold ep; linarith
    nlinarith

private theorem recon_half (qn qc qp qpp : ℝ) :
    (qc - qn + ep ≠ 0 → (FV.recon qn qc qp qpp).1 = qc + half (qc - qn) (qp - qc)) ∧ (qpp - qp + ep ≠ 0 → (FV.recon qn qc qp qpp).2 = qp - half (qpp - qp) (qp - qc)) := by
  have key : ∀ a b : ℝ, a + ep ≠ 0 → 1 / 2 * (((b / (a + ep)) * (b / (a + ep)) + b / (a + ep)) / ((b / (a + ep)) * (b / (a + ep)) + 1)) * a = half a b := by
    intro a b h
    unfold half
    generalize a + ep = t at *
    have h3 : 0 < b ^ 2 + t ^ 2 := by positivity
    have h2 : b / t * (b / t) + 1 = (b ^ 2 + t ^ 2) / t ^ 2 := by field_simp
    have h4 : b / t * (b / t) + b / t = (b ^ 2 + b * t) / t ^ 2 := by field_simp
    rw [h2, h4, div_div_div_cancel_right₀ (by positivity)]
    field_simp
  refine ⟨fun h => ?_, fun h => ?_⟩ <;> rw [← key _ _ h] <;> simp only [FV.recon, real_lit, ep] <;> push_cast <;> ring

/-- The two limited increments of a cell are equal up to a small error. -/
private theorem half_sub {a b : ℝ} (ha : Clear a) (hb : Clear b) : half a b - half b a ≤ 3 / 10 ^ 12 := by
  have he : (0 : ℝ) < ep := by positivity
  have sa := ha.sq
  have h1 : 0 < b ^ 2 + (a + ep) ^ 2 := by have := ha.ne; positivity
  have h2 : 0 < a ^ 2 + (b + ep) ^ 2 := by have := hb.ne; positivity
  have e : half a b - half b a = ep * (a * b * (a + b + ep) * (b - a)) / ((b ^ 2 + (a + ep) ^ 2) * (a ^ 2 + (b + ep) ^ 2)) := by
    unfold half
    rw [div_sub_div _ _ (by positivity) (by positivity), div_eq_div_iff (by positivity) (by positivity)]
    ring
  rw [e, show (3 : ℝ) / 10 ^ 12 = 3 * ep by unfold ep; ring, div_le_iff₀ (by positivity)]
  clear ha hb e
  generalize ep = ε at *
  have n1 : |a * (a + b + ε)| ≤ 3 / 2 * (a ^ 2 + (b + ε) ^ 2) := by
    rw [abs_le]; constructor <;> nlinarith [sq_nonneg (a + (b + ε)), sq_nonneg (a - (b + ε)), sq_nonneg a, sq_nonneg (b + ε)]
  have n2 : |b * (b - a)| ≤ 2 * (b ^ 2 + (a + ε) ^ 2) := by
    have : |a| ≤ 2 * |a + ε| := by
      rw [← abs_two, ← abs_mul, ← sq_le_sq]; nlinarith
    have h3 : |b| * |a| ≤ b ^ 2 + (a + ε) ^ 2 := by
      have := mul_le_mul_of_nonneg_left this (abs_nonneg b)
      nlinarith [sq_nonneg (|b| - |a + ε|), sq_abs b, sq_abs (a + ε)]
    have h4 : |b * (b - a)| ≤ |b| * |b| + |b| * |a| := by
      rw [abs_mul, ← mul_add]; exact mul_le_mul_of_nonneg_left (abs_sub b a) (abs_nonneg _)
    nlinarith [sq_abs b, sq_nonneg (a + ε)]
  have n3 : a * b * (a + b + ε) * (b - a) ≤ 3 * ((b ^ 2 + (a + ε) ^ 2) * (a ^ 2 + (b + ε) ^ 2)) := by
    have := mul_le_mul n1 n2 (abs_nonneg _) (by positivity)
    rw [← abs_mul] at this
    have h := le_abs_self (a * (a + b + ε) * (b * (b - a)))
    nlinarith
  nlinarith [mul_le_mul_of_nonneg_left n3 he.le]

/-- The values that the reconstruction puts on the two faces of a cell add up to twice the value in the cell, up to `3e-12`. -/
theorem recon_faces {z a b c z' : ℝ} (h1 : Clear (b - a)) (h2 : Clear (c - b)) : |(FV.recon z a b c).2 + (FV.recon a b c z').1 - 2 * b| ≤ 3 / 10 ^ 12 := by
  rw [(recon_half _ _ _ _).2 h2.ne, (recon_half _ _ _ _).1 h1.ne, abs_le]
  have := half_sub h1 h2
  have := half_sub h2 h1
  constructor <;> linarith

/-- **C106** The densities that the reconstruction puts on the two faces of a cell add up to twice the density of the cell, up to `3e-12`. -/
theorem C106_faces {u : Cell → Nat → ℝ} {d : Nat} {x : Cell} (h1 : Clear (u x 0 - u (moveBy x d (-1)) 0)) (h2 : Clear (u (moveBy x d 1) 0 - u x 0)) :
    (above u d x).rho + (below u d (moveBy x d 1)).rho ≤ 2 * u x 0 + 3 / 10 ^ 12 := by
  have e1 : (above u d x).rho = (FV.recon (u (moveBy x d (-2)) 0) (u (moveBy x d (-1)) 0) (u x 0) (u (moveBy x d 1) 0)).2 := rfl
  have e2 : (below u d (moveBy x d 1)).rho = (FV.recon (u (moveBy (moveBy x d 1) d (-2)) 0) (u (moveBy (moveBy x d 1) d (-1)) 0) (u (moveBy x d 1) 0) (u (moveBy (moveBy x d 1) d 1) 0)).1 := rfl
  rw [moveBy_moveBy, moveBy_moveBy, moveBy_moveBy] at e2
  norm_num at e2
  rw [moveBy_zero] at e2
  rw [e1, e2, (recon_half _ _ _ _).2 h2.ne, (recon_half _ _ _ _).1 h1.ne]
  have := half_sub h1 h2
  linarith

/-! ### A stage -/

/-- The two states at the lower face of `x` in direction `d`, for the flux in that direction. -/
structure TameFace (gamma a : ℝ) (u : Cell → Nat → ℝ) (d : Fin 3) (x : Cell) : Prop where
  below : Tame gamma a d (below u d x)
  above : Tame gamma a d (above u d x)
  differ : (Props.below u d x).vel d - (Props.below u d x).sound gamma ≠ (Props.above u d x).vel d + (Props.above u d x).sound gamma

/-- All faces of cell `x` in the first `n` directions; `a` bounds the speeds by direction. -/
structure TameAt (gamma : ℝ) (a : Nat → ℝ) (n : Nat) (u : Cell → Nat → ℝ) (x : Cell) : Prop where
  lower : ∀ d : Fin 3, (d : Nat) < n → TameFace gamma (a d) u d x
  upper : ∀ d : Fin 3, (d : Nat) < n → TameFace gamma (a d) u d (moveBy x d 1)
  clear : ∀ d < n, Clear (u x 0 - u (moveBy x d (-1)) 0) ∧ Clear (u (moveBy x d 1) 0 - u x 0)

/-- The Courant number of a time step `t`: the sum over the directions of speed times step over cell width. -/
noncomputable def courant (a dx : Nat → ℝ) (n : Nat) (t : ℝ) : ℝ := ((List.range n).map fun d => t * a d / dx d).sum

theorem faceFlux_mass {gamma a : ℝ} {u : Cell → Nat → ℝ} {d : Fin 3} {x : Cell} (h : TameFace gamma a u d x) :
    (faceFlux (fluxOf (Euler.hll gamma (d : Nat))) 5 u d x).getD 0 0 ≤ a * (below u d x).rho ∧ -(a * (above u d x).rho) ≤ (faceFlux (fluxOf (Euler.hll gamma (d : Nat))) 5 u d x).getD 0 0 := by
  obtain ⟨F, h1, -, h2⟩ := C106_flux h.below h.above h.differ
  have : faceFlux (fluxOf (Euler.hll gamma (d : Nat))) 5 u d x = F := by
    show fluxOf _ (below u d x).comps (above u d x).comps = _
    unfold fluxOf
    rw [h1]
  rw [this]
  exact h2

theorem density_rate {gamma : ℝ} {a dx : Nat → ℝ} {n : Nat} {u : Cell → Nat → ℝ} {x : Cell} (hn : n ≤ 3) (ha : ∀ d < n, 0 ≤ a d) (hdx : ∀ d < n, 0 < dx d)
    (h : TameAt gamma a n u x) : ∀ (ds : List Nat) (r : ℝ), (∀ d ∈ ds, d < n) →
    r - (ds.map fun d => a d / dx d).sum * (2 * u x 0 + 3 / 10 ^ 12) ≤ fvUpdate (fun dim => fluxOf (Euler.hll gamma dim)) 5 u dx ds x 0 r := by
  intro ds
  induction ds with
  | nil => intro r _; simp [fvUpdate]
  | cons d ds ih =>
    intro r hd
    have hdn : d < n := hd d (by simp)
    have d3 : d < 3 := by omega
    obtain ⟨-, l2⟩ := faceFlux_mass (h.lower ⟨d, d3⟩ hdn)
    obtain ⟨u1, -⟩ := faceFlux_mass (h.upper ⟨d, d3⟩ hdn)
    have hs := C106_faces (h.clear d hdn).1 (h.clear d hdn).2
    have hp := hdx d hdn
    have e : ∀ r, fvUpdate (fun dim => fluxOf (Euler.hll gamma dim)) 5 u dx (d :: ds) x 0 r = fvUpdate (fun dim => fluxOf (Euler.hll gamma dim)) 5 u dx ds x 0
      (r + (faceFlux (fluxOf (Euler.hll gamma (d : Nat))) 5 u d x).getD 0 0 / dx d - (faceFlux (fluxOf (Euler.hll gamma (d : Nat))) 5 u d (moveBy x d 1)).getD 0 0 / dx d) := by
      intro r
      have z : (Arith.lit 0 : ℝ) = 0 := by simp [real_lit]
      unfold fvUpdate
      rw [List.foldl_cons, z]
    rw [e]
    refine le_trans ?_ (ih _ fun e he => hd e (by simp [he]))
    dsimp only at l2 u1
    rw [List.map_cons, List.sum_cons]
    generalize (faceFlux (fluxOf (Euler.hll gamma (d : Nat))) 5 u d x).getD 0 0 = F at *
    generalize (faceFlux (fluxOf (Euler.hll gamma (d : Nat))) 5 u d (moveBy x d 1)).getD 0 0 = G at *
    have key : -(a d / dx d * (2 * u x 0 + 3 / 10 ^ 12)) ≤ F / dx d - G / dx d := by
      rw [← sub_div, div_mul_eq_mul_div, ← neg_div]
      refine (div_le_div_iff_of_pos_right hp).2 ?_
      have := mul_le_mul_of_nonneg_left hs (ha d hdn)
      linarith
    linarith

/-- **C106** A forward Euler step of size `t` leaves in every cell at least the fraction `1 - 2 C` of its density, `C` the Courant number of the reconstructed states. -/
theorem C106_rate {gamma t : ℝ} {a dx : Nat → ℝ} {n : Nat} {u : Cell → Nat → ℝ} {x : Cell} (hn : n ≤ 3) (ha : ∀ d < n, 0 ≤ a d) (hdx : ∀ d < n, 0 < dx d) (ht : 0 ≤ t)
    (h : TameAt gamma a n u x) : (1 - 2 * courant a dx n t) * u x 0 - courant a dx n t * (3 / 10 ^ 12) ≤
      u x 0 + t * fvUpdate (fun dim => fluxOf (Euler.hll gamma dim)) 5 u dx (List.range n) x 0 (Arith.lit 0) := by
  have h1 := density_rate hn ha hdx h (List.range n) (Arith.lit 0) fun d hd => List.mem_range.1 hd
  have z : (Arith.lit 0 : ℝ) = 0 := by simp [real_lit]
  have e : courant a dx n t = t * ((List.range n).map fun d => a d / dx d).sum := by
    unfold courant
    rw [← List.sum_map_mul_left]
    congr 1
    refine List.map_congr_left fun d _ => ?_
    ring
  rw [e]
  have := mul_le_mul_of_nonneg_left h1 ht
  rw [z] at this ⊢
  nlinarith

/-- The density after the three stages, from the densities that the stages start with. -/
theorem three_stages {C m v1 v2 f0 f1 f2 z : ℝ} (hC : 0 ≤ C) (hC' : C ≤ 1 / 2) (e1 : v1 = f0) (e2 : v2 = 3 / 4 * m + 1 / 4 * f1) (e3 : z = (m + 2 * f2) / 3)
    (h0 : (1 - 2 * C) * m - C * (3 / 10 ^ 12) ≤ f0) (h1 : (1 - 2 * C) * v1 - C * (3 / 10 ^ 12) ≤ f1) (h2 : (1 - 2 * C) * v2 - C * (3 / 10 ^ 12) ≤ f2) :
    (1 / 3 + (1 - 2 * C) / 2 + (1 - 2 * C) ^ 3 / 6) * m - C * (3 / 10 ^ 12) ≤ z := by
  have hk : 0 ≤ 1 - 2 * C := by linarith
  have hk' : 1 - 2 * C ≤ 1 := by linarith
  have hd : 0 ≤ C * (3 / 10 ^ 12) := by positivity
  generalize 1 - 2 * C = κ at *
  generalize C * (3 / 10 ^ 12) = δ at *
  have a1 := mul_le_mul_of_nonneg_left h0 hk
  have a2 := mul_le_mul_of_nonneg_left h1 hk
  have a3 := mul_le_mul_of_nonneg_left a1 hk
  have b1 : κ * δ ≤ δ := by nlinarith
  have b2 : κ * (κ * δ) ≤ δ := by nlinarith
  subst e1 e2 e3
  nlinarith

section
variable {grid : Rectilinear ℝ} {p : Int} {ws ps : List Nat} {t gamma : ℝ} {a : Nat → ℝ}

theorem rk_stages (u0 u r : ℝ) : rkStage 0 t u0 u r = u0 + t * r ∧ rkStage 1 t u0 u r = 3 / 4 * u0 + 1 / 4 * (u + t * r) ∧ rkStage 2 t u0 u r = (u0 + 2 * (u + t * r)) / 3 := by
  refine ⟨rfl, ?_, ?_⟩ <;> simp only [rkStage, real_lit] <;> push_cast <;> ring

/-- Three stages whose rates change the density by the flux differences. -/
theorem density_step {q0 q1 q1' q2 q2' q' r0 r1 r2 : Cell → ℝ} {x : Cell} {n : Nat} {dx : Nat → ℝ} (hn : n ≤ 3) (ha : ∀ d < n, 0 ≤ a d) (hdx : ∀ d < n, 0 < dx d) (ht : 0 ≤ t)
    (hC : courant a dx n t ≤ 1 / 2)
    (d0 : r0 (x ++ [0]) = fvUpdate (fun dim => fluxOf (Euler.hll gamma dim)) 5 (fun x j => q0 (x ++ [(j : Int)])) dx (List.range n) x 0 (Arith.lit 0))
    (d1 : r1 (x ++ [0]) = fvUpdate (fun dim => fluxOf (Euler.hll gamma dim)) 5 (fun x j => q1' (x ++ [(j : Int)])) dx (List.range n) x 0 (Arith.lit 0))
    (d2 : r2 (x ++ [0]) = fvUpdate (fun dim => fluxOf (Euler.hll gamma dim)) 5 (fun x j => q2' (x ++ [(j : Int)])) dx (List.range n) x 0 (Arith.lit 0))
    (s1 : q1' (x ++ [0]) = q1 (x ++ [0])) (s2 : q2' (x ++ [0]) = q2 (x ++ [0]))
    (n0 : ∀ y, q1 y = rkStage 0 t (q0 y) (q0 y) (r0 y)) (n1 : ∀ y, q2 y = rkStage 1 t (q0 y) (q1' y) (r1 y)) (n2 : ∀ y, q' y = rkStage 2 t (q0 y) (q2' y) (r2 y))
    (T0 : TameAt gamma a n (fun x j => q0 (x ++ [(j : Int)])) x) (T1 : TameAt gamma a n (fun x j => q1' (x ++ [(j : Int)])) x) (T2 : TameAt gamma a n (fun x j => q2' (x ++ [(j : Int)])) x) :
    (1 / 3 + (1 - 2 * courant a dx n t) / 2 + (1 - 2 * courant a dx n t) ^ 3 / 6) * q0 (x ++ [0]) - courant a dx n t * (3 / 10 ^ 12) ≤ q' (x ++ [0]) := by
  have hC0 : 0 ≤ courant a dx n t := by
    unfold courant
    refine List.sum_nonneg fun y hy => ?_
    obtain ⟨d, hd, rfl⟩ := List.mem_map.1 hy
    have hd := List.mem_range.1 hd
    have := ha d hd; have := hdx d hd
    positivity
  have b0 := C106_rate hn ha hdx ht T0
  have b1 := C106_rate hn ha hdx ht T1
  have b2 := C106_rate hn ha hdx ht T2
  rw [← d0] at b0
  rw [← d1] at b1
  rw [← d2] at b2
  have e0 := n0 (x ++ [0]); have e1 := n1 (x ++ [0]); have e2 := n2 (x ++ [0])
  rw [(rk_stages _ _ _).1] at e0
  rw [(rk_stages _ _ _).2.1] at e1
  rw [(rk_stages _ _ _).2.2] at e2
  refine three_stages hC0 hC e0 e1 e2 b0 ?_ ?_
  · rw [← s1]; exact b1
  · rw [← s2]; exact b2

theorem mesh_density {M : Box} {n : Nat} (hn : 0 < n) {x : Cell} (hx : InBox (M ++ [(0, p)]) x) : InBox (M ++ [(0, p), (0, (n : Int))]) (x ++ [0]) := by
  rw [show M ++ [((0 : Int), p), (0, (n : Int))] = (M ++ [((0 : Int), p)]) ++ [(0, (n : Int))] by simp]
  exact (inBox_snoc hx.length_eq).2 ⟨hx, by omega, by omega⟩

/-- **C106**, what holds, for a gas: a time step (three stages) leaves in a cell at least the fraction `1/3 + κ/2 + κ³/6` of its density, `κ = 1 - 2 C`, up to `3e-12 C`, if the Courant number
`C` is at most 1/2 and in every stage the states reconstructed at its faces have positive density, real speed of sound and speeds within `a`. Missing: that the reconstructed states are of this
kind whenever the cells are, which is false (`C106_false`). -/
theorem C106_gas_partial (hn : grid.rng.dims.length ≤ 3) (ha : ∀ d < grid.rng.dims.length, 0 ≤ a d) (hdx : ∀ d < grid.rng.dims.length, 0 < grid.dxAt d) (ht : 0 ≤ t)
    (hC : courant a grid.dxAt grid.rng.dims.length t ≤ 1 / 2) {q q0 r0 q1 q1' r1 q2 q2' r2 q' : Cell → ℝ}
    (S0 : SoloStage grid.rng.dims p 5 ws isMomentum ps (GasRate grid.rng.dims p grid.dxAt gamma) t 0 q0 q q0 r0 q1)
    (S1 : SoloStage grid.rng.dims p 5 ws isMomentum ps (GasRate grid.rng.dims p grid.dxAt gamma) t 1 q0 q1 q1' r1 q2)
    (S2 : SoloStage grid.rng.dims p 5 ws isMomentum ps (GasRate grid.rng.dims p grid.dxAt gamma) t 2 q0 q2 q2' r2 q')
    {x : Cell} (hx : InBox (grid.rng.dims ++ [(0, p)]) x) (T : ∀ u ∈ [q0, q1', q2'], TameAt gamma a grid.rng.dims.length (fun x j => u (x ++ [(j : Int)])) x) :
    (1 / 3 + (1 - 2 * courant a grid.dxAt grid.rng.dims.length t) / 2 + (1 - 2 * courant a grid.dxAt grid.rng.dims.length t) ^ 3 / 6) * q (x ++ [0])
      - courant a grid.dxAt grid.rng.dims.length t * (3 / 10 ^ 12) ≤ q' (x ++ [0]) := by
  have hx0 := mesh_density (n := 5) (by decide) hx
  rw [← S0.fill.inside _ hx0]
  exact density_step hn ha hdx ht hC (S0.rates x hx 0 (by decide)) (S1.rates x hx 0 (by decide)) (S2.rates x hx 0 (by decide)) (S1.fill.inside _ hx0) (S2.fill.inside _ hx0)
    S0.next S1.next S2.next (T q0 (by simp)) (T q1' (by simp)) (T q2' (by simp))

/-- The density of a fluid in a field changes by the flux differences alone. -/
theorem fluid_density {M : Box} {dx : Nat → ℝ} {com : ℝ} {u w r : Cell → ℝ} (h : FluidRate M p dx gamma com u w r) {x : Cell} (hx : InBox (M ++ [(0, p)]) x) :
    r (x ++ [0]) = fvUpdate (fun dim => fluxOf (Euler.hll gamma dim)) 5 (fun x j => u (x ++ [(j : Int)])) dx (List.range M.length) x 0 (Arith.lit 0) := by
  obtain ⟨r0, h0, L⟩ := h
  rw [L.rest]
  · exact h0 x hx 0 (by decide)
  · intro y k _ h1 _ e
    have := (List.append_inj' e rfl).2
    simp at this
    omega

/-- **C106**, what holds, for the electrons and the ions of the plasma programs. -/
theorem C106_plasma_partial {P : Plasma ℝ} (hn : grid.rng.dims.length ≤ 3) (ha : ∀ d < grid.rng.dims.length, 0 ≤ a d) (hdx : ∀ d < grid.rng.dims.length, 0 < grid.dxAt d) (ht : 0 ≤ t)
    (hC : courant a grid.dxAt grid.rng.dims.length t ≤ 1 / 2) {q q0 r0 q1 q1' r1 q2 q2' r2 q' : State ℝ}
    (S0 : PlasmaStage P grid p ws ps t 0 q0 q q0 r0 q1) (S1 : PlasmaStage P grid p ws ps t 1 q0 q1 q1' r1 q2) (S2 : PlasmaStage P grid p ws ps t 2 q0 q2 q2' r2 q')
    {x : Cell} (hx : InBox (grid.rng.dims ++ [(0, p)]) x) :
    ((∀ u ∈ [q0, q1', q2'], TameAt P.gamma a grid.rng.dims.length (fun x j => u.e (x ++ [(j : Int)])) x) →
      (1 / 3 + (1 - 2 * courant a grid.dxAt grid.rng.dims.length t) / 2 + (1 - 2 * courant a grid.dxAt grid.rng.dims.length t) ^ 3 / 6) * q.e (x ++ [0])
      - courant a grid.dxAt grid.rng.dims.length t * (3 / 10 ^ 12) ≤ q'.e (x ++ [0])) ∧
    ((∀ u ∈ [q0, q1', q2'], TameAt P.gamma a grid.rng.dims.length (fun x j => u.i (x ++ [(j : Int)])) x) →
      (1 / 3 + (1 - 2 * courant a grid.dxAt grid.rng.dims.length t) / 2 + (1 - 2 * courant a grid.dxAt grid.rng.dims.length t) ^ 3 / 6) * q.i (x ++ [0])
      - courant a grid.dxAt grid.rng.dims.length t * (3 / 10 ^ 12) ≤ q'.i (x ++ [0])) := by
  have hx0 := mesh_density (n := 5) (by decide) hx
  refine ⟨fun T => ?_, fun T => ?_⟩
  · rw [← S0.fill_e.inside _ hx0]
    exact density_step hn ha hdx ht hC (fluid_density S0.rate_e hx) (fluid_density S1.rate_e hx) (fluid_density S2.rate_e hx) (S1.fill_e.inside _ hx0) (S2.fill_e.inside _ hx0)
      S0.next_e S1.next_e S2.next_e (T q0 (by simp)) (T q1' (by simp)) (T q2' (by simp))
  · rw [← S0.fill_i.inside _ hx0]
    exact density_step hn ha hdx ht hC (fluid_density S0.rate_i hx) (fluid_density S1.rate_i hx) (fluid_density S2.rate_i hx) (S1.fill_i.inside _ hx0) (S2.fill_i.inside _ hx0)
      S0.next_i S1.next_i S2.next_i (T q0 (by simp)) (T q1' (by simp)) (T q2' (by simp))

end

/-! ### What fails -/

/-- A gas at rest with energy density 1. -/
def resting (rho : ℝ) : Nat → ℝ
  | 0 => rho
  | 4 => 1
  | _ => 0

/-- Densities of a row of cells. -/
noncomputable def trough (i : Int) : ℝ := if i = 0 then 11 / 10 else if i = 1 then 1 / 10 else if i = 2 then 21 / 10 else 1

open XReal in
private theorem nan_ops (a : XReal) : (a + nan : XReal) = nan ∧ (nan + a : XReal) = nan ∧ (a - nan : XReal) = nan ∧ (nan - a : XReal) = nan ∧ (a * nan : XReal) = nan ∧ (nan * a : XReal) = nan ∧
    (a / nan : XReal) = nan ∧ (nan / a : XReal) = nan := by
  refine ⟨?_, ?_, ?_, ?_, ?_, ?_, ?_, ?_⟩ <;> cases a <;> rfl

open XReal in
/-- **C106** is false: a gas at rest with positive densities and one positive pressure everywhere, the rate of whose density is NaN in a cell next to a minimum of the density, for every cell width and
every `gamma` above 1: the density reconstructed at the wall is negative. -/
theorem C106_false : (∀ i, 0 < trough i) ∧ ∀ gamma : ℝ, 1 < gamma → (∀ i, 0 < (gasOf (resting (trough i))).pressure gamma) ∧ ∀ dx : Nat → XReal,
    fvUpdate (fun dim => fluxOf (Euler.hll (fin gamma) dim)) 5 (fun x j => fin (resting (trough (x.getD 0 0)) j)) dx (List.range 1) [2, 0] 0 (Arith.lit 0) = nan := by
  refine ⟨fun i => by unfold trough; split_ifs <;> norm_num, fun gamma hg => ⟨fun i => ?_, fun dx => ?_⟩⟩
  · simp [Gas.pressure, gasOf, resting, vdot]; exact hg
  have hF : ∃ F, faceFlux (fluxOf (Euler.hll (fin gamma) (0 : Nat))) 5 (fun x j => fin (resting (trough (x.getD 0 0)) j)) 0 [2, 0] = nan :: F := by
    have d0 : trough 0 = 11 / 10 := by norm_num [trough]
    have d1 : trough 1 = 1 / 10 := by norm_num [trough]
    have d2 : trough 2 = 21 / 10 := by norm_num [trough]
    have d3 : trough 3 = 1 := by norm_num [trough]
    have r0 := C76_partial (qn := 11 / 10) (qc := 1 / 10) (qp := 21 / 10) (qpp := 1) (by norm_num) (by norm_num)
    have r1 := C76_partial (qn := 0) (qc := 0) (qp := 0) (qpp := 0) (by norm_num) (by norm_num)
    have r4 := C76_partial (qn := 1) (qc := 1) (qp := 1) (qpp := 1) (by norm_num) (by norm_num)
    have z1 : FV.recon (0 : ℝ) 0 0 0 = (0, 0) := by simp [FV.recon]
    have z4 : FV.recon (1 : ℝ) 1 1 1 = (1, 1) := by simp [FV.recon]
    have neg : (FV.recon (11 / 10 : ℝ) (1 / 10) (21 / 10) 1).1 < 0 := by
      rw [(recon_half _ _ _ _).1 (by norm_num)]; unfold half; norm_num
    rw [z1] at r1
    rw [z4] at r4
    generalize (FV.recon (11 / 10 : ℝ) (1 / 10) (21 / 10) 1).1 = l at *
    generalize (FV.recon (11 / 10 : ℝ) (1 / 10) (21 / 10) 1).2 = r at *
    have e : faceFlux (fluxOf (Euler.hll (fin gamma) (0 : Nat))) 5 (fun x j => fin (resting (trough (x.getD 0 0)) j)) 0 [2, 0] =
        fluxOf (Euler.hll (fin gamma) (0 : Nat)) [fin l, fin 0, fin 0, fin 0, fin 1] [fin r, fin 0, fin 0, fin 0, fin 1] := by
      have : List.range 5 = [0, 1, 2, 3, 4] := rfl
      unfold faceFlux
      rw [this]
      simp [moveBy, resting, d0, d1, d2, d3, -one_div]
      simp [r0, r1, r4, -one_div]
    rw [e]
    unfold fluxOf
    rw [Euler.hll_dim0]
    have hs : (Arith.sqrt (fin gamma * Euler.pOf (fin gamma) (fin l) (fin 0) (fin 0) (fin 0) (fin 1) / fin l) : XReal) = nan := by
      unfold Euler.pOf
      simp only [fin_lit, fin_sub, fin_mul, fin_add, fin_div _ _ neg.ne]
      show XReal.sqrt _ = _
      simp only [XReal.sqrt]
      rw [if_pos]
      refine div_neg_of_pos_of_neg ?_ neg
      norm_num
      nlinarith
    rw [hs]
    have hc : ∀ (srr f f' q q' : XReal), Euler.combine nan srr f f' q q' = nan := by
      intro srr f f' q q'
      unfold Euler.combine
      simp only [nan_ops]
    simp only [nan_ops, Euler.hllWith, hc]
    exact ⟨_, rfl⟩
  obtain ⟨F, hF⟩ := hF
  show List.foldl _ _ [0] = _
  simp only [List.foldl_cons, List.foldl_nil]
  rw [hF, List.getD_cons_zero, (nan_ops _).2.2.2.2.2.2.2, (nan_ops _).1, (nan_ops _).2.2.2.1]

/-! ### Examples -/

/-- Resting gas, whatever the density. -/
theorem resting_tame {rho : ℝ} (h : 1 ≤ rho) (d : Fin 3) : Tame 2 2 d (gasOf (resting rho)) := by
  have hP : (gasOf (resting rho)).pressure 2 = 1 := by simp [Gas.pressure, gasOf, resting, vdot, show (![0, 0, 0] : Fin 3 → ℝ) 2 = 0 from rfl]; norm_num
  have hr : (gasOf (resting rho)).rho = rho := rfl
  have hv : (gasOf (resting rho)).vel d = 0 := by
    unfold Gas.vel gasOf
    fin_cases d <;> simp [resting]
  refine ⟨by rw [hr]; linarith, ?_, by rw [hv]; norm_num, ?_⟩
  · rw [hP, hr]; positivity
  · unfold Gas.sound
    rw [hP, hr]
    refine (Real.sqrt_le_sqrt (y := 2 ^ 2) ?_).trans (by rw [Real.sqrt_sq (by norm_num)])
    rw [div_le_iff₀ (by linarith)]; linarith

/-- A jump of the density from 1 to 3 between the cells 0 and 1 of a row, gas at rest: the cell before the jump keeps 3/5 of its density when the Courant number is 1/5. -/
example : TameAt 2 (fun _ => 2) 1 (fun x j => resting (if x.getD 0 0 ≤ 0 then 1 else 3) j) [0, 0] ∧ courant (fun _ => 2) (fun _ => 1) 1 (1 / 10) = 1 / 5 := by
  have z : ∀ a b c : ℝ, (FV.recon a a b c).1 = a := by intro a b c; simp [FV.recon]
  have z' : ∀ a b c : ℝ, (FV.recon a b c c).2 = c := by intro a b c; simp [FV.recon]
  have z2 : ∀ a b c : ℝ, (FV.recon a b b c).2 = b := by intro a b c; simp [FV.recon]
  have g : ∀ r : ℝ, resting r 1 = 0 ∧ resting r 2 = 0 ∧ resting r 3 = 0 ∧ resting r 4 = 1 ∧ resting r 0 = r := fun r => ⟨rfl, rfl, rfl, rfl, rfl⟩
  have face : ∀ (d : Fin 3) (l r : ℝ), 1 ≤ l → 1 ≤ r → (gasOf (resting l)).vel d - (gasOf (resting l)).sound 2 ≠ (gasOf (resting r)).vel d + (gasOf (resting r)).sound 2 := by
    intro d l r hl hr
    have v : ∀ q, (gasOf (resting q)).vel d = 0 := by intro q; unfold Gas.vel gasOf; fin_cases d <;> simp [resting]
    have c : ∀ q : ℝ, 1 ≤ q → 0 < (gasOf (resting q)).sound 2 := by
      intro q hq
      refine Real.sqrt_pos.2 ?_
      have hP : (gasOf (resting q)).pressure 2 = 1 := by simp [Gas.pressure, gasOf, resting, vdot, show (![0, 0, 0] : Fin 3 → ℝ) 2 = 0 from rfl]; norm_num
      rw [hP, show (gasOf (resting q)).rho = q from rfl]; positivity
    rw [v, v]
    have := c l hl; have := c r hr
    intro h; linarith
  have b0 : below (fun x j => resting (if x.getD 0 0 ≤ 0 then 1 else 3) j) 0 [0, 0] = gasOf (resting 1) := by
    simp [below, gasOf, moveBy, z, g]
  have a0 : above (fun x j => resting (if x.getD 0 0 ≤ 0 then 1 else 3) j) 0 [0, 0] = gasOf (resting 1) := by
    simp [above, gasOf, moveBy, z2, g]
  have b1 : below (fun x j => resting (if x.getD 0 0 ≤ 0 then 1 else 3) j) 0 (moveBy [0, 0] 0 1) = gasOf (resting 1) := by
    simp [below, gasOf, moveBy, z, g]
  have a1 : above (fun x j => resting (if x.getD 0 0 ≤ 0 then 1 else 3) j) 0 (moveBy [0, 0] 0 1) = gasOf (resting 3) := by
    simp [above, gasOf, moveBy, z', g]
  refine ⟨⟨fun d hd => ?_, fun d hd => ?_, fun d hd => ?_⟩, by norm_num [courant]⟩
  · obtain rfl : d = 0 := Fin.ext (by simpa using hd)
    refine ⟨?_, ?_, ?_⟩
    · show Tame _ _ _ (below _ 0 _); rw [b0]; exact resting_tame le_rfl _
    · show Tame _ _ _ (above _ 0 _); rw [a0]; exact resting_tame le_rfl _
    · show (below _ 0 _).vel 0 - (below _ 0 _).sound 2 ≠ (above _ 0 _).vel 0 + (above _ 0 _).sound 2
      rw [b0, a0]; exact face 0 1 1 le_rfl le_rfl
  · obtain rfl : d = 0 := Fin.ext (by simpa using hd)
    refine ⟨?_, ?_, ?_⟩
    · show Tame _ _ _ (below _ 0 (moveBy [0, 0] 0 1)); rw [b1]; exact resting_tame le_rfl _
    · show Tame _ _ _ (above _ 0 (moveBy [0, 0] 0 1)); rw [a1]; exact resting_tame (by norm_num) _
    · show (below _ 0 (moveBy [0, 0] 0 1)).vel 0 - (below _ 0 (moveBy [0, 0] 0 1)).sound 2 ≠ (above _ 0 (moveBy [0, 0] 0 1)).vel 0 + (above _ 0 (moveBy [0, 0] 0 1)).sound 2
      rw [b1, a1]; exact face 0 1 3 le_rfl (by norm_num)
  · obtain rfl : d = 0 := by omega
    simp [moveBy, g]
    exact ⟨.inl le_rfl, .inl (by norm_num)⟩

/-- Resting gas of density 2 in a ring of four cells of width 1, step 1/10: the hypotheses of `C106_gas_partial` hold in every cell. -/
example {grid : Rectilinear ℝ} (hd : grid.rng.dims = [(0, 4)]) (hdx : grid.dxAt 0 = 1) : ∃ q q0 r0 q1 q1' r1 q2 q2' r2 q' : Cell → ℝ,
    SoloStage grid.rng.dims 1 5 [] isMomentum [0] (GasRate grid.rng.dims 1 grid.dxAt 2) (1 / 10) 0 q0 q q0 r0 q1 ∧
    SoloStage grid.rng.dims 1 5 [] isMomentum [0] (GasRate grid.rng.dims 1 grid.dxAt 2) (1 / 10) 1 q0 q1 q1' r1 q2 ∧
    SoloStage grid.rng.dims 1 5 [] isMomentum [0] (GasRate grid.rng.dims 1 grid.dxAt 2) (1 / 10) 2 q0 q2 q2' r2 q' ∧
    courant (fun _ => 2) grid.dxAt grid.rng.dims.length (1 / 10) = 1 / 5 ∧ ∀ x, InBox (grid.rng.dims ++ [(0, 1)]) x →
    ∀ u ∈ [q0, q1', q2'], TameAt 2 (fun _ => 2) grid.rng.dims.length (fun x j => u (x ++ [(j : Int)])) x := by
  obtain ⟨u, h0, H⟩ := (C90_exists (g := grid) (p := 1) (ws := []) (ps := [0]) (by simp) (by rw [hd]; decide) (by simp) (1 / 10)).1 2 fun x => resting 2 (x.getLastD 0).toNat
  obtain ⟨q0, r0, q1, q1', r1, q2, q2', r2, S0, S1, S2⟩ := H 0
  have hw : ∀ d < grid.rng.dims.length, 2 ≤ hi grid.rng.dims d - lo grid.rng.dims d := by
    rw [hd]; intro d h
    match d, h with
    | 0, _ => simp [lo, hi]
  have hc : ∀ d < grid.rng.dims.length, d ∈ ([] : List Nat) ∨ d ∈ [0] := by
    rw [hd]; intro d h; simp at h ⊢; exact h
  have C : ConstOn grid.rng.dims 1 5 (resting 2) (u 0) := by
    rw [h0]; intro x _ j _; simp
  have stage : ∀ {k : Nat} {a b c r n : Cell → ℝ}, SoloStage grid.rng.dims 1 5 [] isMomentum [0] (GasRate grid.rng.dims 1 grid.dxAt 2) (1 / 10) k a b c r n →
      ConstOn grid.rng.dims 1 5 (resting 2) a → ConstOn grid.rng.dims 1 5 (resting 2) b → ConstOn grid.rng.dims 1 5 (resting 2) n := by
    intro k a b c r n S ha hb x hx j hj
    rw [S.next, ha x hx j hj, const_fill S.fill hb x hx j hj, S.rates x hx j hj, gas_rest hw hc (fun _ _ => .inr rfl) S.fill hb hx]
    exact rkStage_fixed _ _ _
  have c0 := const_fill S0.fill C
  have c1 := stage S0 c0 C
  have c2 := stage S1 c0 c1
  refine ⟨u 0, q0, r0, q1, q1', r1, q2, q2', r2, u 1, S0, S1, S2, by rw [hd]; norm_num [courant, hdx], fun x hx v hv => ?_⟩
  have around : ∀ {v : Cell → ℝ}, v ∈ [q0, q1', q2'] → ∀ d < grid.rng.dims.length, ∀ s : Int, -2 ≤ s → s ≤ 2 → ∀ j : Nat, j < 5 → v (moveBy x d s ++ [(j : Int)]) = resting 2 j := by
    intro v hv d hd s h1 h2 j hj
    simp only [List.mem_cons, List.not_mem_nil, or_false] at hv
    rcases hv with rfl | rfl | rfl
    · exact const_around hw hc S0.fill C hx hd h1 h2 hj (fun _ => .inr (by simp))
    · exact const_around hw hc S1.fill c1 hx hd h1 h2 hj (fun _ => .inr (by simp))
    · exact const_around hw hc S2.fill c2 hx hd h1 h2 hj (fun _ => .inr (by simp))
  have A := around hv
  have g1 : grid.rng.dims.length = 1 := by rw [hd]; rfl
  have rs : ∀ q : ℝ, FV.recon q q q q = (q, q) := by intro q; simp [FV.recon]
  have A0 : ∀ d < grid.rng.dims.length, ∀ j : Nat, j < 5 → v (x ++ [(j : Int)]) = resting 2 j := by
    intro d hd j hj
    have := A d hd 0 (by decide) (by decide) j hj
    rwa [moveBy_zero] at this
  have gas : ∀ {f : Nat → ℝ}, (∀ j < 5, f j = resting 2 j) → gasOf f = gasOf (resting 2) := by
    intro f hf
    unfold gasOf
    rw [hf 0 (by decide), hf 1 (by decide), hf 2 (by decide), hf 3 (by decide), hf 4 (by decide)]
  have tame := resting_tame (rho := 2) (by norm_num) (0 : Fin 3)
  have differ : (gasOf (resting 2)).vel 0 - (gasOf (resting 2)).sound 2 ≠ (gasOf (resting 2)).vel 0 + (gasOf (resting 2)).sound 2 := by
    have : 0 < (gasOf (resting 2)).sound 2 := by
      refine Real.sqrt_pos.2 ?_
      have hP : (gasOf (resting 2)).pressure 2 = 1 := by simp [Gas.pressure, gasOf, resting, vdot, show (![0, 0, 0] : Fin 3 → ℝ) 2 = 0 from rfl]; norm_num
      rw [hP, show (gasOf (resting 2)).rho = 2 from rfl]; norm_num
    intro h; linarith
  have face : ∀ y : Cell, (∀ s : Int, -2 ≤ s → s ≤ 1 → ∀ j : Nat, j < 5 → v (moveBy y 0 s ++ [(j : Int)]) = resting 2 j) → TameFace 2 2 (fun x j => v (x ++ [(j : Int)])) 0 y := by
    intro y hy
    have hy0 : ∀ j : Nat, j < 5 → v (y ++ [(j : Int)]) = resting 2 j := by
      intro j hj; have := hy 0 (by decide) (by decide) j hj; rwa [moveBy_zero] at this
    have b : below (fun x j => v (x ++ [(j : Int)])) 0 y = gasOf (resting 2) := gas fun j hj => by
      dsimp only
      rw [hy _ (by decide) (by decide) j hj, hy _ (by decide) (by decide) j hj, hy0 j hj, hy _ (by decide) (by decide) j hj, rs]
    have a : above (fun x j => v (x ++ [(j : Int)])) 0 y = gasOf (resting 2) := gas fun j hj => by
      dsimp only
      rw [hy _ (by decide) (by decide) j hj, hy _ (by decide) (by decide) j hj, hy0 j hj, hy _ (by decide) (by decide) j hj, rs]
    refine ⟨?_, ?_, ?_⟩
    · show Tame _ _ _ (below _ 0 _); rw [b]; exact tame
    · show Tame _ _ _ (above _ 0 _); rw [a]; exact tame
    · show (below _ 0 y).vel 0 - (below _ 0 y).sound 2 ≠ (above _ 0 y).vel 0 + (above _ 0 y).sound 2
      rw [b, a]; exact differ
  refine ⟨fun d h => ?_, fun d h => ?_, fun d h => ?_⟩
  · obtain rfl : d = 0 := Fin.ext (by rw [g1] at h; simpa using h)
    exact face x fun s a b j hj => A 0 (by omega) s a (by omega) j hj
  · obtain rfl : d = 0 := Fin.ext (by rw [g1] at h; simpa using h)
    refine face _ fun s a b j hj => ?_
    show v (moveBy (moveBy x 0 1) 0 s ++ _) = _
    rw [moveBy_moveBy]
    exact A 0 (by omega) _ (by omega) (by omega) j hj
  · have e0 := A0 d h 0 (by decide)
    have e1 := A d h (-1) (by decide) (by decide) 0 (by decide)
    have e2 := A d h 1 (by decide) (by decide) 0 (by decide)
    rw [e0, e1, e2]
    exact ⟨.inl (by simp), .inl (by simp)⟩

end QK.Props
