import Verif.Props.Density
/-
C114: does the pressure of a gas stay positive? What one stage of the Euler solver does to the energy of a cell, seen from any frame.
-/
namespace QK.Props
open QK Spec

/-- The energy density of the gas for an observer who moves with velocity `v`. -/
noncomputable def seen (v : Fin 3 → ℝ) (q : Gas) : ℝ := q.en - vdot v q.mom + vdot v v / 2 * q.rho

/-- How an error of size 1 in each component can change the energy seen from `v`. -/
noncomputable def weight (v : Fin 3 → ℝ) : ℝ := 1 + (|v 0| + |v 1| + |v 2|) + vdot v v / 2

theorem seen_lin (v : Fin 3 → ℝ) (a b : ℝ) (q r : Gas) : seen v (Gas.lin a q b r) = a * seen v q + b * seen v r := by
  unfold seen Gas.lin vdot; ring

/-- The internal energy is the least energy that an observer sees: the one who moves with the gas. -/
theorem seen_ge {q : Gas} (h : 0 < q.rho) (gamma : ℝ) (hg : gamma ≠ 1) (v : Fin 3 → ℝ) :
    seen v q = q.pressure gamma / (gamma - 1) + q.rho / 2 * ((q.vel 0 - v 0) ^ 2 + (q.vel 1 - v 1) ^ 2 + (q.vel 2 - v 2) ^ 2) := by
  have : gamma - 1 ≠ 0 := sub_ne_zero.2 hg
  unfold seen Gas.pressure Gas.vel vdot
  field_simp
  ring

/-- The observer who moves with the gas sees its internal energy. -/
theorem seen_vel {q : Gas} (h : 0 < q.rho) (gamma : ℝ) (hg : gamma ≠ 1) : seen q.vel q = q.pressure gamma / (gamma - 1) := by
  rw [seen_ge h gamma hg]; ring

/-- A gas of positive density and pressure not negative, in which no signal along `d` is faster than `a`. -/
structure Calm (gamma a : ℝ) (d : Fin 3) (q : Gas) : Prop where
  rho : 0 < q.rho
  press : 0 ≤ q.pressure gamma
  speed : |q.vel d| + q.sound gamma ≤ a

theorem Calm.tame {gamma a : ℝ} {d : Fin 3} {q : Gas} (hg : 0 ≤ gamma) (h : Calm gamma a d q) : Tame gamma a d q := by
  have := h.speed
  have s : 0 ≤ q.sound gamma := Real.sqrt_nonneg _
  have := abs_nonneg (q.vel d)
  exact ⟨h.rho, by have := h.rho; have := h.press; positivity, by linarith, by linarith⟩

/-- The energy flux seen from a frame: energy carried along, and work of the pressure, which is at most what sound would carry. -/
theorem seen_flux {gamma a : ℝ} (hg : 1 < gamma) {d : Fin 3} {q : Gas} (h : Calm gamma a d q) (v : Fin 3 → ℝ) :
    0 ≤ seen v q ∧ ∃ w, seen v (q.flux gamma d) = q.vel d * seen v q + w ∧ |w| ≤ q.sound gamma * seen v q := by
  have hr := h.rho
  have hP := h.press
  have hg0 : 0 < gamma - 1 := by linarith
  have e := seen_ge hr gamma hg.ne' v
  have hs : q.sound gamma ^ 2 * q.rho = gamma * q.pressure gamma := by
    unfold Gas.sound
    rw [Real.sq_sqrt (by positivity)]; field_simp
  have sn : 0 ≤ q.sound gamma := Real.sqrt_nonneg _
  have ge : q.pressure gamma / (gamma - 1) + q.rho / 2 * (q.vel d - v d) ^ 2 ≤ seen v q := by
    rw [e]
    have : (q.vel d - v d) ^ 2 ≤ (q.vel 0 - v 0) ^ 2 + (q.vel 1 - v 1) ^ 2 + (q.vel 2 - v 2) ^ 2 := by
      fin_cases d <;> simp <;> nlinarith [sq_nonneg (q.vel 0 - v 0), sq_nonneg (q.vel 1 - v 1), sq_nonneg (q.vel 2 - v 2)]
    nlinarith
  refine ⟨le_trans (by positivity) ge, q.pressure gamma * (q.vel d - v d), ?_, ?_⟩
  · unfold seen Gas.flux vdot
    fin_cases d <;> simp [Gas.vel, unit] <;> field_simp <;> ring
  · refine le_trans ?_ (mul_le_mul_of_nonneg_left ge sn)
    rw [abs_mul, abs_of_nonneg hP, ← sq_abs (q.vel d - v d)]
    have hw := abs_nonneg (q.vel d - v d)
    generalize |q.vel d - v d| = w at *
    generalize q.sound gamma = c at *
    generalize q.pressure gamma = P at *
    generalize q.rho = ρ at *
    have hP' : P = c ^ 2 * ρ / gamma := by field_simp; linarith
    have key : c * (P / (gamma - 1) + ρ / 2 * w ^ 2) - P * w = c * ρ * ((w - c / gamma) ^ 2 / 2 + c ^ 2 * (gamma + 1) / (2 * gamma ^ 2 * (gamma - 1))) := by
      rw [hP']; field_simp; ring
    have : 0 ≤ c * ρ * ((w - c / gamma) ^ 2 / 2 + c ^ 2 * (gamma + 1) / (2 * gamma ^ 2 * (gamma - 1))) := by positivity
    linarith

/-- **C114** The energy that the HLL flux of the code takes out of either side is at most the energy there times the largest signal speed, in every frame. -/
theorem C114_flux {gamma a : ℝ} (hg : 1 < gamma) {d : Fin 3} {l r : Gas} (hl : Calm gamma a d l) (hr : Calm gamma a d r) (hne : l.vel d - l.sound gamma ≠ r.vel d + r.sound gamma) :
    ∃ F : Gas, Euler.hll gamma (d : Nat) l.comps r.comps = .ok F.comps ∧ ∀ v, seen v F ≤ a * seen v l ∧ -(a * seen v r) ≤ seen v F := by
  refine ⟨_, Euler.hll_gas gamma d l r, fun v => ?_⟩
  obtain ⟨nl, wl, el, bl⟩ := seen_flux hg hl v
  obtain ⟨nr, wr, er, br⟩ := seen_flux hg hr v
  have cl : 0 ≤ l.sound gamma := Real.sqrt_nonneg _
  have cr : 0 ≤ r.sound gamma := Real.sqrt_nonneg _
  have sl := hl.speed
  have sr := hr.speed
  have vl := abs_le.1 (le_refl |l.vel d|)
  have vr := abs_le.1 (le_refl |r.vel d|)
  have bl := abs_le.1 bl
  have br := abs_le.1 br
  simp only [seen_lin, Gas.hllFlux, el, er, zero_mul, add_zero, one_mul]
  generalize seen v l = fl at *
  generalize seen v r = fr at *
  generalize l.vel d = ul at *
  generalize r.vel d = ur at *
  generalize l.sound gamma = c at *
  generalize r.sound gamma = c' at *
  generalize |ul| = aul at *
  generalize |ur| = aur at *
  have e : (ur + c') * (ul * fl + wl) + -(ul - c) * (ur * fr + wr) + (ul - c) * (ur + c') * (fr + -1 * fl) = (ur + c') * (c * fl + wl) + (ul - c) * (c' * fr - wr) := by ring
  rw [e]
  have m1 : 0 ≤ (a - ul - c) * fl := mul_nonneg (by linarith) nl
  have m2 : 0 ≤ (a + ur - c') * fr := mul_nonneg (by linarith) nr
  have m3 : 0 ≤ a * fl := mul_nonneg (by linarith) nl
  have m4 : 0 ≤ a * fr := mul_nonneg (by linarith) nr
  by_cases h1 : 0 < ul - c
  · have m5 : 0 ≤ (ul - c) * fl := mul_nonneg h1.le nl
    rw [if_neg (by rintro ⟨_, h⟩; linarith), if_pos h1]
    by_cases h2 : ur + c' < 0
    · have m6 : (ur + c') * fr ≤ 0 := mul_nonpos_of_nonpos_of_nonneg h2.le nr
      rw [if_pos h2]; constructor <;> nlinarith
    · rw [if_neg h2]; constructor <;> nlinarith
  · rw [if_neg h1]
    by_cases h2 : ur + c' < 0
    · have m6 : (ur + c') * fr ≤ 0 := mul_nonpos_of_nonpos_of_nonneg h2.le nr
      rw [if_neg (by rintro ⟨h, _⟩; linarith), if_pos h2]; constructor <;> nlinarith
    · rw [if_pos ⟨by linarith, by linarith⟩, if_neg h2]
      have hp : 0 < ur + c' - (ul - c) := lt_of_le_of_ne (by linarith) fun h => hne (by linarith)
      have hA : 0 ≤ ur + c' := by linarith
      have hB : 0 ≤ -(ul - c) := by linarith
      have g1 : 0 ≤ c * fl + wl := by linarith
      have g2 : 0 ≤ c' * fr - wr := by linarith
      have g3 : c * fl + wl ≤ 2 * c * fl := by linarith
      have g4 : c' * fr - wr ≤ 2 * c' * fr := by linarith
      have k1 : (ur + c') * (2 * c) ≤ a * (ur + c' - (ul - c)) := by nlinarith
      have k2 : -(ul - c) * (2 * c') ≤ a * (ur + c' - (ul - c)) := by nlinarith
      have j1 := mul_le_mul_of_nonneg_right k1 nl
      have j2 := mul_le_mul_of_nonneg_right k2 nr
      have i1 := mul_le_mul_of_nonneg_left g3 hA
      have i2 := mul_le_mul_of_nonneg_left g4 hB
      have o1 := mul_nonneg hA g1
      have o2 := mul_nonneg hB g2
      have key : 1 / (ur + c' - (ul - c)) * ((ur + c') * (c * fl + wl) + (ul - c) * (c' * fr - wr)) ≤ a * fl ∧
          -(a * fr) ≤ 1 / (ur + c' - (ul - c)) * ((ur + c') * (c * fl + wl) + (ul - c) * (c' * fr - wr)) := by
        rw [one_div, inv_mul_eq_div, div_le_iff₀ hp, le_div_iff₀ hp]
        constructor <;> linarith
      constructor <;> linarith [key.1, key.2]

/-! ### A stage -/

/-- The two states at the lower face of `x` in direction `d`, for the flux in that direction. -/
structure CalmFace (gamma a : ℝ) (u : Cell → Nat → ℝ) (d : Fin 3) (x : Cell) : Prop where
  below : Calm gamma a d (below u d x)
  above : Calm gamma a d (above u d x)
  differ : (Props.below u d x).vel d - (Props.below u d x).sound gamma ≠ (Props.above u d x).vel d + (Props.above u d x).sound gamma

/-- All faces of cell `x` in the first `n` directions; `a` bounds the signal speeds by direction. -/
structure CalmAt (gamma : ℝ) (a : Nat → ℝ) (n : Nat) (u : Cell → Nat → ℝ) (x : Cell) : Prop where
  lower : ∀ d : Fin 3, (d : Nat) < n → CalmFace gamma (a d) u d x
  upper : ∀ d : Fin 3, (d : Nat) < n → CalmFace gamma (a d) u d (moveBy x d 1)
  clear : ∀ d < n, ∀ j < 5, Clear (u x j - u (moveBy x d (-1)) j) ∧ Clear (u (moveBy x d 1) j - u x j)

theorem CalmAt.tame {gamma : ℝ} {a : Nat → ℝ} {n : Nat} {u : Cell → Nat → ℝ} {x : Cell} (hg : 0 ≤ gamma) (h : CalmAt gamma a n u x) : TameAt gamma a n u x :=
  ⟨fun d hd => ⟨(h.lower d hd).below.tame hg, (h.lower d hd).above.tame hg, (h.lower d hd).differ⟩,
    fun d hd => ⟨(h.upper d hd).below.tame hg, (h.upper d hd).above.tame hg, (h.upper d hd).differ⟩, fun d hd => h.clear d hd 0 (by decide)⟩

theorem weight_pos (v : Fin 3 → ℝ) : 0 < weight v := by
  have : 0 ≤ vdot v v := by unfold vdot; nlinarith [sq_nonneg (v 0), sq_nonneg (v 1), sq_nonneg (v 2)]
  unfold weight
  positivity

/-- Components that differ by at most `e` are seen with energies that differ by at most `e` times the weight. -/
theorem seen_near (v : Fin 3 → ℝ) {w w' : Nat → ℝ} {e : ℝ} (h : ∀ j < 5, |w j - w' j| ≤ e) : seen v (gasOf w) ≤ seen v (gasOf w') + e * weight v := by
  have h0 := abs_le.1 (h 0 (by decide))
  have k : ∀ j : Fin 3, -(v j * (w (j + 1) - w' (j + 1))) ≤ |v j| * e := by
    intro j
    refine (neg_le_abs _).trans ?_
    rw [abs_mul]
    exact mul_le_mul_of_nonneg_left (h _ (by omega)) (abs_nonneg _)
  have k0 := k 0; have k1 := k 1; have k2 := k 2
  have h4 := abs_le.1 (h 4 (by decide))
  have q : 0 ≤ vdot v v := by unfold vdot; nlinarith [sq_nonneg (v 0), sq_nonneg (v 1), sq_nonneg (v 2)]
  have m := mul_le_mul_of_nonneg_left h0.2 q
  have e1 : seen v (gasOf w) - seen v (gasOf w') = (w 4 - w' 4) - (v 0 * (w 1 - w' 1) + v 1 * (w 2 - w' 2) + v 2 * (w 3 - w' 3)) + vdot v v / 2 * (w 0 - w' 0) := by
    unfold seen gasOf
    simp only [vdot, show ∀ a b c : ℝ, (![a, b, c] : Fin 3 → ℝ) 2 = c from fun _ _ _ => rfl, Matrix.cons_val_zero, Matrix.cons_val_one]
    ring
  have e2 : e * weight v = e + (|v 0| * e + |v 1| * e + |v 2| * e) + vdot v v * e / 2 := by unfold weight; ring
  simp only [Fin.val_zero, Fin.val_one, Fin.val_two] at k0 k1 k2
  norm_num at k0 k1 k2
  linarith

/-- The states that the reconstruction puts on the two faces of a cell are together seen with twice the energy of the cell, up to a small error. -/
theorem C114_faces {u : Cell → Nat → ℝ} {d : Nat} {x : Cell} (h : ∀ j < 5, Clear (u x j - u (moveBy x d (-1)) j) ∧ Clear (u (moveBy x d 1) j - u x j)) (v : Fin 3 → ℝ) :
    seen v (above u d x) + seen v (below u d (moveBy x d 1)) ≤ 2 * seen v (gasOf (u x)) + 3 / 10 ^ 12 * weight v := by
  have add : ∀ w w' : Nat → ℝ, seen v (gasOf w) + seen v (gasOf w') = seen v (gasOf fun j => w j + w' j) := by
    intro w w'
    unfold seen gasOf
    simp only [vdot, show ∀ a b c : ℝ, (![a, b, c] : Fin 3 → ℝ) 2 = c from fun _ _ _ => rfl, Matrix.cons_val_zero, Matrix.cons_val_one]
    ring
  unfold above below
  rw [add, two_mul, add]
  refine seen_near v fun j hj => ?_
  rw [moveBy_moveBy, moveBy_moveBy, moveBy_moveBy]
  norm_num
  rw [moveBy_zero, ← two_mul]
  have := recon_faces (z := u (moveBy x d (-2)) j) (z' := u (moveBy x d 2) j) (h j hj).1 (h j hj).2
  norm_num at this
  exact this

theorem energy_rate {gamma : ℝ} (hg : 1 < gamma) {a dx : Nat → ℝ} {n : Nat} {u : Cell → Nat → ℝ} {x : Cell} (hn : n ≤ 3) (ha : ∀ d < n, 0 ≤ a d) (hdx : ∀ d < n, 0 < dx d)
    (h : CalmAt gamma a n u x) (v : Fin 3 → ℝ) : ∀ (ds : List Nat) (r : Nat → ℝ), (∀ d ∈ ds, d < n) →
    seen v (gasOf r) - (ds.map fun d => a d / dx d).sum * (2 * seen v (gasOf (u x)) + 3 / 10 ^ 12 * weight v) ≤
      seen v (gasOf fun j => fvUpdate (fun dim => fluxOf (Euler.hll gamma dim)) 5 u dx ds x j (r j)) := by
  intro ds
  induction ds with
  | nil => intro r _; simp [fvUpdate]
  | cons d ds ih =>
    intro r hd
    have hdn : d < n := hd d (by simp)
    have d3 : d < 3 := by omega
    have fl : ∀ y, CalmFace gamma (a d) u (⟨d, d3⟩ : Fin 3) y → ∃ F : Gas, faceFlux (fluxOf (Euler.hll gamma (d : Nat))) 5 u d y = F.comps ∧
        seen v F ≤ a d * seen v (below u d y) ∧ -(a d * seen v (above u d y)) ≤ seen v F := by
      intro y hy
      obtain ⟨F, h1, h2⟩ := C114_flux hg hy.below hy.above hy.differ
      refine ⟨F, ?_, h2 v⟩
      show fluxOf _ (below u d y).comps (above u d y).comps = _
      unfold fluxOf
      dsimp only at h1
      rw [h1]
    obtain ⟨F, eF, -, l2⟩ := fl _ (h.lower ⟨d, d3⟩ hdn)
    obtain ⟨G, eG, u1, -⟩ := fl _ (h.upper ⟨d, d3⟩ hdn)
    have hs := C114_faces (h.clear d hdn) v
    have hp := hdx d hdn
    have z : (Arith.lit 0 : ℝ) = 0 := by simp [real_lit]
    have e : ∀ j, fvUpdate (fun dim => fluxOf (Euler.hll gamma dim)) 5 u dx (d :: ds) x j (r j) = fvUpdate (fun dim => fluxOf (Euler.hll gamma dim)) 5 u dx ds x j
      (r j + F.comps.getD j 0 / dx d - G.comps.getD j 0 / dx d) := by
      intro j
      unfold fvUpdate
      rw [List.foldl_cons, z, eF, ← eG]
    simp only [e]
    refine le_trans ?_ (ih (fun j => r j + F.comps.getD j 0 / dx d - G.comps.getD j 0 / dx d) fun e he => hd e (by simp [he]))
    rw [List.map_cons, List.sum_cons]
    have lin : seen v (gasOf fun j => r j + F.comps.getD j 0 / dx d - G.comps.getD j 0 / dx d) = seen v (gasOf r) + seen v F / dx d - seen v G / dx d := by
      unfold seen gasOf Gas.comps
      simp only [vdot, show ∀ a b c : ℝ, (![a, b, c] : Fin 3 → ℝ) 2 = c from fun _ _ _ => rfl, Matrix.cons_val_zero, Matrix.cons_val_one, List.getD_cons_zero, List.getD_cons_succ]
      ring
    rw [lin]
    have key : -(a d / dx d * (2 * seen v (gasOf (u x)) + 3 / 10 ^ 12 * weight v)) ≤ seen v F / dx d - seen v G / dx d := by
      rw [← sub_div, div_mul_eq_mul_div, ← neg_div]
      refine (div_le_div_iff_of_pos_right hp).2 ?_
      have := mul_le_mul_of_nonneg_left hs (ha d hdn)
      linarith
    linarith

/-- **C114** A forward Euler step of size `t` leaves in every cell, in every frame, at least the fraction `1 - 2 C` of the energy seen from that frame, `C` the Courant number of the reconstructed
states. -/
theorem C114_rate {gamma t : ℝ} (hg : 1 < gamma) {a dx : Nat → ℝ} {n : Nat} {u : Cell → Nat → ℝ} {x : Cell} (hn : n ≤ 3) (ha : ∀ d < n, 0 ≤ a d) (hdx : ∀ d < n, 0 < dx d) (ht : 0 ≤ t)
    (h : CalmAt gamma a n u x) (v : Fin 3 → ℝ) : (1 - 2 * courant a dx n t) * seen v (gasOf (u x)) - courant a dx n t * (3 / 10 ^ 12 * weight v) ≤
      seen v (gasOf fun j => u x j + t * fvUpdate (fun dim => fluxOf (Euler.hll gamma dim)) 5 u dx (List.range n) x j (Arith.lit 0)) := by
  have h1 := energy_rate hg hn ha hdx h v (List.range n) (fun _ => Arith.lit 0) fun d hd => List.mem_range.1 hd
  have z : (Arith.lit 0 : ℝ) = 0 := by simp [real_lit]
  have e : courant a dx n t = t * ((List.range n).map fun d => a d / dx d).sum := by
    unfold courant
    rw [← List.sum_map_mul_left]
    congr 1
    refine List.map_congr_left fun d _ => ?_
    ring
  have lin : ∀ w w' : Nat → ℝ, seen v (gasOf fun j => w j + t * w' j) = seen v (gasOf w) + t * seen v (gasOf w') := by
    intro w w'
    unfold seen gasOf
    simp only [vdot, show ∀ a b c : ℝ, (![a, b, c] : Fin 3 → ℝ) 2 = c from fun _ _ _ => rfl, Matrix.cons_val_zero, Matrix.cons_val_one]
    ring
  have z0 : seen v (gasOf fun _ => (Arith.lit 0 : ℝ)) = 0 := by
    rw [z]; unfold seen gasOf
    simp [vdot, show ∀ a b c : ℝ, (![a, b, c] : Fin 3 → ℝ) 2 = c from fun _ _ _ => rfl]
  rw [lin, e]
  rw [z0] at h1
  have := mul_le_mul_of_nonneg_left h1 ht
  nlinarith

/-! ### A time step -/

/-- `three_stages` for an error of any size. -/
theorem three_stages_error {C δ m v1 v2 f0 f1 f2 z : ℝ} (hC : 0 ≤ C) (hC' : C ≤ 1 / 2) (hd : 0 ≤ δ) (e1 : v1 = f0) (e2 : v2 = 3 / 4 * m + 1 / 4 * f1) (e3 : z = (m + 2 * f2) / 3)
    (h0 : (1 - 2 * C) * m - δ ≤ f0) (h1 : (1 - 2 * C) * v1 - δ ≤ f1) (h2 : (1 - 2 * C) * v2 - δ ≤ f2) :
    (1 / 3 + (1 - 2 * C) / 2 + (1 - 2 * C) ^ 3 / 6) * m - δ ≤ z := by
  have hk : 0 ≤ 1 - 2 * C := by linarith
  have hk' : 1 - 2 * C ≤ 1 := by linarith
  generalize 1 - 2 * C = κ at *
  have a1 := mul_le_mul_of_nonneg_left h0 hk
  have a2 := mul_le_mul_of_nonneg_left h1 hk
  have a3 := mul_le_mul_of_nonneg_left a1 hk
  have b1 : κ * δ ≤ δ := by nlinarith
  have b2 : κ * (κ * δ) ≤ δ := by nlinarith
  subst e1 e2 e3
  nlinarith

/-- The gas in a cell. -/
def gasIn (q : Cell → ℝ) (x : Cell) : Gas := gasOf fun j => q (x ++ [(j : Int)])

section
variable {grid : Rectilinear ℝ} {p : Nat} {ws ps : List Nat} {t gamma : ℝ} {a : Nat → ℝ}

/-- **C114**, what holds, for a gas, seen from any frame: a time step (three stages) leaves in a cell at least the fraction `1/3 + κ/2 + κ³/6` of the energy seen from the frame, `κ = 1 - 2 C`, up to
`3e-12 C` times the weight of the frame, if the Courant number `C` is at most 1/2 and in every stage the states reconstructed at its faces have positive density, pressure not negative and signal
speeds within `a`. Missing: that the reconstructed states are of this kind whenever the cells are, which is false (`C114_false`). -/
theorem C114_energy_partial (hg : 1 < gamma) (hn : grid.rng.dims.length ≤ 3) (ha : ∀ d < grid.rng.dims.length, 0 ≤ a d) (hdx : ∀ d < grid.rng.dims.length, 0 < grid.dxAt d) (ht : 0 ≤ t)
    (hC : courant a grid.dxAt grid.rng.dims.length t ≤ 1 / 2) {q q0 r0 q1 q1' r1 q2 q2' r2 q' : Cell → ℝ}
    (S0 : SoloStage grid.rng.dims p 5 ws isMomentum ps (GasRate grid.rng.dims p grid.dxAt gamma) t 0 q0 q q0 r0 q1)
    (S1 : SoloStage grid.rng.dims p 5 ws isMomentum ps (GasRate grid.rng.dims p grid.dxAt gamma) t 1 q0 q1 q1' r1 q2)
    (S2 : SoloStage grid.rng.dims p 5 ws isMomentum ps (GasRate grid.rng.dims p grid.dxAt gamma) t 2 q0 q2 q2' r2 q')
    {x : Cell} (hx : InBox (grid.rng.dims ++ [(0, (p : Int))]) x) (T : ∀ u ∈ [q0, q1', q2'], CalmAt gamma a grid.rng.dims.length (fun x j => u (x ++ [(j : Int)])) x) (v : Fin 3 → ℝ) :
    (1 / 3 + (1 - 2 * courant a grid.dxAt grid.rng.dims.length t) / 2 + (1 - 2 * courant a grid.dxAt grid.rng.dims.length t) ^ 3 / 6) * seen v (gasIn q x)
      - courant a grid.dxAt grid.rng.dims.length t * (3 / 10 ^ 12 * weight v) ≤ seen v (gasIn q' x) := by
  have hC0 : 0 ≤ courant a grid.dxAt grid.rng.dims.length t := by
    unfold courant
    refine List.sum_nonneg fun y hy => ?_
    obtain ⟨d, hd, rfl⟩ := List.mem_map.1 hy
    have hd := List.mem_range.1 hd
    have := ha d hd; have := hdx d hd
    positivity
  have cong : ∀ {w w' : Nat → ℝ}, (∀ j < 5, w j = w' j) → gasOf w = gasOf w' := by
    intro w w' h
    unfold gasOf
    rw [h 0 (by decide), h 1 (by decide), h 2 (by decide), h 3 (by decide), h 4 (by decide)]
  have lin : ∀ (b c : ℝ) (w w' : Nat → ℝ), seen v (gasOf fun j => b * w j + c * w' j) = b * seen v (gasOf w) + c * seen v (gasOf w') := by
    intro b c w w'
    unfold seen gasOf
    simp only [vdot, show ∀ a b c : ℝ, (![a, b, c] : Fin 3 → ℝ) 2 = c from fun _ _ _ => rfl, Matrix.cons_val_zero, Matrix.cons_val_one]
    ring
  have inn : ∀ j < 5, InBox (grid.rng.dims ++ [(0, (p : Int)), (0, ((5 : Nat) : Int))]) (x ++ [((j : Nat) : Int)]) := by
    intro j hj
    rw [show grid.rng.dims ++ [((0 : Int), (p : Int)), (0, ((5 : Nat) : Int))] = (grid.rng.dims ++ [((0 : Int), (p : Int))]) ++ [(0, ((5 : Nat) : Int))] by simp]
    exact (inBox_snoc hx.length_eq).2 ⟨hx, by omega, by omega⟩
  have b0 := C114_rate hg hn ha hdx ht (T q0 (by simp)) v
  have b1 := C114_rate hg hn ha hdx ht (T q1' (by simp)) v
  have b2 := C114_rate hg hn ha hdx ht (T q2' (by simp)) v
  have g0 : gasIn q0 x = gasIn q x := cong fun j hj => S0.fill.inside _ (inn j hj)
  have g1 : gasIn q1' x = gasIn q1 x := cong fun j hj => S1.fill.inside _ (inn j hj)
  have g2 : gasIn q2' x = gasIn q2 x := cong fun j hj => S2.fill.inside _ (inn j hj)
  rw [← g0]
  refine three_stages_error hC0 hC (by have := weight_pos v; positivity) (v1 := seen v (gasIn q1' x)) (v2 := seen v (gasIn q2' x)) ?_ ?_ ?_ b0 b1 b2
  · rw [g1]
    refine congrArg _ (cong fun j hj => ?_)
    rw [S0.next, (rk_stages _ _ _).1, S0.rates x hx j (by omega)]
  · rw [g2]; simp only [gasIn]; rw [← lin]
    refine congrArg _ (cong fun j hj => ?_)
    rw [S1.next, (rk_stages _ _ _).2.1, S1.rates x hx j (by omega)]
  · have := lin (1 / 3) (2 / 3) (fun j => q0 (x ++ [(j : Int)])) fun j => q2' (x ++ [(j : Int)]) + t * fvUpdate (fun dim => fluxOf (Euler.hll gamma dim)) 5
      (fun x j => q2' (x ++ [(j : Int)])) grid.dxAt (List.range grid.rng.dims.length) x j (Arith.lit 0)
    rw [show ∀ A B : ℝ, (A + 2 * B) / 3 = 1 / 3 * A + 2 / 3 * B from fun A B => by ring]
    refine Eq.trans ?_ this
    refine congrArg _ (cong fun j hj => ?_)
    rw [S2.next, (rk_stages _ _ _).2.2, S2.rates x hx j (by omega)]
    ring

/-- **C114**, what holds, for the pressure: after a time step the pressure is at least the fraction `1/3 + κ/2 + κ³/6` of the pressure before it, up to an error of `3e-12 C (γ - 1)` times a factor that
depends on the new velocity only; hypotheses as above. -/
theorem C114_gas_partial (hg : 1 < gamma) (hn : grid.rng.dims.length ≤ 3) (ha : ∀ d < grid.rng.dims.length, 0 ≤ a d) (hdx : ∀ d < grid.rng.dims.length, 0 < grid.dxAt d) (ht : 0 ≤ t)
    (hC : courant a grid.dxAt grid.rng.dims.length t ≤ 1 / 2) {q q0 r0 q1 q1' r1 q2 q2' r2 q' : Cell → ℝ}
    (S0 : SoloStage grid.rng.dims p 5 ws isMomentum ps (GasRate grid.rng.dims p grid.dxAt gamma) t 0 q0 q q0 r0 q1)
    (S1 : SoloStage grid.rng.dims p 5 ws isMomentum ps (GasRate grid.rng.dims p grid.dxAt gamma) t 1 q0 q1 q1' r1 q2)
    (S2 : SoloStage grid.rng.dims p 5 ws isMomentum ps (GasRate grid.rng.dims p grid.dxAt gamma) t 2 q0 q2 q2' r2 q')
    {x : Cell} (hx : InBox (grid.rng.dims ++ [(0, (p : Int))]) x) (T : ∀ u ∈ [q0, q1', q2'], CalmAt gamma a grid.rng.dims.length (fun x j => u (x ++ [(j : Int)])) x)
    (hr : 1 / 10 ^ 11 ≤ (gasIn q x).rho) :
    0 < (gasIn q' x).rho ∧
    (1 / 3 + (1 - 2 * courant a grid.dxAt grid.rng.dims.length t) / 2 + (1 - 2 * courant a grid.dxAt grid.rng.dims.length t) ^ 3 / 6) * (gasIn q x).pressure gamma
      - courant a grid.dxAt grid.rng.dims.length t * (3 / 10 ^ 12) * (gamma - 1) * weight (gasIn q' x).vel ≤ (gasIn q' x).pressure gamma := by
  have hg0 : 0 < gamma - 1 := by linarith
  have r0 : 0 < (gasIn q x).rho := lt_of_lt_of_le (by norm_num) hr
  have hC0 : 0 ≤ courant a grid.dxAt grid.rng.dims.length t := by
    unfold courant
    refine List.sum_nonneg fun y hy => ?_
    obtain ⟨d, hd, rfl⟩ := List.mem_map.1 hy
    have hd := List.mem_range.1 hd
    have := ha d hd; have := hdx d hd
    positivity
  have D := C106_gas_partial hn ha hdx ht hC S0 S1 S2 hx fun u hu => (T u hu).tame (by linarith)
  have D' : (gasIn q x).rho = q (x ++ [0]) ∧ (gasIn q' x).rho = q' (x ++ [0]) := ⟨rfl, rfl⟩
  rw [← D'.1, ← D'.2] at D
  have E := C114_energy_partial hg hn ha hdx ht hC S0 S1 S2 hx T (gasIn q' x).vel
  generalize courant a grid.dxAt grid.rng.dims.length t = C at *
  have hk : 0 ≤ 1 - 2 * C := by linarith
  have hk3 : 0 ≤ (1 - 2 * C) ^ 3 := pow_nonneg hk 3
  have hf : 1 / 3 ≤ 1 / 3 + (1 - 2 * C) / 2 + (1 - 2 * C) ^ 3 / 6 := by linarith
  generalize 1 / 3 + (1 - 2 * C) / 2 + (1 - 2 * C) ^ 3 / 6 = f at *
  have r1 : 0 < (gasIn q' x).rho := by nlinarith
  refine ⟨r1, ?_⟩
  rw [seen_vel r1 gamma hg.ne'] at E
  have ge : (gasIn q x).pressure gamma / (gamma - 1) ≤ seen (gasIn q' x).vel (gasIn q x) := by
    rw [seen_ge r0 gamma hg.ne']
    have : 0 ≤ (gasIn q x).rho / 2 * (((gasIn q x).vel 0 - (gasIn q' x).vel 0) ^ 2 + ((gasIn q x).vel 1 - (gasIn q' x).vel 1) ^ 2 + ((gasIn q x).vel 2 - (gasIn q' x).vel 2) ^ 2) := by positivity
    linarith
  have E' := (le_div_iff₀ hg0).1 ((sub_le_sub_right (mul_le_mul_of_nonneg_left ge (by linarith : (0 : ℝ) ≤ f)) _).trans E)
  have e : f * ((gasIn q x).pressure gamma / (gamma - 1)) * (gamma - 1) = f * (gasIn q x).pressure gamma := by field_simp
  rw [sub_mul, e] at E'
  linarith

end

/-! ### What fails -/

/-- Gas of density 1 with momentum `m` in the first direction and energy `e`. -/
def moving (m e : ℝ) : Nat → ℝ
  | 0 => 1
  | 1 => m
  | 4 => e
  | _ => 0

/-- Momenta and energies of a row of cells. -/
noncomputable def ramp (i : Int) : ℝ × ℝ := if i = 0 then (0, 8) else if i = 1 then (2, 5 / 2) else if i = 2 then (4, 9) else (6, 20)

open XReal in
private theorem nan_ops (a : XReal) : (a + nan : XReal) = nan ∧ (nan + a : XReal) = nan ∧ (a - nan : XReal) = nan ∧ (nan - a : XReal) = nan ∧ (a * nan : XReal) = nan ∧ (nan * a : XReal) = nan ∧
    (a / nan : XReal) = nan ∧ (nan / a : XReal) = nan := by
  refine ⟨?_, ?_, ?_, ?_, ?_, ?_, ?_, ?_⟩ <;> cases a <;> rfl

open XReal in
/-- **C114** is false: a gas of density 1 and positive pressure everywhere, of whose rate every component is NaN in a cell, for every cell width and every `gamma` above 1: momentum and energy are
limited one by one, and together they give a negative pressure at the wall. -/
theorem C114_false : ∀ gamma : ℝ, 1 < gamma → (∀ i, 0 < (gasOf (moving (ramp i).1 (ramp i).2)).pressure gamma) ∧ ∀ (dx : Nat → XReal) (j : Nat), j < 5 →
    fvUpdate (fun dim => fluxOf (Euler.hll (fin gamma) dim)) 5 (fun x j => fin (moving (ramp (x.getD 0 0)).1 (ramp (x.getD 0 0)).2 j)) dx (List.range 1) [2, 0] j (Arith.lit 0) = nan := by
  refine fun gamma hg => ⟨fun i => ?_, fun dx j hj => ?_⟩
  · have : 0 < gamma - 1 := by linarith
    unfold Gas.pressure
    refine mul_pos this ?_
    simp only [gasOf, moving, vdot]
    unfold ramp
    split_ifs <;> norm_num [show ∀ a b c : ℝ, (![a, b, c] : Fin 3 → ℝ) 2 = c from fun _ _ _ => rfl]
  have hF : faceFlux (fluxOf (Euler.hll (fin gamma) (0 : Nat))) 5 (fun x j => fin (moving (ramp (x.getD 0 0)).1 (ramp (x.getD 0 0)).2 j)) 0 [2, 0] = [nan, nan, nan, nan, nan] := by
    have d0 : ramp 0 = (0, 8) := by norm_num [ramp]
    have d1 : ramp 1 = (2, 5 / 2) := by norm_num [ramp]
    have d2 : ramp 2 = (4, 9) := by norm_num [ramp]
    have d3 : ramp 3 = (6, 20) := by norm_num [ramp]
    have r0 := C76_partial (qn := 1) (qc := 1) (qp := 1) (qpp := 1) (by norm_num) (by norm_num)
    have r1 := C76_partial (qn := 0) (qc := 2) (qp := 4) (qpp := 6) (by norm_num) (by norm_num)
    have r2 := C76_partial (qn := 0) (qc := 0) (qp := 0) (qpp := 0) (by norm_num) (by norm_num)
    have r4 := C76_partial (qn := 8) (qc := 5 / 2) (qp := 9) (qpp := 20) (by norm_num) (by norm_num)
    have z0 : FV.recon (1 : ℝ) 1 1 1 = (1, 1) := by simp [FV.recon]
    have z2 : FV.recon (0 : ℝ) 0 0 0 = (0, 0) := by simp [FV.recon]
    have lm : 29 / 10 < (FV.recon (0 : ℝ) 2 4 6).1 := by
      simp only [FV.recon, real_lit]; norm_num
    have le : (FV.recon (8 : ℝ) (5 / 2) 9 20).1 < 3 := by
      simp only [FV.recon, real_lit]; norm_num
    rw [z0] at r0
    rw [z2] at r2
    generalize (FV.recon (0 : ℝ) 2 4 6).1 = m at *
    generalize (FV.recon (0 : ℝ) 2 4 6).2 = m' at *
    generalize (FV.recon (8 : ℝ) (5 / 2) 9 20).1 = e at *
    generalize (FV.recon (8 : ℝ) (5 / 2) 9 20).2 = e' at *
    have ef : faceFlux (fluxOf (Euler.hll (fin gamma) (0 : Nat))) 5 (fun x j => fin (moving (ramp (x.getD 0 0)).1 (ramp (x.getD 0 0)).2 j)) 0 [2, 0] =
        fluxOf (Euler.hll (fin gamma) (0 : Nat)) [fin 1, fin m, fin 0, fin 0, fin e] [fin 1, fin m', fin 0, fin 0, fin e'] := by
      have : List.range 5 = [0, 1, 2, 3, 4] := rfl
      unfold faceFlux
      rw [this]
      simp [moveBy, moving, d0, d1, d2, d3, -one_div]
      simp [r0, r1, r2, r4, -one_div]
    rw [ef]
    unfold fluxOf
    rw [Euler.hll_dim0]
    have hs : (Arith.sqrt (fin gamma * Euler.pOf (fin gamma) (fin 1) (fin m) (fin 0) (fin 0) (fin e) / fin 1) : XReal) = nan := by
      unfold Euler.pOf
      simp only [fin_lit, fin_sub, fin_mul, fin_add, fin_div _ _ one_ne_zero]
      show XReal.sqrt _ = _
      simp only [XReal.sqrt]
      rw [if_pos]
      have : e - m * m / 2 < 0 := by nlinarith
      have h2 : 0 < gamma * (gamma - 1) := by nlinarith
      norm_num
      nlinarith
    rw [hs]
    have hc : ∀ (srr f f' q q' : XReal), Euler.combine nan srr f f' q q' = nan := by
      intro srr f f' q q'
      unfold Euler.combine
      simp only [nan_ops]
    simp only [nan_ops, Euler.hllWith, hc]
  show List.foldl _ _ [0] = _
  simp only [List.foldl_cons, List.foldl_nil]
  rw [hF]
  have : ([nan, nan, nan, nan, nan] : List XReal).getD j (Arith.lit 0) = nan := by
    rcases j with _ | _ | _ | _ | _ | j <;> first | rfl | omega
  rw [this, (nan_ops _).2.2.2.2.2.2.2, (nan_ops _).1, (nan_ops _).2.2.2.1]

/-! ### Examples -/

/-- Resting gas, whatever the density. -/
theorem resting_calm {rho : ℝ} (h : 1 ≤ rho) (d : Fin 3) : Calm 2 2 d (gasOf (resting rho)) := by
  have hP : (gasOf (resting rho)).pressure 2 = 1 := by simp [Gas.pressure, gasOf, resting, vdot, show (![0, 0, 0] : Fin 3 → ℝ) 2 = 0 from rfl]; norm_num
  have hr : (gasOf (resting rho)).rho = rho := rfl
  have hv : (gasOf (resting rho)).vel d = 0 := by
    unfold Gas.vel gasOf
    fin_cases d <;> simp [resting]
  refine ⟨by rw [hr]; linarith, by rw [hP]; norm_num, ?_⟩
  rw [hv, abs_zero, zero_add]
  unfold Gas.sound
  rw [hP, hr]
  refine (Real.sqrt_le_sqrt (y := 2 ^ 2) ?_).trans (by rw [Real.sqrt_sq (by norm_num)])
  rw [div_le_iff₀ (by linarith)]; linarith

/-- A jump of the density from 1 to 3 between the cells 0 and 1 of a row, gas at rest: the cell before the jump keeps 3/5 of its energy in every frame when the Courant number is 1/5. -/
example : CalmAt 2 (fun _ => 2) 1 (fun x j => resting (if x.getD 0 0 ≤ 0 then 1 else 3) j) [0, 0] ∧ courant (fun _ => 2) (fun _ => 1) 1 (1 / 10) = 1 / 5 := by
  have z : ∀ a b c : ℝ, (FV.recon a a b c).1 = a := by intro a b c; simp [FV.recon]
  have z' : ∀ a b c : ℝ, (FV.recon a b c c).2 = c := by intro a b c; simp [FV.recon]
  have z2 : ∀ a b c : ℝ, (FV.recon a b b c).2 = b := by intro a b c; simp [FV.recon]
  have g : ∀ r : ℝ, resting r 1 = 0 ∧ resting r 2 = 0 ∧ resting r 3 = 0 ∧ resting r 4 = 1 ∧ resting r 0 = r := fun r => ⟨rfl, rfl, rfl, rfl, rfl⟩
  have face : ∀ (d : Fin 3) (l r : ℝ), 1 ≤ l → 1 ≤ r → (gasOf (resting l)).vel d - (gasOf (resting l)).sound 2 ≠ (gasOf (resting r)).vel d + (gasOf (resting r)).sound 2 := by
    intro d l r hl hr
    have v : ∀ q, (gasOf (resting q)).vel d = 0 := by intro q; unfold Gas.vel gasOf; fin_cases d <;> simp [resting]
    have c : ∀ q : ℝ, 1 ≤ q → 0 < (gasOf (resting q)).sound 2 := by
      intro q hq
      refine Real.sqrt_pos.2 ?_
      have hP : (gasOf (resting q)).pressure 2 = 1 := by simp [Gas.pressure, gasOf, resting, vdot, show (![0, 0, 0] : Fin 3 → ℝ) 2 = 0 from rfl]; norm_num
      rw [hP, show (gasOf (resting q)).rho = q from rfl]; positivity
    rw [v, v]
    have := c l hl; have := c r hr
    intro h; linarith
  have b0 : below (fun x j => resting (if x.getD 0 0 ≤ 0 then 1 else 3) j) 0 [0, 0] = gasOf (resting 1) := by
    simp [below, gasOf, moveBy, z, g]
  have a0 : above (fun x j => resting (if x.getD 0 0 ≤ 0 then 1 else 3) j) 0 [0, 0] = gasOf (resting 1) := by
    simp [above, gasOf, moveBy, z2, g]
  have b1 : below (fun x j => resting (if x.getD 0 0 ≤ 0 then 1 else 3) j) 0 (moveBy [0, 0] 0 1) = gasOf (resting 1) := by
    simp [below, gasOf, moveBy, z, g]
  have a1 : above (fun x j => resting (if x.getD 0 0 ≤ 0 then 1 else 3) j) 0 (moveBy [0, 0] 0 1) = gasOf (resting 3) := by
    simp [above, gasOf, moveBy, z', g]
  refine ⟨⟨fun d hd => ?_, fun d hd => ?_, fun d hd => ?_⟩, by norm_num [courant]⟩
  · obtain rfl : d = 0 := Fin.ext (by simpa using hd)
    refine ⟨?_, ?_, ?_⟩
    · show Calm _ _ _ (below _ 0 _); rw [b0]; exact resting_calm le_rfl _
    · show Calm _ _ _ (above _ 0 _); rw [a0]; exact resting_calm le_rfl _
    · show (below _ 0 _).vel 0 - (below _ 0 _).sound 2 ≠ (above _ 0 _).vel 0 + (above _ 0 _).sound 2
      rw [b0, a0]; exact face 0 1 1 le_rfl le_rfl
  · obtain rfl : d = 0 := Fin.ext (by simpa using hd)
    refine ⟨?_, ?_, ?_⟩
    · show Calm _ _ _ (below _ 0 (moveBy [0, 0] 0 1)); rw [b1]; exact resting_calm le_rfl _
    · show Calm _ _ _ (above _ 0 (moveBy [0, 0] 0 1)); rw [a1]; exact resting_calm (by norm_num) _
    · show (below _ 0 (moveBy [0, 0] 0 1)).vel 0 - (below _ 0 (moveBy [0, 0] 0 1)).sound 2 ≠ (above _ 0 (moveBy [0, 0] 0 1)).vel 0 + (above _ 0 (moveBy [0, 0] 0 1)).sound 2
      rw [b1, a1]; exact face 0 1 3 le_rfl (by norm_num)
  · obtain rfl : d = 0 := by omega
    simp [moveBy]
    intro j hj
    refine ⟨.inl le_rfl, .inl ?_⟩
    match j, hj with
    | 0, _ => norm_num [g]
    | 1, _ => simp [g]
    | 2, _ => simp [g]
    | 3, _ => simp [g]
    | 4, _ => simp [g]

/-- Resting gas of density 2 in a ring of four cells of width 1, step 1/10: the hypotheses of `C114_gas_partial` hold in every cell. -/
example {grid : Rectilinear ℝ} (hd : grid.rng.dims = [(0, 4)]) (hdx : grid.dxAt 0 = 1) : ∃ q q0 r0 q1 q1' r1 q2 q2' r2 q' : Cell → ℝ,
    SoloStage grid.rng.dims 1 5 [] isMomentum [0] (GasRate grid.rng.dims 1 grid.dxAt 2) (1 / 10) 0 q0 q q0 r0 q1 ∧
    SoloStage grid.rng.dims 1 5 [] isMomentum [0] (GasRate grid.rng.dims 1 grid.dxAt 2) (1 / 10) 1 q0 q1 q1' r1 q2 ∧
    SoloStage grid.rng.dims 1 5 [] isMomentum [0] (GasRate grid.rng.dims 1 grid.dxAt 2) (1 / 10) 2 q0 q2 q2' r2 q' ∧
    courant (fun _ => 2) grid.dxAt grid.rng.dims.length (1 / 10) = 1 / 5 ∧ ∀ x, InBox (grid.rng.dims ++ [(0, 1)]) x →
    ∀ u ∈ [q0, q1', q2'], CalmAt 2 (fun _ => 2) grid.rng.dims.length (fun x j => u (x ++ [(j : Int)])) x := by
  obtain ⟨u, h0, H⟩ := (C90_exists (g := grid) (p := 1) (ws := []) (ps := [0]) (by simp) (by rw [hd]; decide) (by simp) (1 / 10)).1 2 fun x => resting 2 (x.getLastD 0).toNat
  obtain ⟨q0, r0, q1, q1', r1, q2, q2', r2, S0, S1, S2⟩ := H 0
  have hw : ∀ d < grid.rng.dims.length, 2 ≤ hi grid.rng.dims d - lo grid.rng.dims d := by
    rw [hd]; intro d h
    match d, h with
    | 0, _ => simp [lo, hi]
  have hc : ∀ d < grid.rng.dims.length, d ∈ ([] : List Nat) ∨ d ∈ [0] := by
    rw [hd]; intro d h; simp at h ⊢; exact h
  have C : ConstOn grid.rng.dims 1 5 (resting 2) (u 0) := by
    rw [h0]; intro x _ j _; simp
  have stage : ∀ {k : Nat} {a b c r n : Cell → ℝ}, SoloStage grid.rng.dims 1 5 [] isMomentum [0] (GasRate grid.rng.dims 1 grid.dxAt 2) (1 / 10) k a b c r n →
      ConstOn grid.rng.dims 1 5 (resting 2) a → ConstOn grid.rng.dims 1 5 (resting 2) b → ConstOn grid.rng.dims 1 5 (resting 2) n := by
    intro k a b c r n S ha hb x hx j hj
    rw [S.next, ha x hx j hj, const_fill S.fill hb x hx j hj, S.rates x hx j hj, gas_rest hw hc (fun _ _ => .inr rfl) S.fill hb hx]
    exact rkStage_fixed _ _ _
  have c0 := const_fill S0.fill C
  have c1 := stage S0 c0 C
  have c2 := stage S1 c0 c1
  refine ⟨u 0, q0, r0, q1, q1', r1, q2, q2', r2, u 1, S0, S1, S2, by rw [hd]; norm_num [courant, hdx], fun x hx v hv => ?_⟩
  have around : ∀ {v : Cell → ℝ}, v ∈ [q0, q1', q2'] → ∀ d < grid.rng.dims.length, ∀ s : Int, -2 ≤ s → s ≤ 2 → ∀ j : Nat, j < 5 → v (moveBy x d s ++ [(j : Int)]) = resting 2 j := by
    intro v hv d hd s h1 h2 j hj
    simp only [List.mem_cons, List.not_mem_nil, or_false] at hv
    rcases hv with rfl | rfl | rfl
    · exact const_around hw hc S0.fill C hx hd h1 h2 hj (fun _ => .inr (by simp))
    · exact const_around hw hc S1.fill c1 hx hd h1 h2 hj (fun _ => .inr (by simp))
    · exact const_around hw hc S2.fill c2 hx hd h1 h2 hj (fun _ => .inr (by simp))
  have A := around hv
  have g1 : grid.rng.dims.length = 1 := by rw [hd]; rfl
  have rs : ∀ q : ℝ, FV.recon q q q q = (q, q) := by intro q; simp [FV.recon]
  have A0 : ∀ d < grid.rng.dims.length, ∀ j : Nat, j < 5 → v (x ++ [(j : Int)]) = resting 2 j := by
    intro d hd j hj
    have := A d hd 0 (by decide) (by decide) j hj
    rwa [moveBy_zero] at this
  have gas : ∀ {f : Nat → ℝ}, (∀ j < 5, f j = resting 2 j) → gasOf f = gasOf (resting 2) := by
    intro f hf
    unfold gasOf
    rw [hf 0 (by decide), hf 1 (by decide), hf 2 (by decide), hf 3 (by decide), hf 4 (by decide)]
  have tame := resting_calm (rho := 2) (by norm_num) (0 : Fin 3)
  have differ : (gasOf (resting 2)).vel 0 - (gasOf (resting 2)).sound 2 ≠ (gasOf (resting 2)).vel 0 + (gasOf (resting 2)).sound 2 := by
    have : 0 < (gasOf (resting 2)).sound 2 := by
      refine Real.sqrt_pos.2 ?_
      have hP : (gasOf (resting 2)).pressure 2 = 1 := by simp [Gas.pressure, gasOf, resting, vdot, show (![0, 0, 0] : Fin 3 → ℝ) 2 = 0 from rfl]; norm_num
      rw [hP, show (gasOf (resting 2)).rho = 2 from rfl]; norm_num
    intro h; linarith
  have face : ∀ y : Cell, (∀ s : Int, -2 ≤ s → s ≤ 1 → ∀ j : Nat, j < 5 → v (moveBy y 0 s ++ [(j : Int)]) = resting 2 j) → CalmFace 2 2 (fun x j => v (x ++ [(j : Int)])) 0 y := by
    intro y hy
    have hy0 : ∀ j : Nat, j < 5 → v (y ++ [(j : Int)]) = resting 2 j := by
      intro j hj; have := hy 0 (by decide) (by decide) j hj; rwa [moveBy_zero] at this
    have b : below (fun x j => v (x ++ [(j : Int)])) 0 y = gasOf (resting 2) := gas fun j hj => by
      dsimp only
      rw [hy _ (by decide) (by decide) j hj, hy _ (by decide) (by decide) j hj, hy0 j hj, hy _ (by decide) (by decide) j hj, rs]
    have a : above (fun x j => v (x ++ [(j : Int)])) 0 y = gasOf (resting 2) := gas fun j hj => by
      dsimp only
      rw [hy _ (by decide) (by decide) j hj, hy _ (by decide) (by decide) j hj, hy0 j hj, hy _ (by decide) (by decide) j hj, rs]
    refine ⟨?_, ?_, ?_⟩
    · show Calm _ _ _ (below _ 0 _); rw [b]; exact tame
    · show Calm _ _ _ (above _ 0 _); rw [a]; exact tame
    · show (below _ 0 y).vel 0 - (below _ 0 y).sound 2 ≠ (above _ 0 y).vel 0 + (above _ 0 y).sound 2
      rw [b, a]; exact differ
  refine ⟨fun d h => ?_, fun d h => ?_, fun d h => ?_⟩
  · obtain rfl : d = 0 := Fin.ext (by rw [g1] at h; simpa using h)
    exact face x fun s a b j hj => A 0 (by omega) s a (by omega) j hj
  · obtain rfl : d = 0 := Fin.ext (by rw [g1] at h; simpa using h)
    refine face _ fun s a b j hj => ?_
    show v (moveBy (moveBy x 0 1) 0 s ++ _) = _
    rw [moveBy_moveBy]
    exact A 0 (by omega) _ (by omega) (by omega) j hj
  · intro j hj
    have e0 := A0 d h j hj
    have e1 := A d h (-1) (by decide) (by decide) j hj
    have e2 := A d h 1 (by decide) (by decide) j hj
    rw [e0, e1, e2]
    exact ⟨.inl (by simp), .inl (by simp)⟩

end QK.Props
