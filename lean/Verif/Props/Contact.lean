import Verif.Props.Density
/-
C137: contact discontinuities. What the Euler solver does to a gas with the same velocity and pressure everywhere and any density.
-/
namespace QK.Props
open QK Spec

/-! ### The flux -/

/-- **C137** The HLL flux between two gases of the same velocity and pressure: the momentum that the mass carries, and the pressure; the kinetic energy that the mass carries, and the enthalpy at the common velocity.
If they are at rest across the face, mass goes from the denser to the thinner gas at a rate given by the speeds of sound. -/
theorem C137_flux {gamma : ℝ} (hg : 1 < gamma) (d : Fin 3) {l r : Gas} (hl : 0 < l.rho) (hr : 0 < r.rho) (hp : 0 < l.pressure gamma) (hpr : r.pressure gamma = l.pressure gamma)
    (hv : ∀ i, r.vel i = l.vel i) :
    ∃ m, Euler.hll gamma (d : Nat) l.comps r.comps = .ok (Gas.comps ⟨m, fun i => l.vel i * m + l.pressure gamma * unit d i,
        (l.vel 0 ^ 2 + l.vel 1 ^ 2 + l.vel 2 ^ 2) / 2 * m + gamma / (gamma - 1) * l.pressure gamma * l.vel d⟩) ∧
      (l.vel d = 0 → m = l.sound gamma * r.sound gamma / (l.sound gamma + r.sound gamma) * (l.rho - r.rho)) := by
  have g1 : gamma - 1 ≠ 0 := by linarith
  have ml : ∀ i, l.mom i = l.rho * l.vel i := fun i => by unfold Gas.vel; field_simp
  have mr : ∀ i, r.mom i = r.rho * l.vel i := fun i => by rw [← hv]; unfold Gas.vel; field_simp
  have el : l.en = l.pressure gamma / (gamma - 1) + l.rho * (l.vel 0 ^ 2 + l.vel 1 ^ 2 + l.vel 2 ^ 2) / 2 := by
    have : l.pressure gamma = (gamma - 1) * (l.en - l.rho * (l.vel 0 ^ 2 + l.vel 1 ^ 2 + l.vel 2 ^ 2) / 2) := by
      unfold Gas.pressure vdot; rw [ml, ml, ml]; field_simp
    rw [this]; field_simp; ring
  have er : r.en = l.pressure gamma / (gamma - 1) + r.rho * (l.vel 0 ^ 2 + l.vel 1 ^ 2 + l.vel 2 ^ 2) / 2 := by
    have : l.pressure gamma = (gamma - 1) * (r.en - r.rho * (l.vel 0 ^ 2 + l.vel 1 ^ 2 + l.vel 2 ^ 2) / 2) := by
      rw [← hpr]; unfold Gas.pressure vdot; rw [mr, mr, mr]; field_simp
    rw [this]; field_simp; ring
  have cl : 0 < l.sound gamma := Real.sqrt_pos.2 (by positivity)
  have cr : 0 < r.sound gamma := Real.sqrt_pos.2 (by rw [hpr]; positivity)
  rw [Euler.hll_gas]
  simp only [Gas.comps, Gas.lin, Gas.hllFlux, Gas.flux, hpr, hv, ml, mr, el, er]
  generalize l.pressure gamma = p at *
  generalize l.sound gamma = a at *
  generalize r.sound gamma = b at *
  generalize hw : l.vel = v at *
  have hs : v d + b - (v d - a) ≠ 0 := by linarith
  by_cases h1 : 0 < v d - a
  · rw [if_neg (by rintro ⟨-, h⟩; linarith), if_pos h1, if_neg (by linarith)]
    refine ⟨l.rho * v d, ?_, fun h => by linarith⟩
    congr 1
    simp only [List.cons.injEq, and_true]
    refine ⟨by ring, by ring, by ring, by ring, ?_⟩
    field_simp; ring
  · by_cases h2 : v d + b < 0
    · rw [if_neg (by rintro ⟨h, -⟩; linarith), if_neg h1, if_pos h2]
      refine ⟨r.rho * v d, ?_, fun h => by linarith⟩
      congr 1
      simp only [List.cons.injEq, and_true]
      refine ⟨by ring, by ring, by ring, by ring, ?_⟩
      field_simp; ring
    · rw [if_pos ⟨by linarith, by linarith⟩, if_neg h1, if_neg h2]
      refine ⟨((v d + b) * (l.rho * v d) - (v d - a) * (r.rho * v d) + (v d - a) * (v d + b) * (r.rho - l.rho)) / (v d + b - (v d - a)), ?_, fun h => ?_⟩
      · congr 1
        simp only [List.cons.injEq, and_true]
        refine ⟨?_, ?_, ?_, ?_, ?_⟩ <;> field_simp <;> ring
      · rw [h] at hs ⊢
        have : a + b ≠ 0 := by linarith
        rw [show (0 : ℝ) + b - (0 - a) = a + b by ring]
        field_simp; ring

/-! ### Gas at rest -/

/-- Gas at rest with the energy density `E`, and so the pressure `(γ - 1) E`, in the cells of the mesh; the density is arbitrary. -/
def AtRest (M : Box) (p : Int) (E : ℝ) (u : Cell → ℝ) : Prop := ∀ x, InBox (M ++ [(0, p)]) x → u (x ++ [1]) = 0 ∧ u (x ++ [2]) = 0 ∧ u (x ++ [3]) = 0 ∧ u (x ++ [4]) = E

/-- The densities reconstructed at the faces of `x` in the first `n` directions are positive. -/
def DenseFaces (n : Nat) (u : Cell → ℝ) (x : Cell) : Prop :=
  ∀ d < n, ∀ s ∈ [(0 : Int), 1], 0 < (below (fun x j => u (x ++ [(j : Int)])) d (moveBy x d s)).rho ∧ 0 < (above (fun x j => u (x ++ [(j : Int)])) d (moveBy x d s)).rho

section
variable {M : Box} {p : Int} {ws ps : List Nat} {E : ℝ}

theorem calm_mem {u : Cell → ℝ} (h : AtRest M p E u) {x : Cell} (hx : InBox (M ++ [(0, p)]) x) {j : Nat} (h1 : 1 ≤ j) (h5 : j < 5) : u (x ++ [(j : Int)]) = if j = 4 then E else 0 := by
  obtain ⟨a, b, c, d⟩ := h x hx
  obtain rfl | rfl | rfl | rfl : j = 1 ∨ j = 2 ∨ j = 3 ∨ j = 4 := by omega
  · exact a
  · exact b
  · exact c
  · exact d

theorem calm_fill {u u' : Cell → ℝ} (F : Filled M [(0, p), (0, 5)] ws isMomentum ps u u') (h : AtRest M p E u) : AtRest M p E u' := by
  intro x hx
  have e : ∀ j : Int, 0 ≤ j → j < 5 → u' (x ++ [j]) = u (x ++ [j]) := by
    intro j h0 h5
    refine F.inside _ ?_
    rw [show M ++ [((0 : Int), p), (0, 5)] = (M ++ [((0 : Int), p)]) ++ [(0, 5)] by simp]
    exact (inBox_snoc hx.length_eq).2 ⟨hx, h0, h5⟩
  rw [e 1 (by decide) (by decide), e 2 (by decide) (by decide), e 3 (by decide) (by decide), e 4 (by decide) (by decide)]
  exact h x hx

/-- Ghost cells are at rest too, and have the energy. -/
theorem calm_around (hw : ∀ d < M.length, 2 ≤ hi M d - lo M d) (hc : ∀ d < M.length, d ∈ ws ∨ d ∈ ps) {u u' : Cell → ℝ} (F : Filled M [(0, p), (0, 5)] ws isMomentum ps u u') (h : AtRest M p E u)
    {x : Cell} (hx : InBox (M ++ [(0, p)]) x) {dim : Nat} (hd : dim < M.length) {s : Int} (h1 : -2 ≤ s) (h2 : s ≤ 2) {j : Nat} (hj1 : 1 ≤ j) (hj : j < 5) :
    u' (moveBy x dim s ++ [(j : Int)]) = if j = 4 then E else 0 := by
  obtain ⟨b1, b2⟩ := filled_image (n := 5) F hx hd (hw dim hd) (hc dim hd) h1 h2 hj
  have e := calm_mem h (image_mesh (ws := ws) hx hd (hw dim hd) h1 h2) hj1 hj
  by_cases c : Beyond M x dim s ∧ dim ∈ ws ∧ isMomentum j
  · have : j ≠ 4 := by rintro rfl; rcases c.2.2 with h | h | h <;> omega
    rw [b1 c, e, if_neg this]; simp
  · rw [b2 c, e]

/-- Half the harmonic mean. -/
noncomputable def meets (a b : ℝ) : ℝ := a * b / (a + b)

/-- The flux of momentum and energy through a face with calm gas around it, and that of mass. -/
theorem calm_face {gamma : ℝ} (hg : 1 < gamma) (hE : 0 < E) {u : Cell → Nat → ℝ} {d : Nat} (d3 : d < 3) {y : Cell}
    (h : ∀ t : Int, -2 ≤ t → t ≤ 1 → ∀ j, 1 ≤ j → j < 5 → u (moveBy y d t) j = if j = 4 then E else 0) (hb : 0 < (below u d y).rho) (ha : 0 < (above u d y).rho) :
    (∀ j, 1 ≤ j → j < 5 → (faceFlux (fluxOf (Euler.hll gamma (d : Nat))) 5 u d y).getD j 0 = if j = d + 1 then (gamma - 1) * E else 0) ∧
    (faceFlux (fluxOf (Euler.hll gamma (d : Nat))) 5 u d y).getD 0 0 = meets (Real.sqrt (gamma * ((gamma - 1) * E) / (below u d y).rho)) (Real.sqrt (gamma * ((gamma - 1) * E) / (above u d y).rho)) *
      ((below u d y).rho - (above u d y).rho) := by
  have rec' : ∀ j, 1 ≤ j → j < 5 → FV.recon (u (moveBy y d (-2)) j) (u (moveBy y d (-1)) j) (u y j) (u (moveBy y d 1) j) = (if j = 4 then E else 0, if j = 4 then E else 0) := by
    intro j h1 h5
    have h0 := h 0 (by decide) (by decide) j h1 h5
    rw [moveBy_zero] at h0
    rw [h _ (by decide) (by decide) j h1 h5, h _ (by decide) (by decide) j h1 h5, h0, h _ (by decide) (by decide) j h1 h5, recon_const]
  have vals : ∀ q : Gas, q = below u d y ∨ q = above u d y → (∀ i, q.mom i = 0) ∧ q.en = E := by
    rintro q (rfl | rfl)
    · refine ⟨fun i => ?_, ?_⟩
      · fin_cases i
        · exact congrArg Prod.fst (rec' 1 (by decide) (by decide))
        · exact congrArg Prod.fst (rec' 2 (by decide) (by decide))
        · exact congrArg Prod.fst (rec' 3 (by decide) (by decide))
      · exact congrArg Prod.fst (rec' 4 (by decide) (by decide))
    · refine ⟨fun i => ?_, ?_⟩
      · fin_cases i
        · exact congrArg Prod.snd (rec' 1 (by decide) (by decide))
        · exact congrArg Prod.snd (rec' 2 (by decide) (by decide))
        · exact congrArg Prod.snd (rec' 3 (by decide) (by decide))
      · exact congrArg Prod.snd (rec' 4 (by decide) (by decide))
  have pr : ∀ q : Gas, q = below u d y ∨ q = above u d y → q.pressure gamma = (gamma - 1) * E ∧ ∀ i, q.vel i = 0 := by
    intro q hq
    obtain ⟨z, e⟩ := vals q hq
    refine ⟨?_, fun i => by unfold Gas.vel; rw [z]; simp⟩
    unfold Gas.pressure vdot; rw [z, z, z, e]; simp
  obtain ⟨pl, vl⟩ := pr _ (.inl rfl)
  obtain ⟨pr', vr⟩ := pr _ (.inr rfl)
  have pos : 0 < (gamma - 1) * E := mul_pos (by linarith) hE
  obtain ⟨m, hm, mass⟩ := C137_flux hg ⟨d, d3⟩ hb ha (by rw [pl]; exact pos) (by rw [pl, pr']) (fun i => by rw [vl, vr])
  rw [show faceFlux (fluxOf (Euler.hll gamma (d : Nat))) 5 u d y = fluxOf (Euler.hll gamma (d : Nat)) (below u d y).comps (above u d y).comps from rfl]
  unfold fluxOf
  dsimp only at hm
  rw [hm]
  have mass := mass (vl _)
  unfold Gas.sound at mass
  rw [pl, pr'] at mass
  refine ⟨fun j h1 h5 => ?_, by simp only [Gas.comps, List.getD_cons_zero]; exact mass⟩
  clear mass
  simp only [Gas.comps, vl, pl, unit]
  obtain rfl | rfl | rfl : d = 0 ∨ d = 1 ∨ d = 2 := by omega
  all_goals obtain rfl | rfl | rfl | rfl : j = 1 ∨ j = 2 ∨ j = 3 ∨ j = 4 := by omega
  all_goals simp

/-- **C137** In a gas at rest with the same pressure everywhere the rates of momentum and energy are zero, whatever the density, between walls too, if the densities reconstructed at the faces are positive. -/
theorem C137_rate {gamma : ℝ} (hg : 1 < gamma) (hE : 0 < E) (hM : M.length ≤ 3) (C : Covered M ws ps) {u u' : Cell → ℝ} (F : Filled M [(0, p), (0, 5)] ws isMomentum ps u u') (h : AtRest M p E u)
    {x : Cell} (hx : InBox (M ++ [(0, p)]) x) (D : DenseFaces M.length u' x) (dx : Nat → ℝ) {j : Nat} (h1 : 1 ≤ j) (h5 : j < 5) :
    fvUpdate (fun dim => fluxOf (Euler.hll gamma dim)) 5 (fun x j => u' (x ++ [(j : Int)])) dx (List.range M.length) x j (Arith.lit 0) = 0 := by
  rw [fvUpdate_add]
  have : ∀ d ∈ List.range M.length, (faceFlux (fluxOf (Euler.hll gamma (d : Nat))) 5 (fun x j => u' (x ++ [(j : Int)])) d x).getD j 0 / dx d -
      (faceFlux (fluxOf (Euler.hll gamma (d : Nat))) 5 (fun x j => u' (x ++ [(j : Int)])) d (moveBy x d 1)).getD j 0 / dx d = 0 := by
    intro d hd
    have hd := List.mem_range.1 hd
    obtain ⟨a1, a2⟩ := D d hd 0 (by simp)
    obtain ⟨b1, b2⟩ := D d hd 1 (by simp)
    rw [moveBy_zero] at a1 a2
    rw [(calm_face hg hE (by omega) (fun t t1 t2 k k1 k2 => calm_around C.wide C.all F h hx hd t1 (by omega) k1 k2) a1 a2).1 j h1 h5,
      (calm_face hg hE (by omega) (fun t t1 t2 k k1 k2 => by rw [moveBy_moveBy]; exact calm_around C.wide C.all F h hx hd (by omega) (by omega) k1 k2) b1 b2).1 j h1 h5]
    ring
  rw [List.map_congr_left this]
  simp [real_lit]

/-- The densities in the cells of the mesh lie between `a` and `b`. -/
def DenseIn (M : Box) (p : Int) (a b : ℝ) (u : Cell → ℝ) : Prop := ∀ x, InBox (M ++ [(0, p)]) x → a ≤ u (x ++ [0]) ∧ u (x ++ [0]) ≤ b

theorem denseIn_fill {a b : ℝ} {u u' : Cell → ℝ} (F : Filled M [(0, p), (0, 5)] ws isMomentum ps u u') (h : DenseIn M p a b u) : DenseIn M p a b u' := by
  intro x hx
  rw [F.inside (x ++ [0])]
  · exact h x hx
  · rw [show M ++ [((0 : Int), p), (0, 5)] = (M ++ [((0 : Int), p)]) ++ [(0, 5)] by simp]
    exact (inBox_snoc hx.length_eq).2 ⟨hx, by decide, by decide⟩

theorem denseIn_around (C : Covered M ws ps) {a b : ℝ} {u u' : Cell → ℝ} (F : Filled M [(0, p), (0, 5)] ws isMomentum ps u u') (h : DenseIn M p a b u)
    {x : Cell} (hx : InBox (M ++ [(0, p)]) x) {dim : Nat} (hd : dim < M.length) {s : Int} (h1 : -2 ≤ s) (h2 : s ≤ 2) : a ≤ u' (moveBy x dim s ++ [0]) ∧ u' (moveBy x dim s ++ [0]) ≤ b := by
  obtain ⟨-, b2⟩ := filled_image (n := 5) F hx hd (C.wide dim hd) (C.all dim hd) h1 h2 (j := 0) (by decide)
  have b2 := b2 (by rintro ⟨-, -, h⟩; rcases h with h | h | h <;> simp at h)
  rw [show ((0 : Nat) : Int) = 0 from rfl] at b2
  rw [b2]
  exact h _ (image_mesh (ws := ws) hx hd (C.wide dim hd) h1 h2)

/-- The reconstruction adds at most 5/8 of a difference. -/
theorem recon_bound (a b c d : ℝ) : |(FV.recon a b c d).1 - b| ≤ 5 / 8 * |b - a| ∧ |(FV.recon a b c d).2 - c| ≤ 5 / 8 * |c - d| := by
  have phi : ∀ r : ℝ, |(r * r + r) / (r * r + 1)| ≤ 5 / 4 := by
    intro r
    rw [abs_le, le_div_iff₀ (by nlinarith), div_le_iff₀ (by nlinarith)]
    constructor <;> nlinarith [sq_nonneg (r - 2), sq_nonneg (r + 1)]
  unfold FV.recon
  simp only [real_lit]
  push_cast
  constructor
  · rw [add_sub_cancel_left, abs_mul, abs_mul]
    have := mul_le_mul_of_nonneg_right (phi ((c - b) / (b - a + 1 / 10 ^ 12))) (abs_nonneg (b - a))
    rw [show |(1 / 2 : ℝ)| = 1 / 2 by norm_num]
    nlinarith
  · rw [add_sub_cancel_left, abs_mul, abs_mul]
    have := mul_le_mul_of_nonneg_right (phi ((c - b) / (d - c + 1 / 10 ^ 12))) (abs_nonneg (c - d))
    rw [show |(1 / 2 : ℝ)| = 1 / 2 by norm_num]
    nlinarith

/-- Densities reconstructed from densities between `a` and `b`. -/
theorem denseIn_faces (C : Covered M ws ps) {a b : ℝ} {u u' : Cell → ℝ} (F : Filled M [(0, p), (0, 5)] ws isMomentum ps u u') (h : DenseIn M p a b u)
    {x : Cell} (hx : InBox (M ++ [(0, p)]) x) {d : Nat} (hd : d < M.length) {s : Int} (hs : s ∈ [(0 : Int), 1]) :
    ∀ q : Gas, q = below (fun x j => u' (x ++ [(j : Int)])) d (moveBy x d s) ∨ q = above (fun x j => u' (x ++ [(j : Int)])) d (moveBy x d s) →
      a - 5 / 8 * (b - a) ≤ q.rho ∧ q.rho ≤ b + 5 / 8 * (b - a) := by
  have around : ∀ t : Int, -2 ≤ t → t ≤ 1 → a ≤ u' (moveBy (moveBy x d s) d t ++ [0]) ∧ u' (moveBy (moveBy x d s) d t ++ [0]) ≤ b := by
    intro t t1 t2
    rw [moveBy_moveBy]
    have : s = 0 ∨ s = 1 := by simpa using hs
    exact denseIn_around C F h hx hd (by omega) (by omega)
  have h0 := around 0 (by decide) (by decide)
  rw [moveBy_zero] at h0
  have hm := around (-1) (by decide) (by decide)
  have hmm := around (-2) (by decide) (by decide)
  have hp := around 1 (by decide) (by decide)
  obtain ⟨r1, r2⟩ := recon_bound (u' (moveBy (moveBy x d s) d (-2) ++ [0])) (u' (moveBy (moveBy x d s) d (-1) ++ [0])) (u' (moveBy x d s ++ [0])) (u' (moveBy (moveBy x d s) d 1 ++ [0]))
  have d1 : |u' (moveBy (moveBy x d s) d (-1) ++ [0]) - u' (moveBy (moveBy x d s) d (-2) ++ [0])| ≤ b - a := by rw [abs_le]; constructor <;> linarith [hm.1, hm.2, hmm.1, hmm.2]
  have d2 : |u' (moveBy x d s ++ [0]) - u' (moveBy (moveBy x d s) d 1 ++ [0])| ≤ b - a := by rw [abs_le]; constructor <;> linarith [h0.1, h0.2, hp.1, hp.2]
  rw [abs_le] at r1 r2
  have e1 : (below (fun x j => u' (x ++ [(j : Int)])) d (moveBy x d s)).rho =
    (FV.recon (u' (moveBy (moveBy x d s) d (-2) ++ [0])) (u' (moveBy (moveBy x d s) d (-1) ++ [0])) (u' (moveBy x d s ++ [0])) (u' (moveBy (moveBy x d s) d 1 ++ [0]))).1 := rfl
  have e2 : (above (fun x j => u' (x ++ [(j : Int)])) d (moveBy x d s)).rho =
    (FV.recon (u' (moveBy (moveBy x d s) d (-2) ++ [0])) (u' (moveBy (moveBy x d s) d (-1) ++ [0])) (u' (moveBy x d s ++ [0])) (u' (moveBy (moveBy x d s) d 1 ++ [0]))).2 := rfl
  rintro q (rfl | rfl)
  · rw [e1]; constructor <;> linarith [hm.1, hm.2, r1.1, r1.2]
  · rw [e2]; constructor <;> linarith [h0.1, h0.2, r2.1, r2.2]

/-- AtRest gas with densities between `9/10 A` and `21/10 A`: the densities at the faces are positive, and the rate of the density is bounded by the speed of sound at the density `3/20 A`. -/
theorem calm_rate {gamma A : ℝ} (hg : 1 < gamma) (hE : 0 < E) (hA : 0 < A) (hM : M.length ≤ 3) (C : Covered M ws ps) {u u' : Cell → ℝ} (F : Filled M [(0, p), (0, 5)] ws isMomentum ps u u')
    (h : AtRest M p E u) (hD : DenseIn M p (9 / 10 * A) (21 / 10 * A) u) {x : Cell} (hx : InBox (M ++ [(0, p)]) x) {dx : Nat → ℝ} (hdx : ∀ d < M.length, 0 < dx d) :
    DenseFaces M.length u' x ∧ |fvUpdate (fun dim => fluxOf (Euler.hll gamma dim)) 5 (fun x j => u' (x ++ [(j : Int)])) dx (List.range M.length) x 0 (Arith.lit 0)| ≤
      6 * A * Real.sqrt (gamma * ((gamma - 1) * E) / (3 / 20 * A)) * ((List.range M.length).map fun d => 1 / dx d).sum := by
  have D : DenseFaces M.length u' x := by
    intro d hd s hs
    have k := denseIn_faces C F hD hx hd hs
    exact ⟨by linarith [(k _ (.inl rfl)).1], by linarith [(k _ (.inr rfl)).1]⟩
  refine ⟨D, ?_⟩
  have P : 0 < gamma * ((gamma - 1) * E) := mul_pos (by linarith) (mul_pos (by linarith) hE)
  generalize hc : Real.sqrt (gamma * ((gamma - 1) * E) / (3 / 20 * A)) = c
  have c0 : 0 ≤ c := hc ▸ Real.sqrt_nonneg _
  -- the flux of mass through a face
  have face : ∀ d < M.length, ∀ s ∈ [(0 : Int), 1], |(faceFlux (fluxOf (Euler.hll gamma (d : Nat))) 5 (fun x j => u' (x ++ [(j : Int)])) d (moveBy x d s)).getD 0 0| ≤ 3 * A * c := by
    intro d hd s hs
    have s01 : s = 0 ∨ s = 1 := by simpa using hs
    obtain ⟨a1, a2⟩ := D d hd s hs
    have k := denseIn_faces C F hD hx hd hs
    have k1 := k _ (.inl rfl)
    have k2 := k _ (.inr rfl)
    rw [(calm_face hg hE (by omega) (fun t t1 t2 k k1 k2 => by rw [moveBy_moveBy]; exact calm_around C.wide C.all F h hx hd (by omega) (by omega) k1 k2) a1 a2).2]
    generalize (below (fun x j => u' (x ++ [(j : Int)])) d (moveBy x d s)).rho = l at *
    generalize (above (fun x j => u' (x ++ [(j : Int)])) d (moveBy x d s)).rho = r at *
    have sl : 0 < Real.sqrt (gamma * ((gamma - 1) * E) / l) := Real.sqrt_pos.2 (by positivity)
    have sr : 0 < Real.sqrt (gamma * ((gamma - 1) * E) / r) := Real.sqrt_pos.2 (by positivity)
    have lc : Real.sqrt (gamma * ((gamma - 1) * E) / l) ≤ c := by
      rw [← hc]; exact Real.sqrt_le_sqrt (div_le_div_of_nonneg_left P.le (by positivity) (by linarith [k1.1]))
    generalize Real.sqrt (gamma * ((gamma - 1) * E) / l) = sl' at *
    generalize Real.sqrt (gamma * ((gamma - 1) * E) / r) = sr' at *
    have m0 : 0 ≤ meets sl' sr' := by unfold meets; positivity
    have m1 : meets sl' sr' ≤ c := by
      refine le_trans ?_ lc
      unfold meets
      rw [div_le_iff₀ (by positivity)]; nlinarith
    rw [abs_mul, abs_of_nonneg m0, mul_comm]
    refine mul_le_mul ?_ m1 m0 (by positivity)
    rw [abs_le]; constructor <;> linarith [k1.1, k1.2, k2.1, k2.2]
  rw [fvUpdate_add]
  have z : (Arith.lit 0 : ℝ) = 0 := by simp [real_lit]
  rw [z, zero_add]
  have sum : ∀ ds : List Nat, (∀ d ∈ ds, d < M.length) → |(ds.map fun d => (faceFlux (fluxOf (Euler.hll gamma (d : Nat))) 5 (fun x j => u' (x ++ [(j : Int)])) d x).getD 0 0 / dx d -
      (faceFlux (fluxOf (Euler.hll gamma (d : Nat))) 5 (fun x j => u' (x ++ [(j : Int)])) d (moveBy x d 1)).getD 0 0 / dx d).sum| ≤ 6 * A * c * (ds.map fun d => 1 / dx d).sum := by
    intro ds
    induction ds with
    | nil => intro _; simp
    | cons d ds ih =>
      intro hds
      have hd := hds d (by simp)
      have f0 := face d hd 0 (by simp)
      have f1 := face d hd 1 (by simp)
      rw [moveBy_zero] at f0
      rw [List.map_cons, List.sum_cons, List.map_cons, List.sum_cons, mul_add]
      refine (abs_add_le _ _).trans (add_le_add ?_ (ih fun e he => hds e (by simp [he])))
      rw [← sub_div, abs_div, abs_of_pos (hdx d hd), mul_one_div]
      refine div_le_div_of_nonneg_right ?_ (hdx d hd).le
      refine (abs_sub _ _).trans ?_
      linarith
  exact sum _ fun d hd => List.mem_range.1 hd

/-- **C137**, what holds: a gas at rest with the same pressure everywhere, whose densities differ at most by a factor of two, is at rest with this pressure after a time step, if the step is short enough: the time
in which sound at 3/20 of the lowest density crosses 1/60 of a cell. The densities then are in a slightly larger range. Missing: that the densities stay as they are, see `C137_false`. -/
theorem C137_partial {grid : Rectilinear ℝ} {gamma A t : ℝ} (hg : 1 < gamma) (hE : 0 < E) (hA : 0 < A) (hM : grid.rng.dims.length ≤ 3) (C : Covered grid.rng.dims ws ps)
    (hdx : ∀ d < grid.rng.dims.length, 0 < grid.dxAt d) (ht : 0 ≤ t)
    (hs : 60 * t * Real.sqrt (gamma * ((gamma - 1) * E) / (3 / 20 * A)) * ((List.range grid.rng.dims.length).map fun d => 1 / grid.dxAt d).sum ≤ 1)
    {q q' : Cell → ℝ} (H : GasStep grid p ws ps gamma t q q') (h : AtRest grid.rng.dims p E q) (hD : DenseIn grid.rng.dims p A (2 * A) q) :
    AtRest grid.rng.dims p E q' ∧ DenseIn grid.rng.dims p (9 / 10 * A) (21 / 10 * A) q' := by
  generalize hR : 6 * A * Real.sqrt (gamma * ((gamma - 1) * E) / (3 / 20 * A)) * ((List.range grid.rng.dims.length).map fun d => 1 / grid.dxAt d).sum = R
  have tR : t * R ≤ A / 10 := by rw [← hR]; nlinarith
  have wide : ∀ {e : ℝ} {u : Cell → ℝ}, e ≤ A / 10 → DenseIn grid.rng.dims p (A - e) (2 * A + e) u → DenseIn grid.rng.dims p (9 / 10 * A) (21 / 10 * A) u := by
    intro e u he hu x hx
    obtain ⟨a, b⟩ := hu x hx
    exact ⟨by linarith, by linarith⟩
  -- momentum and energy in a stage, and the rate of the density
  have stage : ∀ {k : Nat} {q0 q q1 r q2 : Cell → ℝ}, SoloStage grid.rng.dims p 5 ws isMomentum ps (GasRate grid.rng.dims p grid.dxAt gamma) t k q0 q q1 r q2 →
      AtRest grid.rng.dims p E q0 → AtRest grid.rng.dims p E q → DenseIn grid.rng.dims p (9 / 10 * A) (21 / 10 * A) q →
      AtRest grid.rng.dims p E q2 ∧ ∀ x, InBox (grid.rng.dims ++ [(0, p)]) x → |r (x ++ [0])| ≤ R := by
    intro k q0 q q1 r q2 S c0 c1 hd
    have F : Filled grid.rng.dims [(0, p), (0, 5)] ws isMomentum ps q q1 := S.fill
    refine ⟨fun x hx => ?_, fun x hx => ?_⟩
    · have val : ∀ j : Nat, 1 ≤ j → j < 5 → q2 (x ++ [(j : Int)]) = if j = 4 then E else 0 := by
        intro j h1 h5
        have hr := S.rates x hx j h5
        rw [C137_rate hg hE hM C F c1 hx (calm_rate hg hE hA hM C F c1 hd hx hdx).1 grid.dxAt h1 h5] at hr
        rw [S.next, hr, calm_mem c0 hx h1 h5, calm_mem (calm_fill F c1) hx h1 h5, rkStage_fixed]
      exact ⟨val 1 (by decide) (by decide), val 2 (by decide) (by decide), val 3 (by decide) (by decide), val 4 (by decide) (by decide)⟩
    · have hr := S.rates x hx 0 (by decide)
      rw [show ((0 : Nat) : Int) = 0 from rfl] at hr
      rw [hr, ← hR]
      exact (calm_rate hg hE hA hM C F c1 hd hx hdx).2
  obtain ⟨q0, r0, q1, q1', r1, q2, q2', r2, S0, S1, S2⟩ := H
  have F0 : Filled grid.rng.dims [(0, p), (0, 5)] ws isMomentum ps q q0 := S0.fill
  have F1 : Filled grid.rng.dims [(0, p), (0, 5)] ws isMomentum ps q1 q1' := S1.fill
  have F2 : Filled grid.rng.dims [(0, p), (0, 5)] ws isMomentum ps q2 q2' := S2.fill
  have h0 := calm_fill F0 h
  have d0 := denseIn_fill F0 hD
  obtain ⟨k0, b0⟩ := stage S0 h0 h (wide (e := 0) (by linarith) (by simpa using hD))
  have D1 : DenseIn grid.rng.dims p (A - t * R) (2 * A + t * R) q1 := by
    intro x hx
    obtain ⟨l, u⟩ := d0 x hx
    have := mul_le_mul_of_nonneg_left (b0 x hx) ht
    rw [← abs_of_nonneg ht, ← abs_mul, abs_of_nonneg ht, abs_le] at this
    rw [S0.next]
    simp only [rkStage]
    constructor <;> linarith
  obtain ⟨k1, b1⟩ := stage S1 h0 k0 (wide tR D1)
  have D2 : DenseIn grid.rng.dims p (A - t * R / 2) (2 * A + t * R / 2) q2 := by
    intro x hx
    obtain ⟨l, u⟩ := d0 x hx
    obtain ⟨l1, u1⟩ := denseIn_fill F1 D1 x hx
    have := mul_le_mul_of_nonneg_left (b1 x hx) ht
    rw [← abs_of_nonneg ht, ← abs_mul, abs_of_nonneg ht, abs_le] at this
    rw [S1.next]
    simp only [rkStage, real_lit]
    push_cast
    constructor <;> linarith
  obtain ⟨k2, b2⟩ := stage S2 h0 k1 (wide (by linarith) D2)
  refine ⟨k2, fun x hx => ?_⟩
  obtain ⟨l, u⟩ := d0 x hx
  obtain ⟨l1, u1⟩ := denseIn_fill F2 D2 x hx
  have := mul_le_mul_of_nonneg_left (b2 x hx) ht
  rw [← abs_of_nonneg ht, ← abs_mul, abs_of_nonneg ht, abs_le] at this
  rw [S2.next]
  simp only [rkStage, real_lit]
  push_cast
  constructor <;> linarith

/-- **C137**, what holds: as long as the densities reconstructed at the faces are positive in the three stages, a gas at rest with the same pressure everywhere is so after the step, however long the step and whatever
the densities. -/
theorem C137_stages_partial {grid : Rectilinear ℝ} {gamma t : ℝ} (hg : 1 < gamma) (hE : 0 < E) (hM : grid.rng.dims.length ≤ 3) (C : Covered grid.rng.dims ws ps)
    {q q0 r0 q1 q1' r1 q2 q2' r2 q' : Cell → ℝ}
    (S0 : SoloStage grid.rng.dims p 5 ws isMomentum ps (GasRate grid.rng.dims p grid.dxAt gamma) t 0 q0 q q0 r0 q1)
    (S1 : SoloStage grid.rng.dims p 5 ws isMomentum ps (GasRate grid.rng.dims p grid.dxAt gamma) t 1 q0 q1 q1' r1 q2)
    (S2 : SoloStage grid.rng.dims p 5 ws isMomentum ps (GasRate grid.rng.dims p grid.dxAt gamma) t 2 q0 q2 q2' r2 q')
    (h : AtRest grid.rng.dims p E q) (hD : ∀ x, InBox (grid.rng.dims ++ [(0, p)]) x → ∀ u ∈ [q0, q1', q2'], DenseFaces grid.rng.dims.length u x) :
    AtRest grid.rng.dims p E q' := by
  have stage : ∀ {k : Nat} {q0 q q1 r q2 : Cell → ℝ}, SoloStage grid.rng.dims p 5 ws isMomentum ps (GasRate grid.rng.dims p grid.dxAt gamma) t k q0 q q1 r q2 →
      AtRest grid.rng.dims p E q0 → AtRest grid.rng.dims p E q → (∀ x, InBox (grid.rng.dims ++ [(0, p)]) x → DenseFaces grid.rng.dims.length q1 x) → AtRest grid.rng.dims p E q2 := by
    intro k q0 q q1 r q2 S c0 c1 hd x hx
    have F : Filled grid.rng.dims [(0, p), (0, 5)] ws isMomentum ps q q1 := S.fill
    have val : ∀ j : Nat, 1 ≤ j → j < 5 → q2 (x ++ [(j : Int)]) = if j = 4 then E else 0 := by
      intro j h1 h5
      have hr := S.rates x hx j h5
      rw [C137_rate hg hE hM C F c1 hx (hd x hx) grid.dxAt h1 h5] at hr
      rw [S.next, hr, calm_mem c0 hx h1 h5, calm_mem (calm_fill F c1) hx h1 h5, rkStage_fixed]
    exact ⟨val 1 (by decide) (by decide), val 2 (by decide) (by decide), val 3 (by decide) (by decide), val 4 (by decide) (by decide)⟩
  have h0 : AtRest grid.rng.dims p E q0 := calm_fill S0.fill h
  exact stage S2 h0 (stage S1 h0 (stage S0 h0 h fun x hx => hD x hx _ (by simp)) fun x hx => hD x hx _ (by simp)) fun x hx => hD x hx _ (by simp)

end

/-! ### What does not hold -/

/-- Gas at rest with the density 1 up to the cell 0 and 4 above it, and the energy density 1. -/
noncomputable def interface : Cell → Nat → ℝ := fun x j => resting (if x.getD 0 0 ≤ 0 then 1 else 4) j

/-- **C137** (false of the code) The solver does not keep a gas at rest with the same pressure everywhere as it is: mass goes from the denser to the thinner side of an interface. In the cell below the interface the
density increases by the speed of sound there over the width of the cell. -/
theorem C137_false {gamma : ℝ} (hg : 1 < gamma) {dx : Nat → ℝ} (hdx : 0 < dx 0) :
    fvUpdate (fun dim => fluxOf (Euler.hll gamma dim)) 5 interface dx [0] [0, 0] 0 (Arith.lit 0) = Real.sqrt (gamma * (gamma - 1)) / dx 0 ∧ 0 < Real.sqrt (gamma * (gamma - 1)) / dx 0 := by
  have P : 0 < gamma * (gamma - 1) := mul_pos (by linarith) (by linarith)
  have z : ∀ a b c : ℝ, (FV.recon a a b c).1 = a := by intro a b c; simp [FV.recon]
  have z' : ∀ a b c : ℝ, (FV.recon a b c c).2 = c := by intro a b c; simp [FV.recon]
  have z2 : ∀ a b c : ℝ, (FV.recon a b b c).2 = b := by intro a b c; simp [FV.recon]
  have calm : ∀ (y : Cell) (t : Int), -2 ≤ t → t ≤ 1 → ∀ j, 1 ≤ j → j < 5 → interface (moveBy y 0 t) j = if j = 4 then 1 else 0 := by
    intro y t _ _ j h1 h5
    obtain rfl | rfl | rfl | rfl : j = 1 ∨ j = 2 ∨ j = 3 ∨ j = 4 := by omega
    all_goals rfl
  have b0 : (below interface 0 [0, 0]).rho = 1 := by simp [below, gasOf, moveBy, z, interface, resting]
  have a0 : (above interface 0 [0, 0]).rho = 1 := by simp [above, gasOf, moveBy, z2, interface, resting]
  have b1 : (below interface 0 (moveBy [0, 0] 0 1)).rho = 1 := by simp [below, gasOf, moveBy, z, interface, resting]
  have a1 : (above interface 0 (moveBy [0, 0] 0 1)).rho = 4 := by simp [above, gasOf, moveBy, z', interface, resting]
  refine ⟨?_, div_pos (Real.sqrt_pos.2 P) hdx⟩
  have f0 := (calm_face hg one_pos (by decide) (calm [0, 0]) (by rw [b0]; norm_num) (by rw [a0]; norm_num)).2
  have f1 := (calm_face hg one_pos (by decide) (calm (moveBy [0, 0] 0 1)) (by rw [b1]; norm_num) (by rw [a1]; norm_num)).2
  rw [b0, a0] at f0
  rw [b1, a1] at f1
  rw [fvUpdate_add]
  simp only [List.map_cons, List.map_nil, List.sum_cons, List.sum_nil]
  rw [f0, f1]
  have s4 : Real.sqrt (gamma * ((gamma - 1) * 1) / 4) = Real.sqrt (gamma * (gamma - 1)) / 2 := by
    rw [mul_one, Real.sqrt_div' _ (by norm_num), show (4 : ℝ) = 2 ^ 2 by norm_num, Real.sqrt_sq (by norm_num)]
  rw [s4, mul_one, div_one]
  have sp : 0 < Real.sqrt (gamma * (gamma - 1)) := Real.sqrt_pos.2 P
  generalize Real.sqrt (gamma * (gamma - 1)) = c at *
  simp only [real_lit, meets]
  field_simp
  ring

/-- **C137** (false of the code) For a gas that moves, the reconstruction does not keep a common velocity: it works on density and momentum separately, and the constant `1e-12` in it is not small against a small
momentum. The densities 1, 2, 3, 4 moving at `1e-12` have another velocity at the face. -/
theorem C137_moving_false : ∃ u : Cell → Nat → ℝ, (∀ x, 0 < u x 0 ∧ (gasOf (u x)).vel 0 = 1 / 10 ^ 12) ∧ (below u 0 [2, 0]).vel 0 ≠ 1 / 10 ^ 12 := by
  let rho : Cell → ℝ := fun x => if x.getD 0 0 ≤ 0 then 1 else if x.getD 0 0 = 1 then 2 else if x.getD 0 0 = 2 then 3 else 4
  have pos : ∀ x, 0 < rho x := by intro x; simp only [rho]; split_ifs <;> norm_num
  refine ⟨fun x j => if j = 0 then rho x else if j = 1 then rho x / 10 ^ 12 else 0, fun x => ⟨pos x, ?_⟩, ?_⟩
  · have := (pos x).ne'
    simp [Gas.vel, gasOf]
    field_simp
  · simp [Gas.vel, below, gasOf, moveBy, rho, FV.recon, real_lit]
    norm_num

/-! ### Examples -/

/-- A step of a periodic gas at rest with an interface, to which `C137_partial` applies. -/
example {grid : Rectilinear ℝ} (hd : grid.rng.dims = [(0, 4)]) (hdx : grid.dxAt 0 = 1) : ∃ q q' : Cell → ℝ, GasStep grid 1 [] [0] 2 (1 / 1000) q q' ∧ q [0, 0, 0] = 1 ∧ q [3, 0, 0] = 2 ∧
    AtRest grid.rng.dims 1 1 q' ∧ DenseIn grid.rng.dims 1 (9 / 10 * 1) (21 / 10 * 1) q' := by
  obtain ⟨u, h0, H⟩ := (C90_exists (g := grid) (p := 1) (ws := []) (ps := [0]) (by simp) (by rw [hd]; decide) (by simp) (1 / 1000)).1 2
    fun x => resting (if x.getD 0 0 ≤ 1 then 1 else 2) (x.getLastD 0).toNat
  refine ⟨u 0, u 1, H 0, by rw [h0]; simp [resting], by rw [h0]; simp [resting], ?_⟩
  have C : Covered grid.rng.dims [] [0] := by
    refine ⟨?_, ?_⟩
    · rw [hd]; intro d h
      match d, h with
      | 0, _ => simp [lo, hi]
    · rw [hd]; intro d h; simp at h ⊢; exact h
  refine C137_partial (t := 1 / 1000) (by norm_num) one_pos one_pos (by rw [hd]; decide) C ?_ (by norm_num) ?_ (H 0) ?_ ?_
  · rw [hd]; intro d h
    match d, h with
    | 0, _ => rw [hdx]; exact one_pos
  · rw [hd]
    have : Real.sqrt (2 * ((2 - 1) * 1) / (3 / 20 * 1)) ≤ 4 := by rw [Real.sqrt_le_left (by norm_num)]; norm_num
    generalize Real.sqrt (2 * ((2 - 1) * 1) / (3 / 20 * 1)) = c at *
    have e : ((List.range ([(0, 4)] : Box).length).map fun d => 1 / grid.dxAt d).sum = 1 := by simp [hdx]
    rw [e]; linarith
  · rw [h0]; intro x hx
    simp [resting]
  · rw [h0]; intro x hx
    simp [resting]
    split_ifs <;> norm_num

end QK.Props
