import Verif.Props.Dependence
import Verif.Props.Divergence
/-
C103: a uniform plasma in a periodic box (exact arithmetic).
-/
namespace QK.Props
open QK Spec

/-- Rate of change of a fluid `w` in a field `b` without gradients: Lorentz force and work. -/
def fluidOde (com : ℝ) (w b : Nat → ℝ) : Nat → ℝ
  | 1 => com * (w 0 * b 0 + w 2 * b 5 - w 3 * b 4)
  | 2 => com * (w 0 * b 1 + w 3 * b 3 - w 1 * b 5)
  | 3 => com * (w 0 * b 2 + w 1 * b 4 - w 2 * b 3)
  | 4 => com * (w 1 * b 0 + w 2 * b 1 + w 3 * b 2)
  | _ => 0

/-- Rate of change of a field without gradients: minus the current over `ε₀`. -/
noncomputable def fieldOde (comE comI eps0 : ℝ) (we wi : Nat → ℝ) (k : Nat) : ℝ :=
  if k < 3 then -(comE * we (k + 1) + comI * wi (k + 1)) / eps0 else 0

/-- State of a uniform plasma: electrons, ions, field. -/
structure Point where
  e : Nat → ℝ
  i : Nat → ℝ
  f : Nat → ℝ

/-- The rates of change of a uniform plasma. -/
noncomputable def Point.rate (comE comI eps0 : ℝ) (s : Point) : Point := ⟨fluidOde comE s.e s.f, fluidOde comI s.i s.f, fieldOde comE comI eps0 s.e s.i⟩

/-- `a s + b (r + t x)`, componentwise. -/
noncomputable def Point.mix (a : ℝ) (s : Point) (b t : ℝ) (r x : Point) : Point :=
  ⟨fun k => a * s.e k + b * (r.e k + t * x.e k), fun k => a * s.i k + b * (r.i k + t * x.i k), fun k => a * s.f k + b * (r.f k + t * x.f k)⟩

/-- A step of the third order Shu-Osher method for the ordinary differential equation `s' = F s`. -/
noncomputable def shuOsher (F : Point → Point) (t : ℝ) (s : Point) : Point :=
  let s1 := Point.mix 0 s 1 t s (F s)
  let s2 := Point.mix (3 / 4) s (1 / 4) t s1 (F s1)
  Point.mix (1 / 3) s (2 / 3) t s2 (F s2)

variable {P : Plasma ℝ} {g : Rectilinear ℝ} {p : Int} {ps : List Nat} {t eps0 : ℝ}

/-- The plasma has the values `s` in all cells. -/
def UniformAt (g : Rectilinear ℝ) (p : Int) (s : Point) (q : State ℝ) : Prop := UniformPlasma g.rng.dims p s.e s.i s.f q

theorem uniform_rate (C : Covered g.rng.dims [] ps) (hc : Consistent P eps0) {k : Nat} {start cur cur' rate next : State ℝ} (S : PlasmaStage P g p [] ps t k start cur cur' rate next) {s : Point}
    (h : UniformAt g p s cur) : UniformAt g p s cur' ∧ UniformAt g p (s.rate P.comE P.comI eps0) rate := by
  have he := const_fill (n := 5) S.fill_e h.e
  have hi := const_fill (n := 5) S.fill_i h.i
  have hf := const_fill (n := 6) S.fill_f h.f
  refine ⟨⟨he, hi, hf⟩, ?_⟩
  have z : (Arith.lit 0 : ℝ) = 0 := by simp [real_lit]
  have key : ∀ x, InBox (g.rng.dims ++ [(0, p)]) x → (∀ j < 5, fluidFlux g P.gamma cur'.e x j = 0) ∧ (∀ j < 5, fluidFlux g P.gamma cur'.i x j = 0) ∧ ∀ j < 6, lightFlux g P.c cur'.f x j = 0 := by
    intro x hx
    unfold fluidFlux lightFlux
    rw [← z]
    refine ⟨fun j hj => ?_, fun j hj => ?_, fun j hj => ?_⟩
    · rw [gas_rest C.wide C.all (fun _ _ => .inr rfl) S.fill_e h.e hx]; exact z.symm
    · rw [gas_rest C.wide C.all (fun _ _ => .inr rfl) S.fill_i h.i hx]; exact z.symm
    · rw [light_rest C.wide C.all (fun _ _ => .inr rfl) (.inr (by simp)) S.fill_f h.f hx _ _ hj]; exact z.symm
  have vals : ∀ x, InBox (g.rng.dims ++ [(0, p)]) x → (∀ j : Nat, j < 5 → cur'.e (x ++ [(j : Int)]) = s.e j) ∧ (∀ j : Nat, j < 5 → cur'.i (x ++ [(j : Int)]) = s.i j) ∧
      ∀ j : Nat, j < 6 → cur'.f (x ++ [(j : Int)]) = s.f j := fun x hx => ⟨he x hx, hi x hx, hf x hx⟩
  have one : ∀ {com : ℝ} {u r : Cell → ℝ} {w : Nat → ℝ} {x : Cell}, InBox (g.rng.dims ++ [(0, p)]) x → (∀ j : Nat, j < 5 → u (x ++ [(j : Int)]) = w j) →
      (∀ i : Fin 3, r (x ++ [(i : Int) + 1]) = com * (u (x ++ [0]) * eVec cur'.f x i + cross (momVec u x) (bVec cur'.f x) i)) → r (x ++ [4]) = com * vdot (momVec u x) (eVec cur'.f x) →
      r (x ++ [0]) = 0 → ∀ j : Nat, j < 5 → r (x ++ [(j : Int)]) = fluidOde com w s.f j := by
    intro com u r w x hx v1 s1 s3 s6 j hj
    obtain ⟨-, -, v3⟩ := vals x hx
    have a0 := v1 0 (by decide); have a1 := v1 1 (by decide); have a2 := v1 2 (by decide); have a3 := v1 3 (by decide)
    have b0 := v3 0 (by decide); have b1 := v3 1 (by decide); have b2 := v3 2 (by decide); have b3 := v3 3 (by decide); have b4 := v3 4 (by decide); have b5 := v3 5 (by decide)
    push_cast at a0 a1 a2 a3 b0 b1 b2 b3 b4 b5
    obtain rfl | rfl | rfl | rfl | rfl : j = 0 ∨ j = 1 ∨ j = 2 ∨ j = 3 ∨ j = 4 := by omega
    · exact s6
    · refine (s1 0).trans ?_
      unfold fluidOde; congr 1
      simp [eVec, bVec, momVec, cross, *]; ring
    · refine (s1 1).trans ?_
      unfold fluidOde; congr 1
      simp [eVec, bVec, momVec, cross, *]; ring
    · refine (s1 2).trans ?_
      unfold fluidOde; congr 1
      simp [eVec, bVec, momVec, cross, *]; ring
    · refine s3.trans ?_
      unfold fluidOde; congr 1
      simp [eVec, momVec, vdot, *]
  refine ⟨fun x hx => ?_, fun x hx => ?_, fun x hx j hj => ?_⟩
  · obtain ⟨s1, -, s3, -, -, s6, -⟩ := sources_of S hc hx
    obtain ⟨z1, -, -⟩ := key x hx
    refine one hx (vals x hx).1 (fun i => ?_) ?_ (s6.trans (z1 0 (by decide)))
    · rw [← s1 i, z1 _ (by omega), sub_zero]
    · rw [← s3, z1 _ (by omega), sub_zero]
  · obtain ⟨-, s1, -, s3, -, -, s6⟩ := sources_of S hc hx
    obtain ⟨-, z1, -⟩ := key x hx
    refine one hx (vals x hx).2.1 (fun i => ?_) ?_ (s6.trans (z1 0 (by decide)))
    · rw [← s1 i, z1 _ (by omega), sub_zero]
    · rw [← s3, z1 _ (by omega), sub_zero]
  · obtain ⟨-, -, -, -, s5, -⟩ := sources_of S hc hx
    obtain ⟨-, -, z1⟩ := key x hx
    obtain ⟨v1, v2, -⟩ := vals x hx
    have e1 := v1 1 (by decide); have e2 := v1 2 (by decide); have e3 := v1 3 (by decide)
    have i1 := v2 1 (by decide); have i2 := v2 2 (by decide); have i3 := v2 3 (by decide)
    push_cast at e1 e2 e3 i1 i2 i3
    by_cases c : j < 3
    · have := s5 ⟨j, c⟩
      rw [z1 _ (by simpa using hj), sub_zero] at this
      refine this.trans ?_
      simp only [Point.rate, fieldOde, if_pos c]
      unfold currentAt momVec
      obtain rfl | rfl | rfl : j = 0 ∨ j = 1 ∨ j = 2 := by omega
      all_goals simp [*]
    · obtain ⟨r0, h0, A⟩ := S.rate_f
      rw [A.rest _ (fun y k _ h1 h2 => snoc_ne (by omega)), h0 x hx j hj]
      have := z1 j hj
      unfold lightFlux at this
      rw [z]
      simp only [Point.rate, fieldOde, if_neg c]
      exact this

/-- **C103** A uniform plasma in a periodic box stays uniform, and a time step of the program is a step of the third order method for the equations of motion of one cell: Lorentz force on both fluids,
minus the current over `ε₀` for the electric field. -/
theorem C103_uniform (C : Covered g.rng.dims [] ps) (hc : Consistent P eps0) {q q' : State ℝ} (H : PlasmaStep P g p [] ps t q q') {s : Point} (h : UniformAt g p s q) :
    UniformAt g p (shuOsher (Point.rate P.comE P.comI eps0) t s) q' := by
  obtain ⟨q0, r0, q1, q1', r1, q2, q2', r2, H0, H1, H2⟩ := H
  obtain ⟨f0, d0⟩ := uniform_rate C hc H0 h
  unfold shuOsher
  obtain ⟨s1, hs1⟩ : ∃ s1, s1 = Point.mix 0 s 1 t s (s.rate P.comE P.comI eps0) := ⟨_, rfl⟩
  obtain ⟨s2, hs2⟩ : ∃ s2, s2 = Point.mix (3 / 4) s (1 / 4) t s1 (Point.rate P.comE P.comI eps0 s1) := ⟨_, rfl⟩
  simp only [← hs1, ← hs2]
  have u1 : UniformAt g p s1 q1 := by
    rw [hs1]
    refine ⟨fun x hx j hj => ?_, fun x hx j hj => ?_, fun x hx j hj => ?_⟩
    · rw [H0.next_e, f0.e x hx j hj, d0.e x hx j hj]; simp [rkStage, Point.mix]
    · rw [H0.next_i, f0.i x hx j hj, d0.i x hx j hj]; simp [rkStage, Point.mix]
    · rw [H0.next_f, f0.f x hx j hj, d0.f x hx j hj]; simp [rkStage, Point.mix]
  obtain ⟨f1, d1⟩ := uniform_rate C hc H1 u1
  have u2 : UniformAt g p s2 q2 := by
    rw [hs2]
    refine ⟨fun x hx j hj => ?_, fun x hx j hj => ?_, fun x hx j hj => ?_⟩
    · rw [H1.next_e, f0.e x hx j hj, f1.e x hx j hj, d1.e x hx j hj]; simp only [rkStage, real_lit]; unfold Point.mix; push_cast; ring
    · rw [H1.next_i, f0.i x hx j hj, f1.i x hx j hj, d1.i x hx j hj]; simp only [rkStage, real_lit]; unfold Point.mix; push_cast; ring
    · rw [H1.next_f, f0.f x hx j hj, f1.f x hx j hj, d1.f x hx j hj]; simp only [rkStage, real_lit]; unfold Point.mix; push_cast; ring
  obtain ⟨f2, d2⟩ := uniform_rate C hc H2 u2
  refine ⟨fun x hx j hj => ?_, fun x hx j hj => ?_, fun x hx j hj => ?_⟩
  · rw [H2.next_e, f0.e x hx j hj, f2.e x hx j hj, d2.e x hx j hj]; simp only [rkStage, real_lit]; unfold Point.mix; push_cast; ring
  · rw [H2.next_i, f0.i x hx j hj, f2.i x hx j hj, d2.i x hx j hj]; simp only [rkStage, real_lit]; unfold Point.mix; push_cast; ring
  · rw [H2.next_f, f0.f x hx j hj, f2.f x hx j hj, d2.f x hx j hj]; simp only [rkStage, real_lit]; unfold Point.mix; push_cast; ring

/-- Square of the plasma frequency: `(Σ (q/m)² ρ) / ε₀`. -/
noncomputable def omega2 (comE comI eps0 : ℝ) (s : Point) : ℝ := (comE ^ 2 * s.e 0 + comI ^ 2 * s.i 0) / eps0

/-- Current of a uniform plasma. -/
def Point.J (comE comI : ℝ) (s : Point) (k : Nat) : ℝ := comE * s.e (k + 1) + comI * s.i (k + 1)

/-- Amplitude (squared) of the oscillation of the field and the current in direction `k`. -/
noncomputable def amplitude (comE comI eps0 : ℝ) (s : Point) (k : Nat) : ℝ := eps0 ^ 2 * omega2 comE comI eps0 s * s.f k ^ 2 + s.J comE comI k ^ 2

theorem shuOsher_plasma {comE comI eps0 : ℝ} (h0 : eps0 ≠ 0) (t : ℝ) {s : Point} (hB : ∀ k, 3 ≤ k → s.f k = 0) :
    let s' := shuOsher (Point.rate comE comI eps0) t s
    let w := omega2 comE comI eps0 s
    (∀ k, 3 ≤ k → s'.f k = 0) ∧ s'.e 0 = s.e 0 ∧ s'.i 0 = s.i 0 ∧ ∀ k < 3,
      s'.f k = (1 - w * t ^ 2 / 2) * s.f k - t / eps0 * (1 - w * t ^ 2 / 6) * s.J comE comI k ∧
      s'.J comE comI k = (1 - w * t ^ 2 / 2) * s.J comE comI k + t * eps0 * w * (1 - w * t ^ 2 / 6) * s.f k := by
  have b3 := hB 3 (by decide); have b4 := hB 4 (by decide); have b5 := hB 5 (by decide)
  refine ⟨fun k hk => ?_, ?_, ?_, fun k hk => ?_⟩
  · simp [shuOsher, Point.mix, Point.rate, fieldOde, show ¬ k < 3 by omega, hB k hk]
  · simp [shuOsher, Point.mix, Point.rate, fluidOde]; ring
  · simp [shuOsher, Point.mix, Point.rate, fluidOde]; ring
  · unfold omega2 Point.J
    obtain rfl | rfl | rfl : k = 0 ∨ k = 1 ∨ k = 2 := by omega
    all_goals
      simp only [shuOsher, Point.mix, Point.rate, fieldOde, fluidOde]
      norm_num [b3, b4, b5]
      constructor <;> field_simp <;> ring

/-- What a step multiplies the amplitude of an oscillation with `θ² = ω² Δt²` by. -/
noncomputable def growth (z : ℝ) : ℝ := 1 - z ^ 2 / 12 + z ^ 3 / 36

/-- **C103** Plasma oscillations: without a magnetic field, in every run from a uniform plasma in a periodic box the densities stay, no magnetic field appears, and in each direction the
amplitude of the oscillation of electric field and current is multiplied in each step by `1 - θ⁴/12 + θ⁶/36`, where `θ` is the plasma frequency times the time step. -/
theorem C103_oscillation (C : Covered g.rng.dims [] ps) (hc : Consistent P eps0) {u : Nat → State ℝ} {n : Nat} (H : ∀ j < n, PlasmaStep P g p [] ps t (u j) (u (j + 1))) {s : Point}
    (h : UniformAt g p s (u 0)) (hB : ∀ k, 3 ≤ k → s.f k = 0) :
    ∃ v : Nat → Point, v 0 = s ∧ ∀ j ≤ n, UniformAt g p (v j) (u j) ∧ (∀ k, 3 ≤ k → (v j).f k = 0) ∧ (v j).e 0 = s.e 0 ∧ (v j).i 0 = s.i 0 ∧
      ∀ k < 3, amplitude P.comE P.comI eps0 (v j) k = growth (omega2 P.comE P.comI eps0 s * t ^ 2) ^ j * amplitude P.comE P.comI eps0 s k := by
  have e0 := hc.pos.ne'
  refine ⟨fun j => (shuOsher (Point.rate P.comE P.comI eps0) t)^[j] s, rfl, fun j hj => ?_⟩
  induction j with
  | zero => exact ⟨h, hB, rfl, rfl, fun k _ => by simp⟩
  | succ j ih =>
    obtain ⟨i1, i2, i3, i4, i5⟩ := ih (by omega)
    dsimp only at i1 i2 i3 i4 i5
    simp only [Function.iterate_succ_apply']
    generalize (shuOsher (Point.rate P.comE P.comI eps0) t)^[j] s = r at *
    have hw : omega2 P.comE P.comI eps0 r = omega2 P.comE P.comI eps0 s := by unfold omega2; rw [i3, i4]
    obtain ⟨k1, k2, k3, k4⟩ := shuOsher_plasma (comE := P.comE) (comI := P.comI) e0 t i2
    refine ⟨C103_uniform C hc (H j (by omega)) i1, k1, k2.trans i3, k3.trans i4, fun k hk => ?_⟩
    have hw' : omega2 P.comE P.comI eps0 (shuOsher (Point.rate P.comE P.comI eps0) t r) = omega2 P.comE P.comI eps0 r := by unfold omega2; rw [k2, k3]
    obtain ⟨a, b⟩ := k4 k hk
    rw [pow_succ', mul_assoc, ← i5 k hk]
    simp only [amplitude, hw', a, b, hw, growth]
    field_simp
    ring

/-- **C103** The oscillation does not grow exactly when `θ² ≤ 3`, and grows without bound when `θ² > 3`. -/
theorem C103_stable {z : ℝ} (hz : 0 < z) : (0 < growth z) ∧ (growth z ≤ 1 ↔ z ≤ 3) ∧ (growth z < 1 ↔ z < 3) ∧ ∀ a : ℝ, 0 < a → 3 < z → ∀ bound : ℝ, ∃ n : Nat, ∀ j ≥ n, bound < growth z ^ j * a := by
  have e : growth z - 1 = z ^ 2 / 36 * (z - 3) := by unfold growth; ring
  have p : 0 < z ^ 2 / 36 := by positivity
  refine ⟨?_, ⟨fun h => ?_, fun h => ?_⟩, ⟨fun h => ?_, fun h => ?_⟩, fun a ha h bound => ?_⟩
  · unfold growth; nlinarith [sq_nonneg (z - 2), mul_nonneg hz.le (sq_nonneg (z - 2))]
  · by_contra c; nlinarith [mul_pos p (show 0 < z - 3 by linarith)]
  · nlinarith [mul_nonneg p.le (show 0 ≤ 3 - z by linarith)]
  · by_contra c; nlinarith [mul_nonneg p.le (show 0 ≤ z - 3 by linarith)]
  · nlinarith [mul_pos p (show 0 < 3 - z by linarith)]
  · have g1 : 1 < growth z := by nlinarith [mul_pos p (show 0 < z - 3 by linarith)]
    obtain ⟨n, hn⟩ := pow_unbounded_of_one_lt (bound / a) g1
    exact ⟨n, fun j hj => (div_lt_iff₀ ha).1 (hn.trans_le (pow_le_pow_right₀ g1.le hj))⟩

/-- **C103** With the constants and the time step of the two-fluid shock tube and the densities of its left state, `θ²` is `11/100`. -/
theorem C103_brio (h : BrioPlasma P) {s : Point} (he : s.e 0 = 1 / 10) (hi : s.i 0 = 1) : omega2 P.comE P.comI (1 / 10 ^ 6) s * TwoFluidBrioWu.timeDt 100 10 ^ 2 = 11 / 100 := by
  unfold omega2
  rw [h.electron, h.ion, he, hi]
  simp only [TwoFluidBrioWu.timeDt, real_lit, real_ofInt]
  norm_num

/-- Cold electrons and ions of density `1/10` and `1` at rest in a field along `x`. -/
noncomputable def loaded : Point := ⟨fun j => [1 / 10, 0, 0, 0, 1].getD j 0, fun j => [1, 0, 0, 0, 1].getD j 0, fun j => [1, 0, 0, 0, 0, 0].getD j 0⟩

-- C103: a run of a hundred steps of a plasma with the constants of the shock tube on a ring of four cells
example {P : Plasma ℝ} (hP : BrioPlasma P) {g : Rectilinear ℝ} (hd : g.rng.dims = [(0, 4)]) : ∃ u : Nat → State ℝ,
    (∀ j, PlasmaStep P g 1 [] [0] (1 / 10 ^ 4) (u j) (u (j + 1))) ∧ ∃ s : Point, UniformAt g 1 s (u 100) ∧ amplitude P.comE P.comI (1 / 10 ^ 6) s 0 = growth (11 / 100) ^ 100 * (11 / 10 ^ 6) := by
  obtain ⟨u, h0, H⟩ := (C90_exists (g := g) (p := 1) (ws := []) (ps := [0]) (by simp) (by rw [hd]; decide) (by simp) (1 / 10 ^ 4)).2.2 P
    ⟨fun x => loaded.e (x.getLastD 0).toNat, fun x => loaded.i (x.getLastD 0).toNat, fun x => loaded.f (x.getLastD 0).toNat⟩
  have C : Covered g.rng.dims [] [0] := by
    rw [hd]
    constructor
    · intro d hd
      match d, hd with
      | 0, _ => simp [lo, hi]
    · intro d hd; simp at hd ⊢; omega
  have hu : UniformAt g 1 loaded (u 0) := by
    rw [h0]
    exact ⟨fun x _ j _ => by simp, fun x _ j _ => by simp, fun x _ j _ => by simp⟩
  obtain ⟨v, v0, hv⟩ := C103_oscillation C (brio_coupled hP) (n := 100) (fun j _ => H j) hu (by
    intro k hk
    unfold loaded
    match k, hk with
    | 3, _ => rfl
    | 4, _ => rfl
    | 5, _ => rfl
    | k + 6, _ => rfl)
  obtain ⟨a, -, -, -, b⟩ := hv 100 le_rfl
  refine ⟨u, H, v 100, a, (b 0 (by decide)).trans ?_⟩
  have w := C103_brio hP (s := loaded) rfl rfl
  have t : (TwoFluidBrioWu.timeDt 100 10 : ℝ) = 1 / 10 ^ 4 := by simp only [TwoFluidBrioWu.timeDt, real_lit, real_ofInt]; norm_num
  rw [t] at w
  rw [w]
  congr 1
  unfold amplitude Point.J
  have : omega2 P.comE P.comI (1 / 10 ^ 6) loaded = 11 * 10 ^ 6 := by linarith
  rw [this]
  norm_num [loaded]

end QK.Props
