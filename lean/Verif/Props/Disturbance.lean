import Verif.Props.Contact
import Verif.Props.Pressure
import Verif.Proofs.Axes
import Verif.Props.Truncation
import Verif.Spec.Rounding
/-
C139: small disturbances of a uniform gas.
-/
namespace QK.Props
open QK Spec Truncation

/-- In all cells of the mesh the gas `u` differs from the state `w` by at most `δ` in each component. -/
def CloseTo (M : Box) (p : Int) (w : Gas) (δ : ℝ) (u : Cell → ℝ) : Prop :=
  ∀ x, InBox (M ++ [(0, p)]) x → ∀ j < 5, |u (x ++ [((j : Nat) : Int)]) - w.comps.getD j 0| ≤ δ

/-- No denominator of the limiter is zero (no two neighbouring values differ by exactly `-1e-12`, for which the code divides by zero). -/
def NoneZero5 (M : Box) (p : Int) (u : Cell → ℝ) : Prop := ∀ x, InBox (M ++ [(0, p)]) x → NoZero M.length 5 (fun x j => u (x ++ [(j : Int)])) x

/-- The rate at which disturbances of a gas in this range may grow. -/
noncomputable def growthRate (g : Rectilinear ℝ) (gamma ρ0 R : ℝ) : ℝ := 9 / 2 * (fluxLip gamma ρ0 R + 2 * speedMax gamma ρ0 R) * invWidths g g.rng.dims.length

theorem lip_nonneg {gamma ρ0 R : ℝ} (hg : 1 < gamma) (h0 : 0 < ρ0) (hR : 0 < R) : 0 ≤ fluxLip gamma ρ0 R + 2 * speedMax gamma ρ0 R := by
  have g1 : 0 < gamma - 1 := by linarith
  have : 0 ≤ velMax ρ0 R := by unfold velMax; positivity
  have : 0 ≤ velLip ρ0 R := by unfold velLip; positivity
  have : 0 ≤ presMax gamma ρ0 R := by unfold presMax; positivity
  have : 0 ≤ presLip gamma ρ0 R := by unfold presLip; positivity
  unfold fluxLip speedMax
  positivity

variable {g : Rectilinear ℝ} {p : Int} {ws ps : List Nat} {gamma ρ0 p0 R δ t : ℝ} {w : Gas}

private theorem face_close (hg : 1 < gamma) (h0 : 0 < ρ0) (hp : 0 < p0) (I : InRange gamma ρ0 p0 R w) (F : Fine gamma ρ0 p0 R (9 / 4 * δ)) {v : Cell → Nat → ℝ} (d : Fin 3) {x : Cell}
    (h : ∀ s : Int, -2 ≤ s → s ≤ 1 → ∀ j < 5, |v (moveBy x d s) j - w.comps.getD j 0| ≤ δ) {j : Nat} (hj : j < 5) :
    |(faceFlux (fluxOf (Euler.hll gamma (d : Nat))) 5 v d x).getD j 0 - (w.flux gamma d).comps.getD j 0| ≤ (fluxLip gamma ρ0 R + 2 * speedMax gamma ρ0 R) * (9 / 4 * δ) := by
  have hx := fun j hj => h 0 (by omega) (by omega) j hj
  simp only [moveBy_zero] at hx
  have gap : ∀ {a b c : ℝ}, |a - c| ≤ δ → |b - c| ≤ δ → |b - a| ≤ 2 * δ := by
    intro a b c h1 h2; rw [abs_le] at *; constructor <;> linarith [h1.1, h1.2, h2.1, h2.2]
  have near : ∀ r : Nat → ℝ, (∀ j < 5, |r j - w.comps.getD j 0| ≤ 9 / 4 * δ) → NearGas (9 / 4 * δ) w (gasOf r) := by
    intro r h
    exact ⟨h 0 (by omega), fun i => by fin_cases i; exacts [h 1 (by omega), h 2 (by omega), h 3 (by omega)], h 4 (by omega)⟩
  have sum : ∀ {a b c : ℝ}, |a - b| ≤ 5 / 8 * (2 * δ) → |b - c| ≤ δ → |a - c| ≤ 9 / 4 * δ := by
    intro a b c h1 h2; rw [abs_le] at *; constructor <;> linarith [h1.1, h1.2, h2.1, h2.2]
  have nl : NearGas (9 / 4 * δ) w (below v d x) := by
    unfold below
    refine near _ fun j hj => ?_
    have b := h (-1) (by omega) (by omega) j hj
    exact sum ((recon_bound _ _ _ _).1.trans (by have := gap (h (-2) (by omega) (by omega) j hj) b; linarith)) b
  have nr : NearGas (9 / 4 * δ) w (above v d x) := by
    unfold above
    refine near _ fun j hj => ?_
    have b := hx j hj
    exact sum ((recon_bound _ _ _ _).2.trans (by have := gap (h 1 (by omega) (by omega) j hj) b; linarith)) b
  have key := gas_near hg h0 hp I nl nr F d hj
  have e : faceFlux (fluxOf (Euler.hll gamma (d : Nat))) 5 v d x = fluxOf (Euler.hll gamma (d : Nat)) (below v d x).comps (above v d x).comps := rfl
  rw [e]
  exact key

/-- **C139** Where the gas is within `δ` of a uniform state, its rates of change are at most `growthRate * δ`. -/
theorem C139_rate (hg : 1 < gamma) (h0 : 0 < ρ0) (hp : 0 < p0) (I : InRange gamma ρ0 p0 R w) (F : Fine gamma ρ0 p0 R (9 / 4 * δ)) (h3 : g.rng.dims.length ≤ 3)
    (hw : ∀ d < g.rng.dims.length, 0 < g.dxAt d) {u u' r : Cell → ℝ} (C : Covered g.rng.dims ws ps) (rest : ws ≠ [] → ∀ i, w.mom i = 0)
    (hf : Filled g.rng.dims [(0, p), (0, 5)] ws isMomentum ps u u') (hr : GasRate g.rng.dims p g.dxAt gamma u' r) (_hz : NoneZero5 g.rng.dims p u')
    (h : CloseTo g.rng.dims p w δ u) {x : Cell} (hx : InBox (g.rng.dims ++ [(0, p)]) x) {j : Nat} (hj : j < 5) :
    |r (x ++ [(j : Int)])| ≤ growthRate g gamma ρ0 R * δ := by
  have meets : Meets g ws isMomentum ps 5 fun _ j => w.comps.getD j 0 := by
    refine ⟨fun _ _ _ _ _ => rfl, fun d hd _ _ _ j hj hm => ?_, fun _ _ _ _ _ _ _ _ => rfl⟩
    have z := rest (List.ne_nil_of_mem hd)
    have c : ∀ i, w.mom i = -w.mom i := fun i => by rw [z i]; simp
    obtain ⟨m1, m2⟩ : 1 ≤ (j : Int) ∧ (j : Int) ≤ 3 := by
      unfold isMomentum at hm; omega
    obtain rfl | rfl | rfl : j = 1 ∨ j = 2 ∨ j = 3 := by omega
    exacts [c 0, c 1, c 2]
  have S := samples_fill C.wide C.all meets hf h hx
  rw [hr x hx j hj, fvUpdate_sum, show (Arith.lit 0 : ℝ) = 0 by simp [real_lit], zero_add]
  have L0 := lip_nonneg hg h0 (R := R) (by have := I.low; have := I.high; linarith)
  unfold growthRate invWidths
  have each : ∀ d ∈ List.range g.rng.dims.length, |(faceFlux (fluxOf (Euler.hll gamma (d : Nat))) 5 (fun x j => u' (x ++ [(j : Int)])) d x).getD j 0 / g.dxAt d -
      (faceFlux (fluxOf (Euler.hll gamma (d : Nat))) 5 (fun x j => u' (x ++ [(j : Int)])) d (moveBy x d 1)).getD j 0 / g.dxAt d| ≤
      9 / 2 * (fluxLip gamma ρ0 R + 2 * speedMax gamma ρ0 R) * δ * (1 / g.dxAt d) := by
    intro d hd
    have hd := List.mem_range.1 hd
    have w0 := hw d hd
    have a := face_close hg h0 hp I F (v := fun x j => u' (x ++ [(j : Int)])) ⟨d, by omega⟩ (x := x) (fun s s1 s2 j hj => S d hd s s1 (by omega) j hj) hj
    have b := face_close hg h0 hp I F (v := fun x j => u' (x ++ [(j : Int)])) ⟨d, by omega⟩ (x := moveBy x d 1)
      (fun s s1 s2 j hj => by rw [moveBy_moveBy]; exact S d hd _ (by omega) (by omega) j hj) hj
    dsimp only at a b
    rw [← sub_div, abs_div, abs_of_pos w0, mul_one_div]
    refine div_le_div_of_nonneg_right ?_ w0.le
    rw [abs_le] at *
    constructor <;> linarith [a.1, a.2, b.1, b.2]
  have : ∀ (l : List Nat) (f k : Nat → ℝ), (∀ d ∈ l, |f d| ≤ k d) → |(l.map f).sum| ≤ (l.map k).sum := by
    intro l f k
    induction l with
    | nil => simp
    | cons d l ih =>
      intro h
      simp only [List.map_cons, List.sum_cons]
      exact (abs_add_le _ _).trans (add_le_add (h d (by simp)) (ih fun e he => h e (by simp [he])))
  refine (this _ _ _ each).trans (le_of_eq ?_)
  rw [List.sum_map_mul_left]
  ring

/-- Three stages. -/
private theorem stages_grow {z D : ℝ} (hz : 0 ≤ z) (hD : 0 ≤ D) : (1 + z) * D ≤ Real.exp z * D ∧ (1 + z / 2 + z ^ 2 / 4) * D ≤ Real.exp z * D ∧ (1 + z + z ^ 2 / 2 + z ^ 3 / 6) * D ≤ Real.exp z * D := by
  have e3 : 1 + z + z ^ 2 / 2 + z ^ 3 / 6 ≤ Real.exp z := by
    have := Real.sum_le_exp_of_nonneg hz 4
    simp [Finset.sum_range_succ, Nat.factorial] at this
    linarith
  refine ⟨mul_le_mul_of_nonneg_right ?_ hD, mul_le_mul_of_nonneg_right ?_ hD, mul_le_mul_of_nonneg_right e3 hD⟩
  · have : 0 ≤ z ^ 2 / 2 + z ^ 3 / 6 := by positivity
    linarith
  · have : 0 ≤ z / 2 + z ^ 2 / 4 + z ^ 3 / 6 := by positivity
    linarith

/-- **C139** A time step multiplies the distance from a uniform state at most by `exp (t * growthRate)`, as long as the result is still small. -/
theorem C139_step (hg : 1 < gamma) (h0 : 0 < ρ0) (hp : 0 < p0) (I : InRange gamma ρ0 p0 R w) (F : Fine gamma ρ0 p0 R (9 / 4 * (Real.exp (t * growthRate g gamma ρ0 R) * δ)))
    (h3 : g.rng.dims.length ≤ 3) (hw : ∀ d < g.rng.dims.length, 0 < g.dxAt d) (C : Covered g.rng.dims ws ps) (rest : ws ≠ [] → ∀ i, w.mom i = 0) (ht : 0 ≤ t) (hδ : 0 ≤ δ) {q q' : Cell → ℝ}
    (H : GasStep g p ws ps gamma t q q') (hz : SoloAll g.rng.dims p 5 ws isMomentum ps (GasRate g.rng.dims p g.dxAt gamma) t (NoneZero5 g.rng.dims p) q q')
    (h : CloseTo g.rng.dims p w δ q) : CloseTo g.rng.dims p w (Real.exp (t * growthRate g gamma ρ0 R) * δ) q' := by
  obtain ⟨q0, r0, q1, q1', r1, q2, q2', r2, S0, S1, S2⟩ := H
  obtain ⟨z0, z1, z2⟩ := hz _ _ _ _ _ _ _ _ S0 S1 S2
  have R0 : 0 < R := by have := I.low; have := I.high; linarith
  have G0 : 0 ≤ growthRate g gamma ρ0 R := by
    have := lip_nonneg hg h0 R0
    have i0 : 0 ≤ invWidths g g.rng.dims.length := list_sum_nonneg fun d hd => by have := hw d (List.mem_range.1 hd); positivity
    unfold growthRate; positivity
  generalize hG : growthRate g gamma ρ0 R = G at *
  obtain ⟨k1, k2, k3⟩ := stages_grow (mul_nonneg ht G0) hδ
  have hδ' : δ ≤ Real.exp (t * G) * δ := by nlinarith [Real.add_one_le_exp (t * G), mul_nonneg ht G0]
  have rate : ∀ {δ' : ℝ} {u u' r : Cell → ℝ}, 0 ≤ δ' → δ' ≤ Real.exp (t * G) * δ → Filled g.rng.dims [(0, p), (0, 5)] ws isMomentum ps u u' → GasRate g.rng.dims p g.dxAt gamma u' r →
      NoneZero5 g.rng.dims p u' → CloseTo g.rng.dims p w δ' u → ∀ x, InBox (g.rng.dims ++ [(0, p)]) x → ∀ j < 5, |t * r (x ++ [((j : Nat) : Int)])| ≤ t * (G * δ') := by
    intro δ' u u' r d0 d1 hf hr hz h x hx j hj
    have := C139_rate hg h0 hp I (F.mono hg h0 R0 (by positivity) (by linarith)) h3 hw C rest hf hr hz h hx hj
    rw [hG] at this
    rw [abs_mul, abs_of_nonneg ht]
    exact mul_le_mul_of_nonneg_left this ht
  have h1 : CloseTo g.rng.dims p w ((1 + t * G) * δ) q1 := by
    intro x hx j hj
    have e := S0.next (x ++ [(j : Int)])
    simp only [rkStage] at e
    rw [S0.fill.inside _ (inBox_comp hx hj)] at e
    rw [e]
    have a := abs_le.1 (rate hδ hδ' S0.fill S0.rates z0 h x hx j hj)
    have b := abs_le.1 (h x hx j hj)
    rw [abs_le]; constructor <;> linarith [a.1, a.2, b.1, b.2]
  have h2 : CloseTo g.rng.dims p w ((1 + t * G / 2 + (t * G) ^ 2 / 4) * δ) q2 := by
    intro x hx j hj
    have e := S1.next (x ++ [(j : Int)])
    simp only [rkStage, real_lit] at e
    push_cast at e
    rw [S1.fill.inside _ (inBox_comp hx hj), S0.fill.inside _ (inBox_comp hx hj)] at e
    rw [e]
    have a := abs_le.1 (rate (by have := mul_nonneg ht G0; positivity) k1 S1.fill S1.rates z1 h1 x hx j hj)
    have b := abs_le.1 (h x hx j hj)
    have c := abs_le.1 (h1 x hx j hj)
    rw [abs_le]; constructor <;> linarith [a.1, a.2, b.1, b.2, c.1, c.2]
  intro x hx j hj
  refine le_trans ?_ k3
  have e := S2.next (x ++ [(j : Int)])
  simp only [rkStage, real_lit] at e
  push_cast at e
  rw [S2.fill.inside _ (inBox_comp hx hj), S0.fill.inside _ (inBox_comp hx hj)] at e
  rw [e]
  have a := abs_le.1 (rate (by have := mul_nonneg ht G0; positivity) k2 S2.fill S2.rates z2 h2 x hx j hj)
  have b := abs_le.1 (h x hx j hj)
  have c := abs_le.1 (h2 x hx j hj)
  rw [abs_le]; constructor <;> linarith [a.1, a.2, b.1, b.2, c.1, c.2]

/-- A gas this close to `w` has positive density and pressure. -/
theorem close_positive (hg : 1 < gamma) (h0 : 0 < ρ0) (I : InRange gamma ρ0 p0 R w) (F : Fine gamma ρ0 p0 R δ) {u : Cell → ℝ} (h : CloseTo g.rng.dims p w δ u) {x : Cell}
    (hx : InBox (g.rng.dims ++ [(0, p)]) x) : ρ0 / 2 ≤ (gasIn u x).rho ∧ p0 / 2 ≤ (gasIn u x).pressure gamma := by
  have N : NearGas δ w (gasIn u x) := ⟨h x hx 0 (by omega), fun i => by fin_cases i; exacts [h x hx 1 (by omega), h x hx 2 (by omega), h x hx 3 (by omega)], h x hx 4 (by omega)⟩
  refine ⟨(near_base h0 I N F).2.1, ?_⟩
  have a := abs_le.1 (near_pres hg h0 I N F).2
  linarith [a.1, F.pres, I.pres]

/-- **C139** Runs: from a start within `δ` of a uniform state, after `i` steps the gas is within `exp (i t * growthRate) * δ` of it and its density and pressure are positive in all cells,
as long as this is small. -/
theorem C139_run (hg : 1 < gamma) (h0 : 0 < ρ0) (hp : 0 < p0) (I : InRange gamma ρ0 p0 R w) (h3 : g.rng.dims.length ≤ 3) (hw : ∀ d < g.rng.dims.length, 0 < g.dxAt d) (C : Covered g.rng.dims ws ps)
    (rest : ws ≠ [] → ∀ i, w.mom i = 0) (ht : 0 ≤ t) (hδ : 0 ≤ δ) {n : Nat} {s : Nat → Cell → ℝ} (H : ∀ i < n, GasStep g p ws ps gamma t (s i) (s (i + 1)))
    (hz : ∀ i < n, SoloAll g.rng.dims p 5 ws isMomentum ps (GasRate g.rng.dims p g.dxAt gamma) t (NoneZero5 g.rng.dims p) (s i) (s (i + 1))) (h : CloseTo g.rng.dims p w δ (s 0))
    (F : Fine gamma ρ0 p0 R (9 / 4 * (Real.exp (n * t * growthRate g gamma ρ0 R) * δ))) :
    ∀ i ≤ n, CloseTo g.rng.dims p w (Real.exp (i * t * growthRate g gamma ρ0 R) * δ) (s i) ∧
      ∀ x, InBox (g.rng.dims ++ [(0, p)]) x → ρ0 / 2 ≤ (gasIn (s i) x).rho ∧ p0 / 2 ≤ (gasIn (s i) x).pressure gamma := by
  have R0 : 0 < R := by have := I.low; have := I.high; linarith
  have G0 : 0 ≤ growthRate g gamma ρ0 R := by
    have := lip_nonneg hg h0 R0
    have i0 : 0 ≤ invWidths g g.rng.dims.length := list_sum_nonneg fun d hd => by have := hw d (List.mem_range.1 hd); positivity
    unfold growthRate; positivity
  have le : ∀ i ≤ n, Real.exp (i * t * growthRate g gamma ρ0 R) * δ ≤ Real.exp (n * t * growthRate g gamma ρ0 R) * δ := by
    intro i hi'
    refine mul_le_mul_of_nonneg_right (Real.exp_le_exp.2 ?_) hδ
    have : (i : ℝ) ≤ n := by exact_mod_cast hi'
    gcongr
  have close : ∀ i ≤ n, CloseTo g.rng.dims p w (Real.exp (i * t * growthRate g gamma ρ0 R) * δ) (s i) := by
    intro i
    induction i with
    | zero => intro _; simpa using h
    | succ i ih =>
      intro hi'
      have e : Real.exp (t * growthRate g gamma ρ0 R) * (Real.exp (i * t * growthRate g gamma ρ0 R) * δ) = Real.exp ((i + 1 : Nat) * t * growthRate g gamma ρ0 R) * δ := by
        rw [← mul_assoc, ← Real.exp_add]; push_cast; ring_nf
      have := C139_step (δ := Real.exp (i * t * growthRate g gamma ρ0 R) * δ) hg h0 hp I (by rw [e]; exact F.mono hg h0 R0 (by positivity) (by linarith [le _ hi'])) h3 hw C rest ht (by positivity)
        (H i (by omega)) (hz i (by omega)) (ih (by omega))
      rwa [e] at this
  intro i hi'
  refine ⟨close i hi', fun x hx => close_positive hg h0 I (F.mono hg h0 R0 (by positivity) ?_) (close i hi') hx⟩
  have := le i hi'
  have : 0 ≤ Real.exp (i * t * growthRate g gamma ρ0 R) * δ := by positivity
  linarith

/-- **C139** Uniform flow is stable against small disturbances: for every uniform state of positive density and pressure there are numbers `c > 0` and `L` such that on every mesh, with walls (if the gas is
at rest) or periodic, for all times `n t`, every disturbance of at most `exp (-L n t Σ 1/dx) c` stays small and leaves density and pressure positive during all steps. -/
theorem C139_stable (hg : 1 < gamma) (h0 : 0 < w.rho) (hp : 0 < w.pressure gamma) : ∃ c L : ℝ, 0 < c ∧ 0 ≤ L ∧
    ∀ (g : Rectilinear ℝ) (p : Int) (ws ps : List Nat), g.rng.dims.length ≤ 3 → (∀ d < g.rng.dims.length, 0 < g.dxAt d) → Covered g.rng.dims ws ps → (ws ≠ [] → ∀ i, w.mom i = 0) →
    ∀ (t δ : ℝ) (n : Nat) (s : Nat → Cell → ℝ), 0 ≤ t → 0 ≤ δ → (∀ i < n, GasStep g p ws ps gamma t (s i) (s (i + 1))) →
    (∀ i < n, SoloAll g.rng.dims p 5 ws isMomentum ps (GasRate g.rng.dims p g.dxAt gamma) t (NoneZero5 g.rng.dims p) (s i) (s (i + 1))) → CloseTo g.rng.dims p w δ (s 0) →
    Real.exp (n * t * (L * invWidths g g.rng.dims.length)) * δ ≤ c →
    ∀ i ≤ n, CloseTo g.rng.dims p w (Real.exp (i * t * (L * invWidths g g.rng.dims.length)) * δ) (s i) ∧
      ∀ x, InBox (g.rng.dims ++ [(0, p)]) x → 0 < (gasIn (s i) x).rho ∧ 0 < (gasIn (s i) x).pressure gamma := by
  let R := w.rho + (|w.mom 0| + |w.mom 1| + |w.mom 2|) + |w.en|
  have m0 := abs_nonneg (w.mom 0)
  have m1 := abs_nonneg (w.mom 1)
  have m2 := abs_nonneg (w.mom 2)
  have e0 := abs_nonneg w.en
  have R0 : 0 < R := by show 0 < w.rho + _ + _; linarith
  have I : InRange gamma w.rho (w.pressure gamma) R w := by
    refine ⟨le_rfl, ?_, fun i => ?_, ?_, le_rfl⟩
    · show _ ≤ w.rho + _ + _; linarith
    · show _ ≤ w.rho + _ + _; fin_cases i <;> simp <;> linarith
    · show _ ≤ w.rho + _ + _; linarith
  obtain ⟨c, hc, F⟩ : ∃ c : ℝ, 0 < c ∧ Fine gamma w.rho (w.pressure gamma) R (9 / 4 * c) := by
    have g1 : 0 < gamma - 1 := by linarith
    have lv : 0 ≤ velLip w.rho R := by unfold velLip; positivity
    have vm : 0 ≤ velMax w.rho R := by unfold velMax; positivity
    have lp : 0 ≤ presLip gamma w.rho R := by unfold presLip; positivity
    have K0 : 0 < gamma * w.pressure gamma / (4 * R) := by positivity
    have q0 := Real.sqrt_pos.2 K0
    have sq := Real.sq_sqrt K0.le
    let η := min (w.rho / 2) (min (w.pressure gamma / (2 * (presLip gamma w.rho R + 1))) (√(gamma * w.pressure gamma / (4 * R)) / (2 * (velLip w.rho R + 1))))
    have η0 : 0 < η := lt_min (by positivity) (lt_min (by positivity) (by positivity))
    have η1 : η ≤ w.rho / 2 := min_le_left _ _
    have η2 : η ≤ w.pressure gamma / (2 * (presLip gamma w.rho R + 1)) := (min_le_right _ _).trans (min_le_left _ _)
    have η3 : η ≤ √(gamma * w.pressure gamma / (4 * R)) / (2 * (velLip w.rho R + 1)) := (min_le_right _ _).trans (min_le_right _ _)
    refine ⟨4 / 9 * η, by positivity, ?_⟩
    rw [show 9 / 4 * (4 / 9 * η) = η by ring]
    generalize η = e at *
    rw [le_div_iff₀ (by positivity)] at η2 η3
    refine ⟨by linarith, by nlinarith, ?_⟩
    have small : velLip w.rho R * e ≤ √(gamma * w.pressure gamma / (4 * R)) / 2 := by nlinarith
    have := pow_le_pow_left₀ (by positivity) small 2
    rw [div_pow, sq] at this
    linarith
  refine ⟨c, 9 / 2 * (fluxLip gamma w.rho R + 2 * speedMax gamma w.rho R), hc, by have := lip_nonneg hg h0 R0; positivity, ?_⟩
  intro g p ws ps h3 hw C rest t δ n s ht hδ H hz h small i hi'
  have := C139_run hg h0 hp I h3 hw C rest ht hδ H hz h (F.mono hg h0 R0 (by positivity) (by unfold growthRate; linarith)) i hi'
  exact ⟨this.1, fun x hx => ⟨by linarith [(this.2 x hx).1], by linarith [(this.2 x hx).2]⟩⟩

/-! ### Example: two cells of different density -/

/-- A gas at rest of energy 1 on two cells, of densities 1 ± 1/1000 up to `e`. -/
structure Saw (e : ℝ) (u : Cell → ℝ) : Prop where
  rest : AtRest exTwo.rng.dims 1 1 u
  first : |u [0, 0, 0] - (1 + 1 / 1000)| ≤ e
  second : |u [1, 0, 0] - (1 - 1 / 1000)| ≤ e

private theorem two_cover : Covered exTwo.rng.dims [] [0] := by
  rw [exTwo_dims]
  refine ⟨fun d h => ?_, fun d h => by simp at h; simp [h]⟩
  match d, h with
  | 0, _ => simp [lo, hi]

private theorem two_cell {x : Cell} (hx : InBox (exTwo.rng.dims ++ [(0, 1)]) x) : x = [0, 0] ∨ x = [1, 0] := by
  obtain ⟨a, b, rfl, a0, a2⟩ := exTwo_cell hx
  obtain rfl : b = 0 := by rw [exTwo_dims] at hx; simp [InBox] at hx; omega
  obtain rfl | rfl : a = 0 ∨ a = 1 := by omega
  all_goals simp

private theorem saw_range {u : Cell → ℝ} (h : Saw (1 / 4000) u) {x : Cell} (hx : InBox (exTwo.rng.dims ++ [(0, 1)]) x) : 998 / 1000 ≤ u (x ++ [0]) ∧ u (x ++ [0]) ≤ 1002 / 1000 := by
  have a := abs_le.1 h.first
  have b := abs_le.1 h.second
  rcases two_cell hx with rfl | rfl
  · exact ⟨by show _ ≤ u [0, 0, 0]; linarith [a.1], by show u [0, 0, 0] ≤ _; linarith [a.2]⟩
  · exact ⟨by show _ ≤ u [1, 0, 0]; linarith [b.1], by show u [1, 0, 0] ≤ _; linarith [b.2]⟩

private theorem saw_close {u : Cell → ℝ} (h : Saw (1 / 4000) u) : CloseTo exTwo.rng.dims 1 ⟨1, 0, 1⟩ (2 / 1000) u := by
  intro x hx j hj
  have r := h.rest x hx
  have d := saw_range h hx
  obtain rfl | rfl | rfl | rfl | rfl : j = 0 ∨ j = 1 ∨ j = 2 ∨ j = 3 ∨ j = 4 := by omega
  · show |u (x ++ [0]) - 1| ≤ _; rw [abs_le]; constructor <;> linarith [d.1, d.2]
  · show |u (x ++ [1]) - 0| ≤ _; rw [r.1]; norm_num
  · show |u (x ++ [2]) - 0| ≤ _; rw [r.2.1]; norm_num
  · show |u (x ++ [3]) - 0| ≤ _; rw [r.2.2.1]; norm_num
  · show |u (x ++ [4]) - 1| ≤ _; rw [r.2.2.2]; norm_num

private theorem saw_noZero {u u' : Cell → ℝ} (h : Saw (1 / 4000) u) (F : Filled exTwo.rng.dims [(0, 1), (0, 5)] [] isMomentum [0] u u') : NoneZero5 exTwo.rng.dims 1 u' := by
  intro x hx d hd s s1 s2 j hj
  have C := two_cover
  dsimp only
  by_cases j0 : j = 0
  · subst j0
    have val : ∀ t : Int, -2 ≤ t → t ≤ 2 → u' (moveBy x d t ++ [((0 : Nat) : Int)]) = u [0, 0, 0] ∨ u' (moveBy x d t ++ [((0 : Nat) : Int)]) = u [1, 0, 0] := by
      intro t t1 t2
      rw [(filled_image (n := 5) F hx hd (C.wide d hd) (C.all d hd) t1 t2 hj).2 (by simp)]
      rcases two_cell (image_mesh (ws := []) hx hd (C.wide d hd) t1 t2) with e | e <;> rw [e]
      exacts [.inl rfl, .inr rfl]
    have a := abs_le.1 h.first
    have b := abs_le.1 h.second
    intro e
    rcases val (s + 1) (by omega) (by omega) with c | c <;> rcases val s (by omega) (by omega) with c' | c' <;> rw [c, c'] at e
    · norm_num at e
    · norm_num at e; linarith [a.1, b.2]
    · norm_num at e; linarith [a.1, b.2]
    · norm_num at e
  · rw [calm_around C.wide C.all F h.rest hx hd (by omega) (by omega) (by omega) hj, calm_around C.wide C.all F h.rest hx hd (by omega) (by omega) (by omega) hj]
    norm_num

private theorem two_range : InRange 2 1 1 1 (⟨1, 0, 1⟩ : Gas) := by
  refine ⟨le_rfl, le_rfl, fun i => by simp, by simp, by simp [Gas.pressure, vdot]; norm_num⟩

private theorem two_growth : growthRate exTwo 2 1 1 = 1170 := by
  have : invWidths exTwo exTwo.rng.dims.length = 1 := by
    unfold invWidths
    rw [exTwo_dims]
    simp [exTwo_dx]
  unfold growthRate
  rw [this]
  simp only [fluxLip, speedMax, velMax, velLip, presMax, presLip]
  norm_num

private theorem two_fine {η : ℝ} (h0 : 0 ≤ η) (h : η ≤ 1 / 100) : Fine 2 1 1 1 η := by
  refine ⟨by linarith, ?_, ?_⟩
  · simp only [presLip, velMax, velLip]; norm_num; linarith
  · simp only [velLip]; norm_num; nlinarith

/-- In one stage the densities change by at most 1/40000. -/
private theorem saw_stage {u u' r : Cell → ℝ} (h : Saw (1 / 4000) u) (F : Filled exTwo.rng.dims [(0, 1), (0, 5)] [] isMomentum [0] u u') (hr : GasRate exTwo.rng.dims 1 exTwo.dxAt 2 u' r)
    {x : Cell} (hx : InBox (exTwo.rng.dims ++ [(0, 1)]) x) : |1 / 10 ^ 5 * r (x ++ [0])| ≤ 1 / 40000 ∧ ∀ j : Nat, 1 ≤ j → j < 5 → r (x ++ [(j : Int)]) = 0 := by
  constructor
  · have := C139_rate (g := exTwo) (δ := 2 / 1000) (by norm_num) one_pos one_pos two_range (two_fine (by norm_num) (by norm_num)) (by rw [exTwo_dims]; simp)
      (fun d hd => by obtain rfl : d = 0 := by simp [exTwo_dims] at hd; omega
                      rw [exTwo_dx]; exact one_pos) two_cover (by simp) F hr (saw_noZero h F) (saw_close h) hx (j := 0) (by decide)
    rw [two_growth] at this
    rw [abs_mul]
    have e : |(1 : ℝ) / 10 ^ 5| = 1 / 10 ^ 5 := by norm_num
    rw [e]
    have : |r (x ++ [0])| ≤ 1170 * (2 / 1000) := this
    norm_num at this ⊢
    linarith
  · intro j h1 h5
    have D : DenseIn exTwo.rng.dims 1 (998 / 1000) (1002 / 1000) u := fun x hx => saw_range h hx
    rw [hr x hx j h5]
    refine C137_rate (by norm_num) one_pos (by rw [exTwo_dims]; simp) two_cover F h.rest hx (fun d hd s hs => ?_) _ h1 h5
    have := denseIn_faces two_cover F D hx hd hs
    exact ⟨by linarith [(this _ (.inl rfl)).1], by linarith [(this _ (.inr rfl)).1]⟩

/-- A step of a gas on two cells of different density, to which `C139_step` and `C139_run` apply: no denominator of the limiter is zero in any of its stages. -/
example : ∃ q q' : Cell → ℝ, GasStep exTwo 1 [] [0] 2 (1 / 10 ^ 5) q q' ∧ q [0, 0, 0] = 1 + 1 / 1000 ∧ q [1, 0, 0] = 1 - 1 / 1000 ∧
    SoloAll exTwo.rng.dims 1 5 [] isMomentum [0] (GasRate exTwo.rng.dims 1 exTwo.dxAt 2) (1 / 10 ^ 5) (NoneZero5 exTwo.rng.dims 1) q q' ∧
    CloseTo exTwo.rng.dims 1 ⟨1, 0, 1⟩ (2 / 1000) q ∧ CloseTo exTwo.rng.dims 1 ⟨1, 0, 1⟩ (3 / 1000) q' := by
  obtain ⟨u, h0, H⟩ := (C90_exists (g := exTwo) (p := 1) (ws := []) (ps := [0]) (by simp) (by rw [exTwo_dims]; decide) (by simp) (1 / 10 ^ 5)).1 2
    fun x => resting (if x.getD 0 0 = 0 then 1 + 1 / 1000 else 1 - 1 / 1000) (x.getLastD 0).toNat
  have S : Saw 0 (u 0) := by
    rw [h0]
    refine ⟨fun x hx => by simp [resting], by simp [resting], by simp [resting]⟩
  have mono : ∀ {e : ℝ} {v : Cell → ℝ}, Saw e v → e ≤ 1 / 4000 → Saw (1 / 4000) v := fun h he => ⟨h.rest, h.first.trans he, h.second.trans he⟩
  have S' := mono S (by norm_num)
  have hz : SoloAll exTwo.rng.dims 1 5 [] isMomentum [0] (GasRate exTwo.rng.dims 1 exTwo.dxAt 2) (1 / 10 ^ 5) (NoneZero5 exTwo.rng.dims 1) (u 0) (u 1) := by
    intro q0 r0 q1 q1' r1 q2 q2' r2 K0 K1 K2
    have b0 : InBox (exTwo.rng.dims ++ [(0, 1)]) [0, 0] := by rw [exTwo_dims]; simp [InBox]
    have b1 : InBox (exTwo.rng.dims ++ [(0, 1)]) [1, 0] := by rw [exTwo_dims]; simp [InBox]
    have next : ∀ {k : Nat} {v v' r v2 : Cell → ℝ}, Saw (1 / 4000) v → SoloStage exTwo.rng.dims 1 5 [] isMomentum [0] (GasRate exTwo.rng.dims 1 exTwo.dxAt 2) (1 / 10 ^ 5) k q0 v v' r v2 → AtRest exTwo.rng.dims 1 1 v2 := by
      intro k v v' r v2 hv K x hx
      have F0 := calm_fill (E := 1) K0.fill S.rest
      have F1 := calm_fill (E := 1) K.fill hv.rest
      have val : ∀ j : Nat, 1 ≤ j → j < 5 → v2 (x ++ [(j : Int)]) = if j = 4 then 1 else 0 := by
        intro j h1 h5
        rw [K.next, (saw_stage hv K.fill K.rates hx).2 j h1 h5, calm_mem F0 hx h1 h5, calm_mem F1 hx h1 h5, rkStage_fixed]
      exact ⟨val 1 (by decide) (by decide), val 2 (by decide) (by decide), val 3 (by decide) (by decide), val 4 (by decide) (by decide)⟩
    have in0 : ∀ {v v' : Cell → ℝ} {x : Cell}, Filled exTwo.rng.dims [(0, 1), (0, 5)] [] isMomentum [0] v v' → InBox (exTwo.rng.dims ++ [(0, 1)]) x → v' (x ++ [0]) = v (x ++ [0]) :=
      fun F hx => F.inside _ (inBox_comp (n := 5) (k := 0) hx (by decide))
    have s1 : Saw (1 / 4000) q1 := by
      have e : ∀ {x : Cell}, InBox (exTwo.rng.dims ++ [(0, 1)]) x → |q1 (x ++ [0]) - u 0 (x ++ [0])| ≤ 1 / 40000 := by
        intro x hx
        have e := K0.next (x ++ [0])
        simp only [rkStage] at e
        rw [in0 K0.fill hx] at e
        rw [e, add_sub_cancel_left]
        exact (saw_stage S' K0.fill K0.rates hx).1
      refine ⟨next S' K0, ?_, ?_⟩
      · have a := abs_le.1 (e b0); have b := abs_le.1 S.first
        show |q1 ([0, 0] ++ [0]) - _| ≤ _
        have b : -0 ≤ u 0 ([0, 0] ++ [0]) - (1 + 1 / 1000) ∧ u 0 ([0, 0] ++ [0]) - (1 + 1 / 1000) ≤ 0 := b
        rw [abs_le]; constructor <;> linarith [a.1, a.2, b.1, b.2]
      · have a := abs_le.1 (e b1); have b := abs_le.1 S.second
        show |q1 ([1, 0] ++ [0]) - _| ≤ _
        have b : -0 ≤ u 0 ([1, 0] ++ [0]) - (1 - 1 / 1000) ∧ u 0 ([1, 0] ++ [0]) - (1 - 1 / 1000) ≤ 0 := b
        rw [abs_le]; constructor <;> linarith [a.1, a.2, b.1, b.2]
    have s2 : Saw (1 / 4000) q2 := by
      have e : ∀ {x : Cell}, InBox (exTwo.rng.dims ++ [(0, 1)]) x → |q2 (x ++ [0]) - u 0 (x ++ [0])| ≤ 1 / 40000 := by
        intro x hx
        have e := K1.next (x ++ [0])
        simp only [rkStage, real_lit] at e
        push_cast at e
        rw [in0 K1.fill hx] at e
        have e1 := K0.next (x ++ [0])
        simp only [rkStage] at e1
        rw [in0 K0.fill hx] at e e1
        have a := abs_le.1 (saw_stage S' K0.fill K0.rates hx).1
        have b := abs_le.1 (saw_stage s1 K1.fill K1.rates hx).1
        rw [e, e1, abs_le]
        constructor <;> linarith [a.1, a.2, b.1, b.2]
      refine ⟨next s1 K1, ?_, ?_⟩
      · have a := abs_le.1 (e b0); have b := abs_le.1 S.first
        show |q2 ([0, 0] ++ [0]) - _| ≤ _
        have b : -0 ≤ u 0 ([0, 0] ++ [0]) - (1 + 1 / 1000) ∧ u 0 ([0, 0] ++ [0]) - (1 + 1 / 1000) ≤ 0 := b
        rw [abs_le]; constructor <;> linarith [a.1, a.2, b.1, b.2]
      · have a := abs_le.1 (e b1); have b := abs_le.1 S.second
        show |q2 ([1, 0] ++ [0]) - _| ≤ _
        have b : -0 ≤ u 0 ([1, 0] ++ [0]) - (1 - 1 / 1000) ∧ u 0 ([1, 0] ++ [0]) - (1 - 1 / 1000) ≤ 0 := b
        rw [abs_le]; constructor <;> linarith [a.1, a.2, b.1, b.2]
    exact ⟨saw_noZero S' K0.fill, saw_noZero s1 K1.fill, saw_noZero s2 K2.fill⟩
  have ex : Real.exp (1 / 10 ^ 5 * 1170) ≤ 3 / 2 := by
    have := Real.exp_bound' (x := 1 / 10 ^ 5 * 1170) (by norm_num) (by norm_num) (n := 2) (by norm_num)
    refine this.trans ?_
    simp [Finset.sum_range_succ, Nat.factorial]
    norm_num
  refine ⟨u 0, u 1, H 0, by rw [h0]; simp [resting], by rw [h0]; simp [resting], hz, saw_close S', ?_⟩
  have e0 := Real.exp_pos (1 / 10 ^ 5 * 1170)
  have key := C139_step (g := exTwo) (w := ⟨1, 0, 1⟩) (δ := 2 / 1000) (t := 1 / 10 ^ 5) (by norm_num) one_pos one_pos two_range (by rw [two_growth]; exact two_fine (by positivity) (by linarith))
    (by rw [exTwo_dims]; simp) (fun d hd => by obtain rfl : d = 0 := by simp [exTwo_dims] at hd; omega
                                               rw [exTwo_dx]; exact one_pos) two_cover (by simp) (by norm_num) (by norm_num) (H 0) hz (saw_close S')
  rw [two_growth] at key
  exact fun x hx j hj => (key x hx j hj).trans (by linarith)

end QK.Props
