import Verif.Props.Walls
import Verif.Props.Symmetry
import Verif.Proofs.RoundingWall
import Verif.Proofs.RoundingModel
/-
C110: conservation in floating-point arithmetic.
-/
namespace QK.Props
open QK Spec

section
variable {α : Type} [Arith α] {val : α → ℝ} {fin : α → Prop} {rd : ℝ → ℝ} {big u e : ℝ}

/-! ### C110: walls -/

/-- **C110** In floating-point arithmetic too, exactly nothing flows through a no-slip wall: where the mass flux as computed is a finite number it is zero, and if the
energy flux is finite too it is zero. Both walls, any state. -/
theorem C110_no_slip (H : Floats val fin rd big u e) {M : Box} {p : Nat} {ws ps : List Nat} {w w' : Cell → α}
    (F : Filled M [(0, (p : Int)), (0, 5)] ws isMomentum ps w w') {dim : Nat} (hdim : dim ∈ ws) (hd : dim < M.length) (h3 : dim < 3)
    (hw : 2 ≤ hi M dim - lo M dim) (gamma : α) {x z : Cell} (hx : InBox (M ++ [(0, (p : Int))]) x)
    (hz : x.getD dim 0 = lo M dim ∧ z = x ∨ x.getD dim 0 = hi M dim - 1 ∧ z = moveBy x dim 1) {j : Nat} (hj : j = 0 ∨ j = 4)
    (f0 : fin ((faceFlux (fluxOf (Euler.hll gamma dim)) 5 (fun x j => w' (x ++ [(j : Int)])) dim z).getD 0 (Arith.lit 0)))
    (fj : fin ((faceFlux (fluxOf (Euler.hll gamma dim)) 5 (fun x j => w' (x ++ [(j : Int)])) dim z).getD j (Arith.lit 0))) :
    val ((faceFlux (fluxOf (Euler.hll gamma dim)) 5 (fun x j => w' (x ++ [(j : Int)])) dim z).getD j (Arith.lit 0)) = 0 := by
  have σp : ∀ k, isMomentum k → (if k = 1 ∨ k = 2 ∨ k = 3 then (-1 : ℝ) else 1) = -1 := fun k hk => if_pos hk
  have σn : ∀ k, ¬ isMomentum k → (if k = 1 ∨ k = 2 ∨ k = 3 then (-1 : ℝ) else 1) = 1 := fun k hk => if_neg hk
  have R := filled_rel H F hdim hd hw _ σp σn (N := 5) rfl hx
  have M : MirroredRel val fin 5 (fun j => if (j : Int) = 1 ∨ (j : Int) = 2 ∨ (j : Int) = 3 then (-1 : ℝ) else 1) (fun x j => w' (x ++ [(j : Int)])) dim z := by
    rcases hz with ⟨h0, rfl⟩ | ⟨h0, rfl⟩
    · exact R.1 h0
    · exact R.2 h0
  exact fluid_face H h3 (fun j _ => by split <;> simp) (by simp) (by simp) (if_pos (by omega)) M gamma f0 hj fj

/-- **C110**, conducting wall in direction 0: no magnetic flux, exactly. -/
theorem C110_conducting (H : Floats val fin rd big u e) {M : Box} {p : Nat} {ws ps : List Nat} {w w' : Cell → α}
    (F : Filled M [(0, (p : Int)), (0, 6)] ws isWallField ps w w') (hdim : 0 ∈ ws) (hd : 0 < M.length)
    (hw : 2 ≤ hi M 0 - lo M 0) (c : α) {x z : Cell} (hx : InBox (M ++ [(0, (p : Int))]) x)
    (hz : x.getD 0 0 = lo M 0 ∧ z = x ∨ x.getD 0 0 = hi M 0 - 1 ∧ z = moveBy x 0 1) {j : Nat} (hj : 3 ≤ j)
    (fj : fin ((faceFlux (fluxOf (Maxwell.rusanov c 0)) 6 (fun x j => w' (x ++ [(j : Int)])) 0 z).getD j (Arith.lit 0))) :
    val ((faceFlux (fluxOf (Maxwell.rusanov c 0)) 6 (fun x j => w' (x ++ [(j : Int)])) 0 z).getD j (Arith.lit 0)) = 0 := by
  have σp : ∀ k, isWallField k → (if k = 0 ∨ k = 1 ∨ k = 2 ∨ k = 3 then (-1 : ℝ) else 1) = -1 := fun k hk => if_pos hk
  have σn : ∀ k, ¬ isWallField k → (if k = 0 ∨ k = 1 ∨ k = 2 ∨ k = 3 then (-1 : ℝ) else 1) = 1 := fun k hk => if_neg hk
  have R := filled_rel H F hdim hd hw _ σp σn (N := 6) rfl hx
  have M : MirroredRel val fin 6 (fun j => if (j : Int) = 0 ∨ (j : Int) = 1 ∨ (j : Int) = 2 ∨ (j : Int) = 3 then (-1 : ℝ) else 1) (fun x j => w' (x ++ [(j : Int)])) 0 z := by
    rcases hz with ⟨h0, rfl⟩ | ⟨h0, rfl⟩
    · exact R.1 h0
    · exact R.2 h0
  exact field_face H (fun j _ => by split <;> simp) (by simp) (by simp) (by simp) (by simp) M c hj fj

/-! ### C110: totals -/

/-- Many steps, each of which changes a number by at most `E`. -/
theorem drift {T : Nat → ℝ} {G : Nat → Prop} {E : ℝ} {k : Nat} (h : ∀ i < k, G (i + 1) → G i ∧ |T (i + 1) - T i| ≤ E) (hk : G k) :
    (∀ i ≤ k, G i) ∧ ∀ i ≤ k, |T i - T 0| ≤ i * E := by
  have g : ∀ i ≤ k, G (k - i) := by
    intro i
    induction i with
    | zero => intro _; exact hk
    | succ i ih =>
      intro hi'
      have := ih (by omega)
      rw [show k - i = k - (i + 1) + 1 by omega] at this
      exact (h _ (by omega) this).1
  have g' : ∀ i ≤ k, G i := fun i hi' => by have := g (k - i) (by omega); rwa [show k - (k - i) = i by omega] at this
  refine ⟨g', fun i => ?_⟩
  induction i with
  | zero => intro _; simp
  | succ i ih =>
    intro hi'
    have h1 := ih (by omega)
    have h2 := (h i (by omega) (g' _ hi')).2
    have h3 := abs_add_le (T (i + 1) - T i) (T i - T 0)
    rw [sub_add_sub_cancel] at h3
    push_cast
    linarith

variable {g : Rectilinear α} {p : Nat} {ws ps : List Nat}

theorem gas_comp {gamma t : α} {k j : Nat} (hj : j < 5) {start cur cur' rate next : Cell → α}
    (S : SoloStage g.rng.dims p 5 ws isMomentum ps (GasRate g.rng.dims p g.dxAt gamma) t k start cur cur' rate next) :
    CompStage g.rng.dims p (fun dim => fluxOf (Euler.hll gamma dim)) 5 g.dxAt (List.range g.rng.dims.length) t k j start cur cur' next :=
  ⟨fun x hx => S.fill.inside _ (inBox_component (n := 5) hj hx), fun x hx => by rw [S.next, S.rates x hx j hj]⟩

theorem light_comp {c t : α} {k j : Nat} (hj : j < 6) {start cur cur' rate next : Cell → α}
    (S : SoloStage g.rng.dims p 6 ws isWallField ps (LightRate g.rng.dims p g.dxAt c) t k start cur cur' rate next) :
    CompStage g.rng.dims p (fun dim => fluxOf (Maxwell.rusanov c dim)) 6 g.dxAt (List.range (min g.rng.dims.length 3)) t k j start cur cur' next :=
  ⟨fun x hx => S.fill.inside _ (inBox_component (n := 6) hj hx), fun x hx => by rw [S.next, S.rates x hx j hj]⟩

/-- **C110** A gas, any number of steps of which the last result is finite: the totals of mass and energy (of all components if there are no walls) stay the same up to
rounding. One step changes the total by at most twice the number of cells times the bound on the rounding error of one value. -/
theorem C110_gas (H : Floats val fin rd big u e) (hM : Pos g.rng.dims) (hp : 1 ≤ p) (C : Covered g.rng.dims ws ps) (h3 : ∀ d ∈ ws, d < 3) {gamma t : α} (ht : 4 * e ≤ |val t|)
    {j : Nat} (hj : j = 0 ∨ j = 4 ∨ ws = [] ∧ j < 5) {k : Nat} {s : Nat → Cell → α} (hs : ∀ i < k, GasStep g p ws ps gamma t (s i) (s (i + 1))) {Q W : ℝ}
    (hz : ∀ i < k, SoloAll g.rng.dims p 5 ws isMomentum ps (GasRate g.rng.dims p g.dxAt gamma) t (GasSized val g p gamma t Q W j) (s i) (s (i + 1)))
    (f0 : Finite fin g.rng.dims p (s k) 0) (fj : Finite fin g.rng.dims p (s k) j) :
    ∀ i ≤ k, |fieldTotal g.rng.dims p (fun x => val (s i x)) j - fieldTotal g.rng.dims p (fun x => val (s 0 x)) j| ≤
      i * (2 * boxVolume (g.rng.dims ++ [(0, (p : Int))]) * roundOff u e g.rng.dims.length Q W) := by
  have hj5 : j < 5 := by omega
  refine (drift (G := fun i => Finite fin g.rng.dims p (s i) 0 ∧ Finite fin g.rng.dims p (s i) j) ?_ ⟨f0, fj⟩).2
  rintro i hi' ⟨g0, gj⟩
  obtain ⟨q0, r0, q1, q1', r1, q2, q2', r2, S0, S1, S2⟩ := hs i hi'
  obtain ⟨z0, z1, z2⟩ := hz i hi' _ _ _ _ _ _ _ _ S0 S1 S2
  obtain ⟨a2, b2, c2⟩ := stage_fin H (gas_comp (j := 0) (by omega) S2) g0
  obtain ⟨-, b1, c1⟩ := stage_fin H (gas_comp (j := 0) (by omega) S1) (b2 (by omega))
  obtain ⟨-, -, c0⟩ := stage_fin H (gas_comp (j := 0) (by omega) S0) (b1 (by omega))
  have flow : ∀ {w w' : Cell → α}, Filled g.rng.dims [(0, (p : Int)), (0, ((5 : Nat) : Int))] ws isMomentum ps w w' →
      (∀ d ∈ List.range g.rng.dims.length, ∀ x, InBox (g.rng.dims ++ [(0, (p : Int))]) x →
        fin (faceRate (fun dim => fluxOf (Euler.hll gamma dim)) 5 g.dxAt w' 0 d x) ∧ fin (faceRate (fun dim => fluxOf (Euler.hll gamma dim)) 5 g.dxAt w' 0 d (moveBy x d 1))) →
      ∀ d ∈ List.range g.rng.dims.length, NoFlow val fin g.rng.dims p (fun dim => fluxOf (Euler.hll gamma dim)) 5 g.dxAt w' j d := by
    intro w w' F hf d hd
    have hd' := List.mem_range.1 hd
    rcases C.all d hd' with hw | hw
    · rcases hj with hj | hj | ⟨rfl, -⟩
      · exact noFlow_fluid H F hw hd' (h3 d hw) (C.wide d hd') gamma _ (.inl hj) (hf d hd)
      · exact noFlow_fluid H F hw hd' (h3 d hw) (C.wide d hd') gamma _ (.inr hj) (hf d hd)
      · simp at hw
    · exact noFlow_periodic F hw hd' (C.wide d hd') _ _ _
  have st := step_total H hM hp (fun d hd => List.mem_range.1 hd) (gas_comp hj5 S0) (gas_comp hj5 S1) (gas_comp hj5 S2) (fun _ => flow S0.fill c0) (fun _ => flow S1.fill c1)
    (flow S2.fill c2) gj z0 z1 z2 ht
  rw [List.length_range] at st
  refine ⟨⟨fun x hx => ?_, st.1⟩, st.2⟩
  rw [← (gas_comp (j := 0) (by omega) S0).inside x hx]; exact a2 x hx

/-- **C110** Light with periodic boundary conditions, any component. -/
theorem C110_light (H : Floats val fin rd big u e) (hM : Pos g.rng.dims) (hp : 1 ≤ p) (C : Covered g.rng.dims [] ps) {c t : α} (ht : 4 * e ≤ |val t|)
    {j : Nat} (hj : j < 6) {k : Nat} {s : Nat → Cell → α} (hs : ∀ i < k, LightStep g p ps c t (s i) (s (i + 1))) {Q W : ℝ}
    (hz : ∀ i < k, SoloAll g.rng.dims p 6 [] isWallField ps (LightRate g.rng.dims p g.dxAt c) t (LightSized val g p c t Q W j) (s i) (s (i + 1)))
    (fj : Finite fin g.rng.dims p (s k) j) :
    ∀ i ≤ k, |fieldTotal g.rng.dims p (fun x => val (s i x)) j - fieldTotal g.rng.dims p (fun x => val (s 0 x)) j| ≤
      i * (2 * boxVolume (g.rng.dims ++ [(0, (p : Int))]) * roundOff u e (min g.rng.dims.length 3) Q W) := by
  refine (drift (G := fun i => Finite fin g.rng.dims p (s i) j) ?_ fj).2
  rintro i hi' gj
  obtain ⟨q0, r0, q1, q1', r1, q2, q2', r2, S0, S1, S2⟩ := hs i hi'
  obtain ⟨z0, z1, z2⟩ := hz i hi' _ _ _ _ _ _ _ _ S0 S1 S2
  have lt : ∀ d ∈ List.range (min g.rng.dims.length 3), d < g.rng.dims.length := fun d hd => by rw [List.mem_range] at hd; omega
  have flow : ∀ {w w' : Cell → α}, Filled g.rng.dims [(0, (p : Int)), (0, ((6 : Nat) : Int))] [] isWallField ps w w' →
      ∀ d ∈ List.range (min g.rng.dims.length 3), NoFlow val fin g.rng.dims p (fun dim => fluxOf (Maxwell.rusanov c dim)) 6 g.dxAt w' j d := by
    intro w w' F d hd
    rcases C.all d (lt d hd) with hw | hw
    · simp at hw
    · exact noFlow_periodic F hw (lt d hd) (C.wide d (lt d hd)) _ _ _
  have st := step_total H hM hp lt (light_comp hj S0) (light_comp hj S1) (light_comp hj S2) (fun _ => flow S0.fill) (fun _ => flow S1.fill)
    (flow S2.fill) gj z0 z1 z2 ht
  rwa [List.length_range] at st


theorem fluid_density_rate {M : Box} {p : Nat} {dx : Nat → α} {gamma com : α} {u w r : Cell → α} (h : FluidRate M p dx gamma com u w r) {x : Cell} (hx : InBox (M ++ [(0, (p : Int))]) x) :
    r (x ++ [((0 : Nat) : Int)]) =
      fvUpdate (fun dim => fluxOf (Euler.hll gamma dim)) 5 (fun x j => u (x ++ [(j : Int)])) dx (List.range M.length) x 0 (Arith.lit 0) := by
  obtain ⟨r0, h0, h1⟩ := h
  rw [← h0 x hx 0 (by decide)]
  refine h1.rest _ ?_
  intro y k _ hk _
  exact snoc_ne (by push_cast; omega)

theorem magnetic_rate {M : Box} {p : Nat} {dx : Nat → α} {c : α} {fl : List (α × (Cell → α))} {w r : Cell → α} (h : FieldRate M p dx c fl w r) {x : Cell}
    (hx : InBox (M ++ [(0, (p : Int))]) x) {j : Nat} (hj : 3 ≤ j) (hj' : j < 6) :
    r (x ++ [(j : Int)]) =
      fvUpdate (fun dim => fluxOf (Maxwell.rusanov c dim)) 6 (fun x j => w (x ++ [(j : Int)])) dx (List.range (min M.length 3)) x j (Arith.lit 0) := by
  obtain ⟨r0, h0, h1⟩ := h
  rw [← h0 x hx j hj']
  refine h1.rest _ ?_
  intro y k _ hk _
  exact snoc_ne (by omega)

theorem plasma_comp_e {P : Plasma α} {t : α} {k : Nat} {start cur cur' rate next : State α} (S : PlasmaStage P g p ws ps t k start cur cur' rate next) :
    CompStage g.rng.dims p (fun dim => fluxOf (Euler.hll P.gamma dim)) 5 g.dxAt (List.range g.rng.dims.length) t k 0 start.e cur.e cur'.e next.e :=
  ⟨fun x hx => S.fill_e.inside _ (inBox_component (n := 5) (by decide) hx), fun x hx => by rw [S.next_e, fluid_density_rate S.rate_e hx]⟩

theorem plasma_comp_i {P : Plasma α} {t : α} {k : Nat} {start cur cur' rate next : State α} (S : PlasmaStage P g p ws ps t k start cur cur' rate next) :
    CompStage g.rng.dims p (fun dim => fluxOf (Euler.hll P.gamma dim)) 5 g.dxAt (List.range g.rng.dims.length) t k 0 start.i cur.i cur'.i next.i :=
  ⟨fun x hx => S.fill_i.inside _ (inBox_component (n := 5) (by decide) hx), fun x hx => by rw [S.next_i, fluid_density_rate S.rate_i hx]⟩

theorem plasma_comp_f {P : Plasma α} {t : α} {k j : Nat} (hj : 3 ≤ j) (hj' : j < 6) {start cur cur' rate next : State α}
    (S : PlasmaStage P g p ws ps t k start cur cur' rate next) :
    CompStage g.rng.dims p (fun dim => fluxOf (Maxwell.rusanov P.c dim)) 6 g.dxAt (List.range (min g.rng.dims.length 3)) t k j start.f cur.f cur'.f next.f :=
  ⟨fun x hx => S.fill_f.inside _ (inBox_component (n := 6) hj' hx), fun x hx => by rw [S.next_f, magnetic_rate S.rate_f hx hj hj']⟩

theorem density_flow (H : Floats val fin rd big u e) (C : Covered g.rng.dims ws ps) (h3 : ∀ d ∈ ws, d < 3) {gamma : α} {w w' : Cell → α}
    (F : Filled g.rng.dims [(0, (p : Int)), (0, ((5 : Nat) : Int))] ws isMomentum ps w w') :
    ∀ d ∈ List.range g.rng.dims.length, NoFlow val fin g.rng.dims p (fun dim => fluxOf (Euler.hll gamma dim)) 5 g.dxAt w' 0 d := by
  intro d hd
  have hd' := List.mem_range.1 hd
  rcases C.all d hd' with hw | hw
  · exact fun hf => noFlow_fluid H F hw hd' (h3 d hw) (C.wide d hd') gamma _ (.inl rfl) hf hf
  · exact noFlow_periodic F hw hd' (C.wide d hd') _ _ _

/-- **C110** A plasma, any number of steps of which the last result is finite: the total mass of each fluid stays the same up to rounding, and, if there are walls in
direction 0 only, so do the totals of the components of the magnetic field. (The other totals change by the sources.) -/
theorem C110_plasma (H : Floats val fin rd big u e) (hM : Pos g.rng.dims) (hp : 1 ≤ p) (C : Covered g.rng.dims ws ps) (h3 : ∀ d ∈ ws, d < 3) {P : Plasma α} {t : α}
    (ht : 4 * e ≤ |val t|) {k : Nat} {s : Nat → State α} (hs : ∀ i < k, PlasmaStep P g p ws ps t (s i) (s (i + 1))) {Q W : ℝ}
    (hz : ∀ i < k, PlasmaAll P g p ws ps t (PlasmaSized val P g p t Q W) (s i) (s (i + 1))) :
    (Finite fin g.rng.dims p (s k).e 0 → ∀ i ≤ k, |fieldTotal g.rng.dims p (fun x => val ((s i).e x)) 0 - fieldTotal g.rng.dims p (fun x => val ((s 0).e x)) 0| ≤
      i * (2 * boxVolume (g.rng.dims ++ [(0, (p : Int))]) * roundOff u e g.rng.dims.length Q W)) ∧
    (Finite fin g.rng.dims p (s k).i 0 → ∀ i ≤ k, |fieldTotal g.rng.dims p (fun x => val ((s i).i x)) 0 - fieldTotal g.rng.dims p (fun x => val ((s 0).i x)) 0| ≤
      i * (2 * boxVolume (g.rng.dims ++ [(0, (p : Int))]) * roundOff u e g.rng.dims.length Q W)) ∧
    ((∀ d ∈ ws, d = 0) → ∀ j, 3 ≤ j → j < 6 → Finite fin g.rng.dims p (s k).f j → ∀ i ≤ k,
      |fieldTotal g.rng.dims p (fun x => val ((s i).f x)) j - fieldTotal g.rng.dims p (fun x => val ((s 0).f x)) j| ≤
      i * (2 * boxVolume (g.rng.dims ++ [(0, (p : Int))]) * roundOff u e (min g.rng.dims.length 3) Q W)) := by
  refine ⟨fun f0 => ?_, fun f0 => ?_, fun h0 j hj hj' fj => ?_⟩
  · refine (drift (T := fun i => fieldTotal g.rng.dims p (fun x => val ((s i).e x)) 0) (G := fun i => Finite fin g.rng.dims p (s i).e 0) ?_ f0).2
    rintro i hi' gj
    obtain ⟨q0, r0, q1, q1', r1, q2, q2', r2, S0, S1, S2⟩ := hs i hi'
    obtain ⟨z0, z1, z2⟩ := hz i hi' _ _ _ _ _ _ _ _ S0 S1 S2
    have st := step_total H hM hp (fun d hd => List.mem_range.1 hd) (plasma_comp_e S0) (plasma_comp_e S1) (plasma_comp_e S2) (fun _ => density_flow H C h3 S0.fill_e)
      (fun _ => density_flow H C h3 S1.fill_e) (density_flow H C h3 S2.fill_e) gj z0.1 z1.1 z2.1 ht
    rwa [List.length_range] at st
  · refine (drift (T := fun i => fieldTotal g.rng.dims p (fun x => val ((s i).i x)) 0) (G := fun i => Finite fin g.rng.dims p (s i).i 0) ?_ f0).2
    rintro i hi' gj
    obtain ⟨q0, r0, q1, q1', r1, q2, q2', r2, S0, S1, S2⟩ := hs i hi'
    obtain ⟨z0, z1, z2⟩ := hz i hi' _ _ _ _ _ _ _ _ S0 S1 S2
    have st := step_total H hM hp (fun d hd => List.mem_range.1 hd) (plasma_comp_i S0) (plasma_comp_i S1) (plasma_comp_i S2) (fun _ => density_flow H C h3 S0.fill_i)
      (fun _ => density_flow H C h3 S1.fill_i) (density_flow H C h3 S2.fill_i) gj z0.2.1 z1.2.1 z2.2.1 ht
    rwa [List.length_range] at st
  · refine (drift (T := fun i => fieldTotal g.rng.dims p (fun x => val ((s i).f x)) j) (G := fun i => Finite fin g.rng.dims p (s i).f j) ?_ fj).2
    rintro i hi' gj
    obtain ⟨q0, r0, q1, q1', r1, q2, q2', r2, S0, S1, S2⟩ := hs i hi'
    obtain ⟨z0, z1, z2⟩ := hz i hi' _ _ _ _ _ _ _ _ S0 S1 S2
    have lt : ∀ d ∈ List.range (min g.rng.dims.length 3), d < g.rng.dims.length := fun d hd => by rw [List.mem_range] at hd; omega
    have flow : ∀ {w w' : Cell → α}, Filled g.rng.dims [(0, (p : Int)), (0, ((6 : Nat) : Int))] ws isWallField ps w w' →
        ∀ d ∈ List.range (min g.rng.dims.length 3), NoFlow val fin g.rng.dims p (fun dim => fluxOf (Maxwell.rusanov P.c dim)) 6 g.dxAt w' j d := by
      intro w w' F d hd
      rcases C.all d (lt d hd) with hw | hw
      · have e0 := h0 d hw
        subst e0
        exact noFlow_field H F hw (lt 0 hd) (C.wide 0 (lt 0 hd)) _ _ hj
      · exact noFlow_periodic F hw (lt d hd) (C.wide d (lt d hd)) _ _ _
    have st := step_total H hM hp lt (plasma_comp_f hj hj' S0) (plasma_comp_f hj hj' S1) (plasma_comp_f hj hj' S2) (fun _ => flow S0.fill_f) (fun _ => flow S1.fill_f)
      (flow S2.fill_f) gj (z0.2.2 j hj hj') (z1.2.2 j hj hj') (z2.2.2 j hj hj') ht
    rwa [List.length_range] at st

/-- **C110** The size of the bound in double precision (`u` = 2⁻⁵³) in two dimensions: less than `1.1e-15` times the size of the values and of what flows in a step,
plus what may underflow. -/
theorem C110_double {e Q W : ℝ} (he : 0 ≤ e) (hQ : 0 ≤ Q) (hW : 0 ≤ W) : roundOff (2⁻¹ ^ 53) e 2 Q W ≤ 11 / 10 ^ 16 * (Q + W) + 4 * e := by
  unfold roundOff
  have h : ((1 : ℝ) + 2⁻¹ ^ 53) ^ (2 * 2 + 5) ≤ 1 + 11 / 10 ^ 16 := by norm_num
  have h2 : ((1 : ℝ) + 2⁻¹ ^ 53) ^ (2 * 2 + 5) ≤ 4 / 3 := by norm_num
  generalize ((1 : ℝ) + 2⁻¹ ^ 53) ^ (2 * 2 + 5) = a at *
  nlinarith


theorem fieldBlocks_sumOf {M : Box} {id : VarId} {w : Cell → α} {k : Nat} (hk : k < id.comps.length) :
    ∃ vs, scalarBlock id.name id.comps[k] vs ∈ fieldBlocks M id w ∧ (vs.map val).sum = fieldTotal M 1 (fun x => val (w x)) k := by
  refine ⟨_, List.mem_map.2 ⟨(id.comps[k], k), ?_, rfl⟩, ?_⟩
  · rw [List.mem_zipIdx_iff_getElem?]
    simp [hk]
  · rw [List.map_map]
    exact sum_vtk M (fun x => val (w x)) k

theorem blockSumOf {M : Box} {P : Plasma α} {s : State α} {file : List (Tok α)} (h : FileShows M P s file) :
    (∀ k (hk : k < P.e.q.comps.length), BlockSumOf val file P.e.q.name P.e.q.comps[k] (fieldTotal M 1 (fun x => val (s.e x)) k)) ∧
    (∀ k (hk : k < P.i.q.comps.length), BlockSumOf val file P.i.q.name P.i.q.comps[k] (fieldTotal M 1 (fun x => val (s.i x)) k)) ∧
    (∀ k (hk : k < P.f.q.comps.length), BlockSumOf val file P.f.q.name P.f.q.comps[k] (fieldTotal M 1 (fun x => val (s.f x)) k)) := by
  obtain ⟨o, sp, rfl⟩ := h
  have inf : ∀ b, b ∈ fieldBlocks M P.e.q s.e ++ fieldBlocks M P.i.q s.i ++ fieldBlocks M P.f.q s.f →
      b <:+: vtkFile (points M 0, points M 1, points M 2) o sp (boxVolume M) (fieldBlocks M P.e.q s.e ++ fieldBlocks M P.i.q s.i ++ fieldBlocks M P.f.q s.f) := by
    intro b hb
    exact (infix_flatten hb).trans (List.suffix_append _ _).isInfix
  refine ⟨?_, ?_, ?_⟩ <;> intro k hk
  · obtain ⟨vs, h1, h2⟩ := fieldBlocks_sumOf (val := val) (M := M) (w := s.e) hk
    exact ⟨vs, inf _ (by simp [h1]), h2⟩
  · obtain ⟨vs, h1, h2⟩ := fieldBlocks_sumOf (val := val) (M := M) (w := s.i) hk
    exact ⟨vs, inf _ (by simp [h1]), h2⟩
  · obtain ⟨vs, h1, h2⟩ := fieldBlocks_sumOf (val := val) (M := M) (w := s.f) hk
    exact ⟨vs, inf _ (by simp [h1]), h2⟩

/-- **C110** The program of main.cpp, with any numbers of cells, frames and steps, in double precision: if the densities and the magnetic field at the end are finite, the sums of
the printed densities and of the printed components of the magnetic field change from file to file by at most `2.2e-15 (Q + W)` per cell and time step (plus what may underflow), where `Q`
bounds the values during the run and `W` what flows through the faces of a cell in a time step. -/
theorem C110_gem (H : Floats val fin rd big (2⁻¹ ^ 53) e) {nx : Int} (hnx : 2 ≤ nx) (numFrames numSteps : Nat)
    (ht : 4 * e ≤ |val (GemChallenge.timeDt (GemConstants.make : GemConstants α) numFrames numSteps)|) :
    ∃ (g : Rectilinear α) (P : Plasma α) (s : Nat → State α) (file : Nat → List (Tok α)), GemPlasma P ∧ g.rng.dims = [(0, nx), (0, 2 * nx)] ∧
      (∀ j < numFrames * numSteps, PlasmaStep P g 1 [0] [1] (GemChallenge.timeDt GemConstants.make numFrames numSteps) (s j) (s (j + 1))) ∧
      (∃ m', GemChallenge.run true (fun _ => true) nx numFrames numSteps = .ok (.ok () ⟨m', (List.range (numFrames + 1)).map fun j => (j, file j)⟩)) ∧
      ∀ {Q W : ℝ}, 0 ≤ Q → 0 ≤ W →
        (∀ j < numFrames * numSteps, PlasmaAll P g 1 [0] [1] (GemChallenge.timeDt GemConstants.make numFrames numSteps)
          (PlasmaSized val P g 1 (GemChallenge.timeDt GemConstants.make numFrames numSteps) Q W) (s j) (s (j + 1))) →
        Finite fin g.rng.dims 1 (s (numFrames * numSteps)).e 0 → Finite fin g.rng.dims 1 (s (numFrames * numSteps)).i 0 →
        (∀ j, 3 ≤ j → j < 6 → Finite fin g.rng.dims 1 (s (numFrames * numSteps)).f j) →
        ∀ nc ∈ [("electrons", "rho"), ("ions", "rho"), ("field", "Bx"), ("field", "By"), ("field", "Bz")], ∃ T : Nat → ℝ, ∀ j ≤ numFrames,
          BlockSumOf val (file j) nc.1 nc.2 (T j) ∧ |T j - T 0| ≤ (j * numSteps : Nat) * (nx * (2 * nx)) * (22 / 10 ^ 16 * (Q + W) + 8 * e) := by
  obtain ⟨g, P, m0, hP, -, hd, -, -, -, s, file, -, hs, hf, hrun, -, -⟩ := C81_gem (α := α) hnx (fun _ => true) numFrames numSteps
  refine ⟨g, P, s, file, hP, hd, hs, hrun fun _ _ => rfl, ?_⟩
  intro Q W hQ hW hz fe fi ff nc hnc
  have hpos : Pos g.rng.dims := by
    rw [hd]; intro d hd'; simp at hd'; rcases hd' with rfl | rfl <;> simp <;> omega
  have C : Covered g.rng.dims [0] [1] := by rw [hd]; exact covered_two hnx (by omega)
  obtain ⟨ke, ki, kf⟩ := C110_plasma H hpos (le_refl 1) C (by simp) ht hs hz
  have vol : (boxVolume (g.rng.dims ++ [((0 : Int), ((1 : Nat) : Int))]) : ℝ) = nx * (2 * nx) := by
    rw [hd]; simp [boxVolume, lengths]
  have len : g.rng.dims.length = 2 := by rw [hd]; rfl
  have bound : ∀ (i : Nat) (x : ℝ), x ≤ i * (2 * boxVolume (g.rng.dims ++ [((0 : Int), ((1 : Nat) : Int))]) * roundOff (2⁻¹ ^ 53) e 2 Q W) →
      x ≤ i * (nx * (2 * nx)) * (22 / 10 ^ 16 * (Q + W) + 8 * e) := by
    intro i x hx
    rw [vol] at hx
    have hn : (0 : ℝ) ≤ nx * (2 * nx) := by
      have : (2 : ℝ) ≤ nx := by exact_mod_cast hnx
      positivity
    have := mul_le_mul_of_nonneg_left (C110_double H.tiny hQ hW) (mul_nonneg (Nat.cast_nonneg i : (0 : ℝ) ≤ i) hn)
    nlinarith
  rw [len] at ke ki kf
  have le : ∀ j ≤ numFrames, j * numSteps ≤ numFrames * numSteps := fun j hj => Nat.mul_le_mul_right _ hj
  have B : ∀ j ≤ numFrames, _ := fun j hj => blockSumOf (val := val) (hf j hj)
  rw [hP.electrons, hP.ions, hP.field] at B
  simp only [List.mem_cons, List.not_mem_nil, or_false] at hnc
  rcases hnc with rfl | rfl | rfl | rfl | rfl
  · refine ⟨fun j => fieldTotal g.rng.dims 1 (fun x => val ((s (j * numSteps)).e x)) 0, fun j hj => ⟨(B j hj).1 0 (by simp), bound _ _ ?_⟩⟩
    simpa using ke fe _ (le j hj)
  · refine ⟨fun j => fieldTotal g.rng.dims 1 (fun x => val ((s (j * numSteps)).i x)) 0, fun j hj => ⟨(B j hj).2.1 0 (by simp), bound _ _ ?_⟩⟩
    simpa using ki fi _ (le j hj)
  · refine ⟨fun j => fieldTotal g.rng.dims 1 (fun x => val ((s (j * numSteps)).f x)) 3, fun j hj => ⟨(B j hj).2.2 3 (by simp), bound _ _ ?_⟩⟩
    simpa using kf (by simp) 3 (by decide) (by decide) (ff 3 (by decide) (by decide)) _ (le j hj)
  · refine ⟨fun j => fieldTotal g.rng.dims 1 (fun x => val ((s (j * numSteps)).f x)) 4, fun j hj => ⟨(B j hj).2.2 4 (by simp), bound _ _ ?_⟩⟩
    simpa using kf (by simp) 4 (by decide) (by decide) (ff 4 (by decide) (by decide)) _ (le j hj)
  · refine ⟨fun j => fieldTotal g.rng.dims 1 (fun x => val ((s (j * numSteps)).f x)) 5, fun j hj => ⟨(B j hj).2.2 5 (by simp), bound _ _ ?_⟩⟩
    simpa using kf (by simp) 5 (by decide) (by decide) (ff 5 (by decide) (by decide)) _ (le j hj)

theorem blockSumOne {M : Box} {id : VarId} {w : Cell → α} {file : List (Tok α)} (h : FileShowsOne M id w file) {k : Nat} (hk : k < id.comps.length) :
    BlockSumOf val file id.name id.comps[k] (fieldTotal M 1 (fun x => val (w x)) k) := by
  obtain ⟨o, sp, rfl⟩ := h
  obtain ⟨vs, h1, h2⟩ := fieldBlocks_sumOf (val := val) (M := M) (w := w) hk
  exact ⟨vs, (infix_flatten h1).trans (List.suffix_append _ _).isInfix, h2⟩

/-- From the bound of the theorems to decimal numbers. -/
theorem bound_decimal {D : Nat} (hD : D ≤ 3) {e Q W N x : ℝ} (he : 0 ≤ e) (hQ : 0 ≤ Q) (hW : 0 ≤ W) (hN : 0 ≤ N) (i : Nat) (h : x ≤ i * (2 * N * roundOff (2⁻¹ ^ 53) e D Q W)) :
    x ≤ i * N * (26 / 10 ^ 16 * (Q + W) + 8 * e) := by
  have key : roundOff (2⁻¹ ^ 53) e D Q W ≤ 13 / 10 ^ 16 * (Q + W) + 4 * e := by
    unfold roundOff
    have mono : ((1 : ℝ) + 2⁻¹ ^ 53) ^ (2 * D + 5) ≤ (1 + 2⁻¹ ^ 53) ^ 11 := pow_le_pow_right₀ (by norm_num) (by omega)
    have h1 : ((1 : ℝ) + 2⁻¹ ^ 53) ^ 11 ≤ 1 + 13 / 10 ^ 16 := by norm_num
    generalize ((1 : ℝ) + 2⁻¹ ^ 53) ^ (2 * D + 5) = a at *
    have h2 : a ≤ 1 + 13 / 10 ^ 16 := mono.trans h1
    nlinarith
  have := mul_le_mul_of_nonneg_left key (mul_nonneg (Nat.cast_nonneg i : (0 : ℝ) ≤ i) hN)
  nlinarith

/-- **C110** Likewise the shock tube: the sums of the printed densities and energies. -/
theorem C110_sod (H : Floats val fin rd big (2⁻¹ ^ 53) e) {nx ny : Int} (hnx : 2 ≤ nx) (hny : 2 ≤ ny) (numFrames numSteps : Nat)
    (ht : 4 * e ≤ |val (Arith.lit (1 / 2) / Arith.ofInt (numFrames * numSteps) : α)|) :
    ∃ (g : Rectilinear α) (s : Nat → Cell → α) (file : Nat → List (Tok α)), g.rng.dims = [(0, nx), (0, ny)] ∧
      (∀ j < numFrames * numSteps, GasStep g 1 [0] [1] (Arith.lit (7 / 5)) (Arith.lit (1 / 2) / Arith.ofInt (numFrames * numSteps)) (s j) (s (j + 1))) ∧
      (∃ m', SodShockTube.run true (fun _ => true) nx ny numFrames numSteps = .ok (.ok () ⟨m', (List.range (numFrames + 1)).map fun j => (j, file j)⟩)) ∧
      ∀ k, k = 0 ∨ k = 4 → ∀ {Q W : ℝ}, 0 ≤ Q → 0 ≤ W →
        (∀ j < numFrames * numSteps, SoloAll g.rng.dims 1 5 [0] isMomentum [1] (GasRate g.rng.dims 1 g.dxAt (Arith.lit (7 / 5))) (Arith.lit (1 / 2) / Arith.ofInt (numFrames * numSteps))
          (GasSized val g 1 (Arith.lit (7 / 5)) (Arith.lit (1 / 2) / Arith.ofInt (numFrames * numSteps)) Q W k) (s j) (s (j + 1))) →
        Finite fin g.rng.dims 1 (s (numFrames * numSteps)) 0 → Finite fin g.rng.dims 1 (s (numFrames * numSteps)) k →
        ∃ T : Nat → ℝ, ∀ j ≤ numFrames, BlockSumOf val (file j) "fluid" (["rho", "px", "py", "pz", "e"].getD k "") (T j) ∧
          |T j - T 0| ≤ (j * numSteps : Nat) * (nx * ny) * (26 / 10 ^ 16 * (Q + W) + 8 * e) := by
  obtain ⟨g, -, hd, ⟨s, file, -, hs, hf, r, hr, hrun, -⟩, -⟩ := C85_sod (α := α) hnx hny (fun _ => true) numFrames numSteps
  obtain ⟨m', rfl⟩ := hrun fun _ _ => rfl
  refine ⟨g, s, file, hd, hs, ⟨m', hr⟩, ?_⟩
  intro k hk Q W hQ hW hz f0 fk
  have hpos : Pos g.rng.dims := by
    rw [hd]; intro d hd'; simp at hd'; rcases hd' with rfl | rfl <;> simp <;> omega
  have C : Covered g.rng.dims [0] [1] := by rw [hd]; exact covered_two hnx hny
  have K := C110_gas H hpos (le_refl 1) C (by simp) ht (by omega) hs hz f0 fk
  have vol : (boxVolume (g.rng.dims ++ [((0 : Int), ((1 : Nat) : Int))]) : ℝ) = nx * ny := by
    rw [hd]; simp [boxVolume, lengths]
  have len : g.rng.dims.length = 2 := by rw [hd]; rfl
  have hn : (0 : ℝ) ≤ nx * ny := by
    have h1 : (2 : ℝ) ≤ nx := by exact_mod_cast hnx
    have h2 : (2 : ℝ) ≤ ny := by exact_mod_cast hny
    positivity
  rw [vol, len] at K
  refine ⟨fun j => fieldTotal g.rng.dims 1 (fun x => val (s (j * numSteps) x)) k, fun j hj => ⟨?_, bound_decimal (D := 2) (by omega) H.tiny hQ hW hn _ ?_⟩⟩
  · rcases hk with rfl | rfl
    · exact blockSumOne (hf j hj) (k := 0) (by simp)
    · exact blockSumOne (hf j hj) (k := 4) (by simp)
  · simpa using K _ (Nat.mul_le_mul_right numSteps hj)

/-- **C110** Likewise `wave_1D`: the sums of the printed components of the field. -/
theorem C110_wave (H : Floats val fin rd big (2⁻¹ ^ 53) e) {nx ny nz : Int} (hnx : 2 ≤ nx) (hny : 2 ≤ ny) (hnz : 2 ≤ nz) (numFrames numSteps : Nat)
    (ht : 4 * e ≤ |val (Arith.lit 1 / Arith.ofInt (numFrames * numSteps) : α)|) :
    ∃ (g : Rectilinear α) (s : Nat → Cell → α) (file : Nat → List (Tok α)), g.rng.dims = [(0, nx), (0, ny), (0, nz)] ∧
      (∀ j < numFrames * numSteps, LightStep g 1 [0, 1, 2] (Arith.ofInt 1) (Arith.lit 1 / Arith.ofInt (numFrames * numSteps)) (s j) (s (j + 1))) ∧
      (∃ m', Wave1D.run true (fun _ => true) nx ny nz numFrames numSteps = .ok (.ok () ⟨m', (List.range (numFrames + 1)).map fun j => (j, file j)⟩)) ∧
      ∀ k < 6, ∀ {Q W : ℝ}, 0 ≤ Q → 0 ≤ W →
        (∀ j < numFrames * numSteps, SoloAll g.rng.dims 1 6 [] isWallField [0, 1, 2] (LightRate g.rng.dims 1 g.dxAt (Arith.ofInt 1)) (Arith.lit 1 / Arith.ofInt (numFrames * numSteps))
          (LightSized val g 1 (Arith.ofInt 1) (Arith.lit 1 / Arith.ofInt (numFrames * numSteps)) Q W k) (s j) (s (j + 1))) →
        Finite fin g.rng.dims 1 (s (numFrames * numSteps)) k →
        ∃ T : Nat → ℝ, ∀ j ≤ numFrames, BlockSumOf val (file j) "field" (["Ex", "Ey", "Ez", "Bx", "By", "Bz"].getD k "") (T j) ∧
          |T j - T 0| ≤ (j * numSteps : Nat) * (nx * ny * nz) * (26 / 10 ^ 16 * (Q + W) + 8 * e) := by
  obtain ⟨g, -, hd, ⟨s, file, -, hs, hf, r, hr, hrun, -⟩, -⟩ := C86_wave (α := α) hnx hny hnz (fun _ => true) numFrames numSteps
  obtain ⟨m', rfl⟩ := hrun fun _ _ => rfl
  refine ⟨g, s, file, hd, hs, ⟨m', hr⟩, ?_⟩
  intro k hk Q W hQ hW hz fk
  have hpos : Pos g.rng.dims := by
    rw [hd]; intro d hd'; simp at hd'; rcases hd' with rfl | rfl | rfl <;> simp <;> omega
  have C : Covered g.rng.dims [] [0, 1, 2] := by rw [hd]; exact covered_three hnx hny hnz
  have K := C110_light H hpos (le_refl 1) C ht hk hs hz fk
  have vol : (boxVolume (g.rng.dims ++ [((0 : Int), ((1 : Nat) : Int))]) : ℝ) = nx * ny * nz := by
    rw [hd]; simp [boxVolume, lengths]; ring
  have len : min g.rng.dims.length 3 = 3 := by rw [hd]; rfl
  have hn : (0 : ℝ) ≤ nx * ny * nz := by
    have h1 : (2 : ℝ) ≤ nx := by exact_mod_cast hnx
    have h2 : (2 : ℝ) ≤ ny := by exact_mod_cast hny
    have h3 : (2 : ℝ) ≤ nz := by exact_mod_cast hnz
    positivity
  rw [vol, len] at K
  refine ⟨fun j => fieldTotal g.rng.dims 1 (fun x => val (s (j * numSteps) x)) k, fun j hj => ⟨?_, bound_decimal (D := 3) (by omega) H.tiny hQ hW hn _ ?_⟩⟩
  · have := blockSumOne (val := val) (hf j hj) (k := k) (by simpa using hk)
    match k, hk, this with
    | 0, _, h | 1, _, h | 2, _, h | 3, _, h | 4, _, h | 5, _, h => exact h
  · simpa using K _ (Nat.mul_le_mul_right numSteps hj)


/-! ### C110: the sizes exist -/

theorem max_exists {ι : Type} (l : List ι) (f : ι → ℝ) : ∃ Q, 0 ≤ Q ∧ ∀ x ∈ l, f x ≤ Q := by
  induction l with
  | nil => exact ⟨0, le_rfl, by simp⟩
  | cons a l ih =>
    obtain ⟨Q, h0, h⟩ := ih
    refine ⟨max Q (f a), h0.trans (le_max_left _ _), fun x hx => ?_⟩
    rcases List.mem_cons.1 hx with rfl | hx
    · exact le_max_right _ _
    · exact (h x hx).trans (le_max_left _ _)

theorem sized_exists (φ : Nat → List α → List α → List α) (n : Nat) (dx : Nat → α) (dims : List Nat) (M : Box) (p : Nat) (t : α) (u : Cell → α) (j : Nat) :
    ∃ Q, 0 ≤ Q ∧ ∀ Q' ≥ Q, Sized val φ n dx dims M p t Q' Q' u j := by
  obtain ⟨Q, h0, hQ⟩ := max_exists (cells (M ++ [(0, (p : Int))])) fun x => |val (u (x ++ [(j : Int)]))|
  obtain ⟨W, h1, hW⟩ := max_exists (cells (M ++ [(0, (p : Int))])) fun x => |val t| * exchange val φ n dx dims u x j
  exact ⟨Q + W, by positivity, fun Q' h x hx => ⟨by linarith [hQ x (mem_cells.2 hx)], by linarith [hW x (mem_cells.2 hx)]⟩⟩

theorem sized_congr {φ : Nat → List α → List α → List α} {n : Nat} {dx : Nat → α} {dims : List Nat} {M : Box} {p : Nat} {t : α} {Q W : ℝ} {u v : Cell → α} {j : Nat}
    (hd : ∀ d ∈ dims, d < M.length) (hj : j < n) (a : AgreeAround M (fun x y => InBox (M ++ [(0, (p : Int))]) x ∧ x = y) n u v)
    (b : AgreeBy (fun x y => InBox (M ++ [(0, (p : Int))]) x ∧ x = y) n u v) (h : Sized val φ n dx dims M p t Q W u j) : Sized val φ n dx dims M p t Q W v j := by
  intro x hx
  have e : exchange val φ n dx dims v x j = exchange val φ n dx dims u x j := by
    unfold exchange
    congr 1
    refine List.map_congr_left fun d hd' => ?_
    have e1 : faceFlux (φ d) n (fun x j => v (x ++ [(j : Int)])) d x = faceFlux (φ d) n (fun x j => u (x ++ [(j : Int)])) d x :=
      (faceFlux_congr2 _ fun s h1 h2 k hk => a ⟨hx, rfl⟩ (hd d hd') h1 (by omega) hk).symm
    have e2 : faceFlux (φ d) n (fun x j => v (x ++ [(j : Int)])) d (moveBy x d 1) = faceFlux (φ d) n (fun x j => u (x ++ [(j : Int)])) d (moveBy x d 1) := by
      refine (faceFlux_congr2 _ fun s h1 h2 k hk => ?_).symm
      rw [moveBy_moveBy]
      exact a ⟨hx, rfl⟩ (hd d hd') (by omega) (by omega) hk
    rw [e1, e2]
  rw [e, ← b ⟨hx, rfl⟩ hj]
  exact h x hx

/-- One stage after the other from states that agree. -/
theorem soloAll_of {M : Box} {n : Nat} {flip : Int → Prop} (C : Covered M ws ps) {Rate : (Cell → α) → (Cell → α) → Prop}
    (hr : ∀ {R : Cell → Cell → Prop}, (∀ {x y}, R x y → InBox (M ++ [(0, (p : Int))]) x ∧ InBox (M ++ [(0, (p : Int))]) y) → ∀ {u v r r' : Cell → α}, AgreeAround M R n u v → Rate u r → Rate v r' → AgreeBy R n r r')
    {t : α} {Z : ℝ → (Cell → α) → Prop} (hex : ∀ u, ∃ Q, 0 ≤ Q ∧ ∀ Q' ≥ Q, Z Q' u)
    (hZ : ∀ {Q u v}, AgreeAround M (fun x y => InBox (M ++ [(0, (p : Int))]) x ∧ x = y) n u v → AgreeBy (fun x y => InBox (M ++ [(0, (p : Int))]) x ∧ x = y) n u v → Z Q u → Z Q v)
    {q q' : Cell → α} (H : SoloStep M p n ws flip ps Rate t q q') : ∃ Q, 0 ≤ Q ∧ ∀ Q' ≥ Q, SoloAll M p n ws flip ps Rate t (Z Q') q q' := by
  have Y := symmetry_eq (M := M) (p := (p : Int)) (ws := ws) C.wide
  obtain ⟨v0, s0, v1, v1', s1, v2, v2', s2, K0, K1, K2⟩ := H
  obtain ⟨A, a0, hA⟩ := hex v0
  obtain ⟨B, b0, hB⟩ := hex v1'
  obtain ⟨D, d0, hD⟩ := hex v2'
  refine ⟨A + B + D, by positivity, fun Q' hQ' => ?_⟩
  intro q0 r0 q1 q1' r1 q2 q2' r2 H0 H1 H2
  obtain ⟨x0, y0⟩ := filled_agree Y.reads C.wide C.all K0.fill H0.fill (fun x y h j _ => by rw [h.2])
  have z0 := rk_agree y0 y0 (hr Y.mesh x0 K0.rates H0.rates) K0.next H0.next
  obtain ⟨x1, y1⟩ := filled_agree Y.reads C.wide C.all K1.fill H1.fill z0
  have z1 := rk_agree y0 y1 (hr Y.mesh x1 K1.rates H1.rates) K1.next H1.next
  obtain ⟨x2, y2⟩ := filled_agree Y.reads C.wide C.all K2.fill H2.fill z1
  exact ⟨hZ x0 y0 (hA _ (by linarith)), hZ x1 y1 (hB _ (by linarith)), hZ x2 y2 (hD _ (by linarith))⟩

/-- For finitely many steps one bound does. -/
theorem uniform_bound {Z : Nat → ℝ → Prop} : ∀ {k : Nat}, (∀ i < k, ∃ Q, 0 ≤ Q ∧ ∀ Q' ≥ Q, Z i Q') → ∃ Q, 0 ≤ Q ∧ ∀ i < k, Z i Q := by
  have : ∀ {k : Nat}, (∀ i < k, ∃ Q, 0 ≤ Q ∧ ∀ Q' ≥ Q, Z i Q') → ∃ Q, 0 ≤ Q ∧ ∀ i < k, ∀ Q' ≥ Q, Z i Q' := by
    intro k
    induction k with
    | zero => intro _; exact ⟨0, le_rfl, by simp⟩
    | succ k ih =>
      intro h
      obtain ⟨Q, h0, hQ⟩ := ih fun i hi => h i (by omega)
      obtain ⟨A, a0, hA⟩ := h k (by omega)
      refine ⟨Q + A, by positivity, fun i hi Q' hQ' => ?_⟩
      rcases Nat.lt_succ_iff_lt_or_eq.1 hi with hi | rfl
      · exact hQ i hi Q' (by linarith)
      · exact hA Q' (by linarith)
  intro k h
  obtain ⟨Q, h0, hQ⟩ := this h
  exact ⟨Q, h0, fun i hi => hQ i hi Q le_rfl⟩

/-- **C110** The sizes that the bounds are stated in exist for every run. -/
theorem C110_sizes (C : Covered g.rng.dims ws ps) {k : Nat} :
    (∀ {gamma t : α} {s : Nat → Cell → α} {j : Nat}, j < 5 → (∀ i < k, GasStep g p ws ps gamma t (s i) (s (i + 1))) → ∃ Q : ℝ, 0 ≤ Q ∧ ∀ i < k,
      SoloAll g.rng.dims p 5 ws isMomentum ps (GasRate g.rng.dims p g.dxAt gamma) t (GasSized val g p gamma t Q Q j) (s i) (s (i + 1))) ∧
    (ws = [] → ∀ {c t : α} {s : Nat → Cell → α} {j : Nat}, j < 6 → (∀ i < k, LightStep g p ps c t (s i) (s (i + 1))) → ∃ Q : ℝ, 0 ≤ Q ∧ ∀ i < k,
      SoloAll g.rng.dims p 6 [] isWallField ps (LightRate g.rng.dims p g.dxAt c) t (LightSized val g p c t Q Q j) (s i) (s (i + 1))) ∧
    (∀ {P : Plasma α} {t : α} {s : Nat → State α}, P.mults.length = 2 → (∀ i < k, PlasmaStep P g p ws ps t (s i) (s (i + 1))) → ∃ Q : ℝ, 0 ≤ Q ∧ ∀ i < k,
      PlasmaAll P g p ws ps t (PlasmaSized val P g p t Q Q) (s i) (s (i + 1))) := by
  have lt5 : ∀ d ∈ List.range g.rng.dims.length, d < g.rng.dims.length := fun d hd => List.mem_range.1 hd
  have lt6 : ∀ d ∈ List.range (min g.rng.dims.length 3), d < g.rng.dims.length := fun d hd => by rw [List.mem_range] at hd; omega
  refine ⟨?_, ?_, ?_⟩
  · intro gamma t s j hj hs
    refine uniform_bound (Z := fun i Q => SoloAll g.rng.dims p 5 ws isMomentum ps (GasRate g.rng.dims p g.dxAt gamma) t (GasSized val g p gamma t Q Q j) (s i) (s (i + 1))) fun i hi => ?_
    exact soloAll_of C (fun h => gasRate_agree h) (Z := fun Q => GasSized val g p gamma t Q Q j) (fun u => sized_exists _ _ _ _ _ _ _ u j) (fun a b h => sized_congr lt5 hj a b h) (hs i hi)
  · rintro rfl c t s j hj hs
    refine uniform_bound (Z := fun i Q => SoloAll g.rng.dims p 6 [] isWallField ps (LightRate g.rng.dims p g.dxAt c) t (LightSized val g p c t Q Q j) (s i) (s (i + 1))) fun i hi => ?_
    exact soloAll_of C (fun h => lightRate_agree h) (Z := fun Q => LightSized val g p c t Q Q j) (fun u => sized_exists _ _ _ _ _ _ _ u j) (fun a b h => sized_congr lt6 hj a b h) (hs i hi)
  · intro P t s hm hs
    refine uniform_bound (Z := fun i Q => PlasmaAll P g p ws ps t (PlasmaSized val P g p t Q Q) (s i) (s (i + 1))) fun i hi => ?_
    have hex : ∀ w : State α, ∃ Q, 0 ≤ Q ∧ ∀ Q' ≥ Q, PlasmaSized val P g p t Q' Q' w := by
      intro w
      obtain ⟨A, a0, hA⟩ := sized_exists (val := val) (fun dim => fluxOf (Euler.hll P.gamma dim)) 5 g.dxAt (List.range g.rng.dims.length) g.rng.dims p t w.e 0
      obtain ⟨B, b0, hB⟩ := sized_exists (val := val) (fun dim => fluxOf (Euler.hll P.gamma dim)) 5 g.dxAt (List.range g.rng.dims.length) g.rng.dims p t w.i 0
      obtain ⟨D, d0, hD⟩ := uniform_bound (k := 6) (Z := fun j Q => ∀ Q' ≥ Q, LightSized val g p P.c t Q' Q' j w.f) fun j _ => by
        obtain ⟨D, d0, hD⟩ := sized_exists (val := val) (fun dim => fluxOf (Maxwell.rusanov P.c dim)) 6 g.dxAt (List.range (min g.rng.dims.length 3)) g.rng.dims p t w.f j
        exact ⟨D, d0, fun Q' h Q'' h' => hD Q'' (le_trans h h')⟩
      exact ⟨A + B + D, by positivity, fun Q' h => ⟨hA Q' (by linarith), hB Q' (by linarith), fun j _ h6 => hD j h6 Q' (by linarith)⟩⟩
    have Y := symmetry_eq (M := g.rng.dims) (p := (p : Int)) (ws := ws) C.wide
    have congr : ∀ {Q} {b b' v v' : State α}, StateAgree (fun x y => InBox (g.rng.dims ++ [(0, (p : Int))]) x ∧ x = y) b v →
        Filled g.rng.dims [(0, (p : Int)), (0, 5)] ws isMomentum ps b.e b'.e → Filled g.rng.dims [(0, (p : Int)), (0, 5)] ws isMomentum ps b.i b'.i →
        Filled g.rng.dims [(0, (p : Int)), (0, 6)] ws isWallField ps b.f b'.f → Filled g.rng.dims [(0, (p : Int)), (0, 5)] ws isMomentum ps v.e v'.e →
        Filled g.rng.dims [(0, (p : Int)), (0, 5)] ws isMomentum ps v.i v'.i → Filled g.rng.dims [(0, (p : Int)), (0, 6)] ws isWallField ps v.f v'.f →
        PlasmaSized val P g p t Q Q b' → PlasmaSized val P g p t Q Q v' := by
      intro Q b b' v v' S e i f e' i' f' Z
      obtain ⟨x0, y0⟩ := filled_agree (n := 5) Y.reads C.wide C.all e e' S.e
      obtain ⟨x1, y1⟩ := filled_agree (n := 5) Y.reads C.wide C.all i i' S.i
      obtain ⟨x2, y2⟩ := filled_agree (n := 6) Y.reads C.wide C.all f f' S.f
      exact ⟨sized_congr lt5 (by omega) x0 y0 Z.1, sized_congr lt5 (by omega) x1 y1 Z.2.1, fun j h3 h6 => sized_congr lt6 h6 x2 y2 (Z.2.2 j h3 h6)⟩
    obtain ⟨v0, s0, v1, v1', s1, v2, v2', s2, K0, K1, K2⟩ := hs i hi
    obtain ⟨A, a0, hA⟩ := hex v0
    obtain ⟨B, b0, hB⟩ := hex v1'
    obtain ⟨D, d0, hD⟩ := hex v2'
    refine ⟨A + B + D, by positivity, fun Q' hQ' => ?_⟩
    intro q0 r0 q1 q1' r1 q2 q2' r2 H0 H1 H2
    have S0 : StateAgree (fun x y => InBox (g.rng.dims ++ [(0, (p : Int))]) x ∧ x = y) (s i) (s i) :=
      ⟨fun x y h j _ => by rw [h.2], fun x y h j _ => by rw [h.2], fun x y h j _ => by rw [h.2]⟩
    obtain ⟨y0, n0⟩ := plasmaStage_agree Y.reads C.wide C.all hm K0 H0 S0
    have S1 := n0 y0
    obtain ⟨y1, n1⟩ := plasmaStage_agree Y.reads C.wide C.all hm K1 H1 S1
    have S2 := n1 y0
    exact ⟨congr S0 K0.fill_e K0.fill_i K0.fill_f H0.fill_e H0.fill_i H0.fill_f (hA _ (by linarith)),
      congr S1 K1.fill_e K1.fill_i K1.fill_f H1.fill_e H1.fill_i H1.fill_f (hB _ (by linarith)),
      congr S2 K2.fill_e K2.fill_i K2.fill_f H2.fill_e H2.fill_i H2.fill_f (hD _ (by linarith))⟩

end

/-! ### Examples -/

section
open Fl

-- a format with rounding to 53 bits that meets the assumptions; adding numbers in it is not exact
example : Floats (α := Fl double) Fl.val Fl.fin round53 ((2 ^ 53 - 1) * 2 ^ 971) (2⁻¹ ^ 53) 0 := double_floats
example : round53 (1 / 3) ≠ 1 / 3 := by
  have h0 : (0 : ℝ) < 1 / 3 := by norm_num
  unfold round53
  rw [if_pos h0]
  unfold round53p
  intro h
  have hl : lastBit (1 / 3) < 0 := by
    have : Int.log 2 (1 / 3 : ℝ) < 0 := by rw [← Int.lt_zpow_iff_log_lt (by norm_num) h0]; norm_num
    unfold lastBit; omega
  obtain ⟨n, hn⟩ : ∃ n : Nat, lastBit (1 / 3) = -(n : Int) := ⟨(-lastBit (1 / 3)).toNat, by omega⟩
  rw [hn, zpow_neg, zpow_natCast] at h
  generalize ⌊(1 / 3 : ℝ) / (2 ^ n)⁻¹ + 1 / 2⌋ = m at h
  have e : (m * 3 : ℝ) = 2 ^ n := by field_simp at h; linarith
  have e' : m * 3 = 2 ^ n := by exact_mod_cast e
  have : (3 : Int) ∣ 2 ^ n := ⟨m, by rw [← e']; ring⟩
  have : 3 ∣ 2 ^ n := by exact_mod_cast this
  have := Nat.Prime.dvd_of_dvd_pow Nat.prime_three this
  omega

/-- One component of the magnetic field is 1, the others are 0. -/
private noncomputable def bz : Cell → Fl double := fun x => if x.getLastD 0 = 5 then Arith.lit 1 else Arith.lit 0

private noncomputable def ringGrid : Rectilinear (Fl double) := ⟨⟨[(0, 3)], [1]⟩, [Arith.lit 0], [Arith.lit 3], [Arith.lit 1]⟩

private theorem ring_covered : Covered [(0, 3)] [] [0] := by
  refine ⟨fun d hd => ?_, fun d hd => ?_⟩
  · obtain rfl : d = 0 := by simpa using hd
    simp [lo, hi]
  · right; simpa using hd

private theorem bz_stage {k : Nat} {q0 q q' r q1 : Cell → Fl double}
    (S : SoloStage [(0, 3)] ((1 : Nat) : Int) 6 [] isWallField [0] (LightRate [(0, 3)] ((1 : Nat) : Int) ringGrid.dxAt (Arith.lit 1)) (Arith.lit (1 / 2)) k q0 q q' r q1)
    (h0 : ∀ x, InBox [(0, 3), (0, 1)] x → ∀ j : Nat, j < 6 → q' (x ++ [(j : Int)]) = bz [(j : Int)] → q0 (x ++ [(j : Int)]) = bz [(j : Int)])
    (h : ∀ x, InBox [(0, 3), (0, 1)] x → ∀ j : Nat, j < 6 → q (x ++ [(j : Int)]) = bz [(j : Int)]) :
    (∀ x, InBox [(0, 3), (0, 1)] x → ∀ j : Nat, j < 6 → q' (x ++ [(j : Int)]) = bz [(j : Int)]) ∧
    ∀ x, InBox [(0, 3), (0, 1)] x → ∀ j : Nat, j < 6 → q1 (x ++ [(j : Int)]) = bz [(j : Int)] := by
  have C := ring_covered
  have around : ∀ x, InBox [(0, 3), (0, 1)] x → ∀ s : Int, -2 ≤ s → s ≤ 2 → ∀ j : Nat, j < 6 → q' (moveBy x 0 s ++ [(j : Int)]) = bz [(j : Int)] := by
    intro x hx s h1 h2 j hj
    have hi := (filled_image S.fill hx (dim := 0) (by decide) (C.wide 0 (by decide)) (C.all 0 (by decide)) h1 h2 hj).2 (by simp)
    rw [hi]
    exact h _ (image_mesh (M := [(0, 3)]) (p := 1) hx (by decide) (C.wide 0 (by decide)) h1 h2) j hj
  have here : ∀ x, InBox [(0, 3), (0, 1)] x → ∀ j : Nat, j < 6 → q' (x ++ [(j : Int)]) = bz [(j : Int)] := by
    intro x hx j hj
    have := around x hx 0 (by decide) (by decide) j hj
    rwa [moveBy_zero] at this
  refine ⟨here, fun x hx j hj => ?_⟩
  have l : ∀ j : Nat, j < 6 → bz [(j : Int)] = Arith.lit (if j = 5 then 1 else 0) := by
    intro j _
    unfold bz
    by_cases c : j = 5
    · subst c; rfl
    · rw [if_neg (by simp; omega), if_neg c]
  have ex : ∀ j : Nat, Exact (if j = 5 then 1 else 0) := fun j => by split; exacts [ex1, ex0]
  have face : ∀ d : Int, d = 0 ∨ d = 1 → faceFlux (fluxOf (Maxwell.rusanov (Arith.lit 1) 0)) 6 (fun x j => q' (x ++ [(j : Int)])) 0 (moveBy x 0 d) =
      [Arith.lit 0, Arith.lit 1, Arith.lit 0, Arith.lit 0, Arith.lit 0, Arith.lit 0] := by
    intro d hd
    have e : ∀ j : Nat, j < 6 → FV.recon (q' (moveBy (moveBy x 0 d) 0 (-2) ++ [(j : Int)])) (q' (moveBy (moveBy x 0 d) 0 (-1) ++ [(j : Int)])) (q' (moveBy x 0 d ++ [(j : Int)]))
        (q' (moveBy (moveBy x 0 d) 0 1 ++ [(j : Int)])) = (Arith.lit (if j = 5 then 1 else 0), Arith.lit (if j = 5 then 1 else 0)) := by
      intro j hj
      simp only [moveBy_moveBy]
      rw [around x hx _ (by omega) (by omega) j hj, around x hx _ (by omega) (by omega) j hj, around x hx _ (by omega) (by omega) j hj, around x hx _ (by omega) (by omega) j hj, l j hj]
      exact recon_lit (ex j)
    unfold faceFlux
    simp only
    rw [show List.range 6 = [0, 1, 2, 3, 4, 5] from rfl]
    simp only [List.map_cons, List.map_nil, e 0 (by decide), e 1 (by decide), e 2 (by decide), e 3 (by decide), e 4 (by decide), e 5 (by decide)]
    norm_num only [fluxOf, Maxwell.rusanov, if_pos, if_neg]
    simp only [lit_fabs ex1 (by norm_num), lit_mul ex1 ex1 ex1 (by norm_num), lit_mul exh ex1 exh (by norm_num), lit_neg exh exm rfl, lit_mul exm ex1 exm (by norm_num), lit_add ex1 ex1 ex2 (by norm_num),
      lit_add ex0 ex0 ex0 (by norm_num), lit_sub ex1 ex1 ex0 (by norm_num), lit_sub ex0 ex0 ex0 (by norm_num), lit_mul exh ex2 ex1 (by norm_num), lit_mul exh ex0 ex0 (by norm_num),
      lit_mul exm ex0 ex0 (by norm_num), lit_add ex1 ex0 ex1 (by norm_num)]
  have fx : ∀ j : Nat, j < 6 → ∃ a : ℚ, Exact a ∧ ([Arith.lit 0, Arith.lit 1, Arith.lit 0, Arith.lit 0, Arith.lit 0, Arith.lit 0] : List (Fl double)).getD j (Arith.lit 0) = Arith.lit a := by
    intro j hj
    match j, hj with
    | 0, _ | 2, _ | 3, _ | 4, _ | 5, _ => exact ⟨0, ex0, rfl⟩
    | 1, _ => exact ⟨1, ex1, rfl⟩
  obtain ⟨a, ha, hfa⟩ := fx j hj
  have rate : r (x ++ [(j : Int)]) = Arith.lit 0 := by
    rw [S.rates x hx j hj]
    have f0 := face 0 (.inl rfl)
    rw [moveBy_zero] at f0
    have f1 := face 1 (.inr rfl)
    show fvUpdate _ _ _ _ [0] _ _ _ = _
    unfold fvUpdate
    simp only [List.foldl_cons, List.foldl_nil, f0, f1, hfa]
    rw [show ringGrid.dxAt 0 = Arith.lit 1 from rfl, lit_div ha ex1 ha (by norm_num) (by simp), lit_add ex0 ha ha (by simp), lit_sub ha ha ex0 (by simp)]
  rw [S.next, rate, here x hx j hj, h0 x hx j hj (here x hx j hj), l j hj]
  have fin : ∀ b : ℚ, b = 1 ∨ b = 0 → rkStage k (Arith.lit (1 / 2) : Fl double) (Arith.lit b) (Arith.lit b) (Arith.lit 0) = Arith.lit b := by
    intro b hb
    match k with
    | 0 =>
      rcases hb with rfl | rfl
      · simp only [rkStage, lit_mul exh ex0 ex0 (by norm_num), lit_add ex1 ex0 ex1 (by norm_num)]
      · simp only [rkStage, lit_mul exh ex0 ex0 (by norm_num), lit_add ex0 ex0 ex0 (by norm_num)]
    | 1 =>
      rcases hb with rfl | rfl
      · simp only [rkStage, lit_mul exq exh exe (by norm_num), lit_mul exe ex0 ex0 (by norm_num), lit_mul ext3 ex1 ext3 (by norm_num), lit_mul exq ex1 exq (by norm_num), lit_add ext3 exq ex1 (by norm_num),
          lit_add ex1 ex0 ex1 (by norm_num)]
      · simp only [rkStage, lit_mul exq exh exe (by norm_num), lit_mul exe ex0 ex0 (by norm_num), lit_mul ext3 ex0 ex0 (by norm_num), lit_mul exq ex0 ex0 (by norm_num), lit_add ex0 ex0 ex0 (by norm_num)]
    | k + 2 =>
      rcases hb with rfl | rfl
      · simp only [rkStage, lit_mul exh ex0 ex0 (by norm_num), lit_add ex1 ex0 ex1 (by norm_num), lit_mul ex2 ex1 ex2 (by norm_num), lit_add ex1 ex2 ex3 (by norm_num),
          lit_div ex3 ex3 ex1 (by norm_num) (by norm_num)]
      · simp only [rkStage, lit_mul exh ex0 ex0 (by norm_num), lit_add ex0 ex0 ex0 (by norm_num), lit_mul ex2 ex0 ex0 (by norm_num),
          lit_div ex0 ex3 ex0 (by norm_num) (by norm_num)]
  exact fin _ (by split <;> simp)

-- C110: a run in this format in which everything is finite: a uniform magnetic field on a ring of three cells
example : ∃ s : Nat → Cell → Fl double, s 0 = bz ∧ (∀ i, LightStep ringGrid 1 [0] (Arith.lit 1) (Arith.lit (1 / 2)) (s i) (s (i + 1))) ∧
    (∀ i, Finite Fl.fin [(0, 3)] 1 (s i) 5) ∧ ∀ k, ∃ Q : ℝ, 0 ≤ Q ∧
    ∀ i ≤ k, |fieldTotal [(0, 3)] 1 (fun x => (s i x).val) 5 - fieldTotal [(0, 3)] 1 (fun x => (s 0 x).val) 5| ≤ i * (2 * boxVolume ([(0, 3)] ++ [(0, ((1 : Nat) : Int))]) * roundOff (2⁻¹ ^ 53) 0 1 Q Q) := by
  obtain ⟨s, h0, hs⟩ := (C90_exists (g := ringGrid) (p := 1) (ws := []) (ps := [0]) (by simp) (by simp [ringGrid]) (by simp) (Arith.lit (1 / 2))).2.1 (Arith.lit 1) bz
  have const : ∀ i x, InBox [(0, 3), (0, 1)] x → ∀ j : Nat, j < 6 → s i (x ++ [(j : Int)]) = bz [(j : Int)] := by
    intro i
    induction i with
    | zero => intro x _ j _; rw [h0]; unfold bz; simp
    | succ i ih =>
      obtain ⟨q0, r0, q1, q1', r1, q2, q2', r2, S0, S1, S2⟩ := hs i
      obtain ⟨a0, b0⟩ := bz_stage S0 (fun _ _ _ _ h => h) ih
      obtain ⟨a1, b1⟩ := bz_stage S1 (fun x hx j hj _ => a0 x hx j hj) b0
      exact (bz_stage S2 (fun x hx j hj _ => a0 x hx j hj) b1).2
  have fin5 : ∀ i, Finite Fl.fin [(0, 3)] 1 (s i) 5 := by
    intro i x hx
    rw [const i x hx 5 (by decide)]
    exact (lit_fin ex1).1
  refine ⟨s, h0, hs, fin5, fun k => ?_⟩
  obtain ⟨Q, hQ, hz⟩ := (C110_sizes (val := Fl.val) (g := ringGrid) (p := 1) (k := k) ring_covered).2.1 rfl (j := 5) (by decide) (fun i _ => hs i)
  exact ⟨Q, hQ, C110_light double_floats (by intro d hd; simp [ringGrid] at hd; subst hd; simp) (le_refl 1) ring_covered (by simp) (by decide) (fun i _ => hs i) hz (fin5 k)⟩

end

end QK.Props
