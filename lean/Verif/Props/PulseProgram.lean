import Verif.Props.Examples
/-
C113: what gaussian_pulse computes after an initial condition that, unlike its own (C87), returns.
-/
namespace QK.Props
open QK Spec Solve SM

section
variable {α : Type} [Arith α]
open Wave1D

/-- The grid of the program. -/
theorem pulse_grid {nx : Int} (hnx : 2 ≤ nx) : ∃ g : Rectilinear α, GaussianPulse.grid nx = .ok g ∧ RunGrid g [] [0] ∧ g.rng.dims = [(0, nx)] := by
  obtain ⟨g, hg⟩ := Rectilinear.make_ok (range := Range.setup [(0, nx)]) (s := [Arith.lit (-1 / 2)]) (w := [(Arith.lit 1 : α)]) (by simp) (by simp)
  have hd : g.rng.dims = [(0, nx)] := by rw [(Rectilinear.make_fields hg).1]; rfl
  refine ⟨g, ?_, ⟨⟨_, _, _, hg⟩, by rw [hd]; simp, ⟨(Rectilinear.make_sized hg).widths, by rw [hd]; simp, by simp, ?_, by simp⟩⟩, hd⟩
  · unfold GaussianPulse.grid
    rw [show Range.ofLengths 1 [nx] = .ok (Range.setup [(0, nx)]) from rfl, Res.ok_bind, hg]
  · intro i hi'; simp at hi'; subst hi'; rw [hd]; simp [hi, lo]; omega

/-- **C113** gaussian_pulse with any number of cells (at least 2), frames and steps, in any arithmetic, after any initial condition `ic` that returns: the
first state is the one that `ic` stores; each further state is one step of the Maxwell scheme with speed of light 5 after the one before, periodic in the only
direction; file `j` shows the state after `j` frames; the program ends normally if all files can be created, with an exception at the first that cannot; and is
undefined without the assumed alignment. -/
theorem C113_program {nx : Int} (hnx : 2 ≤ nx) : ∃ g : Rectilinear α, GaussianPulse.grid nx = .ok g ∧ g.rng.dims = [(0, nx)] ∧
    ∀ (ic : SM (Mgr α) Unit) (m0 : Mgr α) (u : Cell → α), ic (Mgr.make g) = .ok () m0 → m0.Good (fun id => id ∈ field.ids) → m0.Laid → m0.grid = g →
      m0.Stores ⟨"field", ["Ex", "Ey", "Ez", "Bx", "By", "Bz"], Basis.volumeAverage⟩ u →
    ∀ (canOpen : Nat → Bool) (numFrames numSteps : Nat),
      (∃ (s : Nat → Cell → α) (file : Nat → List (Tok α)), s 0 = u ∧
        (∀ j < numFrames * numSteps, LightStep g 1 [0] (Arith.ofInt 5) (Arith.lit 1 / Arith.ofInt (numFrames * numSteps)) (s j) (s (j + 1))) ∧
        (∀ j ≤ numFrames, FileShowsOne [(0, nx)] ⟨"field", ["Ex", "Ey", "Ez", "Bx", "By", "Bz"], Basis.volumeAverage⟩ (s (j * numSteps)) (file j)) ∧
        RunEnds canOpen numFrames file (Run.main ic canOpen [field.q] ((GaussianPulse.solvers : Light α).step true) (timeDt numFrames numSteps) numFrames numSteps ⟨Mgr.make g, []⟩)) ∧
      (canOpen 0 = true → 0 < numFrames → 0 < numSteps →
        ∃ w, Run.main ic canOpen [field.q] ((GaussianPulse.solvers : Light α).step false) (timeDt numFrames numSteps) numFrames numSteps ⟨Mgr.make g, []⟩ = .ub w) := by
  obtain ⟨g, e1, hg, hd⟩ := pulse_grid (α := α) hnx
  refine ⟨g, e1, hd, ?_⟩
  intro ic m0 u hic hG hL hgr hu canOpen nf ns
  obtain ⟨nd, cons⟩ := five_names field_names
  have V : SoloVars (fun id => id ∈ field.ids) field 1 6 := solo_vars nd
  obtain ⟨⟨s, file, a1, a2, a3, a4⟩, a5⟩ := solo_program V rfl (t := timeDt nf ns)
    (fun {_ _ _} => light_head (P := (GaussianPulse.solvers : Light α)) V (ps := [0]) rfl hg.bcs) (stepOf := (GaussianPulse.solvers : Light α).step) (fun _ _ => rfl)
    hic hG hL hgr hg.made hg.three hu canOpen nf ns
  rw [hd] at a3
  exact ⟨⟨s, file, a1, a2, a3, a4⟩, a5⟩

end

/-! ### Consequences in exact arithmetic -/

/-- The flux of the Maxwell solver in direction 0 has no component of the field along that direction. -/
theorem rusanov_normal (c : ℝ) (u : Cell → Nat → ℝ) (x : Cell) {j : Nat} (hj : j = 0 ∨ j = 3) : (faceFlux (fluxOf (Maxwell.rusanov c 0)) 6 u 0 x).getD j 0 = 0 := by
  unfold faceFlux
  rw [show List.range 6 = [0, 1, 2, 3, 4, 5] from rfl]
  rcases hj with rfl | rfl <;> simp [fluxOf, Maxwell.rusanov, real_lit]

/-- **C113** On a mesh of one dimension the component of either field along it is the same after a time step as before, in every cell. -/
theorem C113_normal {g : Rectilinear ℝ} {N : Int × Int} (hd : g.rng.dims = [N]) {p : Nat} {ps : List Nat} {c t : ℝ} {q q' : Cell → ℝ} (H : LightStep g p ps c t q q')
    {x : Cell} (hx : InBox (g.rng.dims ++ [(0, (p : Int))]) x) : q' (x ++ [0]) = q (x ++ [0]) ∧ q' (x ++ [3]) = q (x ++ [3]) := by
  have key : ∀ j : Nat, j = 0 ∨ j = 3 → q' (x ++ [(j : Int)]) = q (x ++ [(j : Int)]) := by
    intro j hj
    have z : ∀ {u r : Cell → ℝ}, LightRate g.rng.dims p g.dxAt c u r → r (x ++ [(j : Int)]) = 0 := by
      intro u r h
      rw [h x hx j (by omega), hd]
      show List.foldl _ _ [0] = _
      simp only [List.foldl_cons, List.foldl_nil, real_lit]
      have n1 := rusanov_normal c (fun x j => u (x ++ [(j : Int)])) x hj
      have n2 := rusanov_normal c (fun x j => u (x ++ [(j : Int)])) (moveBy x 0 1) hj
      norm_num at n1 n2 ⊢
      rw [n1, n2]; simp
    have hin : InBox (g.rng.dims ++ [(0, (p : Int)), (0, ((6 : Nat) : Int))]) (x ++ [(j : Int)]) := by
      rw [show g.rng.dims ++ [((0 : Int), (p : Int)), (0, ((6 : Nat) : Int))] = (g.rng.dims ++ [((0 : Int), (p : Int))]) ++ [(0, ((6 : Nat) : Int))] by simp]
      exact (inBox_snoc hx.length_eq).2 ⟨hx, by omega, by omega⟩
    obtain ⟨q0, r0, q1, q1', r1, q2, q2', r2, H0, H1, H2⟩ := H
    have s0 := H0.fill.inside _ hin
    have s1 := H1.fill.inside _ hin
    have s2 := H2.fill.inside _ hin
    have n0 := H0.next (x ++ [(j : Int)])
    have n1 := H1.next (x ++ [(j : Int)])
    have n2 := H2.next (x ++ [(j : Int)])
    rw [z H0.rates] at n0
    rw [z H1.rates, s1, n0] at n1
    rw [z H2.rates, s2, n1] at n2
    rw [n2, ← s0]
    simp only [rkStage, real_lit]
    push_cast
    ring
  exact ⟨key 0 (.inl rfl), key 3 (.inr rfl)⟩

/-- **C113** In exact arithmetic, if all files can be created: each of the six components has the same sum in all files, and the components along the domain have in
every cell the value of the initial condition at all times. -/
theorem C113_totals {nx : Int} (hnx : 2 ≤ nx) : ∃ g : Rectilinear ℝ, GaussianPulse.grid nx = .ok g ∧
    ∀ (ic : SM (Mgr ℝ) Unit) (m0 : Mgr ℝ) (u : Cell → ℝ), ic (Mgr.make g) = .ok () m0 → m0.Good (fun id => id ∈ Wave1D.field.ids) → m0.Laid → m0.grid = g →
      m0.Stores ⟨"field", ["Ex", "Ey", "Ez", "Bx", "By", "Bz"], Basis.volumeAverage⟩ u → ∀ numFrames numSteps : Nat,
    ∃ (r : Run ℝ) (s : Nat → Cell → ℝ), s 0 = u ∧
      Run.main ic (fun _ => true) [Wave1D.field.q] ((GaussianPulse.solvers : Light ℝ).step true) (Wave1D.timeDt numFrames numSteps) numFrames numSteps ⟨Mgr.make g, []⟩ = .ok () r ∧
      r.files.map Prod.fst = List.range (numFrames + 1) ∧
      (∀ j ≤ numFrames, ∃ file, (j, file) ∈ r.files ∧ FileShowsOne [(0, nx)] ⟨"field", ["Ex", "Ey", "Ez", "Bx", "By", "Bz"], Basis.volumeAverage⟩ (s (j * numSteps)) file) ∧
      (∀ j ≤ numFrames * numSteps, ∀ i : Int, 0 ≤ i → i < nx → s j [i, 0, 0] = u [i, 0, 0] ∧ s j [i, 0, 3] = u [i, 0, 3]) ∧
      ∀ k (hk : k < 6), ∃ T : ℝ, ∀ file ∈ r.files.map Prod.snd, BlockSum file "field" (["Ex", "Ey", "Ez", "Bx", "By", "Bz"][k]) T := by
  obtain ⟨g, e1, hd, H⟩ := C113_program (α := ℝ) hnx
  refine ⟨g, e1, ?_⟩
  intro ic m0 u hic hG hL hgr hu nf ns
  obtain ⟨⟨s, file, a1, a2, a3, a4, -⟩, -⟩ := H ic m0 u hic hG hL hgr hu (fun _ => true) nf ns
  obtain ⟨m', hr⟩ := a4 fun _ _ => rfl
  have hpos : Pos g.rng.dims := by
    rw [hd]; intro d hd'; simp at hd'; subst hd'; simp; omega
  refine ⟨_, s, a1, hr, by simp [Function.comp_def], fun j hj => ⟨file j, ?_, a3 j hj⟩, ?_, ?_⟩
  · exact List.mem_map.2 ⟨j, List.mem_range.2 (by omega), rfl⟩
  · intro j
    induction j with
    | zero => intro _ i _ _; rw [a1]; exact ⟨rfl, rfl⟩
    | succ j ih =>
      intro hj i h1 h2
      have hx : InBox (g.rng.dims ++ [(0, ((1 : Nat) : Int))]) [i, 0] := by
        rw [hd]; exact .cons ⟨h1, h2⟩ (.cons ⟨by simp, by simp⟩ .nil)
      obtain ⟨n1, n2⟩ := C113_normal hd (a2 j (by omega)) hx
      obtain ⟨i1, i2⟩ := ih (by omega) i h1 h2
      exact ⟨n1.trans i1, n2.trans i2⟩
  · intro k hk
    refine ⟨fieldTotal g.rng.dims 1 (s 0) k, fun fl hfl => ?_⟩
    simp only [List.map_map, List.mem_map, List.mem_range, Function.comp_def] at hfl
    obtain ⟨j, hj, rfl⟩ := hfl
    have : fieldTotal g.rng.dims 1 (s (j * ns)) k = fieldTotal g.rng.dims 1 (s 0) k := by
      refine chain_const (f := fun q => fieldTotal g.rng.dims 1 q k) ?_ a2 _ (Nat.mul_le_mul_right _ (by omega))
      intro a b H
      refine soloStep_total (n := 6) (by omega) ?_ H
      intro u u' r F hr
      exact lightRate_total (le_refl _) hpos (by rw [hd]; intro d h; simp at h; subst h; simp [lo, hi]; omega)
        (by rw [hd]; intro d h; simp at h ⊢; omega) F hr hk
    rw [← this, hd]
    exact blockSum_one (a3 j (by omega)) (k := k) hk

/-! ### Example -/

/-- The initial condition of wave_1D, along the first direction, returns on the mesh of gaussian_pulse: the hypotheses on `ic` can be met. -/
example : ∃ (g : Rectilinear ℝ) (m0 : Mgr ℝ) (u : Cell → ℝ), GaussianPulse.grid 128 = .ok g ∧
    Solve.wave { Wave1D.initial with dim := 0 } [Wave1D.field.q] (Mgr.make g) = .ok () m0 ∧ m0.Good (fun id => id ∈ Wave1D.field.ids) ∧ m0.Laid ∧ m0.grid = g ∧
    m0.Stores ⟨"field", ["Ex", "Ey", "Ez", "Bx", "By", "Bz"], Basis.volumeAverage⟩ u := by
  obtain ⟨g, e1, hg, hd⟩ := pulse_grid (α := ℝ) (nx := 128) (by decide)
  have hpos : Pos g.rng.dims := by
    rw [hd]; intro d hd'; simp at hd'; subst hd'; simp
  obtain ⟨nd, cons⟩ := five_names field_names
  have hG := (C33_new_manager cons solo_points (g := g) (by rw [hd]; simp) hpos).1
  obtain ⟨range, s', w', hmake⟩ := hg.made
  obtain ⟨m0, k1, k2, k3, k4, k5, -⟩ := wave_all { (Wave1D.initial : Init.Wave ℝ) with dim := 0 } (dim := 0) rfl hG laid_new (Rectilinear.make_sized hmake) hg.three (by show 0 < g.rng.dims.length; rw [hd]; simp)
    (fun _ => rfl) (fun _ => rfl) (outs := [Wave1D.field.q]) (by
    intro id hid; simp at hid; subst hid; exact ⟨Wave1D.field.at_mem 0, by decide, by decide⟩)
  obtain ⟨u, hu⟩ := stores_exist k3 (setTo_exists (k5 Wave1D.field.q (by simp)))
  exact ⟨g, m0, u, e1, k1, k2, k3, k4.grid, hu⟩

end QK.Props
