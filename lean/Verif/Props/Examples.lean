import Verif.Proofs.ExampleRuns
/-
Properties of the other example programs: the two-fluid Brio-Wu shock tube and the current sheet (C84), the Sod shock tube (C85), the
electromagnetic wave (C86), and the two programs that are undefined (C87).
-/
namespace QK.Props
open QK Spec Solve

/-! ## C84 -/

section
variable {α : Type} [Arith α]
open GemChallenge

/-- **C84** two_fluid_brio_wu, with any numbers of cells (at least 2), frames and steps, in any arithmetic: the grid and the solvers are made; the
initial condition runs (C63 says what it sets) and gives the state `s 0`; each further state is one time step after the one before, between walls in
the single direction; file `j` shows the state after `j` frames; the program ends normally if all files can be created, with an
exception at the first that cannot; and is undefined without the assumed alignment. -/
theorem C84_brio {nx : Int} (hnx : 2 ≤ nx) (canOpen : Nat → Bool) (numFrames numSteps : Nat) :
    ∃ (g : Rectilinear α) (P : Plasma α) (m0 : Mgr α), BrioPlasma P ∧ TwoFluidBrioWu.grid nx = .ok g ∧ g.rng.dims = [(0, nx)] ∧
      brioWu TwoFluidBrioWu.initial [electrons.q, ions.q, fields.q] (Mgr.make g) = .ok () m0 ∧ m0.Good gemIds ∧ m0.grid = g ∧
    (∃ (s : Nat → State α) (file : Nat → List (Tok α)), P.Holds m0 0 (s 0) ∧
      (∀ j < numFrames * numSteps, PlasmaStep P g 1 [0] [] (Arith.lit (1 / 10) / Arith.ofInt (numFrames * numSteps)) (s j) (s (j + 1))) ∧
      (∀ j ≤ numFrames, FileShows g.rng.dims P (s (j * numSteps)) (file j)) ∧
      ∃ r, TwoFluidBrioWu.run true canOpen nx numFrames numSteps = .ok r ∧ RunEnds canOpen numFrames file r) ∧
    (canOpen 0 = true → 0 < numFrames → 0 < numSteps → ∃ w, TwoFluidBrioWu.run (α := α) false canOpen nx numFrames numSteps = .ok (.ub w)) := by
  obtain ⟨g, e1, hg, hd⟩ := one_dim_grid (s := (Arith.lit (-1 / 2) : α)) (w := Arith.lit 1) hnx
  obtain ⟨mults, e2, hm, hmv⟩ : ∃ mults, Source.currentSetup (TwoFluidBrioWu.eps0 : α) [TwoFluidBrioWu.qe, TwoFluidBrioWu.qi] [TwoFluidBrioWu.me, TwoFluidBrioWu.mi] = .ok mults ∧
      mults.length = 2 ∧ mults = [-Arith.lit (-1) / Arith.lit (1 / 10) / Arith.lit (1 / 10 ^ 6), -Arith.lit 1 / Arith.lit 1 / Arith.lit (1 / 10 ^ 6)] := ⟨_, rfl, rfl, rfl⟩
  have hpos : Pos g.rng.dims := by
    rw [hd]; intro d hd'; simp at hd'; subst hd'; simp; omega
  have hG := (C33_new_manager gem_consistent gem_points (g := g) (by rw [hd]; simp) hpos).1
  obtain ⟨range, s', w', hmake⟩ := hg.made
  have R : RunReady gemIds (TwoFluidBrioWu.solvers mults) [0] [] :=
    ⟨⟨(gem_vars GemConstants.make hm).e, (gem_vars GemConstants.make hm).i, (gem_vars GemConstants.make hm).f, gem_nodup, rfl, rfl, rfl, rfl, rfl, rfl, le_refl _, hm⟩,
      rfl, rfl, rfl, rfl, rfl⟩
  have mem : ∀ {id}, id ∈ electrons.ids ++ (ions.ids ++ fields.ids) → gemIds id := fun h => h
  obtain ⟨m0, k1, k2, k3, k4, k5, k6, k7, k8⟩ := brio_all TwoFluidBrioWu.initial hG laid_new (Rectilinear.make_sized hmake) hg.three (oe := electrons.q) (oi := ions.q) (of := fields.q)
    (mem (List.mem_append_left _ (electrons.at_mem 0))) (mem (List.mem_append_right _ (List.mem_append_left _ (ions.at_mem 0))))
    (mem (List.mem_append_right _ (List.mem_append_right _ (fields.at_mem 0)))) (R.vars.ei (electrons.at_mem 0) (ions.at_mem 0))
    (R.vars.ef (electrons.at_mem 0) (fields.at_mem 0)) (R.vars.if' (ions.at_mem 0) (fields.at_mem 0)) (by decide) rfl rfl (by decide) rfl (by decide)
  obtain ⟨ue, he⟩ := stores_exist k3 (setTo_exists k5)
  obtain ⟨ui, hi⟩ := stores_exist k3 (setTo_exists k6)
  obtain ⟨uf, hf⟩ := stores_exist k3 (setTo_exists k7)
  have H0 : (TwoFluidBrioWu.solvers mults).Holds m0 0 ⟨ue, ui, uf⟩ := ⟨he, hi, hf⟩
  obtain ⟨⟨s, file, a1, a2, a3, a4⟩, a5⟩ := plasma_run R k1 k2 k3 (g := g) k4.grid hg H0 canOpen (TwoFluidBrioWu.timeDt numFrames numSteps) numFrames numSteps
  have er : ∀ al, TwoFluidBrioWu.run al canOpen nx numFrames numSteps = .ok (Run.main (brioWu TwoFluidBrioWu.initial [electrons.q, ions.q, fields.q]) canOpen
      [electrons.q, ions.q, fields.q] ((TwoFluidBrioWu.solvers mults).step al) (TwoFluidBrioWu.timeDt numFrames numSteps) numFrames numSteps ⟨Mgr.make g, []⟩) := by
    intro al
    unfold TwoFluidBrioWu.run
    rw [show TwoFluidBrioWu.grid nx = .ok g from e1, Res.ok_bind, e2, Res.ok_bind]; rfl
  refine ⟨g, TwoFluidBrioWu.solvers mults, m0, ⟨rfl, rfl, rfl, rfl, rfl, rfl, rfl, hmv⟩, e1, hd, k1, k2, k4.grid, ⟨s, file, by rw [a1]; exact H0, a2, a3, _, er true, a4⟩, ?_⟩
  intro hc hf' hs'
  obtain ⟨w, hw⟩ := a5 hc hf' hs'
  exact ⟨w, by rw [er, ← hw]; rfl⟩

/-- **C84** harris_current_sheet, likewise; its physics is that of main.cpp's program, on one dimension between walls. (C71 says what the
initial condition sets; on a grid of one dimension the second coordinate is 0.) -/
theorem C84_harris {nx : Int} (hnx : 2 ≤ nx) (canOpen : Nat → Bool) (numFrames numSteps : Nat) :
    ∃ (g : Rectilinear α) (P : Plasma α) (m0 : Mgr α), GemPlasma P ∧ HarrisCurrentSheet.grid HarrisCurrentSheet.constants nx = .ok g ∧ g.rng.dims = [(0, nx)] ∧
      gem (initial HarrisCurrentSheet.constants) [electrons.q, ions.q, fields.q] (Mgr.make g) = .ok () m0 ∧ m0.Good gemIds ∧ m0.grid = g ∧
    (∃ (s : Nat → State α) (file : Nat → List (Tok α)), P.Holds m0 0 (s 0) ∧
      (∀ j < numFrames * numSteps,
        PlasmaStep P g 1 [0] [] (HarrisCurrentSheet.timeDt HarrisCurrentSheet.constants numFrames numSteps) (s j) (s (j + 1))) ∧
      (∀ j ≤ numFrames, FileShows g.rng.dims P (s (j * numSteps)) (file j)) ∧
      ∃ r, HarrisCurrentSheet.run true canOpen nx numFrames numSteps = .ok r ∧ RunEnds canOpen numFrames file r) ∧
    (canOpen 0 = true → 0 < numFrames → 0 < numSteps → ∃ w, HarrisCurrentSheet.run (α := α) false canOpen nx numFrames numSteps = .ok (.ub w)) := by
  set K : GemConstants α := HarrisCurrentSheet.constants with hK
  obtain ⟨g, e1, hg, hd⟩ := one_dim_grid (s := -K.Lx / Arith.lit 2) (w := K.Lx) hnx
  obtain ⟨mults, e2, hm, hmv⟩ : ∃ mults, Source.currentSetup K.eps0 [-K.e, K.e] [K.me, K.mi] = .ok mults ∧ mults.length = 2 ∧
      mults = [-(-K.e) / K.me / K.eps0, -K.e / K.mi / K.eps0] := ⟨_, rfl, rfl, rfl⟩
  have hpos : Pos g.rng.dims := by
    rw [hd]; intro d hd'; simp at hd'; subst hd'; simp; omega
  have hG := (C33_new_manager gem_consistent gem_points (g := g) (by rw [hd]; simp) hpos).1
  obtain ⟨range, s', w', hmake⟩ := hg.made
  have R : RunReady gemIds (HarrisCurrentSheet.solvers K mults) [0] [] :=
    ⟨⟨(gem_vars K hm).e, (gem_vars K hm).i, (gem_vars K hm).f, gem_nodup, rfl, rfl, rfl, rfl, rfl, rfl, le_refl _, hm⟩, rfl, rfl, rfl, rfl, rfl⟩
  have mem : ∀ {id}, id ∈ electrons.ids ++ (ions.ids ++ fields.ids) → gemIds id := fun h => h
  obtain ⟨m0, k1, k2, k3, k4, k5, k6, k7, k8⟩ := gem_all (initial K) hG laid_new (Rectilinear.make_sized hmake) hg.three (oe := electrons.q) (oi := ions.q) (of := fields.q)
    (mem (List.mem_append_left _ (electrons.at_mem 0))) (mem (List.mem_append_right _ (List.mem_append_left _ (ions.at_mem 0))))
    (mem (List.mem_append_right _ (List.mem_append_right _ (fields.at_mem 0)))) (R.vars.ei (electrons.at_mem 0) (ions.at_mem 0))
    (R.vars.ef (electrons.at_mem 0) (fields.at_mem 0)) (R.vars.if' (ions.at_mem 0) (fields.at_mem 0)) (by decide) rfl rfl (by decide) (by decide) (by decide) []
  obtain ⟨ue, he⟩ := stores_exist k3 (setTo_exists k5)
  obtain ⟨ui, hi⟩ := stores_exist k3 (setTo_exists k6)
  obtain ⟨uf, hf⟩ := stores_exist k3 (setTo_exists k7)
  have H0 : (HarrisCurrentSheet.solvers K mults).Holds m0 0 ⟨ue, ui, uf⟩ := ⟨he, hi, hf⟩
  obtain ⟨⟨s, file, a1, a2, a3, a4⟩, a5⟩ := plasma_run R k1 k2 k3 (g := g) k4.grid hg H0 canOpen (HarrisCurrentSheet.timeDt K numFrames numSteps) numFrames numSteps
  have er : ∀ al, HarrisCurrentSheet.run al canOpen nx numFrames numSteps = .ok (Run.main (gem (initial K) [electrons.q, ions.q, fields.q]) canOpen
      [electrons.q, ions.q, fields.q] ((HarrisCurrentSheet.solvers K mults).step al) (HarrisCurrentSheet.timeDt K numFrames numSteps) numFrames numSteps ⟨Mgr.make g, []⟩) := by
    intro al
    unfold HarrisCurrentSheet.run
    simp only
    rw [← hK, show HarrisCurrentSheet.grid K nx = .ok g from e1, Res.ok_bind, e2, Res.ok_bind]; rfl
  refine ⟨g, HarrisCurrentSheet.solvers K mults, m0, ⟨rfl, rfl, rfl, rfl, rfl, rfl, rfl, hmv⟩, e1, hd, k1, k2, k4.grid, ⟨s, file, by rw [a1]; exact H0, a2, a3, _, er true, a4⟩, ?_⟩
  intro hc hf' hs'
  obtain ⟨w, hw⟩ := a5 hc hf' hs'
  exact ⟨w, by rw [er, ← hw]; rfl⟩

end

/-- **C84** Both programs, in exact arithmetic and if all files can be created: in all files the densities of the electrons have the same sum, so do those
of the ions, and so do the values of each component of the magnetic field. -/
theorem C84_totals {nx : Int} (hnx : 2 ≤ nx) (numFrames numSteps : Nat) :
    (∃ (r : Run ℝ) (Te Ti Tx Ty Tz : ℝ), TwoFluidBrioWu.run true (fun _ => true) nx numFrames numSteps = .ok (.ok () r) ∧
      r.files.map Prod.fst = List.range (numFrames + 1) ∧
      ∀ file ∈ r.files.map Prod.snd, BlockSum file "electrons" "rho" Te ∧ BlockSum file "ions" "rho" Ti ∧ BlockSum file "field" "Bx" Tx ∧
        BlockSum file "field" "By" Ty ∧ BlockSum file "field" "Bz" Tz) ∧
    (∃ (r : Run ℝ) (Te Ti Tx Ty Tz : ℝ), HarrisCurrentSheet.run true (fun _ => true) nx numFrames numSteps = .ok (.ok () r) ∧
      r.files.map Prod.fst = List.range (numFrames + 1) ∧
      ∀ file ∈ r.files.map Prod.snd, BlockSum file "electrons" "rho" Te ∧ BlockSum file "ions" "rho" Ti ∧ BlockSum file "field" "Bx" Tx ∧
        BlockSum file "field" "By" Ty ∧ BlockSum file "field" "Bz" Tz) := by
  have pos : ∀ {g : Rectilinear ℝ}, g.rng.dims = [(0, nx)] → Pos g.rng.dims := by
    intro g hd; rw [hd]; intro d hd'; simp at hd'; subst hd'; simp; omega
  constructor
  · obtain ⟨g, P, m0, hP, -, hd, -, -, -, ⟨s, file, -, hs, hf, r, hr, hrun, -⟩, -⟩ := C84_brio (α := ℝ) hnx (fun _ => true) numFrames numSteps
    obtain ⟨m', rfl⟩ := hrun fun _ _ => rfl
    obtain ⟨Te, Ti, Tx, Ty, Tz, h⟩ := plasma_sums (pos hd) (by rw [hd]; simp) (by rw [hd]; simp [lo, hi]; omega) (by simp) (by rw [hd]; intro d h; simp at h ⊢; omega)
      hP.electrons hP.ions hP.field hs hf
    refine ⟨_, Te, Ti, Tx, Ty, Tz, hr, by simp [Function.comp_def], fun fl hfl => ?_⟩
    simp only [List.map_map, List.mem_map, List.mem_range, Function.comp_def] at hfl
    obtain ⟨j, hj, rfl⟩ := hfl
    exact h j (by omega)
  · obtain ⟨g, P, m0, hP, -, hd, -, -, -, ⟨s, file, -, hs, hf, r, hr, hrun, -⟩, -⟩ := C84_harris (α := ℝ) hnx (fun _ => true) numFrames numSteps
    obtain ⟨m', rfl⟩ := hrun fun _ _ => rfl
    obtain ⟨Te, Ti, Tx, Ty, Tz, h⟩ := plasma_sums (pos hd) (by rw [hd]; simp) (by rw [hd]; simp [lo, hi]; omega) (by simp) (by rw [hd]; intro d h; simp at h ⊢; omega)
      hP.electrons hP.ions hP.field hs hf
    refine ⟨_, Te, Ti, Tx, Ty, Tz, hr, by simp [Function.comp_def], fun fl hfl => ?_⟩
    simp only [List.map_map, List.mem_map, List.mem_range, Function.comp_def] at hfl
    obtain ⟨j, hj, rfl⟩ := hfl
    exact h j (by omega)

-- C84: as configured
example : ∃ (r : Run ℝ) (T : ℝ), TwoFluidBrioWu.twoFluidBrioWu true (fun _ => true) = .ok (.ok () r) ∧ r.files.length = 101 ∧
    ∀ file ∈ r.files.map Prod.snd, BlockSum file "ions" "rho" T := by
  obtain ⟨⟨r, _, T, _, _, _, h1, h2, h3⟩, -⟩ := C84_totals (nx := 100) (by decide) 100 10
  exact ⟨r, T, h1, by have := congrArg List.length h2; simpa using this, fun f hf => (h3 f hf).2.1⟩
example : ∃ (msg : String) (r : Run ℝ), HarrisCurrentSheet.harrisCurrentSheet true (fun k => k != 2) = .ok (.throw msg r) ∧ r.files.map Prod.fst = [0, 1] := by
  obtain ⟨g, P, m0, -, -, -, -, -, -, ⟨s, file, -, -, -, r, hr, -, h⟩, -⟩ := C84_harris (α := ℝ) (nx := 400) (by decide) (fun k => k != 2) 100 100
  obtain ⟨msg, m', rfl⟩ := h 2 (by decide) (by decide) (by decide)
  exact ⟨msg, _, hr, by simp [List.range_succ]⟩

/-! ## C85 -/

section
variable {α : Type} [Arith α]
open SodShockTube

def sodIds (id : VarId) : Prop := id ∈ fluid.ids
def waveIds (id : VarId) : Prop := id ∈ Wave1D.field.ids

theorem five_names {v : Five} (h : v.ids.Pairwise (fun a b => a.name ≠ b.name)) : v.ids.Nodup ∧ Mgr.Consistent (fun id => id ∈ v.ids) := by
  refine ⟨h.imp fun h e => h (by rw [e]), ?_⟩
  intro a b ha hb hn
  by_contra hne
  haveI : Std.Symm (fun a b : VarId => a.name ≠ b.name) := ⟨fun _ _ h => h.symm⟩
  exact List.Pairwise.forall h ha hb hne hn

theorem solo_vars {name : String} {comps : List String} (hn : (solo name comps).ids.Nodup) : SoloVars (fun id => id ∈ (solo name comps).ids) (solo name comps) 1 comps.length := by
  refine ⟨⟨fun _ h => h, hn, ?_, ?_⟩, rfl, le_refl _, rfl⟩ <;>
  · intro id h
    simp only [List.mem_cons, List.not_mem_nil, or_false] at h
    rcases h with rfl | rfl | rfl | rfl | rfl <;> rfl

theorem solo_points {name : String} {comps : List String} : ∀ id ∈ (solo name comps).ids, 0 ≤ id.basis.points := by
  intro id h
  simp only [Five.ids, List.mem_cons, List.not_mem_nil, or_false] at h
  rcases h with rfl | rfl | rfl | rfl | rfl <;> (show (0 : Int) ≤ Basis.volumeAverage.points; decide)

theorem fluid_names : fluid.ids.Pairwise (fun a b => a.name ≠ b.name) := by decide
theorem field_names : Wave1D.field.ids.Pairwise (fun a b => a.name ≠ b.name) := by decide

theorem sod_grid {nx ny : Int} (hnx : 2 ≤ nx) (hny : 2 ≤ ny) : ∃ g : Rectilinear α, grid nx ny = .ok g ∧ RunGrid g [0] [1] ∧ g.rng.dims = [(0, nx), (0, ny)] := by
  obtain ⟨g, hg⟩ := Rectilinear.make_ok (range := Range.setup [(0, nx), (0, ny)]) (s := [Arith.lit (-1 / 2), Arith.lit (-1 / 2), Arith.lit (-1 / 2)])
    (w := [Arith.lit 1, Arith.lit 1, (Arith.lit 1 : α)]) (by simp) (by simp)
  have hd : g.rng.dims = [(0, nx), (0, ny)] := by rw [(Rectilinear.make_fields hg).1]; rfl
  refine ⟨g, ?_, ⟨⟨_, _, _, hg⟩, by rw [hd]; simp, ⟨(Rectilinear.make_sized hg).widths, by rw [hd]; simp, ?_, ?_, by simp⟩⟩, hd⟩
  · unfold grid
    have : Range.ofLengths 2 [nx, ny, 2] = .ok (Range.setup [(0, nx), (0, ny)]) := rfl
    rw [this, Res.ok_bind, hg]
  · intro i hi'; simp at hi'; subst hi'; rw [hd]; simp [hi, lo]; omega
  · intro i hi'; simp at hi'; subst hi'; rw [hd]; simp [hi, lo]; omega

/-- **C85** sod_shock_tube, with any numbers of cells (at least 2 in each direction), frames and steps, in any arithmetic: the first state is the
gas at rest with density and pressure 1 on the left half and 1/8 and 1/10 on the right half; each further state is one time step after the one before, between no-slip
walls in the first direction and periodic in the second; file `j` shows the state after `j` frames; the program ends normally if all files can be
created, with an exception at the first that cannot; and is undefined without the assumed alignment. -/
theorem C85_sod {nx ny : Int} (hnx : 2 ≤ nx) (hny : 2 ≤ ny) (canOpen : Nat → Bool) (numFrames numSteps : Nat) :
    ∃ g : Rectilinear α, grid nx ny = .ok g ∧ g.rng.dims = [(0, nx), (0, ny)] ∧
    (∃ (s : Nat → Cell → α) (file : Nat → List (Tok α)),
      (∀ x, InBox (g.rng.dims ++ [(0, 1)]) x → ∀ j : Nat, j < 5 → s 0 (x ++ [(j : Int)]) =
        jumpState (Arith.lit (1 / 8)) (Arith.lit (1 / 10)) (Arith.lit (7 / 5)) (Arith.lt (centre g x 0) (Arith.lit 0)) j) ∧
      (∀ j < numFrames * numSteps, GasStep g 1 [0] [1] (Arith.lit (7 / 5)) (Arith.lit (1 / 2) / Arith.ofInt (numFrames * numSteps)) (s j) (s (j + 1))) ∧
      (∀ j ≤ numFrames, FileShowsOne g.rng.dims ⟨"fluid", ["rho", "px", "py", "pz", "e"], Basis.volumeAverage⟩ (s (j * numSteps)) (file j)) ∧
      ∃ r, run true canOpen nx ny numFrames numSteps = .ok r ∧ RunEnds canOpen numFrames file r) ∧
    (canOpen 0 = true → 0 < numFrames → 0 < numSteps → ∃ w, run (α := α) false canOpen nx ny numFrames numSteps = .ok (.ub w)) := by
  obtain ⟨g, e1, hg, hd⟩ := sod_grid (α := α) hnx hny
  have hpos : Pos g.rng.dims := by
    rw [hd]; intro d hd'; simp at hd'; rcases hd' with rfl | rfl <;> simp <;> omega
  obtain ⟨nd, cons⟩ := five_names fluid_names
  have V : SoloVars (fun id => id ∈ fluid.ids) fluid 1 5 := solo_vars nd
  have hG := (C33_new_manager cons solo_points (g := g) (by rw [hd]; simp) hpos).1
  obtain ⟨range, s', w', hmake⟩ := hg.made
  obtain ⟨m0, k1, k2, k3, k4, k5, k6⟩ := C63_shock_tube (initial (α := α)) hG laid_new (Rectilinear.make_sized hmake) hg.three (outs := [fluid.q]) (by
    intro id hid; simp at hid; subst hid; exact ⟨fluid.at_mem 0, by decide, by decide⟩)
  have set0 := k5 fluid.q (by simp)
  obtain ⟨u, hu⟩ := stores_exist k3 (setTo_exists set0)
  have hgr : m0.grid = g := k4.grid
  obtain ⟨⟨s, file, a1, a2, a3, a4⟩, a5⟩ := solo_program V rfl (t := timeDt numFrames numSteps)
    (fun {_ _ _} => sod_head (P := (solvers 2 : Sod α)) V (ws := [0]) (ps := [1]) rfl rfl hg.bcs) (stepOf := (solvers 2 : Sod α).step) (fun _ _ => rfl) k1 k2 k3 hgr hg.made hg.three hu canOpen numFrames numSteps
  have er : ∀ al, run al canOpen nx ny numFrames numSteps = .ok (Run.main (shockTube initial [fluid.q]) canOpen [fluid.q] ((solvers 2 : Sod α).step al)
      (timeDt numFrames numSteps) numFrames numSteps ⟨Mgr.make g, []⟩) := by
    intro al
    unfold run
    rw [e1, Res.ok_bind]; rfl
  refine ⟨g, e1, hd, ⟨s, file, ?_, a2, a3, _, er true, a4⟩, ?_⟩
  · intro x hx j hj
    rw [a1]
    exact setTo_field set0 hu hx hj (mesh_in_array (p := 1) rfl (by rw [hgr]; exact hx) hj)
  · intro hc hf' hs'
    obtain ⟨w, hw⟩ := a5 hc hf' hs'
    exact ⟨w, by rw [er, ← hw]⟩

end

/-- **C85** In exact arithmetic and if all files can be created: in all files the densities have the same sum, and so do the energies. -/
theorem C85_totals {nx ny : Int} (hnx : 2 ≤ nx) (hny : 2 ≤ ny) (numFrames numSteps : Nat) :
    ∃ (r : Run ℝ) (Tm Te : ℝ), SodShockTube.run true (fun _ => true) nx ny numFrames numSteps = .ok (.ok () r) ∧
      r.files.map Prod.fst = List.range (numFrames + 1) ∧ ∀ file ∈ r.files.map Prod.snd, BlockSum file "fluid" "rho" Tm ∧ BlockSum file "fluid" "e" Te := by
  obtain ⟨g, -, hd, ⟨s, file, -, hs, hf, r, hr, hrun, -⟩, -⟩ := C85_sod (α := ℝ) hnx hny (fun _ => true) numFrames numSteps
  obtain ⟨m', rfl⟩ := hrun fun _ _ => rfl
  have hpos : Pos g.rng.dims := by
    rw [hd]; intro d hd'; simp at hd'; rcases hd' with rfl | rfl <;> simp <;> omega
  refine ⟨_, fieldTotal g.rng.dims 1 (s 0) 0, fieldTotal g.rng.dims 1 (s 0) 4, hr, by simp [Function.comp_def], fun fl hfl => ?_⟩
  simp only [List.map_map, List.mem_map, List.mem_range, Function.comp_def] at hfl
  obtain ⟨j, hj, rfl⟩ := hfl
  have key : ∀ k : Nat, k = 0 ∨ k = 4 → fieldTotal g.rng.dims 1 (s (j * numSteps)) k = fieldTotal g.rng.dims 1 (s 0) k := by
    intro k hk
    refine chain_const (f := fun q => fieldTotal g.rng.dims 1 q k) ?_ hs _ (Nat.mul_le_mul_right _ (by omega))
    intro a b H
    refine soloStep_total (n := 5) (by omega) ?_ H
    intro u u' r F hr
    exact gasRate_total (le_refl _) hpos (by rw [hd]; simp) (by rw [hd]; simp [lo, hi]; omega) (by rw [hd]; simp [lo, hi]; omega)
      (by rw [hd]; intro d h; simp at h ⊢; omega) F hr hk
  have B := fun k hk => blockSum_one (hf j (by omega)) (k := k) hk
  exact ⟨key 0 (.inl rfl) ▸ B 0 (by simp), key 4 (.inr rfl) ▸ B 4 (by simp)⟩

-- C85: as configured
example : ∃ (r : Run ℝ) (T : ℝ), SodShockTube.sodShockTube true (fun _ => true) = .ok (.ok () r) ∧ r.files.length = 101 ∧
    ∀ file ∈ r.files.map Prod.snd, BlockSum file "fluid" "e" T := by
  obtain ⟨r, _, T, h1, h2, h3⟩ := C85_totals (nx := 500) (ny := 2) (by decide) (by decide) 100 5
  exact ⟨r, T, h1, by have := congrArg List.length h2; simpa using this, fun f hf => (h3 f hf).2⟩

/-! ## C86 -/

section
variable {α : Type} [Arith α]
open Wave1D

theorem wave_grid {nx ny nz : Int} (hnx : 2 ≤ nx) (hny : 2 ≤ ny) (hnz : 2 ≤ nz) :
    ∃ g : Rectilinear α, grid nx ny nz = .ok g ∧ RunGrid g [] [0, 1, 2] ∧ g.rng.dims = [(0, nx), (0, ny), (0, nz)] := by
  obtain ⟨g, hg⟩ := Rectilinear.make_ok (range := Range.setup [(0, nx), (0, ny), (0, nz)]) (s := [Arith.lit (-1 / 2), Arith.lit (-1 / 2), Arith.lit (-1 / 2)])
    (w := [Arith.lit 1, Arith.lit 1, (Arith.lit 1 : α)]) (by simp) (by simp)
  have hd : g.rng.dims = [(0, nx), (0, ny), (0, nz)] := by rw [(Rectilinear.make_fields hg).1]; rfl
  refine ⟨g, ?_, ⟨⟨_, _, _, hg⟩, by rw [hd]; simp, ⟨(Rectilinear.make_sized hg).widths, by rw [hd]; simp, by simp, ?_, by simp⟩⟩, hd⟩
  · unfold grid
    have : Range.ofLengths 3 [nx, ny, nz] = .ok (Range.setup [(0, nx), (0, ny), (0, nz)]) := rfl
    rw [this, Res.ok_bind, hg]
  · intro i hi'; simp at hi'; rcases hi' with rfl | rfl | rfl <;> rw [hd] <;> simp [hi, lo] <;> omega

/-- The sine of the phase of the initial wave at `z`. -/
noncomputable def phaseSine (z : α) : α := Arith.sin (Arith.ofInt 2 * Arith.lit (314159263 / 10 ^ 8) * z)

/-- The six components of the initial wave, from the sine of its phase: electric field `(s, -s, 0)`, magnetic field `(s, s, 1)`. -/
def waveComponents (s : α) : List α :=
  [Arith.ofInt 1 * Arith.ofInt 1 * s, -Arith.ofInt 1 * Arith.ofInt 1 * s, Arith.lit 0, Arith.ofInt 1 * s, Arith.ofInt 1 * s, Arith.ofInt 1]

/-- **C86** wave_1D, with any numbers of cells (at least 2 in each direction), frames and steps, in any arithmetic: the first state is a plane wave
along the third direction; each further state is one time step after the one before, periodic in all directions; file `j` shows the state
after `j` frames; the program ends normally if all files can be created, with an exception at the first that cannot; and is undefined without the
assumed alignment. -/
theorem C86_wave {nx ny nz : Int} (hnx : 2 ≤ nx) (hny : 2 ≤ ny) (hnz : 2 ≤ nz) (canOpen : Nat → Bool) (numFrames numSteps : Nat) :
    ∃ g : Rectilinear α, grid nx ny nz = .ok g ∧ g.rng.dims = [(0, nx), (0, ny), (0, nz)] ∧
    (∃ (s : Nat → Cell → α) (file : Nat → List (Tok α)),
      (∀ x, InBox (g.rng.dims ++ [(0, 1)]) x → ∀ j : Nat, j < 6 → s 0 (x ++ [(j : Int)]) =
        (waveComponents (phaseSine (centre g x 2))).getD j (Arith.lit 0)) ∧
      (∀ j < numFrames * numSteps, LightStep g 1 [0, 1, 2] (Arith.ofInt 1) (Arith.lit 1 / Arith.ofInt (numFrames * numSteps)) (s j) (s (j + 1))) ∧
      (∀ j ≤ numFrames, FileShowsOne g.rng.dims ⟨"field", ["Ex", "Ey", "Ez", "Bx", "By", "Bz"], Basis.volumeAverage⟩ (s (j * numSteps)) (file j)) ∧
      ∃ r, run true canOpen nx ny nz numFrames numSteps = .ok r ∧ RunEnds canOpen numFrames file r) ∧
    (canOpen 0 = true → 0 < numFrames → 0 < numSteps → ∃ w, run (α := α) false canOpen nx ny nz numFrames numSteps = .ok (.ub w)) := by
  obtain ⟨g, e1, hg, hd⟩ := wave_grid (α := α) hnx hny hnz
  have hpos : Pos g.rng.dims := by
    rw [hd]; intro d hd'; simp at hd'; rcases hd' with rfl | rfl | rfl <;> simp <;> omega
  obtain ⟨nd, cons⟩ := five_names field_names
  have V : SoloVars (fun id => id ∈ field.ids) field 1 6 := solo_vars nd
  have hG := (C33_new_manager cons solo_points (g := g) (by rw [hd]; simp) hpos).1
  obtain ⟨range, s', w', hmake⟩ := hg.made
  obtain ⟨m0, k1, k2, k3, k4, k5, k6⟩ := wave_all (initial (α := α)) (dim := 2) rfl hG laid_new (Rectilinear.make_sized hmake) hg.three (by show 2 < g.rng.dims.length; rw [hd]; simp)
    (vs := fun x => waveComponents (phaseSine (centre g x 2))) (fun _ => rfl) (fun _ => rfl) (outs := [field.q]) (by
    intro id hid; simp at hid; subst hid; exact ⟨field.at_mem 0, by decide, by decide⟩)
  have set0 := k5 field.q (by simp)
  obtain ⟨u, hu⟩ := stores_exist k3 (setTo_exists set0)
  have hgr : m0.grid = g := k4.grid
  obtain ⟨⟨s, file, a1, a2, a3, a4⟩, a5⟩ := solo_program V rfl (t := timeDt numFrames numSteps)
    (fun {_ _ _} => light_head (P := (solvers : Light α)) V (ps := [0, 1, 2]) rfl hg.bcs) (stepOf := (solvers : Light α).step) (fun _ _ => rfl) k1 k2 k3 hgr hg.made hg.three hu canOpen numFrames numSteps
  have er : ∀ al, run al canOpen nx ny nz numFrames numSteps = .ok (Run.main (wave initial [field.q]) canOpen [field.q] ((solvers : Light α).step al)
      (timeDt numFrames numSteps) numFrames numSteps ⟨Mgr.make g, []⟩) := by
    intro al
    unfold run
    rw [e1, Res.ok_bind]; rfl
  refine ⟨g, e1, hd, ⟨s, file, ?_, a2, a3, _, er true, a4⟩, ?_⟩
  · intro x hx j hj
    rw [a1]
    refine setTo_field set0 hu ?_ hj (mesh_in_array (p := 1) rfl (by rw [hgr]; exact hx) hj)
    exact inBox_interior (by decide) hx
  · intro hc hf' hs'
    obtain ⟨w, hw⟩ := a5 hc hf' hs'
    exact ⟨w, by rw [er, ← hw]⟩

end

/-- **C86** In exact arithmetic and if all files can be created: each of the six components has the same sum in all files. -/
theorem C86_totals {nx ny nz : Int} (hnx : 2 ≤ nx) (hny : 2 ≤ ny) (hnz : 2 ≤ nz) (numFrames numSteps : Nat) :
    ∃ r : Run ℝ, Wave1D.run true (fun _ => true) nx ny nz numFrames numSteps = .ok (.ok () r) ∧ r.files.map Prod.fst = List.range (numFrames + 1) ∧
      ∀ comp ∈ ["Ex", "Ey", "Ez", "Bx", "By", "Bz"], ∃ T : ℝ, ∀ file ∈ r.files.map Prod.snd, BlockSum file "field" comp T := by
  obtain ⟨g, -, hd, ⟨s, file, -, hs, hf, r, hr, hrun, -⟩, -⟩ := C86_wave (α := ℝ) hnx hny hnz (fun _ => true) numFrames numSteps
  obtain ⟨m', rfl⟩ := hrun fun _ _ => rfl
  have hpos : Pos g.rng.dims := by
    rw [hd]; intro d hd'; simp at hd'; rcases hd' with rfl | rfl | rfl <;> simp <;> omega
  refine ⟨_, hr, by simp [Function.comp_def], ?_⟩
  have key : ∀ k : Nat, k < 6 → ∀ fl ∈ (List.range (numFrames + 1)).map file, BlockSum fl "field" (["Ex", "Ey", "Ez", "Bx", "By", "Bz"].getD k "") (fieldTotal g.rng.dims 1 (s 0) k) := by
    intro k hk fl hfl
    simp only [List.mem_map, List.mem_range] at hfl
    obtain ⟨j, hj, rfl⟩ := hfl
    have : fieldTotal g.rng.dims 1 (s (j * numSteps)) k = fieldTotal g.rng.dims 1 (s 0) k := by
      refine chain_const (f := fun q => fieldTotal g.rng.dims 1 q k) ?_ hs _ (Nat.mul_le_mul_right _ (by omega))
      intro a b H
      refine soloStep_total (n := 6) (by omega) ?_ H
      intro u u' r F hr
      exact lightRate_total (le_refl _) hpos (by rw [hd]; intro d h; simp at h; rcases h with rfl | rfl | rfl <;> simp [lo, hi] <;> omega)
        (by rw [hd]; intro d h; simp at h ⊢; omega) F hr hk
    rw [← this]
    have hb := blockSum_one (hf j (by omega)) (k := k) hk
    rwa [List.getD_eq_getElem?_getD, List.getElem?_eq_getElem hk]
  have e : ∀ x : List (Nat × List (Tok ℝ)), x = (List.range (numFrames + 1)).map (fun j => (j, file j)) → x.map Prod.snd = (List.range (numFrames + 1)).map file := by
    rintro x rfl; simp [Function.comp_def]
  intro comp hc
  simp only [List.mem_cons, List.not_mem_nil, or_false] at hc
  rcases hc with rfl | rfl | rfl | rfl | rfl | rfl
  · exact ⟨_, fun fl h => key 0 (by decide) fl (e _ rfl ▸ h)⟩
  · exact ⟨_, fun fl h => key 1 (by decide) fl (e _ rfl ▸ h)⟩
  · exact ⟨_, fun fl h => key 2 (by decide) fl (e _ rfl ▸ h)⟩
  · exact ⟨_, fun fl h => key 3 (by decide) fl (e _ rfl ▸ h)⟩
  · exact ⟨_, fun fl h => key 4 (by decide) fl (e _ rfl ▸ h)⟩
  · exact ⟨_, fun fl h => key 5 (by decide) fl (e _ rfl ▸ h)⟩

-- C86: as configured
example : ∃ (r : Run ℝ) (T : ℝ), Wave1D.wave1D true (fun _ => true) = .ok (.ok () r) ∧ r.files.length = 101 ∧
    ∀ file ∈ r.files.map Prod.snd, BlockSum file "field" "Bz" T := by
  obtain ⟨r, h1, h2, h3⟩ := C86_totals (nx := 2) (ny := 2) (nz := 128) (by decide) (by decide) (by decide) 100 10
  obtain ⟨T, hT⟩ := h3 "Bz" (by simp)
  exact ⟨r, T, h1, by have := congrArg List.length h2; simpa using this, hT⟩

/-! ## C87 -/

section
variable {α : Type} [Arith α]

/-- **C87** (false of the code) gaussian_pulse and advect_gaussian are undefined for all numbers of cells, frames and steps: their initial
conditions read elements of `x` that the grid of fewer than three dimensions does not give. -/
theorem C87_false {nx ny : Int} (hnx : 1 ≤ nx) (hny : 1 ≤ ny) (al : Bool) (canOpen : Nat → Bool) (numFrames numSteps : Nat) :
    (∃ w, GaussianPulse.run (α := α) al canOpen nx numFrames numSteps = .ok (.ub w)) ∧
    ∃ w, AdvectGaussian.run (α := α) canOpen nx ny numFrames numSteps = .ok (.ub w) := by
  constructor
  · obtain ⟨g, hg⟩ := Rectilinear.make_ok (range := Range.setup [(0, nx)]) (s := [Arith.lit (-1 / 2)]) (w := [(Arith.lit 1 : α)]) (by simp) (by simp)
    have hd : g.rng.dims = [(0, nx)] := by rw [(Rectilinear.make_fields hg).1]; rfl
    have hpos : Pos g.rng.dims := by
      rw [hd]; intro d hd'; simp at hd'; subst hd'; simp; omega
    obtain ⟨nd, cons⟩ := five_names field_names
    have hG := (C33_new_manager cons solo_points (g := g) (by rw [hd]; simp) hpos).1
    obtain ⟨w, hw⟩ := (C65_false hG laid_new (Rectilinear.make_sized hg) (by show g.rng.dims.length ≤ 2; rw [hd]; simp) (Wave1D.field.at_mem 0) (by decide) (by decide) []).2.1
      (Arith.lit 1) (Arith.lit (1 / 100))
    refine ⟨w, ?_⟩
    unfold GaussianPulse.run GaussianPulse.grid
    rw [show Range.ofLengths 1 [nx] = .ok (Range.setup [(0, nx)]) from rfl, Res.ok_bind, hg, Res.ok_bind]
    exact congrArg Res.ok (main_initial_ub hw canOpen numFrames numSteps)
  · obtain ⟨g, hg⟩ := Rectilinear.make_ok (range := Range.setup [(0, nx), (0, ny)]) (s := [Arith.lit (-1 / 2), Arith.lit (-1 / 2)])
      (w := [Arith.lit 1, (Arith.lit 1 : α)]) (by simp) (by simp)
    have hd : g.rng.dims = [(0, nx), (0, ny)] := by rw [(Rectilinear.make_fields hg).1]; rfl
    have hpos : Pos g.rng.dims := by
      rw [hd]; intro d hd'; simp at hd'; rcases hd' with rfl | rfl <;> simp <;> omega
    have hG := (C33_new_manager (S := fun id => id = AdvectGaussian.var) (fun a b ha hb _ => ha.trans hb.symm) (by rintro _ rfl; decide) (g := g) (by rw [hd]; simp) hpos).1
    have h2 : g.rng.dims.length ≤ 2 := by rw [hd]; simp
    obtain ⟨w, hw⟩ : ∃ w, gaussian (Init.Gaussian.setup (Arith.lit 1) [Arith.ofInt 0, Arith.ofInt 0, Arith.ofInt 0] (Arith.lit (1 / 10))) [AdvectGaussian.var]
        (Mgr.make g) = .ub w := by
      refine initial_ub hG laid_new rfl (fun c hc => ?_)
      exact (loops_ub hG (by decide) (by decide) hc (fun a b y d hy => (unread_rounds hG (Rectilinear.make_sized hg) h2 hy d).2.1 _ (resize3_length _))).1
    refine ⟨w, ?_⟩
    unfold AdvectGaussian.run AdvectGaussian.grid
    rw [show Range.ofLengths 2 [nx, ny] = .ok (Range.setup [(0, nx), (0, ny)]) from rfl, Res.ok_bind, hg, Res.ok_bind]
    exact congrArg Res.ok (main_initial_ub hw canOpen numFrames numSteps)

end

-- C87: as configured
example : ∃ w, GaussianPulse.gaussianPulse (α := ℝ) true (fun _ => true) = .ok (.ub w) := (C87_false (nx := 128) (ny := 1) (by decide) (by decide) true _ 100 10).1
example : ∃ w, AdvectGaussian.advectGaussian (α := ℝ) (fun _ => true) = .ok (.ub w) :=
  (C87_false (nx := 128) (ny := 128) (by decide) (by decide) true _ 100 10).2

end QK.Props
