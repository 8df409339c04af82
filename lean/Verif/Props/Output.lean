import Verif.Props.Examples
import Verif.Props.PulseProgram
import Verif.Proofs.Console
/-
C132: writing files does not influence the run.
-/
namespace QK.Props
open QK Spec SM

section
variable {α : Type} [Arith α] {ids : List VarId}

theorem steps_zero (step : α → SM (Mgr α) α) (time : α) (m : Mgr α) : Run.steps step 0 time m = .ok time m := rfl

theorem steps_succ (step : α → SM (Mgr α) α) (n : Nat) (time : α) (m : Mgr α) : Run.steps step (n + 1) time m =
    match step time m with
    | .ok t m' => Run.steps step n t m'
    | .throw w m' => .throw w m'
    | .ub w => .ub w
    | .diverge => .diverge := by
  rw [Run.steps]
  simp only [bind, SM.bind]
  cases step time m <;> rfl

theorem writeVars_congr {m m' : Mgr α} (hv : m.vars = m'.vars) (hh : m.heap = m'.heap) : ∀ ids, Vtk.writeVars m ids = Vtk.writeVars m' ids
  | [] => by rw [Vtk.writeVars, Vtk.writeVars]
  | id :: ids => by rw [Vtk.writeVars, Vtk.writeVars, hv, hh, writeVars_congr hv hh ids]

theorem write_setDt (m : Mgr α) (t dt : α) (b : Bool) : Vtk.write ((m.setTime t).setDt dt) b ids = Vtk.write m b ids := by
  cases ids with
  | nil => rw [Vtk.write, Vtk.write]
  | cons id ids => rw [Vtk.write, Vtk.write, writeVars_congr (m := (m.setTime t).setDt dt) (m' := m) rfl rfl, show ((m.setTime t).setDt dt).grid = m.grid from rfl]

/-- After `a` steps, `b` more. -/
theorem steps_add (step : α → SM (Mgr α) α) : ∀ (a b : Nat) {time t : α} {m m' : Mgr α}, Run.steps step a time m = .ok t m' →
    Run.steps step (a + b) time m = Run.steps step b t m'
  | 0, b, time, t, m, m', h => by
    have h' : (SRes.ok time m : SRes (Mgr α) α) = .ok t m' := h
    cases h'
    rw [Nat.zero_add]
  | a + 1, b, time, t, m, m', h => by
    rw [show a + 1 + b = (a + b) + 1 by omega]
    rw [steps_succ] at h ⊢
    cases hs : step time m with
    | ok t1 m1 => rw [hs] at h; exact steps_add step a b h
    | throw => rw [hs] at h; cases h
    | ub => rw [hs] at h; cases h
    | diverge => rw [hs] at h; cases h

/-- A file shows what `write_vtk` writes for the manager after `n` steps. -/
def WrittenAfter (ids : List VarId) (step : α → SM (Mgr α) α) (time : α) (m : Mgr α) (n : Nat) (file : List (Tok α)) : Prop :=
  ∃ t m' b, Run.steps step n time m = .ok t m' ∧ Vtk.write m' true ids [] = .ok b file

theorem WrittenAfter.unique {step : α → SM (Mgr α) α} {time : α} {m : Mgr α} {n : Nat} {f f' : List (Tok α)} (h : WrittenAfter ids step time m n f)
    (h' : WrittenAfter ids step time m n f') : f = f' := by
  obtain ⟨t, m1, b, h1, h2⟩ := h
  obtain ⟨t', m2, b', h3, h4⟩ := h'
  rw [h1] at h3; cases h3
  rw [h2] at h4; cases h4; rfl

theorem export_ok {k : Nat} {s r : Run α} {u : Unit} (h : Run.exportFrame (fun _ => true) k ids s = .ok u r) :
    ∃ b f, Vtk.write s.mgr true ids [] = .ok b f ∧ r = { s with files := s.files ++ [(k, f)] } := by
  unfold Run.exportFrame at h
  cases hw : Vtk.write s.mgr true ids [] with
  | ok b f => rw [hw] at h; cases h; exact ⟨b, f, rfl, rfl⟩
  | throw => rw [hw] at h; cases h
  | ub => rw [hw] at h; cases h
  | diverge => rw [hw] at h; cases h

theorem frames_trace {step : α → SM (Mgr α) α} {S : Nat} {m0 : Mgr α} {t0 : α} : ∀ {n i : Nat} {time : α} {s r : Run α},
    Run.frames (fun _ => true) ids step S n i time s = .ok () r → Run.steps step (i * S) t0 m0 = .ok time s.mgr →
    (∀ j f, (j, f) ∈ s.files → WrittenAfter ids step t0 m0 (j * S) f) →
    (∃ t, Run.steps step ((i + n) * S) t0 m0 = .ok t r.mgr) ∧ ∀ j f, (j, f) ∈ r.files → WrittenAfter ids step t0 m0 (j * S) f
  | 0, i, time, s, r, h, hs, hf => by
    have h' : (SRes.ok () s : SRes (Run α) Unit) = .ok () r := h
    cases h'
    exact ⟨⟨time, hs⟩, hf⟩
  | n + 1, i, time, s, r, h, hs, hf => by
    rw [Timed.run_frames_succ] at h
    unfold Run.onMgr at h
    cases hS : Run.steps step S time s.mgr with
    | throw => rw [hS] at h; cases h
    | ub => rw [hS] at h; cases h
    | diverge => rw [hS] at h; cases h
    | ok t1 m1 =>
      rw [hS] at h
      simp only at h
      cases hE : Run.exportFrame (fun _ => true) (i + 1) ids { s with mgr := m1 } with
      | throw => rw [hE] at h; cases h
      | ub => rw [hE] at h; cases h
      | diverge => rw [hE] at h; cases h
      | ok u r2 =>
        rw [hE] at h
        obtain ⟨b, f, hw, rfl⟩ := export_ok hE
        have e1 : Run.steps step ((i + 1) * S) t0 m0 = .ok t1 m1 := by
          rw [Nat.succ_mul, steps_add step _ _ hs, hS]
        rw [show i + (n + 1) = i + 1 + n by omega]
        refine frames_trace h e1 fun j f' hj => ?_
        rcases List.mem_append.1 hj with hj | hj
        · exact hf j f' hj
        · cases List.mem_singleton.1 hj
          exact ⟨t1, m1, b, e1, hw⟩

/-- A program that ends normally: the final state is that after all steps, and every file is what `write_vtk` writes after the steps of its frame. -/
theorem main_trace {ic : SM (Mgr α) Unit} {step : α → α → SM (Mgr α) α} {dt : α} {F S : Nat} {m : Mgr α} {r : Run α}
    (h : Run.main ic (fun _ => true) ids step dt F S ⟨m, []⟩ = .ok () r) :
    ∃ m1, ic m = .ok () m1 ∧ (∃ t, Run.steps (step dt) (F * S) (Arith.lit 0) ((m1.setTime (Arith.lit 0)).setDt dt) = .ok t r.mgr) ∧
      ∀ j f, (j, f) ∈ r.files → WrittenAfter ids (step dt) (Arith.lit 0) ((m1.setTime (Arith.lit 0)).setDt dt) (j * S) f := by
  rw [Timed.run_main_eq] at h
  unfold Run.onMgr at h
  cases hi : ic m with
  | throw => simp only [hi] at h; cases h
  | ub => simp only [hi] at h; cases h
  | diverge => simp only [hi] at h; cases h
  | ok u m1 =>
    simp only [hi] at h
    cases hE : Run.exportFrame (fun _ => true) 0 ids ⟨m1, []⟩ with
    | throw => rw [hE] at h; cases h
    | ub => rw [hE] at h; cases h
    | diverge => rw [hE] at h; cases h
    | ok u r2 =>
      rw [hE] at h
      obtain ⟨b, f, hw, rfl⟩ := export_ok hE
      refine ⟨m1, rfl, ?_⟩
      have e0 : Run.steps (step dt) (0 * S) (Arith.lit 0) ((m1.setTime (Arith.lit 0)).setDt dt) = .ok (Arith.lit 0) ((m1.setTime (Arith.lit 0)).setDt dt) := by
        rw [Nat.zero_mul]; exact steps_zero _ _ _
      have := frames_trace (m0 := (m1.setTime (Arith.lit 0)).setDt dt) (t0 := Arith.lit 0) h e0 (fun j f' hj => by
        obtain ⟨rfl, rfl⟩ : j = 0 ∧ f' = f := by simpa using hj
        exact ⟨_, _, b, e0, by rw [write_setDt]; exact hw⟩)
      rwa [Nat.zero_add] at this

/-- The two runs end in the same state, and files for the same number of steps are the same. -/
structure SameOutput (S S' : Nat) (r r' : Run α) : Prop where
  mgr : r.mgr = r'.mgr
  files : ∀ j j' f f', (j, f) ∈ r.files → (j', f') ∈ r'.files → j * S = j' * S' → f = f'

/-- **C132** How often files are written does not matter: any program, after any initial condition, with any solvers, that makes as many steps with another number of steps per
file, ends in exactly the same state – all variables, all ghost cells, time – and files for the same number of steps are the same. Any arithmetic. -/
theorem C132_frames {ic : SM (Mgr α) Unit} {step : α → α → SM (Mgr α) α} {dt : α} {F S F' S' : Nat} (hF : F * S = F' * S') {m : Mgr α} {r r' : Run α}
    (h : Run.main ic (fun _ => true) ids step dt F S ⟨m, []⟩ = .ok () r) (h' : Run.main ic (fun _ => true) ids step dt F' S' ⟨m, []⟩ = .ok () r') : SameOutput S S' r r' := by
  obtain ⟨m1, h1, ⟨t, h2⟩, h3⟩ := main_trace h
  obtain ⟨m2, h4, ⟨t', h5⟩, h6⟩ := main_trace h'
  rw [h1] at h4; cases h4
  rw [hF, h5] at h2
  refine ⟨?_, fun j j' f f' hj hj' e => ?_⟩
  · injection h2 with _ h2; exact h2.symm
  · have := h3 j f hj
    rw [e] at this
    exact this.unique (h6 j' f' hj')

/-- **C132** A longer run starts with the shorter one: with the same step size, the files of the run with fewer frames are the first files of the longer run. Any arithmetic. -/
theorem C132_longer {ic : SM (Mgr α) Unit} {step : α → α → SM (Mgr α) α} {dt : α} {F F' S : Nat} {m : Mgr α} {r r' : Run α}
    (h : Run.main ic (fun _ => true) ids step dt F S ⟨m, []⟩ = .ok () r) (h' : Run.main ic (fun _ => true) ids step dt F' S ⟨m, []⟩ = .ok () r') :
    ∀ j f f', (j, f) ∈ r.files → (j, f') ∈ r'.files → f = f' := by
  obtain ⟨m1, h1, -, h3⟩ := main_trace h
  obtain ⟨m2, h4, -, h6⟩ := main_trace h'
  rw [h1] at h4; cases h4
  exact fun j f f' hj hj' => (h3 j f hj).unique (h6 j f' hj')

end

section
variable {α : Type} [Arith α]

theorem sameDt {F S F' S' : Nat} (h : F * S = F' * S') : (Arith.ofInt (F * S) : α) = Arith.ofInt (F' * S') := by
  congr 1; exact_mod_cast h

/-- **C132** The programs, with as many steps in total but another number of frames: both runs end normally, in the same state, and the files for the same time are equal
number by number. Any arithmetic: bit for bit. -/
theorem C132_programs {F S F' S' : Nat} (h : F * S = F' * S') {nx ny nz : Int} (hnx : 2 ≤ nx) (hny : 2 ≤ ny) (hnz : 2 ≤ nz) :
    (∃ r r' : Run α, SodShockTube.run true (fun _ => true) nx ny F S = .ok (.ok () r) ∧ SodShockTube.run true (fun _ => true) nx ny F' S' = .ok (.ok () r') ∧ SameOutput S S' r r') ∧
    (∃ r r' : Run α, Wave1D.run true (fun _ => true) nx ny nz F S = .ok (.ok () r) ∧ Wave1D.run true (fun _ => true) nx ny nz F' S' = .ok (.ok () r') ∧ SameOutput S S' r r') ∧
    (∃ r r' : Run α, TwoFluidBrioWu.run true (fun _ => true) nx F S = .ok (.ok () r) ∧ TwoFluidBrioWu.run true (fun _ => true) nx F' S' = .ok (.ok () r') ∧ SameOutput S S' r r') ∧
    (∃ r r' : Run α, HarrisCurrentSheet.run true (fun _ => true) nx F S = .ok (.ok () r) ∧ HarrisCurrentSheet.run true (fun _ => true) nx F' S' = .ok (.ok () r') ∧ SameOutput S S' r r') ∧
    (∃ r r' : Run α, GemChallenge.run true (fun _ => true) nx F S = .ok (.ok () r) ∧ GemChallenge.run true (fun _ => true) nx F' S' = .ok (.ok () r') ∧ SameOutput S S' r r') := by
  refine ⟨?_, ?_, ?_, ?_, ?_⟩
  · obtain ⟨g, hg, -, ⟨_, _, _, _, _, r, hr, he⟩, -⟩ := C85_sod (α := α) hnx hny (fun _ => true) F S
    obtain ⟨g', hg', -, ⟨_, _, _, _, _, r', hr', he'⟩, -⟩ := C85_sod (α := α) hnx hny (fun _ => true) F' S'
    obtain ⟨m, rfl⟩ := he.1 (fun _ _ => rfl)
    obtain ⟨m', rfl⟩ := he'.1 (fun _ _ => rfl)
    refine ⟨_, _, hr, hr', ?_⟩
    unfold SodShockTube.run at hr hr'
    rw [hg] at hr hr'
    have e1 := Res.ok.inj hr
    have e2 := Res.ok.inj hr'
    rw [SodShockTube.timeDt, sameDt h] at e1
    exact C132_frames h e1 e2
  · obtain ⟨g, hg, -, ⟨_, _, _, _, _, r, hr, he⟩, -⟩ := C86_wave (α := α) hnx hny hnz (fun _ => true) F S
    obtain ⟨g', hg', -, ⟨_, _, _, _, _, r', hr', he'⟩, -⟩ := C86_wave (α := α) hnx hny hnz (fun _ => true) F' S'
    obtain ⟨m, rfl⟩ := he.1 (fun _ _ => rfl)
    obtain ⟨m', rfl⟩ := he'.1 (fun _ _ => rfl)
    refine ⟨_, _, hr, hr', ?_⟩
    unfold Wave1D.run at hr hr'
    rw [hg] at hr hr'
    have e1 := Res.ok.inj hr
    have e2 := Res.ok.inj hr'
    rw [Wave1D.timeDt, sameDt h] at e1
    exact C132_frames h e1 e2
  · obtain ⟨g, _, _, _, hg, _, _, _, _, ⟨_, _, _, _, _, r, hr, he⟩, _⟩ := C84_brio (α := α) hnx (fun _ => true) F S
    obtain ⟨_, _, _, _, _, _, _, _, _, ⟨_, _, _, _, _, r', hr', he'⟩, _⟩ := C84_brio (α := α) hnx (fun _ => true) F' S'
    obtain ⟨m, rfl⟩ := he.1 (fun _ _ => rfl)
    obtain ⟨m', rfl⟩ := he'.1 (fun _ _ => rfl)
    refine ⟨_, _, hr, hr', ?_⟩
    unfold TwoFluidBrioWu.run at hr hr'
    simp only [hg, Res.ok_bind] at hr hr'
    generalize hc : Source.currentSetup (α := α) _ _ _ = ms at hr hr'
    cases ms with
    | ok ms =>
      have e1 := Res.ok.inj hr
      have e2 := Res.ok.inj hr'
      rw [TwoFluidBrioWu.timeDt, sameDt h] at e1
      exact C132_frames h e1 e2
    | throw => cases hr
    | ub => cases hr
    | diverge => cases hr
  · obtain ⟨g, _, _, _, hg, _, _, _, _, ⟨_, _, _, _, _, r, hr, he⟩, _⟩ := C84_harris (α := α) hnx (fun _ => true) F S
    obtain ⟨_, _, _, _, _, _, _, _, _, ⟨_, _, _, _, _, r', hr', he'⟩, _⟩ := C84_harris (α := α) hnx (fun _ => true) F' S'
    obtain ⟨m, rfl⟩ := he.1 (fun _ _ => rfl)
    obtain ⟨m', rfl⟩ := he'.1 (fun _ _ => rfl)
    refine ⟨_, _, hr, hr', ?_⟩
    unfold HarrisCurrentSheet.run at hr hr'
    simp only [hg, Res.ok_bind] at hr hr'
    generalize hc : Source.currentSetup (α := α) _ _ _ = ms at hr hr'
    cases ms with
    | ok ms =>
      have e1 := Res.ok.inj hr
      have e2 := Res.ok.inj hr'
      rw [HarrisCurrentSheet.timeDt, sameDt h] at e1
      exact C132_frames h e1 e2
    | throw => cases hr
    | ub => cases hr
    | diverge => cases hr
  · obtain ⟨g, _, _, _, hg, _, _, _, _, _, _, _, _, _, he, _⟩ := C81_gem (α := α) hnx (fun _ => true) F S
    obtain ⟨_, _, _, _, _, _, _, _, _, _, _, _, _, _, he', _⟩ := C81_gem (α := α) hnx (fun _ => true) F' S'
    obtain ⟨m, hr⟩ := he (fun _ _ => rfl)
    obtain ⟨m', hr'⟩ := he' (fun _ _ => rfl)
    refine ⟨_, _, hr, hr', ?_⟩
    unfold GemChallenge.run at hr hr'
    simp only [hg, Res.ok_bind] at hr hr'
    generalize hc : Source.currentSetup (α := α) _ _ _ = ms at hr hr'
    cases ms with
    | ok ms =>
      have e1 := Res.ok.inj hr
      have e2 := Res.ok.inj hr'
      rw [GemChallenge.timeDt, sameDt h] at e1
      exact C132_frames h e1 e2
    | throw => cases hr
    | ub => cases hr
    | diverge => cases hr

-- sod_shock_tube as configured (100 frames of 5 steps) and with a single frame of 500 steps: the last files are equal
example : ∃ r r' : Run α, SodShockTube.sodShockTube true (fun _ => true) = .ok (.ok () r) ∧ SodShockTube.run true (fun _ => true) 500 2 1 500 = .ok (.ok () r') ∧
    ∀ f f', (100, f) ∈ r.files → (1, f') ∈ r'.files → f = f' := by
  obtain ⟨⟨r, r', h, h', e⟩, -⟩ := C132_programs (α := α) (F := 100) (S := 5) (F' := 1) (S' := 500) rfl (nx := 500) (ny := 2) (nz := 2) (by decide) (by decide) (by decide)
  exact ⟨r, r', h, h', fun f f' hf hf' => e.files 100 1 f f' hf hf' rfl⟩

end
end QK.Props
