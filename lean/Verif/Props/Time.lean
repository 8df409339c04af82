import Mathlib.Analysis.SpecialFunctions.Exp
import Verif.Proofs.Timeless
import Verif.Props.Output
import Verif.Proofs.RoundingModel
/-
C136: the time of a simulation.
-/
namespace QK.Props
open QK Spec SM Solve

section
variable {α : Type} [Arith α]

/-! ### The steps of the programs -/

theorem timeStep {x : SM (Mgr α) Unit} (hx : Timeless x) {step : α → α → SM (Mgr α) α} (hd : ∀ D d t, Keeps (fun m : Mgr α => m.dt = D) (step d t))
    (he : ∀ d t, step d t = (x >>= fun _ => SM.modifyRes (fun m => .ok (m.setTime (t + d))) >>= fun _ => pure (t + d))) : TimeStep step where
  adds := by
    intro d t m t' m' h
    have hk := (hd m.dt d t m rfl).1 _ _ h
    rw [he] at h
    have h : SM.bind x _ m = .ok t' m' := h
    unfold SM.bind at h
    cases hr : x m with
    | ok b s =>
      rw [hr] at h
      have h : (SRes.ok (t + d) (s.setTime (t + d)) : SRes (Mgr α) α) = .ok t' m' := h
      cases h
      exact ⟨rfl, rfl, hk⟩
    | throw => rw [hr] at h; cases h
    | ub => rw [hr] at h; cases h
    | diverge => rw [hr] at h; cases h
  blind := by
    intro d t₁ t₂ s₁ s₂ m
    rw [he, he]
    show ((SM.bind x _ _).mapState _).noValue = ((SM.bind x _ _).mapState _).noValue
    unfold SM.bind
    rw [hx s₁ s₂ m]
    cases x (m.setTime s₂) <;> rfl

theorem outputVar_dt (D : Option α) (id : VarId) : Keeps (fun m : Mgr α => m.dt = D) (outputVar id) := by
  intro m hm
  have := outputVar_clock (d := D) (t := m.time) id m ⟨hm, rfl⟩
  exact ⟨fun b s h => (this.1 b s h).1, fun b s h => (this.2 b s h).1⟩

omit [Arith α] in
theorem stable_dt (D : Option α) : Stable (fun m : Mgr α => m.dt = D) := fun _ _ _ _ _ h _ e => h.trans e

theorem setTime_dt (D : Option α) (t : α) : Keeps (fun m : Mgr α => m.dt = D) (Call.setTime t).run := by
  intro m hm
  refine ⟨fun b s h => ?_, fun b s h => ?_⟩
  · cases h; exact hm
  · cases h

theorem plasma_time (P : Plasma α) (al : Bool) : TimeStep (P.step al) := by
  have st : ∀ k, Timeless (P.stage al k) := by
    intro k
    unfold Plasma.stage
    refine Timeless.bind ?_ fun _ => Timeless.bind ?_ fun _ => ?_
    · unfold Plasma.bcs
      refine (Timeless.eachOutput _ _).bind fun _ => (Timeless.eachOutput _ _).bind fun _ => ?_
      unfold Plasma.periodicBc
      split
      · exact Timeless.eachOutput _ _
      · exact Timeless.pure _
    · unfold Plasma.rates
      exact (Timeless.eachOutput _ _).bind fun _ => (Timeless.euler _ _ _).bind fun _ => (Timeless.lorentz _ _ _).bind fun _ =>
        (Timeless.euler _ _ _).bind fun _ => (Timeless.lorentz _ _ _).bind fun _ => (Timeless.maxwell _ _ _).bind fun _ => Timeless.current _ _ _
    · unfold Plasma.advance
      exact (Timeless.ssprk3 _ _ _ _).bind fun _ => (Timeless.ssprk3 _ _ _ _).bind fun _ => Timeless.ssprk3 _ _ _ _
  refine timeStep (x := do P.stage al 0; P.stage al 1; P.stage al 2; swap [P.e.q, P.e.q3, P.i.q, P.i.q3, P.f.q, P.f.q3])
    ((st 0).bind fun _ => (st 1).bind fun _ => (st 2).bind fun _ => Timeless.swap _)
    (fun D d t => Lifetime.plasma_stable (stable_dt D) (setTime_dt D) P (fun id _ => outputVar_dt D id) al d t) fun d t => ?_
  unfold Plasma.step
  simp only [bind_assoc]

theorem sod_time (P : Sod α) (al : Bool) : TimeStep (P.step al) := by
  have st : ∀ k, Timeless (P.stage al k) := by
    intro k
    unfold Sod.stage
    refine (Timeless.eachOutput _ _).bind fun _ => Timeless.bind ?_ fun _ => (Timeless.eachOutput _ _).bind fun _ => (Timeless.euler _ _ _).bind fun _ => Timeless.ssprk3 _ _ _ _
    unfold Plasma.periodicBc
    split
    · exact Timeless.eachOutput _ _
    · exact Timeless.pure _
  refine timeStep (x := do P.stage al 0; P.stage al 1; P.stage al 2; swap [P.v.q, P.v.q3])
    ((st 0).bind fun _ => (st 1).bind fun _ => (st 2).bind fun _ => Timeless.swap _)
    (fun D d t => Lifetime.sod_stable (stable_dt D) (setTime_dt D) P (fun id _ => outputVar_dt D id) al d t) fun d t => ?_
  unfold Sod.step
  simp only [bind_assoc]

theorem light_time (P : Light α) (al : Bool) : TimeStep (P.step al) := by
  have st : ∀ k, Timeless (P.stage al k) := by
    intro k
    unfold Light.stage
    exact (Timeless.eachOutput _ _).bind fun _ => (Timeless.eachOutput _ _).bind fun _ => (Timeless.maxwell _ _ _).bind fun _ => Timeless.ssprk3 _ _ _ _
  refine timeStep (x := do P.stage al 0; P.stage al 1; P.stage al 2; swap [P.v.q, P.v.q3])
    ((st 0).bind fun _ => (st 1).bind fun _ => (st 2).bind fun _ => Timeless.swap _)
    (fun D d t => Lifetime.light_stable (stable_dt D) (setTime_dt D) P (fun id _ => outputVar_dt D id) al d t) fun d t => ?_
  unfold Light.step
  simp only [bind_assoc]

theorem advect_time : TimeStep (AdvectGaussian.step (α := α)) := by
  refine timeStep (x := do
      periodic [] [AdvectGaussian.var]
      advection [Arith.lit (-1), Arith.lit (-1)] [AdvectGaussian.var] [AdvectGaussian.partialVar, AdvectGaussian.newVar] 0
      periodic [] [AdvectGaussian.partialVar]
      advection [Arith.lit (-1), Arith.lit (-1)] [AdvectGaussian.var] [AdvectGaussian.partialVar, AdvectGaussian.newVar] 1
      swap [AdvectGaussian.var, AdvectGaussian.newVar])
    ((Timeless.eachOutput _ _).bind fun _ => (Timeless.advection _ _ _ _).bind fun _ => (Timeless.eachOutput _ _).bind fun _ => (Timeless.advection _ _ _ _).bind fun _ => Timeless.swap _)
    (fun D d t => Lifetime.advect_stable (stable_dt D) (setTime_dt D) (fun id _ => outputVar_dt D id) d t) fun d t => ?_
  unfold AdvectGaussian.step
  simp only [bind_assoc]

/-- **C136** No solver of the library looks at the time or changes it, except that ssprk2_advection needs it to be set: with another time in the manager every call ends in
the same way, in the same state but for the time. -/
theorem C136_calls : (∀ c : Call α, c.isLibrary = true → (∀ t, c ≠ .setTime t) → ∀ t t' (m : Mgr α), c.run (m.setTime t) = (c.run (m.setTime t')).mapState (Mgr.setTime t)) ∧
    ∀ (velocity : List α) ins outs tag t t' (m : Mgr α),
      advection velocity ins outs tag (m.setTime t) = (advection velocity ins outs tag (m.setTime t')).mapState (Mgr.setTime t) := by
  refine ⟨?_, Timeless.advection⟩
  intro c hl hn
  show Timeless c.run
  cases c with
  | output id => exact (Timeless.outputVar id).bind fun _ => Timeless.pure _
  | setDt d => exact fun _ _ _ => rfl
  | setTime t => exact absurd rfl (hn t)
  | fill outs value => exact Timeless.eachOutput _ _
  | swap outs => exact Timeless.swap _
  | periodic dims outs => exact Timeless.eachOutput _ _
  | copyOut dims outs => exact Timeless.eachOutput _ _
  | noSlip dims outs => exact Timeless.eachOutput _ _
  | freeSlip dims outs => exact Timeless.eachOutput _ _
  | conductingWall dims outs => exact Timeless.eachOutput _ _
  | euler gamma ins outs => exact Timeless.euler _ _ _
  | maxwell c ins outs => exact Timeless.maxwell _ _ _
  | lorentz com ins outs => exact Timeless.lorentz _ _ _
  | current mults ins outs => exact Timeless.current _ _ _
  | rk1 ins outs tag => exact Timeless.rk1 _ _ _
  | ssprk3 ins outs tag => exact Timeless.ssprk3 _ _ _ _
  | own f r w => cases hl

/-- **C136** The time steps of all programs add the step size to the time and store it, and do not depend on it otherwise. -/
theorem C136_steps : (∀ (P : Plasma α) al, TimeStep (P.step al)) ∧ (∀ (P : Sod α) al, TimeStep (P.step al)) ∧ (∀ (P : Light α) al, TimeStep (P.step al)) ∧
    TimeStep (AdvectGaussian.step (α := α)) := ⟨plasma_time, sod_time, light_time, advect_time⟩

/-! ### Runs -/

omit [Arith α] in
theorem setTime_eq {m : Mgr α} {t : α} (h : m.time = some t) : m.noTime.setTime t = m := by
  cases m; cases h; rfl

omit [Arith α] in
theorem noTime_setTime (m : Mgr α) (t : α) : (m.setTime t).noTime = m.noTime := rfl

/-- One step from states that agree but for the time: both go on, to such states, or both end in the same way. -/
theorem step_pair {step : α → α → SM (Mgr α) α} (T : TimeStep step) (d t₁ t₂ s₁ s₂ : α) (m : Mgr α) :
    (∃ m' : Mgr α, step d t₁ (m.setTime s₁) = .ok (t₁ + d) (m'.setTime (t₁ + d)) ∧ step d t₂ (m.setTime s₂) = .ok (t₂ + d) (m'.setTime (t₂ + d))) ∨
    (∃ w a b, step d t₁ (m.setTime s₁) = .throw w a ∧ step d t₂ (m.setTime s₂) = .throw w b ∧ a.noTime = b.noTime) ∨
    (∃ w, step d t₁ (m.setTime s₁) = .ub w ∧ step d t₂ (m.setTime s₂) = .ub w) ∨ (step d t₁ (m.setTime s₁) = .diverge ∧ step d t₂ (m.setTime s₂) = .diverge) := by
  have h := T.blind d t₁ t₂ s₁ s₂ m
  have a₁ := T.adds d t₁ (m.setTime s₁)
  have a₂ := T.adds d t₂ (m.setTime s₂)
  cases e₁ : step d t₁ (m.setTime s₁) with
  | ok v₁ m₁ =>
    cases e₂ : step d t₂ (m.setTime s₂) with
    | ok v₂ m₂ =>
      obtain ⟨rfl, b₁, -⟩ := a₁ _ _ e₁
      obtain ⟨rfl, b₂, -⟩ := a₂ _ _ e₂
      rw [e₁, e₂] at h
      have h : (SRes.ok () m₁.noTime : SRes (Mgr α) Unit) = .ok () m₂.noTime := h
      injection h with _ h
      refine .inl ⟨m₁.noTime, by rw [setTime_eq b₁], by rw [h, setTime_eq b₂]⟩
    | throw => rw [e₁, e₂] at h; cases h
    | ub => rw [e₁, e₂] at h; cases h
    | diverge => rw [e₁, e₂] at h; cases h
  | throw w₁ m₁ =>
    cases e₂ : step d t₂ (m.setTime s₂) with
    | throw w₂ m₂ =>
      rw [e₁, e₂] at h
      have h : (SRes.throw w₁ m₁.noTime : SRes (Mgr α) Unit) = .throw w₂ m₂.noTime := h
      injection h with h1 h2
      subst h1
      exact .inr (.inl ⟨_, _, _, rfl, rfl, h2⟩)
    | ok => rw [e₁, e₂] at h; cases h
    | ub => rw [e₁, e₂] at h; cases h
    | diverge => rw [e₁, e₂] at h; cases h
  | ub w₁ =>
    cases e₂ : step d t₂ (m.setTime s₂) with
    | ub w₂ =>
      rw [e₁, e₂] at h
      have h : (SRes.ub w₁ : SRes (Mgr α) Unit) = .ub w₂ := h
      cases h
      exact .inr (.inr (.inl ⟨_, rfl, rfl⟩))
    | ok => rw [e₁, e₂] at h; cases h
    | throw => rw [e₁, e₂] at h; cases h
    | diverge => rw [e₁, e₂] at h; cases h
  | diverge =>
    cases e₂ : step d t₂ (m.setTime s₂) with
    | diverge => exact .inr (.inr (.inr ⟨rfl, rfl⟩))
    | ok => rw [e₁, e₂] at h; cases h
    | throw => rw [e₁, e₂] at h; cases h
    | ub => rw [e₁, e₂] at h; cases h

/-- The time after `n` steps that started at `t`. -/
def timeFrom (t d : α) : Nat → α
  | 0 => t
  | n + 1 => timeFrom (t + d) d n

theorem steps_pair {step : α → α → SM (Mgr α) α} (T : TimeStep step) (d : α) : ∀ (n : Nat) (t₁ t₂ s₁ s₂ : α) (m : Mgr α),
    (∃ (m' : Mgr α) (s₁' s₂' : α), Run.steps (step d) n t₁ (m.setTime s₁) = .ok (timeFrom t₁ d n) (m'.setTime s₁') ∧ Run.steps (step d) n t₂ (m.setTime s₂) = .ok (timeFrom t₂ d n) (m'.setTime s₂')) ∨
    (∃ w a b, Run.steps (step d) n t₁ (m.setTime s₁) = .throw w a ∧ Run.steps (step d) n t₂ (m.setTime s₂) = .throw w b ∧ a.noTime = b.noTime) ∨
    (∃ w, Run.steps (step d) n t₁ (m.setTime s₁) = .ub w ∧ Run.steps (step d) n t₂ (m.setTime s₂) = .ub w) ∨
    (Run.steps (step d) n t₁ (m.setTime s₁) = .diverge ∧ Run.steps (step d) n t₂ (m.setTime s₂) = .diverge)
  | 0, t₁, t₂, s₁, s₂, m => .inl ⟨m, s₁, s₂, rfl, rfl⟩
  | n + 1, t₁, t₂, s₁, s₂, m => by
    rw [steps_succ, steps_succ]
    rcases step_pair T d t₁ t₂ s₁ s₂ m with ⟨m', h1, h2⟩ | ⟨w, a, b, h1, h2, h3⟩ | ⟨w, h1, h2⟩ | ⟨h1, h2⟩
    · rw [h1, h2]
      exact steps_pair T d n _ _ _ _ m'
    · rw [h1, h2]; exact .inr (.inl ⟨w, a, b, rfl, rfl, h3⟩)
    · rw [h1, h2]; exact .inr (.inr (.inl ⟨w, rfl, rfl⟩))
    · rw [h1, h2]; exact .inr (.inr (.inr ⟨rfl, rfl⟩))

theorem write_setTime (m : Mgr α) (t : α) (b : Bool) (ids : List VarId) : Vtk.write (m.setTime t) b ids = Vtk.write m b ids := by
  cases ids with
  | nil => rw [Vtk.write, Vtk.write]
  | cons id ids => rw [Vtk.write, Vtk.write, writeVars_congr (m := m.setTime t) (m' := m) rfl rfl, show (m.setTime t).grid = m.grid from rfl]

/-- **C136** Nothing but the time itself depends on the time: run the frames of a program (with any step as in C136_steps) from two times, with two times in the manager. Both
end in the same way, with the same files, and in the same state but for the time. Any arithmetic. -/
theorem C136_blind {step : α → α → SM (Mgr α) α} (T : TimeStep step) (d : α) (canOpen : Nat → Bool) (ids : List VarId) (S : Nat) :
    ∀ (n i : Nat) (t₁ t₂ s₁ s₂ : α) (m : Mgr α) (files : List (Nat × List (Tok α))),
    (Run.frames canOpen ids (step d) S n i t₁ ⟨m.setTime s₁, files⟩).mapState Run.noTime = (Run.frames canOpen ids (step d) S n i t₂ ⟨m.setTime s₂, files⟩).mapState Run.noTime
  | 0, i, t₁, t₂, s₁, s₂, m, files => rfl
  | n + 1, i, t₁, t₂, s₁, s₂, m, files => by
    rw [Timed.run_frames_succ, Timed.run_frames_succ]
    unfold Run.onMgr
    simp only
    rcases steps_pair T d S t₁ t₂ s₁ s₂ m with ⟨m', s₁', s₂', h1, h2⟩ | ⟨w, a, b, h1, h2, h3⟩ | ⟨w, h1, h2⟩ | ⟨h1, h2⟩
    · rw [h1, h2]
      simp only [Run.exportFrame, write_setTime]
      cases Vtk.write m' (canOpen (i + 1)) ids [] with
      | ok u f => exact C136_blind T d canOpen ids S n (i + 1) _ _ _ _ m' _
      | throw => rfl
      | ub => rfl
      | diverge => rfl
    · rw [h1, h2]
      show (SRes.throw w (Run.noTime ⟨a, files⟩) : SRes (Run α) Unit) = .throw w (Run.noTime ⟨b, files⟩)
      unfold Run.noTime
      rw [h3]
    · rw [h1, h2]
    · rw [h1, h2]

theorem timeFrom_after (d : α) : ∀ n k, timeFrom (timeAfter d k) d n = timeAfter d (k + n)
  | 0, k => rfl
  | n + 1, k => by
    rw [timeFrom, show timeAfter d k + d = timeAfter d (k + 1) from rfl, timeFrom_after d n (k + 1)]
    congr 1; omega

theorem steps_time {step : α → α → SM (Mgr α) α} (T : TimeStep step) (d : α) : ∀ (n : Nat) {t t' : α} {m m' : Mgr α}, Run.steps (step d) n t m = .ok t' m' → m.time = some t →
    t' = timeFrom t d n ∧ m'.time = some (timeFrom t d n) ∧ m'.dt = m.dt
  | 0, t, t', m, m', h, ht => by
    rw [steps_zero] at h
    cases h
    exact ⟨rfl, ht, rfl⟩
  | n + 1, t, t', m, m', h, ht => by
    rw [steps_succ] at h
    cases hs : step d t m with
    | ok t1 m1 =>
      rw [hs] at h
      obtain ⟨rfl, h2, h3⟩ := T.adds _ _ _ _ _ hs
      obtain ⟨a, b, c⟩ := steps_time T d n h h2
      exact ⟨a, b, c.trans h3⟩
    | throw => rw [hs] at h; cases h
    | ub => rw [hs] at h; cases h
    | diverge => rw [hs] at h; cases h

/-- At the end of the run the manager stores the time after `n` steps and the step size, and every file was written when it stored the time after the steps up to then. -/
structure Timely (d : α) (ids : List VarId) (F S : Nat) (r : Run α) : Prop where
  time : r.mgr.time = some (timeAfter d (F * S))
  dt : r.mgr.dt = some d
  files : ∀ j f, (j, f) ∈ r.files → ∃ m b, m.time = some (timeAfter d (j * S)) ∧ m.dt = some d ∧ Vtk.write m true ids [] = .ok b f

theorem main_timely {ids : List VarId} {ic : SM (Mgr α) Unit} {step : α → α → SM (Mgr α) α} (T : TimeStep step) {dt : α} {F S : Nat} {m : Mgr α} {r : Run α}
    (h : Run.main ic (fun _ => true) ids step dt F S ⟨m, []⟩ = .ok () r) : Timely dt ids F S r := by
  obtain ⟨m1, -, ⟨t, h2⟩, h3⟩ := main_trace h
  have e := fun n => timeFrom_after (α := α) dt n 0
  simp only [Nat.zero_add] at e
  obtain ⟨-, a, b⟩ := steps_time T dt _ h2 rfl
  refine ⟨by rw [a]; exact congrArg some (e _), b, fun j f hj => ?_⟩
  obtain ⟨t', m', b', w1, w2⟩ := h3 j f hj
  obtain ⟨-, a', b''⟩ := steps_time T dt _ w1 rfl
  exact ⟨m', b', by rw [a']; exact congrArg some (e _), b'', w2⟩

/-- **C136** The programs that end normally, with any numbers of cells, frames and steps, any alignment and any arithmetic: at the end the manager stores the sum of all step
sizes, added one by one, and each file was written when it stored the sum up to its frame. -/
theorem C136_programs (al : Bool) (nx ny nz : Int) (F S : Nat) :
    (∀ r, GemChallenge.run al (fun _ => true) nx F S = .ok (.ok () r) →
      Timely (GemChallenge.timeDt (GemConstants.make : GemConstants α) F S) [GemChallenge.electrons.q, GemChallenge.ions.q, GemChallenge.fields.q] F S r) ∧
    (∀ r, HarrisCurrentSheet.run al (fun _ => true) nx F S = .ok (.ok () r) →
      Timely (HarrisCurrentSheet.timeDt (HarrisCurrentSheet.constants : GemConstants α) F S) [GemChallenge.electrons.q, GemChallenge.ions.q, GemChallenge.fields.q] F S r) ∧
    (∀ r, TwoFluidBrioWu.run al (fun _ => true) nx F S = .ok (.ok () r) →
      Timely (TwoFluidBrioWu.timeDt F S : α) [GemChallenge.electrons.q, GemChallenge.ions.q, GemChallenge.fields.q] F S r) ∧
    (∀ r, SodShockTube.run al (fun _ => true) nx ny F S = .ok (.ok () r) → Timely (SodShockTube.timeDt F S : α) [SodShockTube.fluid.q] F S r) ∧
    (∀ r, Wave1D.run al (fun _ => true) nx ny nz F S = .ok (.ok () r) → Timely (Wave1D.timeDt F S : α) [Wave1D.field.q] F S r) := by
  refine ⟨fun r h => ?_, fun r h => ?_, fun r h => ?_, fun r h => ?_, fun r h => ?_⟩
  · unfold GemChallenge.run at h
    obtain ⟨g, _, h⟩ := Res.bind_eq_ok.1 h
    obtain ⟨ms, _, h⟩ := Res.bind_eq_ok.1 h
    exact main_timely (plasma_time _ _) (Res.ok.inj h)
  · unfold HarrisCurrentSheet.run at h
    obtain ⟨g, _, h⟩ := Res.bind_eq_ok.1 h
    obtain ⟨ms, _, h⟩ := Res.bind_eq_ok.1 h
    exact main_timely (plasma_time _ _) (Res.ok.inj h)
  · unfold TwoFluidBrioWu.run at h
    obtain ⟨g, _, h⟩ := Res.bind_eq_ok.1 h
    obtain ⟨ms, _, h⟩ := Res.bind_eq_ok.1 h
    exact main_timely (plasma_time _ _) (Res.ok.inj h)
  · unfold SodShockTube.run at h
    obtain ⟨g, _, h⟩ := Res.bind_eq_ok.1 h
    exact main_timely (sod_time _ _) (Res.ok.inj h)
  · unfold Wave1D.run at h
    obtain ⟨g, _, h⟩ := Res.bind_eq_ok.1 h
    exact main_timely (light_time _ _) (Res.ok.inj h)

end

/-! ### Exact arithmetic -/

theorem timeAfter_real (d : ℝ) : ∀ n, timeAfter d n = n * d
  | 0 => by show ((0 : ℚ) : ℝ) = _; simp
  | n + 1 => by
    show timeAfter d n + d = _
    rw [timeAfter_real d n]; push_cast; ring

/-- **C136** In exact arithmetic the time after `j` of `F` frames of `S` steps of size `T/(F S)` is `j/F` of `T`; at the end it is `T`. (With no steps the step size is not defined.) -/
theorem C136_exact (T : ℝ) {F S : Nat} (h : 0 < F * S) (j : Nat) :
    timeAfter (T / Arith.ofInt (F * S)) (j * S) = j / F * T ∧ timeAfter (T / Arith.ofInt (F * S)) (F * S) = T := by
  have hF : (F : ℝ) ≠ 0 := by
    have : 0 < F := Nat.pos_of_mul_pos_right h
    positivity
  have hS : (S : ℝ) ≠ 0 := by
    have : 0 < S := Nat.pos_of_mul_pos_left h
    positivity
  have e : (Arith.ofInt (F * S) : ℝ) = F * S := by
    show (((F : Int) * (S : Int) : Int) : ℝ) = _
    push_cast; rfl
  constructor
  · rw [timeAfter_real, e]; push_cast; field_simp
  · rw [timeAfter_real, e]; push_cast; field_simp

-- the times at which the programs end
example (F S : Nat) (h : 0 < F * S) : timeAfter (SodShockTube.timeDt F S : ℝ) (F * S) = 1 / 2 := by
  have := (C136_exact (1 / 2) h 0).2
  unfold SodShockTube.timeDt
  convert this using 2
  show ((1 / 2 : ℚ) : ℝ) / _ = _
  norm_num

/-! ### Floating-point arithmetic -/

section
variable {α : Type} [Arith α] {val : α → ℝ} {fin : α → Prop} {rd : ℝ → ℝ} {big u e : ℝ}

theorem timeAfter_zero (H : Floats val fin rd big u e) : val (Arith.lit 0 : α) = 0 := by
  have h0 := H.lits 0 (by simp)
  have := (H.lit 0 (by rw [h0]; simp; linarith [H.three])).2
  rw [this, h0]; simp

/-- **C136** In floating-point arithmetic: the time after `n` steps, if it is finite, differs from `n` step sizes by at most the relative error `(1+u)^n - 1`. -/
theorem C136_rounded (H : Floats val fin rd big u e) {d : α} : ∀ {n : Nat}, fin (timeAfter d n) →
    |val (timeAfter d n) - n * val d| ≤ ((1 + u) ^ n - 1) * (n * |val d|)
  | 0, _ => by rw [timeAfter, timeAfter_zero H]; simp
  | n + 1, hf => by
    rw [timeAfter] at hf ⊢
    obtain ⟨f1, f2, -⟩ := H.add.1 hf
    have ih := C136_rounded H f1
    have hs := H.sum_err f1 f2
    rw [H.add_val hf]
    have hu := H.unit.1
    have hp : 1 ≤ (1 + u) ^ n := one_le_pow₀ (by linarith)
    set x := val (timeAfter d n)
    set y := val d
    have h1 : |x + y| ≤ (1 + u) ^ n * (n * |y|) + |y| := by
      have : |x| ≤ |x - n * y| + |n * y| := by
        have := abs_add_le (x - n * y) (n * y)
        rwa [sub_add_cancel] at this
      rw [abs_mul, Nat.abs_cast] at this
      have := abs_add_le x y
      linarith
    have h2 : |rd (x + y) - (n + 1) * y| ≤ |rd (x + y) - (x + y)| + |x - n * y| := by
      have := abs_add_le (rd (x + y) - (x + y)) (x - n * y)
      rwa [show rd (x + y) - (x + y) + (x - n * y) = rd (x + y) - (n + 1) * y by ring] at this
    have h3 : u * |x + y| ≤ u * ((1 + u) ^ n * (n * |y|) + |y|) := mul_le_mul_of_nonneg_left h1 hu
    have h4 : u * |y| ≤ ((1 + u) ^ (n + 1) - 1) * |y| := by
      refine mul_le_mul_of_nonneg_right ?_ (abs_nonneg _)
      rw [pow_succ]
      nlinarith
    push_cast
    have h5 : ((1 + u) ^ (n + 1) - 1) * ((n + 1) * |y|) = ((1 + u) ^ n - 1) * (n * |y|) + u * ((1 + u) ^ n * (n * |y|)) + ((1 + u) ^ (n + 1) - 1) * |y| := by ring
    rw [h5]
    linarith

/-- **C136** The time never stands still: if `n u (1+u)^n < 1` (in double precision, for up to a quadrillion steps) and the step size is positive, each step increases the time. -/
theorem C136_moves (H : Floats val fin rd big u e) {d : α} (hd : 0 < val d) {n : Nat} (hn : n * u * (1 + u) ^ n < 1) (hf : fin (timeAfter d n)) :
    ∀ k < n, val (timeAfter d k) < val (timeAfter d (k + 1)) := by
  have hu := H.unit.1
  have fk : ∀ k ≤ n, fin (timeAfter d k) := by
    intro k hk
    obtain ⟨j, rfl⟩ := Nat.exists_eq_add_of_le hk
    clear hk hn
    induction j with
    | zero => exact hf
    | succ j ih => exact ih (H.add.1 hf).1
  intro k hk
  have f1 := fk (k + 1) hk
  rw [timeAfter] at f1 ⊢
  obtain ⟨f2, f3, -⟩ := H.add.1 f1
  have a := C136_rounded H f2
  have s := H.sum_err f2 f3
  rw [H.add_val f1]
  have hp : 1 ≤ (1 + u) ^ k := one_le_pow₀ (by linarith)
  set x := val (timeAfter d k)
  set y := val d
  rw [abs_of_pos hd] at a
  have h1 : |x + y| ≤ (1 + u) ^ k * (k * y) + y := by
    have h := abs_add_le (x - k * y) (k * y + y)
    rw [show x - k * y + (k * y + y) = x + y by ring, abs_of_nonneg (show 0 ≤ k * y + y by positivity)] at h
    linarith
  have h2 : (1 + u) ^ k * (k * y) + y ≤ (1 + u) ^ n * (n * y) := by
    have hk' : ((k : ℝ) + 1) ≤ n := by exact_mod_cast hk
    have e1 : (1 + u) ^ k * (k * y) + y ≤ (1 + u) ^ k * ((k + 1) * y) := by nlinarith
    have e2 : (1 + u) ^ k * ((k + 1) * y) ≤ (1 + u) ^ n * ((k + 1) * y) :=
      mul_le_mul_of_nonneg_right (pow_le_pow_right₀ (by linarith) hk.le) (by positivity)
    have e3 : (1 + u) ^ n * ((k + 1) * y) ≤ (1 + u) ^ n * (n * y) :=
      mul_le_mul_of_nonneg_left (mul_le_mul_of_nonneg_right hk' hd.le) (by positivity)
    linarith
  have h3 : u * |x + y| < y := by
    have : u * |x + y| ≤ u * ((1 + u) ^ n * (n * y)) := mul_le_mul_of_nonneg_left (h1.trans h2) hu
    have : u * ((1 + u) ^ n * (n * y)) = n * u * (1 + u) ^ n * y := by ring
    nlinarith
  have := (abs_le.1 s).1
  linarith

/-- **C136** Where the programs compute the step size as `T` over the number `N` of steps: the time at the end, if finite, differs from `T` by at most the relative error
`(1+u)^(N+1) - 1`, plus what may underflow in the step size. -/
theorem C136_end (H : Floats val fin rd big u e) {T : α} {N : Nat} (hN : 0 < N) (hI : fin (Arith.ofInt N : α) ∧ val (Arith.ofInt N : α) = N)
    (hf : fin (timeAfter (T / Arith.ofInt N) N)) :
    |val (timeAfter (T / Arith.ofInt N) N) - val T| ≤ ((1 + u) ^ (N + 1) - 1) * |val T| + (1 + u) ^ N * (N * e) := by
  have a := C136_rounded H hf
  have fd : fin (T / Arith.ofInt N : α) := by
    obtain ⟨n, rfl⟩ : ∃ n, N = n + 1 := ⟨N - 1, by omega⟩
    exact (H.add.1 hf).2.1
  obtain ⟨fT, h | h⟩ := H.div fd
  on_goal 2 => exact absurd hI.1 h.1
  obtain ⟨-, -, hd⟩ := h
  rw [hI.2] at hd
  have hN' : (0 : ℝ) < N := by exact_mod_cast hN
  have er := H.err (val T / N)
  rw [← hd] at er
  have hu := H.unit.1
  have hp : 1 ≤ (1 + u) ^ N := one_le_pow₀ (by linarith)
  set d := val (T / Arith.ofInt N : α)
  set t := val T
  set x := val (timeAfter (T / Arith.ofInt N) N)
  rw [abs_div, abs_of_pos hN'] at er
  have b : |N * d - t| ≤ u * |t| + N * e := by
    have e1 : (N : ℝ) * d - t = N * (d - t / N) := by field_simp
    rw [e1, abs_mul, abs_of_pos hN']
    have := mul_le_mul_of_nonneg_left er hN'.le
    have e2 : (N : ℝ) * (u * (|t| / N) + e) = u * |t| + N * e := by field_simp
    linarith
  have c : N * |d| ≤ (1 + u) * |t| + N * e := by
    have h := abs_add_le (N * d - t) t
    rw [sub_add_cancel, abs_mul, abs_of_pos hN'] at h
    linarith
  have h1 : |x - t| ≤ |x - N * d| + |N * d - t| := by
    have := abs_add_le (x - N * d) (N * d - t)
    rwa [sub_add_sub_cancel] at this
  have h2 : ((1 + u) ^ N - 1) * (N * |d|) ≤ ((1 + u) ^ N - 1) * ((1 + u) * |t| + N * e) := mul_le_mul_of_nonneg_left c (by linarith)
  rw [pow_succ]
  nlinarith

theorem one_add_pow_le {u : ℝ} (hu : 0 ≤ u) {n : Nat} (h : n * u ≤ 1) : (1 + u) ^ n ≤ 1 + 2 * (n * u) := by
  have h1 : 1 + u ≤ Real.exp u := by linarith [Real.add_one_le_exp u]
  have h2 : (1 + u) ^ n ≤ Real.exp (n * u) := by
    rw [Real.exp_nat_mul]
    exact pow_le_pow_left₀ (by linarith) h1 n
  have h0 : 0 ≤ n * u := by positivity
  have h3 := Real.abs_exp_sub_one_le (x := n * u) (by rwa [abs_of_nonneg h0])
  rw [abs_of_nonneg h0] at h3
  linarith [(abs_le.1 h3).2]

/-- **C136** In double precision: a program that makes `N` steps ends at the intended time up to the relative error `(N + 1) / 4.5e15`: less than `3e-11` for the 125000 steps of
gem_challenge. -/
theorem C136_double (H : Floats val fin rd big (2⁻¹ ^ 53) e) {T : α} {N : Nat} (hN : 0 < N) (hM : N < 2 ^ 53) (hI : fin (Arith.ofInt N : α) ∧ val (Arith.ofInt N : α) = N)
    (hf : fin (timeAfter (T / Arith.ofInt N) N)) :
    |val (timeAfter (T / Arith.ofInt N) N) - val T| ≤ (N + 1) * 2⁻¹ ^ 52 * |val T| + 3 * N * e := by
  have h := C136_end H hN hI hf
  have hM' : (N : ℝ) + 1 ≤ 2 ^ 53 := by exact_mod_cast hM
  have e1 : ((N + 1 : Nat) : ℝ) * (2⁻¹ : ℝ) ^ 53 ≤ 1 := by
    push_cast
    have : ((2 : ℝ) ^ 53) * 2⁻¹ ^ 53 = 1 := by rw [← mul_pow]; norm_num
    exact (mul_le_mul_of_nonneg_right hM' (by positivity)).trans this.le
  have e2 : (N : ℝ) * (2⁻¹ : ℝ) ^ 53 ≤ 1 := by
    refine le_trans (mul_le_mul_of_nonneg_right ?_ (by positivity)) e1
    push_cast; linarith
  have p1 := one_add_pow_le (u := 2⁻¹ ^ 53) (by positivity) e1
  have p2 := one_add_pow_le (u := 2⁻¹ ^ 53) (by positivity) e2
  have p3 : (1 + (2⁻¹ : ℝ) ^ 53) ^ N ≤ 3 := by linarith
  have he := H.tiny
  have q1 : ((1 + (2⁻¹ : ℝ) ^ 53) ^ (N + 1) - 1) * |val T| ≤ (N + 1) * 2⁻¹ ^ 52 * |val T| := by
    refine mul_le_mul_of_nonneg_right ?_ (abs_nonneg _)
    push_cast at p1
    have : (2⁻¹ : ℝ) ^ 52 = 2 * 2⁻¹ ^ 53 := by norm_num
    rw [this]; linarith
  have q2 : (1 + (2⁻¹ : ℝ) ^ 53) ^ N * (N * e) ≤ 3 * (N * e) := mul_le_mul_of_nonneg_right p3 (by positivity)
  linarith

-- the 125000 steps of gem_challenge
example {t T : ℝ} (h : |t - T| ≤ ((125000 : Nat) + 1) * 2⁻¹ ^ 52 * |T|) : |t - T| ≤ 3 / 10 ^ 11 * |T| :=
  h.trans (mul_le_mul_of_nonneg_right (by norm_num) (abs_nonneg _))

end

/-! ### The format of doubles -/

theorem round53_val {x : ℝ} (m i : Int) (h1 : 2 ^ (i + 52) ≤ x) (h2 : x < 2 ^ (i + 53)) (h3 : m - 1 / 2 ≤ x / 2 ^ i) (h4 : x / 2 ^ i < m + 1 / 2) : round53 x = m * 2 ^ i := by
  have hx : 0 < x := lt_of_lt_of_le (by positivity) h1
  have hl : Int.log 2 x = i + 52 := by
    apply le_antisymm
    · have : Int.log 2 x < i + 53 := by rw [← Int.lt_zpow_iff_log_lt (by norm_num) hx]; exact_mod_cast h2
      omega
    · rw [← Int.zpow_le_iff_le_log (by norm_num) hx]; exact_mod_cast h1
  have hb : lastBit x = i := by unfold lastBit; omega
  unfold round53
  rw [if_pos hx]
  unfold round53p
  rw [hb]
  congr 2
  rw [Int.floor_eq_iff]
  constructor <;> linarith

theorem double_of {x y : ℝ} (h : round53 x = y) (hb : |y| ≤ 1) : ∃ a : Fl double, Fl.of double x = a ∧ a.fin ∧ a.val = y := by
  have hf : Fl.fin (Fl.of double x) := by
    rw [Fl.fin_of]
    show |round53 x| ≤ _
    rw [h]
    exact hb.trans (le_trans (by norm_num) double_floats.three)
  exact ⟨_, rfl, hf, by rw [Fl.val_of hf]; exact h⟩

theorem double_add {a b : Fl double} (ha : a.fin) (hb : b.fin) {y : ℝ} (h : round53 (a.val + b.val) = y) (hy : |y| ≤ 1) : (a + b).fin ∧ (a + b).val = y := by
  have hf : (a + b).fin := by
    rw [double_floats.add]
    refine ⟨ha, hb, ?_⟩
    rw [h]
    exact hy.trans (le_trans (by norm_num) double_floats.three)
  exact ⟨hf, by rw [double_floats.add_val hf, h]⟩

/-- Whole numbers up to 2⁵³ are numbers of the format, as C136_double assumes. -/
theorem double_nat {N : Nat} (h : N < 2 ^ 53) : Fl.fin (Arith.ofInt N : Fl double) ∧ Fl.val (Arith.ofInt N : Fl double) = N := by
  have hr : round53 (N : ℝ) = N := by
    have := round53_exact (m := N) (i := 0) (by simpa using (show (N : Int) < 2 ^ 53 by exact_mod_cast h))
    simpa using this
  have hf : Fl.fin (Fl.of double ((N : Int) : ℝ)) := by
    rw [Fl.fin_of]
    show |round53 ((N : Int) : ℝ)| ≤ (2 ^ 53 - 1) * 2 ^ 971
    rw [Int.cast_natCast, hr, Nat.abs_cast]
    have h1 : (N : ℝ) ≤ 2 ^ 53 - 1 := by
      have : (N : ℝ) + 1 ≤ 2 ^ 53 := by exact_mod_cast h
      linarith
    have h2 : (1 : ℝ) ≤ 2 ^ 971 := one_le_pow₀ (by norm_num)
    exact h1.trans (le_mul_of_one_le_right (by norm_num) h2)
  refine ⟨hf, ?_⟩
  show Fl.val (Fl.of double ((N : Int) : ℝ)) = N
  rw [Fl.val_of hf]
  show round53 ((N : Int) : ℝ) = N
  rw [Int.cast_natCast, hr]

/-- **C136** The error is not always zero: six steps of wave_1D of size 1/6 in double precision end at a time below 1, by 2⁻⁵³. -/
theorem C136_inexact : Fl.fin (timeAfter (Wave1D.timeDt 2 3 : Fl double) 6) ∧ Fl.val (timeAfter (Wave1D.timeDt 2 3 : Fl double) 6) = 1 - 2⁻¹ ^ 53 := by
  have f1 : Fl.fin (Arith.lit 1 : Fl double) ∧ Fl.val (Arith.lit 1 : Fl double) = 1 := by
    have h0 := double_floats.lits 1 (by simp)
    have := double_floats.lit (1 : ℚ) (by rw [h0, Rat.cast_one, abs_one]; exact le_trans (by norm_num) double_floats.three)
    rw [h0] at this
    simpa using this
  have f6 := double_nat (N := 6) (by norm_num)
  have hd : round53 (1 / 6) = (6004799503160661 : Int) * 2 ^ (-55 : Int) := by
    refine round53_val _ _ ?_ ?_ ?_ ?_ <;> norm_num
  have fd : Fl.fin (Wave1D.timeDt 2 3 : Fl double) ∧ Fl.val (Wave1D.timeDt 2 3 : Fl double) = (6004799503160661 : Int) * 2 ^ (-55 : Int) := by
    have e : (Wave1D.timeDt 2 3 : Fl double) = Fl.of double (1 / 6) := by
      show Fl.map2 _ (Arith.lit 1 : Fl double) (Arith.ofInt ((6 : Nat) : Int) : Fl double) = _
      rw [Fl.map2_eq f1.1 f6.1, f1.2, f6.2, if_neg (by norm_num)]
      norm_num
    rw [e]
    obtain ⟨a, ha, h1, h2⟩ := double_of hd (by norm_num)
    rw [ha]
    exact ⟨h1, h2⟩
  have z : Fl.fin (timeAfter (Wave1D.timeDt 2 3 : Fl double) 0) := by
    have h0 := double_floats.lits 0 (by simp)
    exact (double_floats.lit (0 : ℚ) (by rw [h0, Rat.cast_zero, abs_zero]; exact le_trans (by norm_num) double_floats.three)).1
  have z' : Fl.val (timeAfter (Wave1D.timeDt 2 3 : Fl double) 0) = 0 := timeAfter_zero double_floats
  have next : ∀ {n : Nat} {x : ℝ} (m i : Int), Fl.fin (timeAfter (Wave1D.timeDt 2 3 : Fl double) n) ∧ Fl.val (timeAfter (Wave1D.timeDt 2 3 : Fl double) n) = x →
      round53 (x + (6004799503160661 : Int) * 2 ^ (-55 : Int)) = m * 2 ^ i → |(m : ℝ) * 2 ^ i| ≤ 1 →
      Fl.fin (timeAfter (Wave1D.timeDt 2 3 : Fl double) (n + 1)) ∧ Fl.val (timeAfter (Wave1D.timeDt 2 3 : Fl double) (n + 1)) = m * 2 ^ i := by
    intro n x m i h hr hb
    exact double_add h.1 fd.1 (by rw [h.2, fd.2]; exact hr) hb
  have t1 := next 6004799503160661 (-55) ⟨z, z'⟩ (by refine round53_val _ _ ?_ ?_ ?_ ?_ <;> norm_num) (by norm_num)
  have t2 := next 6004799503160661 (-54) t1 (by refine round53_val _ _ ?_ ?_ ?_ ?_ <;> norm_num) (by norm_num)
  have t3 := next 9007199254740992 (-54) t2 (by refine round53_val _ _ ?_ ?_ ?_ ?_ <;> norm_num) (by norm_num)
  have t4 := next 6004799503160661 (-53) t3 (by refine round53_val _ _ ?_ ?_ ?_ ?_ <;> norm_num) (by norm_num)
  have t5 := next 7505999378950826 (-53) t4 (by refine round53_val _ _ ?_ ?_ ?_ ?_ <;> norm_num) (by norm_num)
  have t6 := next 9007199254740991 (-53) t5 (by refine round53_val _ _ ?_ ?_ ?_ ?_ <;> norm_num) (by norm_num)
  refine ⟨t6.1, t6.2.trans ?_⟩
  norm_num

-- the hypotheses of C136_double are met by this format and these steps
example : |Fl.val (timeAfter ((Arith.lit 1 : Fl double) / Arith.ofInt (6 : Nat)) 6) - Fl.val (Arith.lit 1 : Fl double)| ≤
    ((6 : Nat) + 1) * 2⁻¹ ^ 52 * |Fl.val (Arith.lit 1 : Fl double)| + 3 * (6 : Nat) * 0 :=
  C136_double double_floats (by norm_num) (by norm_num) (double_nat (by norm_num)) C136_inexact.1

end QK.Props
