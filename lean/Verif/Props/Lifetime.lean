import Verif.Proofs.Lifetime
import Verif.Props.Client
/-
C124: the variable manager frees what it allocated. The destructor (variable_manager.cpp:21-28) runs when a program returns, and when an exception leaves it
(main.cpp:16-26 catches it, so the stack is unwound).
-/
namespace QK.Props
open QK Spec Solve Mgr

section
variable {α : Type} [Arith α]

/-- **C124** Any program made of calls of the library, whether or not they fit together, on a new manager of any grid: when it returns or throws, every variable
that was allocated is deleted exactly once. Solvers of the program itself must leave the map alone (`Keeps`), as those that go through `output_variable` do. -/
theorem C124_client (g : Rectilinear α) (p : Client α) (own : ∀ f ∈ p.owns, Keeps Owned f.1) : EndsFreed id (p.run (Mgr.make g)) := by
  have h := Lifetime.client_keeps p own (Mgr.make g) (List.Perm.refl _)
  exact ⟨fun b s e => destroy_of_perm _ _ (h.1 b s e), fun w s e => destroy_of_perm _ _ (h.2 w s e)⟩

/-- **C124** The same of a program that also has an initial condition, writes files and makes time steps, as the shipped ones do. -/
theorem C124_run (g : Rectilinear α) {ic : SM (Mgr α) Unit} {step : α → α → SM (Mgr α) α} (hi : Keeps Owned ic) (h : ∀ d t, Keeps Owned (step d t))
    (canOpen : Nat → Bool) (ids : List VarId) (timeDt : α) (numFrames numSteps : Nat) :
    EndsFreed Run.mgr (Run.main ic canOpen ids step timeDt numFrames numSteps ⟨Mgr.make g, []⟩) := by
  have h := Lifetime.main_keeps hi h canOpen ids timeDt numFrames numSteps ⟨Mgr.make g, []⟩ (List.Perm.refl _)
  exact ⟨fun b s e => destroy_of_perm _ _ (h.1 b s e), fun w s e => destroy_of_perm _ _ (h.2 w s e)⟩

/-- **C124** The seven shipped programs, on meshes of any size, for any number of frames and steps, whichever files can be opened: no leak, no double deletion,
whether the run completes or an exception ends it. -/
theorem C124_programs (al : Bool) (canOpen : Nat → Bool) (nx ny nz : Int) (numFrames numSteps : Nat) (r : SRes (Run α) Unit)
    (h : GemChallenge.run al canOpen nx numFrames numSteps = .ok r ∨ HarrisCurrentSheet.run al canOpen nx numFrames numSteps = .ok r ∨
      TwoFluidBrioWu.run al canOpen nx numFrames numSteps = .ok r ∨ SodShockTube.run al canOpen nx ny numFrames numSteps = .ok r ∨
      Wave1D.run al canOpen nx ny nz numFrames numSteps = .ok r ∨ GaussianPulse.run al canOpen nx numFrames numSteps = .ok r ∨
      AdvectGaussian.run canOpen nx ny numFrames numSteps = .ok r) : EndsFreed Run.mgr r := by
  rcases h with h | h | h | h | h | h | h
  · obtain ⟨g, _, h⟩ := Res.bind_eq_ok.1 h
    obtain ⟨_, _, h⟩ := Res.bind_eq_ok.1 h
    cases h
    exact C124_run g (gem_keeps _ _) (fun d t => Lifetime.plasma_keeps _ al d t) _ _ _ _ _
  · obtain ⟨g, _, h⟩ := Res.bind_eq_ok.1 h
    obtain ⟨_, _, h⟩ := Res.bind_eq_ok.1 h
    cases h
    exact C124_run g (gem_keeps _ _) (fun d t => Lifetime.plasma_keeps _ al d t) _ _ _ _ _
  · obtain ⟨g, _, h⟩ := Res.bind_eq_ok.1 h
    obtain ⟨_, _, h⟩ := Res.bind_eq_ok.1 h
    cases h
    exact C124_run g (brioWu_keeps _ _) (fun d t => Lifetime.plasma_keeps _ al d t) _ _ _ _ _
  · obtain ⟨g, _, h⟩ := Res.bind_eq_ok.1 h
    cases h
    exact C124_run g (initial_keeps _ _) (fun d t => Lifetime.sod_keeps _ al d t) _ _ _ _ _
  · obtain ⟨g, _, h⟩ := Res.bind_eq_ok.1 h
    cases h
    exact C124_run g (initial_keeps _ _) (fun d t => Lifetime.light_keeps _ al d t) _ _ _ _ _
  · obtain ⟨g, _, h⟩ := Res.bind_eq_ok.1 h
    cases h
    exact C124_run g (initial_keeps _ _) (fun d t => Lifetime.light_keeps _ al d t) _ _ _ _ _
  · obtain ⟨g, _, h⟩ := Res.bind_eq_ok.1 h
    cases h
    exact C124_run g (initial_keeps _ _) (fun d t => Lifetime.advect_keeps d t) _ _ _ _ _

omit [Arith α] in
/-- **C124** Managers must not be copied: the compiler's copy shares the variables, and once the original is gone the destructor of the copy deletes them again.
This holds for every manager that has a variable and is freed in the first place. -/
theorem C124_copy {m : Mgr α} (h : Freed m) (hv : m.vars ≠ []) :
    (m.destroy m.allocated >>= m.copy.destroy) = .ub "delete of storage that is not allocated" := by
  rw [show m.destroy m.allocated = .ok [] from h]
  show m.vars.foldlM (fun live p => deleteAt live p.2) [] = _
  cases hl : m.vars with
  | nil => exact absurd hl hv
  | cons p l =>
    rw [List.foldlM_cons]
    rfl

end

-- C124: the program of C123 with ten rounds of twenty steps returns on 4 × 3 × 2 cells, so its variables are freed
example : ∃ m', exClient.run (Mgr.make (⟨Range.setup [(0,4),(0,3),(0,2)], [0,0,0], [4,3,2], [1,1,1]⟩ : Rectilinear ℝ)) = .ok () m' ∧
    Freed m' ∧ m'.contents (exGas "u") ≠ none := by
  obtain ⟨k', hk⟩ : ∃ k', Known.check exNames [(0,4),(0,3),(0,2)] ⟨[], false⟩ exClient = some k' := ⟨_, rfl⟩
  obtain ⟨m', a1, -, -, -, a5, -⟩ := C123_start (names := exNames) (g := ⟨Range.setup [(0,4),(0,3),(0,2)], [0,0,0], [4,3,2], [1,1,1]⟩) (p := exClient)
    (by intro a b ha hb; simp only [exNames, List.mem_cons, List.not_mem_nil, or_false] at ha hb; rcases ha with rfl | rfl | rfl | rfl <;> rcases hb with rfl | rfl | rfl | rfl <;> decide)
    (by decide) (by decide) (by decide) rfl hk (by intro f hf; cases hf)
  refine ⟨m', a1, (C124_client _ exClient (by intro f hf; cases hf)).1 () m' a1, a5.exist _ ?_⟩
  have : k' = _ := (Option.some.inj hk).symm
  subst this
  decide

-- C124: a program that creates a variable and then throws: the variable is freed
example : ∃ w m', (Client.seq (.call (.output (exGas "u"))) (.call (.swap [exGas "u"]))).run
    (Mgr.make (⟨Range.setup [(0,4),(0,3)], [0,0], [4,3], [1,1]⟩ : Rectilinear ℝ)) = .throw w m' ∧ m'.vars = [(exGas "u", 0)] ∧ Freed m' := by
  have h : ∃ w m', (Client.seq (.call (.output (exGas "u"))) (.call (.swap [exGas "u"]))).run
      (Mgr.make (⟨Range.setup [(0,4),(0,3)], [0,0], [4,3], [1,1]⟩ : Rectilinear ℝ)) = .throw w m' ∧ m'.vars = [(exGas "u", 0)] := by
    refine ⟨_, _, rfl, rfl⟩
  obtain ⟨w, m', h1, h2⟩ := h
  exact ⟨w, m', h1, h2, (C124_client _ _ (by intro f hf; cases hf)).2 w m' h1⟩

-- C124: a manager with two variables; copying it is fatal
example : ∃ m : Mgr ℝ, Freed m ∧ m.vars.length = 2 ∧ (m.destroy m.allocated >>= m.copy.destroy) = .ub "delete of storage that is not allocated" := by
  have h : ∃ m', (Client.seq (.call (.output (exGas "u"))) (.call (.output (exGas "du")))).run
      (Mgr.make (⟨Range.setup [(0,4),(0,3)], [0,0], [4,3], [1,1]⟩ : Rectilinear ℝ)) = .ok () m' ∧ m'.vars.length = 2 := ⟨_, rfl, rfl⟩
  obtain ⟨m', h1, h2⟩ := h
  have h3 : Freed m' := (C124_client _ _ (by intro f hf; cases hf)).1 () m' h1
  exact ⟨m', h3, h2, C124_copy h3 (by intro h0; rw [h0] at h2; cases h2)⟩

end QK.Props
