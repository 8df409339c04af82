import Verif.Proofs.Threads
import Verif.Props.Client
import Verif.Props.Advection
/-
C126: the results of programs do not depend on the number of threads or on how the threads are scheduled.
-/
namespace QK.Props
open QK Spec Solve Prog

section
variable {α : Type}

/-- **C126** The outcomes in `ParRun` are all there are: a parallel loop cannot run forever, and if no thread can go on then all iterations are finished or some access is undefined. -/
theorem C126_outcomes (ps : List (Prog α Unit)) (m : Mem α) :
    Acc (fun x y => Step y x) (ps, m) ∧ ∀ ps' m', Relation.ReflTransGen Step (ps, m) (ps', m') → (∀ c, ¬ Step (ps', m') c) → Done ps' ∨ Bad ps' m' := by
  refine ⟨step_acc _, fun ps' m' _ stuck => ?_⟩
  by_contra hc
  rw [not_or] at hc
  obtain ⟨hd, hb⟩ := hc
  simp only [Done, not_forall] at hd
  obtain ⟨p, hp, hne⟩ := hd
  obtain ⟨pre, post, rfl⟩ := List.append_of_mem hp
  cases p with
  | ret b => exact hne rfl
  | fail w => exact hb ⟨_, hp, .inl ⟨w, rfl⟩⟩
  | rd l k =>
    cases e : m' l with
    | none => exact hb ⟨_, hp, .inr ⟨l, false, rfl, e⟩⟩
    | some v => exact stuck _ (.rd e)
  | wr l v k =>
    by_cases e : (m' l).isSome
    · exact stuck _ (.wr e)
    · exact hb ⟨_, hp, .inr ⟨l, true, rfl, by simpa using e⟩⟩

variable [Arith α]

/-- **C126** Every program, on every manager, has an execution: the one by a single thread that takes the iterations in order, whose outcome is `p.run m`. -/
theorem C126_exists (p : Client α) (m : Mgr α) : p.Runs m (p.run m) := p.runs_run m

/-- **C126** Take a program that the checker of C123 accepts. All its executions, by any number of threads, with any interleaving of their reads and writes in each parallel loop, have the outcome of
the sequential run. In particular none has a data race. -/
theorem C126_same {names : List VarId} {p : Client α} {k k' : Known} {m : Mgr α} (h : m.Good (· ∈ names)) (hL : m.Laid)
    (hdx : m.grid.dxs.length = m.grid.rng.dims.length) (H : k.Holds m) (hc : Known.check names m.grid.rng.dims k p = some k')
    (own : ∀ f ∈ p.owns, Behaves (· ∈ names) m.grid f) (r : SRes (Mgr α) Unit) : p.Runs m r ↔ r = p.run m :=
  ⟨fun hr => runs_unique hr h hL rfl hdx H hc own, fun e => e ▸ p.runs_run m⟩

/-! ## The shipped programs -/

/-- `n` time steps of length `t` that consist of the calls `c time`, from `time` on. -/
def manySteps (c : α → List (Call α)) (t : α) : Nat → α → Client α
  | 0, _ => .skip
  | n + 1, time => .seq (calls (c (time + t))) (manySteps c t n (time + t))

theorem manySteps_run {c : α → List (Call α)} {t : α} {step : α → SM (Mgr α) α} (hs : ∀ time, step time = (do (calls (c (time + t))).run; return time + t)) :
    ∀ (n : Nat) (time : α), (manySteps c t n time).run = (do let _ ← Run.steps step n time; return ())
  | 0, _ => rfl
  | n + 1, time => by
    have e : (manySteps c t (n + 1) time).run = (do (calls (c (time + t))).run; (manySteps c t n (time + t)).run) := rfl
    rw [e, manySteps_run hs n, Run.steps, hs]
    simp

theorem manySteps_check {names : List VarId} {M : Box} {c : α → List (Call α)} (t : α) :
    ∀ (n : Nat) (k : Known) (time : α), (∀ time, (Known.check names M k (calls (c time))).isSome) → (Known.check names M k (manySteps c t n time)).isSome
  | 0, _, _, _ => rfl
  | n + 1, k, time, h => by
    obtain ⟨k1, e1⟩ := Option.isSome_iff_exists.1 (h (time + t))
    have := manySteps_check (names := names) (M := M) (c := c) t n k1 (time + t) (fun s => by
      obtain ⟨k2, e2⟩ := Option.isSome_iff_exists.1 (h s)
      obtain ⟨k3, f1, -⟩ := Known.check_le (Known.le_check e1) e2
      rw [f1]; rfl)
    rw [manySteps, Known.check, e1]
    exact this

omit [Arith α] in
theorem calls_owns : ∀ {l : List (Call α)}, (∀ f r w, Call.own f r w ∉ l) → (calls l).owns = []
  | [], _ => rfl
  | c :: l, h => by
    have := calls_owns (l := l) fun f r w hm => h f r w (by simp [hm])
    cases c with
    | own f r w => exact absurd (by simp) (h f r w)
    | _ => simpa [calls, Client.owns] using this

theorem manySteps_owns {c : α → List (Call α)} (t : α) (h : ∀ time f r w, Call.own f r w ∉ c time) : ∀ (n : Nat) (time : α), (manySteps c t n time).owns = []
  | 0, _ => rfl
  | n + 1, time => by
    rw [manySteps, Client.owns, calls_owns (h _), manySteps_owns t h n]; rfl

/-- The time loop of a program with time steps `step`, whose calls are `c`, has the outcome of the sequential run in every execution, from every manager in order with the variables
`q` and a step length, for every length and number of steps. -/
def OneOutcome (names : List VarId) (M : Box) (q : List VarId) (c : α → List (Call α)) (step : α → α → SM (Mgr α) α) : Prop :=
  ∀ m : Mgr α, m.Good (· ∈ names) → m.Laid → m.grid.rng.dims = M → m.grid.dxs.length = M.length → (∀ id ∈ q, m.contents id ≠ none) → m.dt ≠ none →
    ∀ (t : α) (n : Nat) (time : α) (r : SRes (Mgr α) Unit), (manySteps c t n time).Runs m r ↔ r = (do let _ ← Run.steps (step t) n time; return ()) m

theorem oneOutcome {names : List VarId} {M : Box} {q : List VarId} {c : α → List (Call α)} {step : α → α → SM (Mgr α) α}
    (hs : ∀ t time, step t time = (do (calls (c (time + t))).run; return time + t)) (hc : ∀ time, (Known.check names M ⟨q, true⟩ (calls (c time))).isSome)
    (ho : ∀ time f r w, Call.own f r w ∉ c time) : OneOutcome names M q c step := by
  intro m h hL hM hdx he hd t n time r
  obtain ⟨k', hk⟩ := Option.isSome_iff_exists.1 (manySteps_check (names := names) (M := M) (c := c) t n ⟨q, true⟩ time hc)
  rw [C126_same h hL (by rw [hM]; exact hdx) (k := ⟨q, true⟩) ⟨he, fun _ => hd⟩ (by rw [hM]; exact hk) (by rw [manySteps_owns t ho]; intro f hf; cases hf) r,
    manySteps_run (hs t)]

theorem plasma_owns (P : Plasma α) (time : α) (f : SM (Mgr α) Unit) (r w : List VarId) : Call.own f r w ∉ plasmaStep P time := by
  unfold plasmaStep plasmaStage
  cases P.periodic <;> simp

/-- **C126** The time loops of the shipped programs, except advect_gaussian.cpp, for all numbers of cells from 2 on, all parameters and all numbers of steps: the variables after the loop do not depend on
the number of threads. -/
theorem C126_shipped (nx ny nz : Int) (hx : 2 ≤ nx) (hy : 2 ≤ ny) (hz : 2 ≤ nz) (K : GemConstants α) (a b : α) :
    OneOutcome (GemChallenge.electrons.ids ++ GemChallenge.ions.ids ++ GemChallenge.fields.ids) [(0, nx), (0, ny)] [GemChallenge.electrons.q, GemChallenge.ions.q, GemChallenge.fields.q]
      (plasmaStep (GemChallenge.solvers K [a, b])) ((GemChallenge.solvers K [a, b]).step true) ∧
    OneOutcome (GemChallenge.electrons.ids ++ GemChallenge.ions.ids ++ GemChallenge.fields.ids) [(0, nx)] [GemChallenge.electrons.q, GemChallenge.ions.q, GemChallenge.fields.q]
      (plasmaStep (HarrisCurrentSheet.solvers K [a, b])) ((HarrisCurrentSheet.solvers K [a, b]).step true) ∧
    OneOutcome (GemChallenge.electrons.ids ++ GemChallenge.ions.ids ++ GemChallenge.fields.ids) [(0, nx)] [GemChallenge.electrons.q, GemChallenge.ions.q, GemChallenge.fields.q]
      (plasmaStep (TwoFluidBrioWu.solvers [a, b])) ((TwoFluidBrioWu.solvers [a, b]).step true) ∧
    OneOutcome SodShockTube.fluid.ids [(0, nx), (0, ny)] [SodShockTube.fluid.q] (sodStep (SodShockTube.solvers (α := α) 2)) ((SodShockTube.solvers 2).step true) ∧
    OneOutcome Wave1D.field.ids [(0, nx), (0, ny), (0, nz)] [Wave1D.field.q] (lightStep (Wave1D.solvers (α := α))) (Wave1D.solvers.step true) ∧
    OneOutcome Wave1D.field.ids [(0, nx)] [Wave1D.field.q] (lightStep (GaussianPulse.solvers (α := α))) (GaussianPulse.solvers.step true) := by
  have sh := fun time : α => C123_shipped nx ny nz hx hy hz K a b time
  refine ⟨oneOutcome (fun t time => (C123_steps t time).1 _) (fun time => (sh time).1) (plasma_owns _),
    oneOutcome (fun t time => (C123_steps t time).1 _) (fun time => (sh time).2.1) (plasma_owns _),
    oneOutcome (fun t time => (C123_steps t time).1 _) (fun time => (sh time).2.2.1) (plasma_owns _),
    oneOutcome (fun t time => (C123_steps t time).2.1 _) (fun time => (sh time).2.2.2.1) ?_,
    oneOutcome (fun t time => (C123_steps t time).2.2 _) (fun time => (sh time).2.2.2.2.1) ?_,
    oneOutcome (fun t time => (C123_steps t time).2.2 _) (fun time => (sh time).2.2.2.2.2) ?_⟩
  · intro time f r w; simp [sodStep, sodStage, SodShockTube.solvers]
  · intro time f r w; simp [lightStep, lightStage]
  · intro time f r w; simp [lightStep, lightStage]

/-! ## The advection solver -/

/-- The schedule in which the threads race where they can. -/
noncomputable def racing : Schedule α := fun _ ps m =>
  open Classical in if ∃ ps' m', Relation.ReflTransGen Step (ps, m) (ps', m') ∧ Race ps' then .ub "data race" else Prog.runAll ps m

omit [Arith α] in
theorem racing_legal : (racing : Schedule α).Legal := by
  intro loop ps m
  unfold racing
  split
  · rename_i h
    obtain ⟨ps', m', a, b⟩ := h
    exact .undefined _ a (.inr b)
  · exact Schedule.sequential_legal loop ps m

variable {S : VarId → Prop} {m : Mgr α} {q o1 o2 : VarId} {velocity : List α} {v dx : Nat → α}

/-- **C126** The advection solver is different: for every mesh and velocity some execution of its first stage with several threads has a data race, although the sequential run (C69) returns. -/
theorem C126_advection (A : Advects S m q o1 o2 velocity v dx) {t : α} (ht : m.dt = some t) (hne : q ≠ o1) (hq : m.contents q ≠ none) :
    (∃ s : Schedule α, s.Legal ∧ ∃ w, advectionWith s velocity [q] [o1, o2] 0 m = .ub w) ∧
    ∃ s : Schedule α, s.Legal ∧ ∃ m', advectionWith s velocity [q] [o1, o2] 0 m = .ok () m' := by
  obtain ⟨c0, h0⟩ := Option.ne_none_iff_exists'.1 hq
  refine ⟨⟨racing, racing_legal, "data race", ?_⟩, ⟨.sequential, Schedule.sequential_legal, ?_⟩⟩
  · obtain ⟨k0, k1, k2⟩ := A.known
    obtain ⟨a0, ha0⟩ := exists_addr A.good h0
    obtain ⟨a1, m1, e1, g1, l1, x1, b1, c1⟩ := outputVar_requested A.good A.laid k1
    obtain ⟨a2, m2, e2, g2, l2, x2, b2, c2⟩ := outputVar_requested g1 l1 k2
    obtain ⟨T, hT⟩ := Option.ne_none_iff_exists'.1 A.time
    have hdt : dt m = .ok t m := by
      unfold dt; rw [SM.get_bind, ht]; rfl
    have htm : time m = .ok T m := by
      unfold time; rw [SM.get_bind, hT]; rfl
    have kc : m2.contents = m.requested (Arith.lit 0) [o1, o2] := by rw [c2, Mgr.requested_cons _ x1.grid c1]
    have d0 : m2.contents q = some c0 := by rw [kc]; exact Mgr.requested_some _ h0 _
    obtain ⟨c1, d1⟩ : ∃ c, m2.contents o1 = some c := by rw [kc]; exact Mgr.requested_mem _ (by simp)
    have y0 := A.layout l2 (x1.trans x2) (by simp) d0
    have y1 := A.layout l2 (x1.trans x2) (by simp) d1
    have b0 := x2.addr _ _ (x1.addr _ _ ha0)
    have b1' := x2.addr _ _ b1
    unfold advectionWith
    simp only
    rw [SM.bind_ok htm, SM.bind_ok hdt, SM.bind_ok (inputVar_existing A.good k0 ha0), SM.bind_ok e1, SM.bind_ok e2]
    unfold advectionLoopWith
    rw [if_pos rfl]
    refine kernelLoop_ub g2 b0 b1' (cs := [c0]) (.cons ⟨q, b0, d0⟩ .nil) d1 ?_
    rw [addr_ne g2 b0 b1' hne, (x1.trans x2).grid]
    show Advection.stage0With racing t velocity m.grid c0 c1 = _
    obtain ⟨f, f1, f2, f3⟩ := Advection.fullCopy_spec y0 y1
    have hl := y1.sameShape f3
    have hlen : 0 < m.grid.rng.dims.length := List.length_pos_of_ne_nil A.good.mesh_ne
    obtain ⟨ps, p1, p2, -⟩ := C57_race_false y0 hl (by decide) A.good.mesh_pos (Advects.pos A.points A.comps) hlen (dt := t) (A.vel 0 hlen) (A.width 0 hlen)
    unfold Advection.stage0With
    rw [f1, Res.ok_bind]
    unfold Advection.inoutWith
    obtain ⟨N, hN⟩ : ∃ N, m.grid.rng.numDims = N + 1 := ⟨m.grid.rng.dims.length - 1, by unfold Range.numDims; omega⟩
    rw [hN, List.range_succ_eq_map, List.foldlM_cons, p1, Res.ok_bind]
    have hr : racing 0 ps (Mem.of [c0.arr.data, f.data]) = .ub "data race" := by
      unfold racing
      rw [if_pos p2]
    unfold FV.runOnWith
    simp only [hr]
    rfl
  · have hL := A.laid q c0 h0
    obtain ⟨u, hu⟩ := field_of_layout (by simp) hL
    obtain ⟨m', c1, c', k1, -⟩ := advection_stage0 A ht hne h0 hu
    exact ⟨m', k1⟩

end

/-! ## Examples -/

-- C126: the program of Props/Client.lean on 4 × 3 × 2 cells: there is one outcome, in which it returns
example : ∃ m', ∀ r, exClient.Runs (Mgr.make (⟨Range.setup [(0,4),(0,3),(0,2)], [0,0,0], [4,3,2], [1,1,1]⟩ : Rectilinear ℝ)) r ↔ r = .ok () m' := by
  obtain ⟨k', hk⟩ : ∃ k', Known.check exNames [(0,4),(0,3),(0,2)] ⟨[], false⟩ exClient = some k' := ⟨_, rfl⟩
  have hg := (C33_new_manager (S := (· ∈ exNames)) (g := (⟨Range.setup [(0,4),(0,3),(0,2)], [0,0,0], [4,3,2], [1,1,1]⟩ : Rectilinear ℝ))
    (by intro a b ha hb; simp only [exNames, List.mem_cons, List.not_mem_nil, or_false] at ha hb; rcases ha with rfl | rfl | rfl | rfl <;> rcases hb with rfl | rfl | rfl | rfl <;> decide)
    (by decide) (by decide) (by decide)).1
  obtain ⟨m', a1, -⟩ := C123_sound hg laid_new rfl (k := ⟨[], false⟩) ⟨by simp, by simp⟩ hk (by intro f hf; cases hf)
  refine ⟨m', fun r => ?_⟩
  rw [← a1]
  exact C126_same hg laid_new rfl (k := ⟨[], false⟩) ⟨by simp, by simp⟩ hk (by intro f hf; cases hf) r

-- C126: the field of wave_1D.cpp on 4 × 3 × 2 cells, filled with ones: five steps of length 1/10 have one outcome
example : ∃ m : Mgr ℝ, m.contents Wave1D.field.q ≠ none ∧ ∀ r, (manySteps (lightStep (Wave1D.solvers (α := ℝ))) (1 / 10) 5 0).Runs m r ↔
    r = (do let _ ← Run.steps ((Wave1D.solvers (α := ℝ)).step true (1 / 10)) 5 0; return ()) m := by
  obtain ⟨k', hk⟩ : ∃ k', Known.check Wave1D.field.ids [(0,4),(0,3),(0,2)] ⟨[], false⟩ (calls [.fill [Wave1D.field.q] (1 : ℝ), .setDt (1 / 10)]) = some k' := ⟨_, rfl⟩
  obtain ⟨m, a1, a2, a3, a4, a5, -⟩ := C123_start (names := Wave1D.field.ids) (g := (⟨Range.setup [(0,4),(0,3),(0,2)], [0,0,0], [4,3,2], [1,1,1]⟩ : Rectilinear ℝ))
    (by have : ∀ a ∈ Wave1D.field.ids, ∀ b ∈ Wave1D.field.ids, a.name = b.name → a = b := by decide
        exact fun a b ha hb => this a ha b hb) (by decide) (by decide) (by decide) rfl hk (by intro f hf; cases hf)
  obtain rfl : k' = _ := (Option.some.inj hk).symm
  have hq : m.contents Wave1D.field.q ≠ none := a5.exist _ (by decide)
  refine ⟨m, hq, (C126_shipped 4 3 2 (by decide) (by decide) (by decide) GemConstants.make (0 : ℝ) 0).2.2.2.2.1 m a2 a3 (by rw [a4]; rfl) (by rw [a4]; rfl) ?_ (a5.dt rfl) _ _ _⟩
  intro id hid
  obtain rfl : id = Wave1D.field.q := by simpa using hid
  exact hq

-- C126: the advection solver on 3 × 2 cells
example (u : Cell → ℝ) : ∃ m : Mgr ℝ, (∃ s : Schedule ℝ, s.Legal ∧ ∃ w, advectionWith s [2, -1] [exScalar "n"] [exScalar "n1", exScalar "n2"] 0 m = .ub w) ∧
    ∃ s : Schedule ℝ, s.Legal ∧ ∃ m', advectionWith s [2, -1] [exScalar "n"] [exScalar "n1", exScalar "n2"] 0 m = .ok () m' := by
  obtain ⟨m, A, -, ht, c0, h0, -⟩ := exScalar_manager u
  exact ⟨m, C126_advection A ht (by simp [exScalar]) (by rw [h0]; simp)⟩

end QK.Props
