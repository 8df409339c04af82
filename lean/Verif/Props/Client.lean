import Verif.Proofs.Client
import Verif.Model.Examples
import Verif.Props.Vtk
/-
C123: programs other than the shipped ones. A program made of calls of the library that passes a simple check of its text never goes wrong.
-/
namespace QK.Props
open QK Spec Solve

section
variable {α : Type} [Arith α]

/-- **C123** Take any program made of calls of the library's solvers (and of well-behaved solvers of its own), with any loops and any branches on the values, any ids `names`, and a manager
in order on any mesh. If the checker accepts the program, every run of it returns: it neither throws nor has undefined behaviour. The variables the checker says
exist do exist, and variables that do not occur among the outputs of the calls are as before. -/
theorem C123_sound {names : List VarId} {p : Client α} {k k' : Known} {m : Mgr α} (h : m.Good (· ∈ names)) (hL : m.Laid)
    (hdx : m.grid.dxs.length = m.grid.rng.dims.length) (H : k.Holds m) (hc : Known.check names m.grid.rng.dims k p = some k')
    (own : ∀ f ∈ p.owns, Behaves (· ∈ names) m.grid f) :
    ∃ m', p.run m = .ok () m' ∧ m'.Good (· ∈ names) ∧ m'.Laid ∧ m'.grid = m.grid ∧ k'.Holds m' ∧ ∀ id, id ∉ p.writes → m'.contents id = m.contents id := by
  obtain ⟨m', a1, a2, a3⟩ := client_within p h hL rfl hdx H hc own
  exact ⟨m', a1, a2.good, a2.laid, a2.grid, a3, a2.kept⟩

/-- **C123** From the start: a program that passes the check with nothing known, on a new manager. Ids with the same name have to be the same (C33), the mesh has to have cells. -/
theorem C123_start {names : List VarId} {p : Client α} {k' : Known} {g : Rectilinear α} (hS : Mgr.Consistent (· ∈ names)) (hp : ∀ id ∈ names, 0 ≤ id.basis.points)
    (hn : g.rng.dims ≠ []) (hM : Pos g.rng.dims) (hdx : g.dxs.length = g.rng.dims.length) (hc : Known.check names g.rng.dims ⟨[], false⟩ p = some k')
    (own : ∀ f ∈ p.owns, Behaves (· ∈ names) g f) :
    ∃ m', p.run (Mgr.make g) = .ok () m' ∧ m'.Good (· ∈ names) ∧ m'.Laid ∧ m'.grid = g ∧ k'.Holds m' ∧ ∀ id, id ∉ p.writes → m'.contents id = none := by
  obtain ⟨m', a1, a2, a3, a4, a5, a6⟩ := C123_sound (C33_new_manager hS hp hn hM).1 laid_new hdx (k := ⟨[], false⟩) ⟨by simp, by simp⟩ hc own
  exact ⟨m', a1, a2, a3, a4, a5, a6⟩

/-! ## What the checker asks for is needed -/

section
variable {S : VarId → Prop} {m : Mgr α}

theorem ub_bind {σ β γ : Type} {x : SM σ β} {f : β → SM σ γ} {s : σ} {w : String} (h : x s = .ub w) : (x >>= f) s = .ub w := by
  show (match x s with | .ok b s' => f b s' | .throw msg s' => .throw msg s' | .ub w => .ub w | .diverge => .diverge) = _
  rw [h]

/-- **C123** A solver that reads a variable that does not exist has undefined behaviour. -/
theorem C123_missing (h : m.Good S) {q : VarId} (hq : S q) (hm : m.contents q = none) (x : α) (r : VarId) :
    (∃ w, euler x [q] [r] m = .ub w) ∧ (∃ w, maxwell x [q] [r] m = .ub w) ∧ (∀ f, ∃ w, lorentz x [q, f] [r] m = .ub w) ∧
      (∀ p, S p → m.contents p ≠ none → ∃ w, lorentz x [p, q] [r] m = .ub w) ∧
      (∀ (rhs : VarId) os tag, ∃ w, rk1 [q, rhs] (r :: os) tag m = .ub w) ∧
      (∀ (rhs : VarId) o1 o2 os tag, ∃ w, ssprk3 true [q, rhs] (r :: o1 :: o2 :: os) tag m = .ub w) := by
  obtain ⟨⟨w, hw⟩, -⟩ := C34_false h hq hm
  refine ⟨⟨w, ub_bind hw⟩, ⟨w, ub_bind hw⟩, fun f => ⟨w, ub_bind hw⟩, fun p hp hpe => ?_, fun rhs os tag => ?_, fun rhs o1 o2 os tag => ?_⟩
  · obtain ⟨c, hc⟩ := Option.ne_none_iff_exists'.1 hpe
    obtain ⟨a, ha⟩ := exists_addr h hc
    refine ⟨w, ?_⟩
    unfold lorentz
    simp only
    rw [SM.bind_ok (inputVar_existing h hp ha)]
    exact ub_bind hw
  · cases hd : m.dt with
    | none => exact ⟨_, ub_bind (show Solve.dt m = .ub "read of uninitialised _dt" by unfold Solve.dt; rw [SM.get_bind, hd]; rfl)⟩
    | some t =>
      refine ⟨w, ?_⟩
      unfold rk1
      simp only
      rw [SM.bind_ok (show Solve.dt m = .ok t m by unfold Solve.dt; rw [SM.get_bind, hd]; rfl)]
      exact ub_bind hw
  · cases hd : m.dt with
    | none => exact ⟨_, ub_bind (show Solve.dt m = .ub "read of uninitialised _dt" by unfold Solve.dt; rw [SM.get_bind, hd]; rfl)⟩
    | some t =>
      refine ⟨w, ?_⟩
      unfold ssprk3
      simp only
      rw [SM.bind_ok (show Solve.dt m = .ok t m by unfold Solve.dt; rw [SM.get_bind, hd]; rfl)]
      exact ub_bind hw

/-- **C123** Without a call of `set_dt` the integrators and `euler` have undefined behaviour. -/
theorem C123_no_step (h : m.Good S) (hL : m.Laid) (hd : m.dt = none) {q r : VarId} (hq : S q) (hr : S r) (x : α) :
    (m.contents q ≠ none → ∃ w, euler x [q] [r] m = .ub w) ∧ (∀ (rhs : VarId) os tag, ∃ w, rk1 [q, rhs] (r :: os) tag m = .ub w) ∧
      ∀ (rhs : VarId) o1 o2 os tag, ∃ w, ssprk3 true [q, rhs] (r :: o1 :: o2 :: os) tag m = .ub w := by
  have hdt : Solve.dt m = .ub "read of uninitialised _dt" := by unfold Solve.dt; rw [SM.get_bind, hd]; rfl
  refine ⟨fun hqe => ?_, fun rhs os tag => ⟨_, ub_bind hdt⟩, fun rhs o1 o2 os tag => ⟨_, ub_bind hdt⟩⟩
  obtain ⟨c, hc⟩ := Option.ne_none_iff_exists'.1 hqe
  obtain ⟨a, ha⟩ := exists_addr h hc
  obtain ⟨b, m1, k1, k2, k3, k4, k5, k6⟩ := outputVar_requested h hL hr
  have hc1 : m1.contents q = some c := by rw [k6]; exact Mgr.requested_some _ hc _
  obtain ⟨c2, hc2⟩ : ∃ c2, m1.contents r = some c2 := by rw [k6]; exact Mgr.requested_mem _ (by simp)
  refine ⟨"read of uninitialised _dt", ?_⟩
  unfold euler
  simp only
  rw [SM.bind_ok (inputVar_existing h hq ha), SM.bind_ok k1]
  refine kernelLoop_ub k2 (k4.addr _ _ ha) k5 (cs := [c]) (.cons ⟨q, k4.addr _ _ ha, hc1⟩ .nil) hc2 (w := "read of uninitialised _dt") ?_
  unfold dtOf
  rw [show m1.dt = none from k4.dt.trans hd]
  rfl

/-- **C123** A solver with the same variable as input and output has undefined behaviour. -/
theorem C123_same (h : m.Good S) {q : VarId} (hq : S q) (hqe : m.contents q ≠ none) (x : α) :
    (m.dt ≠ none → ∃ w, euler x [q] [q] m = .ub w) ∧ (∃ w, maxwell x [q] [q] m = .ub w) ∧
      (∀ f, S f → m.contents f ≠ none → ∃ w, lorentz x [q, f] [q] m = .ub w) ∧ ∀ f, S f → m.contents f ≠ none → ∃ w, lorentz x [f, q] [q] m = .ub w := by
  obtain ⟨c, hc⟩ := Option.ne_none_iff_exists'.1 hqe
  obtain ⟨a, ha⟩ := exists_addr h hc
  refine ⟨fun hd => ?_, ?_, fun f hf hfe => ?_, fun f hf hfe => ?_⟩
  · obtain ⟨t, ht⟩ := Option.ne_none_iff_exists'.1 hd
    refine ⟨"__restrict__ pointers to the same array", ?_⟩
    unfold euler
    simp only
    rw [SM.bind_ok (inputVar_existing h hq ha), SM.bind_ok (outputVar_existing h hq ha)]
    refine kernelLoop_ub h ha ha (cs := [c]) (.cons ⟨q, ha, hc⟩ .nil) hc (w := "__restrict__ pointers to the same array") ?_
    simp [dtOf, ht, aliased]
  · refine ⟨"__restrict__ pointers to the same array", ?_⟩
    unfold maxwell
    simp only
    rw [SM.bind_ok (inputVar_existing h hq ha), SM.bind_ok (outputVar_existing h hq ha)]
    refine kernelLoop_ub h ha ha (cs := [c]) (.cons ⟨q, ha, hc⟩ .nil) hc (w := "__restrict__ pointers to the same array") ?_
    simp [aliased]
  · obtain ⟨d, hd⟩ := Option.ne_none_iff_exists'.1 hfe
    obtain ⟨b, hb⟩ := exists_addr h hd
    refine ⟨"__restrict__ pointers to the same array", ?_⟩
    unfold lorentz
    simp only
    rw [SM.bind_ok (inputVar_existing h hq ha), SM.bind_ok (inputVar_existing h hf hb), SM.bind_ok (outputVar_existing h hq ha)]
    refine kernelLoop_ub h ha ha (cs := [c, d]) (.cons ⟨q, ha, hc⟩ (.cons ⟨f, hb, hd⟩ .nil)) hc (w := "__restrict__ pointers to the same array") ?_
    simp [aliased]
  · obtain ⟨d, hd⟩ := Option.ne_none_iff_exists'.1 hfe
    obtain ⟨b, hb⟩ := exists_addr h hd
    refine ⟨"__restrict__ pointers to the same array", ?_⟩
    unfold lorentz
    simp only
    rw [SM.bind_ok (inputVar_existing h hf hb), SM.bind_ok (inputVar_existing h hq ha), SM.bind_ok (outputVar_existing h hq ha)]
    refine kernelLoop_ub h hb ha (cs := [d, c]) (.cons ⟨f, hb, hd⟩ (.cons ⟨q, ha, hc⟩ .nil)) hc (w := "__restrict__ pointers to the same array") ?_
    simp [aliased]

end

/-! ## The shipped programs -/

/-- Calls one after the other. -/
def calls : List (Call α) → Client α
  | [] => .skip
  | c :: l => .seq (.call c) (calls l)

/-- Stage `k` of the plasma programs, as calls (`P.stage`). -/
def plasmaStage (P : Plasma α) (k : Nat) : List (Call α) :=
  [.noSlip P.walls [P.e.at k, P.i.at k], .conductingWall P.walls [P.f.at k]] ++ (P.periodic.toList.map fun ds => .periodic ds [P.e.at k, P.i.at k, P.f.at k]) ++
  [.fill [P.e.rhs, P.i.rhs, P.f.rhs] (Arith.lit 0), .euler P.gamma [P.e.at k] [P.e.rhs], .lorentz P.comE [P.e.at k, P.f.at k] [P.e.rhs],
   .euler P.gamma [P.i.at k] [P.i.rhs], .lorentz P.comI [P.i.at k, P.f.at k] [P.i.rhs], .maxwell P.c [P.f.at k] [P.f.rhs],
   .current P.mults [P.e.at k, P.i.at k] [P.f.rhs],
   .ssprk3 [P.e.q, P.e.rhs] [P.e.q1, P.e.q2, P.e.q3] k, .ssprk3 [P.i.q, P.i.rhs] [P.i.q1, P.i.q2, P.i.q3] k, .ssprk3 [P.f.q, P.f.rhs] [P.f.q1, P.f.q2, P.f.q3] k]

/-- A time step of the plasma programs. -/
def plasmaStep (P : Plasma α) (time : α) : List (Call α) :=
  plasmaStage P 0 ++ plasmaStage P 1 ++ plasmaStage P 2 ++ [.swap [P.e.q, P.e.q3, P.i.q, P.i.q3, P.f.q, P.f.q3], .setTime time]

def sodStage (P : Sod α) (k : Nat) : List (Call α) :=
  [.noSlip P.walls [P.v.at k]] ++ (P.periodic.toList.map fun ds => .periodic ds [P.v.at k]) ++
  [.fill [P.v.rhs] (Arith.lit 0), .euler P.gamma [P.v.at k] [P.v.rhs], .ssprk3 [P.v.q, P.v.rhs] [P.v.q1, P.v.q2, P.v.q3] k]

/-- A time step of sod_shock_tube.cpp. -/
def sodStep (P : Sod α) (time : α) : List (Call α) := sodStage P 0 ++ sodStage P 1 ++ sodStage P 2 ++ [.swap [P.v.q, P.v.q3], .setTime time]

def lightStage (P : Light α) (k : Nat) : List (Call α) :=
  [.periodic P.periodic [P.v.at k], .fill [P.v.rhs] (Arith.lit 0), .maxwell P.c [P.v.at k] [P.v.rhs], .ssprk3 [P.v.q, P.v.rhs] [P.v.q1, P.v.q2, P.v.q3] k]

/-- A time step of wave_1D.cpp and gaussian_pulse.cpp. -/
def lightStep (P : Light α) (time : α) : List (Call α) := lightStage P 0 ++ lightStage P 1 ++ lightStage P 2 ++ [.swap [P.v.q, P.v.q3], .setTime time]

/-- **C123** The time steps of the shipped programs (except advect_gaussian.cpp) are programs made of calls. -/
theorem C123_steps (t time : α) :
    (∀ P : Plasma α, P.step true t time = (do (calls (plasmaStep P (time + t))).run; return time + t)) ∧
    (∀ P : Sod α, P.step true t time = (do (calls (sodStep P (time + t))).run; return time + t)) ∧
    ∀ P : Light α, P.step true t time = (do (calls (lightStep P (time + t))).run; return time + t) := by
  refine ⟨fun P => ?_, fun P => ?_, fun P => ?_⟩
  · cases hp : P.periodic <;>
    simp [Plasma.step, Plasma.stage, Plasma.bcs, Plasma.rates, Plasma.advance, Plasma.periodicBc, calls, plasmaStep, plasmaStage, hp, Client.run, Call.run, bind_assoc]
  · cases hp : P.periodic <;>
    simp [Sod.step, Sod.stage, Plasma.periodicBc, calls, sodStep, sodStage, hp, Client.run, Call.run, bind_assoc]
  · simp [Light.step, Light.stage, calls, lightStep, lightStage, Client.run, Call.run, bind_assoc]

omit [Arith α] in
/-- The checker looks at the mesh only for the number of directions and for those with at least two cells. -/
theorem check_mesh {names : List VarId} {M M' : Box} (hl : M.length = M'.length) (hd : Known.directions M = Known.directions M') :
    ∀ (p : Client α) (k : Known), Known.check names M k p = Known.check names M' k p
  | .call c, k => by
    have : k.allows M c = k.allows M' c := by
      unfold Known.allows
      split <;> simp only [hl, hd]
    unfold Known.check
    rw [this]
  | .skip, k => rfl
  | .seq p q, k => by
    unfold Known.check
    rw [check_mesh hl hd p k]
    congr 1
    funext k'
    exact check_mesh hl hd q k'
  | .loop n p, k => by
    unfold Known.check
    rw [check_mesh hl hd p k]
  | .branch b p q, k => by
    unfold Known.check
    rw [check_mesh hl hd p k, check_mesh hl hd q k]

theorem directions_two {M M' : Box} (hl : M.length = M'.length) (h : ∀ i < M.length, 2 ≤ Spec.hi M i - Spec.lo M i) (h' : ∀ i < M'.length, 2 ≤ Spec.hi M' i - Spec.lo M' i) :
    Known.directions M = Known.directions M' := by
  funext dims
  unfold Known.directions
  congr 1
  funext d
  simp only [decide_eq_decide]
  constructor
  · rintro ⟨a, b, -⟩; exact ⟨a, by omega, h' _ (by omega)⟩
  · rintro ⟨a, b, -⟩; exact ⟨a, by omega, h _ (by omega)⟩

/-- **C123** The time steps of the shipped programs pass the check, for all numbers of cells from 2 on and all parameters, once the initial condition created
the variables and `set_dt` was called. -/
theorem C123_shipped (nx ny nz : Int) (hx : 2 ≤ nx) (hy : 2 ≤ ny) (hz : 2 ≤ nz) (K : GemConstants α) (a b time : α) :
    (Known.check (GemChallenge.electrons.ids ++ GemChallenge.ions.ids ++ GemChallenge.fields.ids) [(0, nx), (0, ny)]
      ⟨[GemChallenge.electrons.q, GemChallenge.ions.q, GemChallenge.fields.q], true⟩ (calls (plasmaStep (GemChallenge.solvers K [a, b]) time))).isSome ∧
    (Known.check (GemChallenge.electrons.ids ++ GemChallenge.ions.ids ++ GemChallenge.fields.ids) [(0, nx)]
      ⟨[GemChallenge.electrons.q, GemChallenge.ions.q, GemChallenge.fields.q], true⟩ (calls (plasmaStep (HarrisCurrentSheet.solvers K [a, b]) time))).isSome ∧
    (Known.check (GemChallenge.electrons.ids ++ GemChallenge.ions.ids ++ GemChallenge.fields.ids) [(0, nx)]
      ⟨[GemChallenge.electrons.q, GemChallenge.ions.q, GemChallenge.fields.q], true⟩ (calls (plasmaStep (TwoFluidBrioWu.solvers [a, b]) time))).isSome ∧
    (Known.check SodShockTube.fluid.ids [(0, nx), (0, ny)] ⟨[SodShockTube.fluid.q], true⟩ (calls (sodStep (SodShockTube.solvers 2) time))).isSome ∧
    (Known.check Wave1D.field.ids [(0, nx), (0, ny), (0, nz)] ⟨[Wave1D.field.q], true⟩ (calls (lightStep Wave1D.solvers time))).isSome ∧
    (Known.check Wave1D.field.ids [(0, nx)] ⟨[Wave1D.field.q], true⟩ (calls (lightStep GaussianPulse.solvers time))).isSome := by
  have two : ∀ M M' : Box, M.length = M'.length → (∀ i < M.length, 2 ≤ Spec.hi M i - Spec.lo M i) → (∀ i < M'.length, 2 ≤ Spec.hi M' i - Spec.lo M' i) →
      ∀ (names : List VarId) (k : Known) (p : Client α), (Known.check names M' k p).isSome → (Known.check names M k p).isSome := by
    intro M M' hl h h' names k p e
    rw [check_mesh hl (directions_two hl h h')]
    exact e
  have m1 : ∀ i < ([(0, nx)] : Box).length, 2 ≤ Spec.hi [(0, nx)] i - Spec.lo [(0, nx)] i := by
    intro i hi'
    have : i = 0 := by simpa using hi'
    subst this
    simpa [Spec.hi, Spec.lo] using hx
  have m2 : ∀ i < ([(0, nx), (0, ny)] : Box).length, 2 ≤ Spec.hi [(0, nx), (0, ny)] i - Spec.lo [(0, nx), (0, ny)] i := by
    intro i hi'
    have : i = 0 ∨ i = 1 := by simp at hi'; omega
    rcases this with rfl | rfl
    · simpa [Spec.hi, Spec.lo] using hx
    · simpa [Spec.hi, Spec.lo] using hy
  have m3 : ∀ i < ([(0, nx), (0, ny), (0, nz)] : Box).length, 2 ≤ Spec.hi [(0, nx), (0, ny), (0, nz)] i - Spec.lo [(0, nx), (0, ny), (0, nz)] i := by
    intro i hi'
    have : i = 0 ∨ i = 1 ∨ i = 2 := by simp at hi'; omega
    rcases this with rfl | rfl | rfl
    · simpa [Spec.hi, Spec.lo] using hx
    · simpa [Spec.hi, Spec.lo] using hy
    · simpa [Spec.hi, Spec.lo] using hz
  refine ⟨two [(0, nx), (0, ny)] [(0, 2), (0, 2)] rfl m2 (by decide) _ _ _ ?_, two [(0, nx)] [(0, 2)] rfl m1 (by decide) _ _ _ ?_, two [(0, nx)] [(0, 2)] rfl m1 (by decide) _ _ _ ?_,
    two [(0, nx), (0, ny)] [(0, 2), (0, 2)] rfl m2 (by decide) _ _ _ ?_, two [(0, nx), (0, ny), (0, nz)] [(0, 2), (0, 2), (0, 2)] rfl m3 (by decide) _ _ _ ?_, two [(0, nx)] [(0, 2)] rfl m1 (by decide) _ _ _ ?_⟩
  · rfl
  · rfl
  · rfl
  · rfl
  · rfl
  · rfl

end

/-! ## Examples -/

/-- Three variables of a gas, and a field that the program leaves alone. -/
def exGas (name : String) : VarId := ⟨name, GemChallenge.fluidComps, Basis.volumeAverage⟩
def exNames : List VarId := [exGas "u", exGas "du", exGas "next", ⟨"field", GemChallenge.fieldComps, Basis.volumeAverage⟩]

/-- A program that is not shipped: 10 × 20 Euler steps of first order in time for a gas on a mesh of three directions, with walls along direction 0; along the others the
gas is copied out while the time is not set, and periodic afterwards. -/
noncomputable def exClient : Client ℝ :=
  .seq (.call (.fill [exGas "u"] 1)) <| .seq (.call (.setDt (1 / 100))) <| .loop 10 <| .seq
    (.loop 20 <| .seq (.call (.noSlip [0] [exGas "u"])) <|
      .seq (.branch (fun m => m.time.isNone) (.call (.copyOut [1, 2] [exGas "u"])) (.call (.periodic [2, 1] [exGas "u"]))) <|
      .seq (.call (.fill [exGas "du"] 0)) <| .seq (.call (.euler (7 / 5) [exGas "u"] [exGas "du"])) <|
      .seq (.call (.rk1 [exGas "u", exGas "du"] [exGas "next"] 0)) (.call (.swap [exGas "u", exGas "next"])))
    (.call (.setTime 1))

-- C123: it passes the check on a mesh of 4 × 3 × 2 cells, so its runs return and never create the field
example : ∃ m', exClient.run (Mgr.make (⟨Range.setup [(0,4),(0,3),(0,2)], [0,0,0], [4,3,2], [1,1,1]⟩ : Rectilinear ℝ)) = .ok () m' ∧
    m'.contents (exGas "u") ≠ none ∧ m'.contents ⟨"field", GemChallenge.fieldComps, Basis.volumeAverage⟩ = none := by
  obtain ⟨k', hk⟩ : ∃ k', Known.check exNames [(0,4),(0,3),(0,2)] ⟨[], false⟩ exClient = some k' := ⟨_, rfl⟩
  obtain ⟨m', a1, -, -, -, a5, a6⟩ := C123_start (names := exNames) (g := ⟨Range.setup [(0,4),(0,3),(0,2)], [0,0,0], [4,3,2], [1,1,1]⟩) (p := exClient)
    (by intro a b ha hb; simp only [exNames, List.mem_cons, List.not_mem_nil, or_false] at ha hb; rcases ha with rfl | rfl | rfl | rfl <;> rcases hb with rfl | rfl | rfl | rfl <;> decide)
    (by decide) (by decide) (by decide) rfl hk (by intro f hf; cases hf)
  refine ⟨m', a1, a5.exist _ ?_, a6 _ ?_⟩
  · have : k' = _ := (Option.some.inj hk).symm
    subst this
    decide
  · decide

-- C123: not accepted: the step length is missing; the gas is read before it exists; the rate is computed into the gas itself; the mesh has no direction 2
example : (Known.check exNames [(0,4),(0,3)] ⟨[exGas "u"], false⟩ (.call (.euler (7 / 5 : ℝ) [exGas "u"] [exGas "du"]))).isSome = false ∧
    (Known.check exNames [(0,4),(0,3)] ⟨[], true⟩ (.call (.euler (7 / 5 : ℝ) [exGas "u"] [exGas "du"]))).isSome = false ∧
    (Known.check exNames [(0,4),(0,3)] ⟨[exGas "u"], true⟩ (.call (.euler (7 / 5 : ℝ) [exGas "u"] [exGas "u"]))).isSome = false ∧
    (Known.check exNames [(0,4),(0,3)] ⟨[exGas "u"], true⟩ (.call (.periodic (α := ℝ) [2] [exGas "u"]))).isSome = false := ⟨rfl, rfl, rfl, rfl⟩

-- C123: two managers on 4 × 3 cells, a new one and one with the electrons; the solvers fail as stated
example : ∃ m : Mgr ℝ, m.Good (· ∈ exPlasmaIds) ∧ m.contents (exPlasma "e" 5) = none ∧ ∃ w, euler (5 / 3) [exPlasma "e" 5] [exPlasma "i" 5] m = .ub w := by
  have h1 := (C33_new_manager exPlasma_consistent (by decide) (g := (⟨Range.setup [(0,4),(0,3)], [0,0], [4,3], [1,1]⟩ : Rectilinear ℝ)) (by decide) (by decide)).1
  exact ⟨_, h1, rfl, (C123_missing h1 (by decide) rfl _ _).1⟩

example : ∃ m : Mgr ℝ, m.dt = none ∧ ∃ w, ssprk3 true [exPlasma "e" 5, exPlasma "i" 5] [exPlasma "r" 5, exPlasma "r" 5, exPlasma "r" 5] 0 m = .ub w := by
  have h1 := (C33_new_manager exPlasma_consistent (by decide) (g := (⟨Range.setup [(0,4),(0,3)], [0,0], [4,3], [1,1]⟩ : Rectilinear ℝ)) (by decide) (by decide)).1
  exact ⟨_, rfl, (C123_no_step h1 laid_new rfl (by decide : exPlasma "e" 5 ∈ exPlasmaIds) (by decide : exPlasma "r" 5 ∈ exPlasmaIds) 1).2.2 _ _ _ _ _⟩

example : ∃ m : Mgr ℝ, (∃ w, maxwell 1 [exPlasma "f" 8] [exPlasma "f" 8] m = .ub w) ∧ m.contents (exPlasma "f" 8) ≠ none := by
  obtain ⟨m, h1, h2, h3, h4⟩ := exBoundary
  have hf := (h4 (exPlasma "f" 8) (by simp)).exists
  exact ⟨m, (C123_same h1 (by decide) hf 1).2.1, hf⟩

end QK.Props
