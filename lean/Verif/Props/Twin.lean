import Verif.Proofs.Twin
import Verif.Proofs.Clock
import Verif.Props.Client
/-
C127: what a program does to its variables depends on their contents only: not on their names, on where they lie in memory, on the order in which they were created, or on other variables. So programs
with different variables may be run in any order.
-/
namespace QK.Props
open QK Spec Solve

section
variable {α : Type} [Arith α] {S S' : VarId → Prop} {ρ : VarId → VarId} {ids : List VarId} {m m' : Mgr α}

/-- **C127** Take any program made of calls of the library (accepted by the checker of C123 or not), give its variables other names, and run both programs on managers that store the same for corresponding variables.
Both runs return, or both throw the same exception, or both have undefined behaviour for the same reason; afterwards the managers still store the same. The managers may have other variables, and the variables may lie elsewhere in
memory. Own solvers and conditions of branches must not tell the managers apart. -/
theorem C127_renamed (hρ : Renaming S S' ρ ids) {p p' : Client α} (hp : Client.Renamed (Mgr.Twin S S' ρ ids) ρ ids p p') (h : m.Twin S S' ρ ids m') :
    SameEnd (Mgr.Twin S S' ρ ids) (p.run m) (p'.run m') :=
  sameEnd_iff.2 (sim_client hρ hp m m' (linked_iff.2 h))

omit [Arith α] in
theorem renamed_plain {T : Mgr α → Mgr α → Prop} : ∀ (p : Client α), p.plain = true → (∀ id ∈ p.uses, id ∈ ids) → Client.Renamed T ρ ids p (p.rename ρ)
  | .call c, h, hu => .call h hu
  | .skip, _, _ => .skip
  | .seq p q, h, hu => by
    simp only [Client.plain, Bool.and_eq_true] at h
    exact .seq (renamed_plain p h.1 fun id hid => hu id (List.mem_append.2 (.inl hid))) (renamed_plain q h.2 fun id hid => hu id (List.mem_append.2 (.inr hid)))
  | .loop n p, h, hu => .loop (renamed_plain p h hu)
  | .branch _ _ _, h, _ => by cases h

omit [Arith α] in
theorem rename_id : ∀ p : Client α, p.rename id = p
  | .call c => by
    show Client.call (c.rename id) = _
    cases c <;> simp [Call.rename]
  | .skip => rfl
  | .seq p q => by rw [Client.rename, rename_id p, rename_id q]
  | .loop n p => by rw [Client.rename, rename_id p]
  | .branch b p q => by rw [Client.rename, rename_id p, rename_id q]

/-- **C127** Without own solvers and branches: the program with other names ends like the program itself. -/
theorem C127_names (hρ : Renaming S S' ρ ids) {p : Client α} (hp : p.plain = true) (hu : ∀ id ∈ p.uses, id ∈ ids) (h : m.Twin S S' ρ ids m') :
    SameEnd (Mgr.Twin S S' ρ ids) (p.run m) ((p.rename ρ).run m') := C127_renamed hρ (renamed_plain p hp hu) h

/-- **C127** The same program on two managers that store the same for the variables of the program. -/
theorem C127_layout {p : Client α} (hp : p.plain = true) (hS : ∀ id ∈ p.uses, S id ∧ S' id) (h : m.Twin S S' id p.uses m') : SameEnd (Mgr.Twin S S' id p.uses) (p.run m) (p.run m') := by
  have := C127_names (ρ := id) (ids := p.uses) ⟨fun x hx => (hS x hx).1, fun x hx => (hS x hx).2, fun _ _ _ _ e => e, fun _ _ => rfl, fun _ _ => rfl⟩ hp (fun _ h => h) h
  rwa [rename_id] at this

/-- **C127** Two accepted programs neither of which writes a variable of the other, and which leave the clock alone, may be run in either order: the results are the same for every variable. -/
theorem C127_commute {names : List VarId} {p q : Client α} {k kp kq : Known} (h : m.Good (· ∈ names)) (hL : m.Laid) (hdx : m.grid.dxs.length = m.grid.rng.dims.length) (H : k.Holds m)
    (hp : Known.check names m.grid.rng.dims k p = some kp) (hq : Known.check names m.grid.rng.dims k q = some kq) (pp : p.plain = true) (pq : q.plain = true)
    (cp : p.setsClock = false) (cq : q.setsClock = false) (sp : ∀ id ∈ p.uses, id ∈ names) (sq : ∀ id ∈ q.uses, id ∈ names)
    (apart : ∀ id, (id ∈ p.uses → id ∉ q.writes) ∧ (id ∈ q.uses → id ∉ p.writes)) :
    ∃ m1 m2, (Client.seq p q).run m = .ok () m1 ∧ (Client.seq q p).run m = .ok () m2 ∧ m1.contents = m2.contents ∧ m1.grid = m2.grid ∧ m1.dt = m2.dt ∧ m1.time = m2.time := by
  have none_own : ∀ r : Client α, r.plain = true → r.owns = [] := by
    intro r
    induction r with
    | call c => intro hr; cases c <;> first | rfl | cases hr
    | skip => exact fun _ => rfl
    | seq a b iha ihb =>
      intro hr
      simp only [Client.plain, Bool.and_eq_true] at hr
      simp [Client.owns, iha hr.1, ihb hr.2]
    | loop n a iha => exact iha
    | branch b a c => intro hr; cases hr
  have go : ∀ (r : Client α) (k k' : Known) (m0 : Mgr α), r.plain = true → r.setsClock = false → m0.Good (· ∈ names) → m0.Laid → m0.grid = m.grid → k.Holds m0 → Known.check names m.grid.rng.dims k r = some k' →
      ∃ m', r.run m0 = .ok () m' ∧ m'.Good (· ∈ names) ∧ m'.Laid ∧ m'.grid = m.grid ∧ k'.Holds m' ∧ (∀ id, id ∉ r.writes → m'.contents id = m0.contents id) ∧ m'.dt = m0.dt ∧ m'.time = m0.time := by
    intro r k k' m0 hr cr g l e H hc
    obtain ⟨m', a1, a2, a3, a4, a5, a6⟩ := C123_sound (names := names) (p := r) g l (by rw [e]; exact hdx) H (by rw [e]; exact hc) (by rw [none_own r hr]; simp)
    have := (client_clock (d := m0.dt) (t := m0.time) r hr cr m0 ⟨rfl, rfl⟩).1 _ _ a1
    exact ⟨m', a1, a2, a3, a4.trans e, a5, a6, this.1, this.2⟩
  obtain ⟨mp, p1, p2, p3, p4, p5, p6, p7, p8⟩ := go p k kp m pp cp h hL rfl H hp
  obtain ⟨mq, q1, q2, q3, q4, q5, q6, q7, q8⟩ := go q k kq m pq cq h hL rfl H hq
  obtain ⟨kpq, hpq, -⟩ := Known.check_le (Known.le_check hp) hq
  obtain ⟨kqp, hqp, -⟩ := Known.check_le (Known.le_check hq) hp
  obtain ⟨m1, r1, r2, r3, r4, r5, r6, r7, r8⟩ := go q kp kpq mp pq cq p2 p3 p4 p5 hpq
  obtain ⟨m2, s1, s2, s3, s4, s5, s6, s7, s8⟩ := go p kq kqp mq pp cp q2 q3 q4 q5 hqp
  have A := C127_layout (m := m) (m' := mq) pp (fun id hid => ⟨sp id hid, sp id hid⟩) ⟨h, q2, q4, q7, q8, fun id hid => q6 id ((apart id).1 hid)⟩
  have B := C127_layout (m := m) (m' := mp) pq (fun id hid => ⟨sq id hid, sq id hid⟩) ⟨h, p2, p4, p7, p8, fun id hid => p6 id ((apart id).2 hid)⟩
  rw [p1, s1] at A
  rw [q1, r1] at B
  refine ⟨m1, m2, (SM.bind_ok p1).trans r1, (SM.bind_ok q1).trans s1, ?_, r4.trans s4.symm, (r7.trans p7).trans (s7.trans q7).symm, (r8.trans p8).trans (s8.trans q8).symm⟩
  funext x
  by_cases hx : x ∈ p.uses
  · rw [r6 x ((apart x).1 hx)]
    exact (A.contents x hx).symm
  · by_cases hy : x ∈ q.uses
    · rw [s6 x ((apart x).2 hy)]
      exact B.contents x hy
    · have w : ∀ r : Client α, r.plain = true → x ∉ r.uses → x ∉ r.writes := by
        intro r
        induction r with
        | call c =>
          intro _ hu hw
          cases c <;> simp only [Client.uses, Client.writes, Call.uses, Call.writes, List.mem_append, not_or, List.mem_singleton, List.not_mem_nil] at hu hw <;>
            first | exact hu hw | exact hu.2 hw | exact hu.2 (List.mem_of_mem_take hw)
        | skip => intro _ _ hw; cases hw
        | seq a b iha ihb =>
          intro hr hu hw
          simp only [Client.plain, Bool.and_eq_true] at hr
          simp only [Client.uses, Client.writes, List.mem_append, not_or] at hu hw
          exact hw.elim (iha hr.1 hu.1) (ihb hr.2 hu.2)
        | loop n a iha => exact iha
        | branch b a c => intro hr; cases hr
      rw [r6 x (w q pq hy), p6 x (w p pp hx), s6 x (w p pp hx), q6 x (w q pq hy)]

/-- **C127** Neither do the initial conditions and `ssprk2_advection` tell the managers apart: programs may call them as own solvers. -/
theorem C127_initial (hρ : Renaming S S' ρ ids) {ins outs : List VarId} (hi : ∀ id ∈ ins, id ∈ ids) (ho : ∀ id ∈ outs, id ∈ ids) (h : m.Twin S S' ρ ids m') :
    (∀ gamma, SameEnd (Mgr.Twin S S' ρ ids) (shockTube gamma outs m) (shockTube gamma (outs.map ρ) m')) ∧
    (∀ gamma, SameEnd (Mgr.Twin S S' ρ ids) (radial gamma outs m) (radial gamma (outs.map ρ) m')) ∧
    (∀ s, SameEnd (Mgr.Twin S S' ρ ids) (gaussian s outs m) (gaussian s (outs.map ρ) m')) ∧
    (∀ a d, SameEnd (Mgr.Twin S S' ρ ids) (pulse a d outs m) (pulse a d (outs.map ρ) m')) ∧
    (∀ s, SameEnd (Mgr.Twin S S' ρ ids) (wave s outs m) (wave s (outs.map ρ) m')) ∧
    (∀ s, SameEnd (Mgr.Twin S S' ρ ids) (brioWu s outs m) (brioWu s (outs.map ρ) m')) ∧
    (∀ s, SameEnd (Mgr.Twin S S' ρ ids) (gem s outs m) (gem s (outs.map ρ) m')) ∧
    ∀ velocity tag, SameEnd (Mgr.Twin S S' ρ ids) (advection velocity ins outs tag m) (advection velocity (ins.map ρ) (outs.map ρ) tag m') := by
  have L := linked_iff.2 h
  exact ⟨fun _ => sameEnd_iff.2 (sim_initial hρ _ ho m m' L), fun _ => sameEnd_iff.2 (sim_initial hρ _ ho m m' L), fun _ => sameEnd_iff.2 (sim_initial hρ _ ho m m' L), fun _ _ => sameEnd_iff.2 (sim_initial hρ _ ho m m' L),
    fun _ => sameEnd_iff.2 (sim_initial hρ _ ho m m' L), fun _ => sameEnd_iff.2 (sim_brio hρ _ ho m m' L), fun _ => sameEnd_iff.2 (sim_gem hρ _ ho m m' L), fun _ _ => sameEnd_iff.2 (sim_advection hρ _ _ _ _ hi ho m m' L)⟩

/-- **C127** The time steps of the shipped programs consist of calls of the library. -/
theorem C127_shipped (time : α) :
    (∀ P : Plasma α, (calls (plasmaStep P time)).plain = true) ∧ (∀ P : Sod α, (calls (sodStep P time)).plain = true) ∧ ∀ P : Light α, (calls (lightStep P time)).plain = true := by
  refine ⟨fun P => ?_, fun P => ?_, fun P => ?_⟩
  · cases hp : P.periodic <;> simp [calls, plasmaStep, plasmaStage, hp, Client.plain, Call.isLibrary]
  · cases hp : P.periodic <;> simp [calls, sodStep, sodStage, hp, Client.plain, Call.isLibrary]
  · simp [calls, lightStep, lightStage, Client.plain, Call.isLibrary]

end

/-! ## Examples -/

/-- Other names for the variables of `exNames`: "u" and "du" exchange their names. -/
def exRename (id : VarId) : VarId := if id = exGas "u" then exGas "du" else if id = exGas "du" then exGas "u" else id

theorem exNames_consistent : Mgr.Consistent (· ∈ exNames) := by
  intro a b ha hb
  simp only [exNames, List.mem_cons, List.not_mem_nil, or_false] at ha hb
  rcases ha with rfl | rfl | rfl | rfl <;> rcases hb with rfl | rfl | rfl | rfl <;> decide

theorem exRenaming : Renaming (· ∈ exNames) (· ∈ exNames) exRename [exGas "u", exGas "du", exGas "next"] := by
  refine ⟨by decide, by decide, by decide, by decide, by decide⟩

/-- A manager on 4 × 3 cells that has no variables. -/
noncomputable def exEmpty : Mgr ℝ := Mgr.make ⟨Range.setup [(0,4),(0,3)], [0,0], [4,3], [1,1]⟩

theorem exEmpty_good : exEmpty.Good (· ∈ exNames) :=
  (C33_new_manager exNames_consistent (by decide) (g := (⟨Range.setup [(0,4),(0,3)], [0,0], [4,3], [1,1]⟩ : Rectilinear ℝ)) (by decide) (by decide)).1

/-- 20 Euler steps for a gas; the gas is created here. -/
noncomputable def exSteps : Client ℝ :=
  .seq (.call (.fill [exGas "u"] 1)) <| .seq (.call (.setDt (1 / 100))) <| .loop 20 <| .seq (.call (.noSlip [0] [exGas "u"])) <| .seq (.call (.periodic [1] [exGas "u"])) <| .seq (.call (.fill [exGas "du"] 0)) <|
    .seq (.call (.euler (7 / 5) [exGas "u"] [exGas "du"])) <| .seq (.call (.rk1 [exGas "u", exGas "du"] [exGas "next"] 0)) (.call (.swap [exGas "u", exGas "next"]))

-- C127: on a new manager, the 20 steps and the same steps with "u" and "du" exchanged end alike, and the first ones return
example : ∃ m1 m2, exSteps.run exEmpty = .ok () m1 ∧ (exSteps.rename exRename).run exEmpty = .ok () m2 ∧ m1.contents (exGas "u") ≠ none ∧ m2.contents (exGas "du") = m1.contents (exGas "u") := by
  obtain ⟨k', hk⟩ : ∃ k', Known.check exNames [(0,4),(0,3)] ⟨[], false⟩ exSteps = some k' := ⟨_, rfl⟩
  obtain ⟨m1, a1, -, -, -, a5, -⟩ := C123_start (names := exNames) (g := ⟨Range.setup [(0,4),(0,3)], [0,0], [4,3], [1,1]⟩) (p := exSteps) exNames_consistent
    (by decide) (by decide) (by decide) rfl hk (by intro f hf; cases hf)
  have h := C127_names exRenaming (p := exSteps) rfl (by decide) (m := exEmpty) (m' := exEmpty) ⟨exEmpty_good, exEmpty_good, rfl, rfl, rfl, fun _ _ => rfl⟩
  rw [show exSteps.run exEmpty = .ok () m1 from a1] at h
  have hu : m1.contents (exGas "u") ≠ none := by
    refine a5.exist _ ?_
    have : k' = _ := (Option.some.inj hk).symm
    subst this
    decide
  generalize hr : (exSteps.rename exRename).run exEmpty = r at h
  cases r with
  | ok _ m2 => exact ⟨m1, m2, a1, rfl, hu, h.contents (exGas "u") (by decide)⟩
  | throw w m2 => exact h.elim
  | ub w => exact h.elim
  | diverge => exact h.elim

/-- A second manager: it has the field, which the program does not use, at the address where the first program puts the gas. -/
noncomputable def exField : Call ℝ := .output ⟨"field", GemChallenge.fieldComps, Basis.volumeAverage⟩

-- C127: the same steps on the new manager and on one that has another variable already
example : ∃ m0 m1 m2, exField.run exEmpty = .ok () m0 ∧ m0.contents ⟨"field", GemChallenge.fieldComps, Basis.volumeAverage⟩ ≠ none ∧
    exSteps.run exEmpty = .ok () m1 ∧ exSteps.run m0 = .ok () m2 ∧ m2.contents (exGas "u") = m1.contents (exGas "u") := by
  obtain ⟨k', hk⟩ : ∃ k', Known.check exNames [(0,4),(0,3)] ⟨[], false⟩ exSteps = some k' := ⟨_, rfl⟩
  obtain ⟨m1, a1, -, -, -, -, -⟩ := C123_start (names := exNames) (g := ⟨Range.setup [(0,4),(0,3)], [0,0], [4,3], [1,1]⟩) (p := exSteps) exNames_consistent
    (by decide) (by decide) (by decide) rfl hk (by intro f hf; cases hf)
  obtain ⟨k0, hk0⟩ : ∃ k0, Known.check exNames [(0,4),(0,3)] ⟨[], false⟩ (.call exField) = some k0 := ⟨_, rfl⟩
  obtain ⟨m0, b1, b2, -, b4, b5, b6⟩ := C123_start (names := exNames) (g := ⟨Range.setup [(0,4),(0,3)], [0,0], [4,3], [1,1]⟩) (p := .call exField) exNames_consistent
    (by decide) (by decide) (by decide) rfl hk0 (by intro f hf; cases hf)
  have hc := (client_clock (d := (none : Option ℝ)) (t := none) (.call exField) rfl rfl exEmpty ⟨rfl, rfl⟩).1 _ _ b1
  have h := C127_layout (S := (· ∈ exNames)) (S' := (· ∈ exNames)) (p := exSteps) rfl (by decide) (m := exEmpty) (m' := m0)
    ⟨exEmpty_good, b2, b4, hc.1, hc.2, fun x hx => b6 x (by revert hx x; decide)⟩
  have hf : m0.contents ⟨"field", GemChallenge.fieldComps, Basis.volumeAverage⟩ ≠ none := by
    refine b5.exist _ ?_
    have : k0 = _ := (Option.some.inj hk0).symm
    subst this
    decide
  rw [show exSteps.run exEmpty = .ok () m1 from a1] at h
  generalize hr : exSteps.run m0 = r at h
  cases r with
  | ok _ m2 => exact ⟨m0, m1, m2, b1, hf, a1, hr, h.contents _ (by decide)⟩
  | throw w m2 => exact h.elim
  | ub w => exact h.elim
  | diverge => exact h.elim

-- C127: in a stage of the plasma programs the rates of the electrons may be computed before or after those of the ions
example (K : GemConstants ℝ) (a b : ℝ) (m : Mgr ℝ) (h : m.Good (· ∈ GemChallenge.electrons.ids ++ GemChallenge.ions.ids ++ GemChallenge.fields.ids)) (hL : m.Laid)
    (hd : m.grid.rng.dims = [(0, 4), (0, 3)]) (hdx : m.grid.dxs.length = 2)
    (H : (⟨[GemChallenge.electrons.q, GemChallenge.ions.q, GemChallenge.fields.q, GemChallenge.electrons.rhs, GemChallenge.ions.rhs, GemChallenge.fields.rhs], true⟩ : Known).Holds m) :
    let P := GemChallenge.solvers K [a, b]
    let e := calls [.euler P.gamma [P.e.q] [P.e.rhs], .lorentz P.comE [P.e.q, P.f.q] [P.e.rhs]]
    let i := calls [.euler P.gamma [P.i.q] [P.i.rhs], .lorentz P.comI [P.i.q, P.f.q] [P.i.rhs]]
    ∃ m1 m2, (Client.seq e i).run m = .ok () m1 ∧ (Client.seq i e).run m = .ok () m2 ∧ m1.contents = m2.contents := by
  intro P e i
  have eu : e.uses = [GemChallenge.electrons.q, GemChallenge.electrons.rhs, GemChallenge.electrons.q, GemChallenge.fields.q, GemChallenge.electrons.rhs] := rfl
  have iu : i.uses = [GemChallenge.ions.q, GemChallenge.ions.rhs, GemChallenge.ions.q, GemChallenge.fields.q, GemChallenge.ions.rhs] := rfl
  have ew : e.writes = [GemChallenge.electrons.rhs, GemChallenge.electrons.rhs] := rfl
  have iw : i.writes = [GemChallenge.ions.rhs, GemChallenge.ions.rhs] := rfl
  obtain ⟨m1, m2, r1, r2, r3, -⟩ := C127_commute (p := e) (q := i) h hL (by rw [hd, hdx]; rfl) H (by rw [hd]; rfl) (by rw [hd]; rfl) rfl rfl rfl rfl (by rw [eu]; decide) (by rw [iu]; decide) (fun id => by
    rw [eu, iu, ew, iw]
    revert id
    have h1 : ∀ id ∈ [GemChallenge.electrons.q, GemChallenge.electrons.rhs, GemChallenge.electrons.q, GemChallenge.fields.q, GemChallenge.electrons.rhs], id ∉ [GemChallenge.ions.rhs, GemChallenge.ions.rhs] := by decide
    have h2 : ∀ id ∈ [GemChallenge.ions.q, GemChallenge.ions.rhs, GemChallenge.ions.q, GemChallenge.fields.q, GemChallenge.ions.rhs], id ∉ [GemChallenge.electrons.rhs, GemChallenge.electrons.rhs] := by decide
    exact fun id => ⟨h1 id, h2 id⟩)
  exact ⟨m1, m2, r1, r2, r3⟩

end QK.Props
