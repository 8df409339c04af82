import Verif.Proofs.ProgramRun
/-
Properties of the example programs (C81).
-/
namespace QK.Props
open Spec Solve

/-! ## C81 -/

section
variable {α : Type} [Arith α] {S : VarId → Prop} {m : Mgr α} {P : Plasma α} {ws ps : List Nat} {g : Rectilinear α}

/-- **C81** One stage `k` of a plasma program, on any manager that holds a state at the start of the step and one of the previous
stage: it runs to its end; the variables of stage `k` get their ghost cells, the right-hand sides get the rates of change, the
variables of stage `k + 1` get the new state; nothing else that existed changes. -/
theorem C81_stage {p : Int} (V : P.Vars S p) (hW : P.walls = ints ws) (hP : P.periodic.getD [] = ints ps)
    (B : BCMesh m.grid ws ps) (h : m.Good S) (hL : m.Laid) {t : α} (ht : m.dt = some t) {k : Nat} (hk : k < 3) {start cur : State α}
    (h0 : P.Holds m 0 start) (hc : P.Holds m k cur) :
    ∃ m' cur' rate next, P.stage true k m = .ok () m' ∧ m'.Good S ∧ m'.Laid ∧ m.Extends m' ∧
      (∀ id c, id ∉ [P.e.at k, P.i.at k, P.f.at k, P.e.rhs, P.i.rhs, P.f.rhs, P.e.at (k + 1), P.i.at (k + 1), P.f.at (k + 1)] →
        m.contents id = some c → m'.contents id = some c) ∧
      P.Holds m' k cur' ∧ P.Holds m' 4 rate ∧ P.Holds m' (k + 1) next ∧ P.Holds m' 0 (if k = 0 then cur' else start) ∧
      PlasmaStage P m.grid p ws ps t k (if k = 0 then cur' else start) cur cur' rate next := by
  obtain ⟨m', cur', rate, next, a1, K, a3, a4, a5, a6, a7⟩ := stage_fields V hW hP B h hL ht hk h0 hc
  exact ⟨m', cur', rate, next, a1, K.good, K.laid, K.ext, K.kept, a3, a4, a5, a6, a7⟩

/-- **C81** One time step: three such stages, from `q` to the state of the third, which is then in the first variables; the time
advances. -/
theorem C81_step {p : Int} (V : P.Vars S p) (hW : P.walls = ints ws) (hP : P.periodic.getD [] = ints ps)
    (B : BCMesh m.grid ws ps) (h : m.Good S) (hL : m.Laid) {t : α} (ht : m.dt = some t) {q : State α} (h0 : P.Holds m 0 q) (timeDt time : α) :
    ∃ m' q', P.step true timeDt time m = .ok (time + timeDt) m' ∧ m'.Good S ∧ m'.Laid ∧ m'.grid = m.grid ∧ m'.dt = m.dt ∧
      m'.time = some (time + timeDt) ∧ (∀ id c, id ∉ P.e.ids ++ (P.i.ids ++ P.f.ids) → m.contents id = some c → m'.contents id = some c) ∧
      P.Holds m' 0 q' ∧ PlasmaStep P m.grid p ws ps t q q' := step_fields V hW hP B h hL ht h0 timeDt time

/-- **C81** A whole program, after an initial condition that sets the state `q0`: there are states `s 0, s 1, …`, each one time step
after the other, and files, file `j` showing the state after `j` frames, such that: if all files can be created, the program
runs to its end, has written these files in order and holds the last state; if `k` is the first frame whose file cannot be
created, it ends with an exception and has written the files before that. -/
theorem C81_program (R : RunReady S P ws ps) {ic : SM (Mgr α) Unit} {m0 : Mgr α} (hic : ic m = .ok () m0) (h : m0.Good S) (hL : m0.Laid)
    (hg : RunGrid m0.grid ws ps) {q0 : State α} (h0 : P.Holds m0 0 q0) (canOpen : Nat → Bool) (t : α) (numFrames numSteps : Nat) :
    ∃ (s : Nat → State α) (file : Nat → List (Tok α)), s 0 = q0 ∧
      (∀ j < numFrames * numSteps, PlasmaStep P m0.grid 1 ws ps t (s j) (s (j + 1))) ∧
      (∀ j ≤ numFrames, FileShows m0.grid.rng.dims P (s (j * numSteps)) (file j)) ∧
      ((∀ j ≤ numFrames, canOpen j = true) → ∃ m', Run.main ic canOpen [P.e.q, P.i.q, P.f.q] (P.step true) t numFrames numSteps ⟨m, []⟩ =
          .ok () ⟨m', (List.range (numFrames + 1)).map fun j => (j, file j)⟩ ∧
        Between S P m0.grid t ((fun x => x + t)^[numFrames * numSteps] (Arith.lit 0)) (s (numFrames * numSteps)) m') ∧
      (∀ k ≤ numFrames, (∀ j < k, canOpen j = true) → canOpen k = false → ∃ msg m',
        Run.main ic canOpen [P.e.q, P.i.q, P.f.q] (P.step true) t numFrames numSteps ⟨m, []⟩ =
          .throw msg ⟨m', (List.range k).map fun j => (j, file j)⟩) := by
  obtain ⟨file0, w1, w2⟩ := file_shows R.vars R.basis h hL hg h0
  have e1 : Run.onMgr ic ⟨m, []⟩ = .ok () ⟨m0, []⟩ := Run.onMgr_ok hic
  set m1 := (m0.setTime (Arith.lit 0)).setDt t with hm1
  have B : Between S P m0.grid t (Arith.lit 0) q0 m1 := ⟨Mgr.setDt_good (Mgr.setTime_good' h _) _, hL, rfl, rfl, rfl, ⟨h0.e, h0.i, h0.f⟩⟩
  obtain ⟨s, file, a1, a2, a3, a4, a5⟩ := frames_spec R hg canOpen numSteps numFrames 0 (Arith.lit 0) ⟨m1, [(0, file0)]⟩ q0 B
  have e3 : ∀ fs, Run.onMgr (SM.modifyRes (fun m => .ok (m.setTime (Arith.lit 0)))) (⟨m0, fs⟩ : Run α) = .ok () ⟨m0.setTime (Arith.lit 0), fs⟩ :=
    fun fs => Run.onMgr_ok rfl
  have e4 : ∀ fs, Run.onMgr (SM.modifyRes (fun m => .ok (m.setDt t))) (⟨m0.setTime (Arith.lit 0), fs⟩ : Run α) = .ok () ⟨m1, fs⟩ :=
    fun fs => Run.onMgr_ok rfl
  have list : ∀ k, [(0, file0)] ++ ((List.range k).map fun j => (0 + 1 + j, file (0 + 1 + j))) =
      (List.range (k + 1)).map fun j => (j, if j = 0 then file0 else file j) := by
    intro k
    rw [List.range_succ_eq_map, List.map_cons, List.map_map, List.singleton_append]
    congr 1
    refine List.map_congr_left fun j _ => ?_
    simp only [Function.comp_apply, Nat.succ_eq_add_one]
    rw [if_neg (by omega), show 0 + 1 + j = j + 1 by ring]
  refine ⟨s, fun j => if j = 0 then file0 else file j, a1, a2, ?_, ?_, ?_⟩
  · intro j hj
    by_cases hj0 : j = 0
    · subst hj0; simp only [if_true, Nat.zero_mul]; rw [a1]; exact w2
    · simp only [if_neg hj0]
      have := a3 j (by omega) hj
      rwa [Nat.zero_add] at this
  · intro hc
    obtain ⟨m', b1, b2⟩ := a4 (fun j _ hj => hc _ (by omega))
    refine ⟨m', ?_, b2⟩
    have ee : Run.exportFrame canOpen 0 [P.e.q, P.i.q, P.f.q] ⟨m0, []⟩ = .ok () ⟨m0, [(0, file0)]⟩ := by
      unfold Run.exportFrame
      rw [hc 0 (by omega), w1]; rfl
    unfold Run.main
    rw [SM.bind_ok e1, SM.bind_ok ee, SM.bind_ok (e3 _), SM.bind_ok (e4 _), b1, list]
  · intro k hk hc hno
    cases k with
    | zero =>
      obtain ⟨msg, hmsg⟩ := C43_cannot_open (m := m0) (id := P.e.q) (ids := [P.i.q, P.f.q]) []
      refine ⟨msg, m0, ?_⟩
      have ee : Run.exportFrame canOpen 0 [P.e.q, P.i.q, P.f.q] ⟨m0, []⟩ = .throw msg ⟨m0, []⟩ := by
        unfold Run.exportFrame
        rw [hno, hmsg]; rfl
      unfold Run.main
      rw [SM.bind_ok e1, SM.bind_throw ee]
      rfl
    | succ k =>
      obtain ⟨msg, m', b1⟩ := a5 k (by omega) (fun j _ hj => hc _ (by omega)) (by rw [Nat.zero_add]; exact hno)
      refine ⟨msg, m', ?_⟩
      have ee : Run.exportFrame canOpen 0 [P.e.q, P.i.q, P.f.q] ⟨m0, []⟩ = .ok () ⟨m0, [(0, file0)]⟩ := by
        unfold Run.exportFrame
        rw [hc 0 (by omega), w1]; rfl
      unfold Run.main
      rw [SM.bind_ok e1, SM.bind_ok ee, SM.bind_ok (e3 _), SM.bind_ok (e4 _), b1, list]

/-- **C81** With buffers that do not have the alignment the integrator assumes, the same program is undefined as soon as it takes a
step. -/
theorem C81_misaligned (R : RunReady S P ws ps) {ic : SM (Mgr α) Unit} {m0 : Mgr α} (hic : ic m = .ok () m0) (h : m0.Good S) (hL : m0.Laid)
    (hg : RunGrid m0.grid ws ps) {q0 : State α} (h0 : P.Holds m0 0 q0) {canOpen : Nat → Bool} (hc : canOpen 0 = true) (t : α)
    {numFrames numSteps : Nat} (hf : 0 < numFrames) (hs : 0 < numSteps) :
    ∃ w, Run.main ic canOpen [P.e.q, P.i.q, P.f.q] (P.step false) t numFrames numSteps ⟨m, []⟩ = .ub w := by
  obtain ⟨file0, w1, w2⟩ := file_shows R.vars R.basis h hL hg h0
  have e1 : Run.onMgr ic ⟨m, []⟩ = .ok () ⟨m0, []⟩ := Run.onMgr_ok hic
  set m1 := (m0.setTime (Arith.lit 0)).setDt t with hm1
  have B : Between S P m0.grid t (Arith.lit 0) q0 m1 := ⟨Mgr.setDt_good (Mgr.setTime_good' h _) _, hL, rfl, rfl, rfl, ⟨h0.e, h0.i, h0.f⟩⟩
  obtain ⟨w, hw⟩ := frames_misaligned R hg (r := ⟨m1, [(0, file0)]⟩) B canOpen hs hf 0
  refine ⟨w, ?_⟩
  have ee : Run.exportFrame canOpen 0 [P.e.q, P.i.q, P.f.q] ⟨m0, []⟩ = .ok () ⟨m0, [(0, file0)]⟩ := by
    unfold Run.exportFrame
    rw [hc, w1]; rfl
  have e3 : ∀ fs, Run.onMgr (SM.modifyRes (fun m => .ok (m.setTime (Arith.lit 0)))) (⟨m0, fs⟩ : Run α) = .ok () ⟨m0.setTime (Arith.lit 0), fs⟩ :=
    fun fs => Run.onMgr_ok rfl
  have e4 : ∀ fs, Run.onMgr (SM.modifyRes (fun m => .ok (m.setDt t))) (⟨m0.setTime (Arith.lit 0), fs⟩ : Run α) = .ok () ⟨m1, fs⟩ :=
    fun fs => Run.onMgr_ok rfl
  unfold Run.main
  rw [SM.bind_ok e1, SM.bind_ok ee, SM.bind_ok (e3 _), SM.bind_ok (e4 _), hw]

end

/-! ### The program of main.cpp -/

section
variable {α : Type} [Arith α]
open GemChallenge

/-- The fifteen variables of the program. -/
def gemIds (id : VarId) : Prop := id ∈ electrons.ids ++ (ions.ids ++ fields.ids)

theorem gem_names : (electrons.ids ++ (ions.ids ++ fields.ids)).Pairwise (fun a b => a.name ≠ b.name) := by
  decide

theorem gem_nodup : (electrons.ids ++ (ions.ids ++ fields.ids)).Nodup :=
  gem_names.imp fun h e => h (by rw [e])

theorem gem_consistent : Mgr.Consistent gemIds := by
  intro a b ha hb hn
  by_contra hne
  haveI : Std.Symm (fun a b : VarId => a.name ≠ b.name) := ⟨fun _ _ h => h.symm⟩
  exact List.Pairwise.forall gem_names ha hb hne hn

theorem five_vars {S : VarId → Prop} (name : String) (comps : List String) (hS : ∀ id ∈ (five name comps).ids, S id) (hn : (five name comps).ids.Nodup) :
    RKVars S (five name comps).q (five name comps).rhs (five name comps).q1 (five name comps).q2 (five name comps).q3 := by
  refine ⟨hS, hn, ?_, ?_⟩ <;>
  · intro id h
    simp only [List.mem_cons, List.not_mem_nil, or_false] at h
    rcases h with rfl | rfl | rfl | rfl | rfl <;> rfl

theorem gem_vars (K : GemConstants α) {mults : List α} (hm : mults.length = 2) : (solvers K mults).Vars gemIds 1 where
  e := five_vars _ _ (fun id h => List.mem_append_left _ h) (List.nodup_append.1 gem_nodup).1
  i := five_vars _ _ (fun id h => List.mem_append_right _ (List.mem_append_left _ h)) (List.nodup_append.1 (List.nodup_append.1 gem_nodup).2.1).1
  f := five_vars _ _ (fun id h => List.mem_append_right _ (List.mem_append_right _ h)) (List.nodup_append.1 (List.nodup_append.1 gem_nodup).2.1).2.1
  separate := gem_nodup
  e_comps := rfl
  i_comps := rfl
  f_comps := rfl
  e_points := rfl
  i_points := rfl
  f_points := rfl
  points := le_refl _
  mults := hm

theorem gem_ready (K : GemConstants α) {mults : List α} (hm : mults.length = 2) : RunReady gemIds (solvers K mults) [0] [1] :=
  ⟨gem_vars K hm, rfl, rfl, rfl, rfl, rfl⟩

theorem gem_grid (K : GemConstants α) {nx : Int} (hnx : 2 ≤ nx) : ∃ g, grid K nx = .ok g ∧ RunGrid g [0] [1] ∧ g.rng.dims = [(0, nx), (0, 2 * nx)] := by
  obtain ⟨g, hg⟩ := Rectilinear.make_ok (range := Range.setup [(0, nx), (0, 2 * nx)]) (s := [-K.Lx / Arith.lit 2, -K.Lx]) (w := [K.Lx, Arith.ofInt 2 * K.Lx])
    (by simp) (by simp)
  have hd : g.rng.dims = [(0, nx), (0, 2 * nx)] := by rw [(Rectilinear.make_fields hg).1]; rfl
  refine ⟨g, ?_, ⟨⟨_, _, _, hg⟩, by rw [hd]; simp, ⟨(Rectilinear.make_sized hg).widths, by rw [hd]; simp, ?_, ?_, by simp⟩⟩, hd⟩
  · unfold grid
    have : Range.ofLengths 2 [nx, 2 * nx] = .ok (Range.setup [(0, nx), (0, 2 * nx)]) := rfl
    rw [this, Res.ok_bind, hg]
  · intro i hi'; simp at hi'; subst hi'; rw [hd]; simp [hi, lo]; omega
  · intro i hi'; simp at hi'; subst hi'; rw [hd]; simp [hi, lo]; omega

/-- **C81** The program of main.cpp, with any numbers of cells (at least 2), frames and steps, in any arithmetic: the grid and the solvers are made;
the initial condition runs (C71 says what it sets) and gives a state `q0`; from it the program behaves as `C81_program` says. -/
theorem C81_gem {nx : Int} (hnx : 2 ≤ nx) (canOpen : Nat → Bool) (numFrames numSteps : Nat) :
    ∃ (g : Rectilinear α) (P : Plasma α) (m0 : Mgr α), GemPlasma P ∧ grid (GemConstants.make : GemConstants α) nx = .ok g ∧
      g.rng.dims = [(0, nx), (0, 2 * nx)] ∧ gem (initial GemConstants.make) [electrons.q, ions.q, fields.q] (Mgr.make g) = .ok () m0 ∧ m0.Good gemIds ∧ m0.grid = g ∧
    ∃ (s : Nat → State α) (file : Nat → List (Tok α)), P.Holds m0 0 (s 0) ∧
      (∀ j < numFrames * numSteps, PlasmaStep P g 1 [0] [1] (timeDt GemConstants.make numFrames numSteps) (s j) (s (j + 1))) ∧
      (∀ j ≤ numFrames, FileShows g.rng.dims P (s (j * numSteps)) (file j)) ∧
      ((∀ j ≤ numFrames, canOpen j = true) → ∃ m', run true canOpen nx numFrames numSteps =
        .ok (.ok () ⟨m', (List.range (numFrames + 1)).map fun j => (j, file j)⟩)) ∧
      (∀ k ≤ numFrames, (∀ j < k, canOpen j = true) → canOpen k = false → ∃ msg m', run true canOpen nx numFrames numSteps =
        .ok (.throw msg ⟨m', (List.range k).map fun j => (j, file j)⟩)) ∧
      (canOpen 0 = true → 0 < numFrames → 0 < numSteps → ∃ w, run (α := α) false canOpen nx numFrames numSteps = .ok (.ub w)) := by
  set K : GemConstants α := GemConstants.make with hK
  obtain ⟨g, e1, hg, hd⟩ := gem_grid K hnx
  obtain ⟨mults, e2, hm⟩ : ∃ mults, Source.currentSetup K.eps0 [-K.e, K.e] [K.me, K.mi] = .ok mults ∧ mults.length = 2 := ⟨_, rfl, rfl⟩
  have hpos : Pos g.rng.dims := by
    rw [hd]; intro d hd'; simp at hd'; rcases hd' with rfl | rfl <;> simp <;> omega
  have hS : ∀ id, gemIds id → 0 ≤ id.basis.points := by
    intro id h
    simp only [gemIds, Five.ids, List.mem_append, List.mem_cons, List.not_mem_nil, or_false] at h
    rcases h with (rfl | rfl | rfl | rfl | rfl) | (rfl | rfl | rfl | rfl | rfl) | (rfl | rfl | rfl | rfl | rfl) <;> decide
  have hG := (C33_new_manager gem_consistent hS (g := g) (by rw [hd]; simp) hpos).1
  obtain ⟨range, s', w', hmake⟩ := hg.made
  have R := gem_ready K hm
  have mem : ∀ {id}, id ∈ electrons.ids ++ (ions.ids ++ fields.ids) → gemIds id := fun h => h
  obtain ⟨m0, k1, k2, k3, k4, k5, k6, k7, k8⟩ := gem_all (initial K) hG laid_new (Rectilinear.make_sized hmake) hg.three (oe := electrons.q) (oi := ions.q) (of := fields.q)
    (mem (List.mem_append_left _ (electrons.at_mem 0))) (mem (List.mem_append_right _ (List.mem_append_left _ (ions.at_mem 0))))
    (mem (List.mem_append_right _ (List.mem_append_right _ (fields.at_mem 0)))) (R.vars.ei (electrons.at_mem 0) (ions.at_mem 0))
    (R.vars.ef (electrons.at_mem 0) (fields.at_mem 0)) (R.vars.if' (ions.at_mem 0) (fields.at_mem 0)) (by decide) rfl rfl (by decide) (by decide) (by decide) []
  have ex : ∀ {id B f}, m0.SetTo id B f → m0.contents id ≠ none := by
    rintro id B f ⟨c, hc, _⟩; rw [hc]; simp
  obtain ⟨ue, he⟩ := stores_exist k3 (ex k5)
  obtain ⟨ui, hi⟩ := stores_exist k3 (ex k6)
  obtain ⟨uf, hf⟩ := stores_exist k3 (ex k7)
  have hgr : m0.grid = g := k4.grid
  have H0 : (solvers K mults).Holds m0 0 ⟨ue, ui, uf⟩ := ⟨he, hi, hf⟩
  obtain ⟨s, file, a1, a2, a3, a4, a5⟩ := C81_program R k1 k2 k3 (by rw [hgr]; exact hg) H0 canOpen (timeDt K numFrames numSteps) numFrames numSteps
  rw [hgr] at a2 a3
  have er : ∀ al, run al canOpen nx numFrames numSteps = .ok (Run.main (gem (initial K) [electrons.q, ions.q, fields.q]) canOpen [electrons.q, ions.q, fields.q]
      ((solvers K mults).step al) (timeDt K numFrames numSteps) numFrames numSteps ⟨Mgr.make g, []⟩) := by
    intro al
    unfold run
    simp only
    rw [e1, Res.ok_bind, e2, Res.ok_bind]; rfl
  refine ⟨g, solvers K mults, m0, ⟨rfl, rfl, rfl, rfl, rfl, rfl, rfl, by cases e2; rfl⟩, e1, hd, k1, k2, hgr, s, file, by rw [a1]; exact H0, a2, a3, ?_, ?_, ?_⟩
  · intro hc
    obtain ⟨m', b1, _⟩ := a4 hc
    exact ⟨m', by rw [er, ← b1]; rfl⟩
  · intro k hk hc hno
    obtain ⟨msg, m', b1⟩ := a5 k hk hc hno
    exact ⟨msg, m', by rw [er, ← b1]; rfl⟩
  · intro hc hf' hs'
    obtain ⟨w, hw⟩ := C81_misaligned R k1 k2 k3 (by rw [hgr]; exact hg) H0 hc (timeDt K numFrames numSteps) hf' hs'
    exact ⟨w, by rw [er, ← hw]; rfl⟩

end

-- C81: the program as configured (256 × 512 cells, 1000 frames of 125 steps), in exact arithmetic: with all files it ends normally with
-- 1001 files; if the file of frame 7 is the first that cannot be created, with an exception after 7 files; and it is undefined without alignment
example : ∃ r : Run ℝ, GemChallenge.gemChallenge true (fun _ => true) = .ok (.ok () r) ∧ r.files.length = 1001 := by
  obtain ⟨g, P, m0, -, -, -, -, -, -, s, file, -, -, -, h, -, -⟩ := C81_gem (α := ℝ) (nx := 256) (by decide) (fun _ => true) 1000 125
  obtain ⟨m', hm⟩ := h (fun _ _ => rfl)
  exact ⟨_, hm, by simp⟩
example : ∃ (msg : String) (r : Run ℝ), GemChallenge.gemChallenge true (fun k => k != 7) = .ok (.throw msg r) ∧ r.files.map Prod.fst = [0, 1, 2, 3, 4, 5, 6] := by
  obtain ⟨g, P, m0, -, -, -, -, -, -, s, file, -, -, -, -, h, -⟩ := C81_gem (α := ℝ) (nx := 256) (by decide) (fun k => k != 7) 1000 125
  obtain ⟨msg, m', hm⟩ := h 7 (by decide) (by decide) (by decide)
  exact ⟨msg, _, hm, by simp [List.range_succ]⟩
example : ∃ w, GemChallenge.gemChallenge (α := ℝ) false (fun _ => true) = .ok (.ub w) := by
  obtain ⟨g, P, m0, -, -, -, -, -, -, s, file, -, -, -, -, -, h⟩ := C81_gem (α := ℝ) (nx := 256) (by decide) (fun _ => true) 1000 125
  exact h rfl (by decide) (by decide)

end QK.Props
