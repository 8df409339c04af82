import Verif.Proofs.ProgramStage
import Verif.Props.Vtk
import Verif.Props.InitialMany
/- Helper lemmas for the coupled programs: the time loop and the files. -/
namespace QK
open Spec Solve Props

section
variable {α : Type} {β : Type}

theorem Run.onMgr_ok {x : SM (Mgr α) β} {s : Run α} {b : β} {m : Mgr α} (h : x s.mgr = .ok b m) :
    Run.onMgr x s = .ok b { s with mgr := m } := by unfold Run.onMgr; rw [h]

theorem Run.onMgr_ub {x : SM (Mgr α) β} {s : Run α} {w : String} (h : x s.mgr = .ub w) : Run.onMgr x s = .ub w := by
  unfold Run.onMgr; rw [h]

theorem inBox_vtk {M : Box} {x : Cell} (h : x ∈ vtkCells M) : InBox M x := by
  unfold vtkCells at h
  obtain ⟨y, hy, rfl⟩ := List.mem_map.1 h
  have := mem_cells.1 hy
  unfold InBox at this ⊢
  have h2 := List.rel_reverse this
  rwa [List.reverse_reverse] at h2

end

section
variable {α : Type} [Arith α] {S : VarId → Prop} {m : Mgr α}

theorem file_shows {P : Plasma α} {p : Int} (V : P.Vars S p) (hb : P.e.q.basis = Basis.volumeAverage ∧ P.i.q.basis = Basis.volumeAverage ∧ P.f.q.basis = Basis.volumeAverage)
    (h : m.Good S) (hL : m.Laid) {ws ps : List Nat} (hg : RunGrid m.grid ws ps) {q : State α} (hq : P.Holds m 0 q) :
    ∃ file, Vtk.write m true [P.e.q, P.i.q, P.f.q] [] = .ok () file ∧ FileShows m.grid.rng.dims P q file := by
  obtain ⟨range, s, w, hm⟩ := hg.made
  have Se := V.e.known P.e.q (by simp)
  have Si := V.i.known P.i.q (by simp)
  have Sf := V.f.known P.f.q (by simp)
  obtain ⟨n, o, sp, nc, vals, k1, rfl, rfl, k4, k5⟩ := C41_file h hL hg.three hm (ids := [P.e.q, P.i.q, P.f.q]) (by simp) (by
    simp only [List.mem_cons, List.not_mem_nil, or_false, forall_eq_or_imp, forall_eq]
    exact ⟨⟨Se, hb.1, hq.e.exists⟩, ⟨Si, hb.2.1, hq.i.exists⟩, ⟨Sf, hb.2.2, hq.f.exists⟩⟩)
  refine ⟨_, k1, o, sp, ?_⟩
  have block : ∀ (id : VarId) (u : Cell → α), id ∈ [P.e.q, P.i.q, P.f.q] → id.basis = Basis.volumeAverage → m.Stores id u →
      (id.comps.zipIdx.map fun p => scalarBlock id.name p.1 (vals id p.2)) = fieldBlocks m.grid.rng.dims id u := by
    rintro id u hid hbas ⟨c, hc, vc⟩
    obtain ⟨c', hc', hv⟩ := k5 id hid
    rw [hc] at hc'; cases hc'
    unfold fieldBlocks
    refine List.map_congr_left fun p hp => ?_
    have hlt : p.2 < id.comps.length := by
      have := List.mem_zipIdx hp; omega
    have e := (hv p.2 hlt).1
    have e2 : (vtkCells m.grid.rng.dims).map (fun x => c.arr.val (x ++ [0, (p.2 : Int)])) =
        ((vtkCells m.grid.rng.dims).map fun x => u (x ++ [0, (p.2 : Int)])).map some := by
      rw [List.map_map]
      refine List.map_congr_left fun x hx => ?_
      refine vc _ ?_
      unfold Mgr.arrayBox
      rw [hbas]
      have : InBox [(0, (Basis.volumeAverage).points), (0, (id.comps.length : Int))] [0, (p.2 : Int)] := by
        refine .cons (by decide) (.cons ⟨by simp, by simpa using hlt⟩ .nil)
      exact inBox_interior (by decide) (List.rel_append (inBox_vtk hx) this)
    rw [e2] at e
    rw [List.map_injective_iff.2 (Option.some_injective α) e]
  simp only [List.flatMap_cons, List.flatMap_nil, List.append_nil]
  rw [block P.e.q q.e (by simp) hb.1 hq.e, block P.i.q q.i (by simp) hb.2.1 hq.i, block P.f.q q.f (by simp) hb.2.2 hq.f]
  simp only [List.append_assoc]

variable {P : Plasma α} {ws ps : List Nat} {g : Rectilinear α} {t : α}

theorem steps_between (R : RunReady S P ws ps) (hg : RunGrid g ws ps) {time : α} {q : State α} (B : Between S P g t time q m) (n : Nat) :
    ∃ m' q', ∃ s : Nat → State α, Run.steps (P.step true t) n time m = .ok ((fun x => x + t)^[n] time) m' ∧
      Between S P g t ((fun x => x + t)^[n] time) q' m' ∧ s 0 = q ∧ s n = q' ∧ ∀ i < n, PlasmaStep P g 1 ws ps t (s i) (s (i + 1)) := by
  obtain ⟨m', q', s, a1, a2, a3, a4, a5, a6, -, a8, a9, a10, a11⟩ := steps_fields R.vars R.walls R.wraps t n (m := m) (by rw [B.grid]; exact hg.bcs)
    B.good B.laid B.dt B.holds time
  rw [B.grid] at a4 a11
  exact ⟨m', q', s, a1, ⟨a2, a3, a4, a5.trans B.dt, a6 B.time, a8⟩, a9, a10, a11⟩

/-- The frames of a run. -/
theorem frames_spec (R : RunReady S P ws ps) (hg : RunGrid g ws ps) (canOpen : Nat → Bool) (numSteps : Nat) : ∀ (n i : Nat) (time : α) (r : Run α) (q : State α),
    Between S P g t time q r.mgr → ∃ (s : Nat → State α) (file : Nat → List (Tok α)), s 0 = q ∧
      (∀ j < n * numSteps, PlasmaStep P g 1 ws ps t (s j) (s (j + 1))) ∧ (∀ j, 1 ≤ j → j ≤ n → FileShows g.rng.dims P (s (j * numSteps)) (file (i + j))) ∧
      ((∀ j, 1 ≤ j → j ≤ n → canOpen (i + j) = true) → ∃ m', Run.frames canOpen [P.e.q, P.i.q, P.f.q] (P.step true t) numSteps n i time r =
        .ok () ⟨m', r.files ++ (List.range n).map fun j => (i + 1 + j, file (i + 1 + j))⟩ ∧
        Between S P g t ((fun x => x + t)^[n * numSteps] time) (s (n * numSteps)) m') ∧
      (∀ k, k < n → (∀ j, 1 ≤ j → j ≤ k → canOpen (i + j) = true) → canOpen (i + (k + 1)) = false →
        ∃ msg m', Run.frames canOpen [P.e.q, P.i.q, P.f.q] (P.step true t) numSteps n i time r =
          .throw msg ⟨m', r.files ++ (List.range k).map fun j => (i + 1 + j, file (i + 1 + j))⟩) := by
  intro n
  induction n with
  | zero =>
    intro i time r q B
    refine ⟨fun _ => q, fun _ => [], rfl, by simp, by omega, fun _ => ⟨r.mgr, ?_, ?_⟩, by omega⟩
    · simp only [List.range_zero, List.map_nil, List.append_nil]; rfl
    · simpa using B
  | succ n ih =>
    intro i time r q B
    obtain ⟨m1, q1, s1, a1, a2, a3, a4, a5⟩ := steps_between R hg B numSteps
    obtain ⟨file1, w1, w2⟩ := file_shows R.vars R.basis a2.good a2.laid (by rw [a2.grid]; exact hg) a2.holds
    rw [a2.grid] at w2
    obtain ⟨s2, file2, b1, b2, b3, b4, b5⟩ := ih (i + 1) _ ⟨m1, r.files ++ [(i + 1, file1)]⟩ q1 a2
    have hs : ∀ j, j ≤ numSteps → (if j < numSteps then s1 j else s2 (j - numSteps)) = s1 j := by
      intro j hj
      by_cases h : j < numSteps
      · rw [if_pos h]
      · rw [if_neg h, show j = numSteps by omega, Nat.sub_self, b1, a4]
    have hs' : ∀ j, (if numSteps + j < numSteps then s1 (numSteps + j) else s2 (numSteps + j - numSteps)) = s2 j := by
      intro j
      rw [if_neg (by omega), Nat.add_sub_cancel_left]
    have hmul : (n + 1) * numSteps = numSteps + n * numSteps := by ring
    have e1 : Run.onMgr (Run.steps (P.step true t) numSteps time) r = .ok ((fun x => x + t)^[numSteps] time) { r with mgr := m1 } := Run.onMgr_ok a1
    refine ⟨fun j => if j < numSteps then s1 j else s2 (j - numSteps), fun j => if j = i + 1 then file1 else file2 j, ?_, ?_, ?_, ?_, ?_⟩
    · rw [← a3]; exact hs 0 (by omega)
    · intro j hj
      simp only
      by_cases h : j < numSteps
      · rw [hs j (by omega), hs (j + 1) (by omega)]; exact a5 j h
      · obtain ⟨d, rfl⟩ : ∃ d, j = numSteps + d := ⟨j - numSteps, by omega⟩
        rw [hs' d, show numSteps + d + 1 = numSteps + (d + 1) by ring, hs' (d + 1)]
        exact b2 d (by omega)
    · intro j hj hj'
      simp only
      by_cases h : j = 1
      · subst h
        rw [if_pos rfl, one_mul, hs numSteps (le_refl _), a4]; exact w2
      · obtain ⟨d, rfl⟩ : ∃ d, j = d + 1 := ⟨j - 1, by omega⟩
        rw [show (d + 1) * numSteps = numSteps + d * numSteps by ring, hs', if_neg (by omega)]
        have := b3 d (by omega) (by omega)
        rwa [show i + 1 + d = i + (d + 1) by ring] at this
    · intro hc
      obtain ⟨m', c1, c2⟩ := b4 (fun j h1 h2 => by rw [show i + 1 + j = i + (j + 1) by ring]; exact hc (j + 1) (by omega) (by omega))
      refine ⟨m', ?_, ?_⟩
      · unfold Run.frames
        rw [SM.bind_ok e1]
        have ee : Run.exportFrame canOpen (i + 1) [P.e.q, P.i.q, P.f.q] { r with mgr := m1 } = .ok () ⟨m1, r.files ++ [(i + 1, file1)]⟩ := by
          unfold Run.exportFrame
          rw [hc 1 (by omega) (by omega), w1]
        rw [SM.bind_ok ee, c1]
        congr 2
        rw [List.append_assoc, List.range_succ_eq_map, List.map_cons, List.map_map, List.singleton_append]
        congr 2
        · simp
        · refine List.map_congr_left fun j _ => ?_
          simp only [Function.comp_apply, Nat.succ_eq_add_one]
          rw [if_neg (by omega), show i + 1 + (j + 1) = i + 1 + 1 + j by ring]
      · rw [hmul]
        simp only
        rw [hs']
        rw [← Function.iterate_add_apply, Nat.add_comm] at c2
        exact c2
    · intro k hk hc hno
      cases k with
      | zero =>
        obtain ⟨msg, hmsg⟩ := C43_cannot_open (m := m1) (id := P.e.q) (ids := [P.i.q, P.f.q]) []
        refine ⟨msg, m1, ?_⟩
        unfold Run.frames
        rw [SM.bind_ok e1]
        have ee : Run.exportFrame canOpen (i + 1) [P.e.q, P.i.q, P.f.q] { r with mgr := m1 } = .throw msg ⟨m1, r.files⟩ := by
          unfold Run.exportFrame
          rw [hno, hmsg]
          simp
        rw [SM.bind_throw ee]
        simp
      | succ k =>
        obtain ⟨msg, m', c1⟩ := b5 k (by omega) (fun j h1 h2 => by rw [show i + 1 + j = i + (j + 1) by ring]; exact hc (j + 1) (by omega) (by omega))
          (by rw [show i + 1 + (k + 1) = i + (k + 1 + 1) by ring]; exact hno)
        refine ⟨msg, m', ?_⟩
        unfold Run.frames
        rw [SM.bind_ok e1]
        have ee : Run.exportFrame canOpen (i + 1) [P.e.q, P.i.q, P.f.q] { r with mgr := m1 } = .ok () ⟨m1, r.files ++ [(i + 1, file1)]⟩ := by
          unfold Run.exportFrame
          rw [hc 1 (by omega) (by omega), w1]
        rw [SM.bind_ok ee, c1]
        congr 2
        rw [List.append_assoc, List.range_succ_eq_map, List.map_cons, List.map_map, List.singleton_append]
        congr 2
        · simp
        · refine List.map_congr_left fun j _ => ?_
          simp only [Function.comp_apply, Nat.succ_eq_add_one]
          rw [if_neg (by omega), show i + 1 + (j + 1) = i + 1 + 1 + j by ring]

/-- Without the assumed alignment the first stage is undefined. -/
theorem stage_misaligned (R : RunReady S P ws ps) (hg : RunGrid g ws ps) {time : α} {q : State α} (B : Between S P g t time q m) :
    ∃ w, P.stage false 0 m = .ub w := by
  obtain ⟨m', cur', rate, a1, K, a3, a4, a5, -⟩ := stage_head R.vars R.walls R.wraps (by rw [B.grid]; exact hg.bcs) B.good B.laid B.dt (k := 0) (by decide)
    B.holds B.holds
  obtain ⟨w, hw⟩ := C68_false R.vars.e K.good K.laid (K.ext.dt.trans B.dt) a3.e.exists a4.e.exists [] (tag := ((0 : Nat) : Int)) (.inl rfl)
  refine ⟨w, ?_⟩
  rw [a1]
  unfold Plasma.advance
  rw [SM.bind_ub hw]

theorem frames_misaligned (R : RunReady S P ws ps) (hg : RunGrid g ws ps) {time : α} {q : State α} {r : Run α} (B : Between S P g t time q r.mgr)
    (canOpen : Nat → Bool) {numSteps n : Nat} (hs : 0 < numSteps) (hn : 0 < n) (i : Nat) :
    ∃ w, Run.frames canOpen [P.e.q, P.i.q, P.f.q] (P.step false t) numSteps n i time r = .ub w := by
  obtain ⟨w, hw⟩ := stage_misaligned R hg B
  obtain ⟨k, rfl⟩ : ∃ k, numSteps = k + 1 := ⟨numSteps - 1, by omega⟩
  obtain ⟨l, rfl⟩ : ∃ l, n = l + 1 := ⟨n - 1, by omega⟩
  refine ⟨w, ?_⟩
  unfold Run.frames
  refine SM.bind_ub (Run.onMgr_ub ?_)
  unfold Run.steps
  refine SM.bind_ub ?_
  unfold Plasma.step
  exact SM.bind_ub hw

end
end QK
