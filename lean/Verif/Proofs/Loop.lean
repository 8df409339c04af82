import Verif.Proofs.ProgramRun
/- Helper lemmas for the example programs: the time loop and the files, for any program whose step and files are understood. -/
namespace QK
open Spec Solve Props

section
variable {α : Type} [Arith α] {σ : Type}

/-- A program whose state between steps is described by `Inv time q m`, whose step takes `q` to some `q'` with `Step q q'`, and
whose file for `q` is described by `Shows q`. -/
structure Cycle (ids : List VarId) (step : α → SM (Mgr α) α) (t : α) (Inv : α → σ → Mgr α → Prop) (Step : σ → σ → Prop)
    (Shows : σ → List (Tok α) → Prop) : Prop where
  ids_ne : ids ≠ []
  step : ∀ {time q m}, Inv time q m → ∃ m' q', step time m = .ok (time + t) m' ∧ Inv (time + t) q' m' ∧ Step q q'
  file : ∀ {time q m}, Inv time q m → ∃ f, Vtk.write m true ids [] = .ok () f ∧ Shows q f

variable {ids : List VarId} {step : α → SM (Mgr α) α} {t : α} {Inv : α → σ → Mgr α → Prop} {Step : σ → σ → Prop} {Shows : σ → List (Tok α) → Prop}

theorem Cycle.steps (C : Cycle ids step t Inv Step Shows) : ∀ (n : Nat) {time : α} {q : σ} {m : Mgr α}, Inv time q m →
    ∃ m', ∃ s : Nat → σ, Run.steps step n time m = .ok ((fun x => x + t)^[n] time) m' ∧ Inv ((fun x => x + t)^[n] time) (s n) m' ∧ s 0 = q ∧
      ∀ i < n, Step (s i) (s (i + 1)) := by
  intro n
  induction n with
  | zero => intro time q m h; exact ⟨m, fun _ => q, rfl, h, rfl, by simp⟩
  | succ n ih =>
    intro time q m h
    obtain ⟨m1, q1, a1, a2, a3⟩ := C.step h
    obtain ⟨m2, s, b1, b2, b3, b4⟩ := ih a2
    refine ⟨m2, fun i => match i with | 0 => q | i + 1 => s i, ?_, b2, rfl, ?_⟩
    · unfold Run.steps; rw [SM.bind_ok a1]; exact b1
    · intro i hi
      cases i with
      | zero => simp only; rw [b3]; exact a3
      | succ i => exact b4 i (by omega)

theorem cannot_open (h : ids ≠ []) (m : Mgr α) : ∃ msg, Vtk.write m false ids [] = .throw msg [] := by
  cases ids with
  | nil => exact absurd rfl h
  | cons id ids => exact C43_cannot_open []

/-- The frames of a run. -/
theorem Cycle.frames (C : Cycle ids step t Inv Step Shows) (canOpen : Nat → Bool) (numSteps : Nat) : ∀ (n i : Nat) (time : α) (r : Run α) (q : σ),
    Inv time q r.mgr → ∃ (s : Nat → σ) (file : Nat → List (Tok α)), s 0 = q ∧
      (∀ j < n * numSteps, Step (s j) (s (j + 1))) ∧ (∀ j, 1 ≤ j → j ≤ n → Shows (s (j * numSteps)) (file (i + j))) ∧
      ((∀ j, 1 ≤ j → j ≤ n → canOpen (i + j) = true) → ∃ m', Run.frames canOpen ids step numSteps n i time r =
        .ok () ⟨m', r.files ++ (List.range n).map fun j => (i + 1 + j, file (i + 1 + j))⟩ ∧
        Inv ((fun x => x + t)^[n * numSteps] time) (s (n * numSteps)) m') ∧
      (∀ k, k < n → (∀ j, 1 ≤ j → j ≤ k → canOpen (i + j) = true) → canOpen (i + (k + 1)) = false →
        ∃ msg m', Run.frames canOpen ids step numSteps n i time r =
          .throw msg ⟨m', r.files ++ (List.range k).map fun j => (i + 1 + j, file (i + 1 + j))⟩) := by
  intro n
  induction n with
  | zero =>
    intro i time r q B
    refine ⟨fun _ => q, fun _ => [], rfl, by simp, by omega, fun _ => ⟨r.mgr, ?_, ?_⟩, by omega⟩
    · simp only [List.range_zero, List.map_nil, List.append_nil]; rfl
    · simpa using B
  | succ n ih =>
    intro i time r q B
    obtain ⟨m1, s1, a1, a2, a3, a5⟩ := C.steps numSteps B
    obtain ⟨file1, w1, w2⟩ := C.file a2
    obtain ⟨s2, file2, b1, b2, b3, b4, b5⟩ := ih (i + 1) _ ⟨m1, r.files ++ [(i + 1, file1)]⟩ _ a2
    have hs : ∀ j, j ≤ numSteps → (if j < numSteps then s1 j else s2 (j - numSteps)) = s1 j := by
      intro j hj
      by_cases h : j < numSteps
      · rw [if_pos h]
      · rw [if_neg h, show j = numSteps by omega, Nat.sub_self, b1]
    have hs' : ∀ j, (if numSteps + j < numSteps then s1 (numSteps + j) else s2 (numSteps + j - numSteps)) = s2 j := by
      intro j
      rw [if_neg (by omega), Nat.add_sub_cancel_left]
    have hmul : (n + 1) * numSteps = numSteps + n * numSteps := by ring
    have e1 : Run.onMgr (Run.steps step numSteps time) r = .ok ((fun x => x + t)^[numSteps] time) { r with mgr := m1 } := Run.onMgr_ok a1
    refine ⟨fun j => if j < numSteps then s1 j else s2 (j - numSteps), fun j => if j = i + 1 then file1 else file2 j, ?_, ?_, ?_, ?_, ?_⟩
    · rw [← a3]; exact hs 0 (by omega)
    · intro j hj
      simp only
      by_cases h : j < numSteps
      · rw [hs j (by omega), hs (j + 1) (by omega)]; exact a5 j h
      · obtain ⟨d, rfl⟩ : ∃ d, j = numSteps + d := ⟨j - numSteps, by omega⟩
        rw [hs' d, show numSteps + d + 1 = numSteps + (d + 1) by ring, hs' (d + 1)]
        exact b2 d (by omega)
    · intro j hj hj'
      simp only
      by_cases h : j = 1
      · subst h
        rw [if_pos rfl, one_mul, hs numSteps (le_refl _)]; exact w2
      · obtain ⟨d, rfl⟩ : ∃ d, j = d + 1 := ⟨j - 1, by omega⟩
        rw [show (d + 1) * numSteps = numSteps + d * numSteps by ring, hs', if_neg (by omega)]
        have := b3 d (by omega) (by omega)
        rwa [show i + 1 + d = i + (d + 1) by ring] at this
    · intro hc
      obtain ⟨m', c1, c2⟩ := b4 (fun j h1 h2 => by rw [show i + 1 + j = i + (j + 1) by ring]; exact hc (j + 1) (by omega) (by omega))
      refine ⟨m', ?_, ?_⟩
      · unfold Run.frames
        rw [SM.bind_ok e1]
        have ee : Run.exportFrame canOpen (i + 1) ids { r with mgr := m1 } = .ok () ⟨m1, r.files ++ [(i + 1, file1)]⟩ := by
          unfold Run.exportFrame
          rw [hc 1 (by omega) (by omega), w1]
        rw [SM.bind_ok ee, c1]
        congr 2
        rw [List.append_assoc, List.range_succ_eq_map, List.map_cons, List.map_map, List.singleton_append]
        congr 2
        · simp
        · refine List.map_congr_left fun j _ => ?_
          simp only [Function.comp_apply, Nat.succ_eq_add_one]
          rw [if_neg (by omega), show i + 1 + (j + 1) = i + 1 + 1 + j by ring]
      · rw [hmul]
        simp only
        rw [hs']
        rw [← Function.iterate_add_apply, Nat.add_comm] at c2
        exact c2
    · intro k hk hc hno
      cases k with
      | zero =>
        obtain ⟨msg, hmsg⟩ := cannot_open C.ids_ne m1
        refine ⟨msg, m1, ?_⟩
        unfold Run.frames
        rw [SM.bind_ok e1]
        have ee : Run.exportFrame canOpen (i + 1) ids { r with mgr := m1 } = .throw msg ⟨m1, r.files⟩ := by
          unfold Run.exportFrame
          rw [hno, hmsg]
          simp
        rw [SM.bind_throw ee]
        simp
      | succ k =>
        obtain ⟨msg, m', c1⟩ := b5 k (by omega) (fun j h1 h2 => by rw [show i + 1 + j = i + (j + 1) by ring]; exact hc (j + 1) (by omega) (by omega))
          (by rw [show i + 1 + (k + 1) = i + (k + 1 + 1) by ring]; exact hno)
        refine ⟨msg, m', ?_⟩
        unfold Run.frames
        rw [SM.bind_ok e1]
        have ee : Run.exportFrame canOpen (i + 1) ids { r with mgr := m1 } = .ok () ⟨m1, r.files ++ [(i + 1, file1)]⟩ := by
          unfold Run.exportFrame
          rw [hc 1 (by omega) (by omega), w1]
        rw [SM.bind_ok ee, c1]
        congr 2
        rw [List.append_assoc, List.range_succ_eq_map, List.map_cons, List.map_map, List.singleton_append]
        congr 2
        · simp
        · refine List.map_congr_left fun j _ => ?_
          simp only [Function.comp_apply, Nat.succ_eq_add_one]
          rw [if_neg (by omega), show i + 1 + (j + 1) = i + 1 + 1 + j by ring]

/-- A whole program. -/
theorem Cycle.program {stepOf : α → α → SM (Mgr α) α} (C : Cycle ids (stepOf t) t Inv Step Shows) {ic : SM (Mgr α) Unit} {m m0 : Mgr α} (hic : ic m = .ok () m0) {q0 : σ}
    (h0 : Inv (Arith.lit 0) q0 ((m0.setTime (Arith.lit 0)).setDt t)) {file0 : List (Tok α)} (w1 : Vtk.write m0 true ids [] = .ok () file0)
    (w2 : Shows q0 file0) (canOpen : Nat → Bool) (numFrames numSteps : Nat) :
    ∃ (s : Nat → σ) (file : Nat → List (Tok α)), s 0 = q0 ∧ (∀ j < numFrames * numSteps, Step (s j) (s (j + 1))) ∧
      (∀ j ≤ numFrames, Shows (s (j * numSteps)) (file j)) ∧
      RunEnds canOpen numFrames file (Run.main ic canOpen ids stepOf t numFrames numSteps ⟨m, []⟩) := by
  have e1 : Run.onMgr ic ⟨m, []⟩ = .ok () ⟨m0, []⟩ := Run.onMgr_ok hic
  set m1 := (m0.setTime (Arith.lit 0)).setDt t with hm1
  obtain ⟨s, file, a1, a2, a3, a4, a5⟩ := C.frames canOpen numSteps numFrames 0 (Arith.lit 0) ⟨m1, [(0, file0)]⟩ q0 h0
  have e3 : ∀ fs, Run.onMgr (SM.modifyRes (fun m => .ok (m.setTime (Arith.lit 0)))) (⟨m0, fs⟩ : Run α) = .ok () ⟨m0.setTime (Arith.lit 0), fs⟩ :=
    fun fs => Run.onMgr_ok rfl
  have e4 : ∀ fs, Run.onMgr (SM.modifyRes (fun m => .ok (m.setDt t))) (⟨m0.setTime (Arith.lit 0), fs⟩ : Run α) = .ok () ⟨m1, fs⟩ :=
    fun fs => Run.onMgr_ok rfl
  have list : ∀ k, [(0, file0)] ++ ((List.range k).map fun j => (0 + 1 + j, file (0 + 1 + j))) =
      (List.range (k + 1)).map fun j => (j, if j = 0 then file0 else file j) := by
    intro k
    rw [List.range_succ_eq_map, List.map_cons, List.map_map, List.singleton_append]
    congr 1
    refine List.map_congr_left fun j _ => ?_
    simp only [Function.comp_apply, Nat.succ_eq_add_one]
    rw [if_neg (by omega), show 0 + 1 + j = j + 1 by ring]
  refine ⟨s, fun j => if j = 0 then file0 else file j, a1, a2, ?_, ?_, ?_⟩
  · intro j hj
    by_cases hj0 : j = 0
    · subst hj0; simp only [if_true, Nat.zero_mul]; rw [a1]; exact w2
    · simp only [if_neg hj0]
      have := a3 j (by omega) hj
      rwa [Nat.zero_add] at this
  · intro hc
    obtain ⟨m', b1, _⟩ := a4 (fun j _ hj => hc _ (by omega))
    refine ⟨m', ?_⟩
    have ee : Run.exportFrame canOpen 0 ids ⟨m0, []⟩ = .ok () ⟨m0, [(0, file0)]⟩ := by
      unfold Run.exportFrame
      rw [hc 0 (by omega), w1]; rfl
    unfold Run.main
    rw [SM.bind_ok e1, SM.bind_ok ee, SM.bind_ok (e3 _), SM.bind_ok (e4 _), b1, list]
  · intro k hk hc hno
    cases k with
    | zero =>
      obtain ⟨msg, hmsg⟩ := cannot_open C.ids_ne m0
      refine ⟨msg, m0, ?_⟩
      have ee : Run.exportFrame canOpen 0 ids ⟨m0, []⟩ = .throw msg ⟨m0, []⟩ := by
        unfold Run.exportFrame
        rw [hno, hmsg]; rfl
      unfold Run.main
      rw [SM.bind_ok e1, SM.bind_throw ee]
      rfl
    | succ k =>
      obtain ⟨msg, m', b1⟩ := a5 k (by omega) (fun j _ hj => hc _ (by omega)) (by rw [Nat.zero_add]; exact hno)
      refine ⟨msg, m', ?_⟩
      have ee : Run.exportFrame canOpen 0 ids ⟨m0, []⟩ = .ok () ⟨m0, [(0, file0)]⟩ := by
        unfold Run.exportFrame
        rw [hc 0 (by omega), w1]; rfl
      unfold Run.main
      rw [SM.bind_ok e1, SM.bind_ok ee, SM.bind_ok (e3 _), SM.bind_ok (e4 _), b1, list]

/-- A program whose first step is undefined. -/
theorem main_step_ub {stepOf : α → α → SM (Mgr α) α} {ic : SM (Mgr α) Unit} {m m0 : Mgr α} (hic : ic m = .ok () m0) {file0 : List (Tok α)}
    (w1 : Vtk.write m0 true ids [] = .ok () file0) {w : String} (hw : stepOf t (Arith.lit 0) ((m0.setTime (Arith.lit 0)).setDt t) = .ub w)
    {canOpen : Nat → Bool} (hc : canOpen 0 = true) {numFrames numSteps : Nat} (hf : 0 < numFrames) (hs : 0 < numSteps) :
    Run.main ic canOpen ids stepOf t numFrames numSteps ⟨m, []⟩ = .ub w := by
  have e1 : Run.onMgr ic ⟨m, []⟩ = .ok () ⟨m0, []⟩ := Run.onMgr_ok hic
  have ee : Run.exportFrame canOpen 0 ids ⟨m0, []⟩ = .ok () ⟨m0, [(0, file0)]⟩ := by
    unfold Run.exportFrame
    rw [hc, w1]; rfl
  have e3 : ∀ fs, Run.onMgr (SM.modifyRes (fun m => .ok (m.setTime (Arith.lit 0)))) (⟨m0, fs⟩ : Run α) = .ok () ⟨m0.setTime (Arith.lit 0), fs⟩ :=
    fun fs => Run.onMgr_ok rfl
  have e4 : ∀ fs, Run.onMgr (SM.modifyRes (fun m => .ok (m.setDt t))) (⟨m0.setTime (Arith.lit 0), fs⟩ : Run α) =
      .ok () ⟨(m0.setTime (Arith.lit 0)).setDt t, fs⟩ := fun fs => Run.onMgr_ok rfl
  unfold Run.main
  rw [SM.bind_ok e1, SM.bind_ok ee, SM.bind_ok (e3 _), SM.bind_ok (e4 _)]
  obtain ⟨k, rfl⟩ : ∃ k, numSteps = k + 1 := ⟨numSteps - 1, by omega⟩
  obtain ⟨l, rfl⟩ : ∃ l, numFrames = l + 1 := ⟨numFrames - 1, by omega⟩
  unfold Run.frames
  refine SM.bind_ub (Run.onMgr_ub ?_)
  unfold Run.steps
  exact SM.bind_ub hw

/-- A program whose initial condition is undefined. -/
theorem main_initial_ub {stepOf : α → α → SM (Mgr α) α} {ic : SM (Mgr α) Unit} {m : Mgr α} {w : String} (hic : ic m = .ub w)
    (canOpen : Nat → Bool) (numFrames numSteps : Nat) : Run.main ic canOpen ids stepOf t numFrames numSteps ⟨m, []⟩ = .ub w := by
  unfold Run.main
  exact SM.bind_ub (Run.onMgr_ub hic)

end

section
variable {α : Type} [Arith α] {S : VarId → Prop} {m : Mgr α}

/-- The file of a program with one variable. -/
theorem file_shows_one {id : VarId} (hS : S id) (hb : id.basis = Basis.volumeAverage) (h : m.Good S) (hL : m.Laid)
    (hmade : ∃ (range : Range) (s w : List α), Rectilinear.make range s w = .ok m.grid) (h3 : m.grid.rng.dims.length ≤ 3)
    {u : Cell → α} (hu : m.Stores id u) : ∃ file, Vtk.write m true [id] [] = .ok () file ∧ FileShowsOne m.grid.rng.dims id u file := by
  obtain ⟨range, s, w, hm⟩ := hmade
  obtain ⟨n, o, sp, nc, vals, k1, rfl, rfl, k4, k5⟩ := C41_file h hL h3 hm (ids := [id]) (by simp) (by
    simp only [List.mem_cons, List.not_mem_nil, or_false, forall_eq]
    exact ⟨hS, hb, hu.exists⟩)
  refine ⟨_, k1, o, sp, ?_⟩
  obtain ⟨c, hc, vc⟩ := hu
  obtain ⟨c', hc', hv⟩ := k5 id (by simp)
  rw [hc] at hc'; cases hc'
  simp only [List.flatMap_cons, List.flatMap_nil, List.append_nil]
  congr 1
  unfold fieldBlocks
  refine List.map_congr_left fun p hp => ?_
  have hlt : p.2 < id.comps.length := by
    have := List.mem_zipIdx hp; omega
  have e := (hv p.2 hlt).1
  have e2 : (vtkCells m.grid.rng.dims).map (fun x => c.arr.val (x ++ [0, (p.2 : Int)])) =
      ((vtkCells m.grid.rng.dims).map fun x => u (x ++ [0, (p.2 : Int)])).map some := by
    rw [List.map_map]
    refine List.map_congr_left fun x hx => ?_
    refine vc _ ?_
    unfold Mgr.arrayBox
    rw [hb]
    have : InBox [(0, (Basis.volumeAverage).points), (0, (id.comps.length : Int))] [0, (p.2 : Int)] := by
      refine .cons (by decide) (.cons ⟨by simp, by simpa using hlt⟩ .nil)
    exact inBox_interior (by decide) (List.rel_append (inBox_vtk hx) this)
  rw [e2] at e
  rw [List.map_injective_iff.2 (Option.some_injective α) e]

end
end QK
