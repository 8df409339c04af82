import Verif.Spec.Console
import Verif.Proofs.Format
import Verif.Props.Vtk
/- Lemmas about terminal and clock (used by C120). -/
namespace QK.Timed
open QK Spec SM
variable {α : Type} [Arith α] (w : Wording) (clock : Nat → Int) (canOpen : Nat → Bool) (ids : List VarId)

theorem begin_eq (i : Nat) (t : α) : frameBegin w (i : Int) t = beginOf w i t := by cases w <;> rfl
theorem end_eq (t : α) : frameEnd w t = endOf w t := by cases w <;> rfl
theorem first_eq : (firstLine w : List (Item α)) = headOf w := by cases w <;> rfl
theorem firstDone_eq : (firstDone w : List (Item α)) = headDone w := by cases w <;> rfl

/-- The lines of the frames `i + 1 …`, `n` of them. -/
def linesFrom (r : Nat) : Nat → Nat → List (Item α)
  | 0, _ => []
  | n + 1, i => lineOf w clock r i ++ linesFrom r n (i + 1)

/-- … and the average. -/
def averageFrom (r N : Nat) : Nat → Nat → α → α
  | 0, _, a => a
  | n + 1, i, a => averageFrom r N n (i + 1) (a + elapsed clock (r + 3 * i) (r + 3 * i + 1) / Arith.ofInt N)

theorem linesFrom_eq (r n i : Nat) : (linesFrom w clock r n i : List (Item α)) = (List.range n).flatMap fun j => lineOf w clock r (i + j) := by
  induction n generalizing i with
  | zero => rfl
  | succ n ih => rw [linesFrom, ih, List.range_succ_eq_map, List.flatMap_cons, List.flatMap_map, Nat.add_zero]; simp [Nat.add_assoc, Nat.add_comm 1]

theorem averageFrom_eq (r N n i : Nat) (a : α) : averageFrom clock r N n i a =
    (List.range n).foldl (fun a j => a + elapsed clock (r + 3 * (i + j)) (r + 3 * (i + j) + 1) / Arith.ofInt N) a := by
  induction n generalizing i a with
  | zero => rfl
  | succ n ih =>
    rw [averageFrom, ih, List.range_succ_eq_map, List.foldl_cons, List.foldl_map]
    simp [Nat.add_assoc, Nat.add_comm 1]

theorem onMgr_files {β : Type} {x : SM (Mgr α) β} {s : Run α} : (∀ b s', Run.onMgr x s = .ok b s' → s'.files = s.files) ∧ (∀ m s', Run.onMgr x s = .throw m s' → s'.files = s.files) := by
  unfold Run.onMgr
  constructor <;> intro b s' h <;> cases e : x s.mgr <;> rw [e] at h <;> simp only [SRes.ok.injEq, SRes.throw.injEq, reduceCtorEq] at h <;> rw [← h.2]

theorem export_files {i : Nat} {s : Run α} : (∀ b s', Run.exportFrame canOpen i ids s = .ok b s' → s'.files.map Prod.fst = s.files.map Prod.fst ++ [i]) ∧
    (∀ m s', Run.exportFrame canOpen i ids s = .throw m s' → s'.files.map Prod.fst = if canOpen i then s.files.map Prod.fst ++ [i] else s.files.map Prod.fst) := by
  unfold Run.exportFrame
  constructor <;> intro b s' h <;> cases e : Vtk.write s.mgr (canOpen i) ids [] <;> rw [e] at h <;> simp only [SRes.ok.injEq, SRes.throw.injEq, reduceCtorEq] at h <;> rw [← h.2]
  · simp
  · split_ifs <;> simp

variable (step : α → SM (Mgr α) α) (N numSteps : Nat)

theorem frames_succ (n i : Nat) (time a : α) (s : Timed α) : frames w clock canOpen ids step N numSteps (n + 1) i time a s =
    match Run.onMgr (Run.steps step numSteps time) s.run with
    | .ok time r1 =>
      let s1 : Timed α := ⟨r1, s.out ++ frameBegin w (i + 1) (seconds (clock (s.reads + 1) - clock s.reads)), s.reads + 1 + 1⟩
      match Run.exportFrame canOpen (i + 1) ids r1 with
      | .ok _ r2 => frames w clock canOpen ids step N numSteps n (i + 1) time (a + seconds (clock (s.reads + 1) - clock s.reads) / Arith.ofInt N)
          ⟨r2, s1.out ++ frameEnd w (seconds (clock (s.reads + 1 + 1) - clock (s.reads + 1))), s.reads + 1 + 1 + 1⟩
      | .throw m r2 => .throw m { s1 with run := r2 }
      | .ub w => .ub w
      | .diverge => .diverge
    | .throw m r1 => .throw m ⟨r1, s.out, s.reads + 1⟩
    | .ub w => .ub w
    | .diverge => .diverge := by
  rw [frames]
  simp only [SM.bind, now, bind, onRun, say]
  cases Run.onMgr (Run.steps step numSteps time) s.run with
  | ok t r1 =>
    simp only
    cases Run.exportFrame canOpen (i + 1) ids r1 <;> rfl
  | throw => rfl
  | ub => rfl
  | diverge => rfl

theorem run_frames_succ (n i : Nat) (time : α) (s : Run α) : Run.frames canOpen ids step numSteps (n + 1) i time s =
    match Run.onMgr (Run.steps step numSteps time) s with
    | .ok time r1 =>
      match Run.exportFrame canOpen (i + 1) ids r1 with
      | .ok _ r2 => Run.frames canOpen ids step numSteps n (i + 1) time r2
      | .throw m r2 => .throw m r2
      | .ub w => .ub w
      | .diverge => .diverge
    | .throw m r1 => .throw m r1
    | .ub w => .ub w
    | .diverge => .diverge := by
  rw [Run.frames]
  simp only [SM.bind, bind]
  cases Run.onMgr (Run.steps step numSteps time) s with
  | ok t r1 =>
    simp only
    cases Run.exportFrame canOpen (i + 1) ids r1 <;> rfl
  | throw => rfl
  | ub => rfl
  | diverge => rfl

/-- What the loop over the frames does, whatever its outcome. -/
theorem frames_spec (r n i : Nat) (time a : α) (s : Timed α) (hr : s.reads = r + 3 * i) :
    Untimed (fun _ => ()) (frames w clock canOpen ids step N numSteps n i time a s) = Run.frames canOpen ids step numSteps n i time s.run ∧
    (∀ b s', frames w clock canOpen ids step N numSteps n i time a s = .ok b s' → b = averageFrom clock r N n i a ∧ s'.out = s.out ++ linesFrom w clock r n i ∧
      s'.reads = r + 3 * (i + n) ∧ s'.run.files.map Prod.fst = s.run.files.map Prod.fst ++ (List.range n).map (i + 1 + ·)) ∧
    (∀ m s', frames w clock canOpen ids step N numSteps n i time a s = .throw m s' → ∃ k < n,
      (s'.out = s.out ++ linesFrom w clock r k i ∧ s'.run.files.map Prod.fst = s.run.files.map Prod.fst ++ (List.range k).map (i + 1 + ·)) ∨
      (s'.out = s.out ++ linesFrom w clock r k i ++ beginOf w (i + k + 1) (elapsed clock (r + 3 * (i + k)) (r + 3 * (i + k) + 1)) ∧
        s'.run.files.map Prod.fst = s.run.files.map Prod.fst ++ (List.range (if canOpen (i + k + 1) then k + 1 else k)).map (i + 1 + ·))) := by
  induction n generalizing i time a s with
  | zero =>
    refine ⟨rfl, ?_, ?_⟩
    · intro b s' h
      have h : SRes.ok a s = SRes.ok b s' := h
      simp only [SRes.ok.injEq] at h
      obtain ⟨rfl, rfl⟩ := h
      exact ⟨rfl, by simp [linesFrom], by omega, by simp⟩
    · intro m s' h
      have h : SRes.ok a s = SRes.throw m s' := h
      simp at h
  | succ n ih =>
    rw [frames_succ, run_frames_succ]
    have fm := onMgr_files (x := Run.steps step numSteps time) (s := s.run)
    cases hS : Run.onMgr (Run.steps step numSteps time) s.run with
    | throw m r1 =>
      refine ⟨rfl, ?_, ?_⟩
      · intro b s' h; simp at h
      · intro m' s' h
        simp only [SRes.throw.injEq] at h
        refine ⟨0, by omega, Or.inl ⟨?_, ?_⟩⟩
        · rw [← h.2]; simp [linesFrom]
        · rw [← h.2]; simp [fm.2 _ _ hS]
    | ub => exact ⟨rfl, fun _ _ h => by simp at h, fun _ _ h => by simp at h⟩
    | diverge => exact ⟨rfl, fun _ _ h => by simp at h, fun _ _ h => by simp at h⟩
    | ok t r1 =>
      have f1 := fm.1 _ _ hS
      have fe := export_files canOpen ids (i := i + 1) (s := r1)
      simp only
      have b1 : (frameBegin w (i + 1) (seconds (clock (s.reads + 1) - clock s.reads)) : List (Item α)) = beginOf w (i + 1) (elapsed clock (r + 3 * i) (r + 3 * i + 1)) := by
        rw [show ((i : Int) + 1) = ((i + 1 : Nat) : Int) by push_cast; rfl, begin_eq, hr]
        rfl
      have b2 : (frameEnd w (seconds (clock (s.reads + 1 + 1) - clock (s.reads + 1))) : List (Item α)) = endOf w (elapsed clock (r + 3 * i + 1) (r + 3 * i + 2)) := by
        rw [end_eq, hr]
        rfl
      have b3 : (seconds (clock (s.reads + 1) - clock s.reads) : α) = elapsed clock (r + 3 * i) (r + 3 * i + 1) := by rw [hr]; rfl
      rw [b1, b2, b3]
      cases hE : Run.exportFrame canOpen (i + 1) ids r1 with
      | throw m r2 =>
        refine ⟨rfl, ?_, ?_⟩
        · intro b s' h; simp at h
        · intro m' s' h
          simp only [SRes.throw.injEq] at h
          refine ⟨0, by omega, Or.inr ⟨?_, ?_⟩⟩
          · rw [← h.2]; simp [linesFrom]
          · rw [← h.2]
            simp only [fe.2 _ _ hE, f1, Nat.add_zero]
            split_ifs <;> simp
      | ub => exact ⟨rfl, fun _ _ h => by simp at h, fun _ _ h => by simp at h⟩
      | diverge => exact ⟨rfl, fun _ _ h => by simp at h, fun _ _ h => by simp at h⟩
      | ok u r2 =>
        have f2 := fe.1 _ _ hE
        rw [f1] at f2
        obtain ⟨g1, g2, g3⟩ := ih (i + 1) t (a + elapsed clock (r + 3 * i) (r + 3 * i + 1) / Arith.ofInt N)
          ⟨r2, s.out ++ beginOf w (i + 1) (elapsed clock (r + 3 * i) (r + 3 * i + 1)) ++ endOf w (elapsed clock (r + 3 * i + 1) (r + 3 * i + 2)), s.reads + 1 + 1 + 1⟩ (by simp only [hr]; omega)
        have line : ∀ k, (s.out ++ beginOf w (i + 1) (elapsed clock (r + 3 * i) (r + 3 * i + 1)) ++ endOf w (elapsed clock (r + 3 * i + 1) (r + 3 * i + 2))) ++ linesFrom w clock r k (i + 1) =
            s.out ++ linesFrom w clock r (k + 1) i := fun k => by rw [linesFrom, lineOf]; simp only [List.append_assoc]
        have nums : ∀ k, s.run.files.map Prod.fst ++ [i + 1] ++ (List.range k).map (i + 1 + 1 + ·) = s.run.files.map Prod.fst ++ (List.range (k + 1)).map (i + 1 + ·) := fun k => by
          rw [List.range_succ_eq_map, List.map_cons, List.map_map, List.append_assoc]
          congr 1
          simp only [Nat.add_zero, List.singleton_append, List.cons.injEq, true_and]
          exact List.map_congr_left fun j _ => by simp only [Function.comp]; omega
        refine ⟨g1, ?_, ?_⟩
        · intro b s' h
          obtain ⟨h1, h2, h3, h4⟩ := g2 b s' h
          exact ⟨h1, by rw [h2, line], by omega, by rw [h4, f2, nums]⟩
        · intro m s' h
          obtain ⟨k, hk, h⟩ := g3 m s' h
          refine ⟨k + 1, by omega, ?_⟩
          rcases h with ⟨h1, h2⟩ | ⟨h1, h2⟩
          · exact Or.inl ⟨by rw [h1, line], by rw [h2, f2, nums]⟩
          · refine Or.inr ⟨?_, ?_⟩
            · rw [h1, line, show i + 1 + k = i + (k + 1) by omega]
            · rw [h2, f2, nums, show i + 1 + k = i + (k + 1) by omega]
              congr 3
              split_ifs <;> rfl

theorem main_eq (ic : SM (Mgr α) Unit) (step : α → α → SM (Mgr α) α) (dt : α) (n numSteps : Nat) (s : Timed α) : main w clock ic canOpen ids step dt n numSteps s =
    match Run.onMgr ic s.run with
    | .ok _ r1 =>
      match Run.exportFrame canOpen 0 ids r1 with
      | .ok _ r2 =>
        match frames w clock canOpen ids (step dt) n numSteps n 0 (Arith.lit 0) (Arith.ofInt 0)
            ⟨⟨(r2.mgr.setTime (Arith.lit 0)).setDt dt, r2.files⟩, s.out ++ firstLine w ++ firstDone w, s.reads⟩ with
        | .ok a s3 => .ok () { s3 with out := s3.out ++ lastLine a }
        | .throw m s3 => .throw m s3
        | .ub w => .ub w
        | .diverge => .diverge
      | .throw m r2 => .throw m ⟨r2, s.out ++ firstLine w, s.reads⟩
      | .ub w => .ub w
      | .diverge => .diverge
    | .throw m r1 => .throw m { s with run := r1 }
    | .ub w => .ub w
    | .diverge => .diverge := by
  simp only [main, bind, SM.bind, onRun, say]
  cases Run.onMgr ic s.run with
  | ok u r1 =>
    simp only
    cases Run.exportFrame canOpen 0 ids r1 with
    | ok u r2 =>
      simp only [Run.onMgr, modifyRes]
      cases frames w clock canOpen ids (step dt) n numSteps n 0 (Arith.lit 0) (Arith.ofInt 0)
        ⟨⟨(r2.mgr.setTime (Arith.lit 0)).setDt dt, r2.files⟩, s.out ++ firstLine w ++ firstDone w, s.reads⟩ <;> rfl
    | throw => rfl
    | ub => rfl
    | diverge => rfl
  | throw => rfl
  | ub => rfl
  | diverge => rfl

theorem run_main_eq (ic : SM (Mgr α) Unit) (step : α → α → SM (Mgr α) α) (dt : α) (n numSteps : Nat) (s : Run α) : Run.main ic canOpen ids step dt n numSteps s =
    match Run.onMgr ic s with
    | .ok _ r1 =>
      match Run.exportFrame canOpen 0 ids r1 with
      | .ok _ r2 => Run.frames canOpen ids (step dt) numSteps n 0 (Arith.lit 0) ⟨(r2.mgr.setTime (Arith.lit 0)).setDt dt, r2.files⟩
      | .throw m r2 => .throw m r2
      | .ub w => .ub w
      | .diverge => .diverge
    | .throw m r1 => .throw m r1
    | .ub w => .ub w
    | .diverge => .diverge := by
  simp only [Run.main, bind, SM.bind]
  cases Run.onMgr ic s with
  | ok u r1 =>
    simp only
    cases Run.exportFrame canOpen 0 ids r1 <;> rfl
  | throw => rfl
  | ub => rfl
  | diverge => rfl

/-- What the main part of a program does, whatever its outcome. -/
theorem main_spec (ic : SM (Mgr α) Unit) (step : α → α → SM (Mgr α) α) (dt : α) (n numSteps : Nat) (s : Timed α) (h0 : s.run.files = []) :
    Untimed id (main w clock ic canOpen ids step dt n numSteps s) = Run.main ic canOpen ids step dt n numSteps s.run ∧
    (∀ s', main w clock ic canOpen ids step dt n numSteps s = .ok () s' → s'.out = s.out ++ consoleOf w clock s.reads n ∧ s'.run.files.map Prod.fst = List.range (n + 1)) ∧
    (∀ m s', main w clock ic canOpen ids step dt n numSteps s = .throw m s' → ∃ o, s'.out = s.out ++ o ∧ Interrupted w clock canOpen s.reads n o (s'.run.files.map Prod.fst)) := by
  rw [main_eq, run_main_eq]
  have fm := onMgr_files (x := ic) (s := s.run)
  rw [first_eq, firstDone_eq]
  cases hS : Run.onMgr ic s.run with
  | throw m r1 =>
    refine ⟨rfl, fun s' h => by simp at h, ?_⟩
    intro m' s' h
    simp only [SRes.throw.injEq] at h
    refine ⟨[], ?_, ?_⟩
    · rw [← h.2]; simp
    · rw [← h.2]
      simp only [fm.2 _ _ hS, h0, List.map_nil]
      exact .start
  | ub => exact ⟨rfl, fun _ h => by simp at h, fun _ _ h => by simp at h⟩
  | diverge => exact ⟨rfl, fun _ h => by simp at h, fun _ _ h => by simp at h⟩
  | ok u r1 =>
    have f1 := fm.1 _ _ hS
    have fe := export_files canOpen ids (i := 0) (s := r1)
    simp only
    cases hE : Run.exportFrame canOpen 0 ids r1 with
    | throw m r2 =>
      refine ⟨rfl, fun s' h => by simp at h, ?_⟩
      intro m' s' h
      simp only [SRes.throw.injEq] at h
      refine ⟨headOf w, ?_, ?_⟩
      · rw [← h.2]
      · rw [← h.2]
        simp only [fe.2 _ _ hE, f1, h0, List.map_nil, List.nil_append]
        exact .zero
    | ub => exact ⟨rfl, fun _ h => by simp at h, fun _ _ h => by simp at h⟩
    | diverge => exact ⟨rfl, fun _ h => by simp at h, fun _ _ h => by simp at h⟩
    | ok u r2 =>
      have f2 := fe.1 _ _ hE
      rw [f1, h0] at f2
      simp only
      obtain ⟨g1, g2, g3⟩ := frames_spec w clock canOpen ids (step dt) n numSteps s.reads n 0 (Arith.lit 0) (Arith.ofInt 0)
        ⟨⟨(r2.mgr.setTime (Arith.lit 0)).setDt dt, r2.files⟩, s.out ++ headOf w ++ headDone w, s.reads⟩ rfl
      have nums : ∀ k, r2.files.map Prod.fst ++ (List.range k).map (0 + 1 + ·) = List.range (k + 1) := fun k => by
        rw [f2, List.range_succ_eq_map]
        simp only [List.map_nil, List.nil_append, List.singleton_append, List.cons.injEq, true_and]
        exact List.map_congr_left fun j _ => by simp only [Nat.succ_eq_add_one]; omega
      rw [← g1]
      cases hF : frames w clock canOpen ids (step dt) n numSteps n 0 (Arith.lit 0) (Arith.ofInt 0)
        ⟨⟨(r2.mgr.setTime (Arith.lit 0)).setDt dt, r2.files⟩, s.out ++ headOf w ++ headDone w, s.reads⟩ with
      | ub => exact ⟨rfl, fun _ h => by simp at h, fun _ _ h => by simp at h⟩
      | diverge => exact ⟨rfl, fun _ h => by simp at h, fun _ _ h => by simp at h⟩
      | ok a s3 =>
        refine ⟨rfl, ?_, fun _ _ h => by simp at h⟩
        intro s' h
        obtain ⟨h1, h2, -, h4⟩ := g2 _ _ hF
        simp only [SRes.ok.injEq, true_and] at h
        rw [← h]
        simp only
        refine ⟨?_, by rw [h4, nums]⟩
        rw [h2, h1, linesFrom_eq, averageFrom_eq]
        simp only [consoleOf, linesOf, averageOf, lastLine, tailOf, List.append_assoc, Nat.zero_add]
      | throw m s3 =>
        refine ⟨rfl, fun _ h => by simp at h, ?_⟩
        intro m' s' h
        simp only [SRes.throw.injEq] at h
        obtain ⟨k, hk, h'⟩ := g3 _ _ hF
        rw [← h.2]
        have el : (linesFrom w clock s.reads k 0 : List (Item α)) = linesOf w clock s.reads k := by rw [linesFrom_eq]; simp only [linesOf, Nat.zero_add]
        rw [el] at h'
        rcases h' with ⟨h1, h2⟩ | ⟨h1, h2⟩
        · refine ⟨headOf w ++ headDone w ++ linesOf w clock s.reads k, ?_, ?_⟩
          rotate_left
          · rw [h2, nums]
            exact .steps k hk
          · rw [h1]; simp only [List.append_assoc]
        · refine ⟨headOf w ++ headDone w ++ linesOf w clock s.reads k ++ beginOf w (k + 1) (elapsed clock (s.reads + 3 * k) (s.reads + 3 * k + 1)), ?_, ?_⟩
          rotate_left
          · rw [h2, nums, Nat.zero_add]
            have := Interrupted.frame (α := α) (w := w) (clock := clock) (canOpen := canOpen) (r := s.reads) (n := n) k hk
            rwa [← apply_ite List.range, show (if canOpen (k + 1) = true then k + 2 else k + 1) = (if canOpen (k + 1) = true then k + 1 else k) + 1 by split_ifs <;> rfl] at this
          · rw [h1]; simp only [List.append_assoc, Nat.zero_add]

/-- If the file of a frame cannot be created. -/
theorem export_unwritable {id : VarId} {ids : List VarId} {i : Nat} (h : canOpen i = false) (r : Run α) : ∃ m, Run.exportFrame canOpen i (id :: ids) r = .throw m r := by
  obtain ⟨m, e⟩ := Props.C43_cannot_open (m := r.mgr) (id := id) (ids := ids) []
  refine ⟨m, ?_⟩
  unfold Run.exportFrame
  rw [h, e]
  simp

theorem export_writable {i : Nat} (h : canOpen i = true) (r : Run α) : Run.exportFrame canOpen i ids r = Run.exportFrame (fun _ => true) i ids r := by
  unfold Run.exportFrame
  rw [h]

/-- The loop over the frames, if all files but that of frame `i + k + 1` can be created and the rest goes well. -/
theorem frames_unwritable {id : VarId} {ids : List VarId} (r n i k : Nat) (hk : k < n) (time a : α) (s : Timed α) (hr : s.reads = r + 3 * i) (ho : ∀ j < k, canOpen (i + j + 1) = true)
    (hc : canOpen (i + k + 1) = false) (h : ∃ r', Run.frames (fun _ => true) (id :: ids) step numSteps n i time s.run = .ok () r') :
    ∃ m s', frames w clock canOpen (id :: ids) step N numSteps n i time a s = .throw m s' ∧
      s'.out = s.out ++ linesFrom w clock r k i ++ beginOf w (i + k + 1) (elapsed clock (r + 3 * (i + k)) (r + 3 * (i + k) + 1)) ∧
      s'.run.files.map Prod.fst = s.run.files.map Prod.fst ++ (List.range k).map (i + 1 + ·) := by
  induction n generalizing i k time a s with
  | zero => omega
  | succ n ih =>
    obtain ⟨r', h⟩ := h
    rw [run_frames_succ] at h
    rw [frames_succ]
    have fm := onMgr_files (x := Run.steps step numSteps time) (s := s.run)
    have b1 : (frameBegin w (i + 1) (seconds (clock (s.reads + 1) - clock s.reads)) : List (Item α)) = beginOf w (i + 1) (elapsed clock (r + 3 * i) (r + 3 * i + 1)) := by
      rw [show ((i : Int) + 1) = ((i + 1 : Nat) : Int) by push_cast; rfl, begin_eq, hr]
      rfl
    have b2 : (frameEnd w (seconds (clock (s.reads + 1 + 1) - clock (s.reads + 1))) : List (Item α)) = endOf w (elapsed clock (r + 3 * i + 1) (r + 3 * i + 2)) := by
      rw [end_eq, hr]
      rfl
    cases hS : Run.onMgr (Run.steps step numSteps time) s.run with
    | throw => rw [hS] at h; simp at h
    | ub => rw [hS] at h; simp at h
    | diverge => rw [hS] at h; simp at h
    | ok t r1 =>
      have f1 := fm.1 _ _ hS
      rw [hS] at h
      simp only at h ⊢
      rw [b1, b2]
      cases k with
      | zero =>
        obtain ⟨m, e⟩ := export_unwritable canOpen (id := id) (ids := ids) (i := i + 1) hc r1
        rw [e]
        exact ⟨m, _, rfl, by simp [linesFrom], by simp [f1]⟩
      | succ k =>
        rw [export_writable canOpen _ (ho 0 (by omega))]
        cases hE : Run.exportFrame (fun _ => true) (i + 1) (id :: ids) r1 with
        | throw => rw [hE] at h; simp at h
        | ub => rw [hE] at h; simp at h
        | diverge => rw [hE] at h; simp at h
        | ok u r2 =>
          rw [hE] at h
          simp only at h ⊢
          have f2 := (export_files _ (id :: ids)).1 _ _ hE
          rw [f1] at f2
          obtain ⟨m, s', h1, h2, h3⟩ := ih (i + 1) k (by omega) t (a + seconds (clock (s.reads + 1) - clock s.reads) / Arith.ofInt N)
            ⟨r2, s.out ++ beginOf w (i + 1) (elapsed clock (r + 3 * i) (r + 3 * i + 1)) ++ endOf w (elapsed clock (r + 3 * i + 1) (r + 3 * i + 2)), s.reads + 1 + 1 + 1⟩ (by simp only [hr]; omega)
            (fun j hj => by rw [show i + 1 + j + 1 = i + (j + 1) + 1 by omega]; exact ho _ (by omega)) (by rw [show i + 1 + k + 1 = i + (k + 1) + 1 by omega]; exact hc) ⟨r', h⟩
          refine ⟨m, s', h1, ?_, ?_⟩
          · rw [h2, linesFrom, lineOf, show i + 1 + k = i + (k + 1) by omega]
            simp only [List.append_assoc]
          · rw [h3, f2, List.range_succ_eq_map, List.map_cons, List.map_map, List.append_assoc]
            congr 1
            simp only [Nat.add_zero, List.singleton_append, List.cons.injEq, true_and]
            exact List.map_congr_left fun j _ => by simp only [Function.comp]; omega

/-- … and the main part of a program. -/
theorem main_unwritable {id : VarId} {ids : List VarId} (ic : SM (Mgr α) Unit) (step : α → α → SM (Mgr α) α) (dt : α) (n numSteps k : Nat) (s : Timed α) (h0 : s.run.files = []) (hk : k ≤ n)
    (ho : ∀ j < k, canOpen j = true) (hc : canOpen k = false) (h : ∃ r', Run.main ic (fun _ => true) (id :: ids) step dt n numSteps s.run = .ok () r') :
    ∃ m s', main w clock ic canOpen (id :: ids) step dt n numSteps s = .throw m s' ∧ s'.run.files.map Prod.fst = List.range k ∧
      s'.out = s.out ++ stoppedAt w clock s.reads k := by
  obtain ⟨r', h⟩ := h
  rw [run_main_eq] at h
  rw [main_eq]
  have fm := onMgr_files (x := ic) (s := s.run)
  rw [first_eq, firstDone_eq]
  cases hS : Run.onMgr ic s.run with
  | throw => rw [hS] at h; simp at h
  | ub => rw [hS] at h; simp at h
  | diverge => rw [hS] at h; simp at h
  | ok u r1 =>
    have f1 := fm.1 _ _ hS
    rw [hS] at h
    simp only at h ⊢
    cases k with
    | zero =>
      obtain ⟨m, e⟩ := export_unwritable canOpen (id := id) (ids := ids) (i := 0) hc r1
      rw [e]
      exact ⟨m, _, rfl, by simp [f1, h0], rfl⟩
    | succ k =>
      rw [export_writable canOpen _ (ho 0 (by omega))]
      cases hE : Run.exportFrame (fun _ => true) 0 (id :: ids) r1 with
      | throw => rw [hE] at h; simp at h
      | ub => rw [hE] at h; simp at h
      | diverge => rw [hE] at h; simp at h
      | ok u r2 =>
        rw [hE] at h
        simp only at h ⊢
        have f2 := (export_files _ (id :: ids)).1 _ _ hE
        rw [f1, h0] at f2
        obtain ⟨m, s', h1, h2, h3⟩ := frames_unwritable w clock canOpen (step dt) n numSteps (id := id) (ids := ids) s.reads n 0 k (by omega) (Arith.lit 0) (Arith.ofInt 0)
          ⟨⟨(r2.mgr.setTime (Arith.lit 0)).setDt dt, r2.files⟩, s.out ++ headOf w ++ headDone w, s.reads⟩ rfl
          (fun j hj => by rw [Nat.zero_add]; exact ho _ (by omega)) (by rw [Nat.zero_add]; exact hc) ⟨r', h⟩
        rw [h1]
        refine ⟨m, s', rfl, ?_, ?_⟩
        · rw [h3, f2, List.range_succ_eq_map]
          simp only [List.map_nil, List.nil_append, List.singleton_append, List.cons.injEq, true_and]
          exact List.map_congr_left fun j _ => by simp only [Nat.succ_eq_add_one]; omega
        · rw [h2, linesFrom_eq]
          simp only [stoppedAt, linesOf, Nat.zero_add, List.append_assoc]

end QK.Timed
