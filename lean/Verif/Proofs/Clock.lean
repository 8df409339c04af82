import Verif.Proofs.Lifetime
import Verif.Spec.Twin
/- Helper lemmas: which calls change the clock of the manager. -/
namespace QK

/-- The step length and the time of a manager. -/
def Clock {α : Type} (d t : Option α) (m : Mgr α) : Prop := m.dt = d ∧ m.time = t

theorem Keeps.get_bind {σ β : Type} {I : σ → Prop} {f : σ → SM σ β} (h : ∀ s, I s → Keeps I (f s)) : Keeps I (SM.get >>= f) :=
  fun s hs => h s hs s hs

namespace Solve
open SM Mgr
variable {α : Type} {d t : Option α}

theorem inputVar_clock (id : VarId) : Keeps (Clock (α := α) d t) (inputVar id) := by
  unfold inputVar
  refine Keeps.get.bind fun m => (Keeps.lift _).bind fun o => ?_
  cases o with
  | some a => exact Keeps.pure _
  | none => exact Keeps.lift _

theorem dt_clock : Keeps (Clock (α := α) d t) dt := by
  unfold dt
  refine Keeps.get.bind fun m => ?_
  cases m.dt with
  | some t => exact Keeps.pure _
  | none => exact Keeps.lift _

theorem time_clock : Keeps (Clock (α := α) d t) time := by
  unfold time
  refine Keeps.get.bind fun m => ?_
  cases m.time with
  | some t => exact Keeps.pure _
  | none => exact Keeps.lift _

variable [Arith α]

theorem addVar_clock (id : VarId) : Keeps (Clock d t) (addVar (α := α) id) := by
  unfold addVar
  refine Keeps.get_bind fun m hm => (Keeps.lift _).bind fun o => ?_
  cases o with
  | some a => exact Keeps.raise _
  | none =>
    refine (Keeps.lift _).bind fun v => (Keeps.lift _).bind fun vars => ?_
    intro s hs
    refine ⟨?_, ?_⟩
    · intro _ _ h
      cases h
      exact hm
    · intro _ _ h
      cases h

theorem outputVar_clock (id : VarId) : Keeps (Clock (α := α) d t) (outputVar id) := by
  unfold outputVar
  refine Keeps.get.bind fun m => (Keeps.lift _).bind fun o => ?_
  cases o with
  | some a => exact Keeps.pure _
  | none => exact (addVar_clock id).bind fun _ => inputVar_clock id

omit [Arith α] in
theorem setChunk_clock {m m' : Mgr α} {a : Nat} {idx : Indexer} {c : Chunk α} (hm : Clock d t m) (h : setChunk m a idx c = .ok m') :
    Clock d t m' := by
  unfold setChunk at h
  obtain ⟨v, _, h⟩ := Res.bind_eq_ok.1 h
  obtain ⟨ch, _, h⟩ := Res.bind_eq_ok.1 h
  obtain ⟨hh, h3, h⟩ := Res.bind_eq_ok.1 h
  cases h
  exact hm

omit [Arith α] in
theorem forChunks_clock {a : Nat} {body : Indexer → Mgr α → Res (Mgr α)}
    (hb : ∀ idx m m', Clock d t m → body idx m = .ok m' → Clock d t m') : Keeps (Clock d t) (forChunks a body) := by
  unfold forChunks
  refine Keeps.modifyRes ?_
  intro m m' hm h
  obtain ⟨v, _, h⟩ := Res.bind_eq_ok.1 h
  unfold Indexer.forEach at h
  refine iter_ok_inv (fun p : Indexer × Mgr α => Clock d t p.2) (Clock d t) ?_ ?_ hm h
  · rintro ⟨i, s⟩ ⟨i', s'⟩ hs hf
    simp only at hf
    split at hf
    · obtain ⟨s2, h2, hf⟩ := Res.bind_eq_ok.1 hf
      obtain ⟨i2, h3, hf⟩ := Res.bind_eq_ok.1 hf
      cases hf
      exact hb _ _ _ hs h2
    · cases hf
  · rintro ⟨i, s⟩ r hs hf
    simp only at hf
    split at hf
    · obtain ⟨s2, h2, hf⟩ := Res.bind_eq_ok.1 hf
      obtain ⟨i2, h3, hf⟩ := Res.bind_eq_ok.1 hf
      cases hf
    · cases hf
      exact hs

omit [Arith α] in
theorem kernelLoop_clock (a b : Nat) (srcs : List Nat) (f : Mgr α → List (Chunk α) → Chunk α → Res (Chunk α)) :
    Keeps (Clock d t) (kernelLoop a b srcs f) := by
  unfold kernelLoop
  refine forChunks_clock ?_
  intro idx m m' hm h
  obtain ⟨_, _, h⟩ := Res.bind_eq_ok.1 h
  obtain ⟨_, _, h⟩ := Res.bind_eq_ok.1 h
  obtain ⟨_, _, h⟩ := Res.bind_eq_ok.1 h
  exact setChunk_clock hm h

omit [Arith α] in
theorem idle_clock (a : Nat) : Keeps (Clock (α := α) d t) (forChunks a (fun _ m => .ok m)) := by
  refine forChunks_clock ?_
  intro idx m m' hm h
  cases h
  exact hm

theorem eachOutput_clock (f : Chunk α → Res (Chunk α)) : ∀ ids, Keeps (Clock d t) (eachOutput f ids)
  | [] => Keeps.pure _
  | id :: ids => by
    unfold eachOutput
    refine (outputVar_clock id).bind fun a => (forChunks_clock ?_).bind fun _ => eachOutput_clock f ids
    intro idx m m' hm h
    obtain ⟨_, _, h⟩ := Res.bind_eq_ok.1 h
    obtain ⟨_, _, h⟩ := Res.bind_eq_ok.1 h
    exact setChunk_clock hm h

omit [Arith α] in
theorem swapVars_clock {a b : Nat} {m m' : Mgr α} (hm : Clock d t m) (h : swapVars a b m = .ok m') : Clock d t m' := by
  unfold swapVars at h
  obtain ⟨_, _, h⟩ := Res.bind_eq_ok.1 h
  obtain ⟨_, _, h⟩ := Res.bind_eq_ok.1 h
  obtain ⟨_, _, h⟩ := Res.bind_eq_ok.1 h
  split at h
  · cases h
    exact hm
  · obtain ⟨_, h1, h⟩ := Res.bind_eq_ok.1 h
    obtain ⟨_, h2, h⟩ := Res.bind_eq_ok.1 h
    cases h
    exact hm

theorem swapLoop_clock : ∀ ids, Keeps (Clock (α := α) d t) (swapLoop ids)
  | [] => Keeps.pure _
  | [_] => Keeps.pure _
  | x :: y :: ids => by
    unfold swapLoop
    exact (outputVar_clock x).bind fun a => (outputVar_clock y).bind fun b =>
      (Keeps.modifyRes fun m m' hm h => swapVars_clock hm h).bind fun _ => swapLoop_clock ids

theorem swap_clock (outs : List VarId) : Keeps (Clock (α := α) d t) (swap outs) := by
  unfold swap
  split
  · exact Keeps.raise _
  · exact swapLoop_clock _

theorem euler_clock (gamma : α) (ins outs : List VarId) : Keeps (Clock d t) (euler gamma ins outs) := by
  unfold euler
  split
  · exact (inputVar_clock _).bind fun _ => (outputVar_clock _).bind fun _ => kernelLoop_clock _ _ _ _
  · exact Keeps.raise _
  · exact Keeps.raise _

theorem maxwell_clock (c : α) (ins outs : List VarId) : Keeps (Clock d t) (maxwell c ins outs) := by
  unfold maxwell
  split
  · exact (inputVar_clock _).bind fun _ => (outputVar_clock _).bind fun _ => kernelLoop_clock _ _ _ _
  · exact Keeps.raise _
  · exact Keeps.raise _

theorem lorentz_clock (com : α) (ins outs : List VarId) : Keeps (Clock d t) (lorentz com ins outs) := by
  unfold lorentz
  split
  · exact (inputVar_clock _).bind fun _ => (inputVar_clock _).bind fun _ => (outputVar_clock _).bind fun _ => kernelLoop_clock _ _ _ _
  · exact Keeps.raise _
  · exact Keeps.raise _

theorem currentLoop_clock (b : Nat) : ∀ l : List (α × VarId), Keeps (Clock d t) (currentLoop b l)
  | [] => Keeps.pure _
  | (mult, id) :: l => by
    unfold currentLoop
    exact (inputVar_clock _).bind fun _ => (kernelLoop_clock _ _ _ _).bind fun _ => currentLoop_clock b l

theorem current_clock (mults : List α) (ins outs : List VarId) : Keeps (Clock d t) (current mults ins outs) := by
  unfold current
  split
  · exact Keeps.raise _
  · split
    · exact (outputVar_clock _).bind fun _ => currentLoop_clock _ _
    · exact Keeps.raise _

theorem rk1_clock (ins outs : List VarId) (tag : Int) : Keeps (Clock (α := α) d t) (rk1 ins outs tag) := by
  unfold rk1
  split
  · refine dt_clock.bind fun _ => (inputVar_clock _).bind fun _ => (inputVar_clock _).bind fun _ => (outputVar_clock _).bind fun _ => ?_
    split
    · exact kernelLoop_clock _ _ _ _
    · exact idle_clock _
  · exact Keeps.raise _
  · exact Keeps.raise _

theorem ssprk3_clock (al : Bool) (ins outs : List VarId) (tag : Int) : Keeps (Clock (α := α) d t) (ssprk3 al ins outs tag) := by
  unfold ssprk3
  split
  · refine dt_clock.bind fun _ => (inputVar_clock _).bind fun _ => (inputVar_clock _).bind fun _ => (outputVar_clock _).bind fun _ =>
      (outputVar_clock _).bind fun _ => (outputVar_clock _).bind fun _ => ?_
    unfold ssprk3Loop
    split
    · exact kernelLoop_clock _ _ _ _
    · split
      · exact kernelLoop_clock _ _ _ _
      · split
        · exact kernelLoop_clock _ _ _ _
        · exact idle_clock _
  · exact Keeps.raise _
  · exact Keeps.raise _

end Solve

/-- No call of the library but `set_dt` and `set_time` changes the clock. -/
theorem call_clock {α : Type} [Arith α] {d t : Option α} {c : Call α} (hl : c.isLibrary = true) (hc : c.setsClock = false) : Keeps (Clock d t) c.run := by
  cases c with
  | output id => exact (Solve.outputVar_clock id).bind fun _ => Keeps.pure _
  | setDt _ => cases hc
  | setTime _ => cases hc
  | fill outs value => exact Solve.eachOutput_clock _ _
  | swap outs => exact Solve.swap_clock _
  | periodic dims outs => exact Solve.eachOutput_clock _ _
  | copyOut dims outs => exact Solve.eachOutput_clock _ _
  | noSlip dims outs => exact Solve.eachOutput_clock _ _
  | freeSlip dims outs => exact Solve.eachOutput_clock _ _
  | conductingWall dims outs => exact Solve.eachOutput_clock _ _
  | euler gamma ins outs => exact Solve.euler_clock _ _ _
  | maxwell c ins outs => exact Solve.maxwell_clock _ _ _
  | lorentz com ins outs => exact Solve.lorentz_clock _ _ _
  | current mults ins outs => exact Solve.current_clock _ _ _
  | rk1 ins outs tag => exact Solve.rk1_clock _ _ _
  | ssprk3 ins outs tag => exact Solve.ssprk3_clock _ _ _ _
  | own f r w => cases hl

theorem client_clock {α : Type} [Arith α] {d t : Option α} : ∀ (p : Client α), p.plain = true → p.setsClock = false → Keeps (Clock d t) p.run
  | .call c, h, hc => call_clock h hc
  | .skip, _, _ => Keeps.pure _
  | .seq p q, h, hc => by
    simp only [Client.plain, Bool.and_eq_true] at h
    simp only [Client.setsClock, Bool.or_eq_false_iff] at hc
    exact (client_clock p h.1 hc.1).bind fun _ => client_clock q h.2 hc.2
  | .loop n p, h, hc => by
    have body := client_clock (d := d) (t := t) p h hc
    induction n with
    | zero => exact Keeps.pure _
    | succ n ih => exact body.bind fun _ => ih h hc
  | .branch _ _ _, h, _ => by cases h

end QK
