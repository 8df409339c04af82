import Verif.Proofs.Clock
import Verif.Spec.Program
import Verif.Proofs.Client
/- Helper lemmas for C128: what the calls of the library keep, if it only concerns the map, the number of objects, the mesh and the clock. -/
namespace QK

/-- The property does not look at what the variables store. -/
def Stable {α : Type} (I : Mgr α → Prop) : Prop := ∀ m m' : Mgr α, m'.grid = m.grid → m'.vars = m.vars → m'.heap.length = m.heap.length → m'.dt = m.dt → m'.time = m.time → I m → I m'

namespace Solve
open SM Mgr
variable {α : Type} {I : Mgr α → Prop}

theorem inputVar_stable (id : VarId) : Keeps I (inputVar id) := by
  unfold inputVar
  refine Keeps.get.bind fun m => (Keeps.lift _).bind fun o => ?_
  cases o with
  | some a => exact Keeps.pure _
  | none => exact Keeps.lift _

theorem dt_stable : Keeps I dt := by
  unfold dt
  refine Keeps.get.bind fun m => ?_
  cases m.dt with
  | some t => exact Keeps.pure _
  | none => exact Keeps.lift _

theorem time_stable : Keeps I time := by
  unfold time
  refine Keeps.get.bind fun m => ?_
  cases m.time with
  | some t => exact Keeps.pure _
  | none => exact Keeps.lift _

variable [Arith α]

omit [Arith α] in
theorem setChunk_stable (hI : Stable I) {m m' : Mgr α} {a : Nat} {idx : Indexer} {c : Chunk α} (hm : I m) (h : setChunk m a idx c = .ok m') :
    I m' := by
  unfold setChunk at h
  obtain ⟨v, _, h⟩ := Res.bind_eq_ok.1 h
  obtain ⟨ch, _, h⟩ := Res.bind_eq_ok.1 h
  obtain ⟨hh, h3, h⟩ := Res.bind_eq_ok.1 h
  cases h
  exact hI m _ rfl rfl (vset_length h3) rfl rfl hm

omit [Arith α] in
theorem forChunks_stable {a : Nat} {body : Indexer → Mgr α → Res (Mgr α)}
    (hb : ∀ idx m m', I m → body idx m = .ok m' → I m') : Keeps I (forChunks a body) := by
  unfold forChunks
  refine Keeps.modifyRes ?_
  intro m m' hm h
  obtain ⟨v, _, h⟩ := Res.bind_eq_ok.1 h
  unfold Indexer.forEach at h
  refine iter_ok_inv (fun p : Indexer × Mgr α => I p.2) I ?_ ?_ hm h
  · rintro ⟨i, s⟩ ⟨i', s'⟩ hs hf
    simp only at hf
    split at hf
    · obtain ⟨s2, h2, hf⟩ := Res.bind_eq_ok.1 hf
      obtain ⟨i2, h3, hf⟩ := Res.bind_eq_ok.1 hf
      cases hf
      exact hb _ _ _ hs h2
    · cases hf
  · rintro ⟨i, s⟩ r hs hf
    simp only at hf
    split at hf
    · obtain ⟨s2, h2, hf⟩ := Res.bind_eq_ok.1 hf
      obtain ⟨i2, h3, hf⟩ := Res.bind_eq_ok.1 hf
      cases hf
    · cases hf
      exact hs

omit [Arith α] in
theorem kernelLoop_stable (hI : Stable I) (a b : Nat) (srcs : List Nat) (f : Mgr α → List (Chunk α) → Chunk α → Res (Chunk α)) :
    Keeps I (kernelLoop a b srcs f) := by
  unfold kernelLoop
  refine forChunks_stable ?_
  intro idx m m' hm h
  obtain ⟨_, _, h⟩ := Res.bind_eq_ok.1 h
  obtain ⟨_, _, h⟩ := Res.bind_eq_ok.1 h
  obtain ⟨_, _, h⟩ := Res.bind_eq_ok.1 h
  exact setChunk_stable hI hm h

omit [Arith α] in
theorem idle_stable (a : Nat) : Keeps I (forChunks a (fun _ m => .ok m)) := by
  refine forChunks_stable ?_
  intro idx m m' hm h
  cases h
  exact hm

theorem eachOutput_stable (hI : Stable I) (f : Chunk α → Res (Chunk α)) : ∀ ids, (∀ id ∈ ids, Keeps I (outputVar id)) → Keeps I (eachOutput f ids)
  | [], _ => Keeps.pure _
  | id :: ids, hO => by
    unfold eachOutput
    refine (hO id (by simp)).bind fun a => (forChunks_stable ?_).bind fun _ => eachOutput_stable hI f ids fun x hx => hO x (by simp [hx])
    intro idx m m' hm h
    obtain ⟨_, _, h⟩ := Res.bind_eq_ok.1 h
    obtain ⟨_, _, h⟩ := Res.bind_eq_ok.1 h
    exact setChunk_stable hI hm h

omit [Arith α] in
theorem swapVars_stable (hI : Stable I) {a b : Nat} {m m' : Mgr α} (hm : I m) (h : swapVars a b m = .ok m') : I m' := by
  unfold swapVars at h
  obtain ⟨_, _, h⟩ := Res.bind_eq_ok.1 h
  obtain ⟨_, _, h⟩ := Res.bind_eq_ok.1 h
  obtain ⟨_, _, h⟩ := Res.bind_eq_ok.1 h
  split at h
  · cases h
    exact hm
  · obtain ⟨_, h1, h⟩ := Res.bind_eq_ok.1 h
    obtain ⟨_, h2, h⟩ := Res.bind_eq_ok.1 h
    cases h
    exact hI m _ rfl rfl ((vset_length h2).trans (vset_length h1)) rfl rfl hm

theorem swapLoop_stable (hI : Stable I) : ∀ ids, (∀ id ∈ ids, Keeps I (outputVar id)) → Keeps I (swapLoop ids)
  | [], _ => Keeps.pure _
  | [_], _ => Keeps.pure _
  | x :: y :: ids, hO => by
    unfold swapLoop
    exact (hO x (by simp)).bind fun a => (hO y (by simp)).bind fun b =>
      (Keeps.modifyRes fun m m' hm h => swapVars_stable hI hm h).bind fun _ => swapLoop_stable hI ids fun z hz => hO z (by simp [hz])

theorem swap_stable (hI : Stable I) (outs : List VarId) (hO : ∀ id ∈ outs, Keeps I (outputVar id)) : Keeps I (swap outs) := by
  unfold swap
  split
  · exact Keeps.raise _
  · exact swapLoop_stable hI _ hO

theorem euler_stable (hI : Stable I) (gamma : α) (ins outs : List VarId) (hO : ∀ id ∈ outs, Keeps I (outputVar id)) : Keeps I (euler gamma ins outs) := by
  unfold euler
  split
  · exact (inputVar_stable _).bind fun _ => (hO _ (by simp)).bind fun _ => kernelLoop_stable hI _ _ _ _
  · exact Keeps.raise _
  · exact Keeps.raise _

theorem maxwell_stable (hI : Stable I) (c : α) (ins outs : List VarId) (hO : ∀ id ∈ outs, Keeps I (outputVar id)) : Keeps I (maxwell c ins outs) := by
  unfold maxwell
  split
  · exact (inputVar_stable _).bind fun _ => (hO _ (by simp)).bind fun _ => kernelLoop_stable hI _ _ _ _
  · exact Keeps.raise _
  · exact Keeps.raise _

theorem lorentz_stable (hI : Stable I) (com : α) (ins outs : List VarId) (hO : ∀ id ∈ outs, Keeps I (outputVar id)) : Keeps I (lorentz com ins outs) := by
  unfold lorentz
  split
  · exact (inputVar_stable _).bind fun _ => (inputVar_stable _).bind fun _ => (hO _ (by simp)).bind fun _ => kernelLoop_stable hI _ _ _ _
  · exact Keeps.raise _
  · exact Keeps.raise _

theorem currentLoop_stable (hI : Stable I) (b : Nat) : ∀ l : List (α × VarId), Keeps I (currentLoop b l)
  | [] => Keeps.pure _
  | (mult, id) :: l => by
    unfold currentLoop
    exact (inputVar_stable _).bind fun _ => (kernelLoop_stable hI _ _ _ _).bind fun _ => currentLoop_stable hI b l

theorem current_stable (hI : Stable I) (mults : List α) (ins outs : List VarId) (hO : ∀ id ∈ outs, Keeps I (outputVar id)) : Keeps I (current mults ins outs) := by
  unfold current
  split
  · exact Keeps.raise _
  · split
    · exact (hO _ (by simp)).bind fun _ => currentLoop_stable hI _ _
    · exact Keeps.raise _

theorem rk1_stable (hI : Stable I) (ins outs : List VarId) (tag : Int) (hO : ∀ id ∈ outs.take 1, Keeps I (outputVar id)) : Keeps I (rk1 ins outs tag) := by
  unfold rk1
  split
  · refine dt_stable.bind fun _ => (inputVar_stable _).bind fun _ => (inputVar_stable _).bind fun _ => (hO _ (by simp)).bind fun _ => ?_
    split
    · exact kernelLoop_stable hI _ _ _ _
    · exact idle_stable _
  · exact Keeps.raise _
  · exact Keeps.raise _

theorem ssprk3_stable (hI : Stable I) (al : Bool) (ins outs : List VarId) (tag : Int) (hO : ∀ id ∈ outs.take 3, Keeps I (outputVar id)) : Keeps I (ssprk3 al ins outs tag) := by
  unfold ssprk3
  split
  · refine dt_stable.bind fun _ => (inputVar_stable _).bind fun _ => (inputVar_stable _).bind fun _ => (hO _ (by simp)).bind fun _ =>
      (hO _ (by simp)).bind fun _ => (hO _ (by simp)).bind fun _ => ?_
    unfold ssprk3Loop
    split
    · exact kernelLoop_stable hI _ _ _ _
    · split
      · exact kernelLoop_stable hI _ _ _ _
      · split
        · exact kernelLoop_stable hI _ _ _ _
        · exact idle_stable _
  · exact Keeps.raise _
  · exact Keeps.raise _

theorem advection_stable (hI : Stable I) (velocity : List α) (ins outs : List VarId) (tag : Int) (hO : ∀ id ∈ outs, Keeps I (outputVar id)) : Keeps I (advection velocity ins outs tag) := by
  unfold advection
  split
  · refine time_stable.bind fun _ => dt_stable.bind fun _ => (inputVar_stable _).bind fun _ => (hO _ (by simp)).bind fun _ =>
      (hO _ (by simp)).bind fun _ => ?_
    unfold advectionLoop
    split
    · exact kernelLoop_stable hI _ _ _ _
    · split
      · exact kernelLoop_stable hI _ _ _ _
      · exact Keeps.pure _
  · exact Keeps.raise _
  · exact Keeps.raise _

theorem initial_stable (hI : Stable I) (f : Rectilinear α → Chunk α → Res (Chunk α)) (outs : List VarId) (hO : ∀ id ∈ outs, Keeps I (outputVar id)) : Keeps I (initial f outs) := by
  unfold initial
  exact Keeps.get.bind fun m => eachOutput_stable hI _ _ hO

theorem brioWu_stable (hI : Stable I) (s : Init.BrioWu α) (outs : List VarId) (hO : ∀ id ∈ outs, Keeps I (outputVar id)) : Keeps I (brioWu s outs) := by
  unfold brioWu
  split
  · refine (hO _ (by simp)).bind fun _ => (hO _ (by simp)).bind fun _ => (hO _ (by simp)).bind fun _ => ?_
    unfold brioLoop
    refine forChunks_stable ?_
    intro idx m m' hm h
    obtain ⟨_, _, h⟩ := Res.bind_eq_ok.1 h
    obtain ⟨_, _, h⟩ := Res.bind_eq_ok.1 h
    obtain ⟨_, _, h⟩ := Res.bind_eq_ok.1 h
    obtain ⟨_, _, h⟩ := Res.bind_eq_ok.1 h
    obtain ⟨_, _, h⟩ := Res.bind_eq_ok.1 h
    obtain ⟨m1, h1, h⟩ := Res.bind_eq_ok.1 h
    obtain ⟨_, _, h⟩ := Res.bind_eq_ok.1 h
    obtain ⟨m2, h2, h⟩ := Res.bind_eq_ok.1 h
    obtain ⟨_, _, h⟩ := Res.bind_eq_ok.1 h
    exact setChunk_stable hI (setChunk_stable hI (setChunk_stable hI hm h1) h2) h
  · exact Keeps.raise _

omit [Arith α] in
theorem take_stable {β : Type} {outs : List VarId} (i : Nat) {f : VarId → SM (Mgr α) β} (hf : ∀ o ∈ outs, Keeps I (f o)) : Keeps I (SM.lift (vget outs (i : Int)) >>= f) := by
  by_cases hi : i < outs.length
  · rw [vget_ok (List.getElem?_eq_getElem hi)]
    exact hf _ (List.getElem_mem hi)
  · have e : vget outs (i : Int) = .ub "vector index out of range" := by
      unfold vget
      rw [if_neg (by omega), List.getElem?_eq_none (by simp; omega)]
    rw [e]
    intro m hm
    refine ⟨?_, ?_⟩ <;> intro _ _ h <;> cases h

theorem gem_stable (hI : Stable I) (s : Init.Gem α) (outs : List VarId) (hO : ∀ id ∈ outs, Keeps I (outputVar id)) : Keeps I (gem s outs) := by
  unfold gem
  refine take_stable 0 fun _ h0 => (hO _ h0).bind fun _ => take_stable 1 fun _ h1 => (hO _ h1).bind fun _ => take_stable 2 fun _ h2 => (hO _ h2).bind fun _ => ?_
  unfold gemLoop
  refine forChunks_stable ?_
  intro idx m m' hm h
  obtain ⟨_, _, h⟩ := Res.bind_eq_ok.1 h
  obtain ⟨_, _, h⟩ := Res.bind_eq_ok.1 h
  obtain ⟨_, _, h⟩ := Res.bind_eq_ok.1 h
  obtain ⟨_, _, h⟩ := Res.bind_eq_ok.1 h
  obtain ⟨_, _, h⟩ := Res.bind_eq_ok.1 h
  obtain ⟨m1, h1, h⟩ := Res.bind_eq_ok.1 h
  obtain ⟨m2, h2, h⟩ := Res.bind_eq_ok.1 h
  exact setChunk_stable hI (setChunk_stable hI (setChunk_stable hI hm h1) h2) h

end Solve

/-- The calls of the library keep such a property if requesting their outputs and setting the clock does. -/
theorem call_stable {α : Type} [Arith α] {I : Mgr α → Prop} (hI : Stable I) {c : Call α} (hl : c.isLibrary = true) (hO : ∀ id ∈ c.writes, Keeps I (Solve.outputVar id))
    (hc : c.setsClock = true → Keeps I c.run) : Keeps I c.run := by
  cases c with
  | output id => exact (hO id (by simp [Call.writes])).bind fun _ => Keeps.pure _
  | setDt _ => exact hc rfl
  | setTime _ => exact hc rfl
  | fill outs value => exact Solve.eachOutput_stable hI _ _ hO
  | swap outs => exact Solve.swap_stable hI _ hO
  | periodic dims outs => exact Solve.eachOutput_stable hI _ _ hO
  | copyOut dims outs => exact Solve.eachOutput_stable hI _ _ hO
  | noSlip dims outs => exact Solve.eachOutput_stable hI _ _ hO
  | freeSlip dims outs => exact Solve.eachOutput_stable hI _ _ hO
  | conductingWall dims outs => exact Solve.eachOutput_stable hI _ _ hO
  | euler gamma ins outs => exact Solve.euler_stable hI _ _ _ hO
  | maxwell c ins outs => exact Solve.maxwell_stable hI _ _ _ hO
  | lorentz com ins outs => exact Solve.lorentz_stable hI _ _ _ hO
  | current mults ins outs => exact Solve.current_stable hI _ _ _ hO
  | rk1 ins outs tag => exact Solve.rk1_stable hI _ _ _ hO
  | ssprk3 ins outs tag => exact Solve.ssprk3_stable hI _ _ _ _ hO
  | own f r w => cases hl

theorem client_stable {α : Type} [Arith α] {I : Mgr α → Prop} (hI : Stable I) (hD : ∀ t, Keeps I (Call.setDt t).run) (hT : ∀ t, Keeps I (Call.setTime t).run) :
    ∀ (p : Client α), (∀ f ∈ p.owns, Keeps I f.1) → (∀ id ∈ p.writes, Keeps I (Solve.outputVar id)) → Keeps I p.run
  | .call c, ho, h => by
    cases c with
    | own f r w => exact ho (f, r, w) (by simp [Client.owns])
    | setDt t => exact hD t
    | setTime t => exact hT t
    | _ => exact call_stable hI rfl h (fun e => by cases e)
  | .skip, _, _ => Keeps.pure _
  | .seq p q, ho, h =>
    (client_stable hI hD hT p (fun f hf => ho f (List.mem_append.2 (.inl hf))) fun id hid => h id (List.mem_append.2 (.inl hid))).bind fun _ =>
      client_stable hI hD hT q (fun f hf => ho f (List.mem_append.2 (.inr hf))) fun id hid => h id (List.mem_append.2 (.inr hid))
  | .loop n p, ho, h => by
    have body := client_stable hI hD hT p ho h
    induction n with
    | zero => exact Keeps.pure _
    | succ n ih => exact body.bind fun _ => ih ho h
  | .branch b p q, ho, h => by
    refine Keeps.get.bind fun m => ?_
    split
    · exact client_stable hI hD hT p (fun f hf => ho f (List.mem_append.2 (.inl hf))) fun id hid => h id (List.mem_append.2 (.inl hid))
    · exact client_stable hI hD hT q (fun f hf => ho f (List.mem_append.2 (.inr hf))) fun id hid => h id (List.mem_append.2 (.inr hid))

namespace Lifetime
open SM Mgr Solve
variable {α : Type} [Arith α] {I : Mgr α → Prop}

theorem _root_.QK.Five.at_ids (v : Five) (k : Nat) : v.at k ∈ v.ids := by
  unfold Five.at
  split <;> simp [Five.ids]

theorem _root_.QK.Five.ids_mem (v : Five) : v.q ∈ v.ids ∧ v.rhs ∈ v.ids ∧ v.q1 ∈ v.ids ∧ v.q2 ∈ v.ids ∧ v.q3 ∈ v.ids := by simp [Five.ids]

theorem sub {l l' : List VarId} {K : VarId → Prop} (h : ∀ x ∈ l, K x) (hl : ∀ x ∈ l', x ∈ l) : ∀ x ∈ l', K x := fun x hx => h x (hl x hx)

theorem plasma_stable (hI : Stable I) (hT : ∀ t, Keeps I (Call.setTime t).run) (P : Plasma α) (hO : ∀ id ∈ P.e.ids ++ P.i.ids ++ P.f.ids, Keeps I (outputVar id)) (al : Bool) (timeDt time : α) : Keeps I (P.step al timeDt time) := by
  have hs : ∀ k, Keeps I (P.stage al k) := by
    intro k
    unfold Plasma.stage
    refine Keeps.bind ?_ fun _ => Keeps.bind ?_ fun _ => ?_
    · unfold Plasma.bcs
      refine (eachOutput_stable hI _ _ (sub hO (by simp [Five.at_ids, Five.ids_mem]))).bind fun _ => (eachOutput_stable hI _ _ (sub hO (by simp [Five.at_ids, Five.ids_mem]))).bind fun _ => ?_
      unfold Plasma.periodicBc
      split
      · exact eachOutput_stable hI _ _ (sub hO (by simp [Five.at_ids, Five.ids_mem]))
      · exact Keeps.pure _
    · unfold Plasma.rates
      exact (eachOutput_stable hI _ _ (sub hO (by simp [Five.at_ids, Five.ids_mem]))).bind fun _ => (euler_stable hI _ _ _ (sub hO (by simp [Five.at_ids, Five.ids_mem]))).bind fun _ => (lorentz_stable hI _ _ _ (sub hO (by simp [Five.at_ids, Five.ids_mem]))).bind fun _ =>
        (euler_stable hI _ _ _ (sub hO (by simp [Five.at_ids, Five.ids_mem]))).bind fun _ => (lorentz_stable hI _ _ _ (sub hO (by simp [Five.at_ids, Five.ids_mem]))).bind fun _ => (maxwell_stable hI _ _ _ (sub hO (by simp [Five.at_ids, Five.ids_mem]))).bind fun _ => current_stable hI _ _ _ (sub hO (by simp [Five.at_ids, Five.ids_mem]))
    · unfold Plasma.advance
      exact (ssprk3_stable hI _ _ _ _ (sub hO (by simp [Five.at_ids, Five.ids_mem]))).bind fun _ => (ssprk3_stable hI _ _ _ _ (sub hO (by simp [Five.at_ids, Five.ids_mem]))).bind fun _ => ssprk3_stable hI _ _ _ _ (sub hO (by simp [Five.at_ids, Five.ids_mem]))
  unfold Plasma.step
  exact (hs 0).bind fun _ => (hs 1).bind fun _ => (hs 2).bind fun _ => (swap_stable hI _ (sub hO (by simp [Five.at_ids, Five.ids_mem]))).bind fun _ => (hT _).bind fun _ =>
    Keeps.pure _

theorem sod_stable (hI : Stable I) (hT : ∀ t, Keeps I (Call.setTime t).run) (P : Sod α) (hO : ∀ id ∈ P.v.ids, Keeps I (outputVar id)) (al : Bool) (timeDt time : α) : Keeps I (P.step al timeDt time) := by
  have hs : ∀ k, Keeps I (P.stage al k) := by
    intro k
    unfold Sod.stage
    refine (eachOutput_stable hI _ _ (sub hO (by simp [Five.at_ids, Five.ids_mem]))).bind fun _ => Keeps.bind ?_ fun _ => (eachOutput_stable hI _ _ (sub hO (by simp [Five.at_ids, Five.ids_mem]))).bind fun _ =>
      (euler_stable hI _ _ _ (sub hO (by simp [Five.at_ids, Five.ids_mem]))).bind fun _ => ssprk3_stable hI _ _ _ _ (sub hO (by simp [Five.at_ids, Five.ids_mem]))
    unfold Plasma.periodicBc
    split
    · exact eachOutput_stable hI _ _ (sub hO (by simp [Five.at_ids, Five.ids_mem]))
    · exact Keeps.pure _
  unfold Sod.step
  exact (hs 0).bind fun _ => (hs 1).bind fun _ => (hs 2).bind fun _ => (swap_stable hI _ (sub hO (by simp [Five.at_ids, Five.ids_mem]))).bind fun _ => (hT _).bind fun _ =>
    Keeps.pure _

theorem light_stable (hI : Stable I) (hT : ∀ t, Keeps I (Call.setTime t).run) (P : Light α) (hO : ∀ id ∈ P.v.ids, Keeps I (outputVar id)) (al : Bool) (timeDt time : α) : Keeps I (P.step al timeDt time) := by
  have hs : ∀ k, Keeps I (P.stage al k) := by
    intro k
    unfold Light.stage
    exact (eachOutput_stable hI _ _ (sub hO (by simp [Five.at_ids, Five.ids_mem]))).bind fun _ => (eachOutput_stable hI _ _ (sub hO (by simp [Five.at_ids, Five.ids_mem]))).bind fun _ => (maxwell_stable hI _ _ _ (sub hO (by simp [Five.at_ids, Five.ids_mem]))).bind fun _ => ssprk3_stable hI _ _ _ _ (sub hO (by simp [Five.at_ids, Five.ids_mem]))
  unfold Light.step
  exact (hs 0).bind fun _ => (hs 1).bind fun _ => (hs 2).bind fun _ => (swap_stable hI _ (sub hO (by simp [Five.at_ids, Five.ids_mem]))).bind fun _ => (hT _).bind fun _ =>
    Keeps.pure _

theorem advect_stable (hI : Stable I) (hT : ∀ t, Keeps I (Call.setTime t).run) (hO : ∀ id ∈ [AdvectGaussian.var, AdvectGaussian.partialVar, AdvectGaussian.newVar], Keeps I (outputVar id)) (timeDt time : α) : Keeps I (AdvectGaussian.step timeDt time) := by
  unfold AdvectGaussian.step
  exact (eachOutput_stable hI _ _ (sub hO (by simp [Five.at_ids, Five.ids_mem]))).bind fun _ => (advection_stable hI _ _ _ _ (sub hO (by simp [Five.at_ids, Five.ids_mem]))).bind fun _ => (eachOutput_stable hI _ _ (sub hO (by simp [Five.at_ids, Five.ids_mem]))).bind fun _ =>
    (advection_stable hI _ _ _ _ (sub hO (by simp [Five.at_ids, Five.ids_mem]))).bind fun _ => (swap_stable hI _ (sub hO (by simp [Five.at_ids, Five.ids_mem]))).bind fun _ => (hT _).bind fun _ => Keeps.pure _

omit [Arith α] in
theorem onMgr_stable {β : Type} {x : SM (Mgr α) β} (h : Keeps I x) : Keeps (fun s : Run α => I s.mgr) (Run.onMgr x) := by
  intro s hs
  have h1 := h s.mgr hs
  unfold Run.onMgr
  cases hx : x s.mgr with
  | ok b m =>
    refine ⟨?_, ?_⟩
    · intro _ _ h'
      cases h'
      exact h1.1 _ _ hx
    · intro _ _ h'
      cases h'
  | throw w m =>
    refine ⟨?_, ?_⟩
    · intro _ _ h'
      cases h'
    · intro _ _ h'
      cases h'
      exact h1.2 _ _ hx
  | ub w => refine ⟨?_, ?_⟩ <;> intro _ _ h' <;> cases h'
  | diverge => refine ⟨?_, ?_⟩ <;> intro _ _ h' <;> cases h'

theorem export_stable (canOpen : Nat → Bool) (frame : Nat) (ids : List VarId) :
    Keeps (fun s : Run α => I s.mgr) (Run.exportFrame canOpen frame ids) := by
  intro s hs
  unfold Run.exportFrame
  cases Vtk.write s.mgr (canOpen frame) ids [] with
  | ok b f =>
    refine ⟨?_, ?_⟩
    · intro _ _ h'
      cases h'
      exact hs
    · intro _ _ h'
      cases h'
  | throw w f =>
    refine ⟨?_, ?_⟩
    · intro _ _ h'
      cases h'
    · intro _ _ h'
      cases h'
      exact hs
  | ub w => refine ⟨?_, ?_⟩ <;> intro _ _ h' <;> cases h'
  | diverge => refine ⟨?_, ?_⟩ <;> intro _ _ h' <;> cases h'

theorem steps_stable {step : α → SM (Mgr α) α} (h : ∀ t, Keeps I (step t)) : ∀ (n : Nat) (t : α), Keeps I (Run.steps step n t)
  | 0, _ => Keeps.pure _
  | n + 1, t => (h t).bind fun t' => steps_stable h n t'

theorem frames_stable {step : α → SM (Mgr α) α} (h : ∀ t, Keeps I (step t)) (canOpen : Nat → Bool) (ids : List VarId) (numSteps : Nat) :
    ∀ (n i : Nat) (t : α), Keeps (fun s : Run α => I s.mgr) (Run.frames canOpen ids step numSteps n i t)
  | 0, _, _ => Keeps.pure _
  | n + 1, i, t => (onMgr_stable (steps_stable h _ _)).bind fun t' => (export_stable _ _ _).bind fun _ => frames_stable h canOpen ids numSteps n _ t'

theorem main_stable (hD : ∀ t, Keeps I (Call.setDt t).run) (hT : ∀ t, Keeps I (Call.setTime t).run) {ic : SM (Mgr α) Unit} {step : α → α → SM (Mgr α) α} (hi : Keeps I ic) (h : ∀ d t, Keeps I (step d t))
    (canOpen : Nat → Bool) (ids : List VarId) (timeDt : α) (numFrames numSteps : Nat) :
    Keeps (fun s : Run α => I s.mgr) (Run.main ic canOpen ids step timeDt numFrames numSteps) := by
  unfold Run.main
  exact (onMgr_stable hi).bind fun _ => (export_stable _ _ _).bind fun _ => (onMgr_stable (hT _)).bind fun _ =>
    (onMgr_stable (hD _)).bind fun _ => frames_stable (h timeDt) _ _ _ _ _ _

end Lifetime

end QK
