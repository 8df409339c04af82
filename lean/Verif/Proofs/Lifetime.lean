import Verif.Spec.Lifetime
import Verif.Model.Examples
import Verif.Model.Console
import Verif.Model.Print
import Verif.Model.Advection
import Verif.Spec.Client
import Verif.Proofs.Container
/-
Helper lemmas for C124: the addresses in the map are those of `new`, whatever code runs and however it ends.
-/
namespace QK

namespace Keeps
open SM
variable {σ β γ : Type} {I : σ → Prop}

theorem pure (b : β) : Keeps I (pure b : SM σ β) := by
  intro s hs
  refine ⟨?_, ?_⟩
  · intro b' s' h
    cases h
    exact hs
  · intro w s' h
    cases h

theorem raise (w : String) : Keeps I (SM.raise w : SM σ β) := by
  intro s hs
  refine ⟨?_, ?_⟩
  · intro b' s' h
    cases h
  · intro w s' h
    cases h
    exact hs

theorem get : Keeps I (SM.get : SM σ σ) := by
  intro s hs
  refine ⟨?_, ?_⟩
  · intro b' s' h
    cases h
    exact hs
  · intro w s' h
    cases h

theorem lift (x : Res β) : Keeps I (SM.lift x : SM σ β) := by
  intro s hs
  unfold SM.lift
  cases x with
  | ok a =>
    refine ⟨?_, ?_⟩
    · intro b' s' h
      cases h
      exact hs
    · intro w s' h
      cases h
  | throw w =>
    refine ⟨?_, ?_⟩
    · intro b' s' h
      cases h
    · intro w s' h
      cases h
      exact hs
  | ub w =>
    refine ⟨?_, ?_⟩ <;> intro _ _ h <;> cases h
  | diverge =>
    refine ⟨?_, ?_⟩ <;> intro _ _ h <;> cases h

theorem bind {x : SM σ β} {f : β → SM σ γ} (hx : Keeps I x) (hf : ∀ b, Keeps I (f b)) : Keeps I (x >>= f) := by
  intro s hs
  have h1 := hx s hs
  show (∀ b s', SM.bind x f s = .ok b s' → I s') ∧ (∀ w s', SM.bind x f s = .throw w s' → I s')
  unfold SM.bind
  cases h : x s with
  | ok a s1 => exact hf a s1 (h1.1 _ _ h)
  | throw w s1 =>
    refine ⟨?_, ?_⟩
    · intro _ _ h'
      cases h'
    · intro _ _ h'
      cases h'
      exact h1.2 _ _ h
  | ub w => refine ⟨?_, ?_⟩ <;> intro _ _ h' <;> cases h'
  | diverge => refine ⟨?_, ?_⟩ <;> intro _ _ h' <;> cases h'

theorem modifyRes {f : σ → Res σ} (hf : ∀ s s', I s → f s = .ok s' → I s') : Keeps I (SM.modifyRes f) := by
  intro s hs
  unfold SM.modifyRes
  cases h : f s with
  | ok s1 =>
    refine ⟨?_, ?_⟩
    · intro _ _ h'
      cases h'
      exact hf _ _ hs h
    · intro _ _ h'
      cases h'
  | throw w =>
    refine ⟨?_, ?_⟩
    · intro _ _ h'
      cases h'
    · intro _ _ h'
      cases h'
      exact hs
  | ub w => refine ⟨?_, ?_⟩ <;> intro _ _ h' <;> cases h'
  | diverge => refine ⟨?_, ?_⟩ <;> intro _ _ h' <;> cases h'

end Keeps

namespace Mgr
variable {α : Type}

theorem Owned.of_eq {m m' : Mgr α} (h : m.Owned) (hv : m'.vars = m.vars) (hl : m'.heap.length = m.heap.length) : m'.Owned := by
  unfold Owned at *
  rw [hv, hl]
  exact h

/-- A key that `find` does not find is really inserted. -/
theorem insert_perm (id : VarId) (v : Nat) : ∀ (l l' : List (VarId × Nat)), find l id = .ok none → insert l id v = .ok l' →
    (l'.map Prod.snd).Perm (v :: l.map Prod.snd)
  | [], l', _, h => by
    cases h
    exact List.Perm.refl _
  | (k, a) :: t, l', hf, h => by
    unfold find at hf
    unfold insert at h
    obtain ⟨b, hb, hf⟩ := Res.bind_eq_ok.1 hf
    rw [hb] at h
    cases b with
    | true =>
      obtain ⟨t', ht, h⟩ := Res.bind_eq_ok.1 (show (insert t id v >>= fun t' => Pure.pure ((k, a) :: t')) = .ok l' from h)
      cases h
      have := insert_perm id v t t' hf ht
      exact (List.Perm.cons a this).trans (List.Perm.swap _ _ _)
    | false =>
      obtain ⟨b', hb', hf⟩ := Res.bind_eq_ok.1 (show (id.lt k >>= fun b => if b = true then Pure.pure none else Pure.pure (some a)) = .ok none from hf)
      replace h : (id.lt k >>= fun b => if b = true then Pure.pure ((id, v) :: (k, a) :: t) else Pure.pure ((k, v) :: t)) = .ok l' := h
      rw [hb'] at h
      cases b' with
      | true =>
        cases h
        exact List.Perm.refl _
      | false => cases hf

theorem destroy_of_perm : ∀ (l : List (VarId × Nat)) (live : List Nat), (l.map Prod.snd).Perm live →
    l.foldlM (fun live p => deleteAt live p.2) live = .ok []
  | [], live, h => by
    have : live = [] := List.nil_perm.1 h
    rw [this]
    rfl
  | p :: l, live, h => by
    have hm : p.2 ∈ live := h.subset (by simp)
    have h' : (l.map Prod.snd).Perm (live.erase p.2) := by
      have := h.erase p.2
      simpa using this
    rw [List.foldlM_cons]
    unfold deleteAt
    rw [if_pos hm]
    exact destroy_of_perm l _ h'

end Mgr

theorem vset_length {β : Type} {l l' : List β} {i : Int} {x : β} (h : vset l i x = .ok l') : l'.length = l.length := by
  unfold vset at h
  split at h
  · cases h
    simp
  · cases h

namespace Solve
open SM Mgr
variable {α : Type}

theorem inputVar_keeps (id : VarId) : Keeps (Owned (α := α)) (inputVar id) := by
  unfold inputVar
  refine Keeps.get.bind fun m => (Keeps.lift _).bind fun o => ?_
  cases o with
  | some a => exact Keeps.pure _
  | none => exact Keeps.lift _

theorem dt_keeps : Keeps (Owned (α := α)) dt := by
  unfold dt
  refine Keeps.get.bind fun m => ?_
  cases m.dt with
  | some t => exact Keeps.pure _
  | none => exact Keeps.lift _

theorem time_keeps : Keeps (Owned (α := α)) time := by
  unfold time
  refine Keeps.get.bind fun m => ?_
  cases m.time with
  | some t => exact Keeps.pure _
  | none => exact Keeps.lift _

variable [Arith α]

theorem addVar_keeps (id : VarId) : Keeps (Owned (α := α)) (addVar id) := by
  intro m hm
  unfold addVar
  show (∀ b s', SM.bind SM.get _ m = .ok b s' → _) ∧ (∀ w s', SM.bind SM.get _ m = .throw w s' → _)
  show (∀ b s', SM.bind (SM.lift (find m.vars id)) _ m = .ok b s' → _) ∧ (∀ w s', SM.bind (SM.lift (find m.vars id)) _ m = .throw w s' → _)
  cases hf : find m.vars id with
  | ub w => refine ⟨?_, ?_⟩ <;> intro _ _ h' <;> cases h'
  | diverge => refine ⟨?_, ?_⟩ <;> intro _ _ h' <;> cases h'
  | throw w =>
    refine ⟨?_, ?_⟩
    · intro _ _ h'
      cases h'
    · intro _ _ h'
      cases h'
      exact hm
  | ok o =>
    cases o with
    | some a => exact Keeps.raise (β := Unit) _ m hm
    | none =>
      show (∀ b s', SM.bind (SM.lift _) (fun v => SM.bind (SM.lift (Mgr.insert m.vars id m.heap.length)) (fun vars => SM.set { m with vars := vars, heap := m.heap ++ [v] })) m = .ok b s' → _) ∧
        (∀ w s', SM.bind (SM.lift _) (fun v => SM.bind (SM.lift (Mgr.insert m.vars id m.heap.length)) (fun vars => SM.set { m with vars := vars, heap := m.heap ++ [v] })) m = .throw w s' → _)
      cases hv : (Var.make (Arith.lit 0) id.name id.comps id.basis m.grid.rng 2 : Res (Var α)) with
      | ub w => refine ⟨?_, ?_⟩ <;> intro _ _ h' <;> cases h'
      | diverge => refine ⟨?_, ?_⟩ <;> intro _ _ h' <;> cases h'
      | throw w =>
        refine ⟨?_, ?_⟩
        · intro _ _ h'
          cases h'
        · intro _ _ h'
          cases h'
          exact hm
      | ok v =>
        show (∀ b s', SM.bind (SM.lift (Mgr.insert m.vars id m.heap.length)) (fun vars => SM.set { m with vars := vars, heap := m.heap ++ [v] }) m = .ok b s' → _) ∧
          (∀ w s', SM.bind (SM.lift (Mgr.insert m.vars id m.heap.length)) (fun vars => SM.set { m with vars := vars, heap := m.heap ++ [v] }) m = .throw w s' → _)
        cases hi : Mgr.insert m.vars id m.heap.length with
        | ub w => refine ⟨?_, ?_⟩ <;> intro _ _ h' <;> cases h'
        | diverge => refine ⟨?_, ?_⟩ <;> intro _ _ h' <;> cases h'
        | throw w =>
          refine ⟨?_, ?_⟩
          · intro _ _ h'
            cases h'
          · intro _ _ h'
            cases h'
            exact hm
        | ok vars =>
          refine ⟨?_, ?_⟩
          · intro _ _ h'
            cases h'
            have hp := insert_perm id m.heap.length _ _ hf hi
            have h2 : (m.heap.length :: List.map Prod.snd m.vars).Perm (List.range (m.heap.length + 1)) := by
              rw [List.range_succ]
              exact (List.Perm.cons _ hm).trans (List.perm_append_singleton _ _).symm
            show (vars.map Prod.snd).Perm (List.range (m.heap ++ [v]).length)
            rw [List.length_append]
            exact hp.trans h2
          · intro _ _ h'
            cases h'

theorem outputVar_keeps (id : VarId) : Keeps (Owned (α := α)) (outputVar id) := by
  unfold outputVar
  refine Keeps.get.bind fun m => (Keeps.lift _).bind fun o => ?_
  cases o with
  | some a => exact Keeps.pure _
  | none => exact (addVar_keeps id).bind fun _ => inputVar_keeps id

omit [Arith α] in
theorem setChunk_keeps {m m' : Mgr α} {a : Nat} {idx : Indexer} {c : Chunk α} (hm : m.Owned) (h : setChunk m a idx c = .ok m') :
    m'.Owned := by
  unfold setChunk at h
  obtain ⟨v, _, h⟩ := Res.bind_eq_ok.1 h
  obtain ⟨ch, _, h⟩ := Res.bind_eq_ok.1 h
  obtain ⟨hh, h3, h⟩ := Res.bind_eq_ok.1 h
  cases h
  exact hm.of_eq rfl (vset_length h3)

omit [Arith α] in
theorem forChunks_keeps {a : Nat} {body : Indexer → Mgr α → Res (Mgr α)}
    (hb : ∀ idx m m', m.Owned → body idx m = .ok m' → m'.Owned) : Keeps Owned (forChunks a body) := by
  unfold forChunks
  refine Keeps.modifyRes ?_
  intro m m' hm h
  obtain ⟨v, _, h⟩ := Res.bind_eq_ok.1 h
  unfold Indexer.forEach at h
  refine iter_ok_inv (fun p : Indexer × Mgr α => p.2.Owned) Owned ?_ ?_ hm h
  · rintro ⟨i, s⟩ ⟨i', s'⟩ hs hf
    simp only at hf
    split at hf
    · obtain ⟨s2, h2, hf⟩ := Res.bind_eq_ok.1 hf
      obtain ⟨i2, h3, hf⟩ := Res.bind_eq_ok.1 hf
      cases hf
      exact hb _ _ _ hs h2
    · cases hf
  · rintro ⟨i, s⟩ r hs hf
    simp only at hf
    split at hf
    · obtain ⟨s2, h2, hf⟩ := Res.bind_eq_ok.1 hf
      obtain ⟨i2, h3, hf⟩ := Res.bind_eq_ok.1 hf
      cases hf
    · cases hf
      exact hs

omit [Arith α] in
theorem kernelLoop_keeps (a b : Nat) (srcs : List Nat) (f : Mgr α → List (Chunk α) → Chunk α → Res (Chunk α)) :
    Keeps Owned (kernelLoop a b srcs f) := by
  unfold kernelLoop
  refine forChunks_keeps ?_
  intro idx m m' hm h
  obtain ⟨_, _, h⟩ := Res.bind_eq_ok.1 h
  obtain ⟨_, _, h⟩ := Res.bind_eq_ok.1 h
  obtain ⟨_, _, h⟩ := Res.bind_eq_ok.1 h
  exact setChunk_keeps hm h

omit [Arith α] in
theorem idle_keeps (a : Nat) : Keeps (Owned (α := α)) (forChunks a (fun _ m => .ok m)) := by
  refine forChunks_keeps ?_
  intro idx m m' hm h
  cases h
  exact hm

theorem eachOutput_keeps (f : Chunk α → Res (Chunk α)) : ∀ ids, Keeps Owned (eachOutput f ids)
  | [] => Keeps.pure _
  | id :: ids => by
    unfold eachOutput
    refine (outputVar_keeps id).bind fun a => (forChunks_keeps ?_).bind fun _ => eachOutput_keeps f ids
    intro idx m m' hm h
    obtain ⟨_, _, h⟩ := Res.bind_eq_ok.1 h
    obtain ⟨_, _, h⟩ := Res.bind_eq_ok.1 h
    exact setChunk_keeps hm h

omit [Arith α] in
theorem swapVars_keeps {a b : Nat} {m m' : Mgr α} (hm : m.Owned) (h : swapVars a b m = .ok m') : m'.Owned := by
  unfold swapVars at h
  obtain ⟨_, _, h⟩ := Res.bind_eq_ok.1 h
  obtain ⟨_, _, h⟩ := Res.bind_eq_ok.1 h
  obtain ⟨_, _, h⟩ := Res.bind_eq_ok.1 h
  split at h
  · cases h
    exact hm
  · obtain ⟨_, h1, h⟩ := Res.bind_eq_ok.1 h
    obtain ⟨_, h2, h⟩ := Res.bind_eq_ok.1 h
    cases h
    exact hm.of_eq rfl ((vset_length h2).trans (vset_length h1))

theorem swapLoop_keeps : ∀ ids, Keeps (Owned (α := α)) (swapLoop ids)
  | [] => Keeps.pure _
  | [_] => Keeps.pure _
  | x :: y :: ids => by
    unfold swapLoop
    exact (outputVar_keeps x).bind fun a => (outputVar_keeps y).bind fun b =>
      (Keeps.modifyRes fun m m' hm h => swapVars_keeps hm h).bind fun _ => swapLoop_keeps ids

theorem swap_keeps (outs : List VarId) : Keeps (Owned (α := α)) (swap outs) := by
  unfold swap
  split
  · exact Keeps.raise _
  · exact swapLoop_keeps _

theorem setTime_keeps (t : α) : Keeps (Owned (α := α)) (modifyRes (fun m => .ok (m.setTime t))) := by
  refine Keeps.modifyRes fun m m' hm h => ?_
  cases h
  exact hm.of_eq rfl rfl

theorem setDt_keeps (t : α) : Keeps (Owned (α := α)) (modifyRes (fun m => .ok (m.setDt t))) := by
  refine Keeps.modifyRes fun m m' hm h => ?_
  cases h
  exact hm.of_eq rfl rfl

theorem euler_keeps (gamma : α) (ins outs : List VarId) : Keeps Owned (euler gamma ins outs) := by
  unfold euler
  split
  · exact (inputVar_keeps _).bind fun _ => (outputVar_keeps _).bind fun _ => kernelLoop_keeps _ _ _ _
  · exact Keeps.raise _
  · exact Keeps.raise _

theorem maxwell_keeps (c : α) (ins outs : List VarId) : Keeps Owned (maxwell c ins outs) := by
  unfold maxwell
  split
  · exact (inputVar_keeps _).bind fun _ => (outputVar_keeps _).bind fun _ => kernelLoop_keeps _ _ _ _
  · exact Keeps.raise _
  · exact Keeps.raise _

theorem lorentz_keeps (com : α) (ins outs : List VarId) : Keeps Owned (lorentz com ins outs) := by
  unfold lorentz
  split
  · exact (inputVar_keeps _).bind fun _ => (inputVar_keeps _).bind fun _ => (outputVar_keeps _).bind fun _ => kernelLoop_keeps _ _ _ _
  · exact Keeps.raise _
  · exact Keeps.raise _

theorem currentLoop_keeps (b : Nat) : ∀ l : List (α × VarId), Keeps Owned (currentLoop b l)
  | [] => Keeps.pure _
  | (mult, id) :: l => by
    unfold currentLoop
    exact (inputVar_keeps _).bind fun _ => (kernelLoop_keeps _ _ _ _).bind fun _ => currentLoop_keeps b l

theorem current_keeps (mults : List α) (ins outs : List VarId) : Keeps Owned (current mults ins outs) := by
  unfold current
  split
  · exact Keeps.raise _
  · split
    · exact (outputVar_keeps _).bind fun _ => currentLoop_keeps _ _
    · exact Keeps.raise _

theorem rk1_keeps (ins outs : List VarId) (tag : Int) : Keeps (Owned (α := α)) (rk1 ins outs tag) := by
  unfold rk1
  split
  · refine dt_keeps.bind fun _ => (inputVar_keeps _).bind fun _ => (inputVar_keeps _).bind fun _ => (outputVar_keeps _).bind fun _ => ?_
    split
    · exact kernelLoop_keeps _ _ _ _
    · exact idle_keeps _
  · exact Keeps.raise _
  · exact Keeps.raise _

theorem ssprk3_keeps (al : Bool) (ins outs : List VarId) (tag : Int) : Keeps (Owned (α := α)) (ssprk3 al ins outs tag) := by
  unfold ssprk3
  split
  · refine dt_keeps.bind fun _ => (inputVar_keeps _).bind fun _ => (inputVar_keeps _).bind fun _ => (outputVar_keeps _).bind fun _ =>
      (outputVar_keeps _).bind fun _ => (outputVar_keeps _).bind fun _ => ?_
    unfold ssprk3Loop
    split
    · exact kernelLoop_keeps _ _ _ _
    · split
      · exact kernelLoop_keeps _ _ _ _
      · split
        · exact kernelLoop_keeps _ _ _ _
        · exact idle_keeps _
  · exact Keeps.raise _
  · exact Keeps.raise _

theorem advection_keeps (velocity : List α) (ins outs : List VarId) (tag : Int) : Keeps Owned (advection velocity ins outs tag) := by
  unfold advection
  split
  · refine time_keeps.bind fun _ => dt_keeps.bind fun _ => (inputVar_keeps _).bind fun _ => (outputVar_keeps _).bind fun _ =>
      (outputVar_keeps _).bind fun _ => ?_
    unfold advectionLoop
    split
    · exact kernelLoop_keeps _ _ _ _
    · split
      · exact kernelLoop_keeps _ _ _ _
      · exact Keeps.pure _
  · exact Keeps.raise _
  · exact Keeps.raise _

theorem initial_keeps (f : Rectilinear α → Chunk α → Res (Chunk α)) (outs : List VarId) : Keeps Owned (initial f outs) := by
  unfold initial
  exact Keeps.get.bind fun m => eachOutput_keeps _ _

theorem brioWu_keeps (s : Init.BrioWu α) (outs : List VarId) : Keeps Owned (brioWu s outs) := by
  unfold brioWu
  split
  · refine (outputVar_keeps _).bind fun _ => (outputVar_keeps _).bind fun _ => (outputVar_keeps _).bind fun _ => ?_
    unfold brioLoop
    refine forChunks_keeps ?_
    intro idx m m' hm h
    obtain ⟨_, _, h⟩ := Res.bind_eq_ok.1 h
    obtain ⟨_, _, h⟩ := Res.bind_eq_ok.1 h
    obtain ⟨_, _, h⟩ := Res.bind_eq_ok.1 h
    obtain ⟨_, _, h⟩ := Res.bind_eq_ok.1 h
    obtain ⟨_, _, h⟩ := Res.bind_eq_ok.1 h
    obtain ⟨m1, h1, h⟩ := Res.bind_eq_ok.1 h
    obtain ⟨_, _, h⟩ := Res.bind_eq_ok.1 h
    obtain ⟨m2, h2, h⟩ := Res.bind_eq_ok.1 h
    obtain ⟨_, _, h⟩ := Res.bind_eq_ok.1 h
    exact setChunk_keeps (setChunk_keeps (setChunk_keeps hm h1) h2) h
  · exact Keeps.raise _

theorem gem_keeps (s : Init.Gem α) (outs : List VarId) : Keeps Owned (gem s outs) := by
  unfold gem
  refine (Keeps.lift _).bind fun _ => (outputVar_keeps _).bind fun _ => (Keeps.lift _).bind fun _ => (outputVar_keeps _).bind fun _ =>
    (Keeps.lift _).bind fun _ => (outputVar_keeps _).bind fun _ => ?_
  unfold gemLoop
  refine forChunks_keeps ?_
  intro idx m m' hm h
  obtain ⟨_, _, h⟩ := Res.bind_eq_ok.1 h
  obtain ⟨_, _, h⟩ := Res.bind_eq_ok.1 h
  obtain ⟨_, _, h⟩ := Res.bind_eq_ok.1 h
  obtain ⟨_, _, h⟩ := Res.bind_eq_ok.1 h
  obtain ⟨_, _, h⟩ := Res.bind_eq_ok.1 h
  obtain ⟨m1, h1, h⟩ := Res.bind_eq_ok.1 h
  obtain ⟨m2, h2, h⟩ := Res.bind_eq_ok.1 h
  exact setChunk_keeps (setChunk_keeps (setChunk_keeps hm h1) h2) h

end Solve

namespace Lifetime
open SM Mgr Solve
variable {α : Type} [Arith α]

theorem plasma_keeps (P : Plasma α) (al : Bool) (timeDt time : α) : Keeps Owned (P.step al timeDt time) := by
  have hs : ∀ k, Keeps Owned (P.stage al k) := by
    intro k
    unfold Plasma.stage
    refine Keeps.bind ?_ fun _ => Keeps.bind ?_ fun _ => ?_
    · unfold Plasma.bcs
      refine (eachOutput_keeps _ _).bind fun _ => (eachOutput_keeps _ _).bind fun _ => ?_
      unfold Plasma.periodicBc
      split
      · exact eachOutput_keeps _ _
      · exact Keeps.pure _
    · unfold Plasma.rates
      exact (eachOutput_keeps _ _).bind fun _ => (euler_keeps _ _ _).bind fun _ => (lorentz_keeps _ _ _).bind fun _ =>
        (euler_keeps _ _ _).bind fun _ => (lorentz_keeps _ _ _).bind fun _ => (maxwell_keeps _ _ _).bind fun _ => current_keeps _ _ _
    · unfold Plasma.advance
      exact (ssprk3_keeps _ _ _ _).bind fun _ => (ssprk3_keeps _ _ _ _).bind fun _ => ssprk3_keeps _ _ _ _
  unfold Plasma.step
  exact (hs 0).bind fun _ => (hs 1).bind fun _ => (hs 2).bind fun _ => (swap_keeps _).bind fun _ => (setTime_keeps _).bind fun _ =>
    Keeps.pure _

theorem sod_keeps (P : Sod α) (al : Bool) (timeDt time : α) : Keeps Owned (P.step al timeDt time) := by
  have hs : ∀ k, Keeps Owned (P.stage al k) := by
    intro k
    unfold Sod.stage
    refine (eachOutput_keeps _ _).bind fun _ => Keeps.bind ?_ fun _ => (eachOutput_keeps _ _).bind fun _ =>
      (euler_keeps _ _ _).bind fun _ => ssprk3_keeps _ _ _ _
    unfold Plasma.periodicBc
    split
    · exact eachOutput_keeps _ _
    · exact Keeps.pure _
  unfold Sod.step
  exact (hs 0).bind fun _ => (hs 1).bind fun _ => (hs 2).bind fun _ => (swap_keeps _).bind fun _ => (setTime_keeps _).bind fun _ =>
    Keeps.pure _

theorem light_keeps (P : Light α) (al : Bool) (timeDt time : α) : Keeps Owned (P.step al timeDt time) := by
  have hs : ∀ k, Keeps Owned (P.stage al k) := by
    intro k
    unfold Light.stage
    exact (eachOutput_keeps _ _).bind fun _ => (eachOutput_keeps _ _).bind fun _ => (maxwell_keeps _ _ _).bind fun _ => ssprk3_keeps _ _ _ _
  unfold Light.step
  exact (hs 0).bind fun _ => (hs 1).bind fun _ => (hs 2).bind fun _ => (swap_keeps _).bind fun _ => (setTime_keeps _).bind fun _ =>
    Keeps.pure _

theorem advect_keeps (timeDt time : α) : Keeps Owned (AdvectGaussian.step timeDt time) := by
  unfold AdvectGaussian.step
  exact (eachOutput_keeps _ _).bind fun _ => (advection_keeps _ _ _ _).bind fun _ => (eachOutput_keeps _ _).bind fun _ =>
    (advection_keeps _ _ _ _).bind fun _ => (swap_keeps _).bind fun _ => (setTime_keeps _).bind fun _ => Keeps.pure _

omit [Arith α] in
theorem onMgr_keeps {β : Type} {x : SM (Mgr α) β} (h : Keeps Owned x) : Keeps (fun s : Run α => s.mgr.Owned) (Run.onMgr x) := by
  intro s hs
  have h1 := h s.mgr hs
  unfold Run.onMgr
  cases hx : x s.mgr with
  | ok b m =>
    refine ⟨?_, ?_⟩
    · intro _ _ h'
      cases h'
      exact h1.1 _ _ hx
    · intro _ _ h'
      cases h'
  | throw w m =>
    refine ⟨?_, ?_⟩
    · intro _ _ h'
      cases h'
    · intro _ _ h'
      cases h'
      exact h1.2 _ _ hx
  | ub w => refine ⟨?_, ?_⟩ <;> intro _ _ h' <;> cases h'
  | diverge => refine ⟨?_, ?_⟩ <;> intro _ _ h' <;> cases h'

theorem export_keeps (canOpen : Nat → Bool) (frame : Nat) (ids : List VarId) :
    Keeps (fun s : Run α => s.mgr.Owned) (Run.exportFrame canOpen frame ids) := by
  intro s hs
  unfold Run.exportFrame
  cases Vtk.write s.mgr (canOpen frame) ids [] with
  | ok b f =>
    refine ⟨?_, ?_⟩
    · intro _ _ h'
      cases h'
      exact hs
    · intro _ _ h'
      cases h'
  | throw w f =>
    refine ⟨?_, ?_⟩
    · intro _ _ h'
      cases h'
    · intro _ _ h'
      cases h'
      exact hs
  | ub w => refine ⟨?_, ?_⟩ <;> intro _ _ h' <;> cases h'
  | diverge => refine ⟨?_, ?_⟩ <;> intro _ _ h' <;> cases h'

theorem steps_keeps {step : α → SM (Mgr α) α} (h : ∀ t, Keeps Owned (step t)) : ∀ (n : Nat) (t : α), Keeps Owned (Run.steps step n t)
  | 0, _ => Keeps.pure _
  | n + 1, t => (h t).bind fun t' => steps_keeps h n t'

theorem frames_keeps {step : α → SM (Mgr α) α} (h : ∀ t, Keeps Owned (step t)) (canOpen : Nat → Bool) (ids : List VarId) (numSteps : Nat) :
    ∀ (n i : Nat) (t : α), Keeps (fun s : Run α => s.mgr.Owned) (Run.frames canOpen ids step numSteps n i t)
  | 0, _, _ => Keeps.pure _
  | n + 1, i, t => (onMgr_keeps (steps_keeps h _ _)).bind fun t' => (export_keeps _ _ _).bind fun _ => frames_keeps h canOpen ids numSteps n _ t'

theorem main_keeps {ic : SM (Mgr α) Unit} {step : α → α → SM (Mgr α) α} (hi : Keeps Owned ic) (h : ∀ d t, Keeps Owned (step d t))
    (canOpen : Nat → Bool) (ids : List VarId) (timeDt : α) (numFrames numSteps : Nat) :
    Keeps (fun s : Run α => s.mgr.Owned) (Run.main ic canOpen ids step timeDt numFrames numSteps) := by
  unfold Run.main
  exact (onMgr_keeps hi).bind fun _ => (export_keeps _ _ _).bind fun _ => (onMgr_keeps (setTime_keeps _)).bind fun _ =>
    (onMgr_keeps (setDt_keeps _)).bind fun _ => frames_keeps (h timeDt) _ _ _ _ _ _

theorem call_keeps (c : Call α) (h : ∀ f r w, c = .own f r w → Keeps Owned f) : Keeps Owned c.run := by
  cases c with
  | output id => exact (outputVar_keeps id).bind fun _ => Keeps.pure _
  | setDt t => exact setDt_keeps t
  | setTime t => exact setTime_keeps t
  | fill outs v => exact eachOutput_keeps _ _
  | swap outs => exact swap_keeps _
  | periodic d o => exact eachOutput_keeps _ _
  | copyOut d o => exact eachOutput_keeps _ _
  | noSlip d o => exact eachOutput_keeps _ _
  | freeSlip d o => exact eachOutput_keeps _ _
  | conductingWall d o => exact eachOutput_keeps _ _
  | euler g i o => exact euler_keeps _ _ _
  | maxwell g i o => exact maxwell_keeps _ _ _
  | lorentz g i o => exact lorentz_keeps _ _ _
  | current g i o => exact current_keeps _ _ _
  | rk1 i o t => exact rk1_keeps _ _ _
  | ssprk3 i o t => exact ssprk3_keeps _ _ _ _
  | own f r w => exact h f r w rfl

theorem client_keeps : ∀ (p : Client α), (∀ f ∈ p.owns, Keeps Owned f.1) → Keeps Owned p.run
  | .call c, h => by
    refine call_keeps c ?_
    rintro f r w rfl
    exact h (f, r, w) (by simp [Client.owns])
  | .skip, _ => Keeps.pure _
  | .seq p q, h => (client_keeps p fun f hf => h f (by simp [Client.owns, hf])).bind fun _ =>
      client_keeps q fun f hf => h f (by simp [Client.owns, hf])
  | .loop n p, h => by
    have hp := client_keeps p fun f hf => h f hf
    show Keeps Owned (n.rec (return ()) (fun _ more => do p.run; more) : SM (Mgr α) Unit)
    induction n with
    | zero => exact Keeps.pure _
    | succ n ih => exact hp.bind fun _ => ih h
  | .branch b p q, h => by
    refine Keeps.get.bind fun m => ?_
    split
    · exact client_keeps p fun f hf => h f (by simp [Client.owns, hf])
    · exact client_keeps q fun f hf => h f (by simp [Client.owns, hf])

end Lifetime
end QK
