import Verif.Proofs.Stable
import Verif.Spec.Time
/- Helper lemmas for C136: the time stored in the manager influences nothing. -/
namespace QK

section
variable {σ ρ : Type} {f : σ → Res (σ ⊕ ρ)} {φ : σ → σ} {ψ : ρ → ρ}

theorem iterN_map (h : ∀ s, f (φ s) = Sum.map φ ψ <$> f s) : ∀ n s, iterN f n (φ s) = ψ <$> iterN f n s
  | 0, _ => rfl
  | n + 1, s => by
    rw [iterN_succ, iterN_succ, h s]
    cases hf : f s with
    | ok x =>
      cases x with
      | inl s' => exact iterN_map h n s'
      | inr r => rfl
    | throw => rfl
    | ub => rfl
    | diverge => rfl

theorem iter_map (h : ∀ s, f (φ s) = Sum.map φ ψ <$> f s) (s : σ) : iter f (φ s) = ψ <$> iter f s := by
  by_cases hd : iter f s = .diverge
  · rw [hd]
    rw [iter_eq_diverge_iff] at hd
    refine iter_eq_diverge_iff.2 fun n => ?_
    rw [iterN_map h, hd n]
    rfl
  · rw [iter_eq_diverge_iff] at hd
    push Not at hd
    obtain ⟨n, hn⟩ := hd
    rw [iter_eq_of_iterN hn, iter_eq_of_iterN (n := n), iterN_map h]
    rw [iterN_map h]
    cases hx : iterN f n s with
    | diverge => exact absurd hx hn
    | ok => intro h; cases h
    | throw => intro h; cases h
    | ub => intro h; cases h

end

/-- Code whose outcome does not depend on the time stored in the manager and does not change it. -/
def Timeless {α β : Type} (x : SM (Mgr α) β) : Prop := ∀ (t t' : α) (m : Mgr α), x (m.setTime t) = (x (m.setTime t')).mapState (Mgr.setTime t)

namespace Timeless
open SM Mgr Solve
variable {α β γ : Type}

theorem pure (b : β) : Timeless (α := α) (Pure.pure b) := fun _ _ _ => rfl
theorem raise (w : String) : Timeless (α := α) (β := β) (SM.raise w) := fun _ _ _ => rfl
theorem lift (x : Res β) : Timeless (α := α) (SM.lift x) := by
  intro t t' m
  unfold SM.lift
  cases x <;> rfl

theorem bind {x : SM (Mgr α) β} {f : β → SM (Mgr α) γ} (hx : Timeless x) (hf : ∀ b, Timeless (f b)) : Timeless (x >>= f) := by
  intro t t' m
  show SM.bind x f _ = (SM.bind x f _).mapState _
  unfold SM.bind
  have h1 := hx t t' m
  have h2 := hx t' t' m
  rw [h1]
  cases hr : x (m.setTime t') with
  | ok b s =>
    rw [hr] at h2
    have e : s.setTime t' = s := by
      have : (SRes.ok b s : SRes (Mgr α) β) = .ok b (s.setTime t') := h2
      injection this with _ this
      exact this.symm
    show f b (s.setTime t) = (f b s).mapState _
    rw [hf b t t' s, e]
  | throw => rfl
  | ub => rfl
  | diverge => rfl

/-- Code that looks at a part of the manager that is not the time. -/
theorem of_get {f : Mgr α → SM (Mgr α) β} (hf : ∀ m, Timeless (f m)) (hg : ∀ m t, f (m.setTime t) = f m) : Timeless (SM.get >>= f) := by
  intro t t' m
  show f (m.setTime t) (m.setTime t) = (f (m.setTime t') (m.setTime t')).mapState _
  rw [hg, hg]
  exact hf m t t' m

theorem modifyRes {f : Mgr α → Res (Mgr α)} (hf : ∀ m t, f (m.setTime t) = Mgr.setTime t <$> f m) : Timeless (SM.modifyRes f) := by
  intro t t' m
  unfold SM.modifyRes
  rw [hf m t, hf m t']
  cases f m <;> rfl

theorem inputVar (id : VarId) : Timeless (α := α) (Solve.inputVar id) := by
  unfold Solve.inputVar
  refine of_get (fun m => (lift _).bind fun o => ?_) (fun _ _ => rfl)
  cases o with
  | some a => exact pure _
  | none => exact lift _

theorem dt : Timeless (α := α) Solve.dt := by
  unfold Solve.dt
  refine of_get (fun m => ?_) (fun _ _ => rfl)
  cases m.dt with
  | some t => exact pure _
  | none => exact lift _

variable [Arith α]

theorem addVar (id : VarId) : Timeless (α := α) (Solve.addVar id) := by
  intro t t' m
  have key : ∀ t, Solve.addVar id (m.setTime t) = (Solve.addVar id m).mapState (Mgr.setTime t) := by
    intro t
    unfold Solve.addVar
    simp only [Bind.bind, SM.bind, SM.get, SM.lift, show (m.setTime t).vars = m.vars from rfl, show (m.setTime t).heap = m.heap from rfl, show (m.setTime t).grid = m.grid from rfl]
    cases Mgr.find m.vars id with
    | ok o =>
      cases o with
      | some a => rfl
      | none =>
        cases Var.make (Arith.lit 0 : α) id.name id.comps id.basis m.grid.rng 2 with
        | ok v =>
          cases Mgr.insert m.vars id m.heap.length <;> rfl
        | throw => rfl
        | ub => rfl
        | diverge => rfl
    | throw => rfl
    | ub => rfl
    | diverge => rfl
  rw [key t, key t']
  cases Solve.addVar id m <;> rfl

theorem outputVar (id : VarId) : Timeless (α := α) (Solve.outputVar id) := by
  unfold Solve.outputVar
  refine of_get (fun m => (lift _).bind fun o => ?_) (fun _ _ => rfl)
  cases o with
  | some a => exact pure _
  | none => exact (addVar id).bind fun _ => inputVar id

omit [Arith α] in
theorem setChunk_time (m : Mgr α) (t : α) (a : Nat) (idx : Indexer) (c : Chunk α) : setChunk (m.setTime t) a idx c = Mgr.setTime t <$> setChunk m a idx c := by
  unfold setChunk
  rw [show (m.setTime t).heap = m.heap from rfl]
  cases vget m.heap a with
  | ok v =>
    simp only [Res.ok_bind]
    cases v.chunks.put idx c with
    | ok ch =>
      simp only [Res.ok_bind]
      cases vset m.heap a { v with chunks := ch } <;> rfl
    | throw => rfl
    | ub => rfl
    | diverge => rfl
  | throw => rfl
  | ub => rfl
  | diverge => rfl

omit [Arith α] in
theorem forChunks {a : Nat} {body : Indexer → Mgr α → Res (Mgr α)} (hb : ∀ idx m t, body idx (m.setTime t) = Mgr.setTime t <$> body idx m) :
    Timeless (forChunks a body) := by
  unfold Solve.forChunks
  refine modifyRes fun m t => ?_
  rw [show (m.setTime t).heap = m.heap from rfl]
  cases vget m.heap a with
  | ok v =>
    show Indexer.forEach _ body (m.setTime t) = Mgr.setTime t <$> Indexer.forEach _ body m
    unfold Indexer.forEach
    refine iter_map (φ := fun p : Indexer × Mgr α => (p.1, p.2.setTime t)) (ψ := Mgr.setTime t) ?_ (_, m)
    rintro ⟨i, s⟩
    simp only
    split
    · rw [hb]
      cases body i s with
      | ok s' =>
        simp only [Res.ok_bind, show (Mgr.setTime t <$> (Res.ok s' : Res (Mgr α))) = .ok (s'.setTime t) from rfl]
        cases i.next <;> rfl
      | throw => rfl
      | ub => rfl
      | diverge => rfl
    · rfl
  | throw => rfl
  | ub => rfl
  | diverge => rfl

omit [Arith α] in
theorem kernelLoop (a b : Nat) (srcs : List Nat) {f : Mgr α → List (Chunk α) → Chunk α → Res (Chunk α)} (hf : ∀ m t cs c, f (m.setTime t) cs c = f m cs c) :
    Timeless (kernelLoop a b srcs f) := by
  unfold Solve.kernelLoop
  refine forChunks fun idx m t => ?_
  have e : ∀ s, chunkAt (m.setTime t) s idx = chunkAt m s idx := fun _ => rfl
  simp only [e, hf]
  cases srcs.mapM (fun s => chunkAt m s idx) with
  | ok cs =>
    simp only [Res.ok_bind]
    cases chunkAt m b idx with
    | ok c =>
      simp only [Res.ok_bind]
      cases f m cs c with
      | ok c' => exact setChunk_time _ _ _ _ _
      | throw => rfl
      | ub => rfl
      | diverge => rfl
    | throw => rfl
    | ub => rfl
    | diverge => rfl
  | throw => rfl
  | ub => rfl
  | diverge => rfl

theorem eachOutput (f : Chunk α → Res (Chunk α)) : ∀ ids, Timeless (eachOutput f ids)
  | [] => pure _
  | id :: ids => by
    unfold Solve.eachOutput
    refine (outputVar id).bind fun a => (forChunks fun idx m t => ?_).bind fun _ => eachOutput f ids
    rw [show chunkAt (m.setTime t) a idx = chunkAt m a idx from rfl]
    cases chunkAt m a idx with
    | ok c =>
      simp only [Res.ok_bind]
      cases f c with
      | ok c' => exact setChunk_time _ _ _ _ _
      | throw => rfl
      | ub => rfl
      | diverge => rfl
    | throw => rfl
    | ub => rfl
    | diverge => rfl

omit [Arith α] in
theorem swapVars_time (a b : Nat) (m : Mgr α) (t : α) : swapVars a b (m.setTime t) = Mgr.setTime t <$> swapVars a b m := by
  unfold swapVars
  rw [show (m.setTime t).heap = m.heap from rfl]
  cases vget m.heap a with
  | ok va =>
    simp only [Res.ok_bind]
    cases vget m.heap b with
    | ok vb =>
      simp only [Res.ok_bind]
      cases va.chunks.swap vb.chunks with
      | ok p =>
        simp only [Res.ok_bind]
        split
        · rfl
        · cases vset m.heap a { va with chunks := p.1 } with
          | ok h =>
            simp only [Res.ok_bind]
            cases vset h b { vb with chunks := p.2 } <;> rfl
          | throw => rfl
          | ub => rfl
          | diverge => rfl
      | throw => rfl
      | ub => rfl
      | diverge => rfl
    | throw => rfl
    | ub => rfl
    | diverge => rfl
  | throw => rfl
  | ub => rfl
  | diverge => rfl

theorem swapLoop : ∀ ids, Timeless (α := α) (swapLoop ids)
  | [] => pure _
  | [_] => pure _
  | x :: y :: ids => by
    unfold Solve.swapLoop
    exact (outputVar x).bind fun a => (outputVar y).bind fun b => (modifyRes fun m t => swapVars_time a b m t).bind fun _ => swapLoop ids

theorem swap (outs : List VarId) : Timeless (α := α) (swap outs) := by
  unfold Solve.swap
  split
  · exact raise _
  · exact swapLoop _

theorem euler (gamma : α) (ins outs : List VarId) : Timeless (euler gamma ins outs) := by
  unfold Solve.euler
  split
  · exact (inputVar _).bind fun _ => (outputVar _).bind fun _ => kernelLoop _ _ _ fun _ _ _ _ => rfl
  · exact raise _
  · exact raise _

theorem maxwell (c : α) (ins outs : List VarId) : Timeless (maxwell c ins outs) := by
  unfold Solve.maxwell
  split
  · exact (inputVar _).bind fun _ => (outputVar _).bind fun _ => kernelLoop _ _ _ fun _ _ _ _ => rfl
  · exact raise _
  · exact raise _

theorem lorentz (com : α) (ins outs : List VarId) : Timeless (lorentz com ins outs) := by
  unfold Solve.lorentz
  split
  · exact (inputVar _).bind fun _ => (inputVar _).bind fun _ => (outputVar _).bind fun _ => kernelLoop _ _ _ fun _ _ _ _ => rfl
  · exact raise _
  · exact raise _

theorem currentLoop (b : Nat) : ∀ l : List (α × VarId), Timeless (currentLoop b l)
  | [] => pure _
  | (mult, id) :: l => by
    unfold Solve.currentLoop
    exact (inputVar _).bind fun _ => (kernelLoop _ _ _ fun _ _ _ _ => rfl).bind fun _ => currentLoop b l

theorem current (mults : List α) (ins outs : List VarId) : Timeless (current mults ins outs) := by
  unfold Solve.current
  split
  · exact raise _
  · split
    · exact (outputVar _).bind fun _ => currentLoop _ _
    · exact raise _

omit [Arith α] in
theorem idle (a : Nat) : Timeless (α := α) (Solve.forChunks a (fun _ m => .ok m)) := forChunks fun _ _ _ => rfl

theorem rk1 (ins outs : List VarId) (tag : Int) : Timeless (α := α) (rk1 ins outs tag) := by
  unfold Solve.rk1
  split
  · refine dt.bind fun _ => (inputVar _).bind fun _ => (inputVar _).bind fun _ => (outputVar _).bind fun _ => ?_
    split
    · exact kernelLoop _ _ _ fun _ _ _ _ => rfl
    · exact idle _
  · exact raise _
  · exact raise _

theorem ssprk3 (al : Bool) (ins outs : List VarId) (tag : Int) : Timeless (α := α) (ssprk3 al ins outs tag) := by
  unfold Solve.ssprk3
  split
  · refine dt.bind fun _ => (inputVar _).bind fun _ => (inputVar _).bind fun _ => (outputVar _).bind fun _ => (outputVar _).bind fun _ => (outputVar _).bind fun _ => ?_
    unfold ssprk3Loop
    split
    · exact kernelLoop _ _ _ fun _ _ _ _ => rfl
    · split
      · exact kernelLoop _ _ _ fun _ _ _ _ => rfl
      · split
        · exact kernelLoop _ _ _ fun _ _ _ _ => rfl
        · exact idle _
  · exact raise _
  · exact raise _

omit [Arith α] in
/-- The time is read and thrown away. -/
theorem time_bind {x : SM (Mgr α) β} (hx : Timeless x) : Timeless (Solve.time >>= fun _ => x) := fun t t' m => hx t t' m

theorem advection (velocity : List α) (ins outs : List VarId) (tag : Int) : Timeless (advection velocity ins outs tag) := by
  unfold Solve.advection
  split
  · refine time_bind <| dt.bind fun _ => (inputVar _).bind fun _ => (outputVar _).bind fun _ => (outputVar _).bind fun _ => ?_
    unfold advectionLoop
    split
    · exact kernelLoop _ _ _ fun _ _ _ _ => rfl
    · split
      · exact kernelLoop _ _ _ fun _ _ _ _ => rfl
      · exact pure _
  · exact raise _
  · exact raise _

end Timeless
end QK
