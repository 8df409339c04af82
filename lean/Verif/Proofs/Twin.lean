import Verif.Spec.Twin
import Verif.Proofs.Client
import Verif.Model.Advection
import Verif.Model.Initial
/- Helper lemmas for C127. -/
namespace QK
open SM Solve

section
variable {σ β γ δ ε : Type}

/-- Two outcomes are related: by `Q` if both are returns, by `Z` if both are exceptions. -/
def Ends (Z : σ → σ → Prop) (Q : β → γ → σ → σ → Prop) : SRes σ β → SRes σ γ → Prop
  | .ok b t, .ok c t' => Q b c t t'
  | .throw w t, .throw w' t' => w = w' ∧ Z t t'
  | .ub w, .ub w' => w = w'
  | .diverge, .diverge => True
  | _, _ => False

/-- Two pieces of code keep states related: `R` before, `Q` after if they return, `Z` after if they throw. -/
def Sim (Z R : σ → σ → Prop) (x : SM σ β) (y : SM σ γ) (Q : β → γ → σ → σ → Prop) : Prop := ∀ s s', R s s' → Ends Z Q (x s) (y s')

variable {Z R : σ → σ → Prop} {x : SM σ β} {y : SM σ γ} {Q : β → γ → σ → σ → Prop}

theorem Sim.bind {f : β → SM σ δ} {g : γ → SM σ ε} {P : δ → ε → σ → σ → Prop} (h : Sim Z R x y Q) (k : ∀ b c, Sim Z (Q b c) (f b) (g c) P) : Sim Z R (x >>= f) (y >>= g) P := by
  intro s s' hs
  have h1 := h s s' hs
  show Ends Z P (SM.bind x f s) (SM.bind y g s')
  unfold SM.bind
  revert h1
  cases x s <;> cases y s' <;> intro h1 <;> first | exact k _ _ _ _ h1 | exact h1 | exact (show False from h1).elim

theorem Sim.pure {b : β} {c : γ} (h : ∀ s s', R s s' → Q b c s s') : Sim Z R (Pure.pure b) (Pure.pure c) Q := fun s s' hs => h s s' hs

theorem Sim.raise (w : String) (h : ∀ s s', R s s' → Z s s') : Sim Z R (SM.raise w : SM σ β) (SM.raise w : SM σ γ) Q := fun s s' hs => ⟨rfl, h s s' hs⟩

theorem Sim.mono {R' : σ → σ → Prop} {Q' : β → γ → σ → σ → Prop} (h : Sim Z R x y Q) (a : ∀ s s', R' s s' → R s s') (b : ∀ u v s s', Q u v s s' → Q' u v s s') : Sim Z R' x y Q' := by
  intro s s' hs
  have h1 := h s s' (a s s' hs)
  revert h1
  cases x s <;> cases y s' <;> intro h1 <;> first | exact b _ _ _ _ h1 | exact h1 | exact (show False from h1).elim

end

section
variable {α : Type} [Arith α] {S S' : VarId → Prop} {ρ : VarId → VarId} {ids : List VarId}

/-- Related managers, and positions of variables in them. -/
structure Linked (S S' : VarId → Prop) (ρ : VarId → VarId) (ids : List VarId) (E : List (VarId × Nat × Nat)) (m m' : Mgr α) : Prop where
  twin : m.Twin S S' ρ ids m'
  at_ : ∀ e ∈ E, e.1 ∈ ids ∧ m.addr e.1 = some e.2.1 ∧ m'.addr (ρ e.1) = some e.2.2

variable {E E' : List (VarId × Nat × Nat)} {m m' : Mgr α}

omit [Arith α] in
theorem Linked.less (h : Linked S S' ρ ids E m m') (hE : ∀ e ∈ E', e ∈ E) : Linked S S' ρ ids E' m m' := ⟨h.twin, fun e he => h.at_ e (hE e he)⟩

omit [Arith α] in
theorem Linked.none (h : Linked S S' ρ ids E m m') : Linked S S' ρ ids [] m m' := h.less (by simp)

omit [Arith α] in
theorem twin_none (h : m.Twin S S' ρ ids m') {id : VarId} (hid : id ∈ ids) : m.addr id = .none ↔ m'.addr (ρ id) = .none := by
  rw [← h.good.contents_none, ← h.good'.contents_none, h.contents id hid]

/-- Same number of values, same new variable. -/
theorem fresh_rename (hρ : Renaming S S' ρ ids) (zero : α) (mesh : Range) {id : VarId} (hid : id ∈ ids) : Mgr.fresh zero mesh (ρ id) = Mgr.fresh zero mesh id := by
  unfold Mgr.fresh
  rw [hρ.points id hid, hρ.comps id hid]

theorem sim_input (hρ : Renaming S S' ρ ids) {id : VarId} (hid : id ∈ ids) :
    Sim (Linked S S' ρ ids [] (α := α)) (Linked S S' ρ ids E) (inputVar id) (inputVar (ρ id)) (fun a a' => Linked S S' ρ ids ((id, a, a') :: E)) := by
  intro m m' h
  have n := twin_none h.twin hid
  have e1 := h.twin.good.find_eq (hρ.known id hid)
  have e2 := h.twin.good'.find_eq (hρ.known' id hid)
  unfold inputVar
  rw [get_bind, get_bind, lift_bind e1, lift_bind e2]
  cases ha : m.addr id with
  | none =>
    rw [n.1 ha]
    rfl
  | some a =>
    cases hb : m'.addr (ρ id) with
    | none => rw [n.2 hb] at ha; cases ha
    | some b =>
      refine ⟨h.twin, ?_⟩
      intro e he
      rcases List.mem_cons.1 he with rfl | he
      · exact ⟨hid, ha, hb⟩
      · exact h.at_ e he

theorem sim_output (hρ : Renaming S S' ρ ids) {id : VarId} (hid : id ∈ ids) :
    Sim (Linked S S' ρ ids [] (α := α)) (Linked S S' ρ ids E) (outputVar id) (outputVar (ρ id)) (fun a a' => Linked S S' ρ ids ((id, a, a') :: E)) := by
  intro m m' h
  obtain ⟨a, n, h1, h2, h3, h4, h5, -⟩ := outputVar_spec h.twin.good (hρ.known id hid)
  obtain ⟨a', n', k1, k2, k3, k4, k5, -⟩ := outputVar_spec h.twin.good' (hρ.known' id hid)
  rw [h1, k1]
  refine ⟨⟨h2, k2, by rw [h3.grid, k3.grid, h.twin.grid], by rw [h3.dt, k3.dt, h.twin.dt], by rw [h3.time, k3.time, h.twin.time], ?_⟩, ?_⟩
  · intro x hx
    rw [h5, k5, created_self, created_self, h.twin.contents id hid, h.twin.grid, fresh_rename hρ _ _ hid]
    by_cases e : x = id
    · subst e; simp
    · rw [Function.update_of_ne e, Function.update_of_ne (fun e' => e (hρ.inj x hx id hid e')), h.twin.contents x hx]
  · intro e he
    rcases List.mem_cons.1 he with rfl | he
    · exact ⟨hid, h4, k4⟩
    · obtain ⟨x1, x2, x3⟩ := h.at_ e he
      exact ⟨x1, h3.addr _ _ x2, k3.addr _ _ x3⟩

theorem sim_dt : Sim (Linked S S' ρ ids [] (α := α)) (Linked S S' ρ ids E) dt dt (fun t t' m m' => t = t' ∧ Linked S S' ρ ids E m m') := by
  intro m m' h
  unfold dt
  rw [get_bind, get_bind, h.twin.dt]
  cases m.dt with
  | none => rfl
  | some t => exact ⟨rfl, h⟩

omit [Arith α] in
/-- Positions are equal exactly if the variables are. -/
theorem Linked.beq (hρ : Renaming S S' ρ ids) (h : Linked S S' ρ ids E m m') {x y : VarId} {a a' b b' : Nat} (hx : (x, a, a') ∈ E) (hy : (y, b, b') ∈ E) : (a' == b') = (a == b) := by
  obtain ⟨i1, x1, x2⟩ := h.at_ _ hx
  obtain ⟨i2, y1, y2⟩ := h.at_ _ hy
  rw [Bool.eq_iff_iff, beq_iff_eq, beq_iff_eq]
  constructor
  · rintro rfl
    have := h.twin.good'.addr_inj x2 y2
    have := hρ.inj _ i1 _ i2 this
    simp only at this
    subst this
    simp only at x1 y1
    rw [x1] at y1
    exact Option.some.inj y1
  · rintro rfl
    have := h.twin.good.addr_inj x1 y1
    simp only at this
    subst this
    simp only at x2 y2
    rw [x2] at y2
    exact Option.some.inj y2

/-- The outcome of code that computes a chunk and stores it at `b`. -/
def stored (m : Mgr α) (b : Nat) : Res (Chunk α) → SRes (Mgr α) Unit
  | .ok c => .ok () (m.store b c)
  | .throw w => .throw w m
  | .ub w => .ub w
  | .diverge => .diverge

/-- Since a variable has one chunk, the loops over chunks have one round. -/
theorem forChunks_one (h : m.Good S) {x : VarId} {a : Nat} (hx : m.addr x = some a) {b : Nat} {body : Indexer → Mgr α → Res (Mgr α)} {r : Res (Chunk α)}
    (hb : ∀ idx : Indexer, idx.linear = 0 → body idx m = (r >>= fun c => .ok (m.store b c))) : forChunks a body m = stored m b r := by
  obtain ⟨v, c', h1, _, _, _, _, _, h7, _⟩ := h.stored' hx
  have hne : chunkBox m.grid.rng.dims.length ≠ [] := by
    intro e
    have := congrArg List.length e
    simp only [chunkBox, List.length_replicate, List.length_nil] at this
    exact h.mesh_ne (List.length_eq_zero_iff.1 this)
  unfold forChunks modifyRes
  simp only []
  rw [vget_ok h1, Res.ok_bind, h7]
  unfold IFace.indexer
  rw [Indexer.forEach_make hne ((within_iff _ _).2 ⟨rfl, fun j hj => ⟨le_refl _, le_refl _⟩⟩) (pos_chunkBox _)]
  simp only [Range.setup_dims, cells_chunkBox, List.foldlM_cons, List.foldlM_nil]
  rw [hb _ (by simp [Indexer.onCell, offset_chunkBox])]
  cases r <;> rfl

theorem kernelLoop_one (h : m.Good S) {x y : VarId} {a b : Nat} (hx : m.addr x = some a) (hy : m.addr y = some b) {srcs : List Nat} {cs : List (Chunk α)}
    (hs : List.Forall₂ (fun s c => ∃ id, m.addr id = some s ∧ m.contents id = some c) srcs cs) {c : Chunk α} (hc : m.contents y = some c)
    {f : Mgr α → List (Chunk α) → Chunk α → Res (Chunk α)} : kernelLoop a b srcs f m = stored m b (f m cs c) := by
  unfold kernelLoop
  refine forChunks_one h hx fun idx hi => ?_
  have hm : srcs.mapM (fun s => chunkAt m s idx) = .ok cs := by
    induction hs with
    | nil => rfl
    | cons hd _ ih =>
      obtain ⟨id, h1, h2⟩ := hd
      rw [List.mapM_cons, chunkAt_spec h h1 h2 hi, Res.ok_bind, ih]; rfl
  rw [hm, Res.ok_bind, chunkAt_spec h hy hc hi, Res.ok_bind]
  congr 1
  funext c'
  exact setChunk_spec h hy _ hi

omit [Arith α] in
theorem Linked.content (h : Linked S S' ρ ids E m m') {x : VarId} {a a' : Nat} (hx : (x, a, a') ∈ E) : ∃ c, m.contents x = some c ∧ m'.contents (ρ x) = some c := by
  obtain ⟨i, x1, x2⟩ := h.at_ _ hx
  cases hc : m.contents x with
  | none => rw [h.twin.good.contents_none.1 hc] at x1; cases x1
  | some c => exact ⟨c, rfl, by rw [h.twin.contents x i, hc]⟩

omit [Arith α] in
theorem Linked.store (hρ : Renaming S S' ρ ids) (h : Linked S S' ρ ids E m m') {y : VarId} {b b' : Nat} (hy : (y, b, b') ∈ E) (c : Chunk α) :
    Linked S S' ρ ids E (m.store b c) (m'.store b' c) := by
  obtain ⟨i, y1, y2⟩ := h.at_ _ hy
  refine ⟨⟨h.twin.good.store _ _, h.twin.good'.store _ _, h.twin.grid, h.twin.dt, h.twin.time, ?_⟩, ?_⟩
  · intro x hx
    rw [h.twin.good.store_contents y1, h.twin.good'.store_contents y2]
    by_cases e : x = y
    · subst e; simp
    · rw [Function.update_of_ne e, Function.update_of_ne (fun e' => e (hρ.inj x hx y i e')), h.twin.contents x hx]
  · exact fun e he => h.at_ e he

omit [Arith α] in
theorem Linked.stored (hρ : Renaming S S' ρ ids) (h : Linked S S' ρ ids E m m') {y : VarId} {b b' : Nat} (hy : (y, b, b') ∈ E) (r : Res (Chunk α)) :
    Ends (Linked S S' ρ ids []) (fun _ _ => Linked S S' ρ ids E) (stored m b r) (stored m' b' r) := by
  cases r with
  | ok c => exact h.store hρ hy c
  | throw w => exact ⟨rfl, h.none⟩
  | ub w => rfl
  | diverge => trivial

theorem sim_kernel (hρ : Renaming S S' ρ ids) {x y : VarId} {a a' b b' : Nat} (hx : (x, a, a') ∈ E) (hy : (y, b, b') ∈ E) (l : List (VarId × Nat × Nat)) (hl : ∀ e ∈ l, e ∈ E)
    {srcs srcs' : List Nat} (e1 : srcs = l.map (·.2.1)) (e2 : srcs' = l.map (·.2.2)) {f f' : Mgr α → List (Chunk α) → Chunk α → Res (Chunk α)}
    (hf : ∀ m m', Linked S S' ρ ids E m m' → ∀ cs c, f' m' cs c = f m cs c) :
    Sim (Linked S S' ρ ids [] (α := α)) (Linked S S' ρ ids E) (kernelLoop a b srcs f) (kernelLoop a' b' srcs' f') (fun _ _ => Linked S S' ρ ids E) := by
  intro m m' h
  have hcs : ∀ l : List (VarId × Nat × Nat), (∀ e ∈ l, e ∈ E) → ∃ cs : List (Chunk α), List.Forall₂ (fun s c => ∃ id, m.addr id = some s ∧ m.contents id = some c) (l.map (·.2.1)) cs ∧
      List.Forall₂ (fun s c => ∃ id, m'.addr id = some s ∧ m'.contents id = some c) (l.map (·.2.2)) cs := by
    intro l
    induction l with
    | nil => exact fun _ => ⟨[], .nil, .nil⟩
    | cons e l ih =>
      intro hl
      obtain ⟨cs, k1, k2⟩ := ih fun e he => hl e (List.mem_cons_of_mem _ he)
      obtain ⟨i, z1, z2⟩ := h.at_ e (hl e (by simp))
      obtain ⟨c, c1, c2⟩ := h.content (hl e (by simp) : (e.1, e.2.1, e.2.2) ∈ E)
      exact ⟨c :: cs, .cons ⟨_, z1, c1⟩ k1, .cons ⟨_, z2, c2⟩ k2⟩
  obtain ⟨cs, k1, k2⟩ := hcs l hl
  obtain ⟨c, c1, c2⟩ := h.content hy
  obtain ⟨-, x1, x2⟩ := h.at_ _ hx
  obtain ⟨-, y1, y2⟩ := h.at_ _ hy
  subst e1 e2
  rw [kernelLoop_one h.twin.good x1 y1 k1 c1, kernelLoop_one h.twin.good' x2 y2 k2 c2, hf m m' h]
  exact h.stored hρ hy _

theorem sim_idle {x : VarId} {a a' : Nat} (hx : (x, a, a') ∈ E) :
    Sim (Linked S S' ρ ids [] (α := α)) (Linked S S' ρ ids E) (forChunks a (fun _ m => .ok m)) (forChunks a' (fun _ m => .ok m)) (fun _ _ => Linked S S' ρ ids E) := by
  intro m m' h
  obtain ⟨-, x1, x2⟩ := h.at_ _ hx
  rw [forChunks_spec h.twin.good x1 fun _ _ => rfl, forChunks_spec h.twin.good' x2 fun _ _ => rfl]
  exact h

/-- Afterwards only the relation of the managers matters. -/
abbrev After (S S' : VarId → Prop) (ρ : VarId → VarId) (ids : List VarId) : Unit → Unit → Mgr α → Mgr α → Prop := fun _ _ => Linked S S' ρ ids []

theorem sim_each (hρ : Renaming S S' ρ ids) (f : Chunk α → Res (Chunk α)) : ∀ outs : List VarId, (∀ id ∈ outs, id ∈ ids) →
    Sim (Linked S S' ρ ids [] (α := α)) (Linked S S' ρ ids []) (eachOutput f outs) (eachOutput f (outs.map ρ)) (After S S' ρ ids)
  | [], _ => Sim.pure fun _ _ h => h
  | id :: outs, ho => by
    rw [List.map_cons, eachOutput, eachOutput]
    refine (sim_output hρ (ho id (by simp))).bind fun a a' => ?_
    refine Sim.bind (Q := After S S' ρ ids) ?_ fun _ _ => sim_each hρ f outs fun x hx => ho x (List.mem_cons_of_mem _ hx)
    intro m m' h
    obtain ⟨c, c1, c2⟩ := h.content (x := id) (a := a) (a' := a') (by simp)
    obtain ⟨-, x1, x2⟩ := h.at_ (id, a, a') (by simp)
    rw [forChunks_one (b := a) (r := f c) h.twin.good x1 (fun idx hi => by
        rw [chunkAt_spec h.twin.good x1 c1 hi, Res.ok_bind]
        congr 1
        funext c'
        exact setChunk_spec h.twin.good x1 _ hi),
      forChunks_one (b := a') (r := f c) h.twin.good' x2 (fun idx hi => by
        rw [chunkAt_spec h.twin.good' x2 c2 hi, Res.ok_bind]
        congr 1
        funext c'
        exact setChunk_spec h.twin.good' x2 _ hi)]
    have := h.stored hρ (y := id) (b := a) (b' := a') (by simp) (f c)
    revert this
    cases f c <;> intro this
    · exact Linked.none this
    all_goals exact this

theorem swapVars_one (h : m.Good S) {x y : VarId} {a b : Nat} (hx : m.addr x = some a) (hy : m.addr y = some b) {ca cb : Chunk α} (hca : m.contents x = some ca)
    (hcb : m.contents y = some cb) : swapVars a b m = .ok (if a = b then m else (m.store a cb).store b ca) := by
  obtain ⟨va, ca', ea, _, _, _, _, _, ha7, hca'⟩ := h.stored' hx
  obtain ⟨vb, cb', eb, _, _, _, _, _, hb7, hcb'⟩ := h.stored' hy
  rw [hca] at hca'; cases hca'
  rw [hcb] at hcb'; cases hcb'
  have la := (List.getElem?_eq_some_iff.1 ea).1
  have lb := (List.getElem?_eq_some_iff.1 eb).1
  unfold Solve.swapVars
  rw [vget_ok ea, Res.ok_bind, vget_ok eb, Res.ok_bind]
  have : va.chunks.swap vb.chunks = .ok ({ va.chunks with data := [cb] }, { vb.chunks with data := [ca] }) := by
    unfold IFace.swap; rw [ha7, hb7]; simp
  rw [this, Res.ok_bind]
  by_cases hab : a = b
  · rw [if_pos hab, if_pos hab]; rfl
  rw [if_neg hab, if_neg hab, vset_nat la, Res.ok_bind, vset_nat (by simpa using lb), Res.ok_bind]
  simp only [Mgr.store, Res.pure_eq, Res.ok.injEq, Mgr.mk.injEq, true_and, and_true]
  rw [List.modify_eq_set_getElem?, List.modify_eq_set_getElem?, ea]
  simp [hab, eb]

theorem sim_swapLoop (hρ : Renaming S S' ρ ids) : ∀ outs : List VarId, (∀ id ∈ outs, id ∈ ids) →
    Sim (Linked S S' ρ ids [] (α := α)) (Linked S S' ρ ids []) (swapLoop outs) (swapLoop (outs.map ρ)) (After S S' ρ ids)
  | [], _ => Sim.pure fun _ _ h => h
  | [_], _ => Sim.pure fun _ _ h => h
  | x :: y :: outs, ho => by
    rw [List.map_cons, List.map_cons, swapLoop, swapLoop]
    refine (sim_output hρ (ho x (by simp))).bind fun a a' => (sim_output hρ (ho y (by simp))).bind fun b b' => ?_
    refine Sim.bind (Q := After S S' ρ ids) ?_ fun _ _ => sim_swapLoop hρ outs fun z hz => ho z (by simp [hz])
    intro m m' h
    obtain ⟨ca, c1, c2⟩ := h.content (x := x) (a := a) (a' := a') (by simp)
    obtain ⟨cb, d1, d2⟩ := h.content (x := y) (a := b) (a' := b') (by simp)
    obtain ⟨-, x1, x2⟩ := h.at_ (x, a, a') (by simp)
    obtain ⟨-, y1, y2⟩ := h.at_ (y, b, b') (by simp)
    rw [modifyRes_ok (swapVars_one h.twin.good x1 y1 c1 d1), modifyRes_ok (swapVars_one h.twin.good' x2 y2 c2 d2)]
    have e := h.beq hρ (x := x) (y := y) (a := a) (a' := a') (b := b) (b' := b') (by simp) (by simp)
    rw [Bool.eq_iff_iff, beq_iff_eq, beq_iff_eq] at e
    by_cases hab : a = b
    · rw [if_pos hab, if_pos (e.2 hab)]
      exact h.none
    · rw [if_neg hab, if_neg (fun e' => hab (e.1 e'))]
      exact ((h.store hρ (y := x) (by simp) cb).store hρ (y := y) (by simp) ca).none

theorem sim_set (f : Mgr α → Mgr α) (hf : ∀ m m' : Mgr α, Linked S S' ρ ids [] m m' → Linked S S' ρ ids [] (f m) (f m')) :
    Sim (Linked S S' ρ ids [] (α := α)) (Linked S S' ρ ids []) (modifyRes fun m => .ok (f m)) (modifyRes fun m => .ok (f m)) (After S S' ρ ids) :=
  fun m m' h => hf m m' h

omit [Arith α] in
theorem Linked.dtOf (h : Linked S S' ρ ids E m m') : dtOf m' = dtOf m := by
  unfold Solve.dtOf
  rw [h.twin.dt]

theorem Sim.done {β γ : Type} {R : Mgr α → Mgr α → Prop} {x : SM (Mgr α) β} {y : SM (Mgr α) γ} (h : Sim (Linked S S' ρ ids []) R x y (fun _ _ => Linked S S' ρ ids E)) :
    Sim (Linked S S' ρ ids []) R x y (fun _ _ => Linked S S' ρ ids []) := h.mono (fun _ _ h => h) fun _ _ _ _ h => h.none

theorem sim_current (hρ : Renaming S S' ρ ids) {r : VarId} {b b' : Nat} : ∀ l : List (α × VarId), (∀ p ∈ l, p.2 ∈ ids) →
    Sim (Linked S S' ρ ids [] (α := α)) (Linked S S' ρ ids [(r, b, b')]) (currentLoop b l) (currentLoop b' (l.map fun p => (p.1, ρ p.2))) (After S S' ρ ids)
  | [], _ => Sim.pure fun _ _ h => h.none
  | (mult, id) :: l, ho => by
    rw [List.map_cons, currentLoop, currentLoop]
    refine (sim_input hρ (ho _ (by simp : (mult, id) ∈ _))).bind fun a a' => ?_
    refine Sim.bind (Q := fun _ _ => Linked S S' ρ ids [(r, b, b')]) ?_ fun _ _ => sim_current hρ l fun p hp => ho p (List.mem_cons_of_mem _ hp)
    refine (sim_kernel hρ (x := id) (y := r) (by simp) (by simp) [(id, a, a')] (by simp) rfl rfl ?_).mono (fun _ _ h => h) fun _ _ _ _ h => h.less (by simp)
    intro m m' h cs c
    rw [h.beq hρ (x := id) (y := r) (a := a) (a' := a') (b := b) (b' := b') (by simp) (by simp)]

/-- A call and the renamed call end alike. -/
theorem sim_call (hρ : Renaming S S' ρ ids) {c : Call α} (hl : c.isLibrary = true) (hu : ∀ id ∈ c.uses, id ∈ ids) :
    Sim (Linked S S' ρ ids [] (α := α)) (Linked S S' ρ ids []) c.run (c.rename ρ).run (After S S' ρ ids) := by
  cases c with
  | output id => exact (sim_output hρ (hu id (by simp [Call.uses]))).bind fun a a' => Sim.pure fun _ _ h => h.none
  | setDt t =>
    refine sim_set (fun m => m.setDt t) fun m m' h => ⟨⟨Mgr.setDt_good h.twin.good t, Mgr.setDt_good h.twin.good' t, h.twin.grid, rfl, h.twin.time, fun id hid => h.twin.contents id hid⟩, by simp⟩
  | setTime t =>
    refine sim_set (fun m => m.setTime t) fun m m' h => ⟨⟨Mgr.setTime_good' h.twin.good t, Mgr.setTime_good' h.twin.good' t, h.twin.grid, h.twin.dt, rfl, fun id hid => h.twin.contents id hid⟩, by simp⟩
  | fill outs value => exact sim_each hρ _ outs hu
  | swap outs =>
    show Sim _ _ (Solve.swap outs) (Solve.swap (outs.map ρ)) _
    unfold Solve.swap
    rw [List.length_map]
    split
    · exact Sim.raise _ fun _ _ h => h
    · exact sim_swapLoop hρ outs hu
  | periodic dims outs => exact sim_each hρ _ outs hu
  | copyOut dims outs => exact sim_each hρ _ outs hu
  | noSlip dims outs => exact sim_each hρ _ outs hu
  | freeSlip dims outs => exact sim_each hρ _ outs hu
  | conductingWall dims outs => exact sim_each hρ _ outs hu
  | euler gamma ins outs =>
    show Sim _ _ (Solve.euler gamma ins outs) (Solve.euler gamma (ins.map ρ) (outs.map ρ)) _
    match ins, outs with
    | [q], [r] =>
      refine (sim_input hρ (hu q (by simp [Call.uses]))).bind fun a a' => (sim_output hρ (hu r (by simp [Call.uses]))).bind fun b b' =>
        Sim.done (sim_kernel hρ (x := q) (y := r) (by simp) (by simp) [(q, a, a')] (by simp) rfl rfl ?_)
      intro m m' h cs c
      rw [h.dtOf, h.beq hρ (x := q) (y := r) (a := a) (a' := a') (b := b) (b' := b') (by simp) (by simp), h.twin.grid]
    | [], _ => exact Sim.raise _ fun _ _ h => h
    | _ :: _ :: _, _ => exact Sim.raise _ fun _ _ h => h
    | [_], [] => exact Sim.raise _ fun _ _ h => h
    | [_], _ :: _ :: _ => exact Sim.raise _ fun _ _ h => h
  | maxwell c ins outs =>
    show Sim _ _ (Solve.maxwell c ins outs) (Solve.maxwell c (ins.map ρ) (outs.map ρ)) _
    match ins, outs with
    | [q], [r] =>
      refine (sim_input hρ (hu q (by simp [Call.uses]))).bind fun a a' => (sim_output hρ (hu r (by simp [Call.uses]))).bind fun b b' =>
        Sim.done (sim_kernel hρ (x := q) (y := r) (by simp) (by simp) [(q, a, a')] (by simp) rfl rfl ?_)
      intro m m' h cs c
      rw [h.beq hρ (x := q) (y := r) (a := a) (a' := a') (b := b) (b' := b') (by simp) (by simp), h.twin.grid]
    | [], _ => exact Sim.raise _ fun _ _ h => h
    | _ :: _ :: _, _ => exact Sim.raise _ fun _ _ h => h
    | [_], [] => exact Sim.raise _ fun _ _ h => h
    | [_], _ :: _ :: _ => exact Sim.raise _ fun _ _ h => h
  | lorentz com ins outs =>
    show Sim _ _ (Solve.lorentz com ins outs) (Solve.lorentz com (ins.map ρ) (outs.map ρ)) _
    match ins, outs with
    | [q, f], [r] =>
      refine (sim_input hρ (hu q (by simp [Call.uses]))).bind fun a a' => (sim_input hρ (hu f (by simp [Call.uses]))).bind fun e e' =>
        (sim_output hρ (hu r (by simp [Call.uses]))).bind fun b b' =>
        Sim.done (sim_kernel hρ (x := q) (y := r) (by simp) (by simp) [(q, a, a'), (f, e, e')] (by simp) rfl rfl ?_)
      intro m m' h cs c
      rw [h.beq hρ (x := q) (y := r) (a := a) (a' := a') (b := b) (b' := b') (by simp) (by simp),
        h.beq hρ (x := f) (y := r) (a := e) (a' := e') (b := b) (b' := b') (by simp) (by simp)]
    | [], _ => exact Sim.raise _ fun _ _ h => h
    | [_], _ => exact Sim.raise _ fun _ _ h => h
    | _ :: _ :: _ :: _, _ => exact Sim.raise _ fun _ _ h => h
    | [_, _], [] => exact Sim.raise _ fun _ _ h => h
    | [_, _], _ :: _ :: _ => exact Sim.raise _ fun _ _ h => h
  | current mults ins outs =>
    show Sim _ _ (Solve.current mults ins outs) (Solve.current mults (ins.map ρ) (outs.map ρ)) _
    unfold Solve.current
    rw [List.length_map]
    split
    · exact Sim.raise _ fun _ _ h => h
    match outs with
    | [r] =>
      refine (sim_output hρ (hu r (by simp [Call.uses]))).bind fun b b' => ?_
      have e : mults.zip (ins.map ρ) = (mults.zip ins).map fun p => (p.1, ρ p.2) := by
        rw [List.zip_map_right]; rfl
      rw [e]
      exact sim_current hρ (r := r) _ fun p hp => hu p.2 (by simp [Call.uses, (List.of_mem_zip hp).2])
    | [] => exact Sim.raise _ fun _ _ h => h
    | _ :: _ :: _ => exact Sim.raise _ fun _ _ h => h
  | rk1 ins outs tag =>
    show Sim _ _ (Solve.rk1 ins outs tag) (Solve.rk1 (ins.map ρ) (outs.map ρ) tag) _
    match ins, outs with
    | [q, r], q1 :: os =>
      refine Sim.bind sim_dt fun t t' => ?_
      intro m m' h
      obtain ⟨rfl, h⟩ := h
      revert m m'
      show Sim _ _ _ _ _
      refine (sim_input hρ (hu q (by simp [Call.uses]))).bind fun a a' => (sim_input hρ (hu r (by simp [Call.uses]))).bind fun e e' =>
        (sim_output hρ (hu q1 (by simp [Call.uses]))).bind fun b b' => ?_
      split
      · refine Sim.done (sim_kernel hρ (x := q) (y := q1) (by simp) (by simp) [(q, a, a'), (r, e, e')] (by simp) rfl rfl ?_)
        intro m m' h cs c
        rw [h.beq hρ (x := q) (y := q1) (a := a) (a' := a') (b := b) (b' := b') (by simp) (by simp),
          h.beq hρ (x := r) (y := q1) (a := e) (a' := e') (b := b) (b' := b') (by simp) (by simp)]
      · exact Sim.done (sim_idle (x := q) (by simp))
    | [], _ => exact Sim.raise _ fun _ _ h => h
    | [_], _ => exact Sim.raise _ fun _ _ h => h
    | _ :: _ :: _ :: _, _ => exact Sim.raise _ fun _ _ h => h
    | [_, _], [] => exact Sim.raise _ fun _ _ h => h
  | ssprk3 ins outs tag =>
    show Sim _ _ (Solve.ssprk3 true ins outs tag) (Solve.ssprk3 true (ins.map ρ) (outs.map ρ) tag) _
    match ins, outs with
    | [q, r], q1 :: q2 :: q3 :: os =>
      refine Sim.bind sim_dt fun t t' => ?_
      intro m m' h
      obtain ⟨rfl, h⟩ := h
      revert m m'
      show Sim _ _ _ _ _
      refine (sim_input hρ (hu q (by simp [Call.uses]))).bind fun a a' => (sim_input hρ (hu r (by simp [Call.uses]))).bind fun e e' =>
        (sim_output hρ (hu q1 (by simp [Call.uses]))).bind fun b b' => (sim_output hρ (hu q2 (by simp [Call.uses]))).bind fun d d' =>
        (sim_output hρ (hu q3 (by simp [Call.uses]))).bind fun f f' => ?_
      unfold ssprk3Loop
      split
      · refine Sim.done (sim_kernel hρ (x := q) (y := q1) (by simp) (by simp) [(q, a, a'), (r, e, e')] (by simp) rfl rfl ?_)
        intro m m' h cs c
        rw [h.beq hρ (x := q) (y := q1) (a := a) (a' := a') (b := b) (b' := b') (by simp) (by simp),
          h.beq hρ (x := r) (y := q1) (a := e) (a' := e') (b := b) (b' := b') (by simp) (by simp)]
      split
      · refine Sim.done (sim_kernel hρ (x := q) (y := q2) (by simp) (by simp) [(q, a, a'), (q1, b, b'), (r, e, e')] (by simp) rfl rfl ?_)
        intro m m' h cs c
        rw [h.beq hρ (x := q) (y := q2) (a := a) (a' := a') (b := d) (b' := d') (by simp) (by simp),
          h.beq hρ (x := q1) (y := q2) (a := b) (a' := b') (b := d) (b' := d') (by simp) (by simp),
          h.beq hρ (x := r) (y := q2) (a := e) (a' := e') (b := d) (b' := d') (by simp) (by simp)]
      split
      · refine Sim.done (sim_kernel hρ (x := q) (y := q3) (by simp) (by simp) [(q, a, a'), (q1, b, b'), (q2, d, d'), (r, e, e')] (by simp) rfl rfl ?_)
        intro m m' h cs c
        rw [h.beq hρ (x := q) (y := q3) (a := a) (a' := a') (b := f) (b' := f') (by simp) (by simp),
          h.beq hρ (x := q2) (y := q3) (a := d) (a' := d') (b := f) (b' := f') (by simp) (by simp),
          h.beq hρ (x := r) (y := q3) (a := e) (a' := e') (b := f) (b' := f') (by simp) (by simp)]
      · exact Sim.done (sim_idle (x := q) (by simp))
    | [], _ => exact Sim.raise _ fun _ _ h => h
    | [_], _ => exact Sim.raise _ fun _ _ h => h
    | _ :: _ :: _ :: _, _ => exact Sim.raise _ fun _ _ h => h
    | [_, _], [] => exact Sim.raise _ fun _ _ h => h
    | [_, _], [_] => exact Sim.raise _ fun _ _ h => h
    | [_, _], [_, _] => exact Sim.raise _ fun _ _ h => h
  | own f r w => cases hl

/-- The one round of a loop over chunks. -/
theorem forChunks_round (h : m.Good S) {x : VarId} {a : Nat} (hx : m.addr x = some a) : ∃ idx : Indexer, idx.linear = 0 ∧ ∀ body, forChunks a body m = modifyRes (body idx) m := by
  obtain ⟨v, c', h1, _, _, _, _, _, h7, _⟩ := h.stored' hx
  have hne : chunkBox m.grid.rng.dims.length ≠ [] := by
    intro e
    have := congrArg List.length e
    simp only [chunkBox, List.length_replicate, List.length_nil] at this
    exact h.mesh_ne (List.length_eq_zero_iff.1 this)
  refine ⟨Indexer.onCell (chunkBox m.grid.rng.dims.length) (chunkBox m.grid.rng.dims.length) (List.replicate m.grid.rng.dims.length 0), by simp [Indexer.onCell, offset_chunkBox], fun body => ?_⟩
  · unfold forChunks modifyRes
    simp only []
    rw [vget_ok h1, Res.ok_bind, h7]
    unfold IFace.indexer
    rw [Indexer.forEach_make hne ((within_iff _ _).2 ⟨rfl, fun j hj => ⟨le_refl _, le_refl _⟩⟩) (pos_chunkBox _)]
    simp only [Range.setup_dims, cells_chunkBox, List.foldlM_cons, List.foldlM_nil]
    rw [bind_pure]

theorem sim_initial (hρ : Renaming S S' ρ ids) (f : Rectilinear α → Chunk α → Res (Chunk α)) {outs : List VarId} (ho : ∀ id ∈ outs, id ∈ ids) :
    Sim (Linked S S' ρ ids [] (α := α)) (Linked S S' ρ ids []) (initial f outs) (initial f (outs.map ρ)) (After S S' ρ ids) := by
  intro m m' h
  show Ends _ _ (eachOutput (f m.grid) outs m) (eachOutput (f m'.grid) (outs.map ρ) m')
  rw [h.twin.grid]
  exact sim_each hρ _ outs ho m m' h

theorem sim_gem (hρ : Renaming S S' ρ ids) (s : Init.Gem α) {outs : List VarId} (ho : ∀ id ∈ outs, id ∈ ids) :
    Sim (Linked S S' ρ ids [] (α := α)) (Linked S S' ρ ids []) (gem s outs) (gem s (outs.map ρ)) (After S S' ρ ids) := by
  have take : ∀ (E : List (VarId × Nat × Nat)) (i : Nat), Sim (Linked S S' ρ ids [] (α := α)) (Linked S S' ρ ids E) (lift (vget outs i)) (lift (vget (outs.map ρ) i))
      (fun o o' m m' => o ∈ ids ∧ o' = ρ o ∧ Linked S S' ρ ids E m m') := by
    intro E i m m' h
    by_cases hi : i < outs.length
    · rw [vget_ok (List.getElem?_eq_getElem hi), vget_ok (List.getElem?_eq_getElem (by simpa using hi))]
      exact ⟨ho _ (List.getElem_mem hi), by simp, h⟩
    · have e : ∀ l : List VarId, l.length = outs.length → vget l (i : Int) = .ub "vector index out of range" := by
        intro l hl
        unfold vget
        rw [if_neg (by omega), List.getElem?_eq_none (by simp; omega)]
      rw [e outs rfl, e _ (by simp)]
      rfl
  have next : ∀ (E : List (VarId × Nat × Nat)) (o o' : VarId), Sim (Linked S S' ρ ids [] (α := α)) (fun m m' => o ∈ ids ∧ o' = ρ o ∧ Linked S S' ρ ids E m m') (outputVar o) (outputVar o')
      (fun a a' m m' => Linked S S' ρ ids ((o, a, a') :: E) m m') := by
    rintro E o o' m m' ⟨h1, rfl, h2⟩
    exact sim_output hρ h1 m m' h2
  unfold gem
  refine (take [] 0).bind fun oe oe' => (next _ _ _).bind fun ae ae' => (take _ 1).bind fun oi oi' => (next _ _ _).bind fun ai ai' => (take _ 2).bind fun of of' => (next _ _ _).bind fun af af' => ?_
  intro m m' h
  obtain ⟨-, e1, e2⟩ := h.at_ (oe, ae, ae') (by simp)
  obtain ⟨-, i1, i2⟩ := h.at_ (oi, ai, ai') (by simp)
  obtain ⟨-, f1, f2⟩ := h.at_ (of, af, af') (by simp)
  dsimp only at e1 e2 i1 i2 f1 f2
  obtain ⟨ce, ce1, ce2⟩ := h.content (x := oe) (a := ae) (a' := ae') (by simp)
  obtain ⟨ci, ci1, ci2⟩ := h.content (x := oi) (a := ai) (a' := ai') (by simp)
  obtain ⟨cf, cf1, cf2⟩ := h.content (x := of) (a := af) (a' := af') (by simp)
  obtain ⟨idx, z, hl⟩ := forChunks_round h.twin.good e1
  obtain ⟨idx', z', hl'⟩ := forChunks_round h.twin.good' e2
  unfold gemLoop
  rw [hl, hl']
  unfold modifyRes
  beta_reduce
  rw [h.beq hρ (x := oe) (y := oi) (a := ae) (a' := ae') (b := ai) (b' := ai') (by simp) (by simp), h.beq hρ (x := oe) (y := of) (a := ae) (a' := ae') (b := af) (b' := af') (by simp) (by simp),
    h.beq hρ (x := oi) (y := of) (a := ai) (a' := ai') (b := af) (b' := af') (by simp) (by simp)]
  cases aliased (ae == ai || ae == af || ai == af) with
  | throw w => exact ⟨rfl, h.none⟩
  | ub w => rfl
  | diverge => trivial
  | ok _ =>
  rw [Res.ok_bind, Res.ok_bind, chunkAt_spec h.twin.good e1 ce1 z, chunkAt_spec h.twin.good i1 ci1 z, chunkAt_spec h.twin.good f1 cf1 z,
    chunkAt_spec h.twin.good' e2 ce2 z', chunkAt_spec h.twin.good' i2 ci2 z', chunkAt_spec h.twin.good' f2 cf2 z', h.twin.grid]
  simp only [Res.ok_bind]
  cases Init.gem s m.grid ce ci cf with
  | throw w => exact ⟨rfl, h.none⟩
  | ub w => rfl
  | diverge => trivial
  | ok r =>
  have g1 := h.store hρ (y := oe) (b := ae) (b' := ae') (by simp) r.1
  have g2 := g1.store hρ (y := oi) (b := ai) (b' := ai') (by simp) r.2.1
  have g3 := g2.store hρ (y := of) (b := af) (b' := af') (by simp) r.2.2
  rw [Res.ok_bind, Res.ok_bind, setChunk_spec h.twin.good e1 _ z, setChunk_spec h.twin.good' e2 _ z', Res.ok_bind, Res.ok_bind, setChunk_spec g1.twin.good i1 _ z, setChunk_spec g1.twin.good' i2 _ z',
    Res.ok_bind, Res.ok_bind, setChunk_spec g2.twin.good f1 _ z, setChunk_spec g2.twin.good' f2 _ z']
  exact g3.none

theorem sim_brio (hρ : Renaming S S' ρ ids) (s : Init.BrioWu α) {outs : List VarId} (ho : ∀ id ∈ outs, id ∈ ids) :
    Sim (Linked S S' ρ ids [] (α := α)) (Linked S S' ρ ids []) (brioWu s outs) (brioWu s (outs.map ρ)) (After S S' ρ ids) := by
  match outs with
  | [] => exact Sim.raise _ fun _ _ h => h
  | [_] => exact Sim.raise _ fun _ _ h => h
  | [_, _] => exact Sim.raise _ fun _ _ h => h
  | _ :: _ :: _ :: _ :: _ => exact Sim.raise _ fun _ _ h => h
  | [oe, oi, of] =>
  refine (sim_output hρ (ho oe (by simp))).bind fun ae ae' => (sim_output hρ (ho oi (by simp))).bind fun ai ai' => (sim_output hρ (ho of (by simp))).bind fun af af' => ?_
  intro m m' h
  obtain ⟨-, e1, e2⟩ := h.at_ (oe, ae, ae') (by simp)
  obtain ⟨-, i1, i2⟩ := h.at_ (oi, ai, ai') (by simp)
  obtain ⟨-, f1, f2⟩ := h.at_ (of, af, af') (by simp)
  dsimp only at e1 e2 i1 i2 f1 f2
  obtain ⟨ce, ce1, ce2⟩ := h.content (x := oe) (a := ae) (a' := ae') (by simp)
  obtain ⟨ci, ci1, ci2⟩ := h.content (x := oi) (a := ai) (a' := ai') (by simp)
  obtain ⟨cf, cf1, cf2⟩ := h.content (x := of) (a := af) (a' := af') (by simp)
  obtain ⟨idx, z, hl⟩ := forChunks_round h.twin.good e1
  obtain ⟨idx', z', hl'⟩ := forChunks_round h.twin.good' e2
  have b1 := h.beq hρ (x := oi) (y := oe) (a := ai) (a' := ai') (b := ae) (b' := ae') (by simp) (by simp)
  have b2 := h.beq hρ (x := of) (y := oe) (a := af) (a' := af') (b := ae) (b' := ae') (by simp) (by simp)
  have b3 := h.beq hρ (x := of) (y := oi) (a := af) (a' := af') (b := ai) (b' := ai') (by simp) (by simp)
  rw [Bool.eq_iff_iff, beq_iff_eq, beq_iff_eq] at b1 b2 b3
  unfold brioLoop
  rw [hl, hl']
  unfold modifyRes
  beta_reduce
  rw [chunkAt_spec h.twin.good e1 ce1 z, chunkAt_spec h.twin.good i1 ci1 z, chunkAt_spec h.twin.good f1 cf1 z,
    chunkAt_spec h.twin.good' e2 ce2 z', chunkAt_spec h.twin.good' i2 ci2 z', chunkAt_spec h.twin.good' f2 cf2 z', h.twin.grid]
  simp only [Res.ok_bind, b1, b2, b3]
  generalize hi : (if ai = ae then 0 else 1 : Nat) = i
  generalize hf : (if af = ae then 0 else if af = ai then 1 else 2 : Nat) = f
  cases Init.brioWu s m.grid 0 i f [ce, ci, cf] with
  | throw w => exact ⟨rfl, h.none⟩
  | ub w => rfl
  | diverge => trivial
  | ok cs =>
  rw [Res.ok_bind, Res.ok_bind]
  cases vget cs (0 : Nat) with
  | throw w => exact ⟨rfl, h.none⟩
  | ub w => rfl
  | diverge => trivial
  | ok c0 =>
  have g1 := h.store hρ (y := oe) (b := ae) (b' := ae') (by simp) c0
  rw [Res.ok_bind, Res.ok_bind, setChunk_spec h.twin.good e1 _ z, setChunk_spec h.twin.good' e2 _ z', Res.ok_bind, Res.ok_bind]
  cases vget cs (i : Nat) with
  | throw w => exact ⟨rfl, h.none⟩
  | ub w => rfl
  | diverge => trivial
  | ok c1 =>
  have g2 := g1.store hρ (y := oi) (b := ai) (b' := ai') (by simp) c1
  rw [Res.ok_bind, Res.ok_bind, setChunk_spec g1.twin.good i1 _ z, setChunk_spec g1.twin.good' i2 _ z', Res.ok_bind, Res.ok_bind]
  cases vget cs (f : Nat) with
  | throw w => exact ⟨rfl, h.none⟩
  | ub w => rfl
  | diverge => trivial
  | ok c2 =>
  have g3 := g2.store hρ (y := of) (b := af) (b' := af') (by simp) c2
  rw [Res.ok_bind, Res.ok_bind, setChunk_spec g2.twin.good f1 _ z, setChunk_spec g2.twin.good' f2 _ z']
  exact g3.none

theorem sim_time : Sim (Linked S S' ρ ids [] (α := α)) (Linked S S' ρ ids E) Solve.time Solve.time (fun t t' m m' => t = t' ∧ Linked S S' ρ ids E m m') := by
  intro m m' h
  unfold Solve.time
  rw [get_bind, get_bind, h.twin.time]
  cases m.time with
  | none => rfl
  | some t => exact ⟨rfl, h⟩

theorem sim_advection (hρ : Renaming S S' ρ ids) (velocity : List α) (ins outs : List VarId) (tag : Int) (hi : ∀ id ∈ ins, id ∈ ids) (ho : ∀ id ∈ outs, id ∈ ids) :
    Sim (Linked S S' ρ ids [] (α := α)) (Linked S S' ρ ids []) (advection velocity ins outs tag) (advection velocity (ins.map ρ) (outs.map ρ) tag) (After S S' ρ ids) := by
  match ins, outs with
  | [q], [q1, q2] =>
    refine Sim.bind sim_time fun w w' => ?_
    intro m m' h
    obtain ⟨-, h⟩ := h
    revert m m'
    show Sim _ _ _ _ _
    refine Sim.bind sim_dt fun t t' => ?_
    intro m m' h
    obtain ⟨rfl, h⟩ := h
    revert m m'
    show Sim _ _ _ _ _
    refine (sim_input hρ (hi q (by simp))).bind fun a a' => (sim_output hρ (ho q1 (by simp))).bind fun b b' => (sim_output hρ (ho q2 (by simp))).bind fun d d' => ?_
    unfold advectionLoop
    split
    · refine Sim.done (sim_kernel hρ (x := q) (y := q1) (by simp) (by simp) [(q, a, a')] (by simp) rfl rfl ?_)
      intro m m' h cs c
      rw [h.beq hρ (x := q) (y := q1) (a := a) (a' := a') (b := b) (b' := b') (by simp) (by simp), h.twin.grid]
    split
    · refine Sim.done (sim_kernel hρ (x := q) (y := q2) (by simp) (by simp) [(q, a, a'), (q1, b, b')] (by simp) rfl rfl ?_)
      intro m m' h cs c
      rw [h.beq hρ (x := q1) (y := q2) (a := b) (a' := b') (b := d) (b' := d') (by simp) (by simp), h.twin.grid]
    · exact Sim.pure fun _ _ h => h.none
  | [], _ => exact Sim.raise _ fun _ _ h => h
  | _ :: _ :: _, _ => exact Sim.raise _ fun _ _ h => h
  | [_], [] => exact Sim.raise _ fun _ _ h => h
  | [_], [_] => exact Sim.raise _ fun _ _ h => h
  | [_], _ :: _ :: _ :: _ => exact Sim.raise _ fun _ _ h => h

omit [Arith α] in
theorem linked_iff : Linked S S' ρ ids [] m m' ↔ m.Twin S S' ρ ids m' := ⟨fun h => h.twin, fun h => ⟨h, by simp⟩⟩

omit [Arith α] in
theorem sameEnd_iff {r r' : SRes (Mgr α) Unit} : SameEnd (Mgr.Twin S S' ρ ids) r r' ↔ Ends (Linked S S' ρ ids []) (After S S' ρ ids) r r' := by
  cases r <;> cases r' <;> simp [SameEnd, Ends, After, linked_iff]

/-- A program and the renamed program end alike. -/
theorem sim_client (hρ : Renaming S S' ρ ids) {p p' : Client α} (h : Client.Renamed (Mgr.Twin S S' ρ ids) ρ ids p p') :
    Sim (Linked S S' ρ ids [] (α := α)) (Linked S S' ρ ids []) p.run p'.run (After S S' ρ ids) := by
  induction h with
  | call hl hu => exact sim_call hρ hl hu
  | own same => exact fun m m' h => sameEnd_iff.1 (same m m' h.twin)
  | skip => exact Sim.pure fun _ _ h => h
  | seq _ _ ih1 ih2 => exact ih1.bind fun _ _ => ih2
  | @loop n p p' _ ih =>
    induction n with
    | zero => exact Sim.pure fun _ _ h => h
    | succ n ihn => exact ih.bind fun _ _ => ihn
  | @branch b b' p p' q q' same _ _ ih1 ih2 =>
    intro m m' h
    show Ends _ _ ((if b m then p.run else q.run) m) ((if b' m' then p'.run else q'.run) m')
    rw [same m m' h.twin]
    split
    · exact ih1 m m' h
    · exact ih2 m m' h

end
end QK
