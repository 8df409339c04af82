import Verif.Proofs.Manager
import Verif.Model.ArithReal
/-
Properties of variables, variable ids and the variable manager: C19, C33 – C36, C38, C39.
-/
namespace QK.Props
open Spec
variable {α : Type}

/-! ## C19 -/

/-- **C19** A variable on a mesh of positive lengths has exactly one chunk. It has the layout of C18 for the
mesh and the data range `[0,points) × [0,#components)`, its volume is
`∏(N_d + 2 g) · points · #components`, all elements are zero, and the component dimension is last with
stride 1. -/
theorem C19_one_chunk (zero : α) (name : String) (comps : List String) (basis : Basis) {mesh : Range}
    {g : Int} (hg : 0 ≤ g) (hn : mesh.dims ≠ []) (hM : Pos mesh.dims) (hp : 0 ≤ basis.points) :
    ∃ v c, Var.make zero name comps basis mesh g = .ok v ∧ v.chunks.data = [c] ∧ v.chunks.rng.volume = 1 ∧
      v.name = name ∧ v.comps = comps ∧ v.basis = basis ∧
      c.Layout g mesh.dims [(0, basis.points), (0, (comps.length : Int))] ∧
      c.arr.rng.volume = (mesh.dims.map (fun d => d.2 - d.1 + 2 * g)).prod * basis.points * comps.length ∧
      (c.arr.data.length : Int) = c.arr.rng.volume ∧ (∀ x ∈ c.arr.data, x = zero) ∧
      c.arr.rng.dims.getLast? = some (0, (comps.length : Int)) ∧ c.arr.rng.stride.getLast? = some 1 := by
  obtain ⟨c, _, h2, h3, h4⟩ := Var.make_spec zero name comps basis hg hn hM hp
  have hne : chunkBox mesh.dims.length ≠ [] := by
    intro e
    have := congrArg List.length e
    simp only [chunkBox, List.length_replicate, List.length_nil] at this
    exact hn (List.length_eq_zero_iff.1 this)
  have hB : grow g mesh.dims ++ dataBox basis.points comps.length ≠ [] := by simp [dataBox]
  refine ⟨_, c, h2, rfl, ?_, rfl, rfl, rfl, h3, ?_, h3.arr_size, ?_, ?_, ?_⟩
  · simp only [Range.volume_setup hne, boxVolume_chunkBox]
  · rw [h3.arr_range, Range.volume_setup hB, boxVolume_append, boxVolume_dataBox, ← mul_assoc]
    congr 2
    unfold boxVolume lengths grow
    rw [List.map_map]
    congr 1
    apply List.map_congr_left
    intro d _
    simp only [Function.comp]; ring
  · intro x hx; rw [h4] at hx; exact List.eq_of_mem_replicate hx
  · rw [h3.dims]; simp [dataBox]
  · rw [h3.arr_range]
    have : ∀ (l : Box) (d : Int × Int), (Range.strideLoop (l ++ [d])).getLast? = some 1 := by
      intro l d
      induction l with
      | nil => rfl
      | cons a t ih =>
        cases t with
        | nil => rfl
        | cons b t =>
          simp only [List.cons_append] at ih ⊢
          rw [Range.strideLoop]
          split
          · rename_i e; rw [e] at ih; cases ih
          · rename_i s ss e
            rw [e] at ih
            rw [List.getLast?_cons_cons]; exact ih
    have h := this (grow g mesh.dims ++ [(0, basis.points)]) (0, (comps.length : Int))
    simpa [Range.setup, dataBox, List.append_assoc] using h

-- a 4 × 3 mesh, 5 components, 2 ghost layers: 8 · 7 · 1 · 5 = 280 elements
example : ∃ v c, Var.make (0:Int) "q" ["r","px","py","pz","e"] Basis.volumeAverage (Range.setup [(0,4),(0,3)]) 2 = .ok v ∧
    v.chunks.data = [c] ∧ c.arr.data.length = 280 := by
  obtain ⟨v, c, h1, h2, _, _, _, _, _, h3, h4, _⟩ := C19_one_chunk (0:Int) "q" ["r","px","py","pz","e"]
    Basis.volumeAverage (mesh := Range.setup [(0,4),(0,3)]) (g := 2) (by decide) (by decide) (by decide) (by decide)
  refine ⟨v, c, h1, h2, ?_⟩
  rw [h3] at h4
  have : (List.map (fun d : Int × Int => d.2 - d.1 + 2 * 2) (Range.setup [(0,4),(0,3)]).dims).prod *
    Basis.volumeAverage.points * (["r","px","py","pz","e"].length : Int) = 280 := by decide
  have h5 := h4.trans this
  omega

/-! ## C33 -/

/-- What client code does with the manager: ask for an output variable, or ask for it and change its
chunk in any way. -/
inductive Req (α : Type) where
  | request (id : VarId)
  | update (id : VarId) (f : Chunk α → Chunk α)

/-- The id of a request. -/
def Req.id : Req α → VarId
  | .request i => i
  | .update i _ => i

/-- The request run on the manager. -/
noncomputable def Req.run [Arith α] : Req α → SM (Mgr α) Unit
  | .request i => do let _ ← Solve.outputVar i; return ()
  | .update i f => Solve.eachOutput (fun c => .ok (f c)) [i]

/-- A history of requests run on the manager. -/
noncomputable def runAll [Arith α] : List (Req α) → SM (Mgr α) Unit
  | [] => return ()
  | r :: rs => do r.run; runAll rs

/-- The same request on a plain map from ids to chunks; `fresh` is what a new variable holds. -/
def Req.onMap (fresh : VarId → Chunk α) (A : VarId → Option (Chunk α)) : Req α → VarId → Option (Chunk α)
  | .request i => fun j => if j = i then some ((A i).getD (fresh i)) else A j
  | .update i f => fun j => if j = i then some (f ((A i).getD (fresh i))) else A j

/-- A history on a plain map. -/
def onMapAll (fresh : VarId → Chunk α) : (VarId → Option (Chunk α)) → List (Req α) → VarId → Option (Chunk α)
  | A, [] => A
  | A, r :: rs => onMapAll fresh (r.onMap fresh A) rs

/-- **C33** (start) A new manager on a grid of positive lengths is good for every set of ids in which the
name determines the id, and stores nothing. -/
theorem C33_new_manager {S : VarId → Prop} (hS : Mgr.Consistent S) (hp : ∀ id, S id → 0 ≤ id.basis.points)
    {g : Rectilinear α} (hn : g.rng.dims ≠ []) (hM : Pos g.rng.dims) :
    (Mgr.make g).Good S ∧ ∀ id, (Mgr.make g).contents id = none ∧ (Mgr.make g).addr id = none :=
  ⟨⟨hS, hp, hn, hM, by simp [Mgr.make], by simp [Mgr.make], by simp [Mgr.make], by simp [Mgr.make]⟩,
    fun _ => ⟨rfl, rfl⟩⟩

/-- **C33** (map) Any history of requests and updates, on any good manager, behaves like the same history
on a map from ids to chunks; it never fails, and storage once given to an id stays with it. -/
theorem C33_history [Arith α] {S : VarId → Prop} : ∀ (rs : List (Req α)) {m : Mgr α}, m.Good S →
    (∀ r ∈ rs, S r.id) →
    ∃ m', runAll rs m = .ok () m' ∧ m'.Good S ∧ m.Extends m' ∧
      m'.contents = onMapAll (Mgr.fresh (Arith.lit 0) m.grid.rng) m.contents rs := by
  intro rs
  induction rs with
  | nil => intro m h _; exact ⟨m, rfl, h, .refl m, rfl⟩
  | cons r rs ih =>
    intro m h hr
    have hid := hr r List.mem_cons_self
    have step : ∃ m1, r.run m = .ok () m1 ∧ m1.Good S ∧ m.Extends m1 ∧
        m1.contents = r.onMap (Mgr.fresh (Arith.lit 0) m.grid.rng) m.contents := by
      cases r with
      | request i =>
        obtain ⟨a, m1, h1, h2, h3, _, h5, _⟩ := Solve.outputVar_spec h hid
        refine ⟨m1, ?_, h2, h3, ?_⟩
        · exact SM.bind_ok h1
        · rw [h5, Solve.created_self]
          funext j
          simp only [Req.onMap, Function.update_apply, Req.id]
      | update i f =>
        have hc : Solve.created (Arith.lit 0) m.grid.rng m.contents i i =
            some ((m.contents i).getD (Mgr.fresh (Arith.lit 0) m.grid.rng i)) := by
          rw [Solve.created_self, Function.update_self]
        obtain ⟨m1, h2, h3, h5, h6⟩ := Solve.eachOutput_cons h hid (f := fun c => .ok (f c)) (ids := []) hc rfl
        refine ⟨m1, ?_, h2, h3, ?_⟩
        · exact h6
        · rw [h5]
          funext j
          simp only [Req.onMap, Function.update_apply, Req.id]
    obtain ⟨m1, h1, h2, h3, h4⟩ := step
    obtain ⟨m', h5, h6, h7, h8⟩ := ih h2 (fun r hr' => hr r (List.mem_cons_of_mem _ hr'))
    refine ⟨m', ?_, h6, h3.trans h7, ?_⟩
    · unfold runAll; rw [SM.bind_ok h1]; exact h5
    · rw [h8, h3.grid, h4]; rfl

/-- **C33** (storage) Asking for an id, running any history, and asking again gives the same storage and
changes nothing; a different id asked for at any time gets different storage. -/
theorem C33_storage [Arith α] {S : VarId → Prop} {m m1 m2 m3 : Mgr α} (h : m.Good S) {x y : VarId} (hx : S x) (hy : S y)
    {a b : Nat} (h1 : Solve.outputVar x m = .ok a m1) {rs : List (Req α)} (hr : ∀ r ∈ rs, S r.id)
    (h2 : runAll rs m1 = .ok () m2) (h3 : Solve.outputVar y m2 = .ok b m3) :
    Solve.outputVar x m3 = .ok a m3 ∧ Solve.inputVar x m3 = .ok a m3 ∧ (a = b ↔ x = y) := by
  obtain ⟨a', m1', e1, g1, _, k1, _, _⟩ := Solve.outputVar_spec h hx
  rw [h1] at e1; cases e1
  obtain ⟨m2', e2, g2, x2, _⟩ := C33_history rs g1 hr
  rw [h2] at e2; cases e2
  obtain ⟨b', m3', e3, g3, x3, k3, _, _⟩ := Solve.outputVar_spec g2 hy
  rw [h3] at e3; cases e3
  have ha := x3.addr _ _ (x2.addr _ _ k1)
  refine ⟨Solve.outputVar_existing g3 hx ha, Solve.inputVar_existing g3 hx ha, ?_, ?_⟩
  · rintro rfl; exact g3.addr_inj ha k3
  · rintro rfl; rw [ha] at k3; exact Option.some.inj k3

/-- **C33** (`add_variable`) Adding an id that is stored throws and changes nothing; adding another one stores a new variable
with zeros for it, in new storage. -/
theorem C33_add [Arith α] {S : VarId → Prop} {m : Mgr α} (h : m.Good S) {x : VarId} (hx : S x) :
    (m.addr x ≠ none → ∃ e, Solve.addVar x m = .throw e m) ∧
    (m.addr x = none → ∃ a m', Solve.addVar x m = .ok () m' ∧ m'.Good S ∧ m.Extends m' ∧ m'.addr x = some a ∧
      (∀ y, m.addr y ≠ some a) ∧
      m'.contents = fun y => if y = x then some (Mgr.fresh (Arith.lit 0) m.grid.rng x) else m.contents y) := by
  constructor
  · intro ha
    obtain ⟨a, ha⟩ := Option.ne_none_iff_exists'.1 ha
    unfold Solve.addVar
    rw [SM.get_bind, SM.lift_bind (h.find_eq hx), ha]
    exact ⟨_, rfl⟩
  · intro ha
    obtain ⟨a, m', h1, h2, h3, h4, h5, _⟩ := Solve.outputVar_spec h hx
    unfold Solve.outputVar at h1
    rw [SM.get_bind, SM.lift_bind (h.find_eq hx), ha] at h1
    simp only [] at h1
    obtain ⟨u, m1, e1, e2⟩ := SM.bind_eq_ok h1
    have hm : m1 = m' := by
      unfold Solve.inputVar at e2
      rw [SM.get_bind] at e2
      obtain ⟨o, m2, f1, f2⟩ := SM.bind_eq_ok e2
      have : m2 = m1 := by
        unfold SM.lift at f1
        cases hf : Mgr.find m1.vars x <;> rw [hf] at f1 <;> cases f1
        rfl
      subst this
      cases o <;> cases f2
      rfl
    subst hm
    refine ⟨a, m1, e1, h2, h3, h4, ?_, ?_⟩
    · intro y hy
      have := h3.addr _ _ hy
      have hyx := h2.addr_inj this h4
      subst hyx
      rw [ha] at hy; cases hy
    · rw [h5, Solve.created_self]
      have hc : m.contents x = none := h.contents_none.2 ha
      rw [hc]
      funext y
      simp only [Function.update_apply, Option.getD_none]

-- the first `add_variable` on a new manager stores the id, the second one throws
example : ∃ m' : Mgr ℝ, Solve.addVar ⟨"q", ["a"], Basis.volumeAverage⟩
    (Mgr.make ⟨Range.setup [(0,3),(0,2)], [0,0], [1,1], [1/3,1/2]⟩) = .ok () m' ∧
    ∃ e, Solve.addVar ⟨"q", ["a"], Basis.volumeAverage⟩ m' = .throw e m' := by
  have hG := C33_new_manager (α := ℝ) (S := (· = ⟨"q", ["a"], Basis.volumeAverage⟩)) (by rintro a b rfl rfl _; rfl)
    (by rintro a rfl; decide) (g := ⟨Range.setup [(0,3),(0,2)], [0,0], [1,1], [1/3,1/2]⟩) (by decide) (by decide)
  obtain ⟨a, m', h1, h2, _, h4, _⟩ := (C33_add hG.1 rfl).2 (hG.2 _).2
  exact ⟨m', h1, (C33_add h2 rfl).1 (by rw [h4]; simp)⟩

-- two variables on a 3 × 2 mesh; the second write to the first is what is read back
example : ∃ m' : Mgr ℝ, runAll
    [.request ⟨"q", ["a"], Basis.volumeAverage⟩, .update ⟨"rhs", ["a"], Basis.volumeAverage⟩ (fun c => { c with ghosts := 7 }),
     .update ⟨"q", ["a"], Basis.volumeAverage⟩ (fun c => { c with ghosts := 8 })]
    (Mgr.make ⟨Range.setup [(0,3),(0,2)], [0,0], [1,1], [1/3,1/2]⟩) = .ok () m' ∧
    (m'.contents ⟨"q", ["a"], Basis.volumeAverage⟩).map Chunk.ghosts = some 8 := by
  have hS : Mgr.Consistent (fun id => id = ⟨"q", ["a"], Basis.volumeAverage⟩ ∨ id = ⟨"rhs", ["a"], Basis.volumeAverage⟩) := by
    rintro a b (rfl | rfl) (rfl | rfl) h
    · rfl
    · exact absurd h (by decide)
    · exact absurd h (by decide)
    · rfl
  have hG := (C33_new_manager (α := ℝ) hS (by rintro a (rfl | rfl) <;> decide)
    (g := ⟨Range.setup [(0,3),(0,2)], [0,0], [1,1], [1/3,1/2]⟩) (by decide) (by decide)).1
  obtain ⟨m', h, _, _, hc⟩ := C33_history (α := ℝ)
    [.request ⟨"q", ["a"], Basis.volumeAverage⟩, .update ⟨"rhs", ["a"], Basis.volumeAverage⟩ (fun c => { c with ghosts := 7 }),
     .update ⟨"q", ["a"], Basis.volumeAverage⟩ (fun c => { c with ghosts := 8 })] hG (by simp [Req.id])
  exact ⟨m', h, by rw [hc]; simp [onMapAll, Req.onMap]⟩

/-! ## C34 -/

/-- **C34** is false: for every good manager and every id (of its set) that was never created,
`input_variable` dereferences `end()` – undefined behaviour, no exception (the exception object on
variable_manager.cpp:49 is built but not thrown). -/
theorem C34_false {S : VarId → Prop} {m : Mgr α} (h : m.Good S) {id : VarId} (hid : S id) (hm : m.contents id = none) :
    (∃ w, Solve.inputVar id m = .ub w) ∧ ∀ msg m', Solve.inputVar id m ≠ .throw msg m' := by
  have : ∃ w, Solve.inputVar id m = .ub w := by
    unfold Solve.inputVar
    rw [SM.get_bind, SM.lift_bind (h.find_eq hid), h.contents_none.1 hm]
    exact ⟨_, rfl⟩
  refine ⟨this, ?_⟩
  obtain ⟨w, hw⟩ := this
  intro msg m' e
  rw [hw] at e; cases e

/-- **C34**, what holds: for an id that exists the storage of that id is returned and nothing changes.
Missing from the full statement: the error report for ids that do not exist (see `C34_false`). -/
theorem C34_partial {S : VarId → Prop} {m : Mgr α} (h : m.Good S) {id : VarId} {c : Chunk α}
    (hm : m.contents id = some c) :
    ∃ a, Solve.inputVar id m = .ok a m ∧ m.addr id = some a ∧ ∃ v, m.heap[a]? = some v ∧ v.chunks.data = [c] := by
  cases ha : m.addr id with
  | none => rw [h.contents_none.2 ha] at hm; cases hm
  | some a =>
    obtain ⟨v, c', h1, _, _, _, _, _, h7, h8⟩ := h.stored' ha
    rw [hm] at h8; cases h8
    exact ⟨a, Solve.inputVar_existing h (h.key_of_addr ha) ha, rfl, v, h1, by rw [h7]⟩

-- an empty manager and an id satisfy the hypotheses of `C34_false`
example : ∃ w, Solve.inputVar ⟨"q", ["a"], Basis.volumeAverage⟩
    (Mgr.make ⟨Range.setup [(0,3)], [(0:ℝ)], [1], [1/3]⟩) = .ub w := by
  have hG := C33_new_manager (α := ℝ) (S := fun id => id = ⟨"q", ["a"], Basis.volumeAverage⟩)
    (by rintro a b rfl rfl _; rfl) (by rintro a rfl; decide)
    (g := ⟨Range.setup [(0,3)], [0], [1], [1/3]⟩) (by decide) (by decide)
  exact (C34_false hG.1 rfl (hG.2 _).1).1

/-! ## C35 -/

/-- **C35** is false: with bases ("a", 2 points) and ("b", 1 point) each of two ids is less than the
other. -/
theorem C35_false : ∃ a b : VarId, a.lt b = .ok true ∧ b.lt a = .ok true :=
  ⟨⟨"q", ["x"], ⟨"a", 2⟩⟩, ⟨"q", ["x"], ⟨"b", 1⟩⟩, by decide, by decide⟩

/-- The ids that are compared use bases of the same name whenever they share their own name. -/
def SameBasisName (a b : VarId) : Prop := a.name = b.name → a.basis.name = b.basis.name

/-- **C35**, what holds: among ids whose bases share a name (if the ids do), and that do not clash in their
components, `<` is irreflexive, asymmetric and transitive, and the incomparable ids are exactly the
`==` ones, which are the identical ones. Missing: ids that share a name and have bases of different names (see
`C35_false`). -/
theorem C35_partial {a b c : VarId} (hab : SameBasisName a b) (hbc : SameBasisName b c)
    (cab : a.name = b.name → a.comps = b.comps) (cbc : b.name = c.name → b.comps = c.comps) :
    a.lt a = .ok false ∧
    (a.lt b = .ok true → b.lt a = .ok false) ∧
    (a.lt b = .ok true → b.lt c = .ok true → a.lt c = .ok true) ∧
    (a.lt b = .ok false ∧ b.lt a = .ok false ↔ a.eqv b = .ok true) ∧
    (a.eqv b = .ok true ↔ a = b) := by
  have key : ∀ x y : VarId, SameBasisName x y → (x.name = y.name → x.comps = y.comps) →
      x.lt y = .ok (decide (x.name < y.name ∨ (x.name = y.name ∧ x.basis.points < y.basis.points))) := by
    intro x y hxy cxy
    unfold VarId.lt
    by_cases h1 : x.name < y.name
    · simp [h1]
    · by_cases h2 : y.name < x.name
      · simp [h1, h2, ne_of_gt h2]
      · have e : x.name = y.name := le_antisymm (not_lt.1 h2) (not_lt.1 h1)
        simp [e, cxy e, Basis.lt, hxy e]
  have hba : SameBasisName b a := fun e => (hab e.symm).symm
  have hac : SameBasisName a a := fun _ => rfl
  have keq : a.eqv b = .ok true ↔ a = b := by
    unfold VarId.eqv
    constructor
    · intro h
      split at h
      · cases h
      · split at h
        · cases h
        · rename_i h1 h2
          simp only [ne_eq, not_not] at h1 h2
          have h3 := Res.ok.inj h
          unfold Basis.eqv at h3
          split at h3
          · cases h3
          · rename_i h4
            simp only [ne_eq, not_not] at h4
            simp only [decide_eq_true_eq] at h3
            exact VarId.ext' h1 h2 (Basis.ext' h4 h3)
    · rintro rfl; simp [Basis.eqv]
  have kab := key a b hab cab
  have kba := key b a hba (fun e => (cab e.symm).symm)
  refine ⟨?_, ?_, ?_, ?_, keq⟩
  · rw [key a a hac (fun _ => rfl)]; simp
  · rw [kab, kba]
    simp only [Res.ok.injEq, decide_eq_true_eq, decide_eq_false_iff_not]
    rintro (h | ⟨h1, h2⟩)
    · rintro (h' | ⟨h', _⟩)
      · exact lt_asymm h h'
      · rw [h'] at h; exact lt_irrefl _ h
    · rintro (h' | ⟨_, h'⟩)
      · rw [h1] at h'; exact lt_irrefl _ h'
      · omega
  · rw [kab, key b c hbc cbc]
    simp only [Res.ok.injEq, decide_eq_true_eq]
    intro h1 h2
    have hn : a.name = c.name → a.name = b.name ∧ b.name = c.name := by
      intro e
      rcases h1 with h1 | ⟨h1, _⟩ <;> rcases h2 with h2 | ⟨h2, _⟩
      · rw [e] at h1; exact absurd h1 (lt_asymm h2)
      · rw [e, h2] at h1; exact absurd h1 (lt_irrefl _)
      · rw [← h1, e] at h2; exact absurd h2 (lt_irrefl _)
      · exact ⟨h1, h2⟩
    rw [key a c (fun e => (hab (hn e).1).trans (hbc (hn e).2)) (fun e => (cab (hn e).1).trans (cbc (hn e).2))]
    simp only [Res.ok.injEq, decide_eq_true_eq]
    rcases h1 with h1 | ⟨h1, h1'⟩ <;> rcases h2 with h2 | ⟨h2, h2'⟩
    · exact .inl (lt_trans h1 h2)
    · exact .inl (h2 ▸ h1)
    · exact .inl (h1 ▸ h2)
    · exact .inr ⟨h1.trans h2, by omega⟩
  · rw [keq, kab, kba]
    simp only [Res.ok.injEq, decide_eq_false_iff_not]
    constructor
    · rintro ⟨h1, h2⟩
      rw [not_or] at h1 h2
      have e : a.name = b.name := le_antisymm (not_lt.1 h2.1) (not_lt.1 h1.1)
      have k1 : ¬ a.basis.points < b.basis.points := fun h => h1.2 ⟨e, h⟩
      have k2 : ¬ b.basis.points < a.basis.points := fun h => h2.2 ⟨e.symm, h⟩
      exact VarId.ext' e (cab e) (Basis.ext' (hab e) (by omega))
    · rintro rfl; simp

/-- **C35** (clash) Ids that share a name but not the component names are rejected by an exception
whichever way they are compared, by `<` and by `==`. -/
theorem C35_component_clash {a b : VarId} (hn : a.name = b.name) (hc : a.comps ≠ b.comps) :
    (∃ m, a.lt b = .throw m) ∧ (∃ m, b.lt a = .throw m) ∧ (∃ m, a.eqv b = .throw m) ∧ (∃ m, b.eqv a = .throw m) := by
  unfold VarId.lt VarId.eqv
  simp [hn, hc, Ne.symm hc]

-- three ids meeting the hypotheses of the partial theorem, in increasing order
example : let a : VarId := ⟨"p", ["x"], ⟨"v", 1⟩⟩
    let b : VarId := ⟨"q", ["x"], ⟨"v", 1⟩⟩
    let c : VarId := ⟨"q", ["x"], ⟨"v", 2⟩⟩
    SameBasisName a b ∧ SameBasisName b c ∧ (a.name = b.name → a.comps = b.comps) ∧ (b.name = c.name → b.comps = c.comps) ∧
      a.lt b = .ok true ∧ b.lt c = .ok true ∧ a.lt c = .ok true := by
  simp only [SameBasisName]; decide

/-! ## C36 -/

/-- **C36** Whatever ids are cloned, in whatever order, starting from any value of the counter: the names
of the clones are pairwise different, and each clone keeps components and basis of its source. -/
theorem C36_unique_clone (tag : Nat) (vs : List VarId) :
    ((VarId.cloneAll tag vs).map VarId.name).Nodup ∧
    List.Forall₂ (fun v c => c.comps = v.comps ∧ c.basis = v.basis) vs (VarId.cloneAll tag vs) := by
  have aux : ∀ (vs : List VarId) (t0 : Nat), ∀ c ∈ VarId.cloneAll t0 vs, ∃ t v, t0 ≤ t ∧ c = (VarId.uniqueClone t v).1 := by
    intro vs
    induction vs with
    | nil => intro t0 c hc; cases hc
    | cons v vs ih =>
      intro t0 c hc
      rcases List.mem_cons.1 hc with rfl | hc
      · exact ⟨t0, v, le_refl _, rfl⟩
      · obtain ⟨t, w, h1, h2⟩ := ih _ c hc
        exact ⟨t, w, by simp only [VarId.uniqueClone] at h1; omega, h2⟩
  induction vs generalizing tag with
  | nil => exact ⟨by simp [VarId.cloneAll], .nil⟩
  | cons v vs ih =>
    obtain ⟨h1, h2⟩ := ih (tag + 1)
    refine ⟨?_, ?_⟩
    · simp only [VarId.cloneAll, List.map_cons, List.nodup_cons]
      refine ⟨?_, h1⟩
      intro hm
      obtain ⟨c, hc, e⟩ := List.mem_map.1 hm
      obtain ⟨t, w, hlt, rfl⟩ := aux vs (tag + 1) c hc
      have k1 := clone_name_tag t w
      have k2 := clone_name_tag tag v
      rw [e] at k1
      rw [k1] at k2
      omega
    · exact .cons ⟨rfl, rfl⟩ h2

-- a clone of "q", a clone of that clone, a clone of "q_clone": all different
example : ((VarId.cloneAll 9 [⟨"q", [], Basis.void⟩, ⟨"q_clone_9", [], Basis.void⟩, ⟨"q_clone", [], Basis.void⟩]).map
    VarId.name).Nodup := (C36_unique_clone 9 _).1
example : (VarId.uniqueClone 12 ⟨"q", ["x"], Basis.void⟩).1.name = "q_clone_12" := by
  simp [VarId.uniqueClone, VarId.decimal, VarId.digit]

/-! ## C38 -/

/-- The partner of `id` in a list of pairs, or `id` itself. -/
def partner : List VarId → VarId → VarId
  | x :: y :: l, id => if id = x then y else if id = y then x else partner l id
  | _, id => id

theorem partner_notMem : ∀ {l : List VarId} {id : VarId}, id ∉ l → partner l id = id
  | [], _, _ => rfl
  | [_], _, _ => rfl
  | x :: y :: l, id, h => by
    simp only [List.mem_cons, not_or] at h
    rw [partner, if_neg h.1, if_neg h.2.1]
    exact partner_notMem h.2.2

theorem swapLoop_spec [Arith α] {S : VarId → Prop} : ∀ (n : Nat) (outs : List VarId) {m : Mgr α}, outs.length = 2 * n →
    outs.Nodup → m.Good S → (∀ id ∈ outs, m.contents id ≠ none) →
    ∃ m', Solve.swapLoop outs m = .ok () m' ∧ m'.Good S ∧ m.Extends m' ∧ m'.vars = m.vars ∧
      ∀ id, m'.contents id = m.contents (partner outs id) := by
  intro n
  induction n with
  | zero =>
    intro outs m hl _ h _
    obtain rfl := List.length_eq_zero_iff.1 (by simpa using hl)
    exact ⟨m, rfl, h, .refl m, rfl, fun _ => rfl⟩
  | succ n ih =>
    intro outs m hl hnd h hex
    match outs, hl, hnd, hex with
    | x :: y :: l, hl, hnd, hex =>
      have hxy : x ≠ y := by simp at hnd; tauto
      have hxl : x ∉ l := by simp at hnd; tauto
      have hyl : y ∉ l := by simp at hnd; tauto
      have hndl : l.Nodup := by simp at hnd; tauto
      obtain ⟨a, ha⟩ : ∃ a, m.addr x = some a := by
        cases e : m.addr x with
        | none => exact absurd (h.contents_none.2 e) (hex x (by simp))
        | some a => exact ⟨a, rfl⟩
      obtain ⟨b, hb⟩ : ∃ b, m.addr y = some b := by
        cases e : m.addr y with
        | none => exact absurd (h.contents_none.2 e) (hex y (by simp))
        | some a => exact ⟨a, rfl⟩
      have hab : a ≠ b := by rintro rfl; exact hxy (h.addr_inj ha hb)
      obtain ⟨va, ca, ea, _, _, _, _, _, ha7, hca⟩ := h.stored' ha
      obtain ⟨vb, cb, eb, _, _, _, _, _, hb7, hcb⟩ := h.stored' hb
      have la := (List.getElem?_eq_some_iff.1 ea).1
      have lb := (List.getElem?_eq_some_iff.1 eb).1
      have hs : Solve.swapVars a b m = .ok ((m.store a cb).store b ca) := by
        unfold Solve.swapVars
        rw [vget_ok ea, Res.ok_bind, vget_ok eb, Res.ok_bind]
        have : va.chunks.swap vb.chunks = .ok ({ va.chunks with data := [cb] }, { vb.chunks with data := [ca] }) := by
          unfold IFace.swap; rw [ha7, hb7]; simp
        rw [this, Res.ok_bind, if_neg hab, vset_nat la, Res.ok_bind, vset_nat (by simpa using lb), Res.ok_bind]
        simp only [Mgr.store, Res.pure_eq, Res.ok.injEq, Mgr.mk.injEq, true_and, and_true]
        rw [List.modify_eq_set_getElem?, List.modify_eq_set_getElem?, ea]
        simp [hab, eb]
      have hgood := (h.store a cb).store b ca
      have hcont : ((m.store a cb).store b ca).contents =
          Function.update (Function.update m.contents x (some cb)) y (some ca) := by
        rw [(h.store a cb).store_contents (by exact hb), h.store_contents ha]
      obtain ⟨m', h1, h2, h3, h4, h5⟩ := ih l (m := (m.store a cb).store b ca) (by simp at hl; omega) hndl hgood (by
        intro id hid
        rw [hcont]
        have : id ≠ x := by rintro rfl; exact hxl hid
        have : id ≠ y := by rintro rfl; exact hyl hid
        simp only [Function.update_apply, *, if_false]
        exact hex id (by simp [hid]))
      refine ⟨m', ?_, h2, ?_, ?_, ?_⟩
      · rw [Solve.swapLoop, SM.bind_ok (Solve.outputVar_existing h (h.key_of_addr ha) ha),
          SM.bind_ok (Solve.outputVar_existing h (h.key_of_addr hb) hb), SM.bind_ok (SM.modifyRes_ok hs)]
        exact h1
      · exact ((Mgr.store_extends _ _ _).trans (Mgr.store_extends _ _ _)).trans h3
      · rw [h4]; rfl
      · intro id
        rw [h5, hcont]
        by_cases e1 : id = x
        · subst e1
          rw [partner_notMem hxl, partner, if_pos rfl]
          simp [Function.update_apply, hxy, hcb]
        · by_cases e2 : id = y
          · subst e2
            rw [partner_notMem hyl, partner, if_neg e1, if_pos rfl]
            simp [hca]
          · rw [partner, if_neg e1, if_neg e2]
            have k1 : partner l id ≠ x := by
              intro e
              by_cases hid : id ∈ l
              · exact hxl (e ▸ partner_mem hid)
              · rw [partner_notMem hid] at e; exact e1 e
            have k2 : partner l id ≠ y := by
              intro e
              by_cases hid : id ∈ l
              · exact hyl (e ▸ partner_mem hid)
              · rw [partner_notMem hid] at e; exact e2 e
            simp [Function.update_apply, k1, k2]
where
  partner_mem : ∀ {l : List VarId} {id : VarId}, id ∈ l → partner l id ∈ l
    | [], _, h => by cases h
    | [_], _, h => h
    | x :: y :: l, id, h => by
      rw [partner]
      split_ifs with h1 h2
      · simp
      · simp
      · simp only [List.mem_cons, h1, h2, false_or] at h
        simp [partner_mem h]

theorem partner_partner : ∀ {l : List VarId}, l.Nodup → ∀ id, partner l (partner l id) = id
  | [], _, _ => rfl
  | [_], _, _ => rfl
  | x :: y :: l, h, id => by
    have hxy : x ≠ y := by simp at h; tauto
    have hxl : x ∉ l := by simp at h; tauto
    have hyl : y ∉ l := by simp at h; tauto
    have hl : l.Nodup := by simp at h; tauto
    have ih := partner_partner hl id
    have hp : partner (x :: y :: l) id = if id = x then y else if id = y then x else partner l id := rfl
    rw [hp]
    by_cases h1 : id = x
    · subst h1; simp [partner, hxy.symm]
    · by_cases h2 : id = y
      · subst h2; simp [partner, h1]
      · rw [if_neg h1, if_neg h2, partner]
        have k : ∀ z, z ∉ l → id ≠ z → partner l id ≠ z := by
          intro z hz hne e
          by_cases hid : id ∈ l
          · exact hz (e ▸ swapLoop_spec.partner_mem hid)
          · rw [partner_notMem hid] at e; exact hne e
        rw [if_neg (k x hxl h1), if_neg (k y hyl h2)]
        exact ih

/-- **C38** For an even list of existing, pairwise different variables `swap` exchanges the contents of
each pair, leaves the contents of every other variable, the grid, the time and all storage positions
alone. -/
theorem C38_swap [Arith α] {S : VarId → Prop} {m : Mgr α} (h : m.Good S) {outs : List VarId} (he : Even outs.length)
    (hnd : outs.Nodup) (hex : ∀ id ∈ outs, m.contents id ≠ none) :
    ∃ m', Solve.swap outs m = .ok () m' ∧ m'.Good S ∧ m.Extends m' ∧
      (∀ (i : Nat) x y, outs[2 * i]? = some x → outs[2 * i + 1]? = some y →
        m'.contents x = m.contents y ∧ m'.contents y = m.contents x) ∧
      (∀ id, id ∉ outs → m'.contents id = m.contents id) := by
  obtain ⟨n, hn⟩ := he
  obtain ⟨m', h1, h2, h3, h4, h5⟩ := swapLoop_spec n outs (by omega) hnd h hex
  refine ⟨m', ?_, h2, h3, ?_, ?_⟩
  · unfold Solve.swap; rw [if_neg (by omega)]; exact h1
  · intro i x y hx hy
    rw [h5, h5]
    have key : ∀ (i : Nat) (l : List VarId), l.Nodup → l[2 * i]? = some x → l[2 * i + 1]? = some y →
        partner l x = y ∧ partner l y = x := by
      intro i
      induction i with
      | zero =>
        intro l hl hx hy
        match l, hl, hx, hy with
        | a :: b :: l, hl, hx, hy =>
          simp at hx hy; subst hx; subst hy
          have : a ≠ b := by simp at hl; tauto
          simp [partner, this.symm]
      | succ i ih =>
        intro l hl hx hy
        match l, hl, hx, hy with
        | a :: b :: l, hl, hx, hy =>
          have hx' : l[2 * i]? = some x := by simpa [Nat.mul_add] using hx
          have hy' : l[2 * i + 1]? = some y := by simpa [Nat.mul_add] using hy
          obtain ⟨e1, e2⟩ := ih l (by simp at hl; tauto) hx' hy'
          have mx := List.mem_of_getElem? hx'
          have my := List.mem_of_getElem? hy'
          have ha : a ∉ l := by simp at hl; tauto
          have hb : b ∉ l := by simp at hl; tauto
          have n1 : x ≠ a := by rintro rfl; exact ha mx
          have n2 : x ≠ b := by rintro rfl; exact hb mx
          have n3 : y ≠ a := by rintro rfl; exact ha my
          have n4 : y ≠ b := by rintro rfl; exact hb my
          simp [partner, n1, n2, n3, n4, e1, e2]
    obtain ⟨e1, e2⟩ := key i outs hnd hx hy
    rw [e1, e2]; exact ⟨rfl, rfl⟩
  · intro id hid
    rw [h5, partner_notMem hid]

/-- **C38** (twice) Swapping twice restores all contents. -/
theorem C38_swap_twice [Arith α] {S : VarId → Prop} {m : Mgr α} (h : m.Good S) {outs : List VarId} (he : Even outs.length)
    (hnd : outs.Nodup) (hex : ∀ id ∈ outs, m.contents id ≠ none) :
    ∃ m', (do Solve.swap outs; Solve.swap outs) m = .ok () m' ∧ m'.contents = m.contents ∧ m'.vars = m.vars ∧
      m'.grid = m.grid ∧ m'.dt = m.dt ∧ m'.time = m.time := by
  obtain ⟨n, hn⟩ := he
  obtain ⟨m1, h1, h2, h3, h4, h5⟩ := swapLoop_spec n outs (by omega) hnd h hex
  obtain ⟨m2, k1, k2, k3, k4, k5⟩ := swapLoop_spec n outs (m := m1) (by omega) hnd h2 (by
    intro id hid
    rw [h5]
    exact hex _ (swapLoop_spec.partner_mem hid))
  have e1 : Solve.swap outs m = .ok () m1 := by unfold Solve.swap; rw [if_neg (by omega)]; exact h1
  have e2 : Solve.swap outs m1 = .ok () m2 := by unfold Solve.swap; rw [if_neg (by omega)]; exact k1
  refine ⟨m2, ?_, ?_, k4.trans h4, k3.grid.trans h3.grid, k3.dt.trans h3.dt, k3.time.trans h3.time⟩
  · rw [SM.bind_ok e1]; exact e2
  · funext id
    rw [k5, h5, partner_partner hnd]

/-- **C38** (odd) An odd list is rejected with nothing changed. -/
theorem C38_odd [Arith α] {m : Mgr α} {outs : List VarId} (ho : Odd outs.length) :
    ∃ msg, Solve.swap outs m = .throw msg m := by
  obtain ⟨k, hk⟩ := ho
  unfold Solve.swap
  rw [if_pos (by omega)]
  exact ⟨_, rfl⟩

/-! ## C39 -/

/-- **C39** After `fill` every element, interior or ghost, of every output variable is the fill value; the
shape of a variable that existed is kept, and a new one has the shape of a new variable; all other variables are
unchanged. -/
theorem C39_fill [Arith α] {S : VarId → Prop} (value : α) : ∀ (outs : List VarId) {m : Mgr α}, m.Good S →
    (∀ id ∈ outs, S id) →
    ∃ m', Solve.fill outs value m = .ok () m' ∧ m'.Good S ∧ m.Extends m' ∧
      (∀ id ∈ outs, ∃ c', m'.contents id = some c' ∧ (∀ x ∈ c'.arr.data, x = value) ∧
        ((m.contents id).getD (Mgr.fresh (Arith.lit 0) m.grid.rng id)).SameShape c') ∧
      (∀ id, id ∉ outs → m'.contents id = m.contents id) := by
  intro outs
  induction outs with
  | nil => intro m h _; exact ⟨m, rfl, h, .refl m, by simp, fun _ _ => rfl⟩
  | cons i outs ih =>
    intro m h hS
    have hid := hS i List.mem_cons_self
    have hc : Solve.created (Arith.lit 0) m.grid.rng m.contents i i =
        some ((m.contents i).getD (Mgr.fresh (Arith.lit 0) m.grid.rng i)) := by
      rw [Solve.created_self, Function.update_self]
    obtain ⟨m1, h2, h3, h5, h6⟩ := Solve.eachOutput_cons h hid
      (f := fun c => .ok { c with arr := c.arr.fill value }) (ids := outs) hc rfl
    obtain ⟨m', k1, k2, k3, k4, k5⟩ := ih h2 (fun id hid' => hS id (List.mem_cons_of_mem _ hid'))
    have hset : ∀ c : Chunk α, c.SameShape { c with arr := c.arr.fill value } := by
      intro c; exact ⟨rfl, by simp [IFace.fill]⟩
    refine ⟨m', ?_, k2, h3.trans k3, ?_, ?_⟩
    · unfold Solve.fill; rw [h6]; exact k1
    · intro id hm
      by_cases ho : id ∈ outs
      · obtain ⟨c', e1, e2, e3⟩ := k4 id ho
        refine ⟨c', e1, e2, ?_⟩
        rw [h5, h3.grid, Function.update_apply] at e3
        split at e3
        · rename_i e
          subst e
          simp only [Option.getD_some] at e3
          exact ⟨by
            rw [e3.1]
            simp [IFace.fill], by rw [e3.2]; simp [IFace.fill]⟩
        · exact e3
      · have e : id = i := by rcases List.mem_cons.1 hm with e | e; exact e; exact absurd e ho
        subst e
        refine ⟨_, (k5 id ho).trans (by rw [h5, Function.update_self]), ?_, hset _⟩
        intro x hx
        simp only [IFace.fill, List.mem_map] at hx
        obtain ⟨_, _, e⟩ := hx
        exact e.symm
    · intro id hm
      have hne : id ≠ i := by rintro rfl; exact hm List.mem_cons_self
      rw [k5 id (fun h => hm (List.mem_cons_of_mem _ h)), h5, Function.update_of_ne hne]

-- a manager with two existing variables satisfies the hypotheses of C38 and C39
example : ∃ m : Mgr ℝ, m.Good (fun id => id = ⟨"q", ["a"], Basis.volumeAverage⟩ ∨ id = ⟨"p", ["a"], Basis.volumeAverage⟩) ∧
    (∀ id ∈ [(⟨"q", ["a"], Basis.volumeAverage⟩ : VarId), ⟨"p", ["a"], Basis.volumeAverage⟩], m.contents id ≠ none) ∧
    m.contents ⟨"q", ["a"], Basis.volumeAverage⟩ ≠ m.contents ⟨"p", ["a"], Basis.volumeAverage⟩ := by
  have hS : Mgr.Consistent (fun id => id = ⟨"q", ["a"], Basis.volumeAverage⟩ ∨ id = ⟨"p", ["a"], Basis.volumeAverage⟩) := by
    rintro a b (rfl | rfl) (rfl | rfl) h
    · rfl
    · exact absurd h (by decide)
    · exact absurd h (by decide)
    · rfl
  have hG := (C33_new_manager (α := ℝ) hS (by rintro a (rfl | rfl) <;> decide)
    (g := ⟨Range.setup [(0,3),(0,2)], [0,0], [1,1], [1/3,1/2]⟩) (by decide) (by decide)).1
  obtain ⟨m', h, hg, _, hc⟩ := C33_history (α := ℝ)
    [.update ⟨"q", ["a"], Basis.volumeAverage⟩ (fun c => { c with arr := c.arr.fill 7, ghosts := 7 }),
     .update ⟨"p", ["a"], Basis.volumeAverage⟩ (fun c => { c with arr := c.arr.fill 8, ghosts := 8 })] hG (by simp [Req.id])
  have e1 : (m'.contents ⟨"q", ["a"], Basis.volumeAverage⟩).map Chunk.ghosts = some 7 := by
    rw [hc]; simp [onMapAll, Req.onMap]
  have e2 : (m'.contents ⟨"p", ["a"], Basis.volumeAverage⟩).map Chunk.ghosts = some 8 := by
    rw [hc]; simp [onMapAll, Req.onMap]
  refine ⟨m', hg, ?_, ?_⟩
  · intro id hid e
    simp only [List.mem_cons, List.not_mem_nil, or_false] at hid
    rcases hid with rfl | rfl
    · rw [e] at e1; cases e1
    · rw [e] at e2; cases e2
  · intro e; rw [e, e2] at e1; cases e1

end QK.Props
