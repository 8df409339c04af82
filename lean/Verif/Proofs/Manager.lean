import Verif.Spec.Manager
import Verif.Proofs.Variable
import Mathlib.Logic.Function.Basic
/- Lemmas about the variable manager. -/
namespace QK
open Spec

namespace SM
variable {σ α β : Type}

theorem bind_ok {x : SM σ α} {f : α → SM σ β} {s s' : σ} {a : α} (h : x s = .ok a s') : (x >>= f) s = f a s' := by
  show SM.bind x f s = _
  unfold SM.bind; rw [h]

theorem bind_throw {x : SM σ α} {f : α → SM σ β} {s s' : σ} {m : String} (h : x s = .throw m s') :
    (x >>= f) s = .throw m s' := by
  show SM.bind x f s = _
  unfold SM.bind; rw [h]

theorem bind_ub {x : SM σ α} {f : α → SM σ β} {s : σ} {m : String} (h : x s = .ub m) :
    (x >>= f) s = .ub m := by
  show SM.bind x f s = _
  unfold SM.bind; rw [h]

theorem get_bind {f : σ → SM σ β} {s : σ} : (SM.get >>= f) s = f s s := rfl
theorem lift_bind {x : Res α} {a : α} (h : x = .ok a) {f : α → SM σ β} {s : σ} : (SM.lift x >>= f) s = f a s := by
  rw [h]; rfl
theorem bind_eq_ok {x : SM σ α} {f : α → SM σ β} {s s' : σ} {b : β} (h : (x >>= f) s = .ok b s') :
    ∃ a s1, x s = .ok a s1 ∧ f a s1 = .ok b s' := by
  change (match x s with
    | .ok a s' => f a s'
    | .throw m s' => .throw m s'
    | .ub w => .ub w
    | .diverge => .diverge) = _ at h
  cases hx : x s with
  | ok a s1 => rw [hx] at h; exact ⟨a, s1, rfl, h⟩
  | _ => rw [hx] at h; cases h
theorem modifyRes_ok {f : σ → Res σ} {s s' : σ} (h : f s = .ok s') : SM.modifyRes f s = .ok () s' := by
  unfold SM.modifyRes; rw [h]

end SM

theorem pairwise_symm_forall {β : Type} {R : β → β → Prop} : ∀ {l : List β}, l.Pairwise R →
    (∀ x y, R x y → R y x) → ∀ {x y}, x ∈ l → y ∈ l → x ≠ y → R x y := by
  intro l
  induction l with
  | nil => intro _ _ x y hx; cases hx
  | cons a t ih =>
    intro h hs x y hx hy hne
    have h' := List.pairwise_cons.1 h
    rcases List.mem_cons.1 hx with rfl | hx <;> rcases List.mem_cons.1 hy with rfl | hy
    · exact absurd rfl hne
    · exact h'.1 y hy
    · rename_i hx'; exact hs _ _ (h'.1 x hx')
    · exact ih h'.2 hs hx hy hne

namespace Mgr
variable {α : Type} {S : VarId → Prop}

theorem find_spec (hc : Consistent S) {id : VarId} (hid : S id) : ∀ {l : List (VarId × Nat)},
    (∀ p ∈ l, S p.1) → l.Pairwise (fun p q => p.1.name < q.1.name) →
    find l id = .ok ((l.find? (fun p => decide (p.1 = id))).map Prod.snd) := by
  intro l
  induction l with
  | nil => intro _ _; rfl
  | cons p t ih =>
    obtain ⟨k, a⟩ := p
    intro hk hs
    have hs' := List.pairwise_cons.1 hs
    have hkS : S k := hk (k, a) List.mem_cons_self
    have ih' := ih (fun p hp => hk p (List.mem_cons_of_mem _ hp)) hs'.2
    rw [find, VarId.lt_of_name (hc k id hkS hid), Res.ok_bind]
    by_cases h1 : k.name < id.name
    · have hne : k ≠ id := by rintro rfl; exact lt_irrefl _ h1
      simp only [h1, decide_true, if_true]
      rw [ih', List.find?_cons_of_neg (by simpa using hne)]
    · simp only [h1, decide_false, Bool.false_eq_true, if_false]
      rw [VarId.lt_of_name (hc id k hid hkS), Res.ok_bind]
      by_cases h2 : id.name < k.name
      · simp only [h2, decide_true, if_true]
        have : ((k, a) :: t).find? (fun p => decide (p.1 = id)) = none := by
          rw [List.find?_eq_none]
          intro q hq
          rcases List.mem_cons.1 hq with rfl | hq
          · simp only [decide_eq_true_eq]; rintro rfl; exact lt_irrefl _ h2
          · have := hs'.1 q hq
            simp only [decide_eq_true_eq]; rintro rfl; exact lt_asymm h2 this
        rw [this]; rfl
      · have e : k = id := hc k id hkS hid (le_antisymm (not_lt.1 h2) (not_lt.1 h1))
        simp only [h2, decide_false, Bool.false_eq_true, if_false]
        rw [List.find?_cons_of_pos (by simpa using e)]; rfl

theorem insert_spec (hc : Consistent S) {id : VarId} (hid : S id) (v : Nat) : ∀ {l : List (VarId × Nat)},
    (∀ p ∈ l, S p.1) → l.Pairwise (fun p q => p.1.name < q.1.name) → (∀ p ∈ l, p.1 ≠ id) →
    ∃ pre post, l = pre ++ post ∧ insert l id v = .ok (pre ++ (id, v) :: post) ∧
      (pre ++ (id, v) :: post).Pairwise (fun p q => p.1.name < q.1.name) := by
  intro l
  induction l with
  | nil => intro _ _ _; exact ⟨[], [], rfl, rfl, by simp⟩
  | cons p t ih =>
    obtain ⟨k, a⟩ := p
    intro hk hs hne
    have hs' := List.pairwise_cons.1 hs
    have hkS : S k := hk (k, a) List.mem_cons_self
    have hkne : k ≠ id := hne (k, a) List.mem_cons_self
    obtain ⟨pre, post, e1, e2, e3⟩ := ih (fun p hp => hk p (List.mem_cons_of_mem _ hp)) hs'.2
      (fun p hp => hne p (List.mem_cons_of_mem _ hp))
    rw [insert, VarId.lt_of_name (hc k id hkS hid), Res.ok_bind]
    by_cases h1 : k.name < id.name
    · refine ⟨(k, a) :: pre, post, by rw [e1]; rfl, ?_, ?_⟩
      · simp only [h1, decide_true, if_true]; rw [e2]; rfl
      · rw [List.cons_append, List.pairwise_cons]
        refine ⟨?_, e3⟩
        intro q hq
        rcases List.mem_append.1 hq with hq | hq
        · exact hs'.1 q (by rw [e1]; exact List.mem_append_left _ hq)
        · rcases List.mem_cons.1 hq with rfl | hq
          · exact h1
          · exact hs'.1 q (by rw [e1]; exact List.mem_append_right _ hq)
    · have h2 : id.name < k.name := by
        rcases lt_trichotomy k.name id.name with h | h | h
        · exact absurd h h1
        · exact absurd (hc k id hkS hid h) hkne
        · exact h
      refine ⟨[], (k, a) :: t, rfl, ?_, ?_⟩
      · simp only [h1, decide_false, Bool.false_eq_true, if_false]
        rw [VarId.lt_of_name (hc id k hid hkS), Res.ok_bind]
        simp only [h2, decide_true, if_true]; rfl
      · rw [List.nil_append, List.pairwise_cons]
        refine ⟨?_, hs⟩
        intro q hq
        rcases List.mem_cons.1 hq with rfl | hq
        · exact h2
        · exact lt_trans h2 (hs'.1 q hq)

namespace Good
variable {m : Mgr α}

theorem addr_iff (h : Good S m) {id : VarId} {a : Nat} : m.addr id = some a ↔ (id, a) ∈ m.vars := by
  unfold addr
  constructor
  · intro e
    obtain ⟨p, hp, rfl⟩ := Option.map_eq_some_iff.1 e
    have h1 := List.mem_of_find?_eq_some hp
    have h2 := List.find?_some hp
    simp only [decide_eq_true_eq] at h2
    rw [← h2]; exact h1
  · intro hm
    have hex : ∃ p, m.vars.find? (fun p => decide (p.1 = id)) = some p := by
      rw [← Option.isSome_iff_exists, List.find?_isSome]
      exact ⟨_, hm, by simp⟩
    obtain ⟨p, hp⟩ := hex
    have h1 := List.mem_of_find?_eq_some hp
    have h2 := List.find?_some hp
    simp only [decide_eq_true_eq] at h2
    rw [hp]
    have : p = (id, a) := by
      by_contra hne
      have key : ∀ p ∈ m.vars, ∀ q ∈ m.vars, p ≠ q → p.1.name ≠ q.1.name := by
        intro p hp q hq hne
        have hsym : m.vars.Pairwise (fun p q => p.1.name ≠ q.1.name) := h.sorted.imp (fun h => ne_of_lt h)
        exact pairwise_symm_forall hsym (fun _ _ h => h.symm) hp hq hne
      exact key p h1 (id, a) hm hne (by rw [h2])
    rw [this]; rfl

theorem find_eq (h : Good S m) {id : VarId} (hid : S id) : find m.vars id = .ok (m.addr id) :=
  find_spec h.consistent hid h.keys h.sorted

theorem addr_inj (h : Good S m) {x y : VarId} {a : Nat} (hx : m.addr x = some a) (hy : m.addr y = some a) : x = y := by
  rw [h.addr_iff] at hx hy
  have := h.separate
  rw [List.nodup_map_iff_inj_on] at this
  · exact congrArg Prod.fst (this _ hx _ hy rfl)
  · exact h.sorted.imp (fun {p q} hlt => by rintro rfl; exact lt_irrefl _ hlt)

theorem stored' (h : Good S m) {id : VarId} {a : Nat} (ha : m.addr id = some a) :
    ∃ v c, m.heap[a]? = some v ∧ v.name = id.name ∧ v.comps = id.comps ∧ v.basis = id.basis ∧
    v.meshGlobal = m.grid.rng.copy ∧
    v.dataR = Range.setup [(0, id.basis.points), (0, (id.comps.length : Int))] ∧
    v.chunks = ⟨Range.setup (chunkBox m.grid.rng.dims.length), [c]⟩ ∧
    m.contents id = some c := by
  obtain ⟨v, c, h1, h2, h3, h4, h5, h6, h7⟩ := h.stored _ (h.addr_iff.1 ha)
  refine ⟨v, c, h1, h2, h3, h4, h5, h6, h7, ?_⟩
  unfold contents
  rw [ha, Option.bind_some, h1, Option.bind_some, h7]; rfl

theorem contents_none (h : Good S m) {id : VarId} : m.contents id = none ↔ m.addr id = none := by
  constructor
  · intro e
    cases ha : m.addr id with
    | none => rfl
    | some a =>
      obtain ⟨v, c, _, _, _, _, _, _, _, hc⟩ := h.stored' ha
      rw [e] at hc; cases hc
  · intro e; unfold contents; rw [e]; rfl

theorem key_of_addr (h : Good S m) {id : VarId} {a : Nat} (ha : m.addr id = some a) : S id :=
  h.keys _ (h.addr_iff.1 ha)

end Good

/-- Replace the chunk of the variable stored at `a`. -/
def store (m : Mgr α) (a : Nat) (c : Chunk α) : Mgr α :=
  { m with heap := m.heap.modify a (fun v => { v with chunks := { v.chunks with data := [c] } }) }

theorem store_addr (m : Mgr α) (a : Nat) (c : Chunk α) : (m.store a c).addr = m.addr := rfl

theorem Extends.refl (m : Mgr α) : m.Extends m := ⟨rfl, rfl, rfl, fun _ _ h => h⟩
theorem Extends.trans {m m' m'' : Mgr α} (h : m.Extends m') (h' : m'.Extends m'') : m.Extends m'' :=
  ⟨h'.grid.trans h.grid, h'.dt.trans h.dt, h'.time.trans h.time, fun id a e => h'.addr id a (h.addr id a e)⟩
theorem store_extends (m : Mgr α) (a : Nat) (c : Chunk α) : m.Extends (m.store a c) :=
  ⟨rfl, rfl, rfl, fun _ _ h => h⟩

theorem Good.store {m : Mgr α} (h : Good S m) (a : Nat) (c : Chunk α) : Good S (m.store a c) := by
  refine ⟨h.consistent, h.points, h.mesh_ne, h.mesh_pos, h.keys, h.sorted, h.separate, ?_⟩
  intro p hp
  obtain ⟨v, c', h1, h2, h3, h4, h5, h6, h7⟩ := h.stored p hp
  by_cases e : a = p.2
  · refine ⟨{ v with chunks := { v.chunks with data := [c] } }, c, ?_, h2, h3, h4, h5, h6, ?_⟩
    · simp only [Mgr.store]
      simp [List.getElem?_modify, e, h1]
    · simp only [h7]; rfl
  · refine ⟨v, c', ?_, h2, h3, h4, h5, h6, h7⟩
    simp only [Mgr.store]
    simp [List.getElem?_modify, e, h1]

theorem Good.store_contents {m : Mgr α} (h : Good S m) {id : VarId} {a : Nat} (ha : m.addr id = some a) (c : Chunk α) :
    (m.store a c).contents = Function.update m.contents id (some c) := by
  funext id'
  by_cases e : id' = id
  · subst e
    rw [Function.update_self]
    obtain ⟨v, c', h1, _⟩ := h.stored' ha
    unfold contents
    rw [store_addr, ha, Option.bind_some]
    simp only [Mgr.store]
    simp [List.getElem?_modify, h1]
  · rw [Function.update_of_ne e]
    unfold contents
    rw [store_addr]
    cases ha' : m.addr id' with
    | none => rfl
    | some a' =>
      have hne : a ≠ a' := by rintro rfl; exact e (h.addr_inj ha' ha)
      simp only [Option.bind_some, Mgr.store]
      simp [List.getElem?_modify, hne]

end Mgr

namespace Solve
open SM
variable {α : Type} [Arith α] {S : VarId → Prop} {m : Mgr α}

/-- What one `output_variable` request does to the contents. -/
def created (zero : α) (mesh : Range) (A : VarId → Option (Chunk α)) (id : VarId) : VarId → Option (Chunk α) :=
  match A id with
  | some _ => A
  | none => Function.update A id (some (Mgr.fresh zero mesh id))

omit [Arith α] in
theorem created_self (zero : α) (mesh : Range) (A : VarId → Option (Chunk α)) (id : VarId) :
    created zero mesh A id = Function.update A id (some ((A id).getD (Mgr.fresh zero mesh id))) := by
  unfold created
  cases h : A id with
  | none => rfl
  | some c => simp only [Option.getD_some]; rw [← h, Function.update_eq_self]

theorem outputVar_existing (h : m.Good S) {id : VarId} (hid : S id) {a : Nat} (ha : m.addr id = some a) :
    outputVar id m = .ok a m := by
  unfold outputVar
  rw [get_bind, lift_bind (h.find_eq hid), ha]; rfl

omit [Arith α] in
theorem inputVar_existing (h : m.Good S) {id : VarId} (hid : S id) {a : Nat} (ha : m.addr id = some a) :
    inputVar id m = .ok a m := by
  unfold inputVar
  rw [get_bind, lift_bind (h.find_eq hid), ha]; rfl

theorem fresh_spec (zero : α) {mesh : Range} (hn : mesh.dims ≠ []) (hM : Pos mesh.dims) {id : VarId}
    (hp : 0 ≤ id.basis.points) :
    Chunk.default.resize zero mesh (Range.setup (dataBox id.basis.points id.comps.length)) 2 = .ok (Mgr.fresh zero mesh id) ∧
    (Mgr.fresh zero mesh id).Layout 2 mesh.dims (dataBox id.basis.points id.comps.length) ∧
    (Mgr.fresh zero mesh id).arr.data = List.replicate (Mgr.fresh zero mesh id).arr.rng.volume.toNat zero := by
  obtain ⟨c, h1, _, h2, h3⟩ := Var.make_spec zero id.name id.comps id.basis (g := 2) (by decide) hn hM hp
  have : Mgr.fresh zero mesh id = c := by
    unfold Mgr.fresh
    have e : Chunk.default.resize zero mesh (Range.setup [(0, id.basis.points), (0, (id.comps.length : Int))]) 2 = .ok c := h1
    rw [e]
  rw [this]; exact ⟨h1, h2, h3⟩

theorem addVar_spec (h : m.Good S) {id : VarId} (hid : S id) (ha : m.addr id = none) :
    ∃ m', addVar id m = .ok () m' ∧ m'.Good S ∧ m.Extends m' ∧
      m'.addr = Function.update m.addr id (some m.heap.length) ∧
      m'.contents = Function.update m.contents id (some (Mgr.fresh (Arith.lit 0) m.grid.rng id)) := by
  obtain ⟨c, h1, h2, h3, h4⟩ := Var.make_spec (Arith.lit 0 : α) id.name id.comps id.basis (g := 2) (by decide)
    h.mesh_ne h.mesh_pos (h.points id hid)
  have hc : c = Mgr.fresh (Arith.lit 0) m.grid.rng id := by
    have := (fresh_spec (Arith.lit 0 : α) h.mesh_ne h.mesh_pos (h.points id hid)).1
    rw [h1] at this; exact Res.ok.inj this
  have hnk : ∀ p ∈ m.vars, p.1 ≠ id := by
    intro p hp e
    have : m.addr id = some p.2 := h.addr_iff.2 (by rw [← e]; exact hp)
    rw [ha] at this; cases this
  obtain ⟨pre, post, e1, e2, e3⟩ := Mgr.insert_spec h.consistent hid m.heap.length h.keys h.sorted hnk
  have hlt : ∀ p ∈ m.vars, p.2 < m.heap.length := by
    intro p hp
    obtain ⟨v, _, hv, _⟩ := h.stored p hp
    exact (List.getElem?_eq_some_iff.1 hv).1
  have hmem : ∀ p, p ∈ pre ++ (id, m.heap.length) :: post ↔ p = (id, m.heap.length) ∨ p ∈ m.vars := by
    intro p; rw [e1]; simp only [List.mem_append, List.mem_cons]; tauto
  generalize hv : (Var.mk id.name id.comps id.basis (Range.setup (dataBox id.basis.points id.comps.length))
    m.grid.rng.copy ⟨Range.setup (chunkBox m.grid.rng.dims.length), [c]⟩ : Var α) = v at h2
  have hG : Mgr.Good S { m with vars := pre ++ (id, m.heap.length) :: post, heap := m.heap ++ [v] } := by
    refine ⟨h.consistent, h.points, h.mesh_ne, h.mesh_pos, ?_, e3, ?_, ?_⟩
    · intro p hp
      rcases (hmem p).1 hp with rfl | hp
      · exact hid
      · exact h.keys p hp
    · have hs := h.separate
      rw [e1, List.map_append] at hs
      rw [List.map_append, List.map_cons]
      rw [List.nodup_middle, List.nodup_cons]
      refine ⟨?_, hs⟩
      intro hm
      rw [← List.map_append, ← e1] at hm
      obtain ⟨p, hp, e⟩ := List.mem_map.1 hm
      have := hlt p hp
      omega
    · intro p hp
      rcases (hmem p).1 hp with rfl | hp
      · refine ⟨v, c, ?_, ?_⟩
        · show (m.heap ++ [v])[m.heap.length]? = some v
          simp
        · rw [← hv]; exact ⟨rfl, rfl, rfl, rfl, rfl, rfl⟩
      · obtain ⟨w, c', hw, h'⟩ := h.stored p hp
        refine ⟨w, c', ?_, h'⟩
        show (m.heap ++ [v])[p.2]? = some w
        rw [List.getElem?_append_left (hlt p hp)]; exact hw
  have hA : (Mgr.addr { m with vars := pre ++ (id, m.heap.length) :: post, heap := m.heap ++ [v] })
      = Function.update m.addr id (some m.heap.length) := by
    funext id'
    by_cases e : id' = id
    · subst e
      rw [Function.update_self, hG.addr_iff]
      exact (hmem _).2 (.inl rfl)
    · rw [Function.update_of_ne e]
      apply Option.ext
      intro a
      rw [hG.addr_iff, h.addr_iff]
      show (id', a) ∈ pre ++ (id, m.heap.length) :: post ↔ _
      rw [hmem]
      constructor
      · rintro (he | he)
        · exact absurd (congrArg Prod.fst he) e
        · exact he
      · exact .inr
  refine ⟨_, ?_, hG, ⟨rfl, rfl, rfl, ?_⟩, hA, ?_⟩
  · unfold addVar
    rw [get_bind, lift_bind (h.find_eq hid), ha]
    simp only
    rw [lift_bind h2, lift_bind e2]; rfl
  · intro id' a ha'
    rw [hA, Function.update_of_ne ?_]
    · exact ha'
    · rintro rfl; rw [ha] at ha'; cases ha'
  · funext id'
    unfold Mgr.contents
    rw [hA]
    by_cases e : id' = id
    · subst e
      rw [Function.update_self, Function.update_self, Option.bind_some]
      show ((m.heap ++ [v])[m.heap.length]?).bind _ = _
      simp [← hv, ← hc]
    · rw [Function.update_of_ne e, Function.update_of_ne e]
      cases ha' : m.addr id' with
      | none => rfl
      | some a' =>
        have := hlt _ (h.addr_iff.1 ha')
        simp only [Option.bind_some]
        rw [List.getElem?_append_left this]

theorem outputVar_spec (h : m.Good S) {id : VarId} (hid : S id) :
    ∃ a m', outputVar id m = .ok a m' ∧ m'.Good S ∧ m.Extends m' ∧ m'.addr id = some a ∧
      m'.contents = created (Arith.lit 0) m.grid.rng m.contents id ∧
      (∀ b, m.addr id = some b → a = b ∧ m' = m) := by
  cases ha : m.addr id with
  | some a =>
    obtain ⟨v, c, _, _, _, _, _, _, _, hc⟩ := h.stored' ha
    exact ⟨a, m, outputVar_existing h hid ha, h, .refl m, ha, by unfold created; rw [hc],
      fun b hb => ⟨Option.some.inj hb, rfl⟩⟩
  | none =>
    obtain ⟨m', h1, h2, h3, h4, h5⟩ := addVar_spec h hid ha
    have ha' : m'.addr id = some m.heap.length := by rw [h4, Function.update_self]
    refine ⟨m.heap.length, m', ?_, h2, h3, ha', ?_, fun b hb => by cases hb⟩
    · unfold outputVar
      rw [get_bind, lift_bind (h.find_eq hid), ha]
      simp only
      rw [bind_ok h1]
      exact inputVar_existing h2 hid ha'
    · unfold created
      rw [h.contents_none.2 ha]
      exact h5

theorem chunkAt_spec (h : m.Good S) {id : VarId} {a : Nat} (ha : m.addr id = some a) {c : Chunk α}
    (hc : m.contents id = some c) {idx : Indexer} (hi : idx.linear = 0) : chunkAt m a idx = .ok c := by
  obtain ⟨v, c', h1, _, _, _, _, _, h7, h8⟩ := h.stored' ha
  rw [hc] at h8; cases h8
  unfold chunkAt
  rw [vget_ok h1, Res.ok_bind, h7]
  unfold IFace.get; rw [hi]; rfl

theorem setChunk_spec (h : m.Good S) {id : VarId} {a : Nat} (ha : m.addr id = some a) (c : Chunk α)
    {idx : Indexer} (hi : idx.linear = 0) : setChunk m a idx c = .ok (m.store a c) := by
  obtain ⟨v, c', h1, _, _, _, _, _, h7, _⟩ := h.stored' ha
  have hlt := (List.getElem?_eq_some_iff.1 h1).1
  have hput : v.chunks.put idx c = .ok { v.chunks with data := [c] } := by
    unfold IFace.put; rw [hi, h7]; rfl
  unfold setChunk
  rw [vget_ok h1, Res.ok_bind, hput, Res.ok_bind, vset_nat hlt, Res.ok_bind]
  unfold Mgr.store
  have : m.heap.set a { v with chunks := { v.chunks with data := [c] } } =
      m.heap.modify a (fun v => { v with chunks := { v.chunks with data := [c] } }) := by
    rw [List.modify_eq_set_getElem?, h1]; rfl
  rw [this]; rfl

theorem forChunks_spec (h : m.Good S) {id : VarId} {a : Nat} (ha : m.addr id = some a)
    {body : Indexer → Mgr α → Res (Mgr α)} {m' : Mgr α}
    (hb : ∀ idx : Indexer, idx.linear = 0 → body idx m = .ok m') : forChunks a body m = .ok () m' := by
  obtain ⟨v, c', h1, _, _, _, _, _, h7, _⟩ := h.stored' ha
  have hne : chunkBox m.grid.rng.dims.length ≠ [] := by
    intro e
    have := congrArg List.length e
    simp only [chunkBox, List.length_replicate, List.length_nil] at this
    exact h.mesh_ne (List.length_eq_zero_iff.1 this)
  apply modifyRes_ok
  rw [vget_ok h1, Res.ok_bind, h7]
  unfold IFace.indexer
  rw [Indexer.forEach_make hne ((within_iff _ _).2 ⟨rfl, fun j hj => ⟨le_refl _, le_refl _⟩⟩) (pos_chunkBox _)]
  simp only [Range.setup_dims, cells_chunkBox, List.foldlM_cons, List.foldlM_nil]
  rw [hb _ (by simp [Indexer.onCell, offset_chunkBox])]; rfl

/-- One round of the loop over output variables. -/
theorem eachOutput_cons (h : m.Good S) {id : VarId} (hid : S id) {f : Chunk α → Res (Chunk α)} {ids : List VarId}
    {c c' : Chunk α} (hc : created (Arith.lit 0) m.grid.rng m.contents id id = some c) (hf : f c = .ok c') :
    ∃ m', m'.Good S ∧ m.Extends m' ∧
      m'.contents = Function.update m.contents id (some c') ∧
      eachOutput f (id :: ids) m = eachOutput f ids m' := by
  obtain ⟨a, m1, h1, h2, h3, h4, h5, _⟩ := outputVar_spec h hid
  have hc1 : m1.contents id = some c := by rw [h5]; exact hc
  refine ⟨m1.store a c', h2.store a c', h3.trans (Mgr.store_extends _ _ _), ?_, ?_⟩
  · rw [h2.store_contents h4, h5]
    unfold created
    split
    · rfl
    · simp
  · rw [eachOutput, bind_ok h1]
    have hb : forChunks a (fun idx m => do
        let c ← chunkAt m a idx
        let c' ← f c
        setChunk m a idx c') m1 = .ok () (m1.store a c') := by
      apply forChunks_spec h2 h4
      intro idx hi
      rw [chunkAt_spec h2 h4 hc1 hi, Res.ok_bind, hf, Res.ok_bind, setChunk_spec h2 h4 _ hi]
    rw [bind_ok hb]

end Solve
end QK
