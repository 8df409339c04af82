import Verif.Model.Solvers
import Verif.Spec.Vtk
import Verif.Proofs.Manager
import Verif.Proofs.Stage
/- Lemmas about solvers on the variable manager. -/
namespace QK
open Spec

namespace Mgr
variable {α : Type} {S : VarId → Prop} {m m' : Mgr α}

theorem requested_nil (zero : α) (m : Mgr α) : m.requested zero [] = m.contents := by
  funext id
  unfold requested
  split
  · rename_i c h; rw [h]
  · rename_i h; rw [h]; rfl

theorem requested_cons (zero : α) {id : VarId} (hg : m'.grid = m.grid) (hc : m'.contents = m.requested zero [id]) (ids : List VarId) :
    m'.requested zero ids = m.requested zero (id :: ids) := by
  funext x
  have e : m'.contents x = m.requested zero [id] x := congrFun hc x
  unfold requested at e ⊢
  rw [e, hg]
  cases m.contents x with
  | some c => rfl
  | none =>
    by_cases hx : x = id
    · simp [hx]
    · simp [hx]

theorem requested_some (zero : α) {id : VarId} {c : Chunk α} (h : m.contents id = some c) (ids : List VarId) :
    m.requested zero ids id = some c := by unfold requested; rw [h]

theorem requested_mem (zero : α) {id : VarId} {ids : List VarId} (h : id ∈ ids) : ∃ c, m.requested zero ids id = some c := by
  unfold requested
  cases m.contents id with
  | some c => exact ⟨c, rfl⟩
  | none => exact ⟨_, if_pos h⟩

/-- Nothing new if all of the variables exist. -/
theorem requested_existing (zero : α) {ids : List VarId} (h : ∀ id ∈ ids, m.contents id ≠ none) :
    m.requested zero ids = m.contents := by
  funext x
  unfold requested
  cases e : m.contents x with
  | some c => rfl
  | none =>
    simp only
    rw [if_neg (fun hx => h x hx e)]

theorem Laid.store (hG : m.Good S) (hL : m.Laid) {id : VarId} {a : Nat} (ha : m.addr id = some a) {c c' : Chunk α}
    (hc : m.contents id = some c) (hs : c.SameShape c') : (m.store a c').Laid := by
  intro x d hd
  rw [hG.store_contents ha] at hd
  by_cases e : x = id
  · subst e
    rw [Function.update_self] at hd; cases hd
    exact (hL x c hc).sameShape hs
  · rw [Function.update_of_ne e] at hd; exact hL x d hd

end Mgr

namespace Solve
open SM
variable {α : Type} [Arith α] {S : VarId → Prop} {m : Mgr α}

theorem outputVar_requested (h : m.Good S) (hL : m.Laid) {id : VarId} (hid : S id) :
    ∃ a m', outputVar id m = .ok a m' ∧ m'.Good S ∧ m'.Laid ∧ m.Extends m' ∧ m'.addr id = some a ∧
      m'.contents = m.requested (Arith.lit 0) [id] := by
  obtain ⟨a, m', h1, h2, h3, h4, h5, _⟩ := outputVar_spec h hid
  have hc : m'.contents = m.requested (Arith.lit 0) [id] := by
    rw [h5]
    funext x
    unfold created Mgr.requested
    cases e : m.contents id with
    | some c =>
      simp only
      cases e' : m.contents x with
      | some d => rfl
      | none =>
        have : x ≠ id := by rintro rfl; rw [e] at e'; cases e'
        simp [this]
    | none =>
      simp only
      by_cases hx : x = id
      · subst hx; rw [Function.update_self, e]; simp
      · rw [Function.update_of_ne hx]
        cases m.contents x <;> simp [hx]
  refine ⟨a, m', h1, h2, ?_, h3, h4, hc⟩
  intro x c hx
  rw [h3.grid]
  rw [hc] at hx
  unfold Mgr.requested at hx
  cases e : m.contents x with
  | some d => rw [e] at hx; cases hx; exact hL x c e
  | none =>
    rw [e] at hx
    simp only at hx
    split at hx
    · rename_i hm
      cases hx
      have : x = id := by simpa using hm
      subst this
      exact (fresh_spec (Arith.lit 0) h.mesh_ne h.mesh_pos (h.points x hid)).2.1
    · cases hx

/-- The addresses of existing variables differ if the ids do. -/
theorem addr_ne {x y : VarId} {a b : Nat} (h : m.Good S) (hx : m.addr x = some a) (hy : m.addr y = some b) (hne : x ≠ y) : (a == b) = false := by
  rw [beq_eq_false_iff_ne]
  rintro rfl
  exact hne (h.addr_inj hx hy)

omit [Arith α] in
theorem exists_addr (h : m.Good S) {id : VarId} {c : Chunk α} (hc : m.contents id = some c) : ∃ a, m.addr id = some a := by
  cases ha : m.addr id with
  | none => rw [h.contents_none.2 ha] at hc; cases hc
  | some a => exact ⟨a, rfl⟩

theorem kernelLoop_spec (h : m.Good S) {x y : VarId} {a b : Nat} (hx : m.addr x = some a) (hy : m.addr y = some b)
    {srcs : List Nat} {cs : List (Chunk α)}
    (hs : List.Forall₂ (fun s c => ∃ id, m.addr id = some s ∧ m.contents id = some c) srcs cs)
    {c c' : Chunk α} (hc : m.contents y = some c)
    {f : Mgr α → List (Chunk α) → Chunk α → Res (Chunk α)} (hf : f m cs c = .ok c') :
    kernelLoop a b srcs f m = .ok () (m.store b c') := by
  unfold kernelLoop
  apply forChunks_spec h hx
  intro idx hi
  have hm : srcs.mapM (fun s => chunkAt m s idx) = .ok cs := by
    clear hf
    induction hs with
    | nil => rfl
    | cons hd _ ih =>
      obtain ⟨id, h1, h2⟩ := hd
      rw [List.mapM_cons, chunkAt_spec h h1 h2 hi, Res.ok_bind, ih]; rfl
  rw [hm, Res.ok_bind, chunkAt_spec h hy hc hi, Res.ok_bind, hf, Res.ok_bind, setChunk_spec h hy _ hi]

theorem kernelLoop_ub (h : m.Good S) {x y : VarId} {a b : Nat} (hx : m.addr x = some a) (hy : m.addr y = some b)
    {srcs : List Nat} {cs : List (Chunk α)}
    (hs : List.Forall₂ (fun s c => ∃ id, m.addr id = some s ∧ m.contents id = some c) srcs cs)
    {c : Chunk α} (hc : m.contents y = some c)
    {f : Mgr α → List (Chunk α) → Chunk α → Res (Chunk α)} {w : String} (hf : f m cs c = .ub w) :
    kernelLoop a b srcs f m = .ub w := by
  obtain ⟨v, c', h1, _, _, _, _, _, h7, _⟩ := h.stored' hx
  have hne : chunkBox m.grid.rng.dims.length ≠ [] := by
    intro e
    have := congrArg List.length e
    simp only [chunkBox, List.length_replicate, List.length_nil] at this
    exact h.mesh_ne (List.length_eq_zero_iff.1 this)
  have hm : ∀ idx : Indexer, idx.linear = 0 → srcs.mapM (fun s => chunkAt m s idx) = .ok cs := by
    intro idx hi
    clear hf
    induction hs with
    | nil => rfl
    | cons hd _ ih =>
      obtain ⟨id, h1, h2⟩ := hd
      rw [List.mapM_cons, chunkAt_spec h h1 h2 hi, Res.ok_bind, ih]; rfl
  unfold kernelLoop forChunks modifyRes
  simp only []
  rw [vget_ok h1, Res.ok_bind, h7]
  unfold IFace.indexer
  rw [Indexer.forEach_make hne ((within_iff _ _).2 ⟨rfl, fun j hj => ⟨le_refl _, le_refl _⟩⟩) (pos_chunkBox _)]
  simp only [Range.setup_dims, cells_chunkBox, List.foldlM_cons, List.foldlM_nil]
  have hb : ∀ idx : Indexer, idx.linear = 0 → (do
      let cs ← srcs.mapM (fun s => chunkAt m s idx)
      let c ← chunkAt m b idx
      let c' ← f m cs c
      setChunk m b idx c' : Res (Mgr α)) = .ub w := by
    intro idx hi
    rw [hm _ hi, Res.ok_bind, chunkAt_spec h hy hc hi, Res.ok_bind, hf]; rfl
  rw [hb _ (by simp [Indexer.onCell, offset_chunkBox])]; rfl

omit [Arith α] in
theorem _root_.QK.RKVars.layout {q rhs q1 q2 q3 : VarId} (V : RKVars S q rhs q1 q2 q3) (hL : m.Laid) {id : VarId}
    (hid : id ∈ [q, rhs, q1, q2, q3]) {c : Chunk α} (hc : m.contents id = some c) :
    c.Layout 2 m.grid.rng.dims [(0, q.basis.points), (0, (q.comps.length : Int))] := by
  have := hL id c hc
  rwa [V.comps id hid, V.basis id hid] at this

/-- Up to the loop, `ssprk3::solve` only requests variables. -/
theorem ssprk3_enter {q rhs q1 q2 q3 : VarId} (V : RKVars S q rhs q1 q2 q3) (h : m.Good S) (hL : m.Laid) {t : α} (ht : m.dt = some t)
    {c0 r : Chunk α} (h0 : m.contents q = some c0) (hr : m.contents rhs = some r) (al : Bool) (os : List VarId) (tag : Int) :
    ∃ m1 a0 ar a1 a2 a3, m1.Good S ∧ m1.Laid ∧ m.Extends m1 ∧
      m1.contents = m.requested (Arith.lit 0) [q1, q2, q3] ∧
      m1.addr q = some a0 ∧ m1.addr rhs = some ar ∧ m1.addr q1 = some a1 ∧ m1.addr q2 = some a2 ∧ m1.addr q3 = some a3 ∧
      ssprk3 al [q, rhs] (q1 :: q2 :: q3 :: os) tag m = ssprk3Loop al t a0 ar a1 a2 a3 tag m1 := by
  have k0 := V.known q (by simp)
  have kr := V.known rhs (by simp)
  obtain ⟨a0, ha0⟩ := exists_addr h h0
  obtain ⟨ar, har⟩ := exists_addr h hr
  obtain ⟨a1, m1, e1, g1, l1, x1, b1, c1⟩ := outputVar_requested h hL (V.known q1 (by simp))
  obtain ⟨a2, m2, e2, g2, l2, x2, b2, c2⟩ := outputVar_requested g1 l1 (V.known q2 (by simp))
  obtain ⟨a3, m3, e3, g3, l3, x3, b3, c3⟩ := outputVar_requested g2 l2 (V.known q3 (by simp))
  refine ⟨m3, a0, ar, a1, a2, a3, g3, l3, x1.trans (x2.trans x3), ?_, x3.addr _ _ (x2.addr _ _ (x1.addr _ _ ha0)),
    x3.addr _ _ (x2.addr _ _ (x1.addr _ _ har)), x3.addr _ _ (x2.addr _ _ b1), x3.addr _ _ b2, b3, ?_⟩
  · rw [c3, Mgr.requested_cons _ x2.grid c2, Mgr.requested_cons _ x1.grid c1]
  · unfold ssprk3
    simp only
    have hdt : dt m = .ok t m := by
      unfold dt; rw [get_bind, ht]; rfl
    rw [bind_ok hdt, bind_ok (inputVar_existing h k0 ha0), bind_ok (inputVar_existing h kr har), bind_ok e1, bind_ok e2, bind_ok e3]

/-- Stage 0 on the manager. -/
theorem ssprk3_stage0 {q rhs q1 q2 q3 : VarId} (V : RKVars S q rhs q1 q2 q3) (h : m.Good S) (hL : m.Laid) {t : α} (ht : m.dt = some t)
    {c0 r : Chunk α} (h0 : m.contents q = some c0) (hr : m.contents rhs = some r) (os : List VarId) :
    ∃ m' c, ssprk3 true [q, rhs] (q1 :: q2 :: q3 :: os) 0 m = .ok () m' ∧ m'.Good S ∧ m'.Laid ∧ m.Extends m' ∧
      m'.contents = Function.update (m.requested (Arith.lit 0) [q1, q2, q3]) q1 (some c) ∧
      ∀ x a b, c0.arr.val x = some a → r.arr.val x = some b → c.arr.val x = some (a + t * b) := by
  obtain ⟨m1, a0, ar, a1, a2, a3, g1, l1, x1, k1, b0, br, b1, b2, b3, e⟩ := ssprk3_enter V h hL ht h0 hr true os 0
  have nd := V.nodup
  simp only [List.nodup_cons, List.mem_cons, List.not_mem_nil, or_false, not_or] at nd
  have d0 : m1.contents q = some c0 := by rw [k1]; exact Mgr.requested_some _ h0 _
  have dr : m1.contents rhs = some r := by rw [k1]; exact Mgr.requested_some _ hr _
  obtain ⟨c1, d1⟩ : ∃ c, m1.contents q1 = some c := by rw [k1]; exact Mgr.requested_mem _ (by simp)
  obtain ⟨c', s1, s2, s3⟩ := RK.stage0_spec t (V.layout l1 (by simp) d0) (V.layout l1 (by simp) dr) (V.layout l1 (by simp) d1)
  refine ⟨m1.store a1 c', c', ?_, g1.store _ _, Mgr.Laid.store g1 l1 b1 d1 s2, x1.trans (Mgr.store_extends _ _ _), ?_, s3⟩
  · rw [e]
    unfold ssprk3Loop
    rw [if_pos rfl]
    refine kernelLoop_spec g1 b0 b1 (cs := [c0, r]) (.cons ⟨q, b0, d0⟩ (.cons ⟨rhs, br, dr⟩ .nil)) d1 ?_
    rw [addr_ne g1 b0 b1 (by tauto), addr_ne g1 br b1 (by tauto)]
    exact s1
  · rw [g1.store_contents b1, k1]

/-- Stage 1 on the manager. -/
theorem ssprk3_stage1 {q rhs q1 q2 q3 : VarId} (V : RKVars S q rhs q1 q2 q3) (h : m.Good S) (hL : m.Laid) {t : α} (ht : m.dt = some t)
    {c0 r : Chunk α} (h0 : m.contents q = some c0) (hr : m.contents rhs = some r) (os : List VarId) :
    ∃ m' c1 c, ssprk3 true [q, rhs] (q1 :: q2 :: q3 :: os) 1 m = .ok () m' ∧ m'.Good S ∧ m'.Laid ∧ m.Extends m' ∧
      m.requested (Arith.lit 0) [q1, q2, q3] q1 = some c1 ∧
      m'.contents = Function.update (m.requested (Arith.lit 0) [q1, q2, q3]) q2 (some c) ∧
      ∀ x a b b', c0.arr.val x = some a → c1.arr.val x = some b → r.arr.val x = some b' →
        c.arr.val x = some (Arith.lit (3 / 4) * a + Arith.lit (1 / 4) * b + Arith.lit (1 / 4) * t * b') := by
  obtain ⟨m1, a0, ar, a1, a2, a3, g1, l1, x1, k1, b0, br, b1, b2, b3, e⟩ := ssprk3_enter V h hL ht h0 hr true os 1
  have nd := V.nodup
  simp only [List.nodup_cons, List.mem_cons, List.not_mem_nil, or_false, not_or] at nd
  have d0 : m1.contents q = some c0 := by rw [k1]; exact Mgr.requested_some _ h0 _
  have dr : m1.contents rhs = some r := by rw [k1]; exact Mgr.requested_some _ hr _
  obtain ⟨c1, d1⟩ : ∃ c, m1.contents q1 = some c := by rw [k1]; exact Mgr.requested_mem _ (by simp)
  obtain ⟨c2, d2⟩ : ∃ c, m1.contents q2 = some c := by rw [k1]; exact Mgr.requested_mem _ (by simp)
  obtain ⟨c', s1, s2, s3⟩ := RK.stage1_spec t (V.layout l1 (by simp) d0) (V.layout l1 (by simp) d1) (V.layout l1 (by simp) dr) (V.layout l1 (by simp) d2)
  refine ⟨m1.store a2 c', c1, c', ?_, g1.store _ _, Mgr.Laid.store g1 l1 b2 d2 s2, x1.trans (Mgr.store_extends _ _ _), by rw [← k1]; exact d1, ?_, s3⟩
  · rw [e]
    unfold ssprk3Loop
    rw [if_neg (by decide), if_pos rfl]
    refine kernelLoop_spec g1 b0 b2 (cs := [c0, c1, r]) (.cons ⟨q, b0, d0⟩ (.cons ⟨q1, b1, d1⟩ (.cons ⟨rhs, br, dr⟩ .nil))) d2 ?_
    rw [addr_ne g1 b0 b2 (by tauto), addr_ne g1 br b2 (by tauto), addr_ne g1 b1 b2 (by tauto)]
    exact s1
  · rw [g1.store_contents b2, k1]

/-- Stage 2 on the manager. -/
theorem ssprk3_stage2 {q rhs q1 q2 q3 : VarId} (V : RKVars S q rhs q1 q2 q3) (h : m.Good S) (hL : m.Laid) {t : α} (ht : m.dt = some t)
    {c0 r : Chunk α} (h0 : m.contents q = some c0) (hr : m.contents rhs = some r) (os : List VarId) :
    ∃ m' c2 c, ssprk3 true [q, rhs] (q1 :: q2 :: q3 :: os) 2 m = .ok () m' ∧ m'.Good S ∧ m'.Laid ∧ m.Extends m' ∧
      m.requested (Arith.lit 0) [q1, q2, q3] q2 = some c2 ∧
      m'.contents = Function.update (m.requested (Arith.lit 0) [q1, q2, q3]) q3 (some c) ∧
      ∀ x a b b', c0.arr.val x = some a → c2.arr.val x = some b → r.arr.val x = some b' →
        c.arr.val x = some ((a + Arith.lit 2 * (b + t * b')) / Arith.lit 3) := by
  obtain ⟨m1, a0, ar, a1, a2, a3, g1, l1, x1, k1, b0, br, b1, b2, b3, e⟩ := ssprk3_enter V h hL ht h0 hr true os 2
  have nd := V.nodup
  simp only [List.nodup_cons, List.mem_cons, List.not_mem_nil, or_false, not_or] at nd
  have d0 : m1.contents q = some c0 := by rw [k1]; exact Mgr.requested_some _ h0 _
  have dr : m1.contents rhs = some r := by rw [k1]; exact Mgr.requested_some _ hr _
  obtain ⟨c1, d1⟩ : ∃ c, m1.contents q1 = some c := by rw [k1]; exact Mgr.requested_mem _ (by simp)
  obtain ⟨c2, d2⟩ : ∃ c, m1.contents q2 = some c := by rw [k1]; exact Mgr.requested_mem _ (by simp)
  obtain ⟨c3, d3⟩ : ∃ c, m1.contents q3 = some c := by rw [k1]; exact Mgr.requested_mem _ (by simp)
  obtain ⟨c', s1, s2, s3⟩ := RK.stage2_spec t (V.layout l1 (by simp) d0) (V.layout l1 (by simp) d2) (V.layout l1 (by simp) dr) (V.layout l1 (by simp) d3)
  refine ⟨m1.store a3 c', c2, c', ?_, g1.store _ _, Mgr.Laid.store g1 l1 b3 d3 s2, x1.trans (Mgr.store_extends _ _ _), by rw [← k1]; exact d2, ?_, s3⟩
  · rw [e]
    unfold ssprk3Loop
    rw [if_neg (by decide), if_neg (by decide), if_pos rfl]
    refine kernelLoop_spec g1 b0 b3 (cs := [c0, c1, c2, r])
      (.cons ⟨q, b0, d0⟩ (.cons ⟨q1, b1, d1⟩ (.cons ⟨q2, b2, d2⟩ (.cons ⟨rhs, br, dr⟩ .nil)))) d3 ?_
    rw [addr_ne g1 b0 b3 (by tauto), addr_ne g1 br b3 (by tauto), addr_ne g1 b2 b3 (by tauto)]
    exact s1
  · rw [g1.store_contents b3, k1]

/-- Any other tag only requests variables. -/
theorem ssprk3_other {q rhs q1 q2 q3 : VarId} (V : RKVars S q rhs q1 q2 q3) (h : m.Good S) (hL : m.Laid) {t : α} (ht : m.dt = some t)
    {c0 r : Chunk α} (h0 : m.contents q = some c0) (hr : m.contents rhs = some r) (al : Bool) (os : List VarId) {tag : Int}
    (n0 : tag ≠ 0) (n1 : tag ≠ 1) (n2 : tag ≠ 2) :
    ∃ m', ssprk3 al [q, rhs] (q1 :: q2 :: q3 :: os) tag m = .ok () m' ∧ m'.Good S ∧ m'.Laid ∧ m.Extends m' ∧
      m'.contents = m.requested (Arith.lit 0) [q1, q2, q3] := by
  obtain ⟨m1, a0, ar, a1, a2, a3, g1, l1, x1, k1, b0, br, b1, b2, b3, e⟩ := ssprk3_enter V h hL ht h0 hr al os tag
  refine ⟨m1, ?_, g1, l1, x1, k1⟩
  rw [e]
  unfold ssprk3Loop
  rw [if_neg n0, if_neg n1, if_neg n2]
  exact forChunks_spec g1 b0 fun _ _ => rfl

/-- Without the assumed alignment every stage is undefined. -/
theorem ssprk3_misaligned {q rhs q1 q2 q3 : VarId} (V : RKVars S q rhs q1 q2 q3) (h : m.Good S) (hL : m.Laid) {t : α} (ht : m.dt = some t)
    {c0 r : Chunk α} (h0 : m.contents q = some c0) (hr : m.contents rhs = some r) (os : List VarId) {tag : Int}
    (htag : tag = 0 ∨ tag = 1 ∨ tag = 2) :
    ∃ w, ssprk3 false [q, rhs] (q1 :: q2 :: q3 :: os) tag m = .ub w := by
  obtain ⟨m1, a0, ar, a1, a2, a3, g1, l1, x1, k1, b0, br, b1, b2, b3, e⟩ := ssprk3_enter V h hL ht h0 hr false os tag
  have d0 : m1.contents q = some c0 := by rw [k1]; exact Mgr.requested_some _ h0 _
  have dr : m1.contents rhs = some r := by rw [k1]; exact Mgr.requested_some _ hr _
  obtain ⟨c1, d1⟩ : ∃ c, m1.contents q1 = some c := by rw [k1]; exact Mgr.requested_mem _ (by simp)
  obtain ⟨c2, d2⟩ : ∃ c, m1.contents q2 = some c := by rw [k1]; exact Mgr.requested_mem _ (by simp)
  obtain ⟨c3, d3⟩ : ∃ c, m1.contents q3 = some c := by rw [k1]; exact Mgr.requested_mem _ (by simp)
  refine ⟨"pointer is not aligned as assumed", ?_⟩
  rw [e]
  unfold ssprk3Loop
  rcases htag with rfl | rfl | rfl
  · rw [if_pos rfl]
    exact kernelLoop_ub g1 b0 b1 (cs := [c0, r]) (.cons ⟨q, b0, d0⟩ (.cons ⟨rhs, br, dr⟩ .nil)) d1 rfl
  · rw [if_neg (by decide), if_pos rfl]
    exact kernelLoop_ub g1 b0 b2 (cs := [c0, c1, r]) (.cons ⟨q, b0, d0⟩ (.cons ⟨q1, b1, d1⟩ (.cons ⟨rhs, br, dr⟩ .nil))) d2 rfl
  · rw [if_neg (by decide), if_neg (by decide), if_pos rfl]
    exact kernelLoop_ub g1 b0 b3 (cs := [c0, c1, c2, r])
      (.cons ⟨q, b0, d0⟩ (.cons ⟨q1, b1, d1⟩ (.cons ⟨q2, b2, d2⟩ (.cons ⟨rhs, br, dr⟩ .nil)))) d3 rfl

/-- `rk1` with tag 0. -/
theorem rk1_stage0 {q rhs q1 : VarId} (k : ∀ id ∈ [q, rhs, q1], S id) (nq : q ≠ q1) (nr : rhs ≠ q1)
    (hcomps : rhs.comps = q.comps ∧ q1.comps = q.comps) (hbasis : rhs.basis = q.basis ∧ q1.basis = q.basis)
    (h : m.Good S) (hL : m.Laid) {t : α} (ht : m.dt = some t)
    {c0 r : Chunk α} (h0 : m.contents q = some c0) (hr : m.contents rhs = some r) (os : List VarId) :
    (∃ m' c, rk1 [q, rhs] (q1 :: os) 0 m = .ok () m' ∧ m'.Good S ∧ m'.Laid ∧ m.Extends m' ∧
      m'.contents = Function.update (m.requested (Arith.lit 0) [q1]) q1 (some c) ∧
      ∀ x a b, c0.arr.val x = some a → r.arr.val x = some b → c.arr.val x = some (a + t * b)) ∧
    ∀ tag, tag ≠ 0 → ∃ m', rk1 [q, rhs] (q1 :: os) tag m = .ok () m' ∧ m'.Good S ∧ m'.Laid ∧ m.Extends m' ∧
      m'.contents = m.requested (Arith.lit 0) [q1] := by
  have k0 := k q (by simp)
  have kr := k rhs (by simp)
  obtain ⟨a0, ha0⟩ := exists_addr h h0
  obtain ⟨ar, har⟩ := exists_addr h hr
  obtain ⟨a1, m1, e1, g1, l1, x1, b1, c1⟩ := outputVar_requested h hL (k q1 (by simp))
  have b0 := x1.addr _ _ ha0
  have br := x1.addr _ _ har
  have d0 : m1.contents q = some c0 := by rw [c1]; exact Mgr.requested_some _ h0 _
  have dr : m1.contents rhs = some r := by rw [c1]; exact Mgr.requested_some _ hr _
  have hdt : dt m = .ok t m := by
    unfold dt; rw [get_bind, ht]; rfl
  constructor
  · obtain ⟨c1', d1⟩ : ∃ c, m1.contents q1 = some c := by rw [c1]; exact Mgr.requested_mem _ (by simp)
    have y0 := l1 _ _ d0
    have yr := l1 _ _ dr
    have y1 := l1 _ _ d1
    rw [hcomps.1, hbasis.1] at yr
    rw [hcomps.2, hbasis.2] at y1
    obtain ⟨c', s1, s2, s3⟩ := RK.stage0_spec t y0 yr y1
    refine ⟨m1.store a1 c', c', ?_, g1.store _ _, Mgr.Laid.store g1 l1 b1 d1 s2, x1.trans (Mgr.store_extends _ _ _), ?_, s3⟩
    · unfold rk1
      simp only
      rw [bind_ok hdt, bind_ok (inputVar_existing h k0 ha0), bind_ok (inputVar_existing h kr har), bind_ok e1]
      simp only [if_true]
      refine kernelLoop_spec g1 b0 b1 (cs := [c0, r]) (.cons ⟨q, b0, d0⟩ (.cons ⟨rhs, br, dr⟩ .nil)) d1 ?_
      rw [addr_ne g1 b0 b1 nq, addr_ne g1 br b1 nr]
      exact s1
    · rw [g1.store_contents b1, c1]
  · intro tag htag
    refine ⟨m1, ?_, g1, l1, x1, c1⟩
    unfold rk1
    simp only
    rw [bind_ok hdt, bind_ok (inputVar_existing h k0 ha0), bind_ok (inputVar_existing h kr har), bind_ok e1]
    simp only [if_neg htag]
    exact forChunks_spec g1 b0 fun _ _ => rfl

end Solve
end QK
