import Verif.Proofs.Client
import Verif.Spec.Threads
/- Helper lemmas: programs run by several threads. -/
namespace QK
open Spec Solve Props

namespace Prog
variable {α : Type}

/-- One iteration runs alone to its end, or to an undefined access. -/
theorem run_steps (pre post : List (Prog α Unit)) : ∀ (p : Prog α Unit) (m : Mem α),
    (∃ m', p.run m = .ok ((), m') ∧ Relation.ReflTransGen Step (pre ++ p :: post, m) (pre ++ .ret () :: post, m')) ∨
    ∃ w p' m', p.run m = .ub w ∧ Relation.ReflTransGen Step (pre ++ p :: post, m) (pre ++ p' :: post, m') ∧ Bad (pre ++ p' :: post) m' := by
  intro p
  induction p with
  | ret b => intro m; exact .inl ⟨m, rfl, .refl⟩
  | rd l k ih =>
    intro m
    cases e : m l with
    | none => exact .inr ⟨"read out of bounds", _, m, by simp [run, e], .refl, .rd l k, by simp, .inr ⟨l, false, rfl, e⟩⟩
    | some v =>
      have r : (rd l k).run m = (k v).run m := by simp [run, e]
      rcases ih v m with ⟨m', a, b⟩ | ⟨w, p', m', a, b, c⟩
      · exact .inl ⟨m', r.trans a, .head (.rd e) b⟩
      · exact .inr ⟨w, p', m', r.trans a, .head (.rd e) b, c⟩
  | wr l v k ih =>
    intro m
    by_cases e : (m l).isSome
    · have r : (wr l v k).run m = k.run (Function.update m l (some v)) := by simp [run, e]
      rcases ih (Function.update m l (some v)) with ⟨m', a, b⟩ | ⟨w, p', m', a, b, c⟩
      · exact .inl ⟨m', r.trans a, .head (.wr e) b⟩
      · exact .inr ⟨w, p', m', r.trans a, .head (.wr e) b, c⟩
    · exact .inr ⟨"write out of bounds", _, m, by simp [run, e], .refl, .wr l v k, by simp, .inr ⟨l, true, rfl, by simpa using e⟩⟩
  | fail w => intro m; exact .inr ⟨w, _, m, rfl, .refl, _, by simp, .inl ⟨w, rfl⟩⟩

/-- The sequential run is one of the executions. -/
theorem runAll_steps : ∀ (ps pre : List (Prog α Unit)) (m : Mem α), Done pre →
    (∃ ps' m', runAll ps m = .ok m' ∧ Relation.ReflTransGen Step (pre ++ ps, m) (ps', m') ∧ Done ps') ∨
    ∃ w ps' m', runAll ps m = .ub w ∧ Relation.ReflTransGen Step (pre ++ ps, m) (ps', m') ∧ Bad ps' m'
  | [], pre, m, hd => .inl ⟨_, m, rfl, .refl, by simpa using hd⟩
  | p :: ps, pre, m, hd => by
    rw [runAll_cons]
    rcases run_steps pre ps p m with ⟨m', a, b⟩ | ⟨w, p', m', a, b, c⟩
    · have hd' : Done (pre ++ [.ret ()]) := by
        intro q hq
        rcases List.mem_append.1 hq with h | h
        · exact hd q h
        · simpa using h
      have e : pre ++ ret () :: ps = (pre ++ [ret ()]) ++ ps := by simp
      rw [e] at b
      rw [a]
      rcases runAll_steps ps (pre ++ [.ret ()]) m' hd' with ⟨ps', m2, a', b', c'⟩ | ⟨w, ps', m2, a', b', c'⟩
      · exact .inl ⟨ps', m2, a', b.trans b', c'⟩
      · exact .inr ⟨w, ps', m2, a', b.trans b', c'⟩
    · rw [a]
      exact .inr ⟨w, _, m', rfl, b, c⟩

end Prog

section
variable {α : Type} {ps : List (Prog α Unit)} {m m' : Mem α}

theorem Schedule.sequential_legal : (Schedule.sequential : Schedule α).Legal := by
  intro _ ps m
  unfold Schedule.sequential
  rcases Prog.runAll_steps ps [] m (by intro p hp; cases hp) with ⟨ps', m', a, b, c⟩ | ⟨w, ps', m', a, b, c⟩
  · rw [a]; exact .ends b c
  · rw [a]; exact .undefined w b (.inl c)

/-- A correct loop has one outcome. -/
theorem ParallelSafe.run (h : ParallelSafe ps m m') {r : Res (Mem α)} (hr : ParRun ps m r) : r = .ok m' := by
  cases hr with
  | ends run done => rw [h.result _ _ run done]
  | undefined why run bad =>
    rcases bad with b | b
    · exact absurd b (h.defined _ _ run)
    · exact absurd b (h.raceFree _ _ run)

end

section
variable {α : Type} [Arith α] {s : Schedule α}

namespace FV
variable {q rhs : Chunk α} {g : Int} {M : Box} {p n : Nat} {grid : Rectilinear α}

theorem sweepMpWith_eq (hs : s.Legal) (hn : 2 ≤ n) (hM : Pos M) (hp : 1 ≤ p) (hg : 2 ≤ g)
    (hq : q.Layout g M [(0, (p : Int)), (0, (n : Int))]) (hr : rhs.Layout g M [(0, (p : Int)), (0, (n : Int))])
    {dim : Nat} (hd : dim < M.length) {d : α} (hdx : grid.dx dim = .ok d) {flux : FV.Flux α} {φ : List α → List α → List α} (hφ : IsFlux n flux φ) :
    sweepMpWith s n flux grid q rhs dim = sweepMp n flux grid q rhs dim := by
  obtain ⟨ps, m', a, b, c⟩ := parallel_kernel hn hM hp hg hq hr hd hdx hφ
  unfold sweepMpWith sweepMp
  rw [a, Res.ok_bind, Res.ok_bind]
  unfold runOnWith runOn
  rw [c.run (hs dim ps _), b]

theorem dirsWith_eq (hs : s.Legal) (hn : 2 ≤ n) (hM : Pos M) (hp : 1 ≤ p) (hg : 2 ≤ g) (hq : q.Layout g M [(0, (p : Int)), (0, (n : Int))])
    {flux : Nat → FV.Flux α} {φ : Nat → List α → List α → List α} : ∀ {dims : List Nat}, (∀ dim ∈ dims, dim < M.length) →
    (∀ dim ∈ dims, IsFlux n (flux dim) (φ dim)) → (∀ dim ∈ dims, ∃ d, grid.dx (dim : Nat) = .ok d) →
    ∀ rhs : Chunk α, rhs.Layout g M [(0, (p : Int)), (0, (n : Int))] →
    dims.foldlM (fun r dim => sweepMpWith s n (flux dim) grid q r dim) rhs = dims.foldlM (fun r dim => sweepMp n (flux dim) grid q r dim) rhs
  | [], _, _, _, _, _ => rfl
  | dim :: dims, hd, hφ, hdx, rhs, hr => by
    obtain ⟨u, hu⟩ := exists_field hq
    obtain ⟨d, hdx'⟩ := hdx dim (by simp)
    obtain ⟨r', a, -, c, -⟩ := sweepMp_spec hq hr hM hp hn hg hu (hd dim (by simp)) (hφ dim (by simp)) hdx'
    rw [List.foldlM_cons, List.foldlM_cons, sweepMpWith_eq hs hn hM hp hg hq hr (hd dim (by simp)) hdx' (hφ dim (by simp)), a]
    exact dirsWith_eq hs hn hM hp hg hq (fun d h => hd d (by simp [h])) (fun d h => hφ d (by simp [h])) (fun d h => hdx d (by simp [h])) r' c

end FV

section
variable {q rhs : Chunk α} {g : Int} {M : Box} {p : Nat} {grid : Rectilinear α}

theorem Euler.solveMpWith_eq (hs : s.Legal) (gamma : α) (hM : Pos M) (h4 : M.length ≤ 4) (hp : 1 ≤ p) (hg : 2 ≤ g)
    (hq : q.Layout g M [(0, (p : Int)), (0, 5)]) (hr : rhs.Layout g M [(0, (p : Int)), (0, 5)])
    (hgr : grid.rng.dims = M) (hdx : grid.dxs.length = M.length) : Euler.solveMpWith s gamma grid q rhs = Euler.solveMp gamma grid q rhs := by
  have hn : grid.rng.numDims = M.length := by unfold Range.numDims; rw [hgr]
  have hd : ∀ dim ∈ List.range grid.rng.numDims, dim < M.length := by
    intro dim h; rw [List.mem_range] at h; omega
  exact FV.dirsWith_eq (n := 5) hs (by decide) hM hp hg hq hd (φ := fun dim => fluxOf (Euler.hll gamma dim))
    (fun dim h => Euler.hll_isFlux gamma (by have := hd dim h; omega)) (fun dim h => ⟨_, widths_of hdx (hd dim h)⟩) rhs hr

theorem Maxwell.solveMpWith_eq (hs : s.Legal) (c : α) (hM : Pos M) (hp : 1 ≤ p) (hg : 2 ≤ g)
    (hq : q.Layout g M [(0, (p : Int)), (0, 6)]) (hr : rhs.Layout g M [(0, (p : Int)), (0, 6)])
    (hgr : grid.rng.dims = M) (hdx : grid.dxs.length = M.length) : Maxwell.solveMpWith s c grid q rhs = Maxwell.solveMp c grid q rhs := by
  have hn : grid.rng.numDims = M.length := by unfold Range.numDims; rw [hgr]
  have hd : ∀ dim ∈ List.range (min grid.rng.numDims 3), dim < M.length := by
    intro dim h; rw [List.mem_range] at h; omega
  exact FV.dirsWith_eq (n := 6) hs (by decide) hM hp hg hq hd (φ := fun dim => fluxOf (Maxwell.rusanov c dim))
    (fun dim _ => Maxwell.rusanov_isFlux c dim) (fun dim h => ⟨_, widths_of hdx (hd dim h)⟩) rhs hr

end

namespace RK
variable {q0 q1 q2 q3 rhs : Chunk α} {g : Int} {M D : Box}

theorem stage0With_eq (hs : s.Legal) (dt : α) (h0 : q0.Layout g M D) (hr : rhs.Layout g M D) (h1 : q1.Layout g M D) :
    stage0With s dt q0 rhs q1 = stage0 dt q0 rhs q1 := by
  obtain ⟨m', a, b⟩ := parallel0 dt h0 hr h1
  unfold stage0With stage0 runOutWith runOut
  simp only [List.map_cons, List.map_nil, List.cons_append, List.nil_append]
  rw [b.run (hs 0 _ _), a]

theorem stage1With_eq (hs : s.Legal) (dt : α) (h0 : q0.Layout g M D) (h1 : q1.Layout g M D) (hr : rhs.Layout g M D) (h2 : q2.Layout g M D) :
    stage1With s dt q0 q1 rhs q2 = stage1 dt q0 q1 rhs q2 := by
  obtain ⟨m', a, b⟩ := parallel1 dt h0 h1 hr h2
  unfold stage1With stage1 runOutWith runOut
  simp only [List.map_cons, List.map_nil, List.cons_append, List.nil_append]
  rw [b.run (hs 0 _ _), a]

theorem stage2With_eq (hs : s.Legal) (dt : α) (h0 : q0.Layout g M D) (h2 : q2.Layout g M D) (hr : rhs.Layout g M D) (h3 : q3.Layout g M D) :
    stage2With s dt q0 q2 rhs q3 = stage2 dt q0 q2 rhs q3 := by
  obtain ⟨m', a, b⟩ := parallel2 dt h0 h2 hr h3
  unfold stage2With stage2 runOutWith runOut
  simp only [List.map_cons, List.map_nil, List.cons_append, List.nil_append]
  rw [b.run (hs 0 _ _), a]

end RK

variable {S : VarId → Prop} {m : Mgr α}

/-- Kernels with the same result on the chunks in question. -/
theorem kernelLoop_same (h : m.Good S) {x y : VarId} {a b : Nat} (hx : m.addr x = some a) (hy : m.addr y = some b) {srcs : List Nat} {cs : List (Chunk α)}
    (hs : List.Forall₂ (fun s c => ∃ id, m.addr id = some s ∧ m.contents id = some c) srcs cs) {c c' : Chunk α} (hc : m.contents y = some c)
    {f f' : Mgr α → List (Chunk α) → Chunk α → Res (Chunk α)} (hf : f m cs c = .ok c') (he : f' m cs c = f m cs c) :
    kernelLoop a b srcs f' m = kernelLoop a b srcs f m := by
  rw [kernelLoop_spec h hx hy hs hc hf, kernelLoop_spec h hx hy hs hc (he.trans hf)]

theorem eulerWith_eq (hs : s.Legal) (gamma : α) (h : m.Good S) (hL : m.Laid) (hd : m.dt ≠ none) (hdx : m.grid.dxs.length = m.grid.rng.dims.length)
    (h4 : m.grid.rng.dims.length ≤ 4) {q r : VarId} (hq : S q) (hr : S r) (hne : q ≠ r) (he : m.contents q ≠ none) (hp : 1 ≤ q.basis.points)
    (hp' : r.basis.points = q.basis.points) (n5 : q.comps.length = 5) (n5' : r.comps.length = 5) : eulerWith s gamma [q] [r] m = euler gamma [q] [r] m := by
  obtain ⟨t, ht⟩ := Option.ne_none_iff_exists'.1 hd
  obtain ⟨cq, hcq⟩ := Option.ne_none_iff_exists'.1 he
  obtain ⟨a, ha⟩ := exists_addr h hcq
  obtain ⟨b, m1, k1, k2, k3, k4⟩ := output_only h hL hr
  obtain ⟨cr, hcr⟩ := Option.ne_none_iff_exists'.1 (k2.exist r (by simp))
  have hcq1 : m1.contents q = some cq := by rw [k2.kept q (by simpa using hne)]; exact hcq
  obtain ⟨P, eP⟩ : ∃ P : Nat, q.basis.points = P := ⟨q.basis.points.toNat, by omega⟩
  have y1 := k2.laid _ _ hcq1
  have y2 := k2.laid _ _ hcr
  rw [eP, n5] at y1
  rw [hp', eP, n5'] at y2
  have hdx1 : m1.grid.dxs.length = m1.grid.rng.dims.length := by rw [k2.grid]; exact hdx
  have h41 : m1.grid.rng.dims.length ≤ 4 := by rw [k2.grid]; exact h4
  obtain ⟨u, hu⟩ := FV.exists_field (n := 5) y1
  obtain ⟨r', _, e1, -⟩ := C53_euler gamma k2.good.mesh_pos h41 (p := P) (by omega) (by decide) y1 y2 rfl hdx1 hu
  unfold eulerWith euler
  simp only
  rw [SM.bind_ok (inputVar_existing h hq ha), SM.bind_ok k1, SM.bind_ok (inputVar_existing h hq ha), SM.bind_ok k1]
  refine kernelLoop_same k2.good (k3.addr _ _ ha) k4 (cs := [cq]) (.cons ⟨q, k3.addr _ _ ha, hcq1⟩ .nil) hcr (c' := r') ?_ ?_
  · rw [addr_ne k2.good (k3.addr _ _ ha) k4 hne]
    unfold dtOf
    rw [k3.dt, ht]
    exact e1
  · simp only [Euler.solveMpWith_eq hs gamma k2.good.mesh_pos h41 (by omega : 1 ≤ P) (by decide) y1 y2 rfl hdx1]

theorem maxwellWith_eq (hs : s.Legal) (c : α) (h : m.Good S) (hL : m.Laid) (hdx : m.grid.dxs.length = m.grid.rng.dims.length)
    {q r : VarId} (hq : S q) (hr : S r) (hne : q ≠ r) (he : m.contents q ≠ none) (hp : 1 ≤ q.basis.points)
    (hp' : r.basis.points = q.basis.points) (n6 : q.comps.length = 6) (n6' : r.comps.length = 6) : maxwellWith s c [q] [r] m = maxwell c [q] [r] m := by
  obtain ⟨cq, hcq⟩ := Option.ne_none_iff_exists'.1 he
  obtain ⟨a, ha⟩ := exists_addr h hcq
  obtain ⟨b, m1, k1, k2, k3, k4⟩ := output_only h hL hr
  obtain ⟨cr, hcr⟩ := Option.ne_none_iff_exists'.1 (k2.exist r (by simp))
  have hcq1 : m1.contents q = some cq := by rw [k2.kept q (by simpa using hne)]; exact hcq
  obtain ⟨P, eP⟩ : ∃ P : Nat, q.basis.points = P := ⟨q.basis.points.toNat, by omega⟩
  have y1 := k2.laid _ _ hcq1
  have y2 := k2.laid _ _ hcr
  rw [eP, n6] at y1
  rw [hp', eP, n6'] at y2
  have hdx1 : m1.grid.dxs.length = m1.grid.rng.dims.length := by rw [k2.grid]; exact hdx
  obtain ⟨u, hu⟩ := FV.exists_field (n := 6) y1
  obtain ⟨r', _, e1, -⟩ := C53_maxwell c k2.good.mesh_pos (p := P) (by omega) (by decide) y1 y2 rfl hdx1 hu
  unfold maxwellWith maxwell
  simp only
  rw [SM.bind_ok (inputVar_existing h hq ha), SM.bind_ok k1, SM.bind_ok (inputVar_existing h hq ha), SM.bind_ok k1]
  refine kernelLoop_same k2.good (k3.addr _ _ ha) k4 (cs := [cq]) (.cons ⟨q, k3.addr _ _ ha, hcq1⟩ .nil) hcr (c' := r') ?_ ?_
  · rw [addr_ne k2.good (k3.addr _ _ ha) k4 hne]
    exact e1
  · simp only [Maxwell.solveMpWith_eq hs c k2.good.mesh_pos (by omega : 1 ≤ P) (by decide) y1 y2 rfl hdx1]

theorem ssprk3With_eq (hs : s.Legal) {q rhs q1 q2 q3 : VarId} (V : RKVars S q rhs q1 q2 q3) (h : m.Good S) (hL : m.Laid) (hd : m.dt ≠ none)
    (h0 : m.contents q ≠ none) (hr : m.contents rhs ≠ none) (os : List VarId) (tag : Int) :
    ssprk3With s true [q, rhs] (q1 :: q2 :: q3 :: os) tag m = ssprk3 true [q, rhs] (q1 :: q2 :: q3 :: os) tag m := by
  obtain ⟨t, ht⟩ := Option.ne_none_iff_exists'.1 hd
  obtain ⟨c0, h0⟩ := Option.ne_none_iff_exists'.1 h0
  obtain ⟨r, hr⟩ := Option.ne_none_iff_exists'.1 hr
  have k0 := V.known q (by simp)
  have kr := V.known rhs (by simp)
  obtain ⟨a0, ha0⟩ := exists_addr h h0
  obtain ⟨ar, har⟩ := exists_addr h hr
  obtain ⟨a1, m1, e1, g1, l1, x1, b1, c1⟩ := outputVar_requested h hL (V.known q1 (by simp))
  obtain ⟨a2, m2, e2, g2, l2, x2, b2, c2⟩ := outputVar_requested g1 l1 (V.known q2 (by simp))
  obtain ⟨a3, m3, e3, g3, l3, x3, b3, c3⟩ := outputVar_requested g2 l2 (V.known q3 (by simp))
  have k1 : m3.contents = m.requested (Arith.lit 0) [q1, q2, q3] := by rw [c3, Mgr.requested_cons _ x2.grid c2, Mgr.requested_cons _ x1.grid c1]
  replace ha0' := x3.addr _ _ (x2.addr _ _ (x1.addr _ _ ha0))
  replace har' := x3.addr _ _ (x2.addr _ _ (x1.addr _ _ har))
  replace b1 := x3.addr _ _ (x2.addr _ _ b1)
  replace b2 := x3.addr _ _ b2
  have hdt : dt m = .ok t m := by
    unfold dt; rw [SM.get_bind, ht]; rfl
  unfold ssprk3With ssprk3
  simp only
  rw [SM.bind_ok hdt, SM.bind_ok (inputVar_existing h k0 ha0), SM.bind_ok (inputVar_existing h kr har), SM.bind_ok e1, SM.bind_ok e2, SM.bind_ok e3,
    SM.bind_ok hdt, SM.bind_ok (inputVar_existing h k0 ha0), SM.bind_ok (inputVar_existing h kr har), SM.bind_ok e1, SM.bind_ok e2, SM.bind_ok e3]
  have nd := V.nodup
  simp only [List.nodup_cons, List.mem_cons, List.not_mem_nil, or_false, not_or] at nd
  have d0 : m3.contents q = some c0 := by rw [k1]; exact Mgr.requested_some _ h0 _
  have dr : m3.contents rhs = some r := by rw [k1]; exact Mgr.requested_some _ hr _
  obtain ⟨v1, d1⟩ : ∃ c, m3.contents q1 = some c := by rw [k1]; exact Mgr.requested_mem _ (by simp)
  obtain ⟨v2, d2⟩ : ∃ c, m3.contents q2 = some c := by rw [k1]; exact Mgr.requested_mem _ (by simp)
  obtain ⟨v3, d3⟩ : ∃ c, m3.contents q3 = some c := by rw [k1]; exact Mgr.requested_mem _ (by simp)
  have y0 := V.layout l3 (by simp) d0
  have yr := V.layout l3 (by simp) dr
  have y1 := V.layout l3 (by simp) d1
  have y2 := V.layout l3 (by simp) d2
  have y3 := V.layout l3 (by simp) d3
  unfold ssprk3LoopWith ssprk3Loop
  split
  · obtain ⟨c', s1, -⟩ := RK.stage0_spec t y0 yr y1
    refine kernelLoop_same g3 ha0' b1 (cs := [c0, r]) (.cons ⟨q, ha0', d0⟩ (.cons ⟨rhs, har', dr⟩ .nil)) d1 (c' := c') ?_ ?_
    · rw [addr_ne g3 ha0' b1 (by tauto), addr_ne g3 har' b1 (by tauto)]
      exact s1
    · simp only [RK.stage0With_eq hs t y0 yr y1]
  · split
    · obtain ⟨c', s1, -⟩ := RK.stage1_spec t y0 y1 yr y2
      refine kernelLoop_same g3 ha0' b2 (cs := [c0, v1, r]) (.cons ⟨q, ha0', d0⟩ (.cons ⟨q1, b1, d1⟩ (.cons ⟨rhs, har', dr⟩ .nil))) d2 (c' := c') ?_ ?_
      · rw [addr_ne g3 ha0' b2 (by tauto), addr_ne g3 har' b2 (by tauto), addr_ne g3 b1 b2 (by tauto)]
        exact s1
      · simp only [RK.stage1With_eq hs t y0 y1 yr y2]
    · split
      · obtain ⟨c', s1, -⟩ := RK.stage2_spec t y0 y2 yr y3
        refine kernelLoop_same g3 ha0' b3 (cs := [c0, v1, v2, r]) (.cons ⟨q, ha0', d0⟩ (.cons ⟨q1, b1, d1⟩ (.cons ⟨q2, b2, d2⟩ (.cons ⟨rhs, har', dr⟩ .nil)))) d3
          (c' := c') ?_ ?_
        · rw [addr_ne g3 ha0' b3 (by tauto), addr_ne g3 har' b3 (by tauto), addr_ne g3 b2 b3 (by tauto)]
          exact s1
        · simp only [RK.stage2With_eq hs t y0 y2 yr y3]
      · rfl

/-- A call that fits does not depend on the schedule. -/
theorem call_runWith {names : List VarId} {M : Box} {k : Known} {c : Call α} (hs : s.Legal) (h : m.Good (· ∈ names)) (hL : m.Laid) (hM : m.grid.rng.dims = M)
    (hdx : m.grid.dxs.length = m.grid.rng.dims.length) (H : k.Holds m) (hc : k.allows M c = true) (hw : c.writes.all (· ∈ names) = true) :
    c.runWith s m = c.run m := by
  have hw' : ∀ id ∈ c.writes, id ∈ names := by simpa using hw
  cases c with
  | euler gamma ins outs =>
    match ins, outs, hc with
    | [q], [r], hc =>
      simp [Known.allows, Known.alike] at hc
      obtain ⟨⟨hd, hq, hne, h4⟩, hal⟩ := hc
      exact eulerWith_eq hs gamma h hL (H.dt hd) hdx (by rw [hM]; exact h4) (known_of h (H.exist q hq)) (hw' r (by simp [Call.writes])) hne (H.exist q hq) (by omega) (by omega) (by omega)
        (by omega)
  | maxwell c ins outs =>
    match ins, outs, hc with
    | [q], [r], hc =>
      simp [Known.allows, Known.alike] at hc
      obtain ⟨⟨hq, hne⟩, hal⟩ := hc
      exact maxwellWith_eq hs c h hL hdx (known_of h (H.exist q hq)) (hw' r (by simp [Call.writes])) hne (H.exist q hq) (by omega) (by omega) (by omega) (by omega)
  | ssprk3 ins outs tag =>
    match ins, outs, hc with
    | [q, r], q1 :: q2 :: q3 :: os, hc =>
      simp only [Known.allows, Bool.and_eq_true, List.all_eq_true, decide_eq_true_eq] at hc
      obtain ⟨⟨hd, hq, hr, hnd⟩, hal⟩ := hc
      have V : RKVars (· ∈ names) q r q1 q2 q3 := by
        refine ⟨?_, hnd, fun id hid => (hal id hid).1, fun id hid => (hal id hid).2⟩
        intro id hid
        simp only [List.mem_cons, List.not_mem_nil, or_false] at hid
        rcases hid with rfl | rfl | rfl | rfl | rfl
        · exact known_of h (H.exist _ hq)
        · exact known_of h (H.exist _ hr)
        all_goals exact hw' _ (by simp [Call.writes])
      exact ssprk3With_eq hs V h hL (H.dt hd) (H.exist q hq) (H.exist r hr) os tag
  | _ => rfl

theorem Call.runWith_sequential (c : Call α) : c.runWith .sequential = c.run := by
  cases c <;> rfl

theorem seq_run (p q : Client α) (m : Mgr α) : (Client.seq p q).run m = (p.run >>= fun _ => q.run) m := rfl

theorem runs_bind {p q : Client α} {m : Mgr α} (a : p.Runs m (p.run m)) (b : ∀ m, q.Runs m (q.run m)) : (Client.seq p q).Runs m ((p.run >>= fun _ => q.run) m) := by
  have e : (p.run >>= fun _ => q.run) m = SM.bind p.run (fun _ => q.run) m := rfl
  rw [e]
  unfold SM.bind
  cases hp : p.run m <;> rw [hp] at a
  · exact .seq a (b _)
  all_goals exact .stop a (by intro m'; simp)

/-- The sequential run is one of the executions. -/
theorem Client.runs_run : ∀ (p : Client α) (m : Mgr α), p.Runs m (p.run m)
  | .call c, m => by
    have := Client.Runs.call (c := c) (m := m) Schedule.sequential_legal
    rwa [Call.runWith_sequential] at this
  | .skip, m => .skip
  | .seq p q, m => by
    have a := runs_run p m
    rw [seq_run]
    exact runs_bind a (runs_run q)
  | .loop n p, m => by
    have body := runs_run p
    induction n generalizing m with
    | zero => exact .never
    | succ n ih =>
      exact .again (runs_bind (body m) ih)
  | .branch b p q, m => by
    refine .branch ?_
    have e : (Client.branch b p q).run m = (if b m then p.run else q.run) m := rfl
    rw [e]
    split
    · exact runs_run p m
    · exact runs_run q m

/-- All executions of an accepted program have the outcome of the sequential one. -/
theorem runs_unique {names : List VarId} {M : Box} : ∀ {p : Client α} {m : Mgr α} {r : SRes (Mgr α) Unit}, p.Runs m r → ∀ {k k' : Known}, m.Good (· ∈ names) → m.Laid →
    m.grid.rng.dims = M → m.grid.dxs.length = m.grid.rng.dims.length → k.Holds m → Known.check names M k p = some k' →
    (∀ f ∈ p.owns, Behaves (· ∈ names) m.grid f) → r = p.run m := by
  intro p m r hr
  induction hr with
  | @call c m s legal =>
    intro k k' h hL hM hdx H e ho
    unfold Known.check at e
    split at e
    · rename_i hc
      simp only [Bool.and_eq_true] at hc
      exact call_runWith legal h hL hM hdx H hc.1 hc.2
    · cases e
  | skip => intro k k' _ _ _ _ _ _ _; rfl
  | @seq p q m m' r first second ih1 ih2 =>
    intro k k' h hL hM hdx H e ho
    unfold Known.check at e
    obtain ⟨k2, e1, e2⟩ := Option.bind_eq_some_iff.1 e
    have o1 : ∀ f ∈ p.owns, Behaves (· ∈ names) m.grid f := fun f hf => ho f (List.mem_append.2 (.inl hf))
    have a := ih1 h hL hM hdx H e1 o1
    obtain ⟨m1, a1, a2, a3⟩ := client_within p h hL hM hdx H e1 o1
    rw [a1] at a
    cases a
    rw [seq_run, SM.bind_ok a1]
    exact ih2 a2.good a2.laid (by rw [a2.grid]; exact hM) (by rw [a2.grid]; exact hdx) a3 e2 (fun f hf => by rw [a2.grid]; exact ho f (List.mem_append.2 (.inr hf)))
  | @stop p q m r first fails ih =>
    intro k k' h hL hM hdx H e ho
    unfold Known.check at e
    obtain ⟨k2, e1, e2⟩ := Option.bind_eq_some_iff.1 e
    have o1 : ∀ f ∈ p.owns, Behaves (· ∈ names) m.grid f := fun f hf => ho f (List.mem_append.2 (.inl hf))
    obtain ⟨m1, a1, -, -⟩ := client_within p h hL hM hdx H e1 o1
    exact absurd ((ih h hL hM hdx H e1 o1).trans a1) (fails m1)
  | never => intro k k' _ _ _ _ _ _ _; rfl
  | @again n p m r rounds ih =>
    intro k k' h hL hM hdx H e ho
    unfold Known.check at e
    obtain ⟨k2, e1, e2⟩ := Option.map_eq_some_iff.1 e
    obtain ⟨k3, f1, f2⟩ := Known.check_le (Known.le_check e1) e1
    have hc : Known.check names M k (.seq p (.loop n p)) = some (if n = 0 then k2 else k3) := by
      rw [Known.check, e1, Option.bind_some, Known.check, f1]; rfl
    exact ih h hL hM hdx H hc (fun f hf => ho f (by simpa [Client.owns] using hf))
  | @branch b p q m r taken ih =>
    intro k k' h hL hM hdx H e ho
    unfold Known.check at e
    obtain ⟨k2, e1, e2⟩ := Option.bind_eq_some_iff.1 e
    obtain ⟨k3, e3, e4⟩ := Option.map_eq_some_iff.1 e2
    have e : (Client.branch b p q).run m = (if b m then p.run else q.run) m := rfl
    rw [e]
    by_cases hb : b m = true
    · rw [if_pos hb] at ih ⊢
      exact ih h hL hM hdx H e1 (fun f hf => ho f (List.mem_append.2 (.inl hf)))
    · rw [if_neg hb] at ih ⊢
      exact ih h hL hM hdx H e3 (fun f hf => ho f (List.mem_append.2 (.inr hf)))

end
end QK
