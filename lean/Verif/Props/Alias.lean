import Verif.Props.Sources
import Verif.Props.Advection
import Verif.Props.Boundary
/-
C135: a variable that a solver reads and writes in the same call.
-/
namespace QK
namespace Source
open Spec
variable {α : Type}

/-- Rounds that read one element of the array that they update: as long as no round reads what an earlier round has
written, they read the values of the beginning. -/
theorem foldlM_self {ι : Type} (a0 : IFace α) (hn : a0.rng.dims ≠ []) (read : ι → Cell) (w : ι → α) (up : ι → Cell × (α → α)) {body : ι → IFace α → Res (IFace α)}
    {L : List ι} (h0 : a0.WF) (hin : ∀ p ∈ L, InBox a0.rng.dims (up p).1 ∧ InBox a0.rng.dims (read p) ∧ a0.val (read p) = some (w p))
    (hL : L.Pairwise fun p q => (up p).1 ≠ read q)
    (hb : ∀ p ∈ L, ∀ a : IFace α, a.WF → a.rng = a0.rng → a.val (read p) = some (w p) → body p a = .ok (a.upd (up p))) :
    L.foldlM (fun d p => body p d) a0 = .ok ((L.map up).foldl IFace.upd a0) := by
  suffices H : ∀ a : IFace α, a.WF → a.rng = a0.rng → (∀ p ∈ L, a.val (read p) = some (w p)) →
      L.foldlM (fun d p => body p d) a = .ok ((L.map up).foldl IFace.upd a) from H a0 h0 rfl fun p hp => (hin p hp).2.2
  induction L with
  | nil => intro a _ _ _; rfl
  | cons p L ih =>
    intro a ha hr hv
    rw [List.pairwise_cons] at hL
    rw [List.foldlM_cons, hb p List.mem_cons_self a ha hr (hv p List.mem_cons_self), Res.ok_bind,
      ih (fun q hq => hin q (List.mem_cons_of_mem _ hq)) hL.2 (fun q hq => hb q (List.mem_cons_of_mem _ hq)) _ (IFace.upd_wf ha _)
        (by rw [IFace.upd_rng, hr]) ?_, List.map_cons, List.foldl_cons]
    intro q hq
    have i1 := (hin p List.mem_cons_self).1
    have i2 := (hin q (List.mem_cons_of_mem _ hq)).2.1
    rw [IFace.val_upd ha (by rw [hr]; exact hn) (by rw [hr]; exact i1) (by rw [hr]; exact i2), if_neg (Ne.symm (hL.1 q hq))]
    exact hv q (List.mem_cons_of_mem _ hq)

/-- No round of the current source reads a component that an earlier round has written. -/
theorem vecCells_pairwise (B : Box) :
    (vecCells B).Pairwise fun p q => p.1 ++ [(p.2 : Int)] ≠ q.1 ++ [((q.2 + 1 : Nat) : Int)] := by
  unfold vecCells
  rw [List.pairwise_flatMap]
  constructor
  · intro x _
    simp
  · refine (cells_nodup B).imp ?_
    rintro x y hxy p hp q hq e
    obtain ⟨e1, -⟩ := List.append_inj' e rfl
    simp only [List.mem_cons, List.not_mem_nil, or_false] at hp hq
    apply hxy
    rcases hp with rfl | rfl | rfl <;> rcases hq with rfl | rfl | rfl <;> exact e1

variable [Arith α]

/-- The kernel of the current source on one chunk as fluid and right-hand side does what it would do with a copy of the
chunk as fluid. -/
theorem current_self {mult : α} {rhs : Chunk α} {g : Int} {M : Box} {p n : Nat} {u : Cell → Nat → α}
    (hr : rhs.Layout g M [(0, (p : Int)), (0, (n : Int))]) (hM : Pos M) (hp : 1 ≤ p) (hn : 4 ≤ n) (hg : 0 ≤ g)
    (hu : rhs.Holds (grow g M ++ [(0, (p : Int))]) n u) :
    current mult none rhs = current mult (some rhs) rhs := by
  rw [current_eq hr hr hM hp hn (by omega) hg hu]
  have hset : ∀ (l : Int), rhs.internal.copy.set (rhs.internal.numDims - 1) l (l + 3) = .ok (Range.setup ((M ++ [(0, (p : Int))]) ++ [(l, l + 3)])) := by
    intro l
    have e : (rhs.internal.numDims : Int) - 1 = ((M ++ [(0, (p : Int))]).length : Nat) := by
      rw [hr.internal]; simp [Range.numDims]; omega
    rw [e, hr.internal, Range.copy_setup, set_setup (by simp), FV.layout_split, FV.snoc_slab]
  have hpos : ∀ l : Int, Pos ((M ++ [(0, (p : Int))]) ++ [(l, l + 3)]) := by
    intro l
    rw [pos_append, pos_append]
    exact ⟨⟨hM, by intro d hd; simp at hd; subst hd; simp; omega⟩, by intro d hd; simp at hd; subst hd; simp⟩
  have hwi : ∀ (l : Int), 0 ≤ l → l + 3 ≤ n → Range.Within rhs.arr.rng.dims ((M ++ [(0, (p : Int))]) ++ [(l, l + 3)]) := by
    intro l h0 hn
    rw [hr.dims, FV.layout_split]
    have := FV.within_grow (M := M) hg [(0, (p : Int))]
    unfold Range.Within at this ⊢
    refine List.rel_append this ?_
    simp; omega
  have hne' : rhs.arr.rng.dims ≠ [] := by rw [hr.dims]; simp
  unfold current
  simp only [Option.getD_none, Option.map_none]
  have h1 := hset 1
  have h0 := hset 0
  rw [show (1 : Int) + 3 = 4 from rfl] at h1
  rw [show (0 : Int) + 3 = 3 from rfl] at h0
  rw [h1, Res.ok_bind, h0, Res.ok_bind]
  unfold IFace.indexer
  rw [Indexer.forBoth_make hne' hne' (hwi 1 (by omega) (by omega)) (hwi 0 (by omega) (by omega)) (hpos 1) (hpos 0)]
  have c1 := cells_vec (M ++ [(0, (p : Int))]) 1
  have c0 := cells_vec (M ++ [(0, (p : Int))]) 0
  rw [show (1 : Int) + 3 = 4 from rfl] at c1
  rw [show (0 : Int) + 3 = 3 from rfl] at c0
  have hcell : ∀ x j, InBox (M ++ [(0, (p : Int))]) x → j < 4 → InBox (grow g M ++ [(0, (p : Int))]) x ∧ InBox rhs.arr.rng.dims (x ++ [((j : Nat) : Int)]) := by
    intro x j hx hj
    have hxg : InBox (grow g M ++ [(0, (p : Int))]) x := inBox_interior hg hx
    refine ⟨hxg, ?_⟩
    rw [hr.dims, FV.layout_split]
    exact (inBox_snoc hxg.length_eq).2 ⟨hxg, by omega, by omega⟩
  simp only [Range.setup] at *
  rw [c1, c0, List.zip_map', List.foldlM_map]
  rw [foldlM_self rhs.arr hne' (fun q : Cell × Nat => q.1 ++ [((q.2 + 1 : Nat) : Int)]) (fun q => u q.1 (q.2 + 1)) (currentUp mult u) hr.wf
    (body := fun (q : Cell × Nat) a => do
      let r ← a.get (Indexer.onCell ((M ++ [(0, (p : Int))]) ++ [(0, 3)]) rhs.arr.rng.dims (q.1 ++ [0 + (q.2 : Int)]))
      let v ← IFace.srcGet none a
        (Indexer.onCell ((M ++ [(0, (p : Int))]) ++ [(1, 4)]) rhs.arr.rng.dims (q.1 ++ [1 + (q.2 : Int)]))
      a.put (Indexer.onCell ((M ++ [(0, (p : Int))]) ++ [(0, 3)]) rhs.arr.rng.dims (q.1 ++ [0 + (q.2 : Int)])) (r + mult * v))]
  · rfl
  · rintro ⟨x, j⟩ hx
    rw [mem_vecCells] at hx
    simp only [] at hx
    refine ⟨(hcell x j hx.1 (by omega)).2, (hcell x (j + 1) hx.1 (by omega)).2, ?_⟩
    exact hu x (hcell x j hx.1 (by omega)).1 (j + 1) (by omega)
  · exact vecCells_pairwise _
  · rintro ⟨x, j⟩ hx a ha har hvr
    rw [mem_vecCells] at hx
    simp only [] at hx hvr ⊢
    have hin : InBox a.rng.dims (x ++ [(j : Int)]) := by rw [har]; exact (hcell x j hx.1 (by omega)).2
    have hinf : InBox a.rng.dims (x ++ [((j + 1 : Nat) : Int)]) := by rw [har]; exact (hcell x (j + 1) hx.1 (by omega)).2
    have hna : a.rng.dims ≠ [] := by rw [har]; exact hne'
    obtain ⟨r, hv⟩ := IFace.val_isSome ha hna hin
    have hv' : (j : Int) + 1 = ((j + 1 : Nat) : Int) := by push_cast; rfl
    rw [zero_add, add_comm 1, hv', ← har, IFace.get_onCell ha hna hin _ hv, Res.ok_bind]
    unfold IFace.srcGet
    simp only []
    rw [IFace.get_onCell ha hna hinf _ hvr, Res.ok_bind, IFace.put_onCell ha hna hin]
    unfold IFace.upd currentUp
    simp only [hv]

end Source

namespace Props
open Spec SM Solve
section
variable {α : Type} [Arith α] {S : VarId → Prop} {m : Mgr α}

/-- `m` has the time step `t` and stores variables `ids`, which have the same components and basis. -/
structure Alike (S : VarId → Prop) (m : Mgr α) (ids : List VarId) (t : α) : Prop where
  good : m.Good S
  laid : m.Laid
  dt : m.dt = some t
  known : ∀ id ∈ ids, S id ∧ m.contents id ≠ none
  shape : ∀ x ∈ ids, ∀ y ∈ ids, x.comps = y.comps ∧ x.basis = y.basis

/-- One call that combines the variables `reads` element by element with `f` and writes the result to the variable
`out`: undefined if `out` is among `reads`; otherwise `out` holds the result and nothing else changes. -/
def Combines (m : Mgr α) (solve : SM (Mgr α) Unit) (reads : List VarId) (out : VarId) (f : List α → α) : Prop :=
  (out ∈ reads → ∃ w, solve m = .ub w) ∧
  (out ∉ reads → ∃ m' cs c, solve m = .ok () m' ∧ List.Forall₂ (fun id c => m.contents id = some c) reads cs ∧
    m'.contents = Function.update m.contents out (some c) ∧
    ∀ x vs, List.Forall₂ (fun c v => c.arr.val x = some v) cs vs → c.arr.val x = some (f vs))

/-- The combination of the first stage: a forward Euler step. (`Combines` only applies it to lists of this length; likewise below.) -/
def forwardOf (t : α) : List α → α
  | [a, b] => a + t * b
  | _ => t

/-- The combination of the second stage. -/
def secondOf (t : α) : List α → α
  | [a, b, r] => Arith.lit (3 / 4) * a + Arith.lit (1 / 4) * b + Arith.lit (1 / 4) * t * r
  | _ => t

/-- The combination of the third stage. -/
def thirdOf (t : α) : List α → α
  | [a, b, r] => (a + Arith.lit 2 * (b + t * r)) / Arith.lit 3
  | _ => t

omit [Arith α] in
theorem alike_dt (ht : m.dt = some t) : Solve.dt m = .ok t m := by
  unfold Solve.dt; rw [get_bind, ht]; rfl

theorem existing_var (h : m.Good S) {id : VarId} (hid : S id ∧ m.contents id ≠ none) :
    ∃ a c, m.addr id = some a ∧ m.contents id = some c ∧ (inputVar id m = .ok a m) ∧ (outputVar id m = .ok a m) := by
  obtain ⟨c, hc⟩ := Option.ne_none_iff_exists'.1 hid.2
  obtain ⟨a, ha⟩ := exists_addr h hc
  exact ⟨a, c, ha, hc, inputVar_existing h hid.1 ha, outputVar_existing h hid.1 ha⟩

theorem Alike.layout {ids : List VarId} {t : α} (A : Alike S m ids t) {q : VarId} (hq : q ∈ ids) {id : VarId} (hid : id ∈ ids) {c : Chunk α}
    (hc : m.contents id = some c) : c.Layout 2 m.grid.rng.dims [(0, q.basis.points), (0, (q.comps.length : Int))] := by
  have := A.laid id c hc
  rwa [(A.shape id hid q hq).1, (A.shape id hid q hq).2] at this

/-- **C135** False: there is no exception when a variable is read and written in the same call. `euler`, `maxwell` and
`lorentz_force` (with the fluid or the field as output), the stages of `rk1`, `ssprk3` and of the advection solver are undefined
for every manager and all contents then. -/
theorem C135_false (h : m.Good S) {t T : α} (ht : m.dt = some t) (hT : m.time = some T) {q o : VarId} (hq : S q ∧ m.contents q ≠ none)
    (ho : S o ∧ m.contents o ≠ none) (al : Bool) (velocity : List α) (a : α) (more : List VarId) :
    ∀ solve ∈ [euler a [q] [q], maxwell a [q] [q], lorentz a [q, o] [q], lorentz a [o, q] [q], rk1 [q, o] (q :: more) 0, rk1 [o, q] (q :: more) 0,
      ssprk3 al [q, o] (q :: o :: o :: more) 0, ssprk3 al [o, q] (q :: o :: o :: more) 0, ssprk3 al [q, o] (o :: q :: o :: more) 1,
      ssprk3 al [o, q] (o :: q :: o :: more) 1, ssprk3 al [o, o] (q :: q :: o :: more) 1, ssprk3 al [q, o] (o :: o :: q :: more) 2,
      ssprk3 al [o, q] (o :: o :: q :: more) 2, ssprk3 al [o, o] (o :: q :: q :: more) 2, advection velocity [q] [q, o] 0,
      advection velocity [o] [q, q] 1], ∃ w, solve m = .ub w := by
  obtain ⟨b, c, hb, hc, ib, ob⟩ := existing_var h hq
  obtain ⟨b', c', hb', hc', ib', ob'⟩ := existing_var h ho
  have hd := alike_dt ht
  have htm : Solve.time m = .ok T m := by unfold Solve.time; rw [get_bind, hT]; rfl
  have sub : ∀ (l : List Bool), List.Forall₂ (fun s c => ∃ id, m.addr id = some s ∧ m.contents id = some c)
      (l.map fun x => if x then b else b') (l.map fun x => if x then c else c') := by
    intro l
    induction l with
    | nil => exact .nil
    | cons x l ih => exact .cons (by cases x; exacts [⟨o, hb', hc'⟩, ⟨q, hb, hc⟩]) ih
  have K : ∀ {f : Mgr α → List (Chunk α) → Chunk α → Res (Chunk α)} (x : Bool) (l : List Bool) {w : String},
      f m (l.map fun x => if x then c else c') c = .ub w → kernelLoop (if x then b else b') b (l.map fun x => if x then b else b') f m = .ub w := by
    intro f x l w hf
    cases x
    · exact kernelLoop_ub h hb' hb (sub l) hc hf
    · exact kernelLoop_ub h hb hb (sub l) hc hf
  intro solve hs
  simp only [List.mem_cons, List.not_mem_nil, or_false] at hs
  rcases hs with rfl | rfl | rfl | rfl | rfl | rfl | rfl | rfl | rfl | rfl | rfl | rfl | rfl | rfl | rfl | rfl
  · refine ⟨"__restrict__ pointers to the same array", ?_⟩
    unfold euler
    simp only []
    rw [bind_ok ib, bind_ok ob]
    exact K true [true] (w := "__restrict__ pointers to the same array") (by simp only [dtOf, ht, aliased, beq_self_eq_true]; rfl)
  · refine ⟨"__restrict__ pointers to the same array", ?_⟩
    unfold maxwell
    simp only []
    rw [bind_ok ib, bind_ok ob]
    exact K true [true] (w := "__restrict__ pointers to the same array") (by simp only [aliased, beq_self_eq_true]; rfl)
  · refine ⟨"__restrict__ pointers to the same array", ?_⟩
    unfold lorentz
    simp only []
    rw [bind_ok ib, bind_ok ib', bind_ok ob]
    exact K true [true, false] (w := "__restrict__ pointers to the same array") (by simp only [aliased, beq_self_eq_true, Bool.true_or]; rfl)
  · refine ⟨"__restrict__ pointers to the same array", ?_⟩
    unfold lorentz
    simp only []
    rw [bind_ok ib', bind_ok ib, bind_ok ob]
    exact K false [false, true] (w := "__restrict__ pointers to the same array") (by simp only [aliased, beq_self_eq_true, Bool.or_true]; rfl)
  · refine ⟨"__restrict__ pointers to the same array", ?_⟩
    unfold rk1
    simp only []
    rw [bind_ok hd, bind_ok ib, bind_ok ib', bind_ok ob]
    exact K true [true, false] (w := "__restrict__ pointers to the same array") (by simp only [aliased, beq_self_eq_true, Bool.true_or]; rfl)
  · refine ⟨"__restrict__ pointers to the same array", ?_⟩
    unfold rk1
    simp only []
    rw [bind_ok hd, bind_ok ib', bind_ok ib, bind_ok ob]
    exact K false [false, true] (w := "__restrict__ pointers to the same array") (by simp only [aliased, beq_self_eq_true, Bool.or_true]; rfl)
  all_goals first
    | cases al with
      | false =>
        refine ⟨"pointer is not aligned as assumed", ?_⟩
        unfold ssprk3
        simp only []
        first
          | rw [bind_ok hd, bind_ok ib, bind_ok ib', bind_ok ob, bind_ok ob', bind_ok ob']
            exact K true [true, false] rfl
          | rw [bind_ok hd, bind_ok ib', bind_ok ib, bind_ok ob, bind_ok ob', bind_ok ob']
            exact K false [false, true] rfl
          | rw [bind_ok hd, bind_ok ib, bind_ok ib', bind_ok ob', bind_ok ob, bind_ok ob']
            exact K true [true, false, false] rfl
          | rw [bind_ok hd, bind_ok ib', bind_ok ib, bind_ok ob', bind_ok ob, bind_ok ob']
            exact K false [false, false, true] rfl
          | rw [bind_ok hd, bind_ok ib', bind_ok ib', bind_ok ob, bind_ok ob, bind_ok ob']
            exact K false [false, true, false] rfl
          | rw [bind_ok hd, bind_ok ib, bind_ok ib', bind_ok ob', bind_ok ob', bind_ok ob]
            exact K true [true, false, false, false] rfl
          | rw [bind_ok hd, bind_ok ib', bind_ok ib, bind_ok ob', bind_ok ob', bind_ok ob]
            exact K false [false, false, false, true] rfl
          | rw [bind_ok hd, bind_ok ib', bind_ok ib', bind_ok ob', bind_ok ob, bind_ok ob]
            exact K false [false, false, true, false] rfl
      | true =>
        refine ⟨"__restrict__ pointers to the same array", ?_⟩
        unfold ssprk3
        simp only []
        first
          | rw [bind_ok hd, bind_ok ib, bind_ok ib', bind_ok ob, bind_ok ob', bind_ok ob']
            exact K true [true, false] (by simp only [aliased, beq_self_eq_true, Bool.true_or]; rfl)
          | rw [bind_ok hd, bind_ok ib', bind_ok ib, bind_ok ob, bind_ok ob', bind_ok ob']
            exact K false [false, true] (by simp only [aliased, beq_self_eq_true, Bool.or_true]; rfl)
          | rw [bind_ok hd, bind_ok ib, bind_ok ib', bind_ok ob', bind_ok ob, bind_ok ob']
            exact K true [true, false, false] (by simp only [aliased, beq_self_eq_true, Bool.true_or]; rfl)
          | rw [bind_ok hd, bind_ok ib', bind_ok ib, bind_ok ob', bind_ok ob, bind_ok ob']
            exact K false [false, false, true] (by simp only [aliased, beq_self_eq_true, Bool.or_true]; rfl)
          | rw [bind_ok hd, bind_ok ib', bind_ok ib', bind_ok ob, bind_ok ob, bind_ok ob']
            exact K false [false, true, false] (by simp only [aliased, beq_self_eq_true, Bool.or_true, Bool.true_or]; rfl)
          | rw [bind_ok hd, bind_ok ib, bind_ok ib', bind_ok ob', bind_ok ob', bind_ok ob]
            exact K true [true, false, false, false] (by simp only [aliased, beq_self_eq_true, Bool.true_or]; rfl)
          | rw [bind_ok hd, bind_ok ib', bind_ok ib, bind_ok ob', bind_ok ob', bind_ok ob]
            exact K false [false, false, false, true] (by simp only [aliased, beq_self_eq_true, Bool.or_true]; rfl)
          | rw [bind_ok hd, bind_ok ib', bind_ok ib', bind_ok ob', bind_ok ob, bind_ok ob]
            exact K false [false, false, true, false] (by simp only [aliased, beq_self_eq_true, Bool.or_true, Bool.true_or]; rfl)
    | skip
  · refine ⟨"__restrict__ pointers to the same array", ?_⟩
    unfold advection
    simp only []
    rw [bind_ok htm, bind_ok hd, bind_ok ib, bind_ok ob, bind_ok ob']
    exact K true [true] (w := "__restrict__ pointers to the same array") (by simp only [aliased, beq_self_eq_true]; rfl)
  · refine ⟨"__restrict__ pointers to the same array", ?_⟩
    unfold advection
    simp only []
    rw [bind_ok htm, bind_ok hd, bind_ok ib', bind_ok ob, bind_ok ob]
    exact K false [false, true] (w := "__restrict__ pointers to the same array") (by simp only [aliased, beq_self_eq_true]; rfl)

/-- **C135** What the stages of the integrators need, exactly: the variable written is none of the variables read. The other
variables may coincide. `rk1` and the first stage of `ssprk3` need `q1 ∉ {q, rhs}`; the second stage `q2 ∉ {q, q1, rhs}`; the
third `q3 ∉ {q, q2, rhs}`, so that `q3` may be `q1`. -/
theorem C135_exactly {ids : List VarId} {t : α} (A : Alike S m ids t) {q rhs o1 o2 o3 : VarId} (hids : ∀ id ∈ [q, rhs, o1, o2, o3], id ∈ ids) (more : List VarId) :
    Combines m (rk1 [q, rhs] (o1 :: more) 0) [q, rhs] o1 (forwardOf t) ∧
    Combines m (ssprk3 true [q, rhs] (o1 :: o2 :: o3 :: more) 0) [q, rhs] o1 (forwardOf t) ∧
    Combines m (ssprk3 true [q, rhs] (o1 :: o2 :: o3 :: more) 1) [q, o1, rhs] o2 (secondOf t) ∧
    Combines m (ssprk3 true [q, rhs] (o1 :: o2 :: o3 :: more) 2) [q, o2, rhs] o3 (thirdOf t) := by
  have h := A.good
  have i0 := hids q (by simp)
  have ir := hids rhs (by simp)
  have i1 := hids o1 (by simp)
  have i2 := hids o2 (by simp)
  have i3 := hids o3 (by simp)
  obtain ⟨a0, c0, b0, d0, e0, -⟩ := existing_var h (A.known q i0)
  obtain ⟨ar, r, br, dr, er, -⟩ := existing_var h (A.known rhs ir)
  obtain ⟨a1, c1, b1, d1, -, e1⟩ := existing_var h (A.known o1 i1)
  obtain ⟨a2, c2, b2, d2, -, e2⟩ := existing_var h (A.known o2 i2)
  obtain ⟨a3, c3, b3, d3, -, e3⟩ := existing_var h (A.known o3 i3)
  have hd := alike_dt A.dt
  have y0 := A.layout i0 i0 d0
  have yr := A.layout i0 ir dr
  have y1 := A.layout i0 i1 d1
  have y2 := A.layout i0 i2 d2
  have y3 := A.layout i0 i3 d3
  have same : ∀ {x y : VarId} {a b : Nat}, m.addr x = some a → m.addr y = some b → x = y → (a == b) = true := by
    intro x y a b hx hy e
    rw [e, hy] at hx
    rw [beq_iff_eq]; exact (Option.some.inj hx).symm
  have first : Combines m (fun m => kernelLoop a0 a1 [a0, ar] (fun _ cs c1 => do
        aliased (a0 == a1 || ar == a1)
        match cs with
        | [c0, r] => RK.stage0 t c0 r c1
        | _ => .ub "unreachable") m) [q, rhs] o1 (forwardOf t) := by
    constructor
    · intro hm
      refine ⟨"__restrict__ pointers to the same array", kernelLoop_ub h b0 b1 (cs := [c0, r]) (.cons ⟨q, b0, d0⟩ (.cons ⟨rhs, br, dr⟩ .nil)) d1 ?_⟩
      simp only [List.mem_cons, List.not_mem_nil, or_false] at hm
      have : (a0 == a1 || ar == a1) = true := by
        rcases hm with e | e
        · rw [same b0 b1 e.symm]; rfl
        · rw [same br b1 e.symm, Bool.or_true]
      rw [this]; rfl
    · intro hm
      simp only [List.mem_cons, List.not_mem_nil, or_false, not_or] at hm
      obtain ⟨c', s1, s2, s3⟩ := RK.stage0_spec t y0 yr y1
      refine ⟨m.store a1 c', [c0, r], c', ?_, .cons d0 (.cons dr .nil), h.store_contents b1 _, ?_⟩
      · refine kernelLoop_spec h b0 b1 (cs := [c0, r]) (.cons ⟨q, b0, d0⟩ (.cons ⟨rhs, br, dr⟩ .nil)) d1 ?_
        rw [addr_ne h b0 b1 (Ne.symm hm.1), addr_ne h br b1 (Ne.symm hm.2)]
        exact s1
      · rintro x vs (_ | ⟨h1, _ | ⟨h2, _ | _⟩⟩)
        exact s3 x _ _ h1 h2
  refine ⟨?_, ?_, ?_, ?_⟩
  · have e : rk1 [q, rhs] (o1 :: more) 0 m = kernelLoop a0 a1 [a0, ar] (fun _ cs c1 => do
        aliased (a0 == a1 || ar == a1)
        match cs with
        | [c0, r] => RK.stage0 t c0 r c1
        | _ => .ub "unreachable") m := by
      unfold rk1
      simp only []
      rw [bind_ok hd, bind_ok e0, bind_ok er, bind_ok e1]
      rfl
    unfold Combines at first ⊢
    rw [e]; exact first
  · have e : ssprk3 true [q, rhs] (o1 :: o2 :: o3 :: more) 0 m = kernelLoop a0 a1 [a0, ar] (fun _ cs c1 => do
        aliased (a0 == a1 || ar == a1)
        match cs with
        | [c0, r] => RK.stage0 t c0 r c1
        | _ => .ub "unreachable") m := by
      unfold ssprk3
      simp only []
      rw [bind_ok hd, bind_ok e0, bind_ok er, bind_ok e1, bind_ok e2, bind_ok e3]
      rfl
    unfold Combines at first ⊢
    rw [e]; exact first
  · have e : ssprk3 true [q, rhs] (o1 :: o2 :: o3 :: more) 1 m = ssprk3Loop true t a0 ar a1 a2 a3 1 m := by
      unfold ssprk3
      simp only []
      rw [bind_ok hd, bind_ok e0, bind_ok er, bind_ok e1, bind_ok e2, bind_ok e3]
    unfold Combines
    rw [e]
    unfold ssprk3Loop
    rw [if_neg (by decide), if_pos rfl]
    constructor
    · intro hm
      refine ⟨"__restrict__ pointers to the same array", kernelLoop_ub h b0 b2 (cs := [c0, c1, r])
        (.cons ⟨q, b0, d0⟩ (.cons ⟨o1, b1, d1⟩ (.cons ⟨rhs, br, dr⟩ .nil))) d2 ?_⟩
      simp only [List.mem_cons, List.not_mem_nil, or_false] at hm
      have : (a0 == a2 || a1 == a2 || ar == a2) = true := by
        rcases hm with e | e | e
        · rw [same b0 b2 e.symm]; rfl
        · rw [same b1 b2 e.symm, Bool.or_true]; rfl
        · rw [same br b2 e.symm, Bool.or_true]
      rw [this]; rfl
    · intro hm
      simp only [List.mem_cons, List.not_mem_nil, or_false, not_or] at hm
      obtain ⟨c', s1, s2, s3⟩ := RK.stage1_spec t y0 y1 yr y2
      refine ⟨m.store a2 c', [c0, c1, r], c', ?_, .cons d0 (.cons d1 (.cons dr .nil)), h.store_contents b2 _, ?_⟩
      · refine kernelLoop_spec h b0 b2 (cs := [c0, c1, r]) (.cons ⟨q, b0, d0⟩ (.cons ⟨o1, b1, d1⟩ (.cons ⟨rhs, br, dr⟩ .nil))) d2 ?_
        rw [addr_ne h b0 b2 (Ne.symm hm.1), addr_ne h b1 b2 (Ne.symm hm.2.1), addr_ne h br b2 (Ne.symm hm.2.2)]
        exact s1
      · rintro x vs (_ | ⟨h1, _ | ⟨h2, _ | ⟨h3, _ | _⟩⟩⟩)
        exact s3 x _ _ _ h1 h2 h3
  · have e : ssprk3 true [q, rhs] (o1 :: o2 :: o3 :: more) 2 m = ssprk3Loop true t a0 ar a1 a2 a3 2 m := by
      unfold ssprk3
      simp only []
      rw [bind_ok hd, bind_ok e0, bind_ok er, bind_ok e1, bind_ok e2, bind_ok e3]
    unfold Combines
    rw [e]
    unfold ssprk3Loop
    rw [if_neg (by decide), if_neg (by decide), if_pos rfl]
    constructor
    · intro hm
      refine ⟨"__restrict__ pointers to the same array", kernelLoop_ub h b0 b3 (cs := [c0, c1, c2, r])
        (.cons ⟨q, b0, d0⟩ (.cons ⟨o1, b1, d1⟩ (.cons ⟨o2, b2, d2⟩ (.cons ⟨rhs, br, dr⟩ .nil)))) d3 ?_⟩
      simp only [List.mem_cons, List.not_mem_nil, or_false] at hm
      have : (a0 == a3 || a2 == a3 || ar == a3) = true := by
        rcases hm with e | e | e
        · rw [same b0 b3 e.symm]; rfl
        · rw [same b2 b3 e.symm, Bool.or_true]; rfl
        · rw [same br b3 e.symm, Bool.or_true]
      rw [this]; rfl
    · intro hm
      simp only [List.mem_cons, List.not_mem_nil, or_false, not_or] at hm
      obtain ⟨c', s1, s2, s3⟩ := RK.stage2_spec t y0 y2 yr y3
      refine ⟨m.store a3 c', [c0, c2, r], c', ?_, .cons d0 (.cons d2 (.cons dr .nil)), h.store_contents b3 _, ?_⟩
      · refine kernelLoop_spec h b0 b3 (cs := [c0, c1, c2, r])
          (.cons ⟨q, b0, d0⟩ (.cons ⟨o1, b1, d1⟩ (.cons ⟨o2, b2, d2⟩ (.cons ⟨rhs, br, dr⟩ .nil)))) d3 ?_
        rw [addr_ne h b0 b3 (Ne.symm hm.1), addr_ne h b2 b3 (Ne.symm hm.2.1), addr_ne h br b3 (Ne.symm hm.2.2)]
        exact s1
      · rintro x vs (_ | ⟨h1, _ | ⟨h2, _ | ⟨h3, _ | _⟩⟩⟩)
        exact s3 x _ _ _ h1 h2 h3

/-- **C135** The current source on its own output as fluid is defined and adds the components as they were before the
call: component `k` becomes `v k + mult · v (k + 1)` for `k = 0, 1, 2`; nothing else changes. -/
theorem C135_partial (h : m.Good S) (hL : m.Laid) {r : VarId} (hr : S r) (hp : 1 ≤ r.basis.points) (nr : 4 ≤ r.comps.length) (mult : α)
    {v : Cell → α} (hv : m.Stores r v) :
    ∃ m' v', current [mult] [r] [r] m = .ok () m' ∧ m'.Good S ∧ m'.Laid ∧ m.Extends m' ∧ (∀ id, id ≠ r → m'.contents id = m.contents id) ∧
      m'.Stores r v' ∧ CurrentAdded (m.grid.rng.dims ++ [(0, r.basis.points)]) [(mult, v)] v v' := by
  obtain ⟨d, hd, vd⟩ := hv
  obtain ⟨b, hb⟩ := exists_addr h hd
  obtain ⟨p, ep⟩ : ∃ p : Nat, r.basis.points = p := ⟨r.basis.points.toNat, by omega⟩
  have yr := hL _ _ hd
  unfold Mgr.arrayBox at vd
  rw [ep] at yr vd
  obtain ⟨d', s1, s2, s3⟩ := current_spec (mult := mult) yr yr h.mesh_pos (by omega) nr (by omega) (by decide) vd vd
  obtain ⟨v1, t1, t2, t3⟩ := stores_update h hb ((hL _ _ hd).sameShape s2) v
  unfold Mgr.arrayBox at t2 t3
  rw [ep] at t2 t3
  refine ⟨m.store b d', v1, ?_, h.store _ _, Mgr.Laid.store h hL hb hd s2, Mgr.store_extends _ _ _,
    fun x hx => by rw [h.store_contents hb, Function.update_of_ne hx], t1, by rw [ep]; exact s3 v1 t2 t3⟩
  unfold current
  rw [if_neg (by simp)]
  simp only []
  rw [SM.bind_ok (outputVar_existing h hr hb)]
  show currentLoop b [(mult, r)] m = _
  unfold currentLoop
  rw [SM.bind_ok (inputVar_existing h hr hb)]
  refine Eq.trans (SM.bind_ok (kernelLoop_spec h hb hb (cs := [d]) (c' := d') (.cons ⟨r, hb, hd⟩ .nil) hd ?_)) rfl
  simp only [beq_self_eq_true, if_true]
  rw [Source.current_self yr h.mesh_pos (by omega) nr (by decide) (holds_of_val vd)]
  exact s1

/-- **C135** `swap` of a variable with itself changes nothing. -/
theorem C135_swap (h : m.Good S) {q : VarId} (hq : S q ∧ m.contents q ≠ none) : swap [q, q] m = .ok () m := by
  obtain ⟨b, c, hb, hc, ib, ob⟩ := existing_var h hq
  obtain ⟨v, c', h1, h2, h3, h4, h5, h6, h7, h8⟩ := h.stored' hb
  unfold swap
  rw [if_neg (by simp)]
  unfold swapLoop
  rw [bind_ok ob, bind_ok ob]
  have e : modifyRes (swapVars b b) m = .ok () m := by
    unfold modifyRes swapVars
    rw [vget_ok h1, Res.ok_bind, Res.ok_bind]
    unfold IFace.swap
    rw [if_neg (by simp), Res.ok_bind, if_pos rfl]
    rfl
  rw [bind_ok e]
  rfl

end

/-! ## Examples -/

/-- Three variables of five components on 4 × 3 cells with the values 1, 2 and 3; the time step is 1/2. -/
theorem exAlike : ∃ m : Mgr ℝ, Alike (· ∈ exPlasmaIds) m [exPlasma "e" 5, exPlasma "i" 5, exPlasma "r" 5] (1 / 2) ∧ m.time = some 0 ∧
    m.grid.rng.dims = [(0, 4), (0, 3)] ∧ m.Stores (exPlasma "e" 5) (fun _ => 1) ∧ m.Stores (exPlasma "i" 5) (fun _ => 2) ∧ m.Stores (exPlasma "r" 5) (fun _ => 3) := by
  obtain ⟨m, h1, h2, h3, h4, h5, h6, h7⟩ := Mgr.exists_manager exPlasma_consistent (fun id h => by
      simp [exPlasmaIds, exPlasma] at h; rcases h with rfl | rfl | rfl | rfl | rfl <;> simp [Basis.volumeAverage])
    (⟨Range.setup [(0,4),(0,3)], [0,0], [4,3], [1,1]⟩ : Rectilinear ℝ) (by decide) (by decide) (1 / 2) 0
    (fun id _ => if id = exPlasma "e" 5 then 1 else if id = exPlasma "i" 5 then 2 else 3)
    (ids := [exPlasma "e" 5, exPlasma "i" 5, exPlasma "r" 5]) (by decide) (by decide)
  refine ⟨m, ⟨h1, h2, h4, ?_, ?_⟩, h5, by rw [h3]; rfl, ?_, ?_, ?_⟩
  · intro id hid
    obtain ⟨c, hc, -⟩ := h6 id hid
    refine ⟨?_, by rw [hc]; simp⟩
    simp only [List.mem_cons, List.not_mem_nil, or_false] at hid
    rcases hid with rfl | rfl | rfl <;> decide
  · decide
  · simpa using h6 (exPlasma "e" 5) (by decide)
  · simpa [show exPlasma "i" 5 ≠ exPlasma "e" 5 by decide] using h6 (exPlasma "i" 5) (by decide)
  · simpa [show exPlasma "r" 5 ≠ exPlasma "e" 5 by decide, show exPlasma "r" 5 ≠ exPlasma "i" 5 by decide] using h6 (exPlasma "r" 5) (by decide)

-- C135: reading and writing the same variable
example : ∃ m : Mgr ℝ, (∃ w, euler (5 / 3 : ℝ) [exPlasma "e" 5] [exPlasma "e" 5] m = .ub w) ∧
    (∃ w, rk1 [exPlasma "e" 5, exPlasma "r" 5] [exPlasma "e" 5] 0 m = .ub w) := by
  obtain ⟨m, A, hT, -⟩ := exAlike
  have H := C135_false A.good A.dt hT (A.known (exPlasma "e" 5) (by decide)) (A.known (exPlasma "r" 5) (by decide)) true [] (5 / 3) []
  exact ⟨m, H _ (by simp), H _ (by simp)⟩

-- C135: the third stage with `q1` as `q3`: (1 + 2 (3 + 1/2 · 3)) / 3; the same with `q` as `q3` is undefined
example : ∃ (m m' : Mgr ℝ) (c : Chunk ℝ), ssprk3 true [exPlasma "e" 5, exPlasma "r" 5] [exPlasma "i" 5, exPlasma "r" 5, exPlasma "i" 5] 2 m = .ok () m' ∧
    m'.contents (exPlasma "i" 5) = some c ∧ c.arr.val [0, 0, 0, 0] = some (10 / 3) ∧
    ∃ w, ssprk3 true [exPlasma "e" 5, exPlasma "r" 5] [exPlasma "i" 5, exPlasma "r" 5, exPlasma "e" 5] 2 m = .ub w := by
  obtain ⟨m, A, -, hg, ⟨ce, he, ve⟩, -, cr, hr, vr⟩ := exAlike
  obtain ⟨-, -, -, -, H⟩ := C135_exactly A (q := exPlasma "e" 5) (rhs := exPlasma "r" 5) (o1 := exPlasma "i" 5) (o2 := exPlasma "r" 5) (o3 := exPlasma "i" 5)
    (by decide) []
  obtain ⟨-, -, -, H', -⟩ := C135_exactly A (q := exPlasma "e" 5) (rhs := exPlasma "r" 5) (o1 := exPlasma "i" 5) (o2 := exPlasma "r" 5) (o3 := exPlasma "e" 5)
    (by decide) []
  obtain ⟨m', cs, c, k1, k2, k3, k4⟩ := H (by decide)
  refine ⟨m, m', c, k1, by rw [k3, Function.update_self], ?_, H' (by decide)⟩
  unfold Mgr.arrayBox at ve vr
  rw [hg] at ve vr
  cases k2 with
  | cons e1 k2 => cases k2 with
    | cons e2 k2 => cases k2 with
      | cons e3 k2 =>
        cases k2
        rw [he] at e1; rw [hr] at e2 e3
        cases e1; cases e2; cases e3
        rw [k4 [0, 0, 0, 0] [1, 3, 3] (.cons (ve _ (by decide)) (.cons (vr _ (by decide)) (.cons (vr _ (by decide)) .nil)))]
        simp only [thirdOf, real_lit]
        norm_num

-- C135: the current source on its own output, `1 + 2 · 1`
example : ∃ (m m' : Mgr ℝ) (v' : Cell → ℝ), current [2] [exPlasma "e" 5] [exPlasma "e" 5] m = .ok () m' ∧ m'.Stores (exPlasma "e" 5) v' ∧
    v' [0, 0, 0, 1] = 3 ∧ v' [0, 0, 0, 3] = 1 := by
  obtain ⟨m, A, -, hg, he, -⟩ := exAlike
  obtain ⟨m', v', k1, -, -, -, -, k2, k3⟩ := C135_partial A.good A.laid (r := exPlasma "e" 5) (by decide) (by decide) (by decide) 2 he
  rw [hg] at k3
  refine ⟨m, m', v', k1, k2, ?_, ?_⟩
  · have := k3.field [0, 0, 0] 1 (by decide) (by decide) (by decide)
    simp only [List.cons_append, List.nil_append, List.foldl_cons, List.foldl_nil] at this
    rw [this]; norm_num
  · refine k3.rest _ ?_
    rintro x k hx h0 h3 e
    have := congrArg (fun l => l.getLast?) e
    simp at this
    omega

-- C135: `swap` of a variable with itself
example : ∃ m : Mgr ℝ, swap [exPlasma "e" 5, exPlasma "e" 5] m = .ok () m := by
  obtain ⟨m, A, -⟩ := exAlike
  exact ⟨m, C135_swap A.good (A.known _ (by decide))⟩

end Props
end QK
