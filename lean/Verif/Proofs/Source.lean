import Verif.Model.Stage
import Verif.Proofs.FvSolve
import Verif.Proofs.FvReal
/-
Helper lemmas about the loops of the source terms (Model/Stage.lean, `Source`).
-/
namespace QK
open Spec

namespace Indexer

/-- Two indexers that start together visit the pairs of their cells, until the shorter enumeration ends. -/
theorem forBoth_lockstep {σ : Type} {A B supA supB : Box} (hlA : A.length = supA.length) (hlB : B.length = supB.length)
    (hpA : Pos A) (hpB : Pos B) (body : Indexer → Indexer → σ → Res σ) :
    ∀ (LA LB preA preB : List Cell) (a b : Cell) (s : σ), cells A = preA ++ a :: LA → cells B = preB ++ b :: LB →
    forBoth (onCell A supA a) (onCell B supB b) body s =
      ((a, b) :: LA.zip LB).foldlM (fun s p => body (onCell A supA p.1) (onCell B supB p.2) s) s := by
  intro LA
  induction LA with
  | nil =>
    intro LB preA preB a b s hA hB
    unfold forBoth
    rw [iter_unfold]
    rw [if_pos (by rfl)]
    simp only [List.zip_nil_left, List.foldlM_cons, List.foldlM_nil, next_last hlA hpA hA]
    simp only [Res.ok_bind, bind_assoc, Res.pure_eq]
    congr 1
    funext s'
    cases LB with
    | nil =>
      rw [next_last hlB hpB hB, Res.ok_bind]
      rw [iter_unfold]; rfl
    | cons b' LB =>
      rw [next_chain hlB hpB hB, Res.ok_bind]
      rw [iter_unfold]; rfl
  | cons a' LA ih =>
    intro LB preA preB a b s hA hB
    unfold forBoth
    rw [iter_unfold]
    rw [if_pos (by rfl)]
    cases LB with
    | nil =>
      simp only [List.zip_nil_right, List.foldlM_cons, List.foldlM_nil, next_chain hlA hpA hA, next_last hlB hpB hB]
      simp only [Res.ok_bind, bind_assoc, Res.pure_eq]
      congr 1
      funext s'
      rw [iter_unfold]; rfl
    | cons b' LB =>
      rw [List.zip_cons_cons, List.foldlM_cons]
      simp only [next_chain hlA hpA hA, next_chain hlB hpB hB]
      simp only [Res.ok_bind, bind_assoc, Res.pure_eq]
      congr 1
      funext s'
      have := ih LB (preA ++ [a]) (preB ++ [b]) a' b' s' (by simpa using hA) (by simpa using hB)
      unfold forBoth at this
      exact this

theorem forBoth_make {σ : Type} {A B supA supB : Range} (hnA : supA.dims ≠ []) (hnB : supB.dims ≠ [])
    (hA : Range.Within supA.dims A.dims) (hB : Range.Within supB.dims B.dims) (hpA : Pos A.dims) (hpB : Pos B.dims)
    (body : Indexer → Indexer → σ → Res σ) (s : σ) :
    forBoth (make A supA) (make B supB) body s =
      ((cells A.dims).zip (cells B.dims)).foldlM
        (fun s p => body (onCell A.dims supA.dims p.1) (onCell B.dims supB.dims p.2) s) s := by
  obtain ⟨-, ⟨ra, ha⟩, -⟩ := cells_chain A.dims hpA
  obtain ⟨-, ⟨rb, hb⟩, -⟩ := cells_chain B.dims hpB
  rw [make_eq_at hnA hA, make_eq_at hnB hB, ha, hb, List.zip_cons_cons]
  exact forBoth_lockstep hA.length_eq.symm hB.length_eq.symm hpA hpB body ra rb [] [] _ _ s ha hb

theorem forBoth_empty {σ : Type} {i j : Indexer} (h : i.ex = false ∨ j.ex = false)
    (body : Indexer → Indexer → σ → Res σ) (s : σ) : forBoth i j body s = .ok s := by
  unfold forBoth
  rw [iter_unfold, if_neg (by rcases h with h | h <;> simp [h])]
  rfl

end Indexer

namespace IFace
variable {α : Type}

/-- Apply a function to the element of a cell. -/
def upd (a : IFace α) (p : Cell × (α → α)) : IFace α :=
  match a.val p.1 with
  | some r => a.write p.1 (p.2 r)
  | none => a

@[simp] theorem upd_rng (a : IFace α) (p : Cell × (α → α)) : (a.upd p).rng = a.rng := by
  unfold upd; split <;> rfl

theorem upd_wf {a : IFace α} (h : a.WF) (p : Cell × (α → α)) : (a.upd p).WF := by
  unfold upd; split
  · exact write_wf h _ _
  · exact h

theorem val_upd {a : IFace α} (h : a.WF) (hn : a.rng.dims ≠ []) {p : Cell × (α → α)} (hp : InBox a.rng.dims p.1) {y : Cell}
    (hy : InBox a.rng.dims y) : (a.upd p).val y = if y = p.1 then (a.val y).map p.2 else a.val y := by
  obtain ⟨r, hr⟩ := val_isSome h hn hp
  unfold upd
  rw [hr]
  simp only []
  rw [val_write h hn hp hy]
  split
  · next e => subst e; rw [hr]; rfl
  · rfl

@[simp] theorem foldl_upd_rng (L : List (Cell × (α → α))) (a : IFace α) : (L.foldl upd a).rng = a.rng := by
  induction L generalizing a with
  | nil => rfl
  | cons p L ih => rw [List.foldl_cons, ih, upd_rng]

theorem foldl_upd_wf (L : List (Cell × (α → α))) {a : IFace α} (h : a.WF) : (L.foldl upd a).WF := by
  induction L generalizing a with
  | nil => exact h
  | cons p L ih => exact ih (upd_wf h p)

theorem foldl_upd_length (L : List (Cell × (α → α))) (a : IFace α) : (L.foldl upd a).data.length = a.data.length := by
  induction L generalizing a with
  | nil => rfl
  | cons p L ih =>
    rw [List.foldl_cons, ih]
    unfold upd
    split
    · simp [write]
    · rfl

theorem foldl_upd_sameShape (L : List (Cell × (α → α))) (c : Chunk α) :
    c.SameShape { c with arr := L.foldl upd c.arr } := by
  refine ⟨?_, foldl_upd_length L c.arr⟩
  simp only [Chunk.mk.injEq, true_and, and_true]
  rw [← foldl_upd_rng L c.arr]

/-- Updates of distinct cells: each applied once, nothing else changed. -/
theorem foldl_upd (L : List (Cell × (α → α))) {a : IFace α} (h : a.WF) (hn : a.rng.dims ≠ [])
    (hL : ∀ p ∈ L, InBox a.rng.dims p.1) (hnd : (L.map Prod.fst).Nodup) :
    (∀ p ∈ L, (L.foldl upd a).val p.1 = (a.val p.1).map p.2) ∧
    (∀ y, InBox a.rng.dims y → y ∉ L.map Prod.fst → (L.foldl upd a).val y = a.val y) := by
  induction L generalizing a with
  | nil => exact ⟨by simp, by simp⟩
  | cons p L ih =>
    rw [List.map_cons, List.nodup_cons] at hnd
    obtain ⟨h1, h2⟩ := ih (upd_wf h p) (by simpa using hn)
      (fun q hq => by rw [upd_rng]; exact hL q (List.mem_cons_of_mem _ hq)) hnd.2
    have hp := hL p List.mem_cons_self
    constructor
    · intro q hq
      rw [List.foldl_cons]
      rcases List.mem_cons.1 hq with rfl | hq
      · rw [h2 _ (by simpa using hp) hnd.1, val_upd h hn hp hp, if_pos rfl]
      · rw [h1 q hq, val_upd h hn hp (hL q (List.mem_cons_of_mem _ hq)), if_neg]
        intro e
        exact hnd.1 (e ▸ List.mem_map_of_mem hq)
    · intro y hy hyn
      rw [List.map_cons, List.mem_cons, not_or] at hyn
      rw [List.foldl_cons, h2 y (by simpa using hy) hyn.2, val_upd h hn hp hy, if_neg hyn.1]

end IFace

namespace Source
variable {α : Type}

/-- A loop whose rounds are updates of single elements. -/
theorem foldlM_upd {ι : Type} (a0 : IFace α) (ups : ι → List (Cell × (α → α))) {body : ι → List α → Res (List α)}
    {L : List ι} (h0 : a0.WF)
    (hb : ∀ p ∈ L, ∀ a : IFace α, a.WF → a.rng = a0.rng → body p a.data = .ok ((ups p).foldl IFace.upd a).data) :
    L.foldlM (fun d p => body p d) a0.data = .ok ((L.flatMap ups).foldl IFace.upd a0).data := by
  suffices H : ∀ a : IFace α, a.WF → a.rng = a0.rng →
      L.foldlM (fun d p => body p d) a.data = .ok ((L.flatMap ups).foldl IFace.upd a).data from H a0 h0 rfl
  induction L with
  | nil => intro a _ _; rfl
  | cons p L ih =>
    intro a ha hr
    rw [List.foldlM_cons, hb p List.mem_cons_self a ha hr, Res.ok_bind,
      ih (fun q hq => hb q (List.mem_cons_of_mem _ hq)) _ (IFace.foldl_upd_wf _ ha) (by rw [IFace.foldl_upd_rng, hr]),
      List.flatMap_cons, List.foldl_append]

/-- The same for loops that carry the array itself. -/
theorem foldlM_upd' {ι : Type} (a0 : IFace α) (up : ι → Cell × (α → α)) {body : ι → IFace α → Res (IFace α)}
    {L : List ι} (h0 : a0.WF)
    (hb : ∀ p ∈ L, ∀ a : IFace α, a.WF → a.rng = a0.rng → body p a = .ok (a.upd (up p))) :
    L.foldlM (fun d p => body p d) a0 = .ok ((L.map up).foldl IFace.upd a0) := by
  suffices H : ∀ a : IFace α, a.WF → a.rng = a0.rng →
      L.foldlM (fun d p => body p d) a = .ok ((L.map up).foldl IFace.upd a) from H a0 h0 rfl
  induction L with
  | nil => intro a _ _; rfl
  | cons p L ih =>
    intro a ha hr
    rw [List.foldlM_cons, hb p List.mem_cons_self a ha hr, Res.ok_bind,
      ih (fun q hq => hb q (List.mem_cons_of_mem _ hq)) _ (IFace.upd_wf ha _) (by rw [IFace.upd_rng, hr]),
      List.map_cons, List.foldl_cons]

variable [Arith α]

theorem addAt_eq {a : IFace α} (h : a.WF) (hn : a.rng.dims ≠ []) {y : Cell} (hy : InBox a.rng.dims y) {base k : Int}
    (e : base + k = offset a.rng.dims y) (v : α) :
    addAt a.data base k v = .ok (a.upd (y, (· + v))).data := by
  obtain ⟨r, hr⟩ := IFace.val_isSome h hn hy
  have ho := offset_nonneg hy.pos hy
  have hl := IFace.InBox_ne_nil h hn hy
  unfold addAt
  have hg : vget a.data (base + k) = .ok r := by
    rw [e, vget_eq_ok_iff]; exact ⟨ho.1, hr⟩
  rw [hg, Res.ok_bind, e]
  unfold IFace.upd
  simp only [hr]
  unfold vset
  rw [if_pos (by omega)]
  rfl

/-- Cells of a box with one more dimension of one entry. -/
theorem cells_snoc_one (B : Box) (j : Int) : cells (B ++ [(j, j + 1)]) = (cells B).map (· ++ [j]) := by
  induction B with
  | nil => simp [cells, interval_succ, interval_empty]
  | cons d B ih =>
    simp only [List.cons_append, cells, ih, List.map_flatMap, List.map_map]
    rfl

theorem cells_snoc (B : Box) (l u : Int) :
    cells (B ++ [(l, u)]) = (cells B).flatMap (fun x => (interval l u).map (fun j => x ++ [j])) := by
  induction B with
  | nil => simp [cells, List.flatMap_def]; induction interval l u with
    | nil => rfl
    | cons a t ih => simp [ih]
  | cons d B ih =>
    simp only [List.cons_append, cells, ih, List.map_flatMap, List.map_map, List.flatMap_map, List.flatMap_assoc]
    rfl

theorem vget_holds {c : Chunk α} {g : Int} {M : Box} {p n : Nat} {u : Cell → Nat → α}
    (hl : c.Layout g M [(0, (p : Int)), (0, (n : Int))]) (hu : c.Holds (grow g M ++ [(0, (p : Int))]) n u)
    {x : Cell} (hx : InBox (grow g M ++ [(0, (p : Int))]) x) {j : Nat} (hj : j < n) {i : Int}
    (hi : i = offset c.arr.rng.dims (x ++ [0]) + j) : vget c.arr.data i = .ok (u x j) := by
  have hin : InBox (grow g M ++ [(0, (p : Int))] ++ [(0, (n : Int))]) (x ++ [(j : Int)]) :=
    (inBox_snoc hx.length_eq).2 ⟨hx, by omega, by omega⟩
  rw [vget_eq_ok_iff]
  have e : i = offset c.arr.rng.dims (x ++ [(j : Int)]) := by
    rw [hi, hl.dims, FV.layout_split, offset_snoc (by rw [hx.length_eq]), offset_snoc (by rw [hx.length_eq])]; ring
  refine ⟨?_, ?_⟩
  · rw [e, hl.dims, FV.layout_split]; exact (offset_nonneg hin.pos hin).1
  · rw [e]; exact hu x hx j hj

theorem zip_snoc (B : Box) (j : Int) : (cells (B ++ [(j, j + 1)])).zip (cells (B ++ [(j, j + 1)])) =
    (cells B).map (fun x => (x ++ [j], x ++ [j])) := by
  rw [cells_snoc_one, List.zip_map']

/-- The updates of one round of the Lorentz force. -/
def lorentzUps (com : α) (u w : Cell → Nat → α) (x : Cell) : List (Cell × (α → α)) :=
  [(x ++ [1], (· + com * (u x 0 * w x 0 + u x 2 * w x 5 - u x 3 * w x 4))),
   (x ++ [2], (· + com * (u x 0 * w x 1 + u x 3 * w x 3 - u x 1 * w x 5))),
   (x ++ [3], (· + com * (u x 0 * w x 2 + u x 1 * w x 4 - u x 2 * w x 3))),
   (x ++ [4], (· + com * (u x 1 * w x 0 + u x 2 * w x 1 + u x 3 * w x 2)))]

theorem lorentz_eq {com : α} {fluid field rhs : Chunk α} {g : Int} {M : Box} {p nf ne : Nat} {u w : Cell → Nat → α}
    (hf : fluid.Layout g M [(0, (p : Int)), (0, (nf : Int))]) (he : field.Layout g M [(0, (p : Int)), (0, (ne : Int))])
    (hr : rhs.Layout g M [(0, (p : Int)), (0, (nf : Int))]) (hM : Pos M) (hp : 1 ≤ p) (hnf : 5 ≤ nf) (hne : 6 ≤ ne) (hg : 0 ≤ g)
    (hu : fluid.Holds (grow g M ++ [(0, (p : Int))]) nf u) (hw : field.Holds (grow g M ++ [(0, (p : Int))]) ne w) :
    lorentz com fluid field rhs =
      .ok { rhs with arr := ((cells (M ++ [(0, (p : Int))])).flatMap (lorentzUps com u w)).foldl IFace.upd rhs.arr } := by
  have hset : ∀ {c : Chunk α} {n : Nat}, c.Layout g M [(0, (p : Int)), (0, (n : Int))] →
      c.internal.copy.set (c.internal.numDims - 1) 0 1 = .ok (Range.setup ((M ++ [(0, (p : Int))]) ++ [(0, 1)])) := by
    intro c n hl
    have e : (c.internal.numDims : Int) - 1 = ((M ++ [(0, (p : Int))]).length : Nat) := by
      rw [hl.internal]; simp [Range.numDims]; omega
    rw [e, hl.internal, Range.copy_setup, set_setup (by simp), FV.layout_split, FV.snoc_slab]
  have hpos : Pos ((M ++ [(0, (p : Int))]) ++ [(0, 1)]) := by
    rw [pos_append, pos_append]
    exact ⟨⟨hM, by intro d hd; simp at hd; subst hd; simp; omega⟩, by intro d hd; simp at hd; subst hd; simp⟩
  have hwi : ∀ {c : Chunk α} {n : Nat}, c.Layout g M [(0, (p : Int)), (0, (n : Int))] → 1 ≤ n →
      Range.Within c.arr.rng.dims ((M ++ [(0, (p : Int))]) ++ [(0, 1)]) := by
    intro c n hl hn
    rw [hl.dims, FV.layout_split]
    have := FV.within_grow (M := M) hg [(0, (p : Int))]
    unfold Range.Within at this ⊢
    refine List.rel_append this ?_
    simp; omega
  have hwf : fluid.arr.rng.dims = rhs.arr.rng.dims := by rw [hf.dims, hr.dims]
  have hne' : ∀ {c : Chunk α} {n : Nat}, c.Layout g M [(0, (p : Int)), (0, (n : Int))] → c.arr.rng.dims ≠ [] := by
    intro c n hl; rw [hl.dims]; simp
  unfold lorentz
  rw [hset hf, Res.ok_bind, hset he, Res.ok_bind]
  unfold IFace.indexer
  rw [Indexer.forBoth_make (hne' hf) (hne' he) (hwi hf (by omega)) (hwi he (by omega)) hpos hpos]
  have e0 : (Range.setup ((M ++ [(0, (p : Int))]) ++ [(0, 1)])).dims = (M ++ [(0, (p : Int))]) ++ [(0, 1)] := rfl
  rw [e0]
  have ez := zip_snoc (M ++ [(0, (p : Int))]) 0
  rw [show (0 : Int) + 1 = 1 from rfl] at ez
  rw [ez, List.foldlM_map]
  rw [foldlM_upd rhs.arr (lorentzUps com u w) hr.wf
    (body := fun x d => lorentzAt com fluid.arr.data field.arr.data
      (Indexer.onCell ((M ++ [(0, (p : Int))]) ++ [(0, 1)]) fluid.arr.rng.dims (x ++ [0])).linear
      (Indexer.onCell ((M ++ [(0, (p : Int))]) ++ [(0, 1)]) field.arr.rng.dims (x ++ [0])).linear d)]
  · rw [Res.ok_bind]
    simp only [Res.pure_eq]
    congr 2
    rw [← IFace.foldl_upd_rng ((cells (M ++ [(0, (p : Int))])).flatMap (lorentzUps com u w)) rhs.arr]
  · intro x hx a ha har
    rw [mem_cells] at hx
    have hxg : InBox (grow g M ++ [(0, (p : Int))]) x := inBox_interior hg hx
    have hn : a.rng.dims ≠ [] := by rw [har]; exact hne' hr
    have hin : ∀ j : Int, 0 ≤ j → j < nf → InBox a.rng.dims (x ++ [j]) := by
      intro j h0 h1
      rw [har, hr.dims, FV.layout_split]
      exact (inBox_snoc hxg.length_eq).2 ⟨hxg, h0, h1⟩
    have hoff : ∀ j : Int, offset fluid.arr.rng.dims (x ++ [0]) + j = offset a.rng.dims (x ++ [j]) := by
      intro j
      rw [har, ← hwf, hf.dims, FV.layout_split, offset_snoc (by rw [hxg.length_eq]), offset_snoc (by rw [hxg.length_eq])]
      ring
    unfold lorentzAt Indexer.onCell
    simp only []
    rw [vget_holds hf hu hxg (j := 0) (by omega) (by simp), Res.ok_bind, vget_holds hf hu hxg (j := 1) (by omega) (by simp),
      Res.ok_bind, vget_holds hf hu hxg (j := 2) (by omega) (by simp), Res.ok_bind,
      vget_holds hf hu hxg (j := 3) (by omega) (by simp), Res.ok_bind, vget_holds he hw hxg (j := 0) (by omega) (by simp),
      Res.ok_bind, vget_holds he hw hxg (j := 1) (by omega) (by simp), Res.ok_bind,
      vget_holds he hw hxg (j := 2) (by omega) (by simp), Res.ok_bind, vget_holds he hw hxg (j := 3) (by omega) (by simp),
      Res.ok_bind, vget_holds he hw hxg (j := 4) (by omega) (by simp), Res.ok_bind,
      vget_holds he hw hxg (j := 5) (by omega) (by simp), Res.ok_bind]
    rw [addAt_eq ha hn (hin 1 (by omega) (by omega)) (hoff 1), Res.ok_bind,
      addAt_eq (IFace.upd_wf ha _) (by simpa using hn) (by simpa using hin 2 (by omega) (by omega)) (by simpa using hoff 2), Res.ok_bind,
      addAt_eq (IFace.upd_wf (IFace.upd_wf ha _) _) (by simpa using hn) (by simpa using hin 3 (by omega) (by omega)) (by simpa using hoff 3),
      Res.ok_bind,
      addAt_eq (IFace.upd_wf (IFace.upd_wf (IFace.upd_wf ha _) _) _) (by simpa using hn) (by simpa using hin 4 (by omega) (by omega))
        (by simpa using hoff 4)]
    rfl

/-- The pairs of a cell and a vector component. -/
def vecCells (B : Box) : List (Cell × Nat) := (cells B).flatMap fun x => [(x, 0), (x, 1), (x, 2)]

theorem cells_vec (B : Box) (l : Int) : cells (B ++ [(l, l + 3)]) = (vecCells B).map fun q => q.1 ++ [l + (q.2 : Int)] := by
  rw [cells_snoc]
  have : interval l (l + 3) = [l, l + 1, l + 2] := by
    rw [interval_succ (by omega), interval_succ (by omega), interval_succ (by omega), interval_empty (by omega)]
    simp; omega
  rw [this]
  unfold vecCells
  rw [List.map_flatMap]
  simp

theorem mem_vecCells {B : Box} {q : Cell × Nat} : q ∈ vecCells B ↔ InBox B q.1 ∧ q.2 < 3 := by
  obtain ⟨x, j⟩ := q
  unfold vecCells
  simp only [List.mem_flatMap, mem_cells, List.mem_cons, Prod.mk.injEq, List.not_mem_nil, or_false]
  constructor
  · rintro ⟨y, hy, ⟨rfl, rfl⟩ | ⟨rfl, rfl⟩ | ⟨rfl, rfl⟩⟩ <;> simp [hy]
  · rintro ⟨h, hj⟩
    refine ⟨x, h, ?_⟩
    simp only [true_and]
    omega

/-- The update of one round of the current source. -/
def currentUp (mult : α) (u : Cell → Nat → α) (q : Cell × Nat) : Cell × (α → α) :=
  (q.1 ++ [(q.2 : Int)], (· + mult * u q.1 (q.2 + 1)))

theorem current_eq {mult : α} {fluid rhs : Chunk α} {g : Int} {M : Box} {p nf nr : Nat} {u : Cell → Nat → α}
    (hf : fluid.Layout g M [(0, (p : Int)), (0, (nf : Int))]) (hr : rhs.Layout g M [(0, (p : Int)), (0, (nr : Int))])
    (hM : Pos M) (hp : 1 ≤ p) (hnf : 4 ≤ nf) (hnr : 3 ≤ nr) (hg : 0 ≤ g)
    (hu : fluid.Holds (grow g M ++ [(0, (p : Int))]) nf u) :
    current mult (some fluid) rhs = .ok
      { rhs with arr := (vecCells (M ++ [(0, (p : Int))])).map (currentUp mult u) |>.foldl IFace.upd rhs.arr } := by
  have hset : ∀ {c : Chunk α} {n : Nat} (l : Int), c.Layout g M [(0, (p : Int)), (0, (n : Int))] →
      c.internal.copy.set (c.internal.numDims - 1) l (l + 3) = .ok (Range.setup ((M ++ [(0, (p : Int))]) ++ [(l, l + 3)])) := by
    intro c n l hl
    have e : (c.internal.numDims : Int) - 1 = ((M ++ [(0, (p : Int))]).length : Nat) := by
      rw [hl.internal]; simp [Range.numDims]; omega
    rw [e, hl.internal, Range.copy_setup, set_setup (by simp), FV.layout_split, FV.snoc_slab]
  have hpos : ∀ l : Int, Pos ((M ++ [(0, (p : Int))]) ++ [(l, l + 3)]) := by
    intro l
    rw [pos_append, pos_append]
    exact ⟨⟨hM, by intro d hd; simp at hd; subst hd; simp; omega⟩, by intro d hd; simp at hd; subst hd; simp⟩
  have hwi : ∀ {c : Chunk α} {n : Nat} (l : Int), c.Layout g M [(0, (p : Int)), (0, (n : Int))] → 0 ≤ l → l + 3 ≤ n →
      Range.Within c.arr.rng.dims ((M ++ [(0, (p : Int))]) ++ [(l, l + 3)]) := by
    intro c n l hl h0 hn
    rw [hl.dims, FV.layout_split]
    have := FV.within_grow (M := M) hg [(0, (p : Int))]
    unfold Range.Within at this ⊢
    refine List.rel_append this ?_
    simp; omega
  have hne' : ∀ {c : Chunk α} {n : Nat}, c.Layout g M [(0, (p : Int)), (0, (n : Int))] → c.arr.rng.dims ≠ [] := by
    intro c n hl; rw [hl.dims]; simp
  unfold current
  simp only [Option.getD_some, Option.map_some]
  have h1 := hset 1 hf
  have h0 := hset 0 hr
  rw [show (1 : Int) + 3 = 4 from rfl] at h1
  rw [show (0 : Int) + 3 = 3 from rfl] at h0
  rw [h1, Res.ok_bind, h0, Res.ok_bind]
  unfold IFace.indexer
  rw [Indexer.forBoth_make (hne' hf) (hne' hr) (hwi 1 hf (by omega) (by omega)) (hwi 0 hr (by omega) (by omega)) (hpos 1) (hpos 0)]
  have c1 := cells_vec (M ++ [(0, (p : Int))]) 1
  have c0 := cells_vec (M ++ [(0, (p : Int))]) 0
  rw [show (1 : Int) + 3 = 4 from rfl] at c1
  rw [show (0 : Int) + 3 = 3 from rfl] at c0
  simp only [Range.setup] at *
  rw [c1, c0, List.zip_map', List.foldlM_map]
  rw [foldlM_upd' rhs.arr (currentUp mult u) hr.wf
    (body := fun (q : Cell × Nat) a => do
      let r ← a.get (Indexer.onCell ((M ++ [(0, (p : Int))]) ++ [(0, 3)]) rhs.arr.rng.dims (q.1 ++ [0 + (q.2 : Int)]))
      let v ← IFace.srcGet (some fluid.arr) a
        (Indexer.onCell ((M ++ [(0, (p : Int))]) ++ [(1, 4)]) fluid.arr.rng.dims (q.1 ++ [1 + (q.2 : Int)]))
      a.put (Indexer.onCell ((M ++ [(0, (p : Int))]) ++ [(0, 3)]) rhs.arr.rng.dims (q.1 ++ [0 + (q.2 : Int)])) (r + mult * v))]
  · rfl
  · rintro ⟨x, j⟩ hx a ha har
    rw [mem_vecCells] at hx
    simp only [] at hx ⊢
    have hxg : InBox (grow g M ++ [(0, (p : Int))]) x := inBox_interior hg hx.1
    have hin : InBox a.rng.dims (x ++ [(j : Int)]) := by
      rw [har, hr.dims, FV.layout_split]
      exact (inBox_snoc hxg.length_eq).2 ⟨hxg, by omega, by omega⟩
    have hinf : InBox fluid.arr.rng.dims (x ++ [((j + 1 : Nat) : Int)]) := by
      rw [hf.dims, FV.layout_split]
      exact (inBox_snoc hxg.length_eq).2 ⟨hxg, by omega, by omega⟩
    obtain ⟨r, hv⟩ := IFace.val_isSome ha (by rw [har]; exact hne' hr) hin
    have hv' : (j : Int) + 1 = ((j + 1 : Nat) : Int) := by push_cast; rfl
    rw [zero_add, add_comm 1, hv', ← har, IFace.get_onCell ha (by rw [har]; exact hne' hr) hin _ hv, Res.ok_bind]
    unfold IFace.srcGet
    simp only []
    rw [IFace.get_onCell hf.wf (hne' hf) hinf _ (hu x hxg (j + 1) (by omega)), Res.ok_bind,
      IFace.put_onCell ha (by rw [har]; exact hne' hr) hin]
    unfold IFace.upd currentUp
    simp only [hv]

end Source
end QK
