import Verif.Model.Advection
import Verif.Spec.Advection
import Mathlib.Algebra.BigOperators.Group.List.Basic
import Verif.Proofs.Solvers
import Verif.Model.ArithReal
/- Lemmas about the advection loop. -/
namespace QK
open Spec Prog

namespace Advection
variable {α : Type} [Arith α]

/-- The flux of iteration `i` on the values `A`. -/
def fluxAt (coeff : α) (s : Int) (A : Int → α) (i : Int) : α := dflux coeff (A (i - 2 * s)) (A (i - s)) (A i)

theorem iteration_run {coeff : α} {s i : Int} (hs : s ≠ 0) {m : Mem α} {A : Int → α} {x y : α}
    (hc : m (0, i - s) = some (A (i - s))) (hn : m (0, i - 2 * s) = some (A (i - 2 * s))) (hp : m (0, i) = some (A i))
    (hx : m (1, i - s) = some x) (hy : m (1, i) = some y) :
    (iteration coeff s i).run m = .ok ((), Function.update (Function.update m (1, i - s) (some (x - fluxAt coeff s A i))) (1, i)
      (some (y + fluxAt coeff s A i))) := by
  unfold iteration
  rw [run_bind_ok (run_read hc), run_bind_ok (run_read hn), run_bind_ok (run_read hp)]
  simp only []
  rw [run_bind_ok (run_read hx), run_bind_ok (run_write _ (by rw [hx]; rfl))]
  have hne : ((1, i) : Loc) ≠ (1, i - s) := by
    intro e; have := (Prod.ext_iff.1 e).2; simp only at this; omega
  have hy' : Function.update m (1, i - s) (some (x - dflux coeff (A (i - 2 * s)) (A (i - s)) (A i))) (1, i) = some y := by
    rw [Function.update_of_ne hne, hy]
  rw [run_bind_ok (run_read hy'), run_write _ (by rw [hy']; rfl)]
  rfl

/-- What iteration `i` needs. -/
def Ready (m : Mem α) (A : Int → α) (s i : Int) : Prop :=
  m (0, i - s) = some (A (i - s)) ∧ m (0, i - 2 * s) = some (A (i - 2 * s)) ∧ m (0, i) = some (A i) ∧
  (m (1, i - s)).isSome ∧ (m (1, i)).isSome

theorem runAll_snoc (ps : List (Prog α Unit)) (p : Prog α Unit) {m m1 m2 : Mem α} (h : runAll ps m = .ok m1)
    (h' : p.run m1 = .ok ((), m2)) : runAll (ps ++ [p]) m = .ok m2 := by
  rw [runAll_append, h, Res.ok_bind, runAll_cons, h', Res.ok_bind]; rfl

/-- The loop with a positive stride: element `e` gains the flux of iteration `e`, then loses that of `e + s`. -/
theorem iterate_up {coeff : α} {s : Int} (hs : 0 < s) {A : Int → α} {m : Mem α} {start : Int} :
    ∀ N : Nat, (∀ i, start ≤ i → i < start + N → Ready m A s i) →
    ∃ m', runAll (((List.range N).map (fun k : Nat => start + k)).map (iteration coeff s)) m = .ok m' ∧
      (∀ e, m' (0, e) = m (0, e)) ∧
      ∀ e, m' (1, e) = (m (1, e)).map (fun x =>
        let x1 := if start ≤ e ∧ e < start + N then x + fluxAt coeff s A e else x
        if start ≤ e + s ∧ e + s < start + N then x1 - fluxAt coeff s A (e + s) else x1) := by
  intro N
  induction N with
  | zero =>
    intro _
    refine ⟨m, rfl, fun _ => rfl, fun e => ?_⟩
    have h : ∀ a : Int, ¬ (start ≤ a ∧ a < start + (0 : Nat)) := by intro a; push_cast; omega
    simp only [if_neg (h _), Option.map_id']
  | succ N ih =>
    intro hR
    obtain ⟨m1, h1, h2, h3⟩ := ih (fun i a b => hR i a (by push_cast; omega))
    obtain ⟨r1, r2, r3, r4, r5⟩ := hR (start + N) (by omega) (by push_cast; omega)
    obtain ⟨x, hx⟩ := Option.isSome_iff_exists.1 r4
    obtain ⟨y, hy⟩ := Option.isSome_iff_exists.1 r5
    have e1 := h3 (start + N - s)
    have e2 := h3 (start + N)
    rw [hx] at e1
    rw [hy] at e2
    simp only [Option.map_some] at e1 e2
    rw [if_neg (by omega), if_neg (by omega)] at e2
    rw [if_neg (by omega)] at e1
    have hrun := iteration_run (coeff := coeff) (s := s) (i := start + N) (by omega) (m := m1) (A := A)
      (by rw [h2, r1]) (by rw [h2, r2]) (by rw [h2, r3]) e1 e2
    rw [List.range_succ, List.map_append, List.map_append]
    refine ⟨_, runAll_snoc _ _ h1 hrun, ?_, ?_⟩
    · intro e
      rw [Function.update_of_ne (by simp), Function.update_of_ne (by simp), h2]
    · intro e
      by_cases c1 : e = start + N
      · subst c1
        rw [Function.update_self, hy]
        simp only [Option.map_some]
        rw [if_neg (by push_cast; omega), if_pos ⟨by omega, by push_cast; omega⟩]
      · rw [Function.update_of_ne (by simpa using c1)]
        by_cases c2 : e = start + N - s
        · subst c2
          rw [Function.update_self, hx]
          simp only [Option.map_some]
          rw [if_pos (c := start ≤ start + ↑N - s + s ∧ _) ⟨by omega, by push_cast; omega⟩]
          have : start + (N : Int) - s + s = start + N := by omega
          rw [this]
          congr 2
          by_cases c3 : start ≤ start + (N : Int) - s
          · rw [if_pos ⟨c3, by omega⟩, if_pos ⟨c3, by push_cast; omega⟩]
          · rw [if_neg (by omega), if_neg (by omega)]
        · rw [Function.update_of_ne (by simpa using c2), h3 e]
          congr 1
          funext x
          have i1 : (start ≤ e ∧ e < start + ((N + 1 : Nat) : Int)) = (start ≤ e ∧ e < start + (N : Int)) := by
            apply propext; push_cast; omega
          have i2 : (start ≤ e + s ∧ e + s < start + ((N + 1 : Nat) : Int)) = (start ≤ e + s ∧ e + s < start + (N : Int)) := by
            apply propext; push_cast; omega
          simp only [i1, i2]

/-- The loop with a negative stride: element `e` loses the flux of iteration `e + s`, then gains that of `e`. -/
theorem iterate_down {coeff : α} {s : Int} (hs : s < 0) {A : Int → α} {m : Mem α} {start : Int} :
    ∀ N : Nat, (∀ i, start ≤ i → i < start + N → Ready m A s i) →
    ∃ m', runAll (((List.range N).map (fun k : Nat => start + k)).map (iteration coeff s)) m = .ok m' ∧
      (∀ e, m' (0, e) = m (0, e)) ∧
      ∀ e, m' (1, e) = (m (1, e)).map (fun x =>
        let x1 := if start ≤ e + s ∧ e + s < start + N then x - fluxAt coeff s A (e + s) else x
        if start ≤ e ∧ e < start + N then x1 + fluxAt coeff s A e else x1) := by
  intro N
  induction N with
  | zero =>
    intro _
    refine ⟨m, rfl, fun _ => rfl, fun e => ?_⟩
    have h : ∀ a : Int, ¬ (start ≤ a ∧ a < start + (0 : Nat)) := by intro a; push_cast; omega
    simp only [if_neg (h _), Option.map_id']
  | succ N ih =>
    intro hR
    obtain ⟨m1, h1, h2, h3⟩ := ih (fun i a b => hR i a (by push_cast; omega))
    obtain ⟨r1, r2, r3, r4, r5⟩ := hR (start + N) (by omega) (by push_cast; omega)
    obtain ⟨x, hx⟩ := Option.isSome_iff_exists.1 r4
    obtain ⟨y, hy⟩ := Option.isSome_iff_exists.1 r5
    have e1 := h3 (start + N - s)
    have e2 := h3 (start + N)
    rw [hx] at e1
    rw [hy] at e2
    simp only [Option.map_some] at e1 e2
    rw [if_neg (by omega), if_neg (by omega)] at e1
    rw [if_neg (c := start ≤ start + (N : Int) ∧ _) (by omega)] at e2
    have hrun := iteration_run (coeff := coeff) (s := s) (i := start + N) (by omega) (m := m1) (A := A)
      (by rw [h2, r1]) (by rw [h2, r2]) (by rw [h2, r3]) e1 e2
    rw [List.range_succ, List.map_append, List.map_append]
    refine ⟨_, runAll_snoc _ _ h1 hrun, ?_, ?_⟩
    · intro e
      rw [Function.update_of_ne (by simp), Function.update_of_ne (by simp), h2]
    · intro e
      by_cases c1 : e = start + N
      · subst c1
        rw [Function.update_self, hy]
        simp only [Option.map_some]
        rw [if_pos (c := start ≤ start + (N : Int) ∧ _) ⟨by omega, by push_cast; omega⟩]
        congr 2
        by_cases c3 : start ≤ start + (N : Int) + s
        · rw [if_pos ⟨c3, by omega⟩, if_pos ⟨c3, by push_cast; omega⟩]
        · rw [if_neg (by omega), if_neg (by omega)]
      · rw [Function.update_of_ne (by simpa using c1)]
        by_cases c2 : e = start + N - s
        · subst c2
          rw [Function.update_self, hx]
          simp only [Option.map_some]
          have : start + (N : Int) - s + s = start + N := by omega
          rw [this]
          rw [if_neg (c := start ≤ start + ↑N - s ∧ _) (by push_cast; omega), if_pos ⟨by omega, by push_cast; omega⟩]
        · rw [Function.update_of_ne (by simpa using c2), h3 e]
          congr 1
          funext x
          have i1 : (start ≤ e ∧ e < start + ((N + 1 : Nat) : Int)) = (start ≤ e ∧ e < start + (N : Int)) := by
            apply propext; push_cast; omega
          have i2 : (start ≤ e + s ∧ e + s < start + ((N + 1 : Nat) : Int)) = (start ≤ e + s ∧ e + s < start + (N : Int)) := by
            apply propext; push_cast; omega
          simp only [i1, i2]

/-- Sum of the first `V` elements of array 1. -/
noncomputable def memTotal (m : Mem ℝ) (V : Nat) : ℝ := ((List.range V).map fun e : Nat => (m (1, (e : Int))).getD 0).sum

theorem memTotal_update {m : Mem ℝ} {V : Nat} {e : Int} (h0 : 0 ≤ e) (h1 : e < V) (v : ℝ) :
    memTotal (Function.update m (1, e) (some v)) V = memTotal m V - (m (1, e)).getD 0 + v := by
  have hl : ((List.range V).map fun k : Nat => (Function.update m (1, e) (some v) (1, (k : Int))).getD 0) =
      ((List.range V).map fun k : Nat => (m (1, (k : Int))).getD 0).set e.toNat v := by
    refine List.ext_getElem (by simp) ?_
    intro i h h'
    simp only [List.length_map, List.length_range] at h
    simp only [List.getElem_map, List.getElem_range, List.getElem_set]
    by_cases c : e.toNat = i
    · have : (i : Int) = e := by omega
      rw [if_pos c, this, Function.update_self]; rfl
    · rw [if_neg c, Function.update_of_ne]
      intro hh
      have := (Prod.ext_iff.1 hh).2
      simp only at this; omega
  unfold memTotal
  rw [hl, List.sum_set']
  rw [dif_pos (by simp; omega)]
  have : ((e.toNat : Nat) : Int) = e := by omega
  simp only [List.getElem_map, List.getElem_range, this]
  ring

theorem memTotal_runAll {coeff : ℝ} {s : Int} (hs : s ≠ 0) {A : Int → ℝ} {V : Nat} :
    ∀ (L : List Int) (m m' : Mem ℝ), (∀ i ∈ L, Ready m A s i ∧ 0 ≤ i ∧ i < V ∧ 0 ≤ i - s ∧ i - s < V) →
      runAll (L.map (iteration coeff s)) m = .ok m' → memTotal m' V = memTotal m V := by
  intro L
  induction L with
  | nil => intro m m' _ h; cases h; rfl
  | cons i L ih =>
    intro m m' hR h
    obtain ⟨⟨r1, r2, r3, r4, r5⟩, b1, b2, b3, b4⟩ := hR i List.mem_cons_self
    obtain ⟨x, hx⟩ := Option.isSome_iff_exists.1 r4
    obtain ⟨y, hy⟩ := Option.isSome_iff_exists.1 r5
    have hrun := iteration_run (coeff := coeff) hs r1 r2 r3 hx hy
    rw [List.map_cons, runAll_cons, hrun, Res.ok_bind] at h
    have hne : ((1, i) : Loc) ≠ (1, i - s) := by
      intro e; have := (Prod.ext_iff.1 e).2; simp only at this; omega
    rw [ih _ m' (fun j hj => ?_) h, memTotal_update b1 b2, memTotal_update b3 b4, Function.update_of_ne hne, hx, hy]
    · simp only [Option.getD_some]; ring
    · obtain ⟨⟨t1, t2, t3, t4, t5⟩, rest⟩ := hR j (List.mem_cons_of_mem _ hj)
      have k0 : ∀ e, Function.update (Function.update m (1, i - s) (some (x - fluxAt coeff s A i))) (1, i)
          (some (y + fluxAt coeff s A i)) (0, e) = m (0, e) := by
        intro e; rw [Function.update_of_ne (by simp), Function.update_of_ne (by simp)]
      have k1 : ∀ e, (m (1, e)).isSome → (Function.update (Function.update m (1, i - s) (some (x - fluxAt coeff s A i))) (1, i)
          (some (y + fluxAt coeff s A i)) (1, e)).isSome := by
        intro e he
        by_cases c : e = i
        · subst c; rw [Function.update_self]; rfl
        · rw [Function.update_of_ne (by simpa using c)]
          by_cases c' : e = i - s
          · subst c'; rw [Function.update_self]; rfl
          · rw [Function.update_of_ne (by simpa using c')]; exact he
      exact ⟨⟨(k0 _).trans t1, (k0 _).trans t2, (k0 _).trans t3, k1 _ t4, k1 _ t5⟩, rest⟩

theorem memTotal_eq {m : Mem ℝ} {l : List ℝ} (h : ∀ i : Int, 0 ≤ i → l[i.toNat]? = m (1, i)) : memTotal m l.length = l.sum := by
  unfold memTotal
  congr 1
  refine List.ext_getElem (by simp) ?_
  intro i h1 h2
  have := h i (by omega)
  simp only [Int.toNat_natCast] at this
  simp [← this, h2]

/-! ### One direction -/

variable {g : Int} {M D : Box} {a b : Chunk α}

theorem stride_eq (hl : a.Layout g M D) {dim : Nat} (hd : dim < M.length) :
    vget a.arr.rng.stride (dim : Int) = .ok (boxVolume ((grow g M ++ D).drop (dim + 1))) := by
  rw [hl.arr_range]
  refine vget_of_getElem? ?_
  rw [Range.setup_stride, Range.strideLoop_getElem? _ _ (by simp [grow]; omega)]

theorem pos_grow (hg : 0 ≤ g) (hM : Pos M) : Pos (grow g M) := by
  intro d hd
  simp only [grow, List.mem_map] at hd
  obtain ⟨e, he, rfl⟩ := hd
  have := hM e he
  simp only []; omega

theorem pos_drop {B : Box} (h : Pos B) (k : Nat) : Pos (B.drop k) := fun d hd => h d (List.mem_of_mem_drop hd)

/-- Reading `a`, with the data of both arrays. -/
theorem ready (ha : a.Layout g M D) (hb : b.Layout g M D) {s i : Int}
    (h1 : 0 ≤ i) (h2 : i < a.arr.data.length) (h3 : 0 ≤ i - s) (h4 : i - s < a.arr.data.length) (h5 : 0 ≤ i - 2 * s)
    (h6 : i - 2 * s < a.arr.data.length) :
    Ready (Mem.of [a.arr.data, b.arr.data]) (fun i => a.arr.data.getD i.toNat (Arith.lit 0)) s i := by
  have hlen := ha.size_eq hb
  have r0 : ∀ j : Int, 0 ≤ j → j < a.arr.data.length →
      Mem.of [a.arr.data, b.arr.data] (0, j) = some (a.arr.data.getD j.toNat (Arith.lit 0)) := by
    intro j j0 j1
    rw [FV.mem_of_zero j0]
    exact RK.getElem?_getD (by omega)
  have r1 : ∀ j : Int, 0 ≤ j → j < a.arr.data.length → (Mem.of [a.arr.data, b.arr.data] (1, j)).isSome := by
    intro j j0 j1
    rw [FV.mem_of_one j0]
    simp; omega
  exact ⟨r0 _ h3 h4, r0 _ h5 h6, r0 _ h1 h2, r1 _ h3 h4, r1 _ h1 h2⟩

/-- What one direction does, as memory. -/
theorem sweep_mem (ha : a.Layout g M D) (hb : b.Layout g M D) (hg : 2 ≤ g) (hM : Pos M) (hD : Pos D) {dim : Nat}
    (hd : dim < M.length) {u : Cell → α} (hu : ∀ y, InBox (grow g M ++ D) y → a.arr.val y = some (u y))
    {dt v d : α} {velocity : List α} {grid : Rectilinear α} (hv : velocity[dim]? = some v) (hdx : grid.dx dim = .ok d) :
    ∃ (s start : Int) (N : Nat) (m' : Mem α), s ≠ 0 ∧
      sweep dt velocity grid a dim = .ok (((List.range N).map (fun k : Nat => start + k)).map (iteration (Arith.fabs (dt * v / d)) s)) ∧
      (∀ i ∈ (List.range N).map (fun k : Nat => start + k),
        Ready (Mem.of [a.arr.data, b.arr.data]) (fun i => a.arr.data.getD i.toNat (Arith.lit 0)) s i ∧
        0 ≤ i ∧ i < a.arr.data.length ∧ 0 ≤ i - s ∧ i - s < a.arr.data.length) ∧
      runAll (((List.range N).map (fun k : Nat => start + k)).map (iteration (Arith.fabs (dt * v / d)) s))
        (Mem.of [a.arr.data, b.arr.data]) = .ok m' ∧
      (∀ e, (m' (1, e)).isSome = (Mem.of [a.arr.data, b.arr.data] (1, e)).isSome) ∧
      ∀ x, InBox (M ++ D) x → m' (1, offset (grow g M ++ D) x) = (b.arr.val x).map
        (Spec.upwind (Arith.fabs (dt * v / d)) (Arith.lt (Arith.lit 0) v) (fun k => u (moveBy x dim k))) := by
  have hP : Pos (grow g M ++ D) := by rw [pos_append]; exact ⟨pos_grow (by omega) hM, hD⟩
  obtain ⟨S, hS⟩ : ∃ S, S = boxVolume ((grow g M ++ D).drop (dim + 1)) := ⟨_, rfl⟩
  have hS0 : 0 < S := by rw [hS]; exact boxVolume_pos (pos_drop hP _)
  have hvol : a.arr.rng.volume = a.arr.data.length := ha.wf.2.symm
  have hst := stride_eq ha hd
  rw [← hS] at hst
  have hvv : vget velocity (dim : Int) = .ok v := vget_of_getElem? hv
  have hlen := ha.size_eq hb
  have hone : ∀ x, Mem.of [a.arr.data, b.arr.data] (1, offset (grow g M ++ D) x) =
      if 0 ≤ offset (grow g M ++ D) x then b.arr.val x else none := by
    intro x
    rw [hb.val_eq]
    split
    · next h => rw [FV.mem_of_one h]
    · next h => simp [Mem.of, not_le.1 h]
  -- values and offsets around a cell
  have hcell : ∀ x, InBox (M ++ D) x → (∀ k : Int, -2 ≤ k → k ≤ 2 →
      0 ≤ offset (grow g M ++ D) x + k * S ∧ offset (grow g M ++ D) x + k * S < a.arr.data.length ∧
      a.arr.data.getD (offset (grow g M ++ D) x + k * S).toNat (Arith.lit 0) = u (moveBy x dim k)) := by
    intro x hx k k1 k2
    have hin := inBox_moveBy_grow hx hd (s := k) (g := g) (by omega) (by omega)
    have hxl : x.length = (grow g M ++ D).length := by rw [hx.length_eq]; simp [grow]
    have ho := offset_moveBy hxl (i := dim) (by simp [grow]; omega) k
    rw [← hS] at ho
    have h0 := offset_nonneg hP hin
    have hl := IFace.InBox_ne_nil ha.wf (by rw [ha.dims]; intro e; rw [e] at hin; have := hin.length_eq; rw [moveBy_length, hxl, e] at this; simp [List.append_eq_nil_iff] at e; rw [show M = [] by simpa [grow] using e.1] at hd; simp at hd) (by rw [ha.dims]; exact hin)
    rw [ha.dims, ho] at hl
    rw [ho] at h0
    refine ⟨h0.1, by omega, ?_⟩
    have := hu _ hin
    rw [ha.val_eq, ho] at this
    simp [this]
  by_cases c : Arith.lt (Arith.lit 0) v = true
  · -- positive velocity
    have hR : ∀ i : Int, 2 * S ≤ i → i < 2 * S + ((a.arr.data.length - 1 - 2 * S : Int).toNat : Int) →
        Ready (Mem.of [a.arr.data, b.arr.data]) (fun i => a.arr.data.getD i.toNat (Arith.lit 0)) S i ∧
        0 ≤ i ∧ i < a.arr.data.length ∧ 0 ≤ i - S ∧ i - S < a.arr.data.length := by
      intro i h1 h2
      exact ⟨ready ha hb (by omega) (by omega) (by omega) (by omega) (by omega) (by omega), by omega, by omega, by omega, by omega⟩
    obtain ⟨m', k1, _, k3⟩ := iterate_up (coeff := Arith.fabs (dt * v / d)) hS0 (start := 2 * S)
      ((a.arr.data.length - 1 - 2 * S : Int).toNat) (fun i h1 h2 => (hR i h1 h2).1)
    refine ⟨S, 2 * S, _, m', by omega, ?_, ?_, k1, ?_, ?_⟩
    · unfold sweep
      rw [hvv, Res.ok_bind, hst, Res.ok_bind, hdx, Res.ok_bind]
      simp only [c, if_true, hvol]
      rfl
    · intro i hi
      obtain ⟨k, hk, rfl⟩ := List.mem_map.1 hi
      rw [List.mem_range] at hk
      exact hR _ (by omega) (by omega)
    · intro e; rw [k3]; simp
    · intro x hx
      obtain ⟨a0, b0, v0⟩ := hcell x hx 0 (by decide) (by decide)
      obtain ⟨a1, b1, v1⟩ := hcell x hx 1 (by decide) (by decide)
      obtain ⟨a2, b2, v2⟩ := hcell x hx 2 (by decide) (by decide)
      obtain ⟨a3, b3, v3⟩ := hcell x hx (-1) (by decide) (by decide)
      obtain ⟨a4, b4, v4⟩ := hcell x hx (-2) (by decide) (by decide)
      rw [k3, hone, if_pos (by simpa using a0)]
      congr 1
      funext r
      simp only []
      rw [if_pos (c := 2 * S ≤ offset (grow g M ++ D) x ∧ _) ⟨by omega, by omega⟩, if_pos ⟨by omega, by omega⟩]
      unfold Spec.upwind fluxAt
      rw [if_pos c]
      simp only []
      rw [← v0, ← v1, ← v3, ← v4]
      have t1 : offset (grow g M ++ D) x + 0 * S = offset (grow g M ++ D) x := by ring
      have t2 : offset (grow g M ++ D) x + S - 2 * S = offset (grow g M ++ D) x + -1 * S := by ring
      have t3 : offset (grow g M ++ D) x + S - S = offset (grow g M ++ D) x := by ring
      have t4 : offset (grow g M ++ D) x - 2 * S = offset (grow g M ++ D) x + -2 * S := by ring
      have t5 : offset (grow g M ++ D) x - S = offset (grow g M ++ D) x + -1 * S := by ring
      have t6 : offset (grow g M ++ D) x + S = offset (grow g M ++ D) x + 1 * S := by ring
      rw [t2, t3, t4, t5, t1, t6]
      rfl
  · -- negative velocity
    have hR : ∀ i : Int, 0 ≤ i → i < 0 + ((a.arr.data.length - 2 * S - 0 : Int).toNat : Int) →
        Ready (Mem.of [a.arr.data, b.arr.data]) (fun i => a.arr.data.getD i.toNat (Arith.lit 0)) (-S) i ∧
        0 ≤ i ∧ i < a.arr.data.length ∧ 0 ≤ i - -S ∧ i - -S < a.arr.data.length := by
      intro i h1 h2
      exact ⟨ready ha hb (by omega) (by omega) (by omega) (by omega) (by omega) (by omega), by omega, by omega, by omega, by omega⟩
    obtain ⟨m', k1, _, k3⟩ := iterate_down (coeff := Arith.fabs (dt * v / d)) (s := -S) (by omega) (start := 0)
      ((a.arr.data.length - 2 * S - 0 : Int).toNat) (fun i h1 h2 => (hR i h1 h2).1)
    refine ⟨-S, 0, _, m', by omega, ?_, ?_, k1, ?_, ?_⟩
    · unfold sweep
      rw [hvv, Res.ok_bind, hst, Res.ok_bind, hdx, Res.ok_bind]
      simp only [c, if_false, hvol]
      rfl
    · intro i hi
      obtain ⟨k, hk, rfl⟩ := List.mem_map.1 hi
      rw [List.mem_range] at hk
      exact hR _ (by omega) (by omega)
    · intro e; rw [k3]; simp
    · intro x hx
      obtain ⟨a0, b0, v0⟩ := hcell x hx 0 (by decide) (by decide)
      obtain ⟨a1, b1, v1⟩ := hcell x hx 1 (by decide) (by decide)
      obtain ⟨a2, b2, v2⟩ := hcell x hx 2 (by decide) (by decide)
      obtain ⟨a3, b3, v3⟩ := hcell x hx (-1) (by decide) (by decide)
      rw [k3, hone, if_pos (by simpa using a0)]
      congr 1
      funext r
      simp only []
      rw [if_pos (c := 0 ≤ offset (grow g M ++ D) x ∧ _) ⟨by omega, by omega⟩, if_pos ⟨by omega, by omega⟩]
      unfold Spec.upwind fluxAt
      rw [if_neg c]
      simp only []
      rw [← v0, ← v1, ← v3, ← v2]
      have t1 : offset (grow g M ++ D) x + 0 * S = offset (grow g M ++ D) x := by ring
      have t2 : offset (grow g M ++ D) x + -S - 2 * -S = offset (grow g M ++ D) x + 1 * S := by ring
      have t3 : offset (grow g M ++ D) x + -S - -S = offset (grow g M ++ D) x := by ring
      have t4 : offset (grow g M ++ D) x - 2 * -S = offset (grow g M ++ D) x + 2 * S := by ring
      have t5 : offset (grow g M ++ D) x - -S = offset (grow g M ++ D) x + 1 * S := by ring
      have t6 : offset (grow g M ++ D) x + -S = offset (grow g M ++ D) x + -1 * S := by ring
      rw [t2, t3, t4, t5, t1, t6]
      rfl

/-- One direction on the chunks. -/
theorem sweep_spec (ha : a.Layout g M D) (hb : b.Layout g M D) (hg : 2 ≤ g) (hM : Pos M) (hD : Pos D) {dim : Nat}
    (hd : dim < M.length) {u : Cell → α} (hu : ∀ y, InBox (grow g M ++ D) y → a.arr.val y = some (u y))
    {dt v d : α} {velocity : List α} {grid : Rectilinear α} (hv : velocity[dim]? = some v) (hdx : grid.dx dim = .ok d) :
    ∃ b', (do let ps ← sweep dt velocity grid a dim; FV.runOn ps a b) = .ok b' ∧ b.SameShape b' ∧
      ∀ x, InBox (M ++ D) x → b'.arr.val x = (b.arr.val x).map
        (Spec.upwind (Arith.fabs (dt * v / d)) (Arith.lt (Arith.lit 0) v) (fun k => u (moveBy x dim k))) := by
  obtain ⟨s, start, N, m', _, h2, _, h4, h5, h6⟩ := sweep_mem ha hb hg hM hD hd hu (dt := dt) hv hdx
  obtain ⟨b', k1, k2, k3⟩ := FV.runOn_spec h4 h5
  refine ⟨b', by rw [h2, Res.ok_bind]; exact k1, k2, ?_⟩
  intro x hx
  have hP : Pos (grow g M ++ D) := by rw [pos_append]; exact ⟨pos_grow (by omega) hM, hD⟩
  have hxg := inBox_interior (by omega : (0:Int) ≤ g) hx
  rw [← h6 x hx, (hb.sameShape k2).val_eq, k3 _ (offset_nonneg hP hxg).1]

/-- One direction does not change the sum. -/
theorem sweep_sum {a b b' : Chunk ℝ} (ha : a.Layout g M D) (hb : b.Layout g M D) (hg : 2 ≤ g) (hM : Pos M) (hD : Pos D) {dim : Nat}
    (hd : dim < M.length) {u : Cell → ℝ} (hu : ∀ y, InBox (grow g M ++ D) y → a.arr.val y = some (u y))
    {dt v d : ℝ} {velocity : List ℝ} {grid : Rectilinear ℝ} (hv : velocity[dim]? = some v) (hdx : grid.dx dim = .ok d)
    (h : (do let ps ← sweep dt velocity grid a dim; FV.runOn ps a b) = .ok b') : b'.arr.data.sum = b.arr.data.sum := by
  obtain ⟨s, start, N, m', h1, h2, h3, h4, h5, _⟩ := sweep_mem ha hb hg hM hD hd hu (dt := dt) hv hdx
  obtain ⟨b'', k1, k2, k3⟩ := FV.runOn_spec h4 h5
  rw [h2, Res.ok_bind, k1] at h
  cases h
  have hlen := ha.size_eq hb
  have := memTotal_runAll h1 _ _ _ h3 h4
  rw [hlen] at this
  rw [memTotal_eq (l := b.arr.data) (fun i hi => (FV.mem_of_one hi).symm), ← k2.2] at this
  rw [← this, memTotal_eq k3]

theorem foldl_map_option {β γ : Type} (l : List β) (f : γ → β → γ) (o : Option γ) :
    l.foldl (fun o d => o.map (fun r => f r d)) o = o.map (fun r => l.foldl f r) := by
  induction l generalizing o with
  | nil => simp
  | cons d l ih => rw [List.foldl_cons, ih]; cases o <;> simp

/-- All directions. -/
theorem inout_spec (ha : a.Layout g M D) (hg : 2 ≤ g) (hM : Pos M) (hD : Pos D)
    {u : Cell → α} (hu : ∀ y, InBox (grow g M ++ D) y → a.arr.val y = some (u y))
    {dt : α} {v dx : Nat → α} {velocity : List α} {grid : Rectilinear α} (hn : grid.rng.dims.length = M.length)
    (hv : ∀ d, d < M.length → velocity[d]? = some (v d)) (hdx : ∀ d : Nat, d < M.length → grid.dx d = .ok (dx d))
    (hb : b.Layout g M D) :
    ∃ b', inout dt velocity grid a b = .ok b' ∧ b.SameShape b' ∧
      ∀ x, InBox (M ++ D) x → b'.arr.val x = (b.arr.val x).map (Spec.advected dt v dx M.length u x) := by
  have key : ∀ (l : List Nat), (∀ d ∈ l, d < M.length) → ∀ b : Chunk α, b.Layout g M D →
      ∃ b', l.foldlM (fun b dim => do let ps ← sweep dt velocity grid a dim; FV.runOn ps a b) b = .ok b' ∧ b.SameShape b' ∧
        ∀ x, InBox (M ++ D) x → b'.arr.val x = (b.arr.val x).map (fun r =>
          l.foldl (fun r dim => Spec.upwind (Arith.fabs (dt * v dim / dx dim)) (Arith.lt (Arith.lit 0) (v dim))
            (fun k => u (moveBy x dim k)) r) r) := by
    intro l
    induction l with
    | nil => intro _ b _; exact ⟨b, rfl, ⟨rfl, rfl⟩, fun x _ => by simp⟩
    | cons d l ih =>
      intro hl b hb
      obtain ⟨b1, h1, h2, h3⟩ := sweep_spec ha hb hg hM hD (hl d List.mem_cons_self) hu (dt := dt) (hv d (hl d List.mem_cons_self)) (hdx d (hl d List.mem_cons_self))
      obtain ⟨b2, k1, k2, k3⟩ := ih (fun d' hd' => hl d' (List.mem_cons_of_mem _ hd')) b1 (hb.sameShape h2)
      refine ⟨b2, ?_, h2.trans k2, ?_⟩
      · rw [List.foldlM_cons, h1, Res.ok_bind, k1]
      · intro x hx
        rw [k3 x hx, h3 x hx, Option.map_map]
        rfl
  obtain ⟨b', h1, h2, h3⟩ := key (List.range M.length) (fun d hd => List.mem_range.1 hd) b hb
  refine ⟨b', ?_, h2, h3⟩
  unfold inout Range.numDims
  rw [hn]; exact h1

theorem inout_sum {a b b' : Chunk ℝ} (ha : a.Layout g M D) (hg : 2 ≤ g) (hM : Pos M) (hD : Pos D)
    {u : Cell → ℝ} (hu : ∀ y, InBox (grow g M ++ D) y → a.arr.val y = some (u y))
    {dt : ℝ} {v dx : Nat → ℝ} {velocity : List ℝ} {grid : Rectilinear ℝ} (hn : grid.rng.dims.length = M.length)
    (hv : ∀ d, d < M.length → velocity[d]? = some (v d)) (hdx : ∀ d : Nat, d < M.length → grid.dx d = .ok (dx d))
    (hb : b.Layout g M D) (h : inout dt velocity grid a b = .ok b') : b'.arr.data.sum = b.arr.data.sum := by
  have key : ∀ (l : List Nat), (∀ d ∈ l, d < M.length) → ∀ b : Chunk ℝ, b.Layout g M D →
      l.foldlM (fun b dim => do let ps ← sweep dt velocity grid a dim; FV.runOn ps a b) b = .ok b' →
        b'.arr.data.sum = b.arr.data.sum := by
    intro l
    induction l with
    | nil => intro _ b _ h; cases h; rfl
    | cons d l ih =>
      intro hl b hb h
      have hd := hl d List.mem_cons_self
      obtain ⟨b1, h1, h2, h3⟩ := sweep_spec ha hb hg hM hD hd hu (dt := dt) (hv d hd) (hdx d hd)
      rw [List.foldlM_cons, h1, Res.ok_bind] at h
      rw [ih (fun d' hd' => hl d' (List.mem_cons_of_mem _ hd')) b1 (hb.sameShape h2) h]
      exact sweep_sum ha hb hg hM hD hd hu (hv d hd) (hdx d hd) h1
  unfold inout Range.numDims at h
  rw [hn] at h
  exact key _ (fun d hd => List.mem_range.1 hd) b hb h

/-! ### The stages -/

theorem fullCopy_spec {g : Int} {M D : Box} {a b : Chunk α} (ha : a.Layout g M D) (hb : b.Layout g M D) :
    ∃ f, IFace.fullCopy a.arr b.arr = .ok f ∧ f.data = a.arr.data ∧ b.SameShape { b with arr := f } := by
  have hlen := ha.size_eq hb
  have hr : a.arr.rng = b.arr.rng := by rw [ha.arr_range, hb.arr_range]
  refine ⟨{ b.arr with data := a.arr.data }, ?_, rfl, ⟨rfl, hlen⟩⟩
  have hv : b.arr.rng.volume = b.arr.data.length := hb.wf.2.symm
  unfold IFace.fullCopy
  rw [hr, if_neg (by simp), if_pos (by omega), hv]
  simp [hlen]

theorem stage0_spec (ha : a.Layout g M D) (hg : 2 ≤ g) (hM : Pos M) (hD : Pos D)
    {u : Cell → α} (hu : ∀ y, InBox (grow g M ++ D) y → a.arr.val y = some (u y))
    {dt : α} {v dx : Nat → α} {velocity : List α} {grid : Rectilinear α} (hn : grid.rng.dims.length = M.length)
    (hv : ∀ d, d < M.length → velocity[d]? = some (v d)) (hdx : ∀ d : Nat, d < M.length → grid.dx d = .ok (dx d))
    (hb : b.Layout g M D) :
    ∃ b', stage0 dt velocity grid a b = .ok b' ∧ b.SameShape b' ∧
      ∀ x, InBox (M ++ D) x → b'.arr.val x = some (Spec.advected dt v dx M.length u x (u x)) := by
  obtain ⟨f, f1, f2, f3⟩ := fullCopy_spec ha hb
  have hl := hb.sameShape f3
  obtain ⟨b', h1, h2, h3⟩ := inout_spec ha hg hM hD hu (dt := dt) hn hv hdx hl
  refine ⟨b', ?_, f3.trans h2, ?_⟩
  · unfold stage0; rw [f1, Res.ok_bind]; exact h1
  · intro x hx
    have hxg := inBox_interior (by omega : (0:Int) ≤ g) hx
    have := hu x hxg
    rw [ha.val_eq] at this
    rw [h3 x hx, hl.val_eq]
    simp only [f2, this, Option.map_some]

theorem stage0_sum {a b b' : Chunk ℝ} (ha : a.Layout g M D) (hg : 2 ≤ g) (hM : Pos M) (hD : Pos D)
    {u : Cell → ℝ} (hu : ∀ y, InBox (grow g M ++ D) y → a.arr.val y = some (u y))
    {dt : ℝ} {v dx : Nat → ℝ} {velocity : List ℝ} {grid : Rectilinear ℝ} (hn : grid.rng.dims.length = M.length)
    (hv : ∀ d, d < M.length → velocity[d]? = some (v d)) (hdx : ∀ d : Nat, d < M.length → grid.dx d = .ok (dx d))
    (hb : b.Layout g M D) (h : stage0 dt velocity grid a b = .ok b') : b'.arr.data.sum = a.arr.data.sum := by
  obtain ⟨f, f1, f2, f3⟩ := fullCopy_spec ha hb
  unfold stage0 at h
  rw [f1, Res.ok_bind] at h
  rw [inout_sum ha hg hM hD hu hn hv hdx (hb.sameShape f3) h, f2]

theorem average_within (i : Int) : (average i : Prog α Unit).Within (fun l => l.1 < 2) (fun l => l = (2, i)) := by
  unfold average
  exact (within_read (.inl (by simp))).bind fun _ => (within_read (.inl (by simp))).bind fun _ => within_write rfl

theorem average_run {m : Mem α} {i : Int} {a r o : α} (h0 : m (0, i) = some a) (h1 : m (1, i) = some r)
    (ho : m (2, i) = some o) : (average i).run m = .ok ((), Function.update m (2, i) (some (Arith.lit (1 / 2) * (a + r)))) := by
  unfold average
  rw [run_bind_ok (run_read h0), run_bind_ok (run_read h1), run_write _ (by rw [ho]; rfl)]

theorem average_spec {c0 c1 c2 : Chunk α} (h0 : c0.Layout g M D) (h1 : c1.Layout g M D) (h2 : c2.Layout g M D) :
    ∃ c', RK.runOut ((RK.points c0).map average) [c0, c1] c2 = .ok c' ∧ c2.SameShape c' ∧
      ∀ i < c2.arr.data.length, c'.arr.data[i]? = some (Arith.lit (1 / 2) *
        (c0.arr.data.getD i (Arith.lit 0) + c1.arr.data.getD i (Arith.lit 0))) := by
  have l0 := h0.size_eq h2
  have l1 := h1.size_eq h2
  obtain ⟨c', m', k1, k2, k3, _⟩ := RK.runOut_spec (ins := [c0, c1]) (out := c2) (P := average) (k := 2) rfl average_within
    (F := fun i => Arith.lit (1 / 2) * (c0.arr.data.getD i (Arith.lit 0) + c1.arr.data.getD i (Arith.lit 0)))
    (fun i hi => average_run (by simpa [Mem.of] using RK.getElem?_getD (by omega)) (by simpa [Mem.of] using RK.getElem?_getD (by omega))
      (by simpa [Mem.of] using RK.getElem?_getD (by omega)))
  refine ⟨c', ?_, k2, k3⟩
  rw [h0.points, l0]; exact k1

theorem stage1_spec {c0 c1 c2 : Chunk α} (h0 : c0.Layout g M D) (h1 : c1.Layout g M D) (h2 : c2.Layout g M D)
    (hg : 2 ≤ g) (hM : Pos M) (hD : Pos D)
    {u w : Cell → α} (hu : ∀ y, InBox (grow g M ++ D) y → c0.arr.val y = some (u y))
    (hw : ∀ y, InBox (grow g M ++ D) y → c1.arr.val y = some (w y))
    {dt : α} {v dx : Nat → α} {velocity : List α} {grid : Rectilinear α} (hn : grid.rng.dims.length = M.length)
    (hv : ∀ d, d < M.length → velocity[d]? = some (v d)) (hdx : ∀ d : Nat, d < M.length → grid.dx d = .ok (dx d)) :
    ∃ c', stage1 dt velocity grid c0 c1 c2 = .ok c' ∧ c2.SameShape c' ∧
      ∀ x, InBox (M ++ D) x → c'.arr.val x = some (Spec.advected (Arith.lit (1 / 2) * dt) v dx M.length w x
        (Arith.lit (1 / 2) * (u x + w x))) := by
  obtain ⟨c, e1, e2, e3⟩ := average_spec h0 h1 h2
  obtain ⟨c', k1, k2, k3⟩ := inout_spec h1 hg hM hD hw (dt := Arith.lit (1 / 2) * dt) hn hv hdx (h2.sameShape e2)
  refine ⟨c', by unfold stage1; rw [e1, Res.ok_bind]; exact k1, e2.trans k2, ?_⟩
  intro x hx
  have hxg := inBox_interior (by omega : (0:Int) ≤ g) hx
  have ux := hu x hxg
  have wx := hw x hxg
  rw [h0.val_eq] at ux
  rw [h1.val_eq] at wx
  have hlt := (List.getElem?_eq_some_iff.1 ux).1
  rw [h0.size_eq h2] at hlt
  rw [k3 x hx, (h2.sameShape e2).val_eq, e3 _ hlt]
  simp [ux, wx]

theorem average_sum {c0 c1 c' : List ℝ} (h0 : c0.length = c'.length) (h1 : c1.length = c'.length)
    (h : ∀ i < c'.length, c'[i]? = some (1 / 2 * (c0.getD i 0 + c1.getD i 0))) :
    c'.sum = 1 / 2 * (c0.sum + c1.sum) := by
  induction c' generalizing c0 c1 with
  | nil => 
    have := List.eq_nil_of_length_eq_zero (h0.trans rfl); have := List.eq_nil_of_length_eq_zero (h1.trans rfl)
    subst_vars; simp
  | cons r c' ih =>
    match c0, c1, h0, h1 with
    | x :: c0, y :: c1, h0, h1 =>
      have e := h 0 (by simp)
      simp at e
      have := ih (c0 := c0) (c1 := c1) (by simpa using h0) (by simpa using h1) (fun i hi => by
        have := h (i + 1) (by simpa using hi)
        simpa using this)
      rw [List.sum_cons, List.sum_cons, List.sum_cons, this, e]; ring

theorem stage1_sum {c0 c1 c2 c' : Chunk ℝ} (h0 : c0.Layout g M D) (h1 : c1.Layout g M D) (h2 : c2.Layout g M D)
    (hg : 2 ≤ g) (hM : Pos M) (hD : Pos D) {w : Cell → ℝ}
    (hw : ∀ y, InBox (grow g M ++ D) y → c1.arr.val y = some (w y))
    {dt : ℝ} {v dx : Nat → ℝ} {velocity : List ℝ} {grid : Rectilinear ℝ} (hn : grid.rng.dims.length = M.length)
    (hv : ∀ d, d < M.length → velocity[d]? = some (v d)) (hdx : ∀ d : Nat, d < M.length → grid.dx d = .ok (dx d))
    (h : stage1 dt velocity grid c0 c1 c2 = .ok c') :
    c'.arr.data.sum = 1 / 2 * (c0.arr.data.sum + c1.arr.data.sum) := by
  obtain ⟨c, e1, e2, e3⟩ := average_spec h0 h1 h2
  unfold stage1 at h
  rw [e1, Res.ok_bind] at h
  rw [inout_sum h1 hg hM hD hw hn hv hdx (h2.sameShape e2) h]
  have hl := e2.2
  refine average_sum (by rw [h0.size_eq h2, hl]) (by rw [h1.size_eq h2, hl]) (fun i hi => ?_)
  rw [e3 i (by omega)]
  simp [real_lit]

end Advection
end QK
