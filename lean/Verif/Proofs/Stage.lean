import Verif.Model.Stage
import Verif.Spec.Parallel
import Verif.Spec.Fields
import Verif.Proofs.FvSolve
/- Lemmas about element-wise loops. -/
namespace QK
open Spec Prog

theorem Mem.of_get {α : Type} {arrs : List (List α)} {k : Nat} {a : List α} (h : arrs[k]? = some a) (i : Nat) :
    Mem.of arrs (k, (i : Int)) = a[i]? := by
  simp [Mem.of, h]

namespace RK
variable {α : Type}

/-- A loop over `i` whose iteration reads the input arrays and writes element `i` of array `k`: sequential result, and
safety of every interleaving. -/
theorem pointwise {m : Mem α} {N k : Nat} {P : Int → Prog α Unit} {F : Nat → α}
    (hw : ∀ i, (P i).Within (fun l => l.1 < k) (fun l => l = (k, i)))
    (hrun : ∀ i : Nat, i < N → (P i).run m = .ok ((), Function.update m (k, (i : Int)) (some (F i)))) :
    ∃ m', runAll (((List.range N).map (fun i : Nat => (i : Int))).map P) m = .ok m' ∧
      ParallelSafe (((List.range N).map (fun i : Nat => (i : Int))).map P) m m' ∧
      (∀ i < N, m' (k, (i : Int)) = some (F i)) ∧
      (∀ l, (∀ i < N, l ≠ (k, (i : Int))) → m' l = m l) := by
  have hsep : ∀ i j : Int, i ≠ j → Sep ((fun l : Loc => l.1 < k), (fun l : Loc => l = (k, i)))
      ((fun l : Loc => l.1 < k), (fun l : Loc => l = (k, j))) := by
    intro i j hij
    constructor
    · rintro l rfl; exact ⟨Nat.lt_irrefl _, by rintro ⟨⟩; exact hij rfl⟩
    · rintro l rfl; exact ⟨Nat.lt_irrefl _, by rintro ⟨⟩; exact hij rfl⟩
  have hnd : ((List.range N).map (fun i : Nat => (i : Int))).Nodup :=
    List.Nodup.map (fun a b h => Int.ofNat.inj h) List.nodup_range
  have hmem : ∀ i ∈ (List.range N).map (fun i : Nat => (i : Int)), ∃ j : Nat, j < N ∧ i = j := by
    intro i hi
    obtain ⟨j, hj, rfl⟩ := List.mem_map.1 hi
    exact ⟨j, List.mem_range.1 hj, rfl⟩
  have hpw : ((List.range N).map (fun i : Nat => (i : Int))).Pairwise (fun i j => Sep ((fun l : Loc => l.1 < k), (fun l : Loc => l = (k, i)))
      ((fun l : Loc => l.1 < k), (fun l : Loc => l = (k, j)))) := hnd.imp (fun h => hsep _ _ h)
  obtain ⟨m', h1, h2, h3⟩ := runAll_family (P := P) (R := fun _ l => l.1 < k) (W := fun i l => l = (k, i)) (m := m)
    (res := fun i => Function.update m (k, i) (some (F i.toNat)))
    (l := (List.range N).map (fun i : Nat => (i : Int))) (fun i _ => hw i) hpw (fun i hi => by
      obtain ⟨j, hj, rfl⟩ := hmem i hi
      rw [hrun j hj]; rfl)
  refine ⟨m', h1, ?_, ?_, ?_⟩
  · have hf : List.Forall₂ (fun (p : Prog α Unit) (f : Foot) => p.Within f.1 f.2)
        (((List.range N).map (fun i : Nat => (i : Int))).map P)
        (((List.range N).map (fun i : Nat => (i : Int))).map fun i => ((fun l : Loc => l.1 < k), (fun l : Loc => l = (k, i)))) := by
      rw [List.forall₂_map_left_iff, List.forall₂_map_right_iff, List.forall₂_same]
      intro i _; exact hw i
    have hs := List.pairwise_map.2 hpw
    exact {
      defined := fun ps' m1 h => (interleave hf hs h1 h).1
      raceFree := fun ps' m1 h => (interleave hf hs h1 h).2.1
      result := fun ps' m1 h => (interleave hf hs h1 h).2.2.1
      progress := fun ps' m1 h => (interleave hf hs h1 h).2.2.2
      terminates := step_acc _ }
  · intro i hi
    have := h2 i (List.mem_map.2 ⟨i, List.mem_range.2 hi, rfl⟩) (k, (i : Int)) rfl
    rw [this]; simp
  · intro l hl
    refine h3 l fun i hi => ?_
    obtain ⟨j, hj, rfl⟩ := hmem i hi
    exact hl j hj

variable [Arith α]

theorem iter0_within (dt : α) (i : Int) : (iter0 dt i).Within (fun l => l.1 < 2) (fun l => l = (2, i)) := by
  unfold iter0
  exact (within_read (.inl (by simp))).bind fun _ => (within_read (.inl (by simp))).bind fun _ => within_write rfl

theorem iter1_within (dt : α) (i : Int) : (iter1 dt i).Within (fun l => l.1 < 3) (fun l => l = (3, i)) := by
  unfold iter1
  exact (within_read (.inl (by simp))).bind fun _ => (within_read (.inl (by simp))).bind fun _ =>
    (within_read (.inl (by simp))).bind fun _ => within_write rfl

theorem iter2_within (dt : α) (i : Int) : (iter2 dt i).Within (fun l => l.1 < 3) (fun l => l = (3, i)) := by
  unfold iter2
  exact (within_read (.inl (by simp))).bind fun _ => (within_read (.inl (by simp))).bind fun _ =>
    (within_read (.inl (by simp))).bind fun _ => within_write rfl

theorem iter0_run (dt : α) {m : Mem α} {i : Int} {a r o : α} (h0 : m (0, i) = some a) (h1 : m (1, i) = some r)
    (ho : m (2, i) = some o) : (iter0 dt i).run m = .ok ((), Function.update m (2, i) (some (a + dt * r))) := by
  unfold iter0
  rw [run_bind_ok (run_read h0), run_bind_ok (run_read h1), run_write _ (by rw [ho]; rfl)]

theorem iter1_run (dt : α) {m : Mem α} {i : Int} {a b r o : α} (h0 : m (0, i) = some a) (h1 : m (1, i) = some b)
    (h2 : m (2, i) = some r) (ho : m (3, i) = some o) : (iter1 dt i).run m = .ok ((), Function.update m (3, i)
      (some (Arith.lit (3 / 4) * a + Arith.lit (1 / 4) * b + Arith.lit (1 / 4) * dt * r))) := by
  unfold iter1
  rw [run_bind_ok (run_read h0), run_bind_ok (run_read h1), run_bind_ok (run_read h2), run_write _ (by rw [ho]; rfl)]

theorem iter2_run (dt : α) {m : Mem α} {i : Int} {a b r o : α} (h0 : m (0, i) = some a) (h1 : m (1, i) = some b)
    (h2 : m (2, i) = some r) (ho : m (3, i) = some o) : (iter2 dt i).run m = .ok ((), Function.update m (3, i)
      (some ((a + Arith.lit 2 * (b + dt * r)) / Arith.lit 3))) := by
  unfold iter2
  rw [run_bind_ok (run_read h0), run_bind_ok (run_read h1), run_bind_ok (run_read h2), run_write _ (by rw [ho]; rfl)]

/-- Element `i` as a total function (only used below the length). -/
theorem getElem?_getD {l : List α} {i : Nat} (h : i < l.length) : l[i]? = some (l.getD i (Arith.lit 0)) := by
  simp [List.getD, List.getElem?_eq_getElem h]

omit [Arith α] in
/-- The loop on arrays of one length. -/
theorem runOut_spec {ins : List (Chunk α)} {out : Chunk α} {P : Int → Prog α Unit} {F : Nat → α} {k : Nat} (hk : ins.length = k)
    (hw : ∀ i, (P i).Within (fun l => l.1 < k) (fun l => l = (k, i)))
    (hrun : ∀ i : Nat, i < out.arr.data.length → (P i).run (Mem.of (ins.map (fun c => c.arr.data) ++ [out.arr.data])) =
      .ok ((), Function.update (Mem.of (ins.map (fun c => c.arr.data) ++ [out.arr.data])) (k, (i : Int)) (some (F i)))) :
    ∃ out' m', runOut (((List.range out.arr.data.length).map (fun i : Nat => (i : Int))).map P) ins out = .ok out' ∧
      out.SameShape out' ∧ (∀ i < out.arr.data.length, out'.arr.data[i]? = some (F i)) ∧
      runAll (((List.range out.arr.data.length).map (fun i : Nat => (i : Int))).map P) (Mem.of (ins.map (fun c => c.arr.data) ++ [out.arr.data])) = .ok m' ∧
      ParallelSafe (((List.range out.arr.data.length).map (fun i : Nat => (i : Int))).map P) (Mem.of (ins.map (fun c => c.arr.data) ++ [out.arr.data])) m' := by
  subst hk
  obtain ⟨m', h1, h2, h3, _⟩ := pointwise hw hrun
  refine ⟨{ out with arr := { out.arr with data := (List.range out.arr.data.length).map F } }, m', ?_, ⟨rfl, by simp⟩, ?_, h1, h2⟩
  · unfold runOut
    rw [h1, Res.ok_bind, FV.extract_ok h3]; rfl
  · intro i hi
    simp [hi]

end RK

theorem Chunk.Layout.size_eq {α β : Type} {g : Int} {M D : Box} {c : Chunk α} {c' : Chunk β} (h : c.Layout g M D) (h' : c'.Layout g M D) :
    c.arr.data.length = c'.arr.data.length := by
  have e1 := h.arr_size
  have e2 := h'.arr_size
  rw [h.arr_range] at e1
  rw [h'.arr_range] at e2
  omega

theorem Chunk.Layout.points {α : Type} {g : Int} {M D : Box} {c : Chunk α} (h : c.Layout g M D) :
    RK.points c = (List.range c.arr.data.length).map (fun i : Nat => (i : Int)) := by
  unfold RK.points
  rw [← h.arr_size]; rfl

theorem Chunk.Layout.val_eq {α : Type} {g : Int} {M D : Box} {c : Chunk α} (h : c.Layout g M D) (x : Cell) :
    c.arr.val x = c.arr.data[(offset (grow g M ++ D) x).toNat]? := by
  unfold IFace.val; rw [h.arr_range]; rfl

namespace RK
variable {α : Type} [Arith α] {g : Int} {M D : Box} {q0 q1 q2 q3 rhs : Chunk α}

theorem stage0_spec (dt : α) (h0 : q0.Layout g M D) (hr : rhs.Layout g M D) (h1 : q1.Layout g M D) :
    ∃ q1', stage0 dt q0 rhs q1 = .ok q1' ∧ q1.SameShape q1' ∧
      ∀ x a r, q0.arr.val x = some a → rhs.arr.val x = some r → q1'.arr.val x = some (a + dt * r) := by
  have e0 := h1.size_eq h0
  have er := h1.size_eq hr
  obtain ⟨o, m', k1, k2, k3, _, _⟩ := runOut_spec (ins := [q0, rhs]) (out := q1) (P := iter0 dt)
    (F := fun i => q0.arr.data.getD i (Arith.lit 0) + dt * rhs.arr.data.getD i (Arith.lit 0)) rfl (iter0_within dt) (fun i hi => by
      refine iter0_run dt ?_ ?_ ?_ (o := q1.arr.data.getD i (Arith.lit 0))
      · rw [Mem.of_get rfl]; exact getElem?_getD (by simp only []; omega)
      · rw [Mem.of_get rfl]; exact getElem?_getD (by simp only []; omega)
      · rw [Mem.of_get rfl]; exact getElem?_getD hi)
  refine ⟨o, ?_, k2, ?_⟩
  · unfold stage0; rw [hr.points, ← er]; exact k1
  · intro x a r ha hb
    rw [h0.val_eq] at ha; rw [hr.val_eq] at hb
    have hlt := (List.getElem?_eq_some_iff.1 ha).1
    rw [(h1.sameShape k2).val_eq, k3 _ (by omega)]
    simp [List.getD, ha, hb]

theorem stage1_spec (dt : α) (h0 : q0.Layout g M D) (h1 : q1.Layout g M D) (hr : rhs.Layout g M D) (h2 : q2.Layout g M D) :
    ∃ q2', stage1 dt q0 q1 rhs q2 = .ok q2' ∧ q2.SameShape q2' ∧
      ∀ x a b r, q0.arr.val x = some a → q1.arr.val x = some b → rhs.arr.val x = some r →
        q2'.arr.val x = some (Arith.lit (3 / 4) * a + Arith.lit (1 / 4) * b + Arith.lit (1 / 4) * dt * r) := by
  have e0 := h2.size_eq h0
  have e1 := h2.size_eq h1
  have er := h2.size_eq hr
  obtain ⟨o, m', k1, k2, k3, _, _⟩ := runOut_spec (ins := [q0, q1, rhs]) (out := q2) (P := iter1 dt)
    (F := fun i => Arith.lit (3 / 4) * q0.arr.data.getD i (Arith.lit 0) + Arith.lit (1 / 4) * q1.arr.data.getD i (Arith.lit 0) +
      Arith.lit (1 / 4) * dt * rhs.arr.data.getD i (Arith.lit 0)) rfl (iter1_within dt) (fun i hi => by
      refine iter1_run dt ?_ ?_ ?_ ?_ (o := q2.arr.data.getD i (Arith.lit 0))
      · rw [Mem.of_get rfl]; exact getElem?_getD (by simp only []; omega)
      · rw [Mem.of_get rfl]; exact getElem?_getD (by simp only []; omega)
      · rw [Mem.of_get rfl]; exact getElem?_getD (by simp only []; omega)
      · rw [Mem.of_get rfl]; exact getElem?_getD hi)
  refine ⟨o, ?_, k2, ?_⟩
  · unfold stage1; rw [hr.points, ← er]; exact k1
  · intro x a b r ha hb hc
    rw [h0.val_eq] at ha; rw [h1.val_eq] at hb; rw [hr.val_eq] at hc
    have hlt := (List.getElem?_eq_some_iff.1 ha).1
    rw [(h2.sameShape k2).val_eq, k3 _ (by omega)]
    simp [List.getD, ha, hb, hc]

theorem stage2_spec (dt : α) (h0 : q0.Layout g M D) (h2 : q2.Layout g M D) (hr : rhs.Layout g M D) (h3 : q3.Layout g M D) :
    ∃ q3', stage2 dt q0 q2 rhs q3 = .ok q3' ∧ q3.SameShape q3' ∧
      ∀ x a b r, q0.arr.val x = some a → q2.arr.val x = some b → rhs.arr.val x = some r →
        q3'.arr.val x = some ((a + Arith.lit 2 * (b + dt * r)) / Arith.lit 3) := by
  have e0 := h3.size_eq h0
  have e1 := h3.size_eq h2
  have er := h3.size_eq hr
  obtain ⟨o, m', k1, k2, k3, _, _⟩ := runOut_spec (ins := [q0, q2, rhs]) (out := q3) (P := iter2 dt)
    (F := fun i => (q0.arr.data.getD i (Arith.lit 0) + Arith.lit 2 * (q2.arr.data.getD i (Arith.lit 0) +
      dt * rhs.arr.data.getD i (Arith.lit 0))) / Arith.lit 3) rfl (iter2_within dt) (fun i hi => by
      refine iter2_run dt ?_ ?_ ?_ ?_ (o := q3.arr.data.getD i (Arith.lit 0))
      · rw [Mem.of_get rfl]; exact getElem?_getD (by simp only []; omega)
      · rw [Mem.of_get rfl]; exact getElem?_getD (by simp only []; omega)
      · rw [Mem.of_get rfl]; exact getElem?_getD (by simp only []; omega)
      · rw [Mem.of_get rfl]; exact getElem?_getD hi)
  refine ⟨o, ?_, k2, ?_⟩
  · unfold stage2; rw [hr.points, ← er]; exact k1
  · intro x a b r ha hb hc
    rw [h0.val_eq] at ha; rw [h2.val_eq] at hb; rw [hr.val_eq] at hc
    have hlt := (List.getElem?_eq_some_iff.1 ha).1
    rw [(h3.sameShape k2).val_eq, k3 _ (by omega)]
    simp [List.getD, ha, hb, hc]

/-- The loops as parallel loops. -/
theorem parallel0 (dt : α) (h0 : q0.Layout g M D) (hr : rhs.Layout g M D) (h1 : q1.Layout g M D) :
    ∃ m', runAll ((points rhs).map (iter0 dt)) (Mem.of [q0.arr.data, rhs.arr.data, q1.arr.data]) = .ok m' ∧
      ParallelSafe ((points rhs).map (iter0 dt)) (Mem.of [q0.arr.data, rhs.arr.data, q1.arr.data]) m' := by
  have e0 := h1.size_eq h0
  have er := h1.size_eq hr
  obtain ⟨o, m', _, _, _, k4, k5⟩ := runOut_spec (ins := [q0, rhs]) (out := q1) (P := iter0 dt)
    (F := fun i => q0.arr.data.getD i (Arith.lit 0) + dt * rhs.arr.data.getD i (Arith.lit 0)) rfl (iter0_within dt) (fun i hi => by
      refine iter0_run dt ?_ ?_ ?_ (o := q1.arr.data.getD i (Arith.lit 0))
      · rw [Mem.of_get rfl]; exact getElem?_getD (by simp only []; omega)
      · rw [Mem.of_get rfl]; exact getElem?_getD (by simp only []; omega)
      · rw [Mem.of_get rfl]; exact getElem?_getD hi)
  rw [hr.points, ← er]
  exact ⟨m', k4, k5⟩

theorem parallel1 (dt : α) (h0 : q0.Layout g M D) (h1 : q1.Layout g M D) (hr : rhs.Layout g M D) (h2 : q2.Layout g M D) :
    ∃ m', runAll ((points rhs).map (iter1 dt)) (Mem.of [q0.arr.data, q1.arr.data, rhs.arr.data, q2.arr.data]) = .ok m' ∧
      ParallelSafe ((points rhs).map (iter1 dt)) (Mem.of [q0.arr.data, q1.arr.data, rhs.arr.data, q2.arr.data]) m' := by
  have e0 := h2.size_eq h0
  have e1 := h2.size_eq h1
  have er := h2.size_eq hr
  obtain ⟨o, m', _, _, _, k4, k5⟩ := runOut_spec (ins := [q0, q1, rhs]) (out := q2) (P := iter1 dt)
    (F := fun i => Arith.lit (3 / 4) * q0.arr.data.getD i (Arith.lit 0) + Arith.lit (1 / 4) * q1.arr.data.getD i (Arith.lit 0) +
      Arith.lit (1 / 4) * dt * rhs.arr.data.getD i (Arith.lit 0)) rfl (iter1_within dt) (fun i hi => by
      refine iter1_run dt ?_ ?_ ?_ ?_ (o := q2.arr.data.getD i (Arith.lit 0))
      · rw [Mem.of_get rfl]; exact getElem?_getD (by simp only []; omega)
      · rw [Mem.of_get rfl]; exact getElem?_getD (by simp only []; omega)
      · rw [Mem.of_get rfl]; exact getElem?_getD (by simp only []; omega)
      · rw [Mem.of_get rfl]; exact getElem?_getD hi)
  rw [hr.points, ← er]
  exact ⟨m', k4, k5⟩

theorem parallel2 (dt : α) (h0 : q0.Layout g M D) (h2 : q2.Layout g M D) (hr : rhs.Layout g M D) (h3 : q3.Layout g M D) :
    ∃ m', runAll ((points rhs).map (iter2 dt)) (Mem.of [q0.arr.data, q2.arr.data, rhs.arr.data, q3.arr.data]) = .ok m' ∧
      ParallelSafe ((points rhs).map (iter2 dt)) (Mem.of [q0.arr.data, q2.arr.data, rhs.arr.data, q3.arr.data]) m' := by
  have e0 := h3.size_eq h0
  have e1 := h3.size_eq h2
  have er := h3.size_eq hr
  obtain ⟨o, m', _, _, _, k4, k5⟩ := runOut_spec (ins := [q0, q2, rhs]) (out := q3) (P := iter2 dt)
    (F := fun i => (q0.arr.data.getD i (Arith.lit 0) + Arith.lit 2 * (q2.arr.data.getD i (Arith.lit 0) +
      dt * rhs.arr.data.getD i (Arith.lit 0))) / Arith.lit 3) rfl (iter2_within dt) (fun i hi => by
      refine iter2_run dt ?_ ?_ ?_ ?_ (o := q3.arr.data.getD i (Arith.lit 0))
      · rw [Mem.of_get rfl]; exact getElem?_getD (by simp only []; omega)
      · rw [Mem.of_get rfl]; exact getElem?_getD (by simp only []; omega)
      · rw [Mem.of_get rfl]; exact getElem?_getD (by simp only []; omega)
      · rw [Mem.of_get rfl]; exact getElem?_getD hi)
  rw [hr.points, ← er]
  exact ⟨m', k4, k5⟩

end RK
end QK
