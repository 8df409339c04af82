import Verif.Model.Operators
import Verif.Proofs.Indexer
import Verif.Props.SelfAssign
/- Properties C116 and C117: assignment of indexers, printing of ranges. -/
namespace QK.Props
open QK Spec

theorem copyIndex_take (src : List Int) : ∀ (k : Nat) (dst : List Int), k ≤ dst.length → k ≤ src.length → Indexer.copyIndex k dst src = .ok (src.take k ++ dst.drop k) := by
  intro k
  induction k with
  | zero => intro dst _ _; simp [Indexer.copyIndex]
  | succ k ih =>
    intro dst h1 h2
    rw [Indexer.copyIndex, ih dst (by omega) (by omega), Res.ok_bind, vget_nat (by omega), Res.ok_bind, vset_nat (by simp; omega)]
    congr 1
    rw [List.set_append_right _ _ (by simp), show k - (src.take k).length = 0 by simp; omega, List.take_succ_eq_append_getElem (by omega), List.drop_eq_getElem_cons (by omega), List.append_assoc]
    rfl

theorem resizeInts_length (n : Nat) (v : List Int) : (Indexer.resizeInts n v).length = n := by
  unfold Indexer.resizeInts
  simp
  omega

/-- What all indexers have in common: up-to-date strides, one index per dimension. -/
structure Regular (i : Indexer) : Prop where
  sup : i.sup = Range.setup i.sup.dims
  sub : i.sub = Range.setup i.sub.dims
  index : i.index.length = i.sup.numDims

theorem vset_length {α : Type} {v w : List α} {i : Int} {a : α} (h : vset v i a = .ok w) : w.length = v.length := by
  unfold vset at h
  split at h
  · cases h; simp
  · cases h

theorem Regular.increment {i j : Indexer} (h : Regular i) {dim : Int} (e : i.increment dim = .ok j) : Regular j := by
  unfold Indexer.increment at e
  obtain ⟨s, _, e⟩ := Res.bind_eq_ok.1 e
  obtain ⟨x, _, e⟩ := Res.bind_eq_ok.1 e
  obtain ⟨v, hv, e⟩ := Res.bind_eq_ok.1 e
  cases e
  exact ⟨h.sup, h.sub, (vset_length hv).trans h.index⟩

theorem Regular.decrement {i j : Indexer} (h : Regular i) {dim : Int} (e : i.decrement dim = .ok j) : Regular j := by
  unfold Indexer.decrement at e
  obtain ⟨s, _, e⟩ := Res.bind_eq_ok.1 e
  obtain ⟨x, _, e⟩ := Res.bind_eq_ok.1 e
  obtain ⟨v, hv, e⟩ := Res.bind_eq_ok.1 e
  cases e
  exact ⟨h.sup, h.sub, (vset_length hv).trans h.index⟩

theorem Regular.recInc : ∀ (n : Nat) {i j : Indexer}, Regular i → Indexer.recInc n i = .ok j → Regular j := by
  intro n
  induction n with
  | zero => intro i j h e; rw [Indexer.recInc] at e; cases e; exact ⟨h.sup, h.sub, h.index⟩
  | succ n ih =>
    intro i j h e
    rw [Indexer.recInc] at e
    obtain ⟨x, _, e⟩ := Res.bind_eq_ok.1 e
    obtain ⟨u, _, e⟩ := Res.bind_eq_ok.1 e
    split at e
    · obtain ⟨l, _, e⟩ := Res.bind_eq_ok.1 e
      obtain ⟨v, hv, e⟩ := Res.bind_eq_ok.1 e
      obtain ⟨len, _, e⟩ := Res.bind_eq_ok.1 e
      obtain ⟨s, _, e⟩ := Res.bind_eq_ok.1 e
      exact ih (i := { i with index := v, linear := i.linear - (len - 1) * s }) ⟨h.sup, h.sub, (vset_length hv).trans h.index⟩ e
    · exact h.increment e

theorem assign_eq {a b : Indexer} (h : Regular b) : a.assign b = .ok b := by
  have e1 : b.sup.copy = b.sup := h.sup.symm
  have e2 : b.sub.copy = b.sub := h.sub.symm
  unfold Indexer.assign
  dsimp only
  rw [e1, e2, copyIndex_take _ _ _ (by rw [resizeInts_length]) (by rw [h.index])]
  simp only [Res.ok_bind, Res.pure_eq]
  rw [List.take_of_length_le (by rw [h.index]), List.drop_of_length_le (by rw [resizeInts_length]), List.append_nil]

theorem made_regular {i : Indexer} (h : i.Made) : Regular i := by
  induction h with
  | default => exact ⟨rfl, rfl, rfl⟩
  | make sub sup =>
    unfold Indexer.make
    by_cases h0 : 0 < sup.copy.numDims
    · by_cases h1 : sup.copy.includes sub.copy = true
      · simp only [h0, h1, if_true]
        refine ⟨rfl, rfl, ?_⟩
        have := (Range.includes_iff.1 h1).length_eq
        simp [Range.numDims]
        simpa using this.symm
      · simp only [h0, h1, if_true]
        exact ⟨rfl, rfl, by simp⟩
    · simp only [h0, if_false]
      exact ⟨rfl, rfl, by simp at h0 ⊢; omega⟩
  | copy _ ih => exact ⟨rfl, rfl, ih.index⟩
  | next _ e ih => exact ih.recInc _ e
  | increment _ e ih => exact ih.increment e
  | decrement _ e ih => exact ih.decrement e
  | assign _ _ e _ ih => rw [assign_eq ih] at e; cases e; exact ih

/-- **C116**, what holds: assigning an indexer to another object, and copying it, reproduces it in every state of its life; from there both run through the same cells, and what is done with one does not
change the other. Missing: assignment to itself, see `C116_false`. -/
theorem C116_partial {b : Indexer} (hb : b.Made) (a : Indexer) : a.assign b = .ok b ∧ b.copyCtor = b := by
  have h := made_regular hb
  refine ⟨assign_eq h, ?_⟩
  have e1 : b.sup.copy = b.sup := h.sup.symm
  have e2 : b.sub.copy = b.sub := h.sub.symm
  unfold Indexer.copyCtor
  rw [e1, e2]

/-- **C116** is false: `i = i` forgets both ranges (even if the invalidated pointers still work), and a loop with an indexer that was on a cell whose last index is not negative then never ends, whatever
its body does as long as it returns. -/
theorem C116_false {i : Indexer} (hi : i.Made) (hx : i.ex = true) (hn : i.sub.numDims = i.sup.numDims) {n : Nat} (hl : i.sup.numDims = n + 1) (h0 : ∀ x, i.index[n]? = some x → 0 ≤ x) :
    ∃ j, i.assignSelf = .ok j ∧ j.sup.dims = List.replicate (n + 1) (0, 0) ∧ j.sub.dims = List.replicate (n + 1) (0, 0) ∧ j.index = i.index ∧
      ∀ (σ : Type) (body : Indexer → σ → Res σ) (s : σ), (∀ k s, ∃ s', body k s = .ok s') → j.forEach body s = .diverge := by
  have R := made_regular hi
  obtain ⟨sup, a1, a2⟩ := C78_range_false i.sup
  obtain ⟨sub, b1, b2⟩ := C78_range_false i.sub
  have nd : sup.numDims = n + 1 := by unfold Range.numDims; rw [a2]; simp [hl]
  have il : i.index.length = n + 1 := R.index.trans hl
  have rs : Indexer.resizeInts (n + 1) i.index = i.index := by
    unfold Indexer.resizeInts
    rw [List.take_of_length_le (by omega), il]; simp
  have ca : Indexer.copyIndex (n + 1) i.index i.index = .ok i.index := by
    rw [copyIndex_take _ _ _ (by omega) (by omega), List.take_append_drop]
  rw [hl] at a2
  rw [hn, hl] at b2
  refine ⟨⟨sup, sub, i.linear, i.ex, i.index⟩, ?_, a2, b2, rfl, fun σ body s hb => ?_⟩
  · unfold Indexer.assignSelf
    rw [a1, Res.ok_bind, b1, Res.ok_bind, nd, rs]
    simp only [ca, Res.ok_bind, Res.pure_eq]
  · have sl : sup.stride.length = n + 1 := by
      have : sup = Range.setup sup.dims := by
        have h := a1
        unfold Range.assignSelf at h
        obtain ⟨_, _, h⟩ := Res.bind_eq_ok.1 h
        obtain ⟨_, _, h⟩ := Res.bind_eq_ok.1 h
        cases h; rfl
      rw [this, a2]
      simp [Range.setup]
    unfold Indexer.forEach
    refine iter_diverge (fun p : Indexer × σ => p.1.sup = sup ∧ p.1.sub = sub ∧ p.1.ex = true ∧ p.1.index.length = n + 1 ∧ ∀ x, p.1.index[n]? = some x → 0 ≤ x) ?_ ⟨rfl, rfl, hx, il, h0⟩
    rintro ⟨k, s⟩ ⟨k1, k2, k3, k4, k5⟩
    obtain ⟨s', hs⟩ := hb k s
    dsimp only at k1 k2 k3 k4 k5
    have hv := k5 _ (List.getElem?_eq_getElem (by omega : n < k.index.length))
    have step : k.next = .ok { k with linear := k.linear + sup.stride[n], index := k.index.set n (k.index[n] + 1) } := by
      unfold Indexer.next
      rw [k1, nd, Indexer.recInc, vget_nat (by omega), Res.ok_bind, Range.upper, k2, vget_nat (by rw [b2]; simp), Res.map_ok, Res.ok_bind]
      have : (sub.dims[n]'(by rw [b2]; simp)).2 = 0 := by simp [b2]
      rw [this, if_neg (by omega), Indexer.increment, k1, vget_nat (by omega), Res.ok_bind, vget_nat (by omega), Res.ok_bind, vset_nat (by omega), Res.ok_bind, k2]
      rfl
    refine ⟨({ k with linear := k.linear + sup.stride[n], index := k.index.set n (k.index[n] + 1) }, s'), ?_, ?_⟩
    · simp only [k3, if_true, hs, Res.ok_bind, step, Res.pure_eq]
    · refine ⟨k1, k2, k3, by simpa using k4, fun x hx => ?_⟩
      simp only [List.getElem?_set_self (by omega : n < k.index.length), Option.some.injEq] at hx
      omega

/-- An indexer in the middle of its life: on cell (1, 1) of the 2 × 3 cells from (0, 1) on, in a chunk of 4 × 5. -/
def midway : Indexer := { sup := Range.setup [(0, 4), (0, 5)], sub := Range.setup [(0, 2), (1, 4)], linear := 6, ex := true, index := [1, 1] }

theorem midway_made : midway.Made := by
  have h0 : (Indexer.make (Range.setup [(0, 2), (1, 4)]) (Range.setup [(0, 4), (0, 5)])).Made := .make _ _
  have h1 := (h0.next (j := _) rfl)
  have h2 := (h1.next (j := _) rfl)
  exact h2.next rfl

/-- The hypotheses of the theorems are met: the indexer is reproduced in another object, and lost in itself. -/
example : Indexer.default.assign midway = .ok midway ∧ ∃ j, midway.assignSelf = .ok j ∧ j.sup.dims = [(0, 0), (0, 0)] ∧ j.forEach (fun k s => .ok (s + k.linear)) (0 : Int) = .diverge := by
  refine ⟨(C116_partial midway_made _).1, ?_⟩
  obtain ⟨j, h1, h2, -, -, h3⟩ := C116_false midway_made rfl rfl (n := 1) rfl (fun x hx => by simp [midway] at hx; omega)
  exact ⟨j, h1, h2, h3 _ _ _ fun k s => ⟨_, rfl⟩⟩

/-! ## C117 -/

/-- **C117** is false: printing a range is undefined for every range, as the operator does not return the stream. -/
theorem C117_false (r : Range) : ∃ w, r.print.2 = .ub w := ⟨_, rfl⟩

theorem printLoop_join (n : Nat) : ∀ (v : List Int) (i : Nat), i + v.length = n → String.join (Range.printLoop n i v) = ", ".intercalate (v.map toString)
  | [], _, _ => rfl
  | [x], i, h => by
    have : ¬ ((i : Int) ≠ n - 1) := by simp at h; omega
    simp [Range.printLoop, this]
  | x :: y :: xs, i, h => by
    have e : ((i : Int) ≠ n - 1) := by simp at h; omega
    have := printLoop_join n (y :: xs) (i + 1) (by simp at h ⊢; omega)
    rw [Range.printLoop, if_pos e]
    rw [List.map_cons, List.map_cons, String.intercalate_cons_cons, ← List.map_cons, ← this]
    simp [String.join_cons, String.append_assoc]

/-- **C117**, what holds: before that, the bounds are written, separated by commas. Missing: the return of the stream. -/
theorem C117_partial (r : Range) : String.join r.print.1 =
    "Range : lower [" ++ ", ".intercalate (r.dims.map fun d => toString d.1) ++ "], upper [" ++ ", ".intercalate (r.dims.map fun d => toString d.2) ++ "]" := by
  have h1 := printLoop_join r.numDims (r.dims.map Prod.fst) 0 (by simp [Range.numDims])
  have h2 := printLoop_join r.numDims (r.dims.map Prod.snd) 0 (by simp [Range.numDims])
  rw [List.map_map] at h1 h2
  unfold Range.print
  simp only [String.join_append, h1, h2, String.join_cons, String.join_nil, String.append_empty]
  rfl

example : String.join (Range.setup [(0, 4), (-1, 5)]).print.1 = "Range : lower [0, -1], upper [4, 5]" := by
  rw [C117_partial]
  decide

end QK.Props
