import Verif.Proofs.Stencil
import Verif.Spec.Distance
/-
The cells read in a stage are at most two moves away.
-/
namespace QK
open Spec

section
variable {M : Box} {p : Int} {ws ps : List Nat}

theorem within_mono {k l : Nat} (h : k ≤ l) {x y : Cell} (hw : Within M p ps k x y) : Within M p ps l x y := by
  induction k generalizing l x with
  | zero =>
    cases l with
    | zero => exact hw
    | succ l => exact .inl hw
  | succ k ih =>
    obtain ⟨l, rfl⟩ : ∃ l', l = l' + 1 := ⟨l - 1, by omega⟩
    rcases hw with e | ⟨z, hz, hw⟩
    · exact .inl e
    · exact .inr ⟨z, hz, ih (by omega) hw⟩

theorem within_trans {k l : Nat} {x y z : Cell} (h1 : Within M p ps k x y) (h2 : Within M p ps l y z) : Within M p ps (k + l) x z := by
  induction k generalizing x with
  | zero => rw [show x = y from h1]; exact within_mono (by omega) h2
  | succ k ih =>
    rcases h1 with e | ⟨w, hw, h1⟩
    · rw [e]; exact within_mono (by omega) h2
    · rw [show k + 1 + l = (k + l) + 1 by omega]
      exact .inr ⟨w, hw, ih h1⟩

theorem within_refl (k : Nat) (x : Cell) : Within M p ps k x x := by
  cases k with
  | zero => exact rfl
  | succ k => exact .inl rfl

/-- Moving by one stays within one move, if it stays in the mesh. -/
theorem within_one {x : Cell} (hx : InBox (M ++ [(0, p)]) x) {d : Nat} (hd : d < M.length) {s : Int} (hs : s = 1 ∨ s = -1 ∨ d ∈ ps ∧ (s = hi M d - lo M d - 1 ∨ s = -(hi M d - lo M d - 1)))
    (h1 : lo M d ≤ x.getD d 0 + s) (h2 : x.getD d 0 + s < hi M d) : Within M p ps 1 x (moveBy x d s) := by
  refine .inr ⟨moveBy x d s, ⟨hx, ?_, d, hd, ?_⟩, rfl⟩
  · refine inBox_moved hx (by simp; omega) ?_ ?_
    · rw [lo_append hd]; exact h1
    · rw [hi_append hd]; exact h2
  · rcases hs with rfl | rfl | ⟨h, rfl | rfl⟩
    · exact .inl rfl
    · exact .inr (.inl rfl)
    · exact .inr (.inr ⟨h, .inl rfl⟩)
    · exact .inr (.inr ⟨h, .inr rfl⟩)

/-- Two moves in one direction. -/
theorem within_two {x : Cell} (hx : InBox (M ++ [(0, p)]) x) {d : Nat} (hd : d < M.length) {s t : Int} (hs : s = 1 ∨ s = -1 ∨ d ∈ ps ∧ (s = hi M d - lo M d - 1 ∨ s = -(hi M d - lo M d - 1)))
    (ht : t = 1 ∨ t = -1 ∨ d ∈ ps ∧ (t = hi M d - lo M d - 1 ∨ t = -(hi M d - lo M d - 1)))
    (h1 : lo M d ≤ x.getD d 0 + s) (h2 : x.getD d 0 + s < hi M d) (h3 : lo M d ≤ x.getD d 0 + (s + t)) (h4 : x.getD d 0 + (s + t) < hi M d) : Within M p ps 2 x (moveBy x d (s + t)) := by
  have hlen : x.length = M.length + 1 := by rw [hx.length_eq]; simp
  have hy : InBox (M ++ [(0, p)]) (moveBy x d s) := by
    refine inBox_moved hx (by simp; omega) ?_ ?_
    · rw [lo_append hd]; exact h1
    · rw [hi_append hd]; exact h2
  have hg : (moveBy x d s).getD d 0 = x.getD d 0 + s := by rw [moveBy_getD (by omega), if_pos rfl]
  have := within_trans (within_one hx hd hs h1 h2) (within_one hy hd ht (by rw [hg]; omega) (by rw [hg]; omega))
  rwa [moveBy_moveBy] at this

theorem image_within (hc : ∀ d < M.length, d ∈ ws ∨ d ∈ ps) {x : Cell} (hx : InBox (M ++ [(0, p)]) x) {dim : Nat} (hd : dim < M.length) (hw : 2 ≤ hi M dim - lo M dim) {s : Int} (h1 : -2 ≤ s) (h2 : s ≤ 2) :
    Within M p ps 2 x (image M ws x dim s) := by
  have hb := ((inBox_iff _ x).1 hx).2 dim (by simp; omega)
  rw [lo_append hd, hi_append hd] at hb
  have zero : Within M p ps 2 x (moveBy x dim 0) := by rw [moveBy_zero]; exact within_refl _ _
  have one : ∀ {r : Int}, r = 1 ∨ r = -1 ∨ dim ∈ ps ∧ (r = hi M dim - lo M dim - 1 ∨ r = -(hi M dim - lo M dim - 1)) → lo M dim ≤ x.getD dim 0 + r → x.getD dim 0 + r < hi M dim →
      Within M p ps 2 x (moveBy x dim r) := fun hr a b => within_mono (by decide) (within_one hx hd hr a b)
  unfold image imageShift
  by_cases c : lo M dim ≤ x.getD dim 0 + s ∧ x.getD dim 0 + s < hi M dim
  · rw [if_pos c]
    obtain rfl | rfl | rfl | rfl | rfl : s = 0 ∨ s = 1 ∨ s = -1 ∨ s = 2 ∨ s = -2 := by omega
    · exact zero
    · exact one (.inl rfl) c.1 c.2
    · exact one (.inr (.inl rfl)) c.1 c.2
    · exact within_two (s := 1) (t := 1) hx hd (.inl rfl) (.inl rfl) (by omega) (by omega) (by omega) (by omega)
    · exact within_two (s := -1) (t := -1) hx hd (.inr (.inl rfl)) (.inr (.inl rfl)) (by omega) (by omega) (by omega) (by omega)
  · rw [if_neg c]
    by_cases hws : dim ∈ ws
    · simp only [hws, decide_true, if_true]
      split_ifs with c2
      · -- below: the image is 0 or 1 away
        have : 2 * lo M dim - 1 - (x.getD dim 0 + s) - x.getD dim 0 = 0 ∨ 2 * lo M dim - 1 - (x.getD dim 0 + s) - x.getD dim 0 = 1 ∨ 2 * lo M dim - 1 - (x.getD dim 0 + s) - x.getD dim 0 = -1 := by omega
        rcases this with e | e | e <;> rw [e]
        · exact zero
        · exact one (.inl rfl) (by omega) (by omega)
        · exact one (.inr (.inl rfl)) (by omega) (by omega)
      · have : 2 * hi M dim - 1 - (x.getD dim 0 + s) - x.getD dim 0 = 0 ∨ 2 * hi M dim - 1 - (x.getD dim 0 + s) - x.getD dim 0 = 1 ∨ 2 * hi M dim - 1 - (x.getD dim 0 + s) - x.getD dim 0 = -1 := by omega
        rcases this with e | e | e <;> rw [e]
        · exact zero
        · exact one (.inl rfl) (by omega) (by omega)
        · exact one (.inr (.inl rfl)) (by omega) (by omega)
    · have hp : dim ∈ ps := (hc dim hd).resolve_left hws
      simp only [hws, decide_false, if_false, Bool.false_eq_true]
      split_ifs with c2
      · -- below the first cell
        obtain rfl | rfl : s = -1 ∨ s = -2 := by omega
        · exact one (.inr (.inr ⟨hp, .inl (by omega)⟩)) (by omega) (by omega)
        · by_cases c3 : x.getD dim 0 = lo M dim
          · rw [show -2 + (hi M dim - lo M dim) = (hi M dim - lo M dim - 1) + -1 by ring]
            exact within_two hx hd (.inr (.inr ⟨hp, .inl rfl⟩)) (.inr (.inl rfl)) (by omega) (by omega) (by omega) (by omega)
          · rw [show -2 + (hi M dim - lo M dim) = -1 + (hi M dim - lo M dim - 1) by ring]
            exact within_two hx hd (.inr (.inl rfl)) (.inr (.inr ⟨hp, .inl rfl⟩)) (by omega) (by omega) (by omega) (by omega)
      · obtain rfl | rfl : s = 1 ∨ s = 2 := by omega
        · exact one (.inr (.inr ⟨hp, .inr (by omega)⟩)) (by omega) (by omega)
        · by_cases c3 : x.getD dim 0 = hi M dim - 1
          · rw [show 2 + (lo M dim - hi M dim) = -(hi M dim - lo M dim - 1) + 1 by ring]
            exact within_two hx hd (.inr (.inr ⟨hp, .inr rfl⟩)) (.inl rfl) (by omega) (by omega) (by omega) (by omega)
          · rw [show 2 + (lo M dim - hi M dim) = 1 + -(hi M dim - lo M dim - 1) by ring]
            exact within_two hx hd (.inl rfl) (.inr (.inr ⟨hp, .inr rfl⟩)) (by omega) (by omega) (by omega) (by omega)

/-- The same cell, with `A` at most `r` moves away from it. -/
def Around (M : Box) (p : Int) (ps : List Nat) (A : Cell → Prop) (r : Nat) (x y : Cell) : Prop := InBox (M ++ [(0, p)]) x ∧ x = y ∧ ∀ z, Within M p ps r x z → A z

theorem around_reads (hw : ∀ d < M.length, 2 ≤ hi M d - lo M d) (hc : ∀ d < M.length, d ∈ ws ∨ d ∈ ps) (A : Cell → Prop) (r : Nat) :
    Reads M p ws (Around M p ps A r) (Around M p ps A (r + 2)) := by
  refine ⟨?_, ?_, ?_, ?_⟩
  · rintro x y ⟨h, rfl, -⟩; exact ⟨h, h⟩
  · rintro x y ⟨h, e, hA⟩; exact ⟨h, e, fun z hz => hA z (within_mono (by omega) hz)⟩
  · rintro x y ⟨h, rfl, hA⟩ dim hd s h1 h2
    refine ⟨image_mesh h hd (hw dim hd) h1 h2, rfl, fun z hz => hA z ?_⟩
    rw [show r + 2 = 2 + r by omega]
    exact within_trans (image_within hc h hd (hw dim hd) h1 h2) hz
  · rintro x y ⟨h, rfl, -⟩ dim hd s h1 h2
    exact Iff.rfl

theorem around_step (hw : ∀ d < M.length, 2 ≤ hi M d - lo M d) (hc : ∀ d < M.length, d ∈ ws ∨ d ∈ ps) (A : Cell → Prop) (r : Nat) :
    ReadsStep M p ws (Around M p ps A r) (Around M p ps A (r + 6)) :=
  ⟨_, _, around_reads hw hc A r, around_reads hw hc A (r + 2), around_reads hw hc A (r + 4)⟩

/-- In a direction that is not periodic a coordinate changes by at most one per move. -/
theorem within_coord {M : Box} {p : Int} {ps : List Nat} {k : Nat} {x z : Cell} {d : Nat} (hp : d ∉ ps) (h : Within M p ps k x z) :
    x.getD d 0 - k ≤ z.getD d 0 ∧ z.getD d 0 ≤ x.getD d 0 + k := by
  induction k generalizing x with
  | zero => rw [show x = z from h]; simp
  | succ k ih =>
    rcases h with e | ⟨y, ⟨hx, hy, d', hd', e⟩, h⟩
    · rw [e]; push_cast; omega
    · obtain ⟨i1, i2⟩ := ih h
      have hlen : x.length = M.length + 1 := by rw [hx.length_eq]; simp
      have : ∀ s : Int, (moveBy x d' s).getD d 0 = x.getD d 0 + (if d' = d then s else 0) := by
        intro s
        rw [moveBy_getD (by omega)]
        split_ifs <;> first | rfl | omega
      have key : y.getD d 0 = x.getD d 0 ∨ y.getD d 0 = x.getD d 0 + 1 ∨ y.getD d 0 = x.getD d 0 - 1 := by
        rcases e with rfl | rfl | ⟨hps, rfl | rfl⟩ <;> rw [this] <;> split_ifs with c
        · omega
        · omega
        · omega
        · omega
        · exact absurd (c ▸ hps) hp
        · omega
        · exact absurd (c ▸ hps) hp
        · omega
      push_cast
      omega

theorem within_mesh {M : Box} {p : Int} {ps : List Nat} {k : Nat} {x z : Cell} (hx : InBox (M ++ [(0, p)]) x) (h : Within M p ps k x z) : InBox (M ++ [(0, p)]) z := by
  induction k generalizing x with
  | zero => rw [← show x = z from h]; exact hx
  | succ k ih =>
    rcases h with e | ⟨y, hy, h⟩
    · rw [← e]; exact hx
    · exact ih hy.2.1 h

end
end QK
