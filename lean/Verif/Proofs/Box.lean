import Verif.Spec.Box
import Mathlib.Data.List.Nodup
import Mathlib.Tactic.Ring
import Mathlib.Tactic.Linarith
/- Facts about the specification vocabulary of `Verif/Spec/Box.lean`. -/
namespace QK.Spec

@[simp] theorem mem_interval {l u x : Int} : x ∈ interval l u ↔ l ≤ x ∧ x < u := by
  unfold interval
  simp only [List.mem_map, List.mem_range]
  constructor
  · rintro ⟨k, hk, rfl⟩; omega
  · rintro ⟨h1, h2⟩
    exact ⟨(x - l).toNat, by omega, by omega⟩

@[simp] theorem length_interval {l u : Int} : (interval l u).length = (u - l).toNat := by
  simp [interval]

theorem getElem?_interval {l u : Int} {k : Nat} :
    (interval l u)[k]? = if k < (u - l).toNat then some (l + (k : Int)) else none := by
  unfold interval
  rw [List.getElem?_map]
  split
  · rename_i h; rw [List.getElem?_range h]; rfl
  · rename_i h; rw [List.getElem?_eq_none (by simpa using h)]; rfl

theorem interval_succ {l u : Int} (h : l < u) : interval l u = l :: interval (l+1) u := by
  apply List.ext_getElem?
  intro k
  cases k with
  | zero => rw [getElem?_interval, if_pos (by omega)]; simp
  | succ k =>
    rw [getElem?_interval, List.getElem?_cons_succ, getElem?_interval]
    by_cases hk : k + 1 < (u - l).toNat
    · rw [if_pos hk, if_pos (by omega)]; congr 1; push_cast; ring
    · rw [if_neg hk, if_neg (by omega)]

theorem interval_empty {l u : Int} (h : u ≤ l) : interval l u = [] := by
  apply List.eq_nil_of_length_eq_zero
  rw [length_interval]; omega

theorem interval_append {a b c : Int} (h1 : a ≤ b) (h2 : b ≤ c) :
    interval a c = interval a b ++ interval b c := by
  apply List.ext_getElem?
  intro k
  rw [List.getElem?_append, length_interval]
  simp only [getElem?_interval]
  by_cases hk : k < (b - a).toNat
  · rw [if_pos hk, if_pos hk, if_pos (by omega)]
  · rw [if_neg hk]
    by_cases hk2 : k < (c - a).toNat
    · rw [if_pos hk2, if_pos (by omega)]; congr 1; omega
    · rw [if_neg hk2, if_neg (by omega)]

theorem interval_map_add {a b t : Int} : (interval a b).map (fun x => t + x) = interval (t + a) (t + b) := by
  apply List.ext_getElem?
  intro k
  rw [List.getElem?_map]
  simp only [getElem?_interval]
  by_cases hk : k < (b - a).toNat
  · rw [if_pos hk, if_pos (by omega)]; simp; ring
  · rw [if_neg hk, if_neg (by omega)]; rfl

theorem interval_pairwise (l u : Int) : (interval l u).Pairwise (· < ·) := by
  unfold interval
  rw [List.pairwise_map]
  exact List.pairwise_lt_range.imp (by intro a b h; omega)

theorem mem_cells {b : Box} : ∀ {c : Cell}, c ∈ cells b ↔ InBox b c := by
  induction b with
  | nil => intro c; simp [cells, InBox]
  | cons d ds ih =>
    intro c
    simp only [cells, List.mem_flatMap, List.mem_map, mem_interval]
    constructor
    · rintro ⟨x, hx, t, ht, rfl⟩
      exact List.Forall₂.cons hx (ih.1 ht)
    · intro h
      cases h with
      | cons h1 h2 => exact ⟨_, h1, _, ih.2 h2, rfl⟩

theorem InBox.length_eq {b : Box} {c : Cell} (h : InBox b c) : c.length = b.length :=
  (List.Forall₂.length_eq h).symm

/-- Row-major enumeration is strictly increasing in the lexicographic order. -/
theorem cells_sorted (b : Box) : (cells b).Pairwise LexLt := by
  induction b with
  | nil => simp [cells]
  | cons d ds ih =>
    simp only [cells]
    rw [List.pairwise_flatMap]
    refine ⟨?_, ?_⟩
    · intro x _
      rw [List.pairwise_map]
      exact ih.imp (by intro a b h; exact Or.inr ⟨rfl, h⟩)
    · refine (interval_pairwise d.1 d.2).imp ?_
      intro x y hxy a ha b hb
      simp only [List.mem_map] at ha hb
      obtain ⟨a', _, rfl⟩ := ha
      obtain ⟨b', _, rfl⟩ := hb
      exact Or.inl hxy

theorem LexLt.irrefl : ∀ {c : Cell}, ¬ LexLt c c := by
  intro c
  induction c with
  | nil => simp [LexLt]
  | cons x xs ih => simp [LexLt, ih]

theorem cells_nodup (b : Box) : (cells b).Nodup :=
  (cells_sorted b).imp (by intro a b h hab; subst hab; exact LexLt.irrefl h)

theorem boxVolume_nil : boxVolume [] = 1 := rfl
@[simp] theorem boxVolume_cons (d : Int × Int) (ds : Box) :
    boxVolume (d :: ds) = (d.2 - d.1) * boxVolume ds := by
  simp [boxVolume, lengths]

theorem boxVolume_append (a b : Box) : boxVolume (a ++ b) = boxVolume a * boxVolume b := by
  simp [boxVolume, lengths]

theorem Pos.tail {d : Int × Int} {ds : Box} (h : Pos (d :: ds)) : Pos ds :=
  fun e he => h e (List.mem_cons_of_mem _ he)
theorem Pos.head {d : Int × Int} {ds : Box} (h : Pos (d :: ds)) : d.1 < d.2 :=
  h d List.mem_cons_self

theorem boxVolume_pos {b : Box} (h : Pos b) : 0 < boxVolume b := by
  induction b with
  | nil => simp [boxVolume_nil]
  | cons d ds ih =>
    rw [boxVolume_cons]
    exact mul_pos (by have := h.head; omega) (ih h.tail)

theorem offsetFrom_eq (b : Box) : ∀ (acc : Int) (c : Cell), c.length = b.length →
    offsetFrom acc b c = acc * boxVolume b + offset b c := by
  induction b with
  | nil => intro acc c h; cases c <;> simp [offsetFrom, offset, boxVolume_nil] at *
  | cons d ds ih =>
    intro acc c h
    cases c with
    | nil => simp at h
    | cons x xs =>
      have hl : xs.length = ds.length := by simpa using h
      rw [offset, offsetFrom, offsetFrom, ih _ _ hl, ih _ _ hl, boxVolume_cons]
      ring

theorem offset_cons {d : Int × Int} {ds : Box} {x : Int} {xs : Cell} (h : xs.length = ds.length) :
    offset (d :: ds) (x :: xs) = (x - d.1) * boxVolume ds + offset ds xs := by
  rw [offset, offsetFrom, offsetFrom_eq _ _ _ h]; simp

/-- In row-major order the offsets are 0, 1, 2, …, volume-1. -/
theorem cells_map_offset {b : Box} (h : Pos b) :
    (cells b).map (offset b) = interval 0 (boxVolume b) := by
  induction b with
  | nil => simp [cells, offset, offsetFrom, boxVolume_nil, interval]
  | cons d ds ih =>
    have hV := boxVolume_pos h.tail
    have key : ∀ (n : Nat) (l : Int), (interval l (l + n)).flatMap
        (fun x => ((cells ds).map (x :: ·)).map (offset (d :: ds)))
        = interval ((l - d.1) * boxVolume ds) ((l + n - d.1) * boxVolume ds) := by
      intro n
      induction n with
      | zero => intro l; simp [interval_empty]
      | succ n ihn =>
        intro l
        rw [interval_succ (by push_cast; omega)]
        have e : l + ((n + 1 : Nat) : Int) = (l + 1) + (n : Int) := by push_cast; ring
        rw [e, List.flatMap_cons, ihn]
        rw [List.map_map]
        have hm : (cells ds).map (offset (d :: ds) ∘ (l :: ·))
            = ((cells ds).map (offset ds)).map (fun t => (l - d.1) * boxVolume ds + t) := by
          rw [List.map_map]
          apply List.map_congr_left
          intro c hc
          exact offset_cons (mem_cells.1 hc).length_eq
        rw [hm, ih h.tail, interval_map_add]
        rw [interval_append (a := (l - d.1) * boxVolume ds) (b := (l + 1 - d.1) * boxVolume ds)]
        · congr 2 <;> ring
        · nlinarith
        · have : (0:Int) ≤ n := by omega
          nlinarith
    have hl := h.head
    simp only [cells, List.map_flatMap]
    have e : d.2 = d.1 + ((d.2 - d.1).toNat : Int) := by omega
    conv_lhs => rw [e]
    rw [key]
    rw [boxVolume_cons]
    have : ((d.2 - d.1).toNat : Int) = d.2 - d.1 := by omega
    rw [this]
    congr 1 <;> ring

theorem cells_length {b : Box} (h : Pos b) : ((cells b).length : Int) = boxVolume b := by
  have := congrArg List.length (cells_map_offset h)
  rw [List.length_map, length_interval] at this
  have := boxVolume_pos h
  omega

theorem offset_nonneg {b : Box} (h : Pos b) {c : Cell} (hc : InBox b c) :
    0 ≤ offset b c ∧ offset b c < boxVolume b := by
  have : offset b c ∈ (cells b).map (offset b) := List.mem_map_of_mem (mem_cells.2 hc)
  rw [cells_map_offset h] at this
  exact mem_interval.1 this

theorem InBox.pos {b : Box} {c : Cell} (h : InBox b c) : Pos b := by
  induction h with
  | nil => intro d hd; cases hd
  | cons h1 _ ih =>
    intro d hd
    cases hd with
    | head => omega
    | tail _ hd => exact ih d hd

theorem offset_inj {b : Box} {c c' : Cell} (hc : InBox b c) (hc' : InBox b c')
    (h : offset b c = offset b c') : c = c' := by
  have hp := hc.pos
  have nd : ((cells b).map (offset b)).Nodup := by
    rw [cells_map_offset hp]
    exact (interval_pairwise _ _).imp (fun h => ne_of_lt h)
  exact List.inj_on_of_nodup_map nd (mem_cells.2 hc) (mem_cells.2 hc') h

theorem offset_surj {b : Box} (h : Pos b) {k : Int} (h0 : 0 ≤ k) (h1 : k < boxVolume b) :
    ∃ c, InBox b c ∧ offset b c = k := by
  have : k ∈ (cells b).map (offset b) := by
    rw [cells_map_offset h]; exact mem_interval.2 ⟨h0, h1⟩
  obtain ⟨c, hc, rfl⟩ := List.mem_map.1 this
  exact ⟨c, mem_cells.1 hc, rfl⟩

theorem cells_eq_nil_iff {b : Box} : cells b = [] ↔ ∃ d ∈ b, d.2 ≤ d.1 := by
  constructor
  · intro h
    by_contra hn
    have hp : Pos b := by
      intro d hd
      by_contra hlt
      exact hn ⟨d, hd, by omega⟩
    have := cells_length hp
    rw [h] at this
    have := boxVolume_pos hp
    simp at *; omega
  · rintro ⟨d, hd, hle⟩
    rw [List.eq_nil_iff_forall_not_mem]
    intro c hc
    have := (mem_cells.1 hc).pos d hd
    omega

end QK.Spec
