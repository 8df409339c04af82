import Verif.Proofs.FvSolve
import Verif.Spec.Physics
import Mathlib.Tactic.FieldSimp
import Mathlib.Tactic.Linarith
import Mathlib.Tactic.FinCases
import Mathlib.Tactic.NormNum
/- The finite-volume kernels in exact arithmetic. -/
namespace QK
open Spec

/-! ### Sums over boxes -/

theorem list_sum_flatMap_map {β γ : Type} (l : List β) (m : List γ) (f : β → γ → ℝ) :
    (l.flatMap fun a => m.map (f a)).sum = (l.map fun a => (m.map (f a)).sum).sum := by
  induction l with
  | nil => simp
  | cons a l ih => simp [ih]

theorem list_sum_sub {β : Type} (l : List β) (f h : β → ℝ) :
    (l.map fun a => f a - h a).sum = (l.map f).sum - (l.map h).sum := by
  induction l with
  | nil => simp
  | cons a l ih => simp [ih]; ring

theorem list_sum_add {β : Type} (l : List β) (f h : β → ℝ) :
    (l.map fun a => f a + h a).sum = (l.map f).sum + (l.map h).sum := by
  induction l with
  | nil => simp
  | cons a l ih => simp [ih]; ring

theorem list_sum_mul {β : Type} (l : List β) (c : ℝ) (f : β → ℝ) :
    (l.map fun a => c * f a).sum = c * (l.map f).sum := by
  induction l with
  | nil => simp
  | cons a l ih => simp [ih]; ring

theorem telescope (a b : Int) (h : a ≤ b) (f : Int → ℝ) :
    ((interval a b).map fun y => f y - f (y + 1)).sum = f a - f b := by
  obtain ⟨k, rfl⟩ : ∃ k : Nat, b = a + k := ⟨(b - a).toNat, by omega⟩
  induction k with
  | zero => rw [interval_empty (by simp)]; simp
  | succ k ih =>
    rw [interval_append (b := a + k) (by omega) (by push_cast; omega), List.map_append, List.sum_append, ih (by omega),
      interval_succ (by push_cast; omega), interval_empty (by push_cast; omega)]
    simp [add_assoc]

theorem cells_cons_map (d : Int × Int) (B : Box) (f : Cell → ℝ) :
    ((cells (d :: B)).map f).sum = ((interval d.1 d.2).map fun y => ((cells B).map fun x => f (y :: x)).sum).sum := by
  rw [show cells (d :: B) = (interval d.1 d.2).flatMap (fun x => (cells B).map (x :: ·)) from rfl, List.map_flatMap]
  simp only [List.map_map]
  exact list_sum_flatMap_map _ _ (fun y x => f (y :: x))

/-- The differences of a quantity over neighbouring cells sum to zero if the quantity has the same value one
period further. -/
theorem sum_shift {B : Box} : ∀ {i : Nat} (_ : i < B.length) (_ : Pos B) (f : Cell → ℝ)
    (_ : ∀ x, InBox B x → x.getD i 0 = lo B i → f (moveBy x i (hi B i - lo B i)) = f x),
    ((cells B).map fun x => f x - f (moveBy x i 1)).sum = 0 := by
  induction B with
  | nil => intro i h; simp at h
  | cons d B ih =>
    intro i hi' hp f hper
    rw [cells_cons_map]
    cases i with
    | zero =>
      have e : ∀ y : Int, ((cells B).map fun x => f (y :: x) - f (moveBy (y :: x) 0 1)).sum =
          (fun y => ((cells B).map fun x => f (y :: x)).sum) y - (fun y => ((cells B).map fun x => f (y :: x)).sum) (y + 1) := by
        intro y
        rw [list_sum_sub]; rfl
      simp only [e]
      have hd := hp.head
      rw [telescope d.1 d.2 (le_of_lt hd) (fun y => ((cells B).map fun x => f (y :: x)).sum), sub_eq_zero]
      congr 1
      refine List.map_congr_left fun x hx => ?_
      have := hper (d.1 :: x) (List.Forall₂.cons ⟨le_refl _, hd⟩ (mem_cells.1 hx)) rfl
      rw [← this]
      simp [moveBy, lo, hi]
    | succ i =>
      have : ∀ y ∈ interval d.1 d.2, ((cells B).map fun x => f (y :: x) - f (moveBy (y :: x) (i + 1) 1)).sum = 0 := by
        intro y hy
        rw [mem_interval] at hy
        refine ih (by simpa using hi') hp.tail (fun x => f (y :: x)) ?_
        intro x hx h0
        exact hper (y :: x) (List.Forall₂.cons hy hx) (by simpa [lo] using h0)
      rw [List.map_congr_left this]
      simp

/-! ### Reconstruction and fluxes -/

theorem recon_const (v : ℝ) : FV.recon v v v v = (v, v) := by
  simp [FV.recon, real_lit]

/-- On uniform data one direction of the parallel kernel changes nothing. -/
theorem FV.sweepMp_uniform {q rhs : Chunk ℝ} {g : Int} {M : Box} {p n dim : Nat} {u : Cell → Nat → ℝ} {w : Nat → ℝ}
    (hq : q.Layout g M [(0, (p : Int)), (0, (n : Int))]) (hr : rhs.Layout g M [(0, (p : Int)), (0, (n : Int))])
    (hM : Pos M) (hp : 1 ≤ p) (hn : 2 ≤ n) (hg : 2 ≤ g) (hu : q.Holds (grow g M ++ [(0, (p : Int))]) n u)
    (hw : ∀ y, InBox (grow g M ++ [(0, (p : Int))]) y → ∀ j < n, u y j = w j)
    (hd : dim < M.length) {flux : FV.Flux ℝ} {φ : List ℝ → List ℝ → List ℝ} (hφ : IsFlux n flux φ)
    {grid : Rectilinear ℝ} {d : ℝ} (hdx : grid.dx dim = .ok d) :
    FV.sweepMp n flux grid q rhs dim = .ok rhs := by
  obtain ⟨m', h1, _, h3, h4⟩ := FV.mp_mem hq hr hM hp hn hg hu hd hφ d
  obtain ⟨rhs', e1, e2, e3⟩ := FV.runOn_spec h1 h3
  have : rhs' = rhs := by
    have hdata : rhs'.arr.data = rhs.arr.data := by
      refine List.ext_getElem? fun i => ?_
      have := e3 (i : Int) (by omega)
      rw [Int.toNat_natCast] at this
      rw [this]
      obtain ⟨f, h | h⟩ := h4 w hw i
      · rw [h, FV.mem_of_one (by omega), Int.toNat_natCast]
      · rw [h, FV.mem_of_one (by omega), Int.toNat_natCast]
        rw [show (fun r : ℝ => r + f / d - f / d) = id from funext fun r => add_sub_cancel_right r _, Option.map_id, id]
    rw [e2.1, hdata]
  subst this
  unfold FV.sweepMp
  rw [FV.itersMp_eq hq hM hp (by omega) (by omega) hd hdx, Res.ok_bind]
  exact e1

theorem faceFlux_const (φ : List ℝ → List ℝ → List ℝ) (n : Nat) {u : Cell → Nat → ℝ} {w : Nat → ℝ} {dim : Nat} {x : Cell}
    (h : ∀ t : Int, -2 ≤ t → t ≤ 1 → ∀ j < n, u (moveBy x dim t) j = w j) :
    faceFlux φ n u dim x = φ ((List.range n).map w) ((List.range n).map w) := by
  unfold faceFlux
  have e : ∀ j < n, FV.recon (u (moveBy x dim (-2)) j) (u (moveBy x dim (-1)) j) (u x j) (u (moveBy x dim 1) j) = (w j, w j) := by
    intro j hj
    have h0 := h 0 (by decide) (by decide) j hj
    rw [moveBy_zero] at h0
    rw [h _ (by decide) (by decide) j hj, h _ (by decide) (by decide) j hj, h0, h _ (by decide) (by decide) j hj, recon_const]
  simp only []
  congr 1 <;>
  · refine List.map_congr_left fun j hj => ?_
    rw [List.mem_range] at hj
    rw [e j hj]

theorem faceFlux_congr {α : Type} [Arith α] (φ : List α → List α → List α) (n : Nat) {u : Cell → Nat → α} {dim : Nat} {x y : Cell}
    (h : ∀ t : Int, -2 ≤ t → t ≤ 1 → ∀ j < n, u (moveBy x dim t) j = u (moveBy y dim t) j) :
    faceFlux φ n u dim x = faceFlux φ n u dim y := by
  unfold faceFlux
  have e : ∀ j < n, FV.recon (u (moveBy x dim (-2)) j) (u (moveBy x dim (-1)) j) (u x j) (u (moveBy x dim 1) j) =
      FV.recon (u (moveBy y dim (-2)) j) (u (moveBy y dim (-1)) j) (u y j) (u (moveBy y dim 1) j) := by
    intro j hj
    have h0 := h 0 (by decide) (by decide) j hj
    rw [moveBy_zero, moveBy_zero] at h0
    rw [h _ (by decide) (by decide) j hj, h _ (by decide) (by decide) j hj, h0, h _ (by decide) (by decide) j hj]
  simp only []
  congr 1 <;>
  · refine List.map_congr_left fun j hj => ?_
    rw [List.mem_range] at hj
    rw [e j hj]

theorem fvUpdate_add (φ : Nat → List ℝ → List ℝ → List ℝ) (n : Nat) (u : Cell → Nat → ℝ) (dx : Nat → ℝ) (dims : List Nat)
    (x : Cell) (j : Nat) : ∀ r : ℝ, fvUpdate φ n u dx dims x j r = r + (dims.map fun dim =>
      (faceFlux (φ dim) n u dim x).getD j 0 / dx dim - (faceFlux (φ dim) n u dim (moveBy x dim 1)).getD j 0 / dx dim).sum := by
  induction dims with
  | nil => intro r; simp [fvUpdate]
  | cons d ds ih =>
    intro r
    have : fvUpdate φ n u dx (d :: ds) x j r = fvUpdate φ n u dx ds x j (r + (faceFlux (φ d) n u d x).getD j (Arith.lit 0) / dx d -
      (faceFlux (φ d) n u d (moveBy x d 1)).getD j (Arith.lit 0) / dx d) := rfl
    rw [this, ih, List.map_cons, List.sum_cons, real_lit]
    push_cast
    ring

/-! ### Conservation -/

theorem list_sum_comm {β : Type} (l : List β) (ds : List Nat) (f : β → Nat → ℝ) :
    (l.map fun x => (ds.map fun d => f x d).sum).sum = (ds.map fun d => (l.map fun x => f x d).sum).sum := by
  induction ds with
  | nil => simp
  | cons d ds ih => simp only [List.map_cons, List.sum_cons, list_sum_add, ih]

theorem inBox_snoc {B : Box} {x : Cell} {n j : Int} (h : x.length = B.length) :
    InBox (B ++ [(0, n)]) (x ++ [j]) ↔ InBox B x ∧ 0 ≤ j ∧ j < n := by
  unfold InBox
  constructor
  · intro hh
    have h1 := List.forall₂_take_append _ _ _ hh
    have h2 := List.forall₂_drop_append _ _ _ hh
    rw [h, List.take_left] at h1
    rw [h, List.drop_left] at h2
    exact ⟨h1, by simpa using h2⟩
  · rintro ⟨h1, h2⟩
    exact List.rel_append h1 (by simpa using h2)

/-- Face ghosts and periodic images of cells with a component. -/
theorem periodicImage_snoc {g : Int} {B : Box} {i : Nat} (hi' : i < B.length) {x : Cell} {n j : Int} (h0 : 0 ≤ j) (h1 : j < n)
    (h : FaceGhost g B i x) :
    FaceGhost g (B ++ [(0, n)]) i (x ++ [j]) ∧ periodicImage g (B ++ [(0, n)]) i (x ++ [j]) = periodicImage g B i x ++ [j] := by
  have hlen : x.length = B.length := by
    rcases h with h | h <;>
    · have := h.length_eq; simpa [slab] using this
  have hs : ∀ a b, slab (B ++ [(0, n)]) i a b = slab B i a b ++ [(0, n)] := by
    intro a b; unfold slab; rw [List.set_append_left _ _ hi']
  have hlow : LowGhost g (B ++ [(0, n)]) i (x ++ [j]) ↔ LowGhost g B i x := by
    unfold LowGhost
    rw [hs, lo_append hi', inBox_snoc (by simp [slab, hlen])]
    simp [h0, h1]
  have hup : UpGhost g (B ++ [(0, n)]) i (x ++ [j]) ↔ UpGhost g B i x := by
    unfold UpGhost
    rw [hs, hi_append hi', inBox_snoc (by simp [slab, hlen])]
    simp [h0, h1]
  refine ⟨?_, ?_⟩
  · unfold FaceGhost; rw [hlow, hup]; exact h
  · unfold periodicImage
    simp only [hlow, lo_append hi', hi_append hi']
    split
    · rw [moveBy_append (by omega)]
    · rw [moveBy_append (by omega)]

/-- Values around the first and the last face of a periodic direction agree. -/
theorem periodic_values {α : Type} {M : Box} {g : Int} (hg : 2 ≤ g) {p n dim : Nat} {u : Cell → Nat → α} (hd : dim < M.length)
    (hN : 0 < hi M dim - lo M dim)
    (hu : ∀ x, FaceGhost g (M ++ [(0, (p : Int))]) dim x → ∀ j < n, u x j = u (periodicImage g (M ++ [(0, (p : Int))]) dim x) j)
    {x : Cell} (hx : InBox (M ++ [(0, (p : Int))]) x) (h0 : x.getD dim 0 = lo M dim) :
    ∀ t : Int, -2 ≤ t → t ≤ 1 → ∀ j < n, u (moveBy (moveBy x dim (hi M dim - lo M dim)) dim t) j = u (moveBy x dim t) j := by
  have hdl : dim < (M ++ [((0 : Int), (p : Int))]).length := by simp; omega
  have hlo : lo (M ++ [((0 : Int), (p : Int))]) dim = lo M dim := lo_append hd
  have hhi : hi (M ++ [((0 : Int), (p : Int))]) dim = hi M dim := hi_append hd
  have hxl : dim < x.length := by rw [hx.length_eq]; exact hdl
  have hin := (inBox_iff _ x).1 hx
  have slabIn : ∀ (a b s : Int), a ≤ lo M dim + s → lo M dim + s < b → InBox (slab (M ++ [((0 : Int), (p : Int))]) dim a b) (moveBy x dim s) := by
    intro a b s h1 h2
    rw [inBox_slab hdl]
    refine ⟨by rw [moveBy_length]; exact hin.1, ?_, ?_, ?_⟩
    · rw [moveBy_getD hxl, if_pos rfl, h0]; exact h1
    · rw [moveBy_getD hxl, if_pos rfl, h0]; exact h2
    · intro j hj hne
      rw [moveBy_getD hxl, if_neg hne]; exact hin.2 j hj
  intro t h1 h2 j hj
  rw [moveBy_moveBy]
  by_cases c : t < 0
  · -- below the first face: `x + t` is a ghost below
    have hl : LowGhost g (M ++ [((0 : Int), (p : Int))]) dim (moveBy x dim t) := by
      unfold LowGhost; rw [hlo]; exact slabIn _ _ _ (by omega) (by omega)
    rw [hu _ (.inl hl) j hj]
    unfold periodicImage
    rw [if_pos hl, moveBy_moveBy, hlo, hhi, add_comm]
  · have hl : UpGhost g (M ++ [((0 : Int), (p : Int))]) dim (moveBy x dim (hi M dim - lo M dim + t)) := by
      unfold UpGhost; rw [hhi]; exact slabIn _ _ _ (by omega) (by omega)
    have hn : ¬ LowGhost g (M ++ [((0 : Int), (p : Int))]) dim (moveBy x dim (hi M dim - lo M dim + t)) := by
      unfold LowGhost
      rw [inBox_slab hdl, hlo]
      rintro ⟨_, _, h, _⟩
      rw [moveBy_getD hxl, if_pos rfl, h0] at h
      omega
    rw [hu _ (.inr hl) j hj]
    unfold periodicImage
    rw [if_neg hn, moveBy_moveBy, hlo, hhi]
    congr 1; congr 1; ring

/-- Fluxes through the first and the last face of a periodic direction agree. -/
theorem faceFlux_periodic {α : Type} [Arith α] {M : Box} {g : Int} (hg : 2 ≤ g) {p n dim : Nat} {u : Cell → Nat → α} (hd : dim < M.length)
    (hN : 0 < hi M dim - lo M dim)
    (hu : ∀ x, FaceGhost g (M ++ [(0, (p : Int))]) dim x → ∀ j < n, u x j = u (periodicImage g (M ++ [(0, (p : Int))]) dim x) j)
    (φ : List α → List α → List α) {x : Cell} (hx : InBox (M ++ [(0, (p : Int))]) x) (h0 : x.getD dim 0 = lo M dim) :
    faceFlux φ n u dim (moveBy x dim (hi M dim - lo M dim)) = faceFlux φ n u dim x :=
  faceFlux_congr φ n (periodic_values hg hd hN hu hx h0)

/-- The update has total zero. -/
theorem fvUpdate_total {M : Box} {g : Int} (hg : 2 ≤ g) (hM : Pos M) {p n : Nat} (hp : 1 ≤ p) {u : Cell → Nat → ℝ} {dims : List Nat}
    (hd : ∀ dim ∈ dims, dim < M.length)
    (hu : ∀ dim ∈ dims, ∀ x, FaceGhost g (M ++ [(0, (p : Int))]) dim x → ∀ j < n, u x j = u (periodicImage g (M ++ [(0, (p : Int))]) dim x) j)
    (φ : Nat → List ℝ → List ℝ → List ℝ) (dx : Nat → ℝ) (j : Nat) (v : Cell → Nat → ℝ) :
    total (M ++ [(0, (p : Int))]) (fun x j => fvUpdate φ n u dx dims x j (v x j)) j = total (M ++ [(0, (p : Int))]) v j := by
  have hpp : Pos (M ++ [((0 : Int), (p : Int))]) := by
    rw [pos_append]; exact ⟨hM, by intro d hd; simp at hd; subst hd; simp; omega⟩
  unfold total
  simp only [fvUpdate_add]
  rw [list_sum_add, list_sum_comm]
  have : ∀ dim ∈ dims, ((cells (M ++ [(0, (p : Int))])).map fun x => (faceFlux (φ dim) n u dim x).getD j 0 / dx dim -
      (faceFlux (φ dim) n u dim (moveBy x dim 1)).getD j 0 / dx dim).sum = 0 := by
    intro dim hdim
    have hdl : dim < (M ++ [((0 : Int), (p : Int))]).length := by have := hd dim hdim; simp; omega
    refine sum_shift hdl hpp (fun x => (faceFlux (φ dim) n u dim x).getD j 0 / dx dim) ?_
    intro x hx h0
    have hlt := (pos_iff M).1 hM dim (hd dim hdim)
    rw [lo_append (hd dim hdim)] at h0 ⊢
    rw [hi_append (hd dim hdim), faceFlux_periodic hg (hd dim hdim) (by omega) (hu dim hdim) (φ dim) hx h0]
  rw [List.map_congr_left this]
  simp

namespace Euler

section
variable {α : Type} [Arith α]

/-- Pressure as computed (euler.cpp:89-90). -/
def pOf (gamma q0 q1 q2 q3 q4 : α) : α :=
  (gamma - Arith.lit 1) * (q4 - Arith.lit (1 / 2) * (q1 * q1 + q2 * q2 + q3 * q3) / q0)

/-- One component of the flux as computed (euler.cpp:126-131). -/
def combine (sll srr f f' q q' : α) : α :=
  Arith.ofBool (Arith.le (Arith.lit 0) srr && Arith.le sll (Arith.lit 0)) *
    ((srr * f - sll * f' + sll * srr * (q' - q)) / (srr - sll)) +
    Arith.ofBool (Arith.lt (Arith.lit 0) sll) * f + Arith.ofBool (Arith.lt srr (Arith.lit 0)) * f'

/-- The flux with the physical fluxes of both sides spelled out. -/
def hllWith (sll srr : α) (fl fr ql qr : Nat → α) : List α :=
  [combine sll srr (fl 0) (fr 0) (ql 0) (qr 0), combine sll srr (fl 1) (fr 1) (ql 1) (qr 1),
   combine sll srr (fl 2) (fr 2) (ql 2) (qr 2), combine sll srr (fl 3) (fr 3) (ql 3) (qr 3),
   combine sll srr (fl 4) (fr 4) (ql 4) (qr 4)]

/-- The five entries as a function. -/
def of5 (a0 a1 a2 a3 a4 : α) : Nat → α
  | 0 => a0 | 1 => a1 | 2 => a2 | 3 => a3 | _ => a4

theorem hll_dim0 (gamma l0 l1 l2 l3 l4 r0 r1 r2 r3 r4 : α) :
    hll gamma ((0 : Nat) : Int) [l0, l1, l2, l3, l4] [r0, r1, r2, r3, r4] = .ok (hllWith
      (l1 / l0 - Arith.sqrt (gamma * pOf gamma l0 l1 l2 l3 l4 / l0)) (r1 / r0 + Arith.sqrt (gamma * pOf gamma r0 r1 r2 r3 r4 / r0))
      (of5 l1 (l1 * (l1 / l0) + pOf gamma l0 l1 l2 l3 l4) (l2 * (l1 / l0)) (l3 * (l1 / l0)) ((l4 + pOf gamma l0 l1 l2 l3 l4) * (l1 / l0)))
      (of5 r1 (r1 * (r1 / r0) + pOf gamma r0 r1 r2 r3 r4) (r2 * (r1 / r0)) (r3 * (r1 / r0)) ((r4 + pOf gamma r0 r1 r2 r3 r4) * (r1 / r0)))
      (of5 l0 l1 l2 l3 l4) (of5 r0 r1 r2 r3 r4)) := rfl

theorem hll_dim1 (gamma l0 l1 l2 l3 l4 r0 r1 r2 r3 r4 : α) :
    hll gamma ((1 : Nat) : Int) [l0, l1, l2, l3, l4] [r0, r1, r2, r3, r4] = .ok (hllWith
      (l2 / l0 - Arith.sqrt (gamma * pOf gamma l0 l1 l2 l3 l4 / l0)) (r2 / r0 + Arith.sqrt (gamma * pOf gamma r0 r1 r2 r3 r4 / r0))
      (of5 l2 (l1 * (l2 / l0)) (l2 * (l2 / l0) + pOf gamma l0 l1 l2 l3 l4) (l3 * (l2 / l0)) ((l4 + pOf gamma l0 l1 l2 l3 l4) * (l2 / l0)))
      (of5 r2 (r1 * (r2 / r0)) (r2 * (r2 / r0) + pOf gamma r0 r1 r2 r3 r4) (r3 * (r2 / r0)) ((r4 + pOf gamma r0 r1 r2 r3 r4) * (r2 / r0)))
      (of5 l0 l1 l2 l3 l4) (of5 r0 r1 r2 r3 r4)) := rfl

theorem hll_dim2 (gamma l0 l1 l2 l3 l4 r0 r1 r2 r3 r4 : α) :
    hll gamma ((2 : Nat) : Int) [l0, l1, l2, l3, l4] [r0, r1, r2, r3, r4] = .ok (hllWith
      (l3 / l0 - Arith.sqrt (gamma * pOf gamma l0 l1 l2 l3 l4 / l0)) (r3 / r0 + Arith.sqrt (gamma * pOf gamma r0 r1 r2 r3 r4 / r0))
      (of5 l3 (l1 * (l3 / l0)) (l2 * (l3 / l0)) (l3 * (l3 / l0) + pOf gamma l0 l1 l2 l3 l4) ((l4 + pOf gamma l0 l1 l2 l3 l4) * (l3 / l0)))
      (of5 r3 (r1 * (r3 / r0)) (r2 * (r3 / r0)) (r3 * (r3 / r0) + pOf gamma r0 r1 r2 r3 r4) ((r4 + pOf gamma r0 r1 r2 r3 r4) * (r3 / r0)))
      (of5 l0 l1 l2 l3 l4) (of5 r0 r1 r2 r3 r4)) := rfl

end

theorem ofBool_real (b : Bool) : (Arith.ofBool b : ℝ) = if b then 1 else 0 := by
  cases b <;> simp [Arith.ofBool, real_lit]

theorem combine_real (sll srr f f' q q' : ℝ) : combine sll srr f f' q q' =
    (if 0 ≤ srr ∧ sll ≤ 0 then 1 else 0) * ((srr * f - sll * f' + sll * srr * (q' - q)) / (srr - sll)) +
      (if 0 < sll then 1 else 0) * f + (if srr < 0 then 1 else 0) * f' := by
  have hb : ∀ (p : Bool) (P : Prop) [Decidable P], (p = true ↔ P) → (Arith.ofBool p : ℝ) = if P then 1 else 0 := by
    intro p P _ h
    rw [ofBool_real]
    by_cases c : P
    · rw [if_pos c, if_pos (h.2 c)]
    · rw [if_neg c, if_neg (fun x => c (h.1 x))]
  unfold combine
  rw [hb _ (0 ≤ srr ∧ sll ≤ 0) (by rw [Bool.and_eq_true, real_le, real_le, real_lit]; simp),
    hb _ (0 < sll) (by rw [real_lt, real_lit]; simp), hb _ (srr < 0) (by rw [real_lt, real_lit]; simp)]

/-- The code's HLL flux in terms of the textbook formulas. -/
theorem hll_gas (gamma : ℝ) (d : Fin 3) (l r : Gas) :
    hll gamma (d : Nat) l.comps r.comps = .ok (Gas.comps (Gas.lin 1
      (Gas.lin (if 0 ≤ r.vel d + r.sound gamma ∧ l.vel d - l.sound gamma ≤ 0 then 1 else 0)
        (Gas.hllFlux gamma d (l.vel d - l.sound gamma) (r.vel d + r.sound gamma) l r)
        (if 0 < l.vel d - l.sound gamma then 1 else 0) (l.flux gamma d))
      (if r.vel d + r.sound gamma < 0 then 1 else 0) (r.flux gamma d))) := by
  have hP : ∀ q : Gas, pOf gamma q.rho (q.mom 0) (q.mom 1) (q.mom 2) q.en = q.pressure gamma := by
    intro q; unfold pOf Gas.pressure vdot; simp only [real_lit]; push_cast; ring
  have hs : ∀ q : Gas, Arith.sqrt (gamma * q.pressure gamma / q.rho) = q.sound gamma := fun q => rfl
  unfold Gas.comps
  fin_cases d
  · show hll gamma ((0 : Nat) : Int) _ _ = _
    rw [hll_dim0, hP, hP, hs, hs]
    unfold hllWith of5 Gas.hllFlux Gas.lin Gas.flux
    simp only [combine_real, Gas.vel, unit]
    simp only [Fin.zero_eta, Fin.mk_one, Fin.reduceFinMk, if_true, show (1 : Fin 3) ≠ 0 by decide, show (2 : Fin 3) ≠ 0 by decide, if_false]
    refine congrArg Res.ok ?_
    simp only [List.cons.injEq, and_true]
    refine ⟨?_, ?_, ?_, ?_, ?_⟩ <;> ring_nf
  · show hll gamma ((1 : Nat) : Int) _ _ = _
    rw [hll_dim1, hP, hP, hs, hs]
    unfold hllWith of5 Gas.hllFlux Gas.lin Gas.flux
    simp only [combine_real, Gas.vel, unit]
    simp only [Fin.zero_eta, Fin.mk_one, Fin.reduceFinMk, if_true, show (0 : Fin 3) ≠ 1 by decide, show (2 : Fin 3) ≠ 1 by decide, if_false]
    refine congrArg Res.ok ?_
    simp only [List.cons.injEq, and_true]
    refine ⟨?_, ?_, ?_, ?_, ?_⟩ <;> ring_nf
  · show hll gamma ((2 : Nat) : Int) _ _ = _
    rw [hll_dim2, hP, hP, hs, hs]
    unfold hllWith of5 Gas.hllFlux Gas.lin Gas.flux
    simp only [combine_real, Gas.vel, unit]
    simp only [Fin.zero_eta, Fin.mk_one, Fin.reduceFinMk, if_true, show (0 : Fin 3) ≠ 2 by decide, show (1 : Fin 3) ≠ 2 by decide, if_false]
    refine congrArg Res.ok ?_
    simp only [List.cons.injEq, and_true]
    refine ⟨?_, ?_, ?_, ?_, ?_⟩ <;> ring_nf

end Euler
end QK
