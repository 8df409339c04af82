import Verif.Spec.Rounding
import Verif.Proofs.WallReal
/- Helper lemmas: rounding errors of sums and stages; fluxes through walls in rounded arithmetic. -/
namespace QK
open Spec

/-! ### Error bounds -/

/-- `x` is an approximation of `X` with `k` roundings; `A` bounds the sizes of the terms of `X`, `m` the errors of underflow. -/
def Near (u : ℝ) (k : Nat) (m x X A : ℝ) : Prop := |X| ≤ A ∧ |x - X| ≤ ((1 + u) ^ k - 1) * A + (1 + u) ^ k * m

section
variable {u : ℝ} (hu : 0 ≤ u)
include hu

theorem one_le_pow_u (k : Nat) : 1 ≤ (1 + u) ^ k := one_le_pow₀ (by linarith)

theorem Near.self (x : ℝ) : Near u 0 0 x x |x| := by simp [Near]

theorem Near.mono {k k' : Nat} {m m' x X A A' : ℝ} (h : Near u k m x X A) (hk : k ≤ k') (hm : m ≤ m') (h0 : 0 ≤ m) (hA : A ≤ A') : Near u k' m' x X A' := by
  refine ⟨h.1.trans hA, h.2.trans ?_⟩
  have h1 : (1 + u) ^ k ≤ (1 + u) ^ k' := pow_le_pow_right₀ (by linarith) hk
  have h2 := one_le_pow_u hu k
  have h3 : 0 ≤ A := (abs_nonneg _).trans h.1
  have e1 : ((1 + u) ^ k - 1) * A ≤ ((1 + u) ^ k' - 1) * A' := mul_le_mul (by linarith) hA h3 (by linarith)
  have e2 : (1 + u) ^ k * m ≤ (1 + u) ^ k' * m' := mul_le_mul h1 hm h0 (by linarith)
  linarith

theorem Near.size {k : Nat} {m x X A : ℝ} (h : Near u k m x X A) : |x| ≤ (1 + u) ^ k * (A + m) := by
  have := abs_add_le (x - X) X
  rw [sub_add_cancel] at this
  have := h.1; have := h.2
  nlinarith

theorem Near.add {k : Nat} {m m' x X A y Y B z : ℝ} (h : Near u k m x X A) (h' : Near u k m' y Y B) (hz : |z - (x + y)| ≤ u * |x + y|) :
    Near u (k + 1) (m + m') z (X + Y) (A + B) := by
  refine ⟨(abs_add_le _ _).trans (add_le_add h.1 h'.1), ?_⟩
  have s : |x + y| ≤ (1 + u) ^ k * (A + m) + (1 + u) ^ k * (B + m') := (abs_add_le _ _).trans (add_le_add (h.size hu) (h'.size hu))
  have t : |z - (X + Y)| ≤ |z - (x + y)| + (|x - X| + |y - Y|) := by
    have e : z - (X + Y) = (z - (x + y)) + ((x - X) + (y - Y)) := by ring
    rw [e]
    exact (abs_add_le _ _).trans (add_le_add le_rfl (abs_add_le _ _))
  have h2 := h.2; have h2' := h'.2
  have s' := mul_le_mul_of_nonneg_left s hu
  rw [pow_succ]
  nlinarith

theorem Near.scale {k : Nat} {m x X A c z e : ℝ} (he : 0 ≤ e) (h : Near u k m x X A) (hz : |z - c * x| ≤ u * |c * x| + e) :
    Near u (k + 1) (|c| * m + e) z (c * X) (|c| * A) := by
  refine ⟨by rw [abs_mul]; exact mul_le_mul_of_nonneg_left h.1 (abs_nonneg _), ?_⟩
  have s : |c * x| ≤ |c| * ((1 + u) ^ k * (A + m)) := by rw [abs_mul]; exact mul_le_mul_of_nonneg_left (h.size hu) (abs_nonneg _)
  have t : |z - c * X| ≤ |z - c * x| + |c| * |x - X| := by
    have e : z - c * X = (z - c * x) + c * (x - X) := by ring
    rw [e, ← abs_mul]
    exact abs_add_le _ _
  have h2 := mul_le_mul_of_nonneg_left h.2 (abs_nonneg c)
  have s' := mul_le_mul_of_nonneg_left s hu
  have p1 := one_le_pow_u hu (k + 1)
  have p2 : e ≤ (1 + u) ^ (k + 1) * e := by nlinarith
  rw [pow_succ] at *
  nlinarith

end

theorem abs_list_sum_le {β : Type} {l : List β} {f g : β → ℝ} (h : ∀ x ∈ l, |f x| ≤ g x) : |(l.map f).sum| ≤ (l.map g).sum := by
  induction l with
  | nil => simp
  | cons a l ih =>
    rw [List.map_cons, List.sum_cons, List.map_cons, List.sum_cons]
    exact (abs_add_le _ _).trans (add_le_add (h a (by simp)) (ih fun x hx => h x (by simp [hx])))

theorem list_sum_const {β : Type} (l : List β) (c : ℝ) : (l.map fun _ => c).sum = l.length * c := by
  simp [List.map_const', List.sum_replicate]

/-! ### Arithmetic -/

section
variable {α : Type} [Arith α] {val : α → ℝ} {fin : α → Prop} {rd : ℝ → ℝ} {big u e : ℝ} (H : Floats val fin rd big u e)
include H

namespace Spec.Floats

theorem rd_zero : rd 0 = 0 := by
  have := H.odd 0
  rw [neg_zero] at this
  linarith

theorem val_lit {q : ℚ} (hq : q ∈ [(0 : ℚ), 1, 1 / 4, 1 / 2, 3 / 4, 2, 3]) : fin (Arith.lit q : α) ∧ val (Arith.lit q : α) = (q : ℝ) := by
  have e := H.lits q hq
  have h := H.lit q (by
    rw [e]
    have := H.three
    simp only [List.mem_cons, List.not_mem_nil, or_false] at hq
    rcases hq with rfl | rfl | rfl | rfl | rfl | rfl | rfl <;> norm_num <;> linarith)
  exact ⟨h.1, by rw [h.2, e]⟩

theorem add_near {a b : α} (h : fin (a + b)) : fin a ∧ fin b ∧ |val (a + b) - (val a + val b)| ≤ u * |val a + val b| := by
  obtain ⟨ha, hb, -⟩ := H.add.1 h
  exact ⟨ha, hb, by rw [H.add_val h]; exact H.sum_err ha hb⟩

theorem sub_near {a b : α} (h : fin (a - b)) : fin a ∧ fin b ∧ |val (a - b) - (val a + -val b)| ≤ u * |val a + -val b| := by
  obtain ⟨ha, hb, -⟩ := H.sub.1 h
  have := H.sum_err ha (H.neg.2 hb)
  rw [H.neg_val hb] at this
  refine ⟨ha, hb, ?_⟩
  rw [H.sub_val h, sub_eq_add_neg (val a)]
  exact this

theorem mul_near {a b : α} (h : fin (a * b)) : fin a ∧ fin b ∧ |val (a * b) - val a * val b| ≤ u * |val a * val b| + e := by
  obtain ⟨ha, hb, -⟩ := H.mul.1 h
  exact ⟨ha, hb, by rw [H.mul_val h]; exact H.err _⟩

theorem div_near {a b : α} (hb : fin b) (h : fin (a / b)) : fin a ∧ |val (a / b) - (val b)⁻¹ * val a| ≤ u * |(val b)⁻¹ * val a| + e := by
  obtain ⟨ha, ⟨-, -, h2⟩ | ⟨h1, -⟩⟩ := H.div h
  · exact ⟨ha, by rw [h2, div_eq_inv_mul]; exact H.err _⟩
  · exact absurd hb h1

end Spec.Floats

/-- The sum of flux differences in rounded arithmetic. -/
theorem fvUpdate_near (φ : Nat → List α → List α → List α) (n : Nat) (w : Cell → Nat → α) (dx : Nat → α) (x : Cell) (j : Nat) :
    ∀ (dims : List Nat) (r : α), fin (fvUpdate φ n w dx dims x j r) → fin r ∧
      (∀ d ∈ dims, fin ((faceFlux (φ d) n w d x).getD j (Arith.lit 0) / dx d) ∧ fin ((faceFlux (φ d) n w d (moveBy x d 1)).getD j (Arith.lit 0) / dx d)) ∧
      Near u (2 * dims.length) 0 (val (fvUpdate φ n w dx dims x j r))
        (val r + (dims.map fun d => val ((faceFlux (φ d) n w d x).getD j (Arith.lit 0) / dx d) -
          val ((faceFlux (φ d) n w d (moveBy x d 1)).getD j (Arith.lit 0) / dx d)).sum)
        (|val r| + (dims.map fun d => |val ((faceFlux (φ d) n w d x).getD j (Arith.lit 0) / dx d)| +
          |val ((faceFlux (φ d) n w d (moveBy x d 1)).getD j (Arith.lit 0) / dx d)|).sum) := by
  intro dims
  induction dims with
  | nil =>
    intro r h
    refine ⟨h, by simp, ?_⟩
    simpa [fvUpdate] using Near.self H.unit.1 (val r)
  | cons d dims ih =>
    intro r h
    have e0 : fvUpdate φ n w dx (d :: dims) x j r = fvUpdate φ n w dx dims x j (r + (faceFlux (φ d) n w d x).getD j (Arith.lit 0) / dx d -
        (faceFlux (φ d) n w d (moveBy x d 1)).getD j (Arith.lit 0) / dx d) := rfl
    rw [e0] at h ⊢
    obtain ⟨h1, h2, h3⟩ := ih _ h
    simp only [List.map_cons, List.sum_cons, List.length_cons, List.forall_mem_cons]
    generalize (faceFlux (φ d) n w d x).getD j (Arith.lit 0) / dx d = a at *
    generalize (faceFlux (φ d) n w d (moveBy x d 1)).getD j (Arith.lit 0) / dx d = b at *
    obtain ⟨hra, hb, eb⟩ := H.sub_near h1
    obtain ⟨hr, ha, ea⟩ := H.add_near hra
    refine ⟨hr, ⟨⟨ha, hb⟩, h2⟩, ?_⟩
    have N1 := Near.add H.unit.1 (Near.self H.unit.1 (val r)) (Near.self H.unit.1 (val a)) ea
    have N2 := Near.add H.unit.1 N1 ((Near.self H.unit.1 (-val b)).mono H.unit.1 (Nat.zero_le 1) le_rfl le_rfl le_rfl) eb
    rw [abs_neg] at N2
    have hA : 0 ≤ (dims.map fun d => |val ((faceFlux (φ d) n w d x).getD j (Arith.lit 0) / dx d)| +
          |val ((faceFlux (φ d) n w d (moveBy x d 1)).getD j (Arith.lit 0) / dx d)|).sum :=
      List.sum_nonneg (by intro y hy; rw [List.mem_map] at hy; obtain ⟨d, -, rfl⟩ := hy; positivity)
    have hS : |(dims.map fun d => val ((faceFlux (φ d) n w d x).getD j (Arith.lit 0) / dx d) -
          val ((faceFlux (φ d) n w d (moveBy x d 1)).getD j (Arith.lit 0) / dx d)).sum| ≤ (dims.map fun d => |val ((faceFlux (φ d) n w d x).getD j (Arith.lit 0) / dx d)| +
          |val ((faceFlux (φ d) n w d (moveBy x d 1)).getD j (Arith.lit 0) / dx d)|).sum := by
      exact abs_list_sum_le fun d _ => abs_sub _ _
    generalize (dims.map fun d => val ((faceFlux (φ d) n w d x).getD j (Arith.lit 0) / dx d) -
          val ((faceFlux (φ d) n w d (moveBy x d 1)).getD j (Arith.lit 0) / dx d)).sum = S at *
    generalize (dims.map fun d => |val ((faceFlux (φ d) n w d x).getD j (Arith.lit 0) / dx d)| +
          |val ((faceFlux (φ d) n w d (moveBy x d 1)).getD j (Arith.lit 0) / dx d)|).sum = A at *
    generalize val (fvUpdate φ n w dx dims x j (r + a - b)) = v at *
    generalize val (r + a - b) = s at *
    refine ⟨?_, ?_⟩
    · have := abs_add_le (val r) (val a - val b + S)
      have := abs_add_le (val a - val b) S
      have := abs_sub (val a) (val b)
      rw [← add_assoc] at *
      linarith
    · have g1 := one_le_pow_u H.unit.1 (2 * dims.length)
      have sz := N2.size H.unit.1
      have N22 := N2.2
      have h32 := h3.2
      have tri : |v - (val r + (val a - val b + S))| ≤ |v - (s + S)| + |s - (val r + val a + -val b)| := by
        have e : v - (val r + (val a - val b + S)) = (v - (s + S)) + (s - (val r + val a + -val b)) := by ring
        rw [e]; exact abs_add_le _ _
      have c1 := one_le_pow_u H.unit.1 2
      have hB : 0 ≤ |val r| + |val a| + |val b| := by positivity
      rw [show 2 * (dims.length + 1) = 2 * dims.length + 2 by ring, pow_add]
      simp only [add_zero, mul_zero, Nat.reduceAdd] at *
      generalize (1 + u) ^ (2 * dims.length) = g at *
      generalize (1 + u) ^ 2 = c at *
      rw [show |val r| + (|val a| + |val b| + A) = (|val r| + |val a| + |val b|) + A by ring]
      generalize |val r| + |val a| + |val b| = B at *
      have p1 : (g - 1) * (|s| + A) ≤ (g - 1) * (c * B + A) := mul_le_mul_of_nonneg_left (by linarith) (by linarith)
      have p2 : 0 ≤ g * (c - 1) * A := by
        have := sub_nonneg.2 c1
        positivity
      nlinarith

/-- Weights of the value at the start of the step and of the flux differences in stage `k`. -/
noncomputable def startWeight (k : Nat) : ℝ := match k with | 0 => 1 | 1 => 3 / 4 | _ => 1 / 3
noncomputable def rateWeight (val : α → ℝ) (t : α) (k : Nat) : ℝ := match k with | 0 => val t | 1 => val (Arith.lit (1 / 4) * t) | _ => 2 / 3 * val t

omit H in
theorem startWeight_simp : startWeight 0 = 1 ∧ startWeight 1 = 3 / 4 ∧ startWeight 2 = 1 / 3 := ⟨rfl, rfl, rfl⟩

/-- One value in one stage. -/
theorem stage_near {D k : Nat} {t u0 c r : α} {S w Q W : ℝ} (hf : fin (rkStage k t u0 c r))
    (hr : fin r → Near u (2 * D) 0 (val r) S w) (h0 : |val u0| ≤ Q) (hc : |val c| ≤ Q) (hW : |val t| * w ≤ W) (ht : 4 * e ≤ |val t|) :
    fin u0 ∧ fin r ∧ (1 ≤ k → fin c) ∧
      |val (rkStage k t u0 c r) - (startWeight k * val u0 + (1 - startWeight k) * val c + rateWeight val t k * S)| ≤ roundOff u e D Q W := by
  have hu := H.unit.1
  have he := H.tiny
  have hQ : 0 ≤ Q := (abs_nonneg _).trans h0
  have fin3 : ∀ {m x X A : ℝ} {k' : Nat}, Near u k' m x X A → k' ≤ 2 * D + 5 → 0 ≤ m → m ≤ 3 * e → A ≤ Q + W → |x - X| ≤ roundOff u e D Q W := by
    intro m x X A k' h hk h0 hm hA
    have := (h.mono hu hk hm h0 hA).2
    unfold roundOff
    linarith
  rcases (by omega : k = 0 ∨ k = 1 ∨ 2 ≤ k) with rfl | rfl | hk
  · obtain ⟨f0, f1, e1⟩ := H.add_near hf
    obtain ⟨-, fr, e2⟩ := H.mul_near f1
    have N := (hr fr).scale hu he e2
    have N' := ((Near.self hu (val u0)).mono hu (Nat.zero_le (2 * D + 1)) le_rfl le_rfl le_rfl).add hu N e1
    refine ⟨f0, fr, by omega, ?_⟩
    have := fin3 N' (by omega) (by simpa using he) (by simp; linarith) (by linarith)
    simp only [startWeight, rateWeight, rkStage] at *
    convert this using 2; ring
  · obtain ⟨f1, f2, e1⟩ := H.add_near hf
    obtain ⟨f3, f4, e2⟩ := H.add_near f1
    obtain ⟨fl, f0, e3⟩ := H.mul_near f3
    obtain ⟨-, fc, e4⟩ := H.mul_near f4
    obtain ⟨fz, fr, e5⟩ := H.mul_near f2
    obtain ⟨-, ft, e6⟩ := H.mul_near fz
    have l1 := (H.val_lit (q := 3 / 4) (by simp)).2
    have l2 := (H.val_lit (q := 1 / 4) (by simp)).2
    rw [l1] at e3
    rw [l2] at e4 e6
    push_cast at e3 e4 e6
    have N1 := (Near.self hu (val u0)).scale hu he e3
    have N2 := (Near.self hu (val c)).scale hu he e4
    have N3 := ((hr fr).scale hu he e5)
    have N4 := (N1.add hu N2 e2)
    have z : |val (Arith.lit (1 / 4) * t)| ≤ |val t| := by
      have t1 := abs_add_le (val (Arith.lit (1 / 4) * t) - 1 / 4 * val t) (1 / 4 * val t)
      rw [sub_add_cancel] at t1
      rw [abs_mul, abs_of_pos (by norm_num : (0 : ℝ) < 1 / 4)] at e6 t1
      have := H.unit.2
      nlinarith [abs_nonneg (val t)]
    have hw : 0 ≤ w := (abs_nonneg _).trans (hr fr).1
    have z' : |val (Arith.lit (1 / 4) * t)| * w ≤ W := (mul_le_mul_of_nonneg_right z hw).trans hW
    have N5 := (N4.mono hu (show 0 + 1 + 1 ≤ 2 * D + 2 by omega) le_rfl (by simp; linarith) le_rfl).add hu
      (N3.mono hu (show 2 * D + 1 ≤ 2 * D + 2 by omega) le_rfl (by simpa using he) le_rfl) e1
    refine ⟨f0, fr, fun _ => fc, ?_⟩
    have a1 : |(3 / 4 : ℝ)| = 3 / 4 := abs_of_pos (by norm_num)
    have a2 : |(1 / 4 : ℝ)| = 1 / 4 := abs_of_pos (by norm_num)
    have := fin3 N5 (by omega) (by simp; linarith) (by simp; linarith) (by rw [a1, a2]; linarith)
    simp only [startWeight, rateWeight, rkStage] at *
    convert this using 2; ring
  · obtain ⟨k, rfl⟩ : ∃ k', k = k' + 2 := ⟨k - 2, by omega⟩
    have l2 := (H.val_lit (q := 2) (by simp)).2
    have l3 := H.val_lit (q := 3) (by simp)
    obtain ⟨f1, e1⟩ := H.div_near l3.1 hf
    obtain ⟨f0, f2, e2⟩ := H.add_near f1
    obtain ⟨-, f3, e3⟩ := H.mul_near f2
    obtain ⟨fc, f4, e4⟩ := H.add_near f3
    obtain ⟨-, fr, e5⟩ := H.mul_near f4
    rw [l2] at e3
    rw [l3.2] at e1
    push_cast at e1 e3
    have N1 := (hr fr).scale hu he e5
    have N2 := ((Near.self hu (val c)).mono hu (Nat.zero_le (2 * D + 1)) le_rfl le_rfl le_rfl).add hu N1 e4
    have N3 := N2.scale hu he e3
    have N4 := ((Near.self hu (val u0)).mono hu (Nat.zero_le (2 * D + 1 + 1 + 1)) le_rfl le_rfl le_rfl).add hu N3 e2
    have N5 := N4.scale hu he e1
    refine ⟨f0, fr, fun _ => fc, ?_⟩
    have a1 : |(3 : ℝ)⁻¹| = 1 / 3 := by rw [abs_of_pos] <;> norm_num
    have a2 : |(2 : ℝ)| = 2 := abs_of_pos (by norm_num)
    have hw : 0 ≤ |val t| * w := mul_nonneg (abs_nonneg _) ((abs_nonneg _).trans (hr fr).1)
    have := fin3 N5 (by omega) (by rw [a1, a2]; simp; linarith) (by rw [a1, a2]; simp; linarith) (by rw [a1, a2]; linarith)
    simp only [startWeight, rateWeight, rkStage] at *
    convert this using 2; ring


/-- The flux of component `j` through the lower face of `x` in direction `d`, over the cell width, as computed. -/
def faceRate (φ : Nat → List α → List α → List α) (n : Nat) (dx : Nat → α) (w : Cell → α) (j d : Nat) (x : Cell) : α :=
  (faceFlux (φ d) n (fun x j => w (x ++ [(j : Int)])) d x).getD j (Arith.lit 0) / dx d

/-- What is used of one stage, for component `j`. -/
structure CompStage (M : Box) (p : Nat) (φ : Nat → List α → List α → List α) (n : Nat) (dx : Nat → α) (dims : List Nat) (t : α) (k j : Nat)
    (start cur cur' next : Cell → α) : Prop where
  inside : ∀ x, InBox (M ++ [(0, (p : Int))]) x → cur' (x ++ [(j : Int)]) = cur (x ++ [(j : Int)])
  next : ∀ x, InBox (M ++ [(0, (p : Int))]) x → next (x ++ [(j : Int)]) = rkStage k t (start (x ++ [(j : Int)])) (cur' (x ++ [(j : Int)]))
    (fvUpdate φ n (fun x j => cur' (x ++ [(j : Int)])) dx dims x j (Arith.lit 0))

/-- No net flow through the faces at the ends of direction `d`, if the fluxes are finite. -/
def NoFlow (val : α → ℝ) (fin : α → Prop) (M : Box) (p : Nat) (φ : Nat → List α → List α → List α) (n : Nat) (dx : Nat → α) (w : Cell → α) (j d : Nat) : Prop :=
  (∀ x, InBox (M ++ [(0, (p : Int))]) x → fin (faceRate φ n dx w j d x) ∧ fin (faceRate φ n dx w j d (moveBy x d 1))) →
    Closed (M ++ [(0, (p : Int))]) d fun x => val (faceRate φ n dx w j d x)

theorem stage_total {M : Box} (hM : Pos M) {p : Nat} (hp : 1 ≤ p) {φ : Nat → List α → List α → List α} {n : Nat} {dx : Nat → α} {dims : List Nat}
    (hd : ∀ d ∈ dims, d < M.length) {t : α} {k j : Nat} {start cur cur' next : Cell → α} (S : CompStage M p φ n dx dims t k j start cur cur' next)
    (hc : ∀ d ∈ dims, NoFlow val fin M p φ n dx cur' j d) (hfin : Finite fin M p next j) {Q W : ℝ}
    (h0 : ∀ x, InBox (M ++ [(0, (p : Int))]) x → |val (start (x ++ [(j : Int)]))| ≤ Q) (h1 : Sized val φ n dx dims M p t Q W cur' j) (ht : 4 * e ≤ |val t|) :
    Finite fin M p start j ∧ (1 ≤ k → Finite fin M p cur j) ∧
      |fieldTotal M p (fun x => val (next x)) j -
        (startWeight k * fieldTotal M p (fun x => val (start x)) j + (1 - startWeight k) * fieldTotal M p (fun x => val (cur x)) j)| ≤
      boxVolume (M ++ [(0, (p : Int))]) * roundOff u e dims.length Q W := by
  have hB : Pos (M ++ [((0 : Int), (p : Int))]) := by
    rw [pos_append]; exact ⟨hM, by intro d hd; simp at hd; subst hd; simp; omega⟩
  have hzero : val (Arith.lit 0 : α) = 0 := by simpa using (H.val_lit (q := 0) (by simp)).2
  have near : ∀ x, InBox (M ++ [(0, (p : Int))]) x → fin (fvUpdate φ n (fun x j => cur' (x ++ [(j : Int)])) dx dims x j (Arith.lit 0)) →
      (∀ d ∈ dims, fin (faceRate φ n dx cur' j d x) ∧ fin (faceRate φ n dx cur' j d (moveBy x d 1))) ∧
      Near u (2 * dims.length) 0 (val (fvUpdate φ n (fun x j => cur' (x ++ [(j : Int)])) dx dims x j (Arith.lit 0)))
        (dims.map fun d => val (faceRate φ n dx cur' j d x) - val (faceRate φ n dx cur' j d (moveBy x d 1))).sum
        (exchange val φ n dx dims cur' x j) := by
    intro x hx hf
    obtain ⟨-, h2, h3⟩ := fvUpdate_near H φ n (fun x j => cur' (x ++ [(j : Int)])) dx x j dims (Arith.lit 0) hf
    rw [hzero, abs_zero, zero_add, zero_add] at h3
    exact ⟨h2, h3⟩
  have cell : ∀ x, InBox (M ++ [(0, (p : Int))]) x → _ := fun x hx =>
    stage_near (D := dims.length) H (by have := hfin x hx; rw [S.next x hx] at this; exact this) (fun hr => (near x hx hr).2) (h0 x hx) (h1 x hx).1 (h1 x hx).2 ht
  refine ⟨fun x hx => (cell x hx).1, fun hk x hx => by have := (cell x hx).2.2.1 hk; rw [S.inside x hx] at this; exact this, ?_⟩
  have closed : ∀ d ∈ dims, Closed (M ++ [(0, (p : Int))]) d fun x => val (faceRate φ n dx cur' j d x) := fun d hdm =>
    hc d hdm fun x hx => (near x hx (cell x hx).2.1).1 d hdm
  have zero : ((cells (M ++ [(0, (p : Int))])).map fun x => (dims.map fun d => val (faceRate φ n dx cur' j d x) - val (faceRate φ n dx cur' j d (moveBy x d 1))).sum).sum = 0 := by
    rw [list_sum_comm]
    have : ∀ d ∈ dims, ((cells (M ++ [(0, (p : Int))])).map fun x => val (faceRate φ n dx cur' j d x) - val (faceRate φ n dx cur' j d (moveBy x d 1))).sum = 0 := by
      intro d hdm
      exact sum_shift (by have := hd d hdm; simp; omega) hB (fun x => val (faceRate φ n dx cur' j d x)) (closed d hdm)
    rw [List.map_congr_left this]
    simp
  have e1 : fieldTotal M p (fun x => val (next x)) j -
        (startWeight k * fieldTotal M p (fun x => val (start x)) j + (1 - startWeight k) * fieldTotal M p (fun x => val (cur x)) j) =
      ((cells (M ++ [(0, (p : Int))])).map fun x => val (next (x ++ [(j : Int)])) - (startWeight k * val (start (x ++ [(j : Int)])) +
        (1 - startWeight k) * val (cur' (x ++ [(j : Int)])) +
        rateWeight val t k * (dims.map fun d => val (faceRate φ n dx cur' j d x) - val (faceRate φ n dx cur' j d (moveBy x d 1))).sum)).sum := by
    have e2 : ((cells (M ++ [(0, (p : Int))])).map fun x => val (cur (x ++ [(j : Int)]))) = (cells (M ++ [(0, (p : Int))])).map fun x => val (cur' (x ++ [(j : Int)])) :=
      List.map_congr_left fun x hx => by rw [S.inside x (mem_cells.1 hx)]
    unfold fieldTotal total
    rw [e2, list_sum_sub, list_sum_add, list_sum_add, list_sum_mul, list_sum_mul, list_sum_mul, zero, mul_zero, add_zero]
  rw [e1]
  have e2 := abs_list_sum_le (l := cells (M ++ [(0, (p : Int))])) (g := fun _ => roundOff u e dims.length Q W) (fun x hx => (S.next x (mem_cells.1 hx)) ▸ (cell x (mem_cells.1 hx)).2.2.2)
  rw [list_sum_const] at e2
  rwa [show ((cells (M ++ [((0 : Int), (p : Int))])).length : ℝ) = boxVolume (M ++ [(0, (p : Int))]) by rw [← cells_length hB]; norm_cast] at e2


/-- One time step: three stages. -/
theorem step_total {M : Box} (hM : Pos M) {p : Nat} (hp : 1 ≤ p) {φ : Nat → List α → List α → List α} {n : Nat} {dx : Nat → α} {dims : List Nat}
    (hd : ∀ d ∈ dims, d < M.length) {t : α} {j : Nat} {q q0 q1 q1' q2 q2' q' : Cell → α} (S0 : CompStage M p φ n dx dims t 0 j q0 q q0 q1)
    (S1 : CompStage M p φ n dx dims t 1 j q0 q1 q1' q2) (S2 : CompStage M p φ n dx dims t 2 j q0 q2 q2' q')
    (c0 : Finite fin M p q1 j → ∀ d ∈ dims, NoFlow val fin M p φ n dx q0 j d) (c1 : Finite fin M p q2 j → ∀ d ∈ dims, NoFlow val fin M p φ n dx q1' j d)
    (c2 : ∀ d ∈ dims, NoFlow val fin M p φ n dx q2' j d) (hfin : Finite fin M p q' j) {Q W : ℝ} (z0 : Sized val φ n dx dims M p t Q W q0 j)
    (z1 : Sized val φ n dx dims M p t Q W q1' j) (z2 : Sized val φ n dx dims M p t Q W q2' j) (ht : 4 * e ≤ |val t|) :
    Finite fin M p q j ∧ |fieldTotal M p (fun x => val (q' x)) j - fieldTotal M p (fun x => val (q x)) j| ≤
      2 * boxVolume (M ++ [(0, (p : Int))]) * roundOff u e dims.length Q W := by
  have s0 := fun x hx => (z0 x hx).1
  obtain ⟨f0, f2, e2⟩ := stage_total H hM hp hd S2 c2 hfin s0 z2 ht
  obtain ⟨-, f1, e1⟩ := stage_total H hM hp hd S1 (c1 (f2 (by omega))) (f2 (by omega)) s0 z1 ht
  obtain ⟨-, -, e0⟩ := stage_total H hM hp hd S0 (c0 (f1 (by omega))) (f1 (by omega)) s0 z0 ht
  have es : fieldTotal M p (fun x => val (q0 x)) j = fieldTotal M p (fun x => val (q x)) j := fieldTotal_congr fun x hx => by rw [S0.inside x hx]
  refine ⟨fun x hx => by rw [← S0.inside x hx]; exact f0 x hx, ?_⟩
  rw [es] at e0 e1 e2
  rw [startWeight_simp.1] at e0
  rw [startWeight_simp.2.1] at e1
  rw [startWeight_simp.2.2] at e2
  rw [mul_assoc]
  generalize boxVolume (M ++ [(0, (p : Int))]) * roundOff u e dims.length Q W = E at *
  have e0' := abs_le.1 e0
  have e1' := abs_le.1 e1
  have e2' := abs_le.1 e2
  have hE : 0 ≤ E := (abs_nonneg _).trans e0
  rw [abs_le]
  constructor <;> linarith [e0'.1, e0'.2, e1'.1, e1'.2, e2'.1, e2'.2]

end
end QK
