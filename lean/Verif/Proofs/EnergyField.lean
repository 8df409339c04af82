import Verif.Proofs.Energy
import Verif.Spec.Energy
import Mathlib.Tactic.IntervalCases
/-
Helper lemmas: the energy of the electromagnetic field, all components and all cells (exact arithmetic).
-/
namespace QK.Energy
open QK Spec

/-! ### All components -/

/-- The flux of all components in direction `d`, the values along the line being `L`. -/
noncomputable def lineFlux (C : ℝ) (d : Nat) (L : Int → Nat → ℝ) (k : Int) (j : Nat) : ℝ :=
  match d, j with
  | 0, 1 => fluxE 1 C (fun k => L k 1) (fun k => L k 5) k
  | 0, 5 => fluxB 1 C (fun k => L k 1) (fun k => L k 5) k
  | 0, 2 => fluxE (-1) C (fun k => L k 2) (fun k => L k 4) k
  | 0, 4 => fluxB (-1) C (fun k => L k 2) (fun k => L k 4) k
  | 1, 2 => fluxE 1 C (fun k => L k 2) (fun k => L k 3) k
  | 1, 3 => fluxB 1 C (fun k => L k 2) (fun k => L k 3) k
  | 1, 0 => fluxE (-1) C (fun k => L k 0) (fun k => L k 5) k
  | 1, 5 => fluxB (-1) C (fun k => L k 0) (fun k => L k 5) k
  | 2, 0 => fluxE 1 C (fun k => L k 0) (fun k => L k 4) k
  | 2, 4 => fluxB 1 C (fun k => L k 0) (fun k => L k 4) k
  | 2, 1 => fluxE (-1) C (fun k => L k 1) (fun k => L k 3) k
  | 2, 3 => fluxB (-1) C (fun k => L k 1) (fun k => L k 3) k
  | _, _ => 0

/-- The flux of energy in direction `d`. -/
noncomputable def lineFlow (C : ℝ) (d : Nat) (L : Int → Nat → ℝ) (k : Int) : ℝ :=
  match d with
  | 0 => pairFlow 1 C (fun k => L k 1) (fun k => L k 5) k + pairFlow (-1) C (fun k => L k 2) (fun k => L k 4) k
  | 1 => pairFlow 1 C (fun k => L k 2) (fun k => L k 3) k + pairFlow (-1) C (fun k => L k 0) (fun k => L k 5) k
  | _ => pairFlow 1 C (fun k => L k 0) (fun k => L k 4) k + pairFlow (-1) C (fun k => L k 1) (fun k => L k 3) k

theorem faceFlux_line (c : ℝ) {d : Nat} (hd : d < 3) (w : Cell → Nat → ℝ) (x : Cell) (k : Int) {j : Nat} (hj : j < 6) :
    (faceFlux (fluxOf (Maxwell.rusanov c d)) 6 w d (moveBy x d k)).getD j 0 = lineFlux |c| d (fun k j => w (moveBy x d k) j) k j := by
  have hr : ∀ f : Nat → ℝ, (List.range 6).map f = [f 0, f 1, f 2, f 3, f 4, f 5] := fun f => rfl
  have hc : c * c = |c| ^ 2 := by rw [sq_abs]; ring
  unfold faceFlux
  simp only [recon_lim, moveBy_moveBy, hr]
  rw [show k + -2 = k - 2 by ring, show k + -1 = k - 1 by ring]
  unfold fluxOf Maxwell.rusanov
  rw [hc]
  have hf : Arith.fabs c = |c| := rfl
  rw [hf]
  generalize |c| = C
  interval_cases d <;> interval_cases j <;> simp only [lineFlux, fluxE, fluxB, lft, rgt, real_lit, List.getD_cons_zero, List.getD_cons_succ] <;> push_cast <;> ring

theorem pairFlow_shift (σ C : ℝ) (E B : Int → ℝ) (m : Int) : pairFlow σ C (fun k => E (m + k)) (fun k => B (m + k)) 0 = pairFlow σ C E B m := by
  unfold pairFlow fluxE fluxB
  simp only [show m + (0 - 1) = m - 1 by ring, show m + (0 - 2) = m - 2 by ring, show m + (0 + 1) = m + 1 by ring, show m + 0 = m by ring]

theorem lineFlow_shift (C : ℝ) (d : Nat) (L : Int → Nat → ℝ) (m : Int) : lineFlow C d (fun k => L (m + k)) 0 = lineFlow C d L m := by
  have h := fun σ i j => pairFlow_shift σ C (fun k => L k i) (fun k => L k j) m
  unfold lineFlow
  split <;> simp only [h]

/-- The flux of energy through the face below `x` in direction `d`. -/
noncomputable def flow (c : ℝ) (d : Nat) (w : Cell → Nat → ℝ) (x : Cell) : ℝ := lineFlow |c| d (fun k j => w (moveBy x d k) j) 0

theorem flow_moved (c : ℝ) (d : Nat) (w : Cell → Nat → ℝ) (x : Cell) (m : Int) : flow c d w (moveBy x d m) = lineFlow |c| d (fun k j => w (moveBy x d k) j) m := by
  unfold flow
  simp only [moveBy_moveBy]
  exact lineFlow_shift |c| d (fun k j => w (moveBy x d k) j) m

theorem sum6 (f : Nat → ℝ) : ((List.range 6).map f).sum = f 0 + f 1 + f 2 + f 3 + f 4 + f 5 := by
  simp [List.range_succ]; ring

/-- One cell: what flows in and out, and a loss. -/
theorem cell_power (c : ℝ) {d : Nat} (hd : d < 3) (w : Cell → Nat → ℝ) (x : Cell)
    (hz : ∀ j < 6, w x j - w (moveBy x d (-1)) j + 1 / 10 ^ 12 ≠ 0 ∧ w (moveBy x d 1) j - w x j + 1 / 10 ^ 12 ≠ 0) :
    ((List.range 6).map fun j => emWeight c j * (w x j * ((faceFlux (fluxOf (Maxwell.rusanov c d)) 6 w d x).getD j 0 -
      (faceFlux (fluxOf (Maxwell.rusanov c d)) 6 w d (moveBy x d 1)).getD j 0))).sum ≤
    |c| / 4 * (9 / 4 * (1 / 10 ^ 12) * (1 + |c|) * ((List.range 6).map fun j => (if j < 3 then 1 else |c|) *
      (|w x j - w (moveBy x d (-1)) j| + |w (moveBy x d 1) j - w x j|)).sum) + (flow c d w x - flow c d w (moveBy x d 1)) := by
  have h0 := fun j (hj : j < 6) => faceFlux_line c hd w x 0 hj
  have h1 := fun j (hj : j < 6) => faceFlux_line c hd w x 1 hj
  rw [moveBy_zero] at h0
  have f0 := flow_moved c d w x 0
  have f1 := flow_moved c d w x 1
  rw [moveBy_zero] at f0
  rw [f0, f1]
  have hC : 0 ≤ |c| := abs_nonneg c
  have hc : c ^ 2 = |c| ^ 2 := (sq_abs c).symm
  -- one pair
  have pair : ∀ (σ : ℝ), (σ = 1 ∨ σ = -1) → ∀ i < 6, ∀ j < 6,
      w x i * (fluxE σ |c| (fun k => w (moveBy x d k) i) (fun k => w (moveBy x d k) j) 0 - fluxE σ |c| (fun k => w (moveBy x d k) i) (fun k => w (moveBy x d k) j) 1) +
        |c| ^ 2 * (w x j * (fluxB σ |c| (fun k => w (moveBy x d k) i) (fun k => w (moveBy x d k) j) 0 - fluxB σ |c| (fun k => w (moveBy x d k) i) (fun k => w (moveBy x d k) j) 1)) ≤
      |c| / 4 * (9 / 4 * (1 / 10 ^ 12) * (1 + |c|) * (|w x i - w (moveBy x d (-1)) i| + |w (moveBy x d 1) i - w x i| + |c| * (|w x j - w (moveBy x d (-1)) j| + |w (moveBy x d 1) j - w x j|))) +
        (pairFlow σ |c| (fun k => w (moveBy x d k) i) (fun k => w (moveBy x d k) j) 0 - pairFlow σ |c| (fun k => w (moveBy x d k) i) (fun k => w (moveBy x d k) j) 1) := by
    intro σ hσ i hi' j hj
    have e := pair_power σ |c| (fun k => w (moveBy x d k) i) (fun k => w (moveBy x d k) j) 0
    have l := loss_le hσ hC (hz i hi').1 (hz i hi').2 (hz j hj).1 (hz j hj).2
    simp only [zero_add, zero_sub, moveBy_zero] at e
    rw [e]
    have := mul_le_mul_of_nonneg_left l (by positivity : 0 ≤ |c| / 4)
    linarith
  have nn : ∀ j, 0 ≤ |w x j - w (moveBy x d (-1)) j| + |w (moveBy x d 1) j - w x j| := fun j => by positivity
  have η0 : 0 ≤ |c| / 4 * (9 / 4 * (1 / 10 ^ 12) * (1 + |c|)) := by positivity
  rw [sum6, sum6]
  simp only [h0 0 (by decide), h0 1 (by decide), h0 2 (by decide), h0 3 (by decide), h0 4 (by decide), h0 5 (by decide),
    h1 0 (by decide), h1 1 (by decide), h1 2 (by decide), h1 3 (by decide), h1 4 (by decide), h1 5 (by decide)]
  simp only [emWeight, hc]
  norm_num only [if_true, if_false]
  have rest : ∀ i j, 0 ≤ |c| / 4 * (9 / 4 * (1 / 10 ^ 12) * (1 + |c|) * (|w x i - w (moveBy x d (-1)) i| + |w (moveBy x d 1) i - w x i| +
      |c| * (|w x j - w (moveBy x d (-1)) j| + |w (moveBy x d 1) j - w x j|))) := fun i j => by positivity
  norm_num only at pair rest
  clear h0 h1 f0 f1 nn η0 hz
  interval_cases d
  · have p1 := pair 1 (.inl rfl) 1 (by decide) 5 (by decide)
    have p2 := pair (-1) (.inr rfl) 2 (by decide) 4 (by decide)
    have p3 := rest 0 3
    clear pair rest
    simp only [lineFlux, lineFlow]
    linarith
  · have p1 := pair 1 (.inl rfl) 2 (by decide) 3 (by decide)
    have p2 := pair (-1) (.inr rfl) 0 (by decide) 5 (by decide)
    have p3 := rest 1 4
    clear pair rest
    simp only [lineFlux, lineFlow]
    linarith
  · have p1 := pair 1 (.inl rfl) 0 (by decide) 4 (by decide)
    have p2 := pair (-1) (.inr rfl) 1 (by decide) 3 (by decide)
    have p3 := rest 2 5
    clear pair rest
    simp only [lineFlux, lineFlow]
    linarith

/-! ### The boundary of the mesh -/

theorem flow_congr {c : ℝ} {d : Nat} {w : Cell → Nat → ℝ} {x y : Cell}
    (h : ∀ t : Int, -2 ≤ t → t ≤ 1 → ∀ j < 6, w (moveBy x d t) j = w (moveBy y d t) j) : flow c d w x = flow c d w y := by
  have e2 := h (-2) (by decide) (by decide)
  have e1 := h (-1) (by decide) (by decide)
  have e0 := h 0 (by decide) (by decide)
  have f1 := h 1 (by decide) (by decide)
  unfold flow lineFlow
  split <;> simp only [pairFlow, fluxE, fluxB, zero_sub, zero_add, e2 0 (by decide), e2 1 (by decide), e2 2 (by decide), e2 3 (by decide), e2 4 (by decide), e2 5 (by decide),
    e1 0 (by decide), e1 1 (by decide), e1 2 (by decide), e1 3 (by decide), e1 4 (by decide), e1 5 (by decide),
    e0 0 (by decide), e0 1 (by decide), e0 2 (by decide), e0 3 (by decide), e0 4 (by decide), e0 5 (by decide),
    f1 0 (by decide), f1 1 (by decide), f1 2 (by decide), f1 3 (by decide), f1 4 (by decide), f1 5 (by decide)]

theorem lim_zero (a : ℝ) : lim a 0 = 0 := by simp [lim]

/-- No energy passes where the electric component is odd and the magnetic one even. -/
theorem pairFlow_mirror (σ C : ℝ) {E B : Int → ℝ} (h1 : E (-2) = -E 1) (h2 : E (-1) = -E 0) (h3 : B (-2) = B 1) (h4 : B (-1) = B 0) : pairFlow σ C E B 0 = 0 := by
  unfold pairFlow fluxE fluxB lft rgt
  simp only [zero_sub, zero_add, h1, h2, h3, h4, sub_self, lim_zero]
  rw [show -E 0 - -E 1 = E 1 - E 0 by ring]
  ring

theorem flow_mirror (c : ℝ) {w : Cell → Nat → ℝ} {z : Cell} {σ : Nat → ℝ} (h : Mirrored 6 σ w 0 z) (s1 : σ 1 = -1) (s2 : σ 2 = -1) (s4 : σ 4 = 1) (s5 : σ 5 = 1) :
    flow c 0 w z = 0 := by
  have p1 := pairFlow_mirror 1 |c| (E := fun k => w (moveBy z 0 k) 1) (B := fun k => w (moveBy z 0 k) 5) (by rw [(h 1 (by decide)).1, s1]; ring)
    (by rw [(h 1 (by decide)).2, s1, moveBy_zero]; ring) (by rw [(h 5 (by decide)).1, s5]; ring)
    (by rw [(h 5 (by decide)).2, s5, moveBy_zero]; ring)
  have p2 := pairFlow_mirror (-1) |c| (E := fun k => w (moveBy z 0 k) 2) (B := fun k => w (moveBy z 0 k) 4) (by rw [(h 2 (by decide)).1, s2]; ring)
    (by rw [(h 2 (by decide)).2, s2, moveBy_zero]; ring) (by rw [(h 4 (by decide)).1, s4]; ring)
    (by rw [(h 4 (by decide)).2, s4, moveBy_zero]; ring)
  show pairFlow 1 |c| (fun k => w (moveBy z 0 k) 1) (fun k => w (moveBy z 0 k) 5) 0 + pairFlow (-1) |c| (fun k => w (moveBy z 0 k) 2) (fun k => w (moveBy z 0 k) 4) 0 = 0
  rw [p1, p2, add_zero]

section
variable {M : Box} {p : Nat} {ws ps : List Nat} {u u' : Cell → ℝ}

/-- No net energy enters the mesh. -/
theorem flow_closed (h0 : ∀ i ∈ ws, i = 0) (hwide : ∀ d < M.length, 2 ≤ hi M d - lo M d) (hall : ∀ d < M.length, d ∈ ws ∨ d ∈ ps)
    (F : Filled M [(0, (p : Int)), (0, 6)] ws isWallField ps u u') (c : ℝ) {d : Nat} (hd : d < M.length) :
    Closed (M ++ [(0, (p : Int))]) d fun x => flow c d (fun x j => u' (x ++ [(j : Int)])) x := by
  rcases hall d hd with h | h
  · obtain rfl := h0 d h
    have mir := fun x (hx : InBox (M ++ [(0, (p : Int))]) x) => filled_mirrored F h hd (hwide 0 hd) (fun k => if k = 0 ∨ k = 1 ∨ k = 2 ∨ k = 3 then (-1 : ℝ) else 1)
      (fun k hk => if_pos hk) (fun k hk => if_neg hk) (N := 6) rfl hx
    refine closed_wall hd (hwide 0 hd) _ (fun x hx hx0 => ?_) fun x hx hx0 => ?_
    · exact flow_mirror c ((mir x hx).1 hx0) (by norm_num) (by norm_num) (by norm_num) (by norm_num)
    · exact flow_mirror c ((mir x hx).2 hx0) (by norm_num) (by norm_num) (by norm_num) (by norm_num)
  · intro x hx hx0
    have hdl : d < (M ++ [((0 : Int), (p : Int))]).length := by simp; omega
    have hw := hwide d hd
    rw [lo_append hd] at hx0 ⊢
    rw [hi_append hd]
    refine flow_congr (periodic_values (u := fun x j => u' (x ++ [(j : Int)])) (g := 2) (n := 6) (le_refl _) hd (by omega) ?_ hx hx0)
    intro y hy k hk
    have hgh := periodicImage_snoc (n := ((6 : Nat) : Int)) (j := (k : Int)) hdl (by omega) (by omega) hy
    have split : M ++ [((0 : Int), (p : Int)), (0, 6)] = (M ++ [((0 : Int), (p : Int))]) ++ [(0, ((6 : Nat) : Int))] := by simp
    have e := F.wrap d h (y ++ [(k : Int)]) (by rw [split]; exact hgh.1)
    rw [split, hgh.2] at e
    rw [e, F.inside]
    rw [split, ← hgh.2]
    exact periodicImage_interior (by simp; omega) (by rw [lo_append hdl, hi_append hdl, lo_append hd, hi_append hd]; exact hw) hgh.1

theorem fluid_shut (h3 : M.length ≤ 3) (hwide : ∀ d < M.length, 2 ≤ hi M d - lo M d) (hall : ∀ d < M.length, d ∈ ws ∨ d ∈ ps)
    (F : Filled M [(0, (p : Int)), (0, 5)] ws isMomentum ps u u') (gamma : ℝ) {d : Nat} (hd : d < M.length) :
    Closed (M ++ [(0, (p : Int))]) d fun x => (faceFlux (fluxOf (Euler.hll gamma d)) 5 (fun x j => u' (x ++ [(j : Int)])) d x).getD 4 0 := by
  rcases hall d hd with h | h
  · exact closed_wall hd (hwide d hd) _ (fun x hx => (fluid_wall F h hd (by omega) (hwide d hd) gamma hx (.inr rfl)).1)
      (fun x hx => (fluid_wall F h hd (by omega) (hwide d hd) gamma hx (.inr rfl)).2)
  · exact closed_periodic (n := 5) F h hd (hwide d hd) _ 4

end

/-! ### All cells -/

theorem sum_le {β : Type} {l : List β} {f g : β → ℝ} (h : ∀ x ∈ l, f x ≤ g x) : (l.map f).sum ≤ (l.map g).sum := List.sum_le_sum h

/-- The power that goes into the field through the fluxes. -/
noncomputable def fluxPower (M : Box) (p : Nat) (c : ℝ) (dx : Nat → ℝ) (u : Cell → ℝ) : ℝ :=
  fieldPower M p c u fun y => fvUpdate (fun dim => fluxOf (Maxwell.rusanov c dim)) 6 (fun x j => u (x ++ [(j : Int)])) dx (List.range (min M.length 3)) y.dropLast (component y).toNat 0

/-- The power, direction by direction. -/
theorem fluxPower_eq (M : Box) (p : Nat) (c : ℝ) (dx : Nat → ℝ) (u' : Cell → ℝ) : fluxPower M p c dx u' = ((cells (M ++ [(0, (p : Int))])).map fun x => ((List.range (min M.length 3)).map fun d =>
    ((List.range 6).map fun j => emWeight c j * (u' (x ++ [(j : Int)]) * ((faceFlux (fluxOf (Maxwell.rusanov c d)) 6 (fun x j => u' (x ++ [(j : Int)])) d x).getD j 0 -
      (faceFlux (fluxOf (Maxwell.rusanov c d)) 6 (fun x j => u' (x ++ [(j : Int)])) d (moveBy x d 1)).getD j 0))).sum / dx d).sum).sum := by
  set w : Cell → Nat → ℝ := fun x j => u' (x ++ [(j : Int)]) with hw
  set D := List.range (min M.length 3) with hD
  set φ : Nat → Cell → Nat → ℝ := fun d x j => (faceFlux (fluxOf (Maxwell.rusanov c d)) 6 w d x).getD j 0 with hφ
  unfold fluxPower fieldPower
  congr 1
  refine List.map_congr_left fun x _ => ?_
  simp only [fvUpdate_add, List.dropLast_concat, component, List.getLastD_concat, Int.toNat_natCast, zero_add]
  have : ∀ j, emWeight c j * (u' (x ++ [(j : Int)]) * ((List.range (min M.length 3)).map fun dim =>
      (faceFlux (fluxOf (Maxwell.rusanov c dim)) 6 (fun x j => u' (x ++ [(j : Int)])) dim x).getD j 0 / dx dim -
      (faceFlux (fluxOf (Maxwell.rusanov c dim)) 6 (fun x j => u' (x ++ [(j : Int)])) dim (moveBy x dim 1)).getD j 0 / dx dim).sum) =
      (D.map fun d => emWeight c j * (w x j * (φ d x j - φ d (moveBy x d 1) j)) / dx d).sum := by
    intro j
    rw [← list_sum_mul, ← list_sum_mul]
    congr 1
    refine List.map_congr_left fun d _ => ?_
    simp only [hφ, hw]
    ring
  rw [List.map_congr_left fun j _ => this j, list_sum_comm]
  congr 1
  refine List.map_congr_left fun d _ => ?_
  rw [div_eq_mul_inv, mul_comm, ← list_sum_mul]
  congr 1
  refine List.map_congr_left fun j _ => ?_
  ring

theorem fluxPower_le {M : Box} {p : Nat} (hp : 1 ≤ p) (hM : Pos M) {ws ps : List Nat} {u u' : Cell → ℝ} (h0 : ∀ i ∈ ws, i = 0)
    (hwide : ∀ d < M.length, 2 ≤ hi M d - lo M d) (hall : ∀ d < M.length, d ∈ ws ∨ d ∈ ps)
    (F : Filled M [(0, (p : Int)), (0, 6)] ws isWallField ps u u') (c : ℝ) {dx : Nat → ℝ} (hdx : ∀ d < min M.length 3, 0 < dx d)
    (hz : ∀ x, InBox (M ++ [(0, (p : Int))]) x → ∀ d < min M.length 3, ∀ j : Nat, j < 6 → u' (x ++ [(j : Int)]) - u' (moveBy x d (-1) ++ [(j : Int)]) ≠ -(1 / 10 ^ 12) ∧
      u' (moveBy x d 1 ++ [(j : Int)]) - u' (x ++ [(j : Int)]) ≠ -(1 / 10 ^ 12)) :
    fluxPower M p c dx u' ≤ ((List.range (min M.length 3)).map fun d => 9 / (16 * 10 ^ 12) * (|c| * (1 + |c|) / dx d) * jumps M p c d u').sum := by
  set w : Cell → Nat → ℝ := fun x j => u' (x ++ [(j : Int)]) with hw
  set D := List.range (min M.length 3) with hD
  set φ : Nat → Cell → Nat → ℝ := fun d x j => (faceFlux (fluxOf (Maxwell.rusanov c d)) 6 w d x).getD j 0 with hφ
  have e : fluxPower M p c dx u' = ((cells (M ++ [(0, (p : Int))])).map fun x => (D.map fun d =>
      ((List.range 6).map fun j => emWeight c j * (w x j * (φ d x j - φ d (moveBy x d 1) j))).sum / dx d).sum).sum := fluxPower_eq M p c dx u'
  rw [e, list_sum_comm]
  refine sum_le fun d hd => ?_
  rw [hD, List.mem_range] at hd
  have hdl : d < M.length := by omega
  have tele := sum_shift (B := M ++ [(0, (p : Int))]) (i := d) (by simp; omega) (pos_points hM hp) (flow c d w) (flow_closed h0 hwide hall F c hdl)
  have cell : ∀ x ∈ cells (M ++ [(0, (p : Int))]), ((List.range 6).map fun j => emWeight c j * (w x j * (φ d x j - φ d (moveBy x d 1) j))).sum / dx d ≤
      9 / (16 * 10 ^ 12) * (|c| * (1 + |c|) / dx d) * ((List.range 6).map fun j => (if j < 3 then 1 else |c|) * (|w x j - w (moveBy x d (-1)) j| + |w (moveBy x d 1) j - w x j|)).sum +
        (1 / dx d) * (flow c d w x - flow c d w (moveBy x d 1)) := by
    intro x hx
    have := cell_power c (d := d) (by omega) w x fun j hj => ⟨fun h => (hz x (mem_cells.1 hx) d hd j hj).1 (by linarith), fun h => (hz x (mem_cells.1 hx) d hd j hj).2 (by linarith)⟩
    have := div_le_div_of_nonneg_right this (hdx d hd).le
    refine this.trans (le_of_eq ?_)
    ring
  refine (sum_le cell).trans (le_of_eq ?_)
  rw [list_sum_add, list_sum_mul, list_sum_mul, tele, mul_zero, add_zero]
  rfl

end QK.Energy
