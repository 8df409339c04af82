import Verif.Proofs.EnergyField
import Mathlib.Analysis.SpecialFunctions.Exp
/-
Helper lemmas: how much the energy of the electromagnetic field can grow in a time step (exact arithmetic).
-/
namespace QK.Energy
open QK Spec

/-! ### The size of the rates -/

theorem lim_le (a b : ℝ) : |lim a b| ≤ 5 / 4 * |a| := by
  unfold lim
  generalize b / (a + 1 / 10 ^ 12) = r
  rw [abs_mul]
  refine mul_le_mul_of_nonneg_right ?_ (abs_nonneg a)
  have : 0 < r * r + 1 := by nlinarith [mul_self_nonneg r]
  rw [abs_div, abs_of_pos this, div_le_iff₀ this, abs_le]
  constructor <;> nlinarith [sq_nonneg (r - 2), sq_nonneg (9 * r + 2)]

theorem lft_le (q0 q1 q2 : ℝ) : |lft q0 q1 q2| ≤ 13 / 8 * |q1| + 5 / 8 * |q0| := by
  unfold lft
  have h := lim_le (q1 - q0) (q2 - q1)
  have h1 : |q1 - q0| ≤ |q1| + |q0| := abs_sub _ _
  refine (abs_add_le _ _).trans ?_
  rw [abs_mul, abs_of_pos (by norm_num : (0 : ℝ) < 1 / 2)]
  linarith

theorem rgt_le (q1 q2 q3 : ℝ) : |rgt q1 q2 q3| ≤ 13 / 8 * |q2| + 5 / 8 * |q3| := by
  unfold rgt
  have h := lim_le (q3 - q2) (q2 - q1)
  have h1 : |q3 - q2| ≤ |q3| + |q2| := abs_sub _ _
  refine (abs_sub _ _).trans ?_
  rw [abs_mul, abs_of_pos (by norm_num : (0 : ℝ) < 1 / 2)]
  linarith

/-- The values around a face. -/
noncomputable def around (C : ℝ) (E B : Int → ℝ) (k : Int) : ℝ :=
  5 / 8 * (|E (k - 2)| + C * |B (k - 2)|) + 13 / 8 * (|E (k - 1)| + C * |B (k - 1)|) + 13 / 8 * (|E k| + C * |B k|) + 5 / 8 * (|E (k + 1)| + C * |B (k + 1)|)

theorem flux_le {σ : ℝ} (hσ : σ = 1 ∨ σ = -1) {C : ℝ} (hC : 0 ≤ C) (E B : Int → ℝ) (k : Int) :
    |fluxE σ C E B k| ≤ C / 2 * around C E B k ∧ C * |fluxB σ C E B k| ≤ C / 2 * around C E B k := by
  have hs : |σ| = 1 := by rcases hσ with rfl | rfl <;> simp
  have e1 := lft_le (E (k - 2)) (E (k - 1)) (E k)
  have e2 := rgt_le (E (k - 1)) (E k) (E (k + 1))
  have b1 := lft_le (B (k - 2)) (B (k - 1)) (B k)
  have b2 := rgt_le (B (k - 1)) (B k) (B (k + 1))
  unfold fluxE fluxB around
  generalize lft (E (k - 2)) (E (k - 1)) (E k) = le at *
  generalize rgt (E (k - 1)) (E k) (E (k + 1)) = re at *
  generalize lft (B (k - 2)) (B (k - 1)) (B k) = lb at *
  generalize rgt (B (k - 1)) (B k) (B (k + 1)) = rb at *
  have s1 : |rb + lb| ≤ |rb| + |lb| := abs_add_le _ _
  have s2 : |re - le| ≤ |re| + |le| := abs_sub _ _
  have s3 : |re + le| ≤ |re| + |le| := abs_add_le _ _
  have s4 : |rb - lb| ≤ |rb| + |lb| := abs_sub _ _
  have hB := mul_le_mul_of_nonneg_left (add_le_add b1 b2) hC
  constructor
  · refine (abs_sub _ _).trans ?_
    rw [abs_mul, abs_mul, abs_mul, hs, abs_of_nonneg (by positivity : 0 ≤ C ^ 2 / 2), abs_of_nonneg (by positivity : 0 ≤ C / 2)]
    have t1 := mul_le_mul_of_nonneg_left s1 (by positivity : 0 ≤ C / 2 * C)
    have t2 := mul_le_mul_of_nonneg_left s2 (by positivity : 0 ≤ C / 2)
    have t3 := mul_le_mul_of_nonneg_left hB (by positivity : 0 ≤ C / 2)
    have t4 := mul_le_mul_of_nonneg_left (add_le_add e1 e2) (by positivity : 0 ≤ C / 2)
    nlinarith
  · have : |σ * (1 / 2) * (re + le) - C / 2 * (rb - lb)| ≤ 1 / 2 * |re + le| + C / 2 * |rb - lb| := by
      refine (abs_sub _ _).trans ?_
      rw [abs_mul, abs_mul, abs_mul, hs, abs_of_nonneg (by norm_num : (0 : ℝ) ≤ 1 / 2), abs_of_nonneg (by positivity : 0 ≤ C / 2)]
      linarith
    have t0 := mul_le_mul_of_nonneg_left this hC
    have t1 := mul_le_mul_of_nonneg_left s3 (by positivity : 0 ≤ C / 2)
    have t2 := mul_le_mul_of_nonneg_left s4 (by positivity : 0 ≤ C / 2 * C)
    have t3 := mul_le_mul_of_nonneg_left hB (by positivity : 0 ≤ C / 2)
    have t4 := mul_le_mul_of_nonneg_left (add_le_add e1 e2) (by positivity : 0 ≤ C / 2)
    nlinarith

/-- The weights of the five cells that take part. -/
noncomputable def near5 (f : Int → ℝ) (k : Int) : ℝ := 5 / 8 * f (k - 2) + 18 / 8 * f (k - 1) + 26 / 8 * f k + 18 / 8 * f (k + 1) + 5 / 8 * f (k + 2)

theorem near5_sq {a e : Int → ℝ} (h : ∀ k, a k ^ 2 ≤ 2 * e k) (k : Int) : near5 a k ^ 2 ≤ 18 * near5 e k := by
  have h0 := h (k - 2)
  have h1 := h (k - 1)
  have h2 := h k
  have h3 := h (k + 1)
  have h4 := h (k + 2)
  unfold near5
  generalize a (k - 2) = a0 at *
  generalize a (k - 1) = a1 at *
  generalize a k = a2 at *
  generalize a (k + 1) = a3 at *
  generalize a (k + 2) = a4 at *
  have cs : (5 / 8 * a0 + 18 / 8 * a1 + 26 / 8 * a2 + 18 / 8 * a3 + 5 / 8 * a4) ^ 2 ≤ 9 * (5 / 8 * a0 ^ 2 + 18 / 8 * a1 ^ 2 + 26 / 8 * a2 ^ 2 + 18 / 8 * a3 ^ 2 + 5 / 8 * a4 ^ 2) := by
    nlinarith [sq_nonneg (a0 - a1), sq_nonneg (a0 - a2), sq_nonneg (a0 - a3), sq_nonneg (a0 - a4), sq_nonneg (a1 - a2), sq_nonneg (a1 - a3), sq_nonneg (a1 - a4), sq_nonneg (a2 - a3),
      sq_nonneg (a2 - a4), sq_nonneg (a3 - a4)]
  linarith

/-- What the fluxes of a pair do to a cell, squared. -/
theorem pair_sq {σ : ℝ} (hσ : σ = 1 ∨ σ = -1) {C : ℝ} (hC : 0 ≤ C) (E B : Int → ℝ) (k : Int) :
    (fluxE σ C E B k - fluxE σ C E B (k + 1)) ^ 2 + C ^ 2 * (fluxB σ C E B k - fluxB σ C E B (k + 1)) ^ 2 ≤ 9 * C ^ 2 * near5 (fun k => E k ^ 2 + C ^ 2 * B k ^ 2) k := by
  obtain ⟨e0, b0⟩ := flux_le hσ hC E B k
  obtain ⟨e1, b1⟩ := flux_le hσ hC E B (k + 1)
  have hn : around C E B k + around C E B (k + 1) = near5 (fun k => |E k| + C * |B k|) k := by
    unfold around near5
    rw [show k + 1 - 2 = k - 1 by ring, show k + 1 - 1 = k by ring, show k + 1 + 1 = k + 2 by ring]
    ring
  have hsq := near5_sq (a := fun k => |E k| + C * |B k|) (e := fun k => E k ^ 2 + C ^ 2 * B k ^ 2) (fun k => by
    have := two_mul_le_add_sq |E k| (C * |B k|)
    rw [← sq_abs (E k), ← sq_abs (B k)]
    nlinarith) k
  rw [← hn] at hsq
  have key : ∀ {x y X : ℝ}, |x| ≤ C / 2 * X → ∀ {Y : ℝ}, |y| ≤ C / 2 * Y → (x - y) ^ 2 ≤ C ^ 2 / 4 * (X + Y) ^ 2 := by
    intro x y X hx Y hy
    have : |x - y| ≤ C / 2 * (X + Y) := (abs_sub _ _).trans (by linarith)
    calc (x - y) ^ 2 = |x - y| ^ 2 := (sq_abs _).symm
      _ ≤ (C / 2 * (X + Y)) ^ 2 := by gcongr
      _ = _ := by ring
  have k1 := key e0 e1
  have k2 := key (x := C * fluxB σ C E B k) (y := C * fluxB σ C E B (k + 1)) (by rwa [abs_mul, abs_of_nonneg hC]) (by rwa [abs_mul, abs_of_nonneg hC])
  have k3 := mul_le_mul_of_nonneg_left hsq (by positivity : 0 ≤ C ^ 2 / 2)
  have : C ^ 2 * (fluxB σ C E B k - fluxB σ C E B (k + 1)) ^ 2 = (C * fluxB σ C E B k - C * fluxB σ C E B (k + 1)) ^ 2 := by ring
  rw [this]
  linarith

/-- Twice the energy of the field in a cell. -/
noncomputable def dens (c : ℝ) (w : Cell → Nat → ℝ) (x : Cell) : ℝ := ((List.range 6).map fun j => emWeight c j * w x j ^ 2).sum

theorem emWeight_nonneg (c : ℝ) (j : Nat) : 0 ≤ emWeight c j := by unfold emWeight; split <;> positivity

theorem dens_nonneg (c : ℝ) (w : Cell → Nat → ℝ) (x : Cell) : 0 ≤ dens c w x := by
  refine List.sum_nonneg fun a ha => ?_
  simp only [List.mem_map] at ha
  obtain ⟨j, -, rfl⟩ := ha
  exact mul_nonneg (emWeight_nonneg c j) (sq_nonneg _)

/-- All components. -/
theorem cell_sq (c : ℝ) {d : Nat} (hd : d < 3) (w : Cell → Nat → ℝ) (x : Cell) :
    ((List.range 6).map fun j => emWeight c j * ((faceFlux (fluxOf (Maxwell.rusanov c d)) 6 w d x).getD j 0 -
      (faceFlux (fluxOf (Maxwell.rusanov c d)) 6 w d (moveBy x d 1)).getD j 0) ^ 2).sum ≤ 9 * c ^ 2 * near5 (fun k => dens c w (moveBy x d k)) 0 := by
  have h0 := fun j (hj : j < 6) => faceFlux_line c hd w x 0 hj
  have h1 := fun j (hj : j < 6) => faceFlux_line c hd w x 1 hj
  rw [moveBy_zero] at h0
  have hC : 0 ≤ |c| := abs_nonneg c
  have hc : c ^ 2 = |c| ^ 2 := (sq_abs c).symm
  have pair : ∀ (σ : ℝ), (σ = 1 ∨ σ = -1) → ∀ i j : Nat,
      (fluxE σ |c| (fun k => w (moveBy x d k) i) (fun k => w (moveBy x d k) j) 0 - fluxE σ |c| (fun k => w (moveBy x d k) i) (fun k => w (moveBy x d k) j) 1) ^ 2 +
        |c| ^ 2 * (fluxB σ |c| (fun k => w (moveBy x d k) i) (fun k => w (moveBy x d k) j) 0 - fluxB σ |c| (fun k => w (moveBy x d k) i) (fun k => w (moveBy x d k) j) 1) ^ 2 ≤
      9 * |c| ^ 2 * near5 (fun k => w (moveBy x d k) i ^ 2 + |c| ^ 2 * w (moveBy x d k) j ^ 2) 0 :=
    fun σ hσ i j => pair_sq hσ hC (fun k => w (moveBy x d k) i) (fun k => w (moveBy x d k) j) 0
  have rest : ∀ i j : Nat, 0 ≤ 9 * |c| ^ 2 * near5 (fun k => w (moveBy x d k) i ^ 2 + |c| ^ 2 * w (moveBy x d k) j ^ 2) 0 := fun i j => by
    unfold near5; positivity
  have split : near5 (fun k => dens c w (moveBy x d k)) 0 = near5 (fun k => w (moveBy x d k) 0 ^ 2 + |c| ^ 2 * w (moveBy x d k) 3 ^ 2) 0 +
      near5 (fun k => w (moveBy x d k) 1 ^ 2 + |c| ^ 2 * w (moveBy x d k) 4 ^ 2) 0 + near5 (fun k => w (moveBy x d k) 2 ^ 2 + |c| ^ 2 * w (moveBy x d k) 5 ^ 2) 0 := by
    unfold near5 dens
    simp only [sum6, emWeight, hc]
    norm_num only [if_true, if_false]
    ring
  have swap : ∀ i j k l : Nat, near5 (fun k => w (moveBy x d k) i ^ 2 + |c| ^ 2 * w (moveBy x d k) j ^ 2) 0 + near5 (fun m => w (moveBy x d m) k ^ 2 + |c| ^ 2 * w (moveBy x d m) l ^ 2) 0 =
      near5 (fun k => w (moveBy x d k) i ^ 2 + |c| ^ 2 * w (moveBy x d k) l ^ 2) 0 + near5 (fun m => w (moveBy x d m) k ^ 2 + |c| ^ 2 * w (moveBy x d m) j ^ 2) 0 := by
    intro i j k l; unfold near5; ring
  rw [sum6, split]
  simp only [h0 0 (by decide), h0 1 (by decide), h0 2 (by decide), h0 3 (by decide), h0 4 (by decide), h0 5 (by decide),
    h1 0 (by decide), h1 1 (by decide), h1 2 (by decide), h1 3 (by decide), h1 4 (by decide), h1 5 (by decide)]
  simp only [emWeight, hc]
  norm_num only [if_true, if_false]
  clear h0 h1 split
  interval_cases d
  · have p1 := pair 1 (.inl rfl) 1 5
    have p2 := pair (-1) (.inr rfl) 2 4
    have p3 := rest 0 3
    have s := congrArg (9 * |c| ^ 2 * ·) (swap 1 5 2 4)
    clear pair rest swap
    simp only [lineFlux]
    linarith
  · have p1 := pair 1 (.inl rfl) 2 3
    have p2 := pair (-1) (.inr rfl) 0 5
    have p3 := rest 1 4
    have s := congrArg (9 * |c| ^ 2 * ·) (swap 2 3 0 5)
    clear pair rest swap
    simp only [lineFlux]
    linarith
  · have p1 := pair 1 (.inl rfl) 0 4
    have p2 := pair (-1) (.inr rfl) 1 3
    have p3 := rest 2 5
    have s := congrArg (9 * |c| ^ 2 * ·) (swap 0 4 1 3)
    clear pair rest swap
    simp only [lineFlux]
    linarith

/-! ### Sums over a periodic mesh -/

section
variable {M : Box} {p : Nat} {ps : List Nat} {u u' : Cell → ℝ}

/-- Shifting by up to two cells does not change a sum over all cells. -/
theorem sum_moved (hM : Pos M) (hp : 1 ≤ p) (hwide : ∀ d < M.length, 2 ≤ hi M d - lo M d) (F : Filled M [(0, (p : Int)), (0, 6)] [] isWallField ps u u')
    {d : Nat} (hd : d < M.length) (hper : d ∈ ps) (f : (Nat → ℝ) → ℝ) (hf : ∀ a b : Nat → ℝ, (∀ j < 6, a j = b j) → f a = f b) :
    ∀ s : Int, -2 ≤ s → s ≤ 2 → ((cells (M ++ [(0, (p : Int))])).map fun x => f fun j => u' (moveBy x d s ++ [(j : Int)])).sum =
      ((cells (M ++ [(0, (p : Int))])).map fun x => f fun j => u' (x ++ [(j : Int)])).sum := by
  have hdl : d < (M ++ [((0 : Int), (p : Int))]).length := by simp; omega
  have hw := hwide d hd
  have vals := fun x (hx : InBox (M ++ [(0, (p : Int))]) x) (hx0 : x.getD d 0 = lo M d) =>
    periodic_values (u := fun x j => u' (x ++ [(j : Int)])) (g := 2) (n := 6) (le_refl _) hd (by omega) (fun y hy k hk => by
      have hgh := periodicImage_snoc (n := ((6 : Nat) : Int)) (j := (k : Int)) hdl (by omega) (by omega) hy
      have split : M ++ [((0 : Int), (p : Int)), (0, 6)] = (M ++ [((0 : Int), (p : Int))]) ++ [(0, ((6 : Nat) : Int))] := by simp
      have e := F.wrap d hper (y ++ [(k : Int)]) (by rw [split]; exact hgh.1)
      rw [split, hgh.2] at e
      rw [e, F.inside]
      rw [split, ← hgh.2]
      exact periodicImage_interior (by simp; omega) (by rw [lo_append hdl, hi_append hdl, lo_append hd, hi_append hd]; exact hw) hgh.1) hx hx0
  have step : ∀ s : Int, -2 ≤ s → s ≤ 1 → ((cells (M ++ [(0, (p : Int))])).map fun x => f fun j => u' (moveBy x d s ++ [(j : Int)])).sum =
      ((cells (M ++ [(0, (p : Int))])).map fun x => f fun j => u' (moveBy x d (s + 1) ++ [(j : Int)])).sum := by
    intro s s1 s2
    have := sum_shift (B := M ++ [(0, (p : Int))]) (i := d) hdl (pos_points hM hp) (fun x => f fun j => u' (moveBy x d s ++ [(j : Int)])) (by
      intro x hx hx0
      rw [lo_append hd] at hx0 ⊢
      rw [hi_append hd]
      exact hf _ _ fun j hj => vals x hx hx0 s s1 s2 j hj)
    rw [list_sum_sub, sub_eq_zero] at this
    rw [this]
    congr 1
    refine List.map_congr_left fun x _ => ?_
    simp only [moveBy_moveBy, add_comm 1 s]
  have m2 := step (-2) (by decide) (by decide)
  have m1 := step (-1) (by decide) (by decide)
  have m0 := step 0 (by decide) (by decide)
  have p1 := step 1 (by decide) (by decide)
  rw [show (-2 : Int) + 1 = -1 by rfl] at m2
  rw [show (-1 : Int) + 1 = 0 by rfl] at m1
  rw [show (0 : Int) + 1 = 1 by rfl] at m0
  rw [show (1 : Int) + 1 = 2 by rfl] at p1
  have z : ((cells (M ++ [(0, (p : Int))])).map fun x => f fun j => u' (moveBy x d 0 ++ [(j : Int)])).sum = ((cells (M ++ [(0, (p : Int))])).map fun x => f fun j => u' (x ++ [(j : Int)])).sum := by
    simp only [moveBy_zero]
  intro s s1 s2
  rw [← z]
  interval_cases s
  · rw [m2, m1]
  · rw [m1]
  · rfl
  · rw [m0]
  · rw [← p1, m0]

theorem near5_sum (hM : Pos M) (hp : 1 ≤ p) (hwide : ∀ d < M.length, 2 ≤ hi M d - lo M d) (F : Filled M [(0, (p : Int)), (0, 6)] [] isWallField ps u u')
    {d : Nat} (hd : d < M.length) (hper : d ∈ ps) (c : ℝ) :
    ((cells (M ++ [(0, (p : Int))])).map fun x => near5 (fun k => dens c (fun x j => u' (x ++ [(j : Int)])) (moveBy x d k)) 0).sum = 18 * fieldEnergy M p c u' := by
  have s := sum_moved hM hp hwide F hd hper (fun a => ((List.range 6).map fun j => emWeight c j * a j ^ 2).sum) (fun a b h => by
    congr 1
    refine List.map_congr_left fun j hj => ?_
    rw [h j (by simpa using hj)])
  have e : ∀ s : Int, -2 ≤ s → s ≤ 2 → ((cells (M ++ [(0, (p : Int))])).map fun x => dens c (fun x j => u' (x ++ [(j : Int)])) (moveBy x d s)).sum = 2 * fieldEnergy M p c u' := by
    intro s' h1 h2
    refine (s s' h1 h2).trans ?_
    unfold fieldEnergy
    ring
  unfold near5
  simp only [list_sum_add, list_sum_mul]
  rw [e _ (by decide) (by decide), e _ (by decide) (by decide), e _ (by decide) (by decide), e _ (by decide) (by decide), e _ (by decide) (by decide)]
  ring

theorem sq_sum3 {m : Nat} (hm : m ≤ 3) (f : Nat → ℝ) : ((List.range m).map f).sum ^ 2 ≤ m * ((List.range m).map fun d => f d ^ 2).sum := by
  interval_cases m <;> simp [List.range_succ]
  · nlinarith [sq_nonneg (f 0 - f 1)]
  · nlinarith [sq_nonneg (f 0 - f 1), sq_nonneg (f 0 - f 2), sq_nonneg (f 1 - f 2)]

/-- The energy of the rates. -/
theorem rate_energy (hM : Pos M) (hp : 1 ≤ p) (hwide : ∀ d < M.length, 2 ≤ hi M d - lo M d) (hall : ∀ d < M.length, d ∈ ps)
    (F : Filled M [(0, (p : Int)), (0, 6)] [] isWallField ps u u') {c : ℝ} {dx : Nat → ℝ} {r : Cell → ℝ} (hR : LightRate M p dx c u' r) :
    fieldEnergy M p c r ≤ ((List.range (min M.length 3)).map fun d => 81 * (min M.length 3 : Nat) * (c ^ 2 / dx d ^ 2)).sum * fieldEnergy M p c u' := by
  set w : Cell → Nat → ℝ := fun x j => u' (x ++ [(j : Int)]) with hw
  set m := min M.length 3 with hm
  set φ : Nat → Cell → Nat → ℝ := fun d x j => (faceFlux (fluxOf (Maxwell.rusanov c d)) 6 w d x).getD j 0 with hφ
  have cell : ∀ x ∈ cells (M ++ [(0, (p : Int))]), ((List.range 6).map fun j => emWeight c j * r (x ++ [(j : Int)]) ^ 2).sum ≤
      ((List.range m).map fun d => m * (9 * c ^ 2 / dx d ^ 2) * near5 (fun k => dens c w (moveBy x d k)) 0).sum := by
    intro x hx
    have one : ∀ j ∈ List.range 6, emWeight c j * r (x ++ [(j : Int)]) ^ 2 ≤ ((List.range m).map fun d => m / dx d ^ 2 * (emWeight c j * (φ d x j - φ d (moveBy x d 1) j) ^ 2)).sum := by
      intro j hj
      rw [hR x (mem_cells.1 hx) j (by simpa using hj), real_lit]
      rw [fvUpdate_add]
      push_cast
      rw [zero_add]
      have := mul_le_mul_of_nonneg_left (sq_sum3 (m := m) (by omega) fun d => φ d x j / dx d - φ d (moveBy x d 1) j / dx d) (emWeight_nonneg c j)
      refine this.trans (le_of_eq ?_)
      rw [← list_sum_mul, ← list_sum_mul]
      congr 1
      refine List.map_congr_left fun d _ => ?_
      rw [← sub_div, div_pow]
      ring
    refine (sum_le one).trans ?_
    rw [list_sum_comm]
    refine sum_le fun d hd => ?_
    rw [list_sum_mul]
    have := mul_le_mul_of_nonneg_left (cell_sq c (d := d) (by have := List.mem_range.1 hd; omega) w x) (by positivity : 0 ≤ (m : ℝ) / dx d ^ 2)
    refine this.trans (le_of_eq ?_)
    ring
  have S := sum_le cell
  rw [list_sum_comm _ (List.range m)] at S
  have e : ((List.range m).map fun d => ((cells (M ++ [(0, (p : Int))])).map fun x => m * (9 * c ^ 2 / dx d ^ 2) * near5 (fun k => dens c w (moveBy x d k)) 0).sum).sum =
      2 * (((List.range m).map fun d => 81 * (m : ℝ) * (c ^ 2 / dx d ^ 2)).sum * fieldEnergy M p c u') := by
    rw [mul_comm (List.sum _) (fieldEnergy M p c u'), ← list_sum_mul, ← list_sum_mul]
    congr 1
    refine List.map_congr_left fun d hd => ?_
    have hd := List.mem_range.1 hd
    rw [list_sum_mul, near5_sum hM hp hwide F (by omega) (hall d (by omega)) c]
    ring
  rw [e] at S
  unfold fieldEnergy at S ⊢
  linarith

/-- The sum of the differences between neighbours. -/
theorem jumps_le (hM : Pos M) (hp : 1 ≤ p) (hwide : ∀ d < M.length, 2 ≤ hi M d - lo M d) (F : Filled M [(0, (p : Int)), (0, 6)] [] isWallField ps u u')
    {d : Nat} (hd : d < M.length) (hper : d ∈ ps) (c : ℝ) : jumps M p c d u' ≤ 4 * (fieldEnergy M p c u' + 3 * boxVolume (M ++ [(0, (p : Int))])) := by
  set ω : Nat → ℝ := fun j => if j < 3 then 1 else |c| with hω
  have ω0 : ∀ j, 0 ≤ ω j := fun j => by rw [hω]; dsimp only; split <;> positivity
  have s := sum_moved hM hp hwide F hd hper (fun a => ((List.range 6).map fun j => ω j * |a j|).sum) (fun a b h => by
    congr 1
    refine List.map_congr_left fun j hj => ?_
    rw [h j (by simpa using hj)])
  have s1 := s (-1) (by decide) (by decide)
  have s2 := s 1 (by decide) (by decide)
  have cell : ∀ x ∈ cells (M ++ [(0, (p : Int))]), ((List.range 6).map fun j => ω j *
      (|u' (x ++ [(j : Int)]) - u' (moveBy x d (-1) ++ [(j : Int)])| + |u' (moveBy x d 1 ++ [(j : Int)]) - u' (x ++ [(j : Int)])|)).sum ≤
      ((List.range 6).map fun j => ω j * |u' (moveBy x d (-1) ++ [(j : Int)])|).sum + 2 * ((List.range 6).map fun j => ω j * |u' (x ++ [(j : Int)])|).sum +
      ((List.range 6).map fun j => ω j * |u' (moveBy x d 1 ++ [(j : Int)])|).sum := by
    intro x _
    rw [← list_sum_mul, ← list_sum_add, ← list_sum_add]
    refine sum_le fun j _ => ?_
    have h1 : |u' (x ++ [(j : Int)]) - u' (moveBy x d (-1) ++ [(j : Int)])| ≤ |u' (x ++ [(j : Int)])| + |u' (moveBy x d (-1) ++ [(j : Int)])| := abs_sub _ _
    have h2 : |u' (moveBy x d 1 ++ [(j : Int)]) - u' (x ++ [(j : Int)])| ≤ |u' (moveBy x d 1 ++ [(j : Int)])| + |u' (x ++ [(j : Int)])| := abs_sub _ _
    have := mul_le_mul_of_nonneg_left (add_le_add h1 h2) (ω0 j)
    linarith
  have S := sum_le cell
  simp only [list_sum_add, list_sum_mul] at S
  rw [s1, s2] at S
  have am : ∀ x ∈ cells (M ++ [(0, (p : Int))]), ((List.range 6).map fun j => ω j * |u' (x ++ [(j : Int)])|).sum ≤
      1 / 2 * ((List.range 6).map fun j => emWeight c j * u' (x ++ [(j : Int)]) ^ 2).sum + 3 := by
    intro x _
    have one : ∀ j ∈ List.range 6, ω j * |u' (x ++ [(j : Int)])| ≤ 1 / 2 * (emWeight c j * u' (x ++ [(j : Int)]) ^ 2) + 1 / 2 := by
      intro j _
      have e : emWeight c j = ω j ^ 2 := by
        rw [hω]; unfold emWeight; dsimp only; split <;> simp
      rw [e, ← sq_abs (u' _)]
      nlinarith [sq_nonneg (ω j * |u' (x ++ [(j : Int)])| - 1)]
    refine (sum_le one).trans (le_of_eq ?_)
    rw [list_sum_add, list_sum_mul]
    congr 1
    simp [List.range_succ]; norm_num
  have A := sum_le am
  simp only [list_sum_add, list_sum_mul] at A
  have len : ((cells (M ++ [((0 : Int), (p : Int))])).map fun _ => (3 : ℝ)).sum = 3 * boxVolume (M ++ [(0, (p : Int))]) := by
    rw [← cells_length (pos_points hM hp)]
    simp [List.map_const', List.sum_replicate]
    ring
  rw [len] at A
  have e1 : jumps M p c d u' = ((cells (M ++ [(0, (p : Int))])).map fun x => ((List.range 6).map fun j => ω j *
      (|u' (x ++ [(j : Int)]) - u' (moveBy x d (-1) ++ [(j : Int)])| + |u' (moveBy x d 1 ++ [(j : Int)]) - u' (x ++ [(j : Int)])|)).sum).sum := rfl
  rw [e1]
  unfold fieldEnergy
  clear_value ω
  linarith

end

/-! ### Stages and steps -/

section
variable {M : Box} {p : Nat} {c : ℝ}

theorem energy_congr {u v : Cell → ℝ} (h : ∀ x, InBox (M ++ [(0, (p : Int))]) x → ∀ j : Nat, j < 6 → u (x ++ [(j : Int)]) = v (x ++ [(j : Int)])) :
    fieldEnergy M p c u = fieldEnergy M p c v := by
  unfold fieldEnergy
  congr 2
  refine List.map_congr_left fun x hx => ?_
  congr 1
  refine List.map_congr_left fun j hj => ?_
  rw [h x (mem_cells.1 hx) j (by simpa using hj)]

theorem energy_nonneg (M : Box) (p : Nat) (c : ℝ) (u : Cell → ℝ) : 0 ≤ fieldEnergy M p c u := by
  unfold fieldEnergy
  refine div_nonneg (List.sum_nonneg fun a ha => ?_) (by norm_num)
  simp only [List.mem_map] at ha
  obtain ⟨x, -, rfl⟩ := ha
  exact dens_nonneg c (fun x j => u (x ++ [(j : Int)])) x

theorem energy_filled {ws ps : List Nat} {u u' : Cell → ℝ} (F : Filled M [(0, (p : Int)), (0, 6)] ws isWallField ps u u') : fieldEnergy M p c u' = fieldEnergy M p c u := by
  refine energy_congr fun x hx j hj => F.inside _ ?_
  rw [show M ++ [((0 : Int), (p : Int)), (0, 6)] = (M ++ [((0 : Int), (p : Int))]) ++ [(0, ((6 : Nat) : Int))] by simp]
  exact (inBox_snoc hx.length_eq).2 ⟨hx, by omega, by omega⟩

theorem energy_convex {a b : ℝ} (ha : 0 ≤ a) (hb : 0 ≤ b) (hab : a + b = 1) (u v : Cell → ℝ) :
    fieldEnergy M p c (fun y => a * u y + b * v y) ≤ a * fieldEnergy M p c u + b * fieldEnergy M p c v := by
  have cell : ∀ x ∈ cells (M ++ [(0, (p : Int))]), ((List.range 6).map fun j => emWeight c j * (a * u (x ++ [(j : Int)]) + b * v (x ++ [(j : Int)])) ^ 2).sum ≤
      a * ((List.range 6).map fun j => emWeight c j * u (x ++ [(j : Int)]) ^ 2).sum + b * ((List.range 6).map fun j => emWeight c j * v (x ++ [(j : Int)]) ^ 2).sum := by
    intro x _
    rw [← list_sum_mul, ← list_sum_mul, ← list_sum_add]
    refine sum_le fun j _ => ?_
    generalize u (x ++ [(j : Int)]) = s
    generalize v (x ++ [(j : Int)]) = t
    have : (a * s + b * t) ^ 2 ≤ a * s ^ 2 + b * t ^ 2 := by
      obtain rfl : b = 1 - a := by linarith
      nlinarith [mul_nonneg (mul_nonneg ha hb) (sq_nonneg (s - t))]
    have := mul_le_mul_of_nonneg_left this (emWeight_nonneg c j)
    linarith
  have S := sum_le cell
  simp only [list_sum_add, list_sum_mul] at S
  unfold fieldEnergy
  linarith

end

/-- Three stages, each of which multiplies by at most `1 + x`. -/
theorem three_stages {x E E1 E2 E3 : ℝ} (hx : 0 ≤ x) (hE : 0 ≤ E) (h1 : E1 ≤ (1 + x) * E) (h2 : E2 ≤ 3 / 4 * E + 1 / 4 * ((1 + x) * E1)) (h3 : E3 ≤ 1 / 3 * E + 2 / 3 * ((1 + x) * E2)) :
    E3 ≤ Real.exp x * E := by
  have k1 := mul_le_mul_of_nonneg_left h1 (by linarith : 0 ≤ 1 + x)
  have k2 : E2 ≤ (3 / 4 + 1 / 4 * (1 + x) ^ 2) * E := by nlinarith
  have k3 := mul_le_mul_of_nonneg_left k2 (by linarith : 0 ≤ 1 + x)
  have k4 : E3 ≤ (1 + x + x ^ 2 / 2 + x ^ 3 / 6) * E := by nlinarith
  refine k4.trans (mul_le_mul_of_nonneg_right ?_ hE)
  have := Real.sum_le_exp_of_nonneg hx 4
  simp [Finset.sum_range_succ, Nat.factorial] at this
  linarith

end QK.Energy
