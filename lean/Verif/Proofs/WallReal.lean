import Verif.Proofs.ProgramRun
import Verif.Proofs.FvReal
/- Helper lemmas: fluxes through walls and totals of fields, in exact arithmetic. -/
namespace QK
open Spec Solve Props

/-! ### States on both sides of a wall -/

theorem recon_mirror {σ : ℝ} (h : σ = 1 ∨ σ = -1) (a b : ℝ) : ∃ v, FV.recon (σ * b) (σ * a) a b = (σ * v, v) := by
  rcases h with rfl | rfl
  · refine ⟨a, ?_⟩
    unfold FV.recon
    simp only [real_lit, one_mul, sub_self, zero_div, mul_zero, zero_add, add_zero, zero_mul]
  · refine ⟨(FV.recon (-1 * b) (-1 * a) a b).2, ?_⟩
    refine Prod.ext ?_ rfl
    unfold FV.recon
    simp only [real_lit]
    rw [show -1 * a - -1 * b = b - a by ring]
    ring

/-- The cells around the face below `z` mirror each other with signs `σ`. -/
def Mirrored (n : Nat) (σ : Nat → ℝ) (w : Cell → Nat → ℝ) (dim : Nat) (z : Cell) : Prop :=
  ∀ j < n, w (moveBy z dim (-2)) j = σ j * w (moveBy z dim 1) j ∧ w (moveBy z dim (-1)) j = σ j * w z j

theorem faceFlux_mirrored {n : Nat} {σ : Nat → ℝ} {w : Cell → Nat → ℝ} {dim : Nat} {z : Cell} (hσ : ∀ j < n, σ j = 1 ∨ σ j = -1)
    (h : Mirrored n σ w dim z) (φ : List ℝ → List ℝ → List ℝ) :
    ∃ R : Nat → ℝ, faceFlux φ n w dim z = φ ((List.range n).map fun j => σ j * R j) ((List.range n).map R) := by
  refine ⟨fun j => (FV.recon (w (moveBy z dim (-2)) j) (w (moveBy z dim (-1)) j) (w z j) (w (moveBy z dim 1) j)).2, ?_⟩
  unfold faceFlux
  simp only
  congr 1
  refine List.map_congr_left fun j hj => ?_
  rw [List.mem_range] at hj
  obtain ⟨v, hv⟩ := recon_mirror (hσ j hj) (w z j) (w (moveBy z dim 1) j)
  rw [(h j hj).1, (h j hj).2, hv]

theorem combine_mirror (s f q : ℝ) : Euler.combine (-s) s (-f) f q q = 0 := by
  rw [Euler.combine_real]
  have e : (s * -f - -s * f + -s * s * (q - q)) / (s - -s) = 0 := by
    rw [show s * -f - -s * f + -s * s * (q - q) = 0 by ring, zero_div]
  rw [e, mul_zero, zero_add]
  by_cases h : s < 0
  · rw [if_pos (by linarith), if_pos h]; ring
  · rw [if_neg (by linarith), if_neg h]; ring

/-- Mass and energy flux between states that mirror each other. -/
theorem hll_mirror (gamma : ℝ) {dim : Nat} (hd : dim < 3) {σ R : Nat → ℝ} (hσ : ∀ j < 5, σ j = 1 ∨ σ j = -1) (h0 : σ 0 = 1) (h4 : σ 4 = 1)
    (hn : σ (dim + 1) = -1) :
    (fluxOf (Euler.hll gamma dim) ((List.range 5).map fun j => σ j * R j) ((List.range 5).map R)).getD 0 0 = 0 ∧
    (fluxOf (Euler.hll gamma dim) ((List.range 5).map fun j => σ j * R j) ((List.range 5).map R)).getD 4 0 = 0 := by
  have hP : Euler.pOf gamma (σ 0 * R 0) (σ 1 * R 1) (σ 2 * R 2) (σ 3 * R 3) (σ 4 * R 4) = Euler.pOf gamma (R 0) (R 1) (R 2) (R 3) (R 4) := by
    have sq : ∀ j < 5, σ j * R j * (σ j * R j) = R j * R j := by
      intro j hj
      rcases hσ j hj with e | e <;> rw [e] <;> ring
    unfold Euler.pOf
    rw [sq 1 (by decide), sq 2 (by decide), sq 3 (by decide), h0, h4, one_mul, one_mul]
  have hl : (List.range 5).map (fun j => σ j * R j) = [σ 0 * R 0, σ 1 * R 1, σ 2 * R 2, σ 3 * R 3, σ 4 * R 4] := rfl
  have hr : (List.range 5).map R = [R 0, R 1, R 2, R 3, R 4] := rfl
  rw [hl, hr]
  have key : ∀ (d P v : ℝ), Euler.combine (-1 * d / R 0 - v) (d / R 0 + v) (-1 * d) d (R 0) (R 0) = 0 ∧
      Euler.combine (-1 * d / R 0 - v) (d / R 0 + v) ((R 4 + P) * (-1 * d / R 0)) ((R 4 + P) * (d / R 0)) (R 4) (R 4) = 0 := by
    intro d P v
    rw [show -1 * d / R 0 - v = -(d / R 0 + v) by ring, show -1 * d = -d by ring, show (R 4 + P) * (-d / R 0) = -((R 4 + P) * (d / R 0)) by ring]
    exact ⟨combine_mirror _ _ _, combine_mirror _ _ _⟩
  rcases (by omega : dim = 0 ∨ dim = 1 ∨ dim = 2) with rfl | rfl | rfl
  · unfold fluxOf
    rw [Euler.hll_dim0, hP, h0, h4, hn, one_mul, one_mul]
    exact key (R 1) _ _
  · unfold fluxOf
    rw [Euler.hll_dim1, hP, h0, h4, hn, one_mul, one_mul]
    exact key (R 2) _ _
  · unfold fluxOf
    rw [Euler.hll_dim2, hP, h0, h4, hn, one_mul, one_mul]
    exact key (R 3) _ _

/-- Magnetic flux in direction 0 between states that mirror each other as at a conducting wall. -/
theorem rusanov_mirror (c : ℝ) {σ R : Nat → ℝ} (h1 : σ 1 = -1) (h2 : σ 2 = -1) (h4 : σ 4 = 1) (h5 : σ 5 = 1) {j : Nat} (hj : 3 ≤ j) :
    (fluxOf (Maxwell.rusanov c 0) ((List.range 6).map fun j => σ j * R j) ((List.range 6).map R)).getD j 0 = 0 := by
  have hl : (List.range 6).map (fun j => σ j * R j) = [σ 0 * R 0, σ 1 * R 1, σ 2 * R 2, σ 3 * R 3, σ 4 * R 4, σ 5 * R 5] := rfl
  have hr : (List.range 6).map R = [R 0, R 1, R 2, R 3, R 4, R 5] := rfl
  rw [hl, hr]
  unfold fluxOf Maxwell.rusanov
  simp only [h1, h2, h4, h5]
  rcases (by omega : j = 3 ∨ j = 4 ∨ j = 5 ∨ 6 ≤ j) with rfl | rfl | rfl | h
  · simp [real_lit]
  · simp
  · simp
  · rw [List.getD_eq_getElem?_getD, List.getElem?_eq_none (by simpa using h)]; rfl

/-- Flux of `By` and `Bz` in any direction between states that mirror each other as at a conducting wall of the code, and that of `Bx` in directions other than 0. -/
theorem rusanov_mirror_any (c : ℝ) (dim : Nat) {σ R : Nat → ℝ} (h0 : σ 0 = -1) (h1 : σ 1 = -1) (h2 : σ 2 = -1) (h3 : σ 3 = -1) (h4 : σ 4 = 1) (h5 : σ 5 = 1) :
    (fluxOf (Maxwell.rusanov c dim) ((List.range 6).map fun j => σ j * R j) ((List.range 6).map R)).getD 4 0 = 0 ∧
    (fluxOf (Maxwell.rusanov c dim) ((List.range 6).map fun j => σ j * R j) ((List.range 6).map R)).getD 5 0 = 0 ∧
    (dim ≠ 0 → (fluxOf (Maxwell.rusanov c dim) ((List.range 6).map fun j => σ j * R j) ((List.range 6).map R)).getD 3 0 = -|c| * R 3) := by
  have hl : (List.range 6).map (fun j => σ j * R j) = [σ 0 * R 0, σ 1 * R 1, σ 2 * R 2, σ 3 * R 3, σ 4 * R 4, σ 5 * R 5] := rfl
  have hr : (List.range 6).map R = [R 0, R 1, R 2, R 3, R 4, R 5] := rfl
  have ha : (Arith.fabs c : ℝ) = |c| := rfl
  rw [hl, hr]
  rcases dim with _ | _ | dim
  · unfold fluxOf Maxwell.rusanov
    simp [h1, h2, h4, h5]
  · unfold fluxOf Maxwell.rusanov
    simp only [h0, h1, h2, h3, h4, h5, real_lit, ha]
    refine ⟨by simp, by simp, fun _ => ?_⟩
    simp
    ring
  · unfold fluxOf Maxwell.rusanov
    simp only [h0, h1, h2, h3, h4, h5, real_lit, ha]
    refine ⟨by simp, by simp, fun _ => ?_⟩
    simp
    ring

/-! ### Ghost cells at walls -/

theorem modify_eq_moveBy {l : Cell} {i : Nat} (h : i < l.length) (f : Int → Int) : l.modify i f = moveBy l i (f (l.getD i 0) - l.getD i 0) := by
  unfold moveBy
  refine List.ext_getElem? fun k => ?_
  rw [List.getElem?_modify, List.getElem?_modify]
  by_cases e : i = k
  · subst e
    simp [List.getElem?_eq_getElem h, List.getD_eq_getElem?_getD]
  · simp [e]

section
variable {M : Box} {p n : Int} {ws ps : List Nat} {flip : Int → Prop} {u u' : Cell → ℝ}

theorem filled_ghost (F : Filled M [(0, p), (0, n)] ws flip ps u u') {i : Nat} (hi' : i ∈ ws) {x : Cell}
    (hx : FaceGhost 2 (M ++ [(0, p), (0, n)]) i x) (σ : Int → ℝ) (hσ : ∀ k, flip k → σ k = -1) (hσ' : ∀ k, ¬ flip k → σ k = 1)
    (hin : InBox (M ++ [(0, p), (0, n)]) (mirrorImage 2 (M ++ [(0, p), (0, n)]) i x)) :
    u' x = σ (component x) * u' (mirrorImage 2 (M ++ [(0, p), (0, n)]) i x) := by
  rw [F.inside _ hin]
  by_cases hf : flip (component x)
  · rw [F.wall_flip i hi' x hx hf, hσ _ hf, real_lit]; push_cast; ring
  · rw [F.wall_keep i hi' x hx hf, hσ' _ hf, one_mul]

/-- Both walls of a direction: the cells around the first and the last face mirror each other. -/
theorem filled_mirrored (F : Filled M [(0, p), (0, n)] ws flip ps u u') {dim : Nat} (hdim : dim ∈ ws) (hd : dim < M.length)
    (hw : 2 ≤ hi M dim - lo M dim) (σ : Int → ℝ) (hσ : ∀ k, flip k → σ k = -1) (hσ' : ∀ k, ¬ flip k → σ k = 1) {N : Nat} (hN : (N : Int) = n)
    {x : Cell} (hx : InBox (M ++ [(0, p)]) x) :
    (x.getD dim 0 = lo M dim → Mirrored N (fun j => σ j) (fun x j => u' (x ++ [(j : Int)])) dim x) ∧
    (x.getD dim 0 = hi M dim - 1 → Mirrored N (fun j => σ j) (fun x j => u' (x ++ [(j : Int)])) dim (moveBy x dim 1)) := by
  have hlen : x.length = M.length + 1 := by rw [hx.length_eq]; simp
  have hdl : dim < (M ++ [((0 : Int), p)]).length := by simp; omega
  have hdl' : dim < (M ++ [((0 : Int), p), (0, n)]).length := by simp; omega
  have hlo : lo (M ++ [((0 : Int), p), (0, n)]) dim = lo M dim := lo_append hd
  have hhi : hi (M ++ [((0 : Int), p), (0, n)]) dim = hi M dim := hi_append hd
  have hin := (inBox_iff _ x).1 hx
  have split : ∀ (a b : Int), slab (M ++ [((0 : Int), p), (0, n)]) dim a b = slab (M ++ [((0 : Int), p)]) dim a b ++ [(0, n)] := by
    intro a b
    unfold slab
    rw [show M ++ [((0 : Int), p), (0, n)] = (M ++ [((0 : Int), p)]) ++ [(0, n)] by simp, List.set_append_left _ _ hdl]
  -- position of `x + s` with component `j` in a slab
  have slabIn : ∀ (a b s : Int) (j : Nat), j < N → a ≤ x.getD dim 0 + s → x.getD dim 0 + s < b →
      InBox (slab (M ++ [((0 : Int), p), (0, n)]) dim a b) (moveBy x dim s ++ [(j : Int)]) := by
    intro a b s j hj h1 h2
    rw [split]
    refine (inBox_snoc (by rw [moveBy_length]; simp [slab, hlen])).2 ⟨?_, by omega, by omega⟩
    rw [inBox_slab hdl]
    refine ⟨by rw [moveBy_length]; exact hin.1, ?_, ?_, ?_⟩
    · rw [moveBy_getD (by omega), if_pos rfl]; exact h1
    · rw [moveBy_getD (by omega), if_pos rfl]; exact h2
    · intro k hk hne
      rw [moveBy_getD (by omega), if_neg hne]; exact hin.2 k hk
  have slabSelf : ∀ B : Box, dim < B.length → slab B dim (lo B dim) (hi B dim) = B := by
    intro B hB
    unfold slab lo hi
    rw [List.getD_eq_getElem?_getD, List.getElem?_eq_getElem hB]
    exact List.set_getElem_self hB
  have inside : ∀ (s : Int) (j : Nat), j < N → lo M dim ≤ x.getD dim 0 + s → x.getD dim 0 + s < hi M dim →
      InBox (M ++ [((0 : Int), p), (0, n)]) (moveBy x dim s ++ [(j : Int)]) := by
    intro s j hj h1 h2
    have := slabIn (lo M dim) (hi M dim) s j hj h1 h2
    rw [← hlo, ← hhi, slabSelf _ hdl'] at this
    exact this
  have comp : ∀ (s : Int) (j : Nat), component (moveBy x dim s ++ [(j : Int)]) = j := by
    intro s j; simp [component]
  have getS : ∀ (s : Int) (j : Nat), (moveBy x dim s ++ [(j : Int)]).getD dim 0 = x.getD dim 0 + s := by
    intro s j
    rw [List.getD_eq_getElem?_getD, List.getElem?_append_left (by rw [moveBy_length]; omega), ← List.getD_eq_getElem?_getD, moveBy_getD (by omega), if_pos rfl]
  have move : ∀ (s r : Int) (j : Nat), moveBy (moveBy x dim s ++ [(j : Int)]) dim r = moveBy x dim (s + r) ++ [(j : Int)] := by
    intro s r j
    rw [moveBy_append (by rw [moveBy_length]; omega), moveBy_moveBy]
  have low : ∀ (s : Int) (j : Nat), j < N → x.getD dim 0 = lo M dim → -2 ≤ s → s < 0 →
      u' (moveBy x dim s ++ [(j : Int)]) = σ j * u' (moveBy x dim (-1 - s) ++ [(j : Int)]) := by
    intro s j hj h0 h1 h2
    have hl : LowGhost 2 (M ++ [((0 : Int), p), (0, n)]) dim (moveBy x dim s ++ [(j : Int)]) := by
      unfold LowGhost; rw [hlo]; exact slabIn _ _ _ _ hj (by omega) (by omega)
    have hm : mirrorImage 2 (M ++ [((0 : Int), p), (0, n)]) dim (moveBy x dim s ++ [(j : Int)]) = moveBy x dim (-1 - s) ++ [(j : Int)] := by
      unfold mirrorImage
      rw [if_pos hl, modify_eq_moveBy (by simp [moveBy_length]; omega), move, getS, hlo, h0]
      congr 2; ring
    have := filled_ghost F hdim (.inl hl) σ hσ hσ' (by rw [hm]; exact inside _ _ hj (by omega) (by omega))
    rw [hm, comp] at this
    exact this
  have up : ∀ (s : Int) (j : Nat), j < N → x.getD dim 0 = hi M dim - 1 → 1 ≤ s → s ≤ 2 →
      u' (moveBy x dim s ++ [(j : Int)]) = σ j * u' (moveBy x dim (1 - s) ++ [(j : Int)]) := by
    intro s j hj h0 h1 h2
    have hl : UpGhost 2 (M ++ [((0 : Int), p), (0, n)]) dim (moveBy x dim s ++ [(j : Int)]) := by
      unfold UpGhost; rw [hhi]; exact slabIn _ _ _ _ hj (by omega) (by omega)
    have hn' : ¬ LowGhost 2 (M ++ [((0 : Int), p), (0, n)]) dim (moveBy x dim s ++ [(j : Int)]) := by
      unfold LowGhost
      rw [inBox_slab hdl', hlo]
      rintro ⟨_, _, h, _⟩
      rw [getS] at h
      omega
    have hm : mirrorImage 2 (M ++ [((0 : Int), p), (0, n)]) dim (moveBy x dim s ++ [(j : Int)]) = moveBy x dim (1 - s) ++ [(j : Int)] := by
      unfold mirrorImage
      rw [if_neg hn', modify_eq_moveBy (by simp [moveBy_length]; omega), move, getS, hhi, h0]
      congr 2; ring
    have := filled_ghost F hdim (.inr hl) σ hσ hσ' (by rw [hm]; exact inside _ _ hj (by omega) (by omega))
    rw [hm, comp] at this
    exact this
  have sq : ∀ k, σ k * σ k = 1 := by
    intro k
    by_cases hf : flip k
    · rw [hσ k hf]; ring
    · rw [hσ' k hf]; ring
  constructor
  · intro h0 j hj
    refine ⟨low (-2) j hj h0 (by omega) (by omega), ?_⟩
    have := low (-1) j hj h0 (by omega) (by omega)
    rw [show (-1 : Int) - -1 = 0 by ring, moveBy_zero] at this
    exact this
  · intro h0 j hj
    simp only [moveBy_moveBy]
    have e1 := up 1 j hj h0 (by omega) (by omega)
    have e2 := up 2 j hj h0 (by omega) (by omega)
    refine ⟨?_, ?_⟩
    · rw [show (1 : Int) + 1 = 2 by ring, e2, show (1 : Int) + -2 = 1 - 2 by ring, ← mul_assoc, sq, one_mul]
    · rw [e1, show (1 : Int) + -1 = 1 - 1 by ring, ← mul_assoc, sq, one_mul]

end

/-! ### Totals -/

/-- No net flow of component `j` in direction `dim`: what goes in through the first face comes out of the last. -/
def Closed (B : Box) (dim : Nat) (f : Cell → ℝ) : Prop :=
  ∀ x, InBox B x → x.getD dim 0 = lo B dim → f (moveBy x dim (hi B dim - lo B dim)) = f x

theorem fvUpdate_closed {B : Box} (hB : Pos B) {n : Nat} {u : Cell → Nat → ℝ} {dims : List Nat} (hd : ∀ dim ∈ dims, dim < B.length)
    (φ : Nat → List ℝ → List ℝ → List ℝ) (dx : Nat → ℝ) (j : Nat) (v : Cell → Nat → ℝ)
    (hc : ∀ dim ∈ dims, Closed B dim fun x => (faceFlux (φ dim) n u dim x).getD j 0) :
    total B (fun x j => fvUpdate φ n u dx dims x j (v x j)) j = total B v j := by
  unfold total
  simp only [fvUpdate_add]
  rw [list_sum_add, list_sum_comm]
  have : ∀ dim ∈ dims, ((cells B).map fun x => (faceFlux (φ dim) n u dim x).getD j 0 / dx dim -
      (faceFlux (φ dim) n u dim (moveBy x dim 1)).getD j 0 / dx dim).sum = 0 := by
    intro dim hdim
    refine sum_shift (hd dim hdim) hB (fun x => (faceFlux (φ dim) n u dim x).getD j 0 / dx dim) ?_
    intro x hx h0
    have := hc dim hdim x hx h0
    dsimp only at this
    rw [this]
  rw [List.map_congr_left this]
  simp

section
variable {M : Box} {p n : Nat} {ws ps : List Nat} {flip : Int → Prop} {u u' : Cell → ℝ}

theorem closed_periodic (F : Filled M [(0, (p : Int)), (0, (n : Int))] ws flip ps u u') {dim : Nat} (hdim : dim ∈ ps) (hd : dim < M.length)
    (hw : 2 ≤ hi M dim - lo M dim) (φ : List ℝ → List ℝ → List ℝ) (j : Nat) :
    Closed (M ++ [(0, (p : Int))]) dim fun x => (faceFlux φ n (fun x j => u' (x ++ [(j : Int)])) dim x).getD j 0 := by
  have hdl : dim < (M ++ [((0 : Int), (p : Int))]).length := by simp; omega
  intro x hx h0
  rw [lo_append hd] at h0 ⊢
  dsimp only
  rw [hi_append hd, faceFlux_periodic (g := 2) (le_refl _) hd (by omega) ?_ φ hx h0]
  intro y hy k hk
  have hgh := periodicImage_snoc (n := (n : Int)) (j := (k : Int)) hdl (by omega) (by omega) hy
  have split : M ++ [((0 : Int), (p : Int)), (0, (n : Int))] = (M ++ [((0 : Int), (p : Int))]) ++ [(0, (n : Int))] := by simp
  have e := F.wrap dim hdim (y ++ [(k : Int)]) (by rw [split]; exact hgh.1)
  rw [split, hgh.2] at e
  rw [e, F.inside]
  rw [split, ← hgh.2]
  exact periodicImage_interior (by simp; omega) (by rw [lo_append hdl, hi_append hdl, lo_append hd, hi_append hd]; exact hw) hgh.1

/-- Directions with walls where component `j` does not pass through the walls. -/
theorem closed_wall {dim : Nat} (hd : dim < M.length) (hw : 2 ≤ hi M dim - lo M dim) (f : Cell → ℝ)
    (hl : ∀ x, InBox (M ++ [(0, (p : Int))]) x → x.getD dim 0 = lo M dim → f x = 0)
    (hu : ∀ x, InBox (M ++ [(0, (p : Int))]) x → x.getD dim 0 = hi M dim - 1 → f (moveBy x dim 1) = 0) :
    Closed (M ++ [(0, (p : Int))]) dim f := by
  intro x hx h0
  have hdl : dim < (M ++ [((0 : Int), (p : Int))]).length := by simp; omega
  have hxl : dim < x.length := by rw [hx.length_eq]; exact hdl
  rw [lo_append hd] at h0 ⊢
  rw [hi_append hd, hl x hx h0]
  have hin := (inBox_iff _ x).1 hx
  have := hu (moveBy x dim (hi M dim - lo M dim - 1)) ?_ ?_
  · rw [moveBy_moveBy] at this
    rw [← this]; congr 2; ring
  · rw [inBox_iff]
    refine ⟨by rw [moveBy_length]; exact hin.1, ?_⟩
    intro k hk
    rw [moveBy_getD hxl]
    split
    · rename_i e
      subst e
      rw [lo_append hd, hi_append hd]
      omega
    · exact hin.2 k hk
  · rw [moveBy_getD hxl, if_pos rfl, h0]; ring

end

theorem fieldTotal_congr {M : Box} {p j : Nat} {u v : Cell → ℝ} (h : ∀ x, InBox (M ++ [(0, (p : Int))]) x → u (x ++ [(j : Int)]) = v (x ++ [(j : Int)])) :
    fieldTotal M p u j = fieldTotal M p v j := by
  unfold fieldTotal total
  congr 1
  exact List.map_congr_left fun x hx => h x (mem_cells.1 hx)

theorem fieldTotal_rk {M : Box} {p j k : Nat} {t T : ℝ} {u0 u r v : Cell → ℝ} (hv : ∀ x, v x = rkStage k t (u0 x) (u x) (r x))
    (h0 : fieldTotal M p u0 j = T) (h1 : fieldTotal M p u j = T) (h2 : fieldTotal M p r j = 0) : fieldTotal M p v j = T := by
  unfold fieldTotal total at *
  simp only [hv]
  rcases (by omega : k = 0 ∨ k = 1 ∨ 2 ≤ k) with rfl | rfl | hk
  · simp only [rkStage, list_sum_add, list_sum_mul, h0, h2]; ring
  · simp only [rkStage, list_sum_add, list_sum_mul, h0, h1, h2, real_lit]; push_cast; ring
  · obtain ⟨k, rfl⟩ : ∃ k', k = k' + 2 := ⟨k - 2, by omega⟩
    have e : ∀ x : Cell, rkStage (k + 2) t (u0 (x ++ [(j : Int)])) (u (x ++ [(j : Int)])) (r (x ++ [(j : Int)])) =
        1 / 3 * u0 (x ++ [(j : Int)]) + (2 / 3 * u (x ++ [(j : Int)]) + 2 / 3 * t * r (x ++ [(j : Int)])) := by
      intro x
      simp only [rkStage, real_lit]
      push_cast
      ring
    simp only [e, list_sum_add, list_sum_mul, h0, h1, h2]; ring

theorem fieldTotal_zero {M : Box} {p j : Nat} : total (M ++ [(0, (p : Int))]) (fun _ _ => (0 : ℝ)) j = 0 := by
  simp [total]

theorem snoc_ne {x y : Cell} {a b : Int} (h : a ≠ b) : x ++ [a] ≠ y ++ [b] := by
  intro e
  have := congrArg component e
  simp [component] at this
  exact h this

section
variable {M : Box} {p : Nat} {ws ps : List Nat} {u u' : Cell → ℝ}

/-- Mass and energy flux through no-slip walls. -/
theorem fluid_wall (F : Filled M [(0, (p : Int)), (0, 5)] ws isMomentum ps u u') {dim : Nat} (hdim : dim ∈ ws) (hd : dim < M.length) (h3 : dim < 3)
    (hw : 2 ≤ hi M dim - lo M dim) (gamma : ℝ) {x : Cell} (hx : InBox (M ++ [(0, (p : Int))]) x) {j : Nat} (hj : j = 0 ∨ j = 4) :
    (x.getD dim 0 = lo M dim → (faceFlux (fluxOf (Euler.hll gamma dim)) 5 (fun x j => u' (x ++ [(j : Int)])) dim x).getD j 0 = 0) ∧
    (x.getD dim 0 = hi M dim - 1 →
      (faceFlux (fluxOf (Euler.hll gamma dim)) 5 (fun x j => u' (x ++ [(j : Int)])) dim (moveBy x dim 1)).getD j 0 = 0) := by
  have σp : ∀ k, isMomentum k → (if k = 1 ∨ k = 2 ∨ k = 3 then (-1 : ℝ) else 1) = -1 := fun k hk => if_pos hk
  have σn : ∀ k, ¬ isMomentum k → (if k = 1 ∨ k = 2 ∨ k = 3 then (-1 : ℝ) else 1) = 1 := fun k hk => if_neg hk
  have flux : ∀ z, Mirrored 5 (fun j => if (j : Int) = 1 ∨ (j : Int) = 2 ∨ (j : Int) = 3 then (-1 : ℝ) else 1) (fun x j => u' (x ++ [(j : Int)])) dim z →
      (faceFlux (fluxOf (Euler.hll gamma dim)) 5 (fun x j => u' (x ++ [(j : Int)])) dim z).getD j 0 = 0 := by
    intro z hz
    obtain ⟨R, hR⟩ := faceFlux_mirrored (fun j _ => by split <;> simp) hz (fluxOf (Euler.hll gamma dim))
    rw [hR]
    have := hll_mirror gamma (dim := dim) h3 (σ := fun j => if (j : Int) = 1 ∨ (j : Int) = 2 ∨ (j : Int) = 3 then (-1 : ℝ) else 1) (R := R)
      (fun j _ => by split <;> simp) (by simp) (by simp) (by rw [if_pos]; omega)
    rcases hj with rfl | rfl
    · exact this.1
    · exact this.2
  have key := filled_mirrored (N := 5) F hdim hd hw _ σp σn rfl hx
  exact ⟨fun h0 => flux x (key.1 h0), fun h0 => flux _ (key.2 h0)⟩

/-- Magnetic flux through conducting walls in direction 0. -/
theorem field_wall (F : Filled M [(0, (p : Int)), (0, 6)] ws isWallField ps u u') (hdim : 0 ∈ ws) (hd : 0 < M.length)
    (hw : 2 ≤ hi M 0 - lo M 0) (c : ℝ) {x : Cell} (hx : InBox (M ++ [(0, (p : Int))]) x) {j : Nat} (hj : 3 ≤ j) :
    (x.getD 0 0 = lo M 0 → (faceFlux (fluxOf (Maxwell.rusanov c 0)) 6 (fun x j => u' (x ++ [(j : Int)])) 0 x).getD j 0 = 0) ∧
    (x.getD 0 0 = hi M 0 - 1 →
      (faceFlux (fluxOf (Maxwell.rusanov c 0)) 6 (fun x j => u' (x ++ [(j : Int)])) 0 (moveBy x 0 1)).getD j 0 = 0) := by
  have σp : ∀ k, isWallField k → (if k = 0 ∨ k = 1 ∨ k = 2 ∨ k = 3 then (-1 : ℝ) else 1) = -1 := fun k hk => if_pos hk
  have σn : ∀ k, ¬ isWallField k → (if k = 0 ∨ k = 1 ∨ k = 2 ∨ k = 3 then (-1 : ℝ) else 1) = 1 := fun k hk => if_neg hk
  have flux : ∀ z, Mirrored 6 (fun j => if (j : Int) = 0 ∨ (j : Int) = 1 ∨ (j : Int) = 2 ∨ (j : Int) = 3 then (-1 : ℝ) else 1) (fun x j => u' (x ++ [(j : Int)])) 0 z →
      (faceFlux (fluxOf (Maxwell.rusanov c 0)) 6 (fun x j => u' (x ++ [(j : Int)])) 0 z).getD j 0 = 0 := by
    intro z hz
    obtain ⟨R, hR⟩ := faceFlux_mirrored (fun j _ => by split <;> simp) hz (fluxOf (Maxwell.rusanov c 0))
    rw [hR]
    exact rusanov_mirror c (σ := fun j => if (j : Int) = 0 ∨ (j : Int) = 1 ∨ (j : Int) = 2 ∨ (j : Int) = 3 then (-1 : ℝ) else 1) (R := R)
      (by simp) (by simp) (by simp) (by simp) hj
  have key := filled_mirrored (N := 6) F hdim hd hw _ σp σn rfl hx
  exact ⟨fun h0 => flux x (key.1 h0), fun h0 => flux _ (key.2 h0)⟩

/-- The state that the reconstruction gives below (`.1`) and above (`.2`) the face below `z`, component `j`. -/
theorem faceFlux_mirrored_states {n : Nat} {σ : Nat → ℝ} {w : Cell → Nat → ℝ} {dim : Nat} {z : Cell} (hσ : ∀ j < n, σ j = 1 ∨ σ j = -1)
    (h : Mirrored n σ w dim z) (φ : List ℝ → List ℝ → List ℝ) :
    ∃ R : Nat → ℝ, faceFlux φ n w dim z = φ ((List.range n).map fun j => σ j * R j) ((List.range n).map R) ∧
      ∀ j < n, FV.recon (w (moveBy z dim (-2)) j) (w (moveBy z dim (-1)) j) (w z j) (w (moveBy z dim 1) j) = (σ j * R j, R j) := by
  have key : ∀ j < n, FV.recon (w (moveBy z dim (-2)) j) (w (moveBy z dim (-1)) j) (w z j) (w (moveBy z dim 1) j) =
      (σ j * (FV.recon (w (moveBy z dim (-2)) j) (w (moveBy z dim (-1)) j) (w z j) (w (moveBy z dim 1) j)).2,
        (FV.recon (w (moveBy z dim (-2)) j) (w (moveBy z dim (-1)) j) (w z j) (w (moveBy z dim 1) j)).2) := by
    intro j hj
    obtain ⟨v, hv⟩ := recon_mirror (hσ j hj) (w z j) (w (moveBy z dim 1) j)
    rw [(h j hj).1, (h j hj).2, hv]
  refine ⟨fun j => (FV.recon (w (moveBy z dim (-2)) j) (w (moveBy z dim (-1)) j) (w z j) (w (moveBy z dim 1) j)).2, ?_, key⟩
  unfold faceFlux
  simp only
  congr 1
  exact List.map_congr_left fun j hj => congrArg Prod.fst (key j (List.mem_range.1 hj))

/-- Magnetic flux through the conducting walls of the code in any direction. -/
theorem field_wall_any (F : Filled M [(0, (p : Int)), (0, 6)] ws isWallField ps u u') {dim : Nat} (hdim : dim ∈ ws) (hd : dim < M.length)
    (hw : 2 ≤ hi M dim - lo M dim) (c : ℝ) {x z : Cell} (hx : InBox (M ++ [(0, (p : Int))]) x)
    (hz : x.getD dim 0 = lo M dim ∧ z = x ∨ x.getD dim 0 = hi M dim - 1 ∧ z = moveBy x dim 1) :
    (faceFlux (fluxOf (Maxwell.rusanov c dim)) 6 (fun x j => u' (x ++ [(j : Int)])) dim z).getD 4 0 = 0 ∧
    (faceFlux (fluxOf (Maxwell.rusanov c dim)) 6 (fun x j => u' (x ++ [(j : Int)])) dim z).getD 5 0 = 0 ∧
    ∃ B, FV.recon (u' (moveBy z dim (-2) ++ [3])) (u' (moveBy z dim (-1) ++ [3])) (u' (z ++ [3])) (u' (moveBy z dim 1 ++ [3])) = (-B, B) ∧
      (dim ≠ 0 → (faceFlux (fluxOf (Maxwell.rusanov c dim)) 6 (fun x j => u' (x ++ [(j : Int)])) dim z).getD 3 0 = -|c| * B) := by
  have σp : ∀ k, isWallField k → (if k = 0 ∨ k = 1 ∨ k = 2 ∨ k = 3 then (-1 : ℝ) else 1) = -1 := fun k hk => if_pos hk
  have σn : ∀ k, ¬ isWallField k → (if k = 0 ∨ k = 1 ∨ k = 2 ∨ k = 3 then (-1 : ℝ) else 1) = 1 := fun k hk => if_neg hk
  have key := filled_mirrored (N := 6) F hdim hd hw _ σp σn rfl hx
  have hm : Mirrored 6 (fun j => if (j : Int) = 0 ∨ (j : Int) = 1 ∨ (j : Int) = 2 ∨ (j : Int) = 3 then (-1 : ℝ) else 1) (fun x j => u' (x ++ [(j : Int)])) dim z := by
    rcases hz with ⟨h, rfl⟩ | ⟨h, rfl⟩
    · exact key.1 h
    · exact key.2 h
  obtain ⟨R, hR, hS⟩ := faceFlux_mirrored_states (fun j _ => by split <;> simp) hm (fluxOf (Maxwell.rusanov c dim))
  have := rusanov_mirror_any c dim (σ := fun j => if (j : Int) = 0 ∨ (j : Int) = 1 ∨ (j : Int) = 2 ∨ (j : Int) = 3 then (-1 : ℝ) else 1) (R := R)
      (by simp) (by simp) (by simp) (by simp) (by simp) (by simp)
  rw [hR]
  refine ⟨this.1, this.2.1, R 3, ?_, this.2.2⟩
  have := hS 3 (by decide)
  simpa using this

/-- `By` and `Bz` do not pass through the conducting walls of the code, whatever their direction. -/
theorem field_closed_any (hws : ∀ i ∈ ws, 2 ≤ hi M i - lo M i) (hps : ∀ i ∈ ps, 2 ≤ hi M i - lo M i)
    (hall : ∀ d < M.length, d ∈ ws ∨ d ∈ ps)
    (F : Filled M [(0, (p : Int)), (0, 6)] ws isWallField ps u u') (c : ℝ) {dim : Nat} (hdim : dim < M.length) {j : Nat} (hj : j = 4 ∨ j = 5) :
    Closed (M ++ [(0, (p : Int))]) dim fun x => (faceFlux (fluxOf (Maxwell.rusanov c dim)) 6 (fun x j => u' (x ++ [(j : Int)])) dim x).getD j 0 := by
  rcases hall dim hdim with h | h
  · refine closed_wall hdim (hws dim h) _ (fun x hx h0 => ?_) (fun x hx h0 => ?_)
    · have := field_wall_any F h hdim (hws dim h) c hx (.inl ⟨h0, rfl⟩)
      rcases hj with rfl | rfl
      · exact this.1
      · exact this.2.1
    · have := field_wall_any F h hdim (hws dim h) c hx (.inr ⟨h0, rfl⟩)
      rcases hj with rfl | rfl
      · exact this.1
      · exact this.2.1
  · exact closed_periodic (n := 6) F h hdim (hps dim h) _ j

/-- The mass and the energy of a fluid do not leave. -/
theorem fluid_closed (h3 : M.length ≤ 3) (hws : ∀ i ∈ ws, 2 ≤ hi M i - lo M i) (hps : ∀ i ∈ ps, 2 ≤ hi M i - lo M i) (hall : ∀ d < M.length, d ∈ ws ∨ d ∈ ps)
    (F : Filled M [(0, (p : Int)), (0, 5)] ws isMomentum ps u u') (gamma : ℝ) {dim : Nat} (hdim : dim < M.length) {j : Nat} (hj : j = 0 ∨ j = 4) :
    Closed (M ++ [(0, (p : Int))]) dim fun x => (faceFlux (fluxOf (Euler.hll gamma dim)) 5 (fun x j => u' (x ++ [(j : Int)])) dim x).getD j 0 := by
  rcases hall dim hdim with h | h
  · exact closed_wall hdim (hws dim h) _ (fun x hx => (fluid_wall F h hdim (by omega) (hws dim h) gamma hx hj).1)
      (fun x hx => (fluid_wall F h hdim (by omega) (hws dim h) gamma hx hj).2)
  · exact closed_periodic (n := 5) F h hdim (hps dim h) _ j

/-- The magnetic field does not pass through conducting walls in direction 0. -/
theorem field_closed (h0 : ∀ i ∈ ws, i = 0) (hws : ∀ i ∈ ws, 2 ≤ hi M i - lo M i) (hps : ∀ i ∈ ps, 2 ≤ hi M i - lo M i)
    (hall : ∀ d < M.length, d ∈ ws ∨ d ∈ ps)
    (F : Filled M [(0, (p : Int)), (0, 6)] ws isWallField ps u u') (c : ℝ) {dim : Nat} (hdim : dim < M.length) {j : Nat} (hj : 3 ≤ j) :
    Closed (M ++ [(0, (p : Int))]) dim fun x => (faceFlux (fluxOf (Maxwell.rusanov c dim)) 6 (fun x j => u' (x ++ [(j : Int)])) dim x).getD j 0 := by
  rcases hall dim hdim with h | h
  · obtain rfl := h0 dim h
    exact closed_wall hdim (hws 0 h) _ (fun x hx => (field_wall F h hdim (hws 0 h) c hx hj).1) (fun x hx => (field_wall F h hdim (hws 0 h) c hx hj).2)
  · exact closed_periodic (n := 6) F h hdim (hps dim h) _ j

end

theorem pos_points {M : Box} {p : Nat} (hM : Pos M) (hp : 1 ≤ p) : Pos (M ++ [((0 : Int), (p : Int))]) := by
  rw [pos_append]; exact ⟨hM, by intro d hd; simp at hd; subst hd; simp; omega⟩

theorem fluidRate_total {M : Box} {p : Nat} (hp : 1 ≤ p) (hM : Pos M) (h3 : M.length ≤ 3) {ws ps : List Nat} {u u' w r : Cell → ℝ}
    (hws : ∀ i ∈ ws, 2 ≤ hi M i - lo M i) (hps : ∀ i ∈ ps, 2 ≤ hi M i - lo M i) (hall : ∀ d < M.length, d ∈ ws ∨ d ∈ ps)
    (F : Filled M [(0, (p : Int)), (0, 5)] ws isMomentum ps u u') {gamma com : ℝ} {dx : Nat → ℝ} (hr : FluidRate M p dx gamma com u' w r) :
    fieldTotal M p r 0 = 0 := by
  obtain ⟨r0, h1, h2⟩ := hr
  have e : fieldTotal M p r 0 = total (M ++ [(0, (p : Int))])
      (fun x j => fvUpdate (fun dim => fluxOf (Euler.hll gamma dim)) 5 (fun x j => u' (x ++ [(j : Int)])) dx (List.range M.length) x j 0) 0 := by
    unfold fieldTotal total
    congr 1
    refine List.map_congr_left fun x hx => ?_
    dsimp only
    rw [h2.rest _ (fun y k _ _ _ => snoc_ne (by simp; omega)), h1 x (mem_cells.1 hx) 0 (by decide), real_lit]
    norm_num
  rw [e, fvUpdate_closed (pos_points hM hp) (by intro d hd; simp at hd ⊢; omega) _ _ _ (fun _ _ => 0), fieldTotal_zero]
  intro dim hdim
  exact fluid_closed h3 hws hps hall F gamma (by simpa using hdim) (.inl rfl)

theorem fieldRate_total {M : Box} {p : Nat} (hp : 1 ≤ p) (hM : Pos M) (h3 : M.length ≤ 3) {ws ps : List Nat} {u u' r : Cell → ℝ} (h0 : ∀ i ∈ ws, i = 0)
    (hws : ∀ i ∈ ws, 2 ≤ hi M i - lo M i) (hps : ∀ i ∈ ps, 2 ≤ hi M i - lo M i) (hall : ∀ d < M.length, d ∈ ws ∨ d ∈ ps)
    (F : Filled M [(0, (p : Int)), (0, 6)] ws isWallField ps u u') {c : ℝ} {dx : Nat → ℝ} {fluids : List (ℝ × (Cell → ℝ))} (hr : FieldRate M p dx c fluids u' r)
    {j : Nat} (hj : 3 ≤ j) (hj' : j < 6) : fieldTotal M p r j = 0 := by
  obtain ⟨r0, h1, h2⟩ := hr
  have e : fieldTotal M p r j = total (M ++ [(0, (p : Int))])
      (fun x j => fvUpdate (fun dim => fluxOf (Maxwell.rusanov c dim)) 6 (fun x j => u' (x ++ [(j : Int)])) dx (List.range (min M.length 3)) x j 0) j := by
    unfold fieldTotal total
    congr 1
    refine List.map_congr_left fun x hx => ?_
    dsimp only
    rw [h2.rest _ (fun y k _ _ h4 => snoc_ne (by omega)), h1 x (mem_cells.1 hx) j hj', real_lit]
    norm_num
  rw [e, fvUpdate_closed (pos_points hM hp) (by intro d hd; simp at hd ⊢; omega) _ _ _ (fun _ _ => 0), fieldTotal_zero]
  intro dim hdim
  exact field_closed h0 hws hps hall F c (by simp at hdim; omega) hj

theorem fieldRate_total_any {M : Box} {p : Nat} (hp : 1 ≤ p) (hM : Pos M) {ws ps : List Nat} {u u' r : Cell → ℝ}
    (hws : ∀ i ∈ ws, 2 ≤ hi M i - lo M i) (hps : ∀ i ∈ ps, 2 ≤ hi M i - lo M i) (hall : ∀ d < M.length, d ∈ ws ∨ d ∈ ps)
    (F : Filled M [(0, (p : Int)), (0, 6)] ws isWallField ps u u') {c : ℝ} {dx : Nat → ℝ} {fluids : List (ℝ × (Cell → ℝ))} (hr : FieldRate M p dx c fluids u' r)
    {j : Nat} (hj : j = 4 ∨ j = 5) : fieldTotal M p r j = 0 := by
  obtain ⟨r0, h1, h2⟩ := hr
  have e : fieldTotal M p r j = total (M ++ [(0, (p : Int))])
      (fun x j => fvUpdate (fun dim => fluxOf (Maxwell.rusanov c dim)) 6 (fun x j => u' (x ++ [(j : Int)])) dx (List.range (min M.length 3)) x j 0) j := by
    unfold fieldTotal total
    congr 1
    refine List.map_congr_left fun x hx => ?_
    dsimp only
    rw [h2.rest _ (fun y k _ _ h4 => snoc_ne (by omega)), h1 x (mem_cells.1 hx) j (by omega), real_lit]
    norm_num
  rw [e, fvUpdate_closed (pos_points hM hp) (by intro d hd; simp at hd ⊢; omega) _ _ _ (fun _ _ => 0), fieldTotal_zero]
  intro dim hdim
  exact field_closed_any hws hps hall F c (by simp at hdim; omega) hj

theorem filled_total {M : Box} {p n : Nat} {ws ps : List Nat} {flip : Int → Prop} {u u' : Cell → ℝ}
    (F : Filled M [(0, (p : Int)), (0, (n : Int))] ws flip ps u u') {j : Nat} (hj : j < n) : fieldTotal M p u' j = fieldTotal M p u j := by
  refine fieldTotal_congr fun x hx => F.inside _ ?_
  rw [show M ++ [((0 : Int), (p : Int)), (0, (n : Int))] = (M ++ [((0 : Int), (p : Int))]) ++ [(0, (n : Int))] by simp]
  exact (inBox_snoc hx.length_eq).2 ⟨hx, by omega, by omega⟩

end QK
