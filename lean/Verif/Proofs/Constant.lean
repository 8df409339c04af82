import Verif.Proofs.Stencil
/-
Components that keep one value, in exact arithmetic: along directions in which nothing varies there is no net flux, and along the others the flux of the component is constant.
-/
namespace QK
open Spec

/-- Component `j` has the value `a` in all cells, and nothing varies along the directions `D`. -/
structure Flat (M : Box) (p : Int) (n : Nat) (D : List Nat) (j : Nat) (a : ℝ) (u : Cell → ℝ) : Prop where
  value : ∀ x, InBox (M ++ [(0, p)]) x → u (x ++ [(j : Int)]) = a
  uniform : ∀ d ∈ D, ∀ t, AgreeBy (Shifted M p d t) n u u

/-- The same including the ghost cells. -/
structure FlatAround (M : Box) (p : Int) (n : Nat) (D : List Nat) (j : Nat) (a : ℝ) (u : Cell → ℝ) : Prop where
  value : ∀ x, InBox (M ++ [(0, p)]) x → ∀ dim < M.length, ∀ s : Int, -2 ≤ s → s ≤ 2 → u (moveBy x dim s ++ [(j : Int)]) = a
  uniform : ∀ d ∈ D, ∀ x, InBox (M ++ [(0, p)]) x → ∀ s : Int, -2 ≤ s → s ≤ 2 → ∀ k < n, u (moveBy x d s ++ [(k : Int)]) = u (x ++ [(k : Int)])

section
variable {M : Box} {p : Int} {n : Nat} {ws ps D : List Nat} {flip : Int → Prop} {j : Nat} {a : ℝ}

theorem image_shifted {x : Cell} (hx : InBox (M ++ [(0, p)]) x) {d : Nat} (hd : d < M.length) (hw : 2 ≤ hi M d - lo M d) (hn : d ∉ ws) {s : Int} (h1 : -2 ≤ s) (h2 : s ≤ 2) :
    Shifted M p d s x (image M ws x d s) := by
  refine ⟨hx, image_mesh hx hd hw h1 h2, ?_⟩
  unfold image
  rw [show decide (d ∈ ws) = false by simpa using hn]
  obtain ⟨m, e⟩ := imageShift_wrap (lo M d) (hi M d) (x.getD d 0) s
  exact ⟨m, by rw [e]⟩

theorem flat_fill (hw : ∀ d < M.length, 2 ≤ hi M d - lo M d) (hc : ∀ d < M.length, d ∈ ws ∨ d ∈ ps) (hD : ∀ d ∈ D, d < M.length ∧ d ∉ ws) (hj : j < n) (hf : flip j → a = 0 ∨ ws = [])
    {u u' : Cell → ℝ} (F : Filled M [(0, p), (0, (n : Int))] ws flip ps u u') (h : Flat M p n D j a u) : Flat M p n D j a u' ∧ FlatAround M p n D j a u' := by
  have inb : ∀ {x}, InBox (M ++ [(0, p)]) x → ∀ {k : Nat}, k < n → InBox (M ++ [((0 : Int), p), (0, (n : Int))]) (x ++ [(k : Int)]) := by
    intro x hx k hk
    rw [show M ++ [((0 : Int), p), (0, (n : Int))] = (M ++ [((0 : Int), p)]) ++ [(0, (n : Int))] by simp]
    exact (inBox_snoc hx.length_eq).2 ⟨hx, by omega, by omega⟩
  refine ⟨⟨?_, ?_⟩, ⟨?_, ?_⟩⟩
  · intro x hx; rw [F.inside _ (inb hx hj), h.value x hx]
  · intro d hd t
    exact (filled_agree (symmetry_shift hw (hD d hd).1 (hD d hd).2 t).reads hw hc F F (h.uniform d hd t)).2
  · intro x hx dim hdim s h1 h2
    obtain ⟨b1, b2⟩ := filled_image F hx hdim (hw dim hdim) (hc dim hdim) h1 h2 hj
    have e := h.value _ (image_mesh (ws := ws) hx hdim (hw dim hdim) h1 h2)
    by_cases c : Beyond M x dim s ∧ dim ∈ ws ∧ flip j
    · have hz : a = 0 := (hf c.2.2).resolve_right (by intro h; simp [h] at c)
      rw [b1 c, e, hz]; simp
    · rw [b2 c, e]
  · intro d hd x hx s h1 h2 k hk
    obtain ⟨hdl, hdn⟩ := hD d hd
    obtain ⟨-, b2⟩ := filled_image F hx hdl (hw d hdl) (hc d hdl) h1 h2 hk
    rw [b2 (fun c => hdn c.2.1), F.inside _ (inb hx hk)]
    exact (h.uniform d hd s (image_shifted hx hdl (hw d hdl) hdn h1 h2) hk).symm

/-- The flux of component `j` is constant if the component is. -/
def SteadyFlux (n j : Nat) (a : ℝ) (φ : List ℝ → List ℝ → List ℝ) : Prop :=
  ∃ F : ℝ, ∀ L R : Nat → ℝ, L j = a → R j = a → (φ ((List.range n).map L) ((List.range n).map R)).getD j 0 = F

theorem flat_fv {φ : Nat → List ℝ → List ℝ → List ℝ} {dims : List Nat} (hdims : ∀ d ∈ dims, d < M.length) (hφ : ∀ d ∈ dims, d ∉ D → SteadyFlux n j a (φ d)) {u : Cell → ℝ}
    (h : FlatAround M p n D j a u) {x : Cell} (hx : InBox (M ++ [(0, p)]) x) (dx : Nat → ℝ) :
    fvUpdate φ n (fun x j => u (x ++ [(j : Int)])) dx dims x j (Arith.lit 0) = 0 := by
  rw [fvUpdate_add]
  have : ∀ d ∈ dims, (faceFlux (φ d) n (fun x j => u (x ++ [(j : Int)])) d x).getD j 0 / dx d - (faceFlux (φ d) n (fun x j => u (x ++ [(j : Int)])) d (moveBy x d 1)).getD j 0 / dx d = 0 := by
    intro d hd
    by_cases c : d ∈ D
    · rw [faceFlux_const (φ d) n (w := fun k => u (x ++ [(k : Int)])) (fun t h1 h2 k hk => h.uniform d c x hx t h1 (by omega) k hk),
        faceFlux_const (φ d) n (x := moveBy x d 1) (w := fun k => u (x ++ [(k : Int)])) (fun t h1 h2 k hk => by
          rw [moveBy_moveBy]; exact h.uniform d c x hx _ (by omega) (by omega) k hk)]
      ring
    · obtain ⟨F, hF⟩ := hφ d hd c
      have key : ∀ y, (∀ t : Int, -2 ≤ t → t ≤ 1 → u (moveBy y d t ++ [(j : Int)]) = a) → (faceFlux (φ d) n (fun x j => u (x ++ [(j : Int)])) d y).getD j 0 = F := by
        intro y hy
        unfold faceFlux
        have h0 := hy 0 (by decide) (by decide)
        rw [moveBy_zero] at h0
        refine hF _ _ ?_ ?_ <;>
        · dsimp only
          rw [hy _ (by decide) (by decide), hy _ (by decide) (by decide), h0, hy _ (by decide) (by decide), recon_const]
      rw [key x (fun t h1 h2 => h.value x hx d (hdims d hd) t h1 (by omega)), key (moveBy x d 1) (fun t h1 h2 => by
        rw [moveBy_moveBy]; exact h.value x hx d (hdims d hd) _ (by omega) (by omega))]
      ring
  rw [List.map_congr_left this]
  simp [real_lit]

theorem rkStage_fixed (k : Nat) (t a : ℝ) : rkStage k t a a 0 = a := by
  match k with
  | 0 => simp [rkStage]
  | 1 => simp only [rkStage, real_lit]; push_cast; ring
  | k + 2 => simp only [rkStage, real_lit]; push_cast; ring

theorem soloStep_flat (hw : ∀ d < M.length, 2 ≤ hi M d - lo M d) (hc : ∀ d < M.length, d ∈ ws ∨ d ∈ ps) (hD : ∀ d ∈ D, d < M.length ∧ d ∉ ws) (hj : j < n) (hf : flip j → a = 0 ∨ ws = [])
    {Rate : (Cell → ℝ) → (Cell → ℝ) → Prop} (hr : ∀ {u r}, FlatAround M p n D j a u → Rate u r → ∀ x, InBox (M ++ [(0, p)]) x → r (x ++ [(j : Int)]) = 0)
    (hs : ∀ {R : Cell → Cell → Prop}, Symmetry M p ws R → ∀ {u v r r' : Cell → ℝ}, AgreeAround M R n u v → Rate u r → Rate v r' → AgreeBy R n r r')
    {t : ℝ} {q q' : Cell → ℝ} (H : SoloStep M p n ws flip ps Rate t q q') (h : Flat M p n D j a q) : Flat M p n D j a q' := by
  have stage : ∀ {k : Nat} {q0 q q' r q1 : Cell → ℝ}, SoloStage M p n ws flip ps Rate t k q0 q q' r q1 → Flat M p n D j a q → (Flat M p n D j a q' → Flat M p n D j a q0) → Flat M p n D j a q1 := by
    intro k q0 q q' r q1 S h h0
    obtain ⟨f1, f2⟩ := flat_fill hw hc hD hj hf S.fill h
    have h0 := h0 f1
    refine ⟨?_, ?_⟩
    · intro x hx
      rw [S.next, h0.value x hx, f1.value x hx, hr f2 S.rates x hx, rkStage_fixed]
    · intro d hd b
      have Y : Symmetry M p ws (Shifted M p d b) := symmetry_shift hw (hD d hd).1 (hD d hd).2 b
      exact rk_agree (h0.uniform d hd b) (f1.uniform d hd b) (hs Y (filled_agree Y.reads hw hc S.fill S.fill (h.uniform d hd b)).1 S.rates S.rates) S.next S.next
  obtain ⟨q0, r0, q1, q1', r1, q2, q2', r2, H0, H1, H2⟩ := H
  have h0 := (flat_fill hw hc hD hj hf H0.fill h).1
  exact stage H2 (stage H1 (stage H0 h id) fun _ => h0) fun _ => h0

/-- Gas: the flux of a momentum across the direction of the face is zero if the momentum is. -/
theorem euler_steady (gamma : ℝ) {d j : Nat} (hd : d < 3) (h1 : 1 ≤ j) (h3 : j ≤ 3) (hne : j ≠ d + 1) : SteadyFlux 5 j 0 (fluxOf (Euler.hll gamma (d : Int))) := by
  refine ⟨0, fun L R hL hR => ?_⟩
  have hl : (List.range 5).map L = [L 0, L 1, L 2, L 3, L 4] := rfl
  have hr : (List.range 5).map R = [R 0, R 1, R 2, R 3, R 4] := rfl
  rw [hl, hr]
  unfold fluxOf
  obtain rfl | rfl | rfl : d = 0 ∨ d = 1 ∨ d = 2 := by omega
  · rw [Euler.hll_dim0]
    obtain rfl | rfl : j = 2 ∨ j = 3 := by omega
    · simp [Euler.hllWith, Euler.of5, Euler.combine, hL, hR]
    · simp [Euler.hllWith, Euler.of5, Euler.combine, hL, hR]
  · rw [Euler.hll_dim1]
    obtain rfl | rfl : j = 1 ∨ j = 3 := by omega
    · simp [Euler.hllWith, Euler.of5, Euler.combine, hL, hR]
    · simp [Euler.hllWith, Euler.of5, Euler.combine, hL, hR]
  · rw [Euler.hll_dim2]
    obtain rfl | rfl : j = 1 ∨ j = 2 := by omega
    · simp [Euler.hllWith, Euler.of5, Euler.combine, hL, hR]
    · simp [Euler.hllWith, Euler.of5, Euler.combine, hL, hR]

/-- Light: the flux of the components of the fields along the direction of the face is zero. -/
theorem maxwell_normal (c : ℝ) {d j : Nat} (hd : d < 3) (hj : j = d ∨ j = d + 3) (L R : Nat → ℝ) :
    (fluxOf (Maxwell.rusanov c d) ((List.range 6).map L) ((List.range 6).map R)).getD j 0 = 0 := by
  have hl : (List.range 6).map L = [L 0, L 1, L 2, L 3, L 4, L 5] := rfl
  have hr : (List.range 6).map R = [R 0, R 1, R 2, R 3, R 4, R 5] := rfl
  rw [hl, hr]
  unfold fluxOf Maxwell.rusanov
  obtain rfl | rfl | rfl : d = 0 ∨ d = 1 ∨ d = 2 := by omega
  all_goals rcases hj with rfl | rfl <;> simp [real_lit]

end
end QK
