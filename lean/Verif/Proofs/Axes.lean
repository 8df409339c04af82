import Verif.Spec.Axes
import Verif.Proofs.Stencil
/-
Helper lemmas for C125: stencils, fluxes and rates under new names of the axes.
-/
namespace QK
open Spec

section
variable {M N : Box} {p : Int} {π σ : Nat → Nat}

theorem Spec.Renamed.lo (Y : Renamed π M N) {d : Nat} (hd : d < M.length) : Spec.lo N (π d) = Spec.lo M d := by
  unfold Spec.lo
  rw [Y.bounds d hd]

theorem Spec.Renamed.hi (Y : Renamed π M N) {d : Nat} (hd : d < M.length) : Spec.hi N (π d) = Spec.hi M d := by
  unfold Spec.hi
  rw [Y.bounds d hd]

theorem Spec.Renamed.mem (Y : Renamed π M N) {ws : List Nat} {d : Nat} : π d ∈ ws.map π ↔ d ∈ ws := by
  constructor
  · intro h
    obtain ⟨e, he, h⟩ := List.mem_map.1 h
    rwa [← Y.inj _ _ h]
  · exact fun h => List.mem_map.2 ⟨d, h, rfl⟩

theorem Spec.Renamed.perm (Y : Renamed π M N) : ((List.range M.length).map π).Perm (List.range M.length) := by
  refine List.Subperm.perm_of_length_le (List.subperm_of_subset ?_ ?_) (by simp)
  · exact List.Nodup.map (fun a b h => Y.inj a b h) List.nodup_range
  · intro d hd
    obtain ⟨e, he, rfl⟩ := List.mem_map.1 hd
    exact List.mem_range.2 (Y.maps e (List.mem_range.1 he))

theorem Spec.SameCell.move (Y : Renamed π M N) {x y : Cell} (h : SameCell π M N p x y) {d : Nat} (hd : d < M.length) {s : Int}
    (h1 : Spec.lo M d ≤ x.getD d 0 + s) (h2 : x.getD d 0 + s < Spec.hi M d) : SameCell π M N p (moveBy x d s) (moveBy y (π d) s) := by
  have hπ := Y.maps d hd
  have hx : x.length = M.length + 1 := by rw [h.left.length_eq]; simp
  have hy : y.length = M.length + 1 := by rw [h.right.length_eq]; simp [Y.length]
  refine ⟨?_, ?_, ?_, ?_⟩
  · exact inBox_moved h.left (by simp; omega) (by rw [lo_append hd]; exact h1) (by rw [hi_append hd]; exact h2)
  · have hπ' : π d < N.length := by rw [Y.length]; exact hπ
    exact inBox_moved h.right (by simp; omega) (by rw [lo_append hπ', Y.lo hd, h.coords d hd]; exact h1) (by rw [hi_append hπ', Y.hi hd, h.coords d hd]; exact h2)
  · intro e he
    rw [moveBy_getD (by omega), moveBy_getD (by omega), h.coords e he]
    by_cases c : e = d
    · rw [if_pos c, if_pos (by rw [c])]
    · rw [if_neg c, if_neg (fun h => c (Y.inj _ _ h))]
  · rw [moveBy_getD (by omega), moveBy_getD (by omega), if_neg (by omega), if_neg (by omega), h.point]

theorem Spec.SameCell.image (Y : Renamed π M N) {ws : List Nat} {x y : Cell} (h : SameCell π M N p x y) {d : Nat} (hd : d < M.length)
    (hw : 2 ≤ Spec.hi M d - Spec.lo M d) {s : Int} (h1 : -2 ≤ s) (h2 : s ≤ 2) :
    SameCell π M N p (image M ws x d s) (image N (ws.map π) y (π d) s) := by
  have hb := ((inBox_iff _ x).1 h.left).2 d (by simp; omega)
  rw [lo_append hd, hi_append hd] at hb
  unfold QK.image
  rw [Y.lo hd, Y.hi hd, h.coords d hd, show decide (π d ∈ ws.map π) = decide (d ∈ ws) from decide_eq_decide.2 Y.mem]
  refine h.move Y hd ?_ ?_ <;>
  · unfold imageShift
    split_ifs <;> omega

variable {α : Type} [Arith α]

/-- Two fields agree on the stencils of the same cells. -/
def AgreeTurned (π σ : Nat → Nat) (M N : Box) (p : Int) (n : Nat) (u v : Cell → α) : Prop :=
  ∀ ⦃x y⦄, SameCell π M N p x y → ∀ ⦃d : Nat⦄, d < M.length → ∀ ⦃s : Int⦄, -2 ≤ s → s ≤ 2 → ∀ ⦃j : Nat⦄, j < n →
    v (moveBy y (π d) s ++ [(σ j : Int)]) = u (moveBy x d s ++ [(j : Int)])

variable {n : Nat}

theorem filled_turned (Y : Renamed π M N) {ws ps : List Nat} {flip : Int → Prop} (hσ : ∀ j < n, σ j < n) (hf : ∀ d ∈ ws, ∀ j : Nat, j < n → (flip (σ j : Nat) ↔ flip (j : Nat)))
    (hw : ∀ d < M.length, 2 ≤ Spec.hi M d - Spec.lo M d) (hc : ∀ d < M.length, d ∈ ws ∨ d ∈ ps) {u u' v v' : Cell → α}
    (F : Filled M [(0, p), (0, (n : Int))] ws flip ps u u') (G : Filled N [(0, p), (0, (n : Int))] (ws.map π) flip (ps.map π) v v')
    (h : RenamedOn π σ M N p n u v) : AgreeTurned π σ M N p n u' v' ∧ RenamedOn π σ M N p n u' v' := by
  constructor
  · intro x y hR d hd s h1 h2 j hj
    have hπ : π d < N.length := by rw [Y.length]; exact Y.maps d hd
    obtain ⟨a1, a2⟩ := filled_image F hR.left hd (hw d hd) (hc d hd) h1 h2 hj
    obtain ⟨b1, b2⟩ := filled_image G hR.right hπ (by rw [Y.lo hd, Y.hi hd]; exact hw d hd) ((hc d hd).imp Y.mem.2 Y.mem.2) h1 h2 (hσ j hj)
    have e := h _ _ (hR.image Y (ws := ws) hd (hw d hd) h1 h2) j hj
    have hB : Beyond N y (π d) s ↔ Beyond M x d s := by
      unfold Beyond
      rw [Y.lo hd, Y.hi hd, hR.coords d hd]
    have key : (Beyond N y (π d) s ∧ π d ∈ ws.map π ∧ flip (σ j : Nat)) ↔ (Beyond M x d s ∧ d ∈ ws ∧ flip (j : Nat)) := by
      rw [hB, Y.mem]
      exact and_congr_right fun _ => and_congr_right fun c => hf d c j hj
    by_cases c : Beyond M x d s ∧ d ∈ ws ∧ flip (j : Nat)
    · rw [a1 c, b1 (key.2 c), e]
    · rw [a2 c, b2 (fun h => c (key.1 h)), e]
  · intro x y hR j hj
    have inb : ∀ {B : Box} {x : Cell} {j : Nat}, j < n → InBox (B ++ [(0, p)]) x → InBox (B ++ [((0 : Int), p), (0, (n : Int))]) (x ++ [(j : Int)]) := by
      intro B x j hj hx
      rw [show B ++ [((0 : Int), p), (0, (n : Int))] = (B ++ [((0 : Int), p)]) ++ [(0, (n : Int))] by simp]
      exact (inBox_snoc hx.length_eq).2 ⟨hx, by omega, by omega⟩
    rw [F.inside _ (inb hj hR.left), G.inside _ (inb (hσ j hj) hR.right), h _ _ hR j hj]

theorem rk_turned {k : Nat} {t : α} {u0 u r v w0 w s z : Cell → α} (h0 : RenamedOn π σ M N p n u0 w0) (h : RenamedOn π σ M N p n u w) (hr : RenamedOn π σ M N p n r s)
    (e : ∀ x, v x = rkStage k t (u0 x) (u x) (r x)) (e' : ∀ x, z x = rkStage k t (w0 x) (w x) (s x)) : RenamedOn π σ M N p n v z := by
  intro x y hR j hj
  rw [e, e', h0 _ _ hR j hj, h _ _ hR j hj, hr _ _ hR j hj]

theorem soloStep_turned (Y : Renamed π M N) {ws ps : List Nat} {flip : Int → Prop} (hσ : ∀ j < n, σ j < n) (hf : ∀ d ∈ ws, ∀ j : Nat, j < n → (flip (σ j : Nat) ↔ flip (j : Nat)))
    (hw : ∀ d < M.length, 2 ≤ Spec.hi M d - Spec.lo M d) (hc : ∀ d < M.length, d ∈ ws ∨ d ∈ ps) {Rate Rate' : (Cell → α) → (Cell → α) → Prop}
    (hr : ∀ {u v r r' : Cell → α}, AgreeTurned π σ M N p n u v → Rate u r → Rate' v r' → RenamedOn π σ M N p n r r')
    {t : α} {q q' v v' : Cell → α} (H : SoloStep M p n ws flip ps Rate t q q') (K : SoloStep N p n (ws.map π) flip (ps.map π) Rate' t v v')
    (h : RenamedOn π σ M N p n q v) : RenamedOn π σ M N p n q' v' := by
  obtain ⟨q0, r0, q1, q1', r1, q2, q2', r2, H0, H1, H2⟩ := H
  obtain ⟨v0, s0, v1, v1', s1, v2, v2', s2, K0, K1, K2⟩ := K
  have a0 := filled_turned Y hσ hf hw hc H0.fill K0.fill h
  have b0 : RenamedOn π σ M N p n q1 v1 := rk_turned a0.2 a0.2 (hr a0.1 H0.rates K0.rates) H0.next K0.next
  have a1 := filled_turned Y hσ hf hw hc H1.fill K1.fill b0
  have b1 : RenamedOn π σ M N p n q2 v2 := rk_turned a0.2 a1.2 (hr a1.1 H1.rates K1.rates) H1.next K1.next
  have a2 := filled_turned Y hσ hf hw hc H2.fill K2.fill b1
  exact rk_turned a0.2 a2.2 (hr a2.1 H2.rates K2.rates) H2.next K2.next

end

/-! ### Fluxes -/

section
variable {M N : Box} {p : Int} {π σ : Nat → Nat} {n : Nat}

theorem fvUpdate_sum (φ : Nat → List ℝ → List ℝ → List ℝ) (n : Nat) (u : Cell → Nat → ℝ) (dx : Nat → ℝ) (x : Cell) (j : Nat) : ∀ (dims : List Nat) (r : ℝ),
    fvUpdate φ n u dx dims x j r = r + (dims.map fun d => (faceFlux (φ d) n u d x).getD j 0 / dx d - (faceFlux (φ d) n u d (moveBy x d 1)).getD j 0 / dx d).sum
  | [], r => by simp [fvUpdate]
  | d :: ds, r => by
    have ih := fvUpdate_sum φ n u dx x j ds (r + (faceFlux (φ d) n u d x).getD j 0 / dx d - (faceFlux (φ d) n u d (moveBy x d 1)).getD j 0 / dx d)
    unfold fvUpdate at ih ⊢
    rw [List.foldl_cons, List.map_cons, List.sum_cons]
    rw [show (Arith.lit 0 : ℝ) = 0 by simp [real_lit]] at ih ⊢
    rw [ih]
    ring

/-- The flux function of the renamed direction is the flux function of the direction, on renamed components. -/
def FluxTurned (π σ : Nat → Nat) (n : Nat) (φ : Nat → List ℝ → List ℝ → List ℝ) (d : Nat) : Prop :=
  ∀ l r l' r' : Nat → ℝ, (∀ j < n, l' (σ j) = l j) → (∀ j < n, r' (σ j) = r j) → ∀ j < n,
    (φ (π d) ((List.range n).map l') ((List.range n).map r')).getD (σ j) 0 = (φ d ((List.range n).map l) ((List.range n).map r)).getD j 0

theorem faceFlux_turned {φ : Nat → List ℝ → List ℝ → List ℝ} {d : Nat} (hφ : FluxTurned π σ n φ d) {u v : Cell → Nat → ℝ} {x y : Cell}
    (h : ∀ t : Int, -2 ≤ t → t ≤ 1 → ∀ j < n, v (moveBy y (π d) t) (σ j) = u (moveBy x d t) j) {j : Nat} (hj : j < n) :
    (faceFlux (φ (π d)) n v (π d) y).getD (σ j) 0 = (faceFlux (φ d) n u d x).getD j 0 := by
  unfold faceFlux
  have e : ∀ j < n, FV.recon (v (moveBy y (π d) (-2)) (σ j)) (v (moveBy y (π d) (-1)) (σ j)) (v y (σ j)) (v (moveBy y (π d) 1) (σ j)) =
      FV.recon (u (moveBy x d (-2)) j) (u (moveBy x d (-1)) j) (u x j) (u (moveBy x d 1) j) := by
    intro j hj
    have h0 := h 0 (by decide) (by decide) j hj
    rw [moveBy_zero, moveBy_zero] at h0
    rw [h _ (by decide) (by decide) j hj, h _ (by decide) (by decide) j hj, h0, h _ (by decide) (by decide) j hj]
  exact hφ _ _ _ _ (fun j hj => congrArg Prod.fst (e j hj)) (fun j hj => congrArg Prod.snd (e j hj)) j hj

theorem fvUpdate_turned (Y : Renamed π M N) {φ : Nat → List ℝ → List ℝ → List ℝ} (hφ : ∀ d < M.length, FluxTurned π σ n φ d) {dx dy : Nat → ℝ}
    (hdx : ∀ d < M.length, dy (π d) = dx d) {u v : Cell → ℝ} (h : AgreeTurned π σ M N p n u v) {x y : Cell} (hR : SameCell π M N p x y) {j : Nat} (hj : j < n) (r : ℝ) :
    fvUpdate φ n (fun x j => v (x ++ [(j : Int)])) dy (List.range N.length) y (σ j) r = fvUpdate φ n (fun x j => u (x ++ [(j : Int)])) dx (List.range M.length) x j r := by
  rw [fvUpdate_sum, fvUpdate_sum, Y.length]
  congr 1
  rw [← (Y.perm.map _).sum_eq, List.map_map]
  refine congrArg List.sum (List.map_congr_left fun d hd => ?_)
  have hd := List.mem_range.1 hd
  have e1 := faceFlux_turned (hφ d hd) (u := fun x j => u (x ++ [(j : Int)])) (v := fun x j => v (x ++ [(j : Int)])) (x := x) (y := y)
    (fun t h1 h2 j hj => h hR hd h1 (by omega) hj) hj
  have e2 := faceFlux_turned (hφ d hd) (u := fun x j => u (x ++ [(j : Int)])) (v := fun x j => v (x ++ [(j : Int)])) (x := moveBy x d 1) (y := moveBy y (π d) 1)
    (fun t h1 h2 j hj => by
      show v (moveBy (moveBy y (π d) 1) (π d) t ++ [(σ j : Int)]) = u (moveBy (moveBy x d 1) d t ++ [(j : Int)])
      rw [moveBy_moveBy, moveBy_moveBy]
      exact h hR hd (by omega) (by omega) hj) hj
  show _ / dy (π d) - _ / dy (π d) = _ / dx d - _ / dx d
  rw [e1, e2, hdx d hd]

theorem Spec.Renamed.values (Y : Renamed π M N) : ∃ a b c : Nat, π 0 = a ∧ π 1 = b ∧ π 2 = c ∧ a < 3 ∧ b < 3 ∧ c < 3 ∧ a ≠ b ∧ a ≠ c ∧ b ≠ c := by
  have h3 := Y.three
  have lt : ∀ d < 3, π d < 3 := by
    intro d hd
    by_cases c : d < M.length
    · have := Y.maps d c; omega
    · rw [Y.stay d (by omega)]; exact hd
  exact ⟨_, _, _, rfl, rfl, rfl, lt 0 (by decide), lt 1 (by decide), lt 2 (by decide), fun h => by have := Y.inj _ _ h; omega, fun h => by have := Y.inj _ _ h; omega,
    fun h => by have := Y.inj _ _ h; omega⟩

/-- The physical flux along axis `d`, component by component. -/
noncomputable def physical (p : ℝ) (d : Nat) (f : Nat → ℝ) (j : Nat) : ℝ :=
  if j = 0 then f (d + 1) else if j = 4 then (f 4 + p) * (f (d + 1) / f 0) else if j = d + 1 then f j * (f (d + 1) / f 0) + p else f j * (f (d + 1) / f 0)

theorem hll_component (gamma : ℝ) {d : Nat} (hd : d < 3) (f g : Nat → ℝ) {j : Nat} (hj : j < 5) {p q : ℝ} (hp : Euler.pOf gamma (f 0) (f 1) (f 2) (f 3) (f 4) = p)
    (hq : Euler.pOf gamma (g 0) (g 1) (g 2) (g 3) (g 4) = q) :
    (fluxOf (Euler.hll gamma (d : Int)) ((List.range 5).map f) ((List.range 5).map g)).getD j 0 =
      Euler.combine (f (d + 1) / f 0 - Arith.sqrt (gamma * p / f 0)) (g (d + 1) / g 0 + Arith.sqrt (gamma * q / g 0)) (physical p d f j) (physical q d g j) (f j) (g j) := by
  have F := Euler.hll_dim0 gamma (f 0) (f 1) (f 2) (f 3) (f 4) (g 0) (g 1) (g 2) (g 3) (g 4)
  have G := Euler.hll_dim1 gamma (f 0) (f 1) (f 2) (f 3) (f 4) (g 0) (g 1) (g 2) (g 3) (g 4)
  have H := Euler.hll_dim2 gamma (f 0) (f 1) (f 2) (f 3) (f 4) (g 0) (g 1) (g 2) (g 3) (g 4)
  rw [hp, hq] at F G H
  have e : ∀ f : Nat → ℝ, (List.range 5).map f = [f 0, f 1, f 2, f 3, f 4] := fun _ => rfl
  unfold fluxOf
  rw [e, e]
  match d, hd with
  | 0, _ => rw [F]; interval_cases j <;> simp [physical, Euler.hllWith, Euler.of5]
  | 1, _ => rw [G]; interval_cases j <;> simp [physical, Euler.hllWith, Euler.of5]
  | 2, _ => rw [H]; interval_cases j <;> simp [physical, Euler.hllWith, Euler.of5]

/-- The HLL flux treats the axes alike. -/
theorem hll_turned (Y : Renamed π M N) (gamma : ℝ) {d : Nat} (hd : d < M.length) : FluxTurned π (gasComp π) 5 (fun dim => fluxOf (Euler.hll gamma dim)) d := by
  intro l r l' r' hl hr j hj
  have hd3 : d < 3 := lt_of_lt_of_le hd Y.three
  have hπ3 : π d < 3 := lt_of_lt_of_le (Y.maps d hd) Y.three
  have sd : gasComp π (d + 1) = π d + 1 := by
    unfold gasComp
    rw [if_pos (by omega), Nat.add_sub_cancel]
  have P : ∀ (f f' : Nat → ℝ), (∀ j < 5, f' (gasComp π j) = f j) →
      Euler.pOf gamma (f' 0) (f' 1) (f' 2) (f' 3) (f' 4) = Euler.pOf gamma (f 0) (f 1) (f 2) (f 3) (f 4) := by
    intro f f' h
    obtain ⟨a, b, c, ha, hb, hc, a3, b3, c3, ab, ac, bc⟩ := Y.values
    have e0 := h 0 (by decide); have e1 := h 1 (by decide); have e2 := h 2 (by decide); have e3 := h 3 (by decide); have e4 := h 4 (by decide)
    rw [show gasComp π 0 = 0 from rfl] at e0
    rw [show gasComp π 1 = a + 1 by simp [gasComp, ha]] at e1
    rw [show gasComp π 2 = b + 1 by simp [gasComp, hb]] at e2
    rw [show gasComp π 3 = c + 1 by simp [gasComp, hc]] at e3
    rw [show gasComp π 4 = 4 from rfl] at e4
    unfold Euler.pOf
    rw [e0, e4]
    clear ha hb hc
    interval_cases a <;> interval_cases b <;> first | (exfalso; omega) | (interval_cases c <;> first | (exfalso; omega) | (simp only [Nat.zero_add, Nat.reduceAdd] at e1 e2 e3; rw [e1, e2, e3] <;> ring))
  have ph : ∀ (f f' : Nat → ℝ) (p : ℝ), (∀ j < 5, f' (gasComp π j) = f j) → physical p (π d) f' (gasComp π j) = physical p d f j := by
    intro f f' p h
    have e0 := h 0 (by decide)
    have e4 := h 4 (by decide)
    have ed := h (d + 1) (by omega)
    rw [show gasComp π 0 = 0 from rfl] at e0
    rw [show gasComp π 4 = 4 from rfl] at e4
    rw [sd] at ed
    unfold physical
    by_cases c : 1 ≤ j ∧ j ≤ 3
    · have sj : gasComp π j = π (j - 1) + 1 := by unfold gasComp; rw [if_pos c]
      have lt : π (j - 1) < 3 := by
        by_cases c' : j - 1 < M.length
        · exact lt_of_lt_of_le (Y.maps _ c') Y.three
        · rw [Y.stay _ (by omega)]; omega
      have iff : gasComp π j = π d + 1 ↔ j = d + 1 := by
        rw [sj]
        constructor
        · intro h
          have := Y.inj (j - 1) d (by omega)
          omega
        · rintro rfl; simp
      rw [if_neg (by omega), if_neg (by omega), if_neg (by omega : ¬ j = 0), if_neg (by omega : ¬ j = 4), h j hj, e0, ed]
      by_cases c2 : j = d + 1
      · rw [if_pos (iff.2 c2), if_pos c2]
      · rw [if_neg (fun h => c2 (iff.1 h)), if_neg c2]
    · obtain rfl | rfl : j = 0 ∨ j = 4 := by omega
      · simp only [show gasComp π 0 = 0 from rfl, if_true]; exact ed
      · simp only [show gasComp π 4 = 4 from rfl, if_true, e4, ed, e0]
  have sj : gasComp π j < 5 := by
    unfold gasComp
    split_ifs with c
    · by_cases c' : j - 1 < M.length
      · have := lt_of_lt_of_le (Y.maps _ c') Y.three; omega
      · rw [Y.stay _ (by omega)]; omega
    · exact hj
  have ed := hl (d + 1) (by omega)
  have ed' := hr (d + 1) (by omega)
  rw [sd] at ed ed'
  have e0 := hl 0 (by decide)
  have e0' := hr 0 (by decide)
  rw [show gasComp π 0 = 0 from rfl] at e0 e0'
  show (fluxOf (Euler.hll gamma ((π d : Nat) : Int)) _ _).getD _ 0 = (fluxOf (Euler.hll gamma (d : Int)) _ _).getD _ 0
  rw [hll_component gamma hd3 l r hj rfl rfl, hll_component gamma hπ3 l' r' sj (P l l' hl) (P r r' hr), ph l l' _ hl, ph r r' _ hr, hl j hj, hr j hj, ed, ed', e0, e0']

theorem gasComp_lt (Y : Renamed π M N) : ∀ j < 5, gasComp π j < 5 := by
  intro j hj
  unfold gasComp
  split_ifs with c
  · by_cases c' : j - 1 < M.length
    · have := lt_of_lt_of_le (Y.maps _ c') Y.three; omega
    · rw [Y.stay _ (by omega)]; omega
  · exact hj

theorem gasComp_momentum (Y : Renamed π M N) (j : Nat) (hj : j < 5) : isMomentum (gasComp π j : Nat) ↔ isMomentum (j : Nat) := by
  have := gasComp_lt Y j hj
  unfold isMomentum gasComp
  split_ifs with c
  · have lt : π (j - 1) < 3 := by
      by_cases c' : j - 1 < M.length
      · exact lt_of_lt_of_le (Y.maps _ c') Y.three
      · rw [Y.stay _ (by omega)]; omega
    constructor <;> intro _ <;> omega
  · exact Iff.rfl

theorem gasRate_turned (Y : Renamed π M N) {dx dy : Nat → ℝ} (hdx : ∀ d < M.length, dy (π d) = dx d) {gamma : ℝ} {u v r r' : Cell → ℝ} (h : AgreeTurned π (gasComp π) M N p 5 u v)
    (hr : GasRate M p dx gamma u r) (hr' : GasRate N p dy gamma v r') : RenamedOn π (gasComp π) M N p 5 r r' := by
  intro x y hR j hj
  rw [hr x hR.left j hj, hr' y hR.right _ (gasComp_lt Y j hj)]
  exact fvUpdate_turned Y (fun d hd => hll_turned Y gamma hd) hdx h hR hj _

/-- The Rusanov flux treats the three axes alike, up to the orientation. -/
theorem rusanov_turned (c : ℝ) {d : Nat} (hd : d < 3) : FluxTurned rot (fieldComp rot) 6 (fun dim => fluxOf (Maxwell.rusanov c dim)) d := by
  intro l r l' r' hl hr j hj
  have l0 : l' 1 = l 0 := hl 0 (by decide); have l1 : l' 2 = l 1 := hl 1 (by decide); have l2 : l' 0 = l 2 := hl 2 (by decide)
  have l3 : l' 4 = l 3 := hl 3 (by decide); have l4 : l' 5 = l 4 := hl 4 (by decide); have l5 : l' 3 = l 5 := hl 5 (by decide)
  have r0 : r' 1 = r 0 := hr 0 (by decide); have r1 : r' 2 = r 1 := hr 1 (by decide); have r2 : r' 0 = r 2 := hr 2 (by decide)
  have r3 : r' 4 = r 3 := hr 3 (by decide); have r4 : r' 5 = r 4 := hr 4 (by decide); have r5 : r' 3 = r 5 := hr 5 (by decide)
  have e : ∀ f : Nat → ℝ, (List.range 6).map f = [f 0, f 1, f 2, f 3, f 4, f 5] := fun _ => rfl
  rw [e, e, e, e, l0, l1, l2, l3, l4, l5, r0, r1, r2, r3, r4, r5]
  interval_cases d <;> interval_cases j <;> rfl

theorem fieldComp_lt : ∀ j < 6, fieldComp rot j < 6 := by decide

theorem lightUpdate_turned (Y : Renamed rot M N) (h3 : M.length = 3) {dx dy : Nat → ℝ} (hdx : ∀ d < M.length, dy (rot d) = dx d) {c : ℝ} {u v : Cell → ℝ} (h : AgreeTurned rot (fieldComp rot) M N p 6 u v)
    {x y : Cell} (hR : SameCell rot M N p x y) {j : Nat} (hj : j < 6) (r : ℝ) :
    fvUpdate (fun dim => fluxOf (Maxwell.rusanov c dim)) 6 (fun x j => v (x ++ [(j : Int)])) dy (List.range (min N.length 3)) y (fieldComp rot j) r =
      fvUpdate (fun dim => fluxOf (Maxwell.rusanov c dim)) 6 (fun x j => u (x ++ [(j : Int)])) dx (List.range (min M.length 3)) x j r := by
  have e1 : min N.length 3 = N.length := by rw [Y.length, h3]; rfl
  have e2 : min M.length 3 = M.length := by rw [h3]; rfl
  rw [e1, e2]
  exact fvUpdate_turned Y (fun d hd => rusanov_turned c (by omega)) hdx h hR hj r

theorem lightRate_turned (Y : Renamed rot M N) (h3 : M.length = 3) {dx dy : Nat → ℝ} (hdx : ∀ d < M.length, dy (rot d) = dx d) {c : ℝ} {u v r r' : Cell → ℝ} (h : AgreeTurned rot (fieldComp rot) M N p 6 u v)
    (hr : LightRate M p dx c u r) (hr' : LightRate N p dy c v r') : RenamedOn rot (fieldComp rot) M N p 6 r r' := by
  intro x y hR j hj
  rw [hr x hR.left j hj, hr' y hR.right _ (fieldComp_lt j hj)]
  exact lightUpdate_turned Y h3 hdx h hR hj _

theorem fluidRate_turned (Y : Renamed rot M N) {dx dy : Nat → ℝ} (hdx : ∀ d < M.length, dy (rot d) = dx d) {gamma com : ℝ} {u v w z r r' : Cell → ℝ}
    (h : AgreeTurned rot (gasComp rot) M N p 5 u v) (hb : RenamedOn rot (gasComp rot) M N p 5 u v) (hf : RenamedOn rot (fieldComp rot) M N p 6 w z)
    (hr : FluidRate M p dx gamma com u w r) (hr' : FluidRate N p dy gamma com v z r') : RenamedOn rot (gasComp rot) M N p 5 r r' := by
  obtain ⟨r0, a, L⟩ := hr
  obtain ⟨r0', a', L'⟩ := hr'
  have E := gasRate_turned Y hdx h a a'
  intro x y hR j hj
  have hx := hR.left
  have hy := hR.right
  have u0 : v (y ++ [0]) = u (x ++ [0]) := hb x y hR 0 (by decide)
  have u1 : v (y ++ [2]) = u (x ++ [1]) := hb x y hR 1 (by decide)
  have u2 : v (y ++ [3]) = u (x ++ [2]) := hb x y hR 2 (by decide)
  have u3 : v (y ++ [1]) = u (x ++ [3]) := hb x y hR 3 (by decide)
  have w0 : z (y ++ [1]) = w (x ++ [0]) := hf x y hR 0 (by decide)
  have w1 : z (y ++ [2]) = w (x ++ [1]) := hf x y hR 1 (by decide)
  have w2 : z (y ++ [0]) = w (x ++ [2]) := hf x y hR 2 (by decide)
  have w3 : z (y ++ [4]) = w (x ++ [3]) := hf x y hR 3 (by decide)
  have w4 : z (y ++ [5]) = w (x ++ [4]) := hf x y hR 4 (by decide)
  have w5 : z (y ++ [3]) = w (x ++ [5]) := hf x y hR 5 (by decide)
  have e0 : r0' (y ++ [((0 : Nat) : Int)]) = r0 (x ++ [((0 : Nat) : Int)]) := E x y hR 0 (by decide)
  have e1 : r0' (y ++ [2]) = r0 (x ++ [1]) := E x y hR 1 (by decide)
  have e2 : r0' (y ++ [3]) = r0 (x ++ [2]) := E x y hR 2 (by decide)
  have e3 : r0' (y ++ [1]) = r0 (x ++ [3]) := E x y hR 3 (by decide)
  have e4 : r0' (y ++ [4]) = r0 (x ++ [4]) := E x y hR 4 (by decide)
  have ne : ∀ {B : Box} {x : Cell}, ∀ x' (k : Int), InBox (B ++ [(0, p)]) x' → 1 ≤ k → k ≤ 4 → x ++ [((0 : Nat) : Int)] ≠ x' ++ [k] := by
    intro B x x' k _ h1 h2
    exact snoc_ne (by simp; omega)
  match j, hj with
  | 0, _ => show r' (y ++ [((0 : Nat) : Int)]) = r (x ++ [((0 : Nat) : Int)]); rw [L.rest _ ne, L'.rest _ ne, e0]
  | 1, _ => show r' (y ++ [2]) = r (x ++ [1]); rw [L.momX x hx, L'.momY y hy, e1, u0, u2, u3, w0, w5, w4]
  | 2, _ => show r' (y ++ [3]) = r (x ++ [2]); rw [L.momY x hx, L'.momZ y hy, e2, u0, u3, u1, w1, w3, w5]
  | 3, _ => show r' (y ++ [1]) = r (x ++ [3]); rw [L.momZ x hx, L'.momX y hy, e3, u0, u1, u2, w2, w4, w3]
  | 4, _ => show r' (y ++ [4]) = r (x ++ [4]); rw [L.energy x hx, L'.energy y hy, e4, u1, u2, u3, w0, w1, w2]; ring

theorem fieldRate_turned (Y : Renamed rot M N) (h3 : M.length = 3) {dx dy : Nat → ℝ} (hdx : ∀ d < M.length, dy (rot d) = dx d) {c m1 m2 : ℝ} {mults : List ℝ} {u1 u2 v1 v2 w z r r' : Cell → ℝ}
    (hm : mults = [m1, m2]) (h : AgreeTurned rot (fieldComp rot) M N p 6 w z) (h1 : RenamedOn rot (gasComp rot) M N p 5 u1 v1) (h2 : RenamedOn rot (gasComp rot) M N p 5 u2 v2)
    (hr : FieldRate M p dx c (mults.zip [u1, u2]) w r) (hr' : FieldRate N p dy c (mults.zip [v1, v2]) z r') : RenamedOn rot (fieldComp rot) M N p 6 r r' := by
  subst hm
  obtain ⟨r0, a, C⟩ := hr
  obtain ⟨r0', a', C'⟩ := hr'
  have E := lightRate_turned Y h3 hdx h a a'
  intro x y hR j hj
  have e0 := E x y hR j hj
  by_cases c : j < 3
  · have lt : fieldComp rot j < 3 := by interval_cases j <;> decide
    have sj : gasComp rot (j + 1) = fieldComp rot j + 1 := by interval_cases j <;> decide
    rw [C.field x j hR.left (by omega) (by omega), C'.field y (fieldComp rot j : Nat) hR.right (by omega) (by omega), e0]
    have a1 := h1 x y hR (j + 1) (by omega)
    have a2 := h2 x y hR (j + 1) (by omega)
    rw [sj] at a1 a2
    push_cast at a1 a2
    simp only [List.zip_cons_cons, List.zip_nil_right, List.foldl_cons, List.foldl_nil, a1, a2]
  · have ge : 3 ≤ fieldComp rot j := by interval_cases j <;> first | omega | decide
    have ne : ∀ {B : Box} {x : Cell} {j : Nat}, 3 ≤ j → ∀ x' (k : Int), InBox (B ++ [(0, p)]) x' → 0 ≤ k → k < 3 → x ++ [(j : Int)] ≠ x' ++ [k] := by
      intro B x j hj x' k _ h1 h2
      exact snoc_ne (by omega)
    rw [C.rest _ (ne (by omega)), C'.rest _ (ne ge), e0]

theorem plasmaStage_turned {P : Plasma ℝ} {g h : Rectilinear ℝ} (Y : Renamed rot g.rng.dims h.rng.dims) (h3 : g.rng.dims.length = 3) (hdx : ∀ d < g.rng.dims.length, h.dxAt (rot d) = g.dxAt d) {ps : List Nat}
    (hw : ∀ d < g.rng.dims.length, 2 ≤ hi g.rng.dims d - lo g.rng.dims d) (hc : ∀ d < g.rng.dims.length, d ∈ ps) (hm : P.mults.length = 2) {t : ℝ} {k : Nat}
    {a0 a a' ra an b0 b b' rb bn : State ℝ} (H : PlasmaStage P g p [] ps t k a0 a a' ra an) (K : PlasmaStage P h p [] (ps.map rot) t k b0 b b' rb bn)
    (R : RenamedState rot g.rng.dims h.rng.dims p a b) :
    RenamedState rot g.rng.dims h.rng.dims p a' b' ∧ (RenamedState rot g.rng.dims h.rng.dims p a0 b0 → RenamedState rot g.rng.dims h.rng.dims p an bn) := by
  obtain ⟨m1, m2, hm⟩ : ∃ m1 m2, P.mults = [m1, m2] := by
    match h : P.mults, hm with
    | [m1, m2], _ => exact ⟨m1, m2, rfl⟩
  have hc' : ∀ d < g.rng.dims.length, d ∈ [] ∨ d ∈ ps := fun d hd => .inr (hc d hd)
  have fe := filled_turned (n := 5) Y (gasComp_lt Y) (fun _ h => absurd h (by simp)) hw hc' H.fill_e K.fill_e R.e
  have fi := filled_turned (n := 5) Y (gasComp_lt Y) (fun _ h => absurd h (by simp)) hw hc' H.fill_i K.fill_i R.i
  have ff := filled_turned (n := 6) Y fieldComp_lt (fun _ h => absurd h (by simp)) hw hc' H.fill_f K.fill_f R.f
  refine ⟨⟨fe.2, fi.2, ff.2⟩, fun h0 => ⟨?_, ?_, ?_⟩⟩
  · exact rk_turned h0.e fe.2 (fluidRate_turned Y hdx fe.1 fe.2 ff.2 H.rate_e K.rate_e) H.next_e K.next_e
  · exact rk_turned h0.i fi.2 (fluidRate_turned Y hdx fi.1 fi.2 ff.2 H.rate_i K.rate_i) H.next_i K.next_i
  · exact rk_turned h0.f ff.2 (fieldRate_turned Y h3 hdx hm ff.1 fe.2 fi.2 H.rate_f K.rate_f) H.next_f K.next_f

theorem plasmaStep_turned {P : Plasma ℝ} {g h : Rectilinear ℝ} (Y : Renamed rot g.rng.dims h.rng.dims) (h3 : g.rng.dims.length = 3) (hdx : ∀ d < g.rng.dims.length, h.dxAt (rot d) = g.dxAt d) {ps : List Nat}
    (hw : ∀ d < g.rng.dims.length, 2 ≤ hi g.rng.dims d - lo g.rng.dims d) (hc : ∀ d < g.rng.dims.length, d ∈ ps) (hm : P.mults.length = 2) {t : ℝ} {q q' v v' : State ℝ}
    (H : PlasmaStep P g p [] ps t q q') (K : PlasmaStep P h p [] (ps.map rot) t v v') (R : RenamedState rot g.rng.dims h.rng.dims p q v) :
    RenamedState rot g.rng.dims h.rng.dims p q' v' := by
  obtain ⟨q0, r0, q1, q1', r1, q2, q2', r2, H0, H1, H2⟩ := H
  obtain ⟨v0, s0, v1, v1', s1, v2, v2', s2, K0, K1, K2⟩ := K
  have a0 := plasmaStage_turned Y h3 hdx hw hc hm H0 K0 R
  have a1 := plasmaStage_turned Y h3 hdx hw hc hm H1 K1 (a0.2 a0.1)
  exact (plasmaStage_turned Y h3 hdx hw hc hm H2 K2 (a1.2 a0.1)).2 a0.1

end
end QK
