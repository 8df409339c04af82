import Verif.Props.Truncation
import Verif.Proofs.SecondOrder
/- Property C119, continued: second order away from extrema. -/
namespace QK.Props
open QK Spec Truncation

private theorem state_less (E B dE dB : Vec) (a : ℝ) {j : Nat} (hj : j < 6) :
    emState (fun i => E i - a * dE i) (fun i => B i - a * dB i) j = emState E B j - a * emState dE dB j := by
  interval_cases j <;> rfl

private theorem flux_less {c a : ℝ} {d : Fin 3} {E B dE dB : Vec} {j : Nat} :
    (maxwellFlux c d (fun i => E i - a * dE i) (fun i => B i - a * dB i)).getD j 0 = (maxwellFlux c d E B).getD j 0 - a * (maxwellFlux c d dE dB).getD j 0 := by
  unfold maxwellFlux cross
  match j with
  | 0 | 1 | 2 | 3 | 4 | 5 => simp; ring
  | j + 6 => simp

/-- How far the numerical rates of a smooth field without extrema nearby may be from the differential equations: second order in the cell widths; `K` bounds the second derivatives, `L` the third, `s`
is the least slope and `δ` the distance of the values in the cells from the smooth field. -/
noncomputable def secondOrder (g : Rectilinear ℝ) (m : Nat) (K L s δ : ℝ) : ℝ :=
  ((List.range m).map fun d => 2 * (L / 6 * g.dxAt d ^ 3 + 4 * K ^ 2 / s * g.dxAt d ^ 3 + 18 * δ + 2 / 10 ^ 12) / g.dxAt d + L / 6 * g.dxAt d ^ 2).sum

/-- **C119** Away from extrema the rates of change of the electromagnetic field are those of Maxwell's equations up to the square of the cell widths: within two cell widths of the centre of the cell
each component has, in each direction, a slope of at least `s`, or does not change at all. (`C119_order` shows that this is false next to extrema.) -/
theorem C119_light_second {g : Rectilinear ℝ} {c K L s δ : ℝ} {E B : (Nat → ℝ) → Vec} {dE dB ddE ddB : Fin 3 → (Nat → ℝ) → Vec} {u r : Cell → ℝ} {p : Int} {x : Cell}
    (hR : LightRate g.rng.dims p g.dxAt c u r) (hx : InBox (g.rng.dims ++ [(0, p)]) x) (hw : ∀ d < min g.rng.dims.length 3, 0 < g.dxAt d)
    (hE : ∀ d i : Fin 3, SmoothIn d K (fun p => E p i) (fun p => dE d p i)) (hB : ∀ d i : Fin 3, SmoothIn d K (fun p => B p i) (fun p => dB d p i))
    (hE' : ∀ d i : Fin 3, SmoothIn d L (fun p => dE d p i) (fun p => ddE d p i)) (hB' : ∀ d i : Fin 3, SmoothIn d L (fun p => dB d p i) (fun p => ddB d p i))
    (h0 : 0 < s) (hδ : ∀ d < min g.rng.dims.length 3, 4 * δ ≤ s * g.dxAt d) (he : ∀ d < min g.rng.dims.length 3, 2 / 10 ^ 12 ≤ s * g.dxAt d)
    (vE : ∀ d i : Fin 3, Sloped d s (2 * g.dxAt d) (fun p => E p i) (fun p => dE d p i) (centre g x))
    (vB : ∀ d i : Fin 3, Sloped d s (2 * g.dxAt d) (fun p => B p i) (fun p => dB d p i) (centre g x))
    (flat : ∀ d : Fin 3, g.rng.dims.length ≤ d → dE d (centre g x) = 0 ∧ dB d (centre g x) = 0)
    (hu : Samples g (min g.rng.dims.length 3) 6 (fun p => emState (E p) (B p)) δ (fun x j => u (x ++ [(j : Int)])) x)
    (hz : NoZero (min g.rng.dims.length 3) 6 (fun x j => u (x ++ [(j : Int)])) x) (i : Fin 3) :
    |r (x ++ [((i : Nat) : Int)]) - c ^ 2 * curl (fun d => dB d (centre g x)) i| ≤ (1 + |c| + c ^ 2) * secondOrder g (min g.rng.dims.length 3) K L s δ ∧
    |r (x ++ [((i : Nat) : Int) + 3]) + curl (fun d => dE d (centre g x)) i| ≤ (1 + |c| + c ^ 2) * secondOrder g (min g.rng.dims.length 3) K L s δ := by
  have hl : x.length = g.rng.dims.length + 1 := by have := hx.length_eq; simpa using this
  have z0 : (Arith.lit 0 : ℝ) = 0 := by simp [real_lit]
  have key : ∀ j : Nat, j < 6 → |r (x ++ [(j : Int)]) - ((List.range (min g.rng.dims.length 3)).map fun d => -(if h : d < 3 then (maxwellFlux c ⟨d, h⟩ (dE ⟨d, h⟩ (centre g x)) (dB ⟨d, h⟩ (centre g x))).getD j 0 else 0)).sum| ≤
      (1 + |c| + c ^ 2) * secondOrder g (min g.rng.dims.length 3) K L s δ := by
    intro j hj
    rw [hR x hx j hj, z0]
    have := update_second (g := g) (m := min g.rng.dims.length 3) (n := 6) (φ := fun dim => fluxOf (Maxwell.rusanov c dim)) (U := fun p => emState (E p) (B p))
      (D := fun d p => if h : d < 3 then emState (dE ⟨d, h⟩ p) (dB ⟨d, h⟩ p) else 0)
      (D2 := fun d p => if h : d < 3 then emState (ddE ⟨d, h⟩ p) (ddB ⟨d, h⟩ p) else 0)
      (u := fun x j => u (x ++ [(j : Int)])) (x := x) (K := K) (L := L) (s := s) (δ := δ) (C := 1 + |c| + c ^ 2) (K1 := (1 + |c| + c ^ 2) * K) (K2 := (1 + |c| + c ^ 2) * L) (K3 := fun _ => (1 + |c| + c ^ 2) * L / 8) (j := j)
      (F := fun d p => if h : d < 3 then (maxwellFlux c ⟨d, h⟩ (E p) (B p)).getD j 0 else 0)
      (dF := fun d p => if h : d < 3 then (maxwellFlux c ⟨d, h⟩ (dE ⟨d, h⟩ p) (dB ⟨d, h⟩ p)).getD j 0 else 0)
      (ddF := fun d p => if h : d < 3 then (maxwellFlux c ⟨d, h⟩ (ddE ⟨d, h⟩ p) (ddB ⟨d, h⟩ p)).getD j 0 else 0)
      (P := fun d p => if h : d < 3 then (maxwellFlux c ⟨d, h⟩ (E p) (B p)).getD j 0 - g.dxAt d ^ 2 / 8 * (maxwellFlux c ⟨d, h⟩ (ddE ⟨d, h⟩ p) (ddB ⟨d, h⟩ p)).getD j 0 else 0)
      (by omega) hw h0 hδ he ?_ ?_ ?_ hu hz ?_ ?_ ?_ ?_
    · refine this.trans (le_of_eq ?_)
      unfold secondOrder wallError
      rw [← List.sum_map_mul_left]
      refine congrArg List.sum (List.map_congr_left fun d _ => ?_)
      ring
    · intro d hd j hj
      have h3 : d < 3 := by omega
      simp only [dif_pos h3]
      interval_cases j <;> simp only [emState]
      exacts [hE ⟨d, h3⟩ 0, hE ⟨d, h3⟩ 1, hE ⟨d, h3⟩ 2, hB ⟨d, h3⟩ 0, hB ⟨d, h3⟩ 1, hB ⟨d, h3⟩ 2]
    · intro d hd j hj
      have h3 : d < 3 := by omega
      simp only [dif_pos h3]
      interval_cases j <;> simp only [emState]
      exacts [hE' ⟨d, h3⟩ 0, hE' ⟨d, h3⟩ 1, hE' ⟨d, h3⟩ 2, hB' ⟨d, h3⟩ 0, hB' ⟨d, h3⟩ 1, hB' ⟨d, h3⟩ 2]
    · intro d hd j hj
      have h3 : d < 3 := by omega
      simp only [dif_pos h3]
      interval_cases j <;> simp only [emState]
      exacts [vE ⟨d, h3⟩ 0, vE ⟨d, h3⟩ 1, vE ⟨d, h3⟩ 2, vB ⟨d, h3⟩ 0, vB ⟨d, h3⟩ 1, vB ⟨d, h3⟩ 2]
    · intro d hd
      have h3 : d < 3 := by omega
      simp only [dif_pos h3]
      exact light_smooth (d := ⟨d, h3⟩) (hE ⟨d, h3⟩) (hB ⟨d, h3⟩) hj
    · intro d hd
      have h3 : d < 3 := by omega
      simp only [dif_pos h3]
      exact light_smooth (d := ⟨d, h3⟩) (hE' ⟨d, h3⟩) (hB' ⟨d, h3⟩) hj
    · intro d hd p
      have h3 : d < 3 := by omega
      simp only [dif_pos h3]
      have l := (light_smooth (c := c) (d := ⟨d, h3⟩) (hE' ⟨d, h3⟩) (hB' ⟨d, h3⟩) hj).lip p (g.dxAt d)
      rw [abs_of_pos (hw d hd)] at l
      rw [show ∀ a b e a' b' : ℝ, a - e * b - a - (a' - e * b' - a') = -(e * (b - b')) from fun _ _ _ _ _ => by ring, abs_neg, abs_mul, abs_of_nonneg (by positivity)]
      have := mul_le_mul_of_nonneg_left l (by positivity : 0 ≤ g.dxAt d ^ 2 / 8)
      linarith
    · intro d hd p wl wr h1 h2
      have h3 : d < 3 := by omega
      simp only [dif_pos h3] at h1 h2 ⊢
      rw [← flux_less]
      refine light_near (d := ⟨d, h3⟩) (fun j hj => ?_) (fun j hj => ?_) hj
      · rw [state_less _ _ _ _ _ hj]; exact h1 j hj
      · rw [state_less _ _ _ _ _ hj]; exact h2 j hj
  have zero : ∀ j < 6, ∀ d < 3, g.rng.dims.length ≤ d → -(if h : d < 3 then (maxwellFlux c ⟨d, h⟩ (dE ⟨d, h⟩ (centre g x)) (dB ⟨d, h⟩ (centre g x))).getD j 0 else 0) = 0 := by
    intro j hj d hd hdl
    rw [dif_pos hd, (flat ⟨d, hd⟩ hdl).1, (flat ⟨d, hd⟩ hdl).2]
    unfold maxwellFlux cross
    interval_cases j <;> simp
  have tot : ∀ j : Nat, j < 6 → |r (x ++ [(j : Int)]) - (-(maxwellFlux c 0 (dE 0 (centre g x)) (dB 0 (centre g x))).getD j 0 + -(maxwellFlux c 1 (dE 1 (centre g x)) (dB 1 (centre g x))).getD j 0 +
      -(maxwellFlux c 2 (dE 2 (centre g x)) (dB 2 (centre g x))).getD j 0)| ≤ (1 + |c| + c ^ 2) * secondOrder g (min g.rng.dims.length 3) K L s δ := by
    intro j hj
    have := key j hj
    rw [sum_dirs (zero j hj)] at this
    exact this
  clear key zero
  constructor
  · have := tot i (by omega)
    refine le_trans (le_of_eq ?_) this
    congr 2
    unfold maxwellFlux curl cross unit
    fin_cases i <;> simp <;> ring
  · have := tot (i + 3) (by omega)
    push_cast at this
    refine le_trans (le_of_eq ?_) this
    rw [← sub_neg_eq_add]
    congr 2
    unfold maxwellFlux curl cross unit
    fin_cases i <;> simp <;> ring

private theorem smooth_square : SmoothIn 0 2 (fun p => p 0 ^ 2) (fun p => 2 * p 0) where
  deriv p := by
    have h : HasDerivAt (fun s : ℝ => p 0 + s) 1 0 := (hasDerivAt_id (0 : ℝ)).const_add (p 0)
    have := h.mul h
    rw [show (1 : ℝ) * (p 0 + 0) + (p 0 + 0) * 1 = 2 * p 0 by ring] at this
    refine this.congr_of_eventuallyEq (Filter.Eventually.of_forall fun s => ?_)
    simp [along, sq]
  lip p s := by
    rw [show 2 * along p 0 s 0 - 2 * p 0 = 2 * s by simp [along]; ring, abs_mul, abs_two]

private theorem smooth_twice : SmoothIn 0 0 (fun p => 2 * p 0) (fun _ => 2) where
  deriv p := by
    have h : HasDerivAt (fun s : ℝ => p 0 + s) 1 0 := (hasDerivAt_id (0 : ℝ)).const_add (p 0)
    have := h.const_mul 2
    simpa [along] using this
  lip p s := by simp

/-- Example, the field of `C119_order` away from its minimum: no hypothesis but on the position of the cell, and the error goes down with the square of the cell width. -/
theorem C119_parabola {g : Rectilinear ℝ} {n : Int} (hd : g.rng.dims = [(0, n)]) {c : ℝ} {u r : Cell → ℝ} {p : Int} {x : Cell}
    (hR : LightRate g.rng.dims p g.dxAt c u r) (hx : InBox (g.rng.dims ++ [(0, p)]) x) (hw : 2 / 10 ^ 12 ≤ g.dxAt 0) (hc : 2 * g.dxAt 0 + 1 / 2 ≤ centre g x 0)
    (hu : Samples g 1 6 (fun p => emState 0 ![0, 0, p 0 ^ 2]) 0 (fun x j => u (x ++ [(j : Int)])) x) :
    |r (x ++ [1]) - -c ^ 2 * (2 * centre g x 0)| ≤ (1 + |c| + c ^ 2) * (32 * g.dxAt 0 ^ 2 + 4 / 10 ^ 12 / g.dxAt 0) := by
  have hl : x.length = 2 := by have := hx.length_eq; rw [hd] at this; simpa using this
  have h0 : 0 < g.dxAt 0 := lt_of_lt_of_le (by norm_num) hw
  have hh : g.dxs.getD 0 0 = g.dxAt 0 := by unfold Rectilinear.dxAt; rw [real_lit]; norm_num
  have hm : min g.rng.dims.length 3 = 1 := by rw [hd]; rfl
  have k := C119_light_second (E := fun _ => 0) (B := fun p => ![0, 0, p 0 ^ 2]) (dE := fun _ _ => 0) (ddE := fun _ _ => 0) (dB := fun d p => if d = 0 then ![0, 0, 2 * p 0] else 0)
    (ddB := fun d _ => if d = 0 then ![0, 0, 2] else 0) (K := 2) (L := 0) (s := 1) (δ := 0) hR hx (by rw [hm]; intro d hd; rwa [Nat.lt_one_iff.1 hd])
    (fun d i => smooth_const _ (by norm_num) 0) ?_ (fun d i => smooth_const _ le_rfl 0) ?_ one_pos (by rw [hm]; intro d hd; rw [Nat.lt_one_iff.1 hd]; linarith)
    (by rw [hm]; intro d hd; rw [Nat.lt_one_iff.1 hd]; linarith) (fun d i => .inr fun t _ => rfl) ?_ ?_ (by rw [hm]; exact hu) ?_ 1
  · have k1 := k.1
    rw [hm] at k1
    refine le_trans (le_of_eq ?_) (k1.trans (le_of_eq ?_))
    · rw [show curl (fun d => if d = 0 then ![0, 0, 2 * centre g x 0] else 0) 1 = -(2 * centre g x 0) by simp [curl]]
      congr 1
      show r (x ++ [1]) - _ = r (x ++ [((1 : Nat) : Int)]) - _
      push_cast
      ring
    · congr 1
      unfold secondOrder
      simp only [List.range_one, List.map_cons, List.map_nil, List.sum_cons, List.sum_nil]
      field_simp
      ring
  · intro d i
    by_cases h : d = 0
    · subst h
      fin_cases i
      · exact smooth_const _ (by norm_num) 0
      · exact smooth_const _ (by norm_num) 0
      · exact smooth_square
    · simp only [if_neg h]
      have hd' : (d : Nat) ≠ 0 := fun e => h (Fin.ext e)
      fin_cases i
      · exact smooth_const _ (by norm_num) 0
      · exact smooth_const _ (by norm_num) 0
      · exact smooth_other hd' (by norm_num) fun y => y ^ 2
  · intro d i
    by_cases h : d = 0
    · subst h
      fin_cases i
      · exact smooth_const _ le_rfl 0
      · exact smooth_const _ le_rfl 0
      · exact smooth_twice
    · simp only [if_neg h]
      fin_cases i <;> exact smooth_const _ le_rfl 0
  · intro d i
    by_cases h : d = 0
    · subst h
      fin_cases i
      · exact .inr fun t _ => rfl
      · exact .inr fun t _ => rfl
      · refine .inl fun t ht => ?_
        have ht' := abs_le.1 ht
        show 1 ≤ |2 * along (centre g x) 0 t 0|
        rw [show along (centre g x) 0 t 0 = centre g x 0 + t by simp [along]]
        refine le_trans ?_ (le_abs_self _)
        have := ht'.1
        simp only [Fin.val_zero] at this
        linarith
    · have hd' : (d : Nat) ≠ 0 := fun e => h (Fin.ext e)
      refine .inr fun t _ => ?_
      have : along (centre g x) d t 0 = centre g x 0 := by simp [along, Ne.symm hd']
      fin_cases i
      · rfl
      · rfl
      · show along (centre g x) d t 0 ^ 2 = centre g x 0 ^ 2
        rw [this]
  · intro d hd'
    rw [hd] at hd'
    refine ⟨rfl, if_neg ?_⟩
    rintro rfl
    simp at hd'
  · rw [hm]
    intro d hd' s s1 s2 j hj
    obtain rfl := Nat.lt_one_iff.1 hd'
    have a := abs_eq_zero.1 (le_antisymm (hu 0 hd' s s1 (by omega) j hj) (abs_nonneg _))
    have b := abs_eq_zero.1 (le_antisymm (hu 0 hd' (s + 1) (by omega) (by omega) j hj) (abs_nonneg _))
    rw [sub_eq_zero.1 a, sub_eq_zero.1 b, centre_moveBy (by omega), centre_moveBy (by omega), hh]
    have e0 : (0 : ℝ) < 1 / 10 ^ 12 := by norm_num
    refine ne_of_gt (add_pos_of_nonneg_of_pos ?_ e0)
    interval_cases j <;> simp [emState, along]
    have l1 : (-2 : ℝ) ≤ s := by exact_mod_cast s1
    have : (centre g x 0 + s * g.dxAt 0) ≥ 1 / 2 := by nlinarith
    nlinarith

end QK.Props
