import Verif.Proofs.Constant
import Verif.Spec.Distance
/-
A uniform state at rest has no rates, in exact arithmetic.
-/
namespace QK
open Spec

section
variable {M : Box} {p : Int} {n : Nat} {ws ps : List Nat} {flip : Int → Prop} {w : Nat → ℝ}

theorem const_fill {u u' : Cell → ℝ} (F : Filled M [(0, p), (0, (n : Int))] ws flip ps u u') (h : ConstOn M p n w u) : ConstOn M p n w u' := by
  intro x hx j hj
  rw [F.inside, h x hx j hj]
  rw [show M ++ [((0 : Int), p), (0, (n : Int))] = (M ++ [((0 : Int), p)]) ++ [(0, (n : Int))] by simp]
  exact (inBox_snoc hx.length_eq).2 ⟨hx, by omega, by omega⟩

/-- Ghost cells have the values too, except components that change sign at walls and are not zero. -/
theorem const_around (hw : ∀ d < M.length, 2 ≤ hi M d - lo M d) (hc : ∀ d < M.length, d ∈ ws ∨ d ∈ ps) {u u' : Cell → ℝ} (F : Filled M [(0, p), (0, (n : Int))] ws flip ps u u') (h : ConstOn M p n w u)
    {x : Cell} (hx : InBox (M ++ [(0, p)]) x) {dim : Nat} (hd : dim < M.length) {s : Int} (h1 : -2 ≤ s) (h2 : s ≤ 2) {j : Nat} (hj : j < n) (hf : flip j → w j = 0 ∨ dim ∉ ws) :
    u' (moveBy x dim s ++ [(j : Int)]) = w j := by
  obtain ⟨b1, b2⟩ := filled_image F hx hd (hw dim hd) (hc dim hd) h1 h2 hj
  have e := h _ (image_mesh (ws := ws) hx hd (hw dim hd) h1 h2) j hj
  by_cases c : Beyond M x dim s ∧ dim ∈ ws ∧ flip j
  · rw [b1 c, e, (hf c.2.2).resolve_right (fun h => h c.2.1)]; simp
  · rw [b2 c, e]

/-- The flux of component `j` is determined by those components that ghost cells have. -/
def DeterminedFlux (n j : Nat) (K : Nat → Prop) (w : Nat → ℝ) (φ : List ℝ → List ℝ → List ℝ) : Prop :=
  ∃ F : ℝ, ∀ L R : Nat → ℝ, (∀ k < n, K k → L k = w k ∧ R k = w k) → (φ ((List.range n).map L) ((List.range n).map R)).getD j 0 = F

theorem determined_all {j : Nat} {K : Nat → Prop} (hK : ∀ k < n, K k) {φ : List ℝ → List ℝ → List ℝ} : DeterminedFlux n j K w φ := by
  refine ⟨(φ ((List.range n).map w) ((List.range n).map w)).getD j 0, fun L R h => ?_⟩
  rw [List.map_congr_left (f := L) (g := w) (fun k hk => (h k (by simpa using hk) (hK k (by simpa using hk))).1),
    List.map_congr_left (f := R) (g := w) (fun k hk => (h k (by simpa using hk) (hK k (by simpa using hk))).2)]

theorem const_fv (hw : ∀ d < M.length, 2 ≤ hi M d - lo M d) (hc : ∀ d < M.length, d ∈ ws ∨ d ∈ ps) {u u' : Cell → ℝ} (F : Filled M [(0, p), (0, (n : Int))] ws flip ps u u') (h : ConstOn M p n w u)
    {φ : Nat → List ℝ → List ℝ → List ℝ} {dims : List Nat} (hdims : ∀ d ∈ dims, d < M.length) {j : Nat} (hφ : ∀ d ∈ dims, DeterminedFlux n j (fun k => flip k → w k = 0 ∨ d ∉ ws) w (φ d))
    {x : Cell} (hx : InBox (M ++ [(0, p)]) x) (dx : Nat → ℝ) :
    fvUpdate φ n (fun x j => u' (x ++ [(j : Int)])) dx dims x j (Arith.lit 0) = 0 := by
  rw [fvUpdate_add]
  have : ∀ d ∈ dims, (faceFlux (φ d) n (fun x j => u' (x ++ [(j : Int)])) d x).getD j 0 / dx d - (faceFlux (φ d) n (fun x j => u' (x ++ [(j : Int)])) d (moveBy x d 1)).getD j 0 / dx d = 0 := by
    intro d hd
    obtain ⟨G, hG⟩ := hφ d hd
    have key : ∀ y, (∀ t : Int, -2 ≤ t → t ≤ 1 → ∀ k < n, (flip k → w k = 0 ∨ d ∉ ws) → u' (moveBy y d t ++ [(k : Int)]) = w k) →
        (faceFlux (φ d) n (fun x j => u' (x ++ [(j : Int)])) d y).getD j 0 = G := by
      intro y hy
      unfold faceFlux
      refine hG _ _ (fun k hk hf => ?_)
      have h0 := hy 0 (by decide) (by decide) k hk hf
      rw [moveBy_zero] at h0
      dsimp only
      rw [hy _ (by decide) (by decide) k hk hf, hy _ (by decide) (by decide) k hk hf, h0, hy _ (by decide) (by decide) k hk hf, recon_const]
      exact ⟨rfl, rfl⟩
    rw [key x (fun t h1 h2 k hk hf => const_around hw hc F h hx (hdims d hd) h1 (by omega) hk hf), key (moveBy x d 1) (fun t h1 h2 k hk hf => by
      rw [moveBy_moveBy]; exact const_around hw hc F h hx (hdims d hd) (by omega) (by omega) hk hf)]
    ring
  rw [List.map_congr_left this]
  simp [real_lit]

/-- Gas at rest. -/
theorem gas_rest (hw : ∀ d < M.length, 2 ≤ hi M d - lo M d) (hc : ∀ d < M.length, d ∈ ws ∨ d ∈ ps) (hm : ∀ j : Nat, isMomentum j → w j = 0 ∨ ws = []) {u u' : Cell → ℝ}
    (F : Filled M [(0, p), (0, 5)] ws isMomentum ps u u') (h : ConstOn M p 5 w u) {x : Cell} (hx : InBox (M ++ [(0, p)]) x) (dx : Nat → ℝ) (gamma : ℝ) {j : Nat} :
    fvUpdate (fun dim => fluxOf (Euler.hll gamma dim)) 5 (fun x j => u' (x ++ [(j : Int)])) dx (List.range M.length) x j (Arith.lit 0) = 0 :=
  const_fv (n := 5) hw hc F h (by simp) (fun d _ => determined_all (fun k _ hk => (hm k hk).imp id (by rintro rfl; simp))) hx dx

/-- Light: across a wall in direction 0 the sign of the first component of the magnetic field does not matter. -/
theorem light_rest (hw : ∀ d < M.length, 2 ≤ hi M d - lo M d) (hc : ∀ d < M.length, d ∈ ws ∨ d ∈ ps) (hm : ∀ j < 3, w j = 0 ∨ ws = []) (hx0 : w 3 = 0 ∨ ∀ d ∈ ws, d = 0) {u u' : Cell → ℝ}
    (F : Filled M [(0, p), (0, 6)] ws isWallField ps u u') (h : ConstOn M p 6 w u) {x : Cell} (hx : InBox (M ++ [(0, p)]) x) (dx : Nat → ℝ) (c : ℝ) {j : Nat} (hj : j < 6) :
    fvUpdate (fun dim => fluxOf (Maxwell.rusanov c dim)) 6 (fun x j => u' (x ++ [(j : Int)])) dx (List.range (min M.length 3)) x j (Arith.lit 0) = 0 := by
  refine const_fv (n := 6) hw hc F h (fun d hd => by simp at hd; omega) (fun d hd => ?_) hx dx
  have E : ∀ k < 3, w k = 0 ∨ d ∉ ws := fun k hk => (hm k hk).imp id (by rintro rfl; simp)
  by_cases hall : w 3 = 0 ∨ d ∉ ws
  · refine determined_all (fun k _ hk => ?_)
    rcases hk with hk | hk | hk | hk
    · exact E k (by omega)
    · exact E k (by omega)
    · exact E k (by omega)
    · rw [show k = 3 by omega]; exact hall
  · rw [not_or, not_not] at hall
    obtain rfl : d = 0 := (hx0.resolve_left hall.1) d hall.2
    have zero : (0 : Nat) < 3 := by decide
    by_cases hn : j = 0 ∨ j = 3
    · exact ⟨0, fun L R _ => maxwell_normal c (d := 0) (by decide) (by omega) L R⟩
    · refine ⟨(fluxOf (Maxwell.rusanov c 0) ((List.range 6).map w) ((List.range 6).map w)).getD j 0, fun L R hLR => ?_⟩
      have g : ∀ k : Nat, k < 6 → k ≠ 3 → L k = w k ∧ R k = w k := fun k hk h3 => hLR k hk (fun hf => by
        rcases hf with hf | hf | hf | hf
        · exact E k (by omega)
        · exact E k (by omega)
        · exact E k (by omega)
        · omega)
      have hl : (List.range 6).map L = [L 0, L 1, L 2, L 3, L 4, L 5] := rfl
      have hr : (List.range 6).map R = [R 0, R 1, R 2, R 3, R 4, R 5] := rfl
      have hw' : (List.range 6).map w = [w 0, w 1, w 2, w 3, w 4, w 5] := rfl
      rw [hl, hr, hw', (g 0 (by decide) (by decide)).1, (g 1 (by decide) (by decide)).1, (g 2 (by decide) (by decide)).1, (g 4 (by decide) (by decide)).1, (g 5 (by decide) (by decide)).1,
        (g 0 (by decide) (by decide)).2, (g 1 (by decide) (by decide)).2, (g 2 (by decide) (by decide)).2, (g 4 (by decide) (by decide)).2, (g 5 (by decide) (by decide)).2]
      unfold fluxOf Maxwell.rusanov
      obtain rfl | rfl | rfl | rfl : j = 1 ∨ j = 2 ∨ j = 4 ∨ j = 5 := by omega
      all_goals simp

/-- A step that starts from constant components whose rates are zero. -/
theorem soloStep_rest {Rate : (Cell → ℝ) → (Cell → ℝ) → Prop} (hr : ∀ {u u' r}, Filled M [(0, p), (0, (n : Int))] ws flip ps u u' → ConstOn M p n w u → Rate u' r → ConstOn M p n 0 r)
    {t : ℝ} {q q' : Cell → ℝ} (H : SoloStep M p n ws flip ps Rate t q q') (h : ConstOn M p n w q) : ConstOn M p n w q' := by
  have stage : ∀ {k : Nat} {q0 q q' r q1 : Cell → ℝ}, SoloStage M p n ws flip ps Rate t k q0 q q' r q1 → ConstOn M p n w q → ConstOn M p n w q0 → ConstOn M p n w q1 := by
    intro k q0 q q' r q1 S h h0 x hx j hj
    rw [S.next, h0 x hx j hj, const_fill S.fill h x hx j hj, hr S.fill h S.rates x hx j hj]
    exact rkStage_fixed _ _ _
  obtain ⟨q0, r0, q1, q1', r1, q2, q2', r2, H0, H1, H2⟩ := H
  have h0 := const_fill H0.fill h
  exact stage H2 (stage H1 (stage H0 h h0) h0) h0

theorem plasmaStep_rest {P : Plasma ℝ} (hmu : P.mults.length = 2) {g : Rectilinear ℝ} (hw : ∀ d < g.rng.dims.length, 2 ≤ hi g.rng.dims d - lo g.rng.dims d) (hc : ∀ d < g.rng.dims.length, d ∈ ws ∨ d ∈ ps)
    {we wi wf : Nat → ℝ} (he : ∀ j, 1 ≤ j → j ≤ 3 → we j = 0) (hi' : ∀ j, 1 ≤ j → j ≤ 3 → wi j = 0) (hE : ∀ j < 3, wf j = 0) (hB : wf 3 = 0 ∨ ∀ d ∈ ws, d = 0)
    {t : ℝ} {q q' : State ℝ} (H : PlasmaStep P g p ws ps t q q') (h : UniformPlasma g.rng.dims p we wi wf q) : UniformPlasma g.rng.dims p we wi wf q' := by
  have mom : ∀ {w : Nat → ℝ}, (∀ j, 1 ≤ j → j ≤ 3 → w j = 0) → ∀ j : Nat, isMomentum j → w j = 0 ∨ ws = [] := by
    intro w hw j hj
    refine .inl (hw j ?_ ?_) <;> rcases hj with h | h | h <;> omega
  have fluid : ∀ {w : Nat → ℝ} {com : ℝ} {u u' b r : Cell → ℝ}, (∀ j, 1 ≤ j → j ≤ 3 → w j = 0) → Filled g.rng.dims [(0, p), (0, 5)] ws isMomentum ps u u' → ConstOn g.rng.dims p 5 w u →
      ConstOn g.rng.dims p 6 wf b → FluidRate g.rng.dims p g.dxAt P.gamma com u' b r → ConstOn g.rng.dims p 5 0 r := by
    rintro w com u u' b r hz F hu hb ⟨r0, h0, A⟩ x hx j hj
    have z : ∀ j : Nat, j < 5 → r0 (x ++ [(j : Int)]) = 0 := fun j hj => by rw [h0 x hx j hj]; exact gas_rest hw hc (mom hz) F hu hx _ _
    have hu' := const_fill (n := 5) F hu x hx
    have hb' := hb x hx
    have u1 := hu' 1 (by decide); have u2 := hu' 2 (by decide); have u3 := hu' 3 (by decide)
    have b0 := hb' 0 (by decide); have b1 := hb' 1 (by decide); have b2 := hb' 2 (by decide)
    rw [hz _ (by decide) (by decide)] at u1 u2 u3
    rw [hE _ (by decide)] at b0 b1 b2
    push_cast at u1 u2 u3 b0 b1 b2
    obtain rfl | rfl | rfl | rfl | rfl : j = 0 ∨ j = 1 ∨ j = 2 ∨ j = 3 ∨ j = 4 := by omega
    · rw [A.rest _ (fun y k _ h1 h2 => snoc_ne (by omega))]; exact z 0 hj
    · refine (A.momX x hx).trans ?_
      rw [show r0 (x ++ [1]) = 0 from z 1 hj, u2, u3, b0]; simp
    · refine (A.momY x hx).trans ?_
      rw [show r0 (x ++ [2]) = 0 from z 2 hj, u1, u3, b1]; simp
    · refine (A.momZ x hx).trans ?_
      rw [show r0 (x ++ [3]) = 0 from z 3 hj, u1, u2, b2]; simp
    · refine (A.energy x hx).trans ?_
      rw [show r0 (x ++ [4]) = 0 from z 4 hj, u1, u2, u3]; simp
  have field : ∀ {fe fi u u' r : Cell → ℝ}, Filled g.rng.dims [(0, p), (0, 6)] ws isWallField ps u u' → ConstOn g.rng.dims p 6 wf u → ConstOn g.rng.dims p 5 we fe → ConstOn g.rng.dims p 5 wi fi →
      FieldRate g.rng.dims p g.dxAt P.c (P.mults.zip [fe, fi]) u' r → ConstOn g.rng.dims p 6 0 r := by
    rintro fe fi u u' r F hu hfe hfi ⟨r0, h0, A⟩ x hx j hj
    have z : ∀ j : Nat, j < 6 → r0 (x ++ [(j : Int)]) = 0 := fun j hj => by rw [h0 x hx j hj]; exact light_rest hw hc (fun j hj => .inl (hE j hj)) hB F hu hx _ _ hj
    by_cases c : j < 3
    · refine (A.field x j hx (by omega) (by omega)).trans ?_
      have a1 := hfe x hx (j + 1) (by omega)
      have a2 := hfi x hx (j + 1) (by omega)
      rw [he _ (by omega) (by omega)] at a1
      rw [hi' _ (by omega) (by omega)] at a2
      push_cast at a1 a2
      match hM : P.mults, hmu with
      | [m1, m2], _ => simp [z j hj, a1, a2]
    · rw [A.rest _ (fun y k _ h1 h2 => snoc_ne (by omega))]; exact z j hj
  have fills : ∀ {k : Nat} {q0 q q' r q1 : State ℝ}, PlasmaStage P g p ws ps t k q0 q q' r q1 → UniformPlasma g.rng.dims p we wi wf q → UniformPlasma g.rng.dims p we wi wf q' :=
    fun S h => ⟨const_fill (n := 5) S.fill_e h.e, const_fill (n := 5) S.fill_i h.i, const_fill (n := 6) S.fill_f h.f⟩
  have stage : ∀ {k : Nat} {q0 q q' r q1 : State ℝ}, PlasmaStage P g p ws ps t k q0 q q' r q1 → UniformPlasma g.rng.dims p we wi wf q → UniformPlasma g.rng.dims p we wi wf q0 → UniformPlasma g.rng.dims p we wi wf q1 := by
    intro k q0 q q' r q1 S h h0
    have f := fills S h
    refine ⟨fun x hx j hj => ?_, fun x hx j hj => ?_, fun x hx j hj => ?_⟩
    · rw [S.next_e, h0.e x hx j hj, f.e x hx j hj, fluid he S.fill_e h.e f.f S.rate_e x hx j hj]; exact rkStage_fixed _ _ _
    · rw [S.next_i, h0.i x hx j hj, f.i x hx j hj, fluid hi' S.fill_i h.i f.f S.rate_i x hx j hj]; exact rkStage_fixed _ _ _
    · rw [S.next_f, h0.f x hx j hj, f.f x hx j hj, field S.fill_f h.f f.e f.i S.rate_f x hx j hj]; exact rkStage_fixed _ _ _
  obtain ⟨q0, r0, q1, q1', r1, q2, q2', r2, H0, H1, H2⟩ := H
  have h0 := fills H0 h
  exact stage H2 (stage H1 (stage H0 h h0) h0) h0

end
end QK
