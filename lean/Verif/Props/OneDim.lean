import Verif.Props.Symmetry
import Verif.Proofs.Constant
/-
C91: problems of one dimension stay so (exact arithmetic).
-/
namespace QK.Props
open QK Spec GemChallenge

theorem flat_chain {σ : Type} {Step : σ → σ → Prop} {I : σ → Prop} (h : ∀ {a b}, Step a b → I a → I b) {s : Nat → σ} :
    ∀ {k : Nat}, (∀ j < k, Step (s j) (s (j + 1))) → I (s 0) → ∀ j ≤ k, I (s j) := by
  intro k hs h0 j
  induction j with
  | zero => intro _; exact h0
  | succ j ih => intro hj; exact h (hs j (by omega)) (ih (by omega))

/-- **C91** A gas that does not move along `z` on a mesh of one or two dimensions never moves along `z`; nor along `y` on a mesh of one dimension. -/
theorem C91_planar {g : Rectilinear ℝ} {p : Int} {ws ps : List Nat} (C : Covered g.rng.dims ws ps) {i : Nat} (hi : g.rng.dims.length < i) (h3 : i ≤ 3) {gamma t : ℝ} {u : Nat → Cell → ℝ} {k : Nat}
    (hs : ∀ j < k, GasStep g p ws ps gamma t (u j) (u (j + 1))) (h0 : ∀ x, InBox (g.rng.dims ++ [(0, p)]) x → u 0 (x ++ [(i : Int)]) = 0) :
    ∀ j ≤ k, ∀ x, InBox (g.rng.dims ++ [(0, p)]) x → u j (x ++ [(i : Int)]) = 0 := by
  intro j hj
  refine (flat_chain (I := Flat g.rng.dims p 5 [] i 0) (fun {q q'} H h => ?_) hs ⟨h0, by simp⟩ j hj).value
  refine soloStep_flat C.wide C.all (by simp) (by omega) (fun _ => .inl rfl) ?_ (fun Y => gasRate_agree Y.mesh) H h
  intro u r hu hr x hx
  rw [hr x hx i (by omega)]
  refine flat_fv (by simp) (fun d hd _ => ?_) hu hx _
  have : d < g.rng.dims.length := by simpa using hd
  exact euler_steady gamma (by omega) (by omega) (by omega) (by omega)

/-- **C91** The gas of the shock tube never moves along `y` or `z`: both momenta are zero in all files. -/
theorem C91_sod {nx ny : Int} (hnx : 2 ≤ nx) (hny : 2 ≤ ny) (canOpen : Nat → Bool) (numFrames numSteps : Nat) :
    ∃ (s : Nat → Cell → ℝ) (file : Nat → List (Tok ℝ)) (r : SRes (Run ℝ) Unit), SodShockTube.run true canOpen nx ny numFrames numSteps = .ok r ∧ RunEnds canOpen numFrames file r ∧
      ∀ j ≤ numFrames, FileShowsOne [(0, nx), (0, ny)] ⟨"fluid", ["rho", "px", "py", "pz", "e"], Basis.volumeAverage⟩ (s j) (file j) ∧
        ∀ x, InBox [(0, nx), (0, ny), (0, 1)] x → s j (x ++ [2]) = 0 ∧ s j (x ++ [3]) = 0 := by
  obtain ⟨g, -, hd, ⟨s, file, h0, hs, hf, r, hr, he⟩, -⟩ := C85_sod (α := ℝ) hnx hny canOpen numFrames numSteps
  have C : Covered g.rng.dims [0] [1] := by rw [hd]; exact covered_two hnx hny
  refine ⟨fun j => s (j * numSteps), file, r, hr, he, fun j hj => ⟨by rw [← hd]; exact hf j hj, ?_⟩⟩
  have key : ∀ i : Nat, i = 2 ∨ i = 3 → ∀ x, InBox (g.rng.dims ++ [(0, 1)]) x → s (j * numSteps) (x ++ [(i : Int)]) = 0 := by
    intro i hi
    refine (flat_chain (I := Flat g.rng.dims 1 5 [1] i 0) (fun {q q'} H h => ?_) hs ⟨?_, ?_⟩ _ (Nat.mul_le_mul_right _ hj)).value
    · refine soloStep_flat C.wide C.all (by rw [hd]; simp) (by omega) (fun _ => .inl rfl) ?_ (fun Y => gasRate_agree Y.mesh) H h
      intro u r hu hr x hx
      rw [hr x hx i (by omega)]
      refine flat_fv (by simp) (fun d hd' hn => ?_) hu hx _
      have : d < 2 := by rw [hd] at hd'; simpa using hd'
      simp only [List.mem_singleton] at hn
      exact euler_steady _ (by omega) (by omega) (by omega) (by omega)
    · intro x hx
      rw [h0 x hx i (by omega)]
      unfold jumpState
      rw [if_neg (by omega), if_neg (by omega)]
      simp [real_lit]
    · intro d hd' t
      obtain rfl : d = 1 := by simpa using hd'
      refine uniformOn_iff.1 ?_ t
      intro x t hx hy j hj
      rw [h0 _ hx _ hj, h0 _ hy _ hj, centre_moved (by decide)]
  intro x hx
  exact ⟨key 2 (.inl rfl) x (by rw [hd]; exact hx), key 3 (.inr rfl) x (by rw [hd]; exact hx)⟩

/-- **C91** The wave stays transverse: in all files the electric field along `z` is 0 and the magnetic field along `z` is 1. -/
theorem C91_wave {nx ny nz : Int} (hnx : 2 ≤ nx) (hny : 2 ≤ ny) (hnz : 2 ≤ nz) (canOpen : Nat → Bool) (numFrames numSteps : Nat) :
    ∃ (s : Nat → Cell → ℝ) (file : Nat → List (Tok ℝ)) (r : SRes (Run ℝ) Unit), Wave1D.run true canOpen nx ny nz numFrames numSteps = .ok r ∧ RunEnds canOpen numFrames file r ∧
      ∀ j ≤ numFrames, FileShowsOne [(0, nx), (0, ny), (0, nz)] ⟨"field", ["Ex", "Ey", "Ez", "Bx", "By", "Bz"], Basis.volumeAverage⟩ (s j) (file j) ∧
        ∀ x, InBox [(0, nx), (0, ny), (0, nz), (0, 1)] x → s j (x ++ [2]) = 0 ∧ s j (x ++ [5]) = 1 := by
  obtain ⟨g, -, hd, ⟨s, file, h0, hs, hf, r, hr, he⟩, -⟩ := C86_wave (α := ℝ) hnx hny hnz canOpen numFrames numSteps
  have C : Covered g.rng.dims [] [0, 1, 2] := by rw [hd]; exact covered_three hnx hny hnz
  refine ⟨fun j => s (j * numSteps), file, r, hr, he, fun j hj => ⟨by rw [← hd]; exact hf j hj, ?_⟩⟩
  have key : ∀ (i : Nat) (a : ℝ), (i = 2 ∧ a = 0 ∨ i = 5 ∧ a = 1) → ∀ x, InBox (g.rng.dims ++ [(0, 1)]) x → s (j * numSteps) (x ++ [(i : Int)]) = a := by
    intro i a hi
    refine (flat_chain (I := Flat g.rng.dims 1 6 [0, 1] i a) (fun {q q'} H h => ?_) hs ⟨?_, ?_⟩ _ (Nat.mul_le_mul_right _ hj)).value
    · refine soloStep_flat C.wide C.all (by rw [hd]; simp) (by omega) (fun _ => .inr rfl) ?_ (fun Y => lightRate_agree Y.mesh) H h
      intro u r hu hr x hx
      rw [hr x hx i (by omega)]
      refine flat_fv (fun d hd' => by simp at hd'; omega) (fun d hd' hn => ?_) hu hx _
      have : d < 3 := by rw [hd] at hd'; simpa using hd'
      simp only [List.mem_cons, List.not_mem_nil, or_false, not_or] at hn
      exact ⟨0, fun L R _ _ => maxwell_normal _ (by omega) (by omega) L R⟩
    · intro x hx
      rw [h0 x hx i (by omega)]
      rcases hi with ⟨rfl, rfl⟩ | ⟨rfl, rfl⟩ <;> simp [waveComponents, real_lit, real_ofInt]
    · intro d hd' t
      refine uniformOn_iff.1 ?_ t
      intro x t hx hy j hj
      rw [h0 _ hx _ hj, h0 _ hy _ hj, centre_moved (by simp at hd'; omega)]
  intro x hx
  exact ⟨key 2 0 (.inl ⟨rfl, rfl⟩) x (by rw [hd]; exact hx), key 5 1 (.inr ⟨rfl, rfl⟩) x (by rw [hd]; exact hx)⟩

/-- A plasma step on a mesh of one dimension leaves the first component of the magnetic field alone. -/
theorem plasmaStep_bx {P : Plasma ℝ} {g : Rectilinear ℝ} {p : Int} {ws ps : List Nat} (h1 : g.rng.dims.length = 1) {t : ℝ} {q q' : State ℝ} (H : PlasmaStep P g p ws ps t q q') :
    ∀ x, InBox (g.rng.dims ++ [(0, p)]) x → q'.f (x ++ [3]) = q.f (x ++ [3]) := by
  intro x hx
  have fill : ∀ {u u' : Cell → ℝ}, Filled g.rng.dims [(0, p), (0, 6)] ws isWallField ps u u' → u' (x ++ [3]) = u (x ++ [3]) := by
    intro u u' F
    refine F.inside _ ?_
    rw [show g.rng.dims ++ [((0 : Int), p), (0, 6)] = (g.rng.dims ++ [((0 : Int), p)]) ++ [(0, 6)] by simp]
    exact (inBox_snoc hx.length_eq).2 ⟨hx, by decide, by decide⟩
  have rate : ∀ {c : ℝ} {fl : List (ℝ × (Cell → ℝ))} {w r : Cell → ℝ}, FieldRate g.rng.dims p g.dxAt c fl w r → r (x ++ [3]) = 0 := by
    rintro c fl w r ⟨r0, h, A⟩
    rw [A.rest _ (fun y k _ h1 h2 => snoc_ne (by omega))]
    have := h x hx 3 (by decide)
    rw [show (((3 : Nat) : Int)) = 3 from rfl] at this
    rw [this, fvUpdate_add, h1]
    have z := fun L R => maxwell_normal c (d := 0) (j := 3) (by decide) (.inr rfl) L R
    simp only [show List.range (min 1 3) = [0] from rfl, List.map_cons, List.map_nil, List.sum_cons, List.sum_nil]
    unfold faceFlux
    rw [z, z]
    simp [real_lit]
  obtain ⟨q0, r0, q1, q1', r1, q2, q2', r2, H0, H1, H2⟩ := H
  have e0 := fill H0.fill_f
  have e1 : q1.f (x ++ [3]) = q.f (x ++ [3]) := by rw [H0.next_f, rate H0.rate_f, e0, rkStage_fixed]
  have e2 : q2.f (x ++ [3]) = q.f (x ++ [3]) := by rw [H1.next_f, rate H1.rate_f, fill H1.fill_f, e0, e1, rkStage_fixed]
  rw [H2.next_f, rate H2.rate_f, fill H2.fill_f, e0, e2, rkStage_fixed]

/-- **C91** In the plasma programs of one dimension the magnetic field along the dimension never changes, as div B = 0 requires: in the two-fluid shock tube it is 3/4 everywhere
in all files, in the current sheet it is 0. -/
theorem C91_field {nx : Int} (hnx : 2 ≤ nx) (canOpen : Nat → Bool) (numFrames numSteps : Nat) :
    (∃ (P : Plasma ℝ) (s : Nat → State ℝ) (file : Nat → List (Tok ℝ)) (r : SRes (Run ℝ) Unit), BrioPlasma P ∧ TwoFluidBrioWu.run true canOpen nx numFrames numSteps = .ok r ∧
      RunEnds canOpen numFrames file r ∧ ∀ j ≤ numFrames, FileShows [(0, nx)] P (s j) (file j) ∧ ∀ x, InBox [(0, nx), (0, 1)] x → (s j).f (x ++ [3]) = 3 / 4) ∧
    ∃ (P : Plasma ℝ) (s : Nat → State ℝ) (file : Nat → List (Tok ℝ)) (r : SRes (Run ℝ) Unit), GemPlasma P ∧ HarrisCurrentSheet.run true canOpen nx numFrames numSteps = .ok r ∧
      RunEnds canOpen numFrames file r ∧ ∀ j ≤ numFrames, FileShows [(0, nx)] P (s j) (file j) ∧ ∀ x, InBox [(0, nx), (0, 1)] x → (s j).f (x ++ [3]) = 0 := by
  constructor
  · obtain ⟨g, P, m0, hP, hg, hd, hic, -, -, ⟨s, file, h0, hs, hf, r, hr, he⟩, -⟩ := C84_brio (α := ℝ) hnx canOpen numFrames numSteps
    refine ⟨P, fun j => s (j * numSteps), file, r, hP, hr, he, fun j hj => ⟨by rw [← hd]; exact hf j hj, fun x hx => ?_⟩⟩
    have hx' : InBox (g.rng.dims ++ [(0, 1)]) x := by rw [hd]; exact hx
    refine (chain_const (f := fun q : State ℝ => q.f (x ++ [3])) (fun H => plasmaStep_bx (by rw [hd]; rfl) H x hx') hs _ (Nat.mul_le_mul_right _ hj)).trans ?_
    match x, hx with
    | [i, b], hx =>
      obtain ⟨hi0, hi1, rfl⟩ : 0 ≤ i ∧ i < nx ∧ b = 0 := by simp [InBox] at hx; omega
      have := (C88_brio hnx hg hic (by have := h0.e; rwa [show P.e.at 0 = electrons.q from hP.electrons] at this)
        (by have := h0.i; rwa [show P.i.at 0 = ions.q from hP.ions] at this) (by have := h0.f; rwa [show P.f.at 0 = fields.q from hP.field] at this) hi0 hi1).2.2 3 (by decide)
      rw [show [i, 0] ++ [3] = [i, 0, ((3 : Nat) : Int)] from rfl, this]
      split_ifs <;> simp
  · obtain ⟨g, P, m0, hP, hg, hd, hic, -, -, ⟨s, file, h0, hs, hf, r, hr, he⟩, -⟩ := C84_harris (α := ℝ) hnx canOpen numFrames numSteps
    refine ⟨P, fun j => s (j * numSteps), file, r, hP, hr, he, fun j hj => ⟨by rw [← hd]; exact hf j hj, fun x hx => ?_⟩⟩
    have hx' : InBox (g.rng.dims ++ [(0, 1)]) x := by rw [hd]; exact hx
    refine (chain_const (f := fun q : State ℝ => q.f (x ++ [3])) (fun H => plasmaStep_bx (by rw [hd]; rfl) H x hx') hs _ (Nat.mul_le_mul_right _ hj)).trans ?_
    match x, hx with
    | [i, b], hx =>
      obtain ⟨hi0, hi1, rfl⟩ : 0 ≤ i ∧ i < nx ∧ b = 0 := by simp [InBox] at hx; omega
      obtain ⟨_, _, _, _, _, this⟩ := C88_harris hnx hg hic (by have := h0.e; rwa [show P.e.at 0 = electrons.q from hP.electrons] at this)
        (by have := h0.i; rwa [show P.i.at 0 = ions.q from hP.ions] at this) (by have := h0.f; rwa [show P.f.at 0 = fields.q from hP.field] at this)
      have := (this i hi0 hi1).bx
      rw [show [i, 0] ++ [3] = [i, 0, ((3 : Nat) : Int)] from rfl]
      rw [show (s 0).f [i, 0, ((3 : Nat) : Int)] = _ from this]
      simp [sheetX]

-- C91: as configured
example : ∃ (s : Nat → Cell → ℝ) (file : Nat → List (Tok ℝ)) (r : SRes (Run ℝ) Unit), Wave1D.wave1D true (fun _ => true) = .ok r ∧ RunEnds (fun _ => true) 100 file r ∧
    ∀ j ≤ 100, FileShowsOne [(0, 2), (0, 2), (0, 128)] ⟨"field", ["Ex", "Ey", "Ez", "Bx", "By", "Bz"], Basis.volumeAverage⟩ (s j) (file j) ∧
      ∀ x, InBox [(0, 2), (0, 2), (0, 128), (0, 1)] x → s j (x ++ [2]) = 0 ∧ s j (x ++ [5]) = 1 :=
  C91_wave (by decide) (by decide) (by decide) _ 100 10

-- a gas at rest on a mesh of 4 x 4 cells
example {g : Rectilinear ℝ} (hd : g.rng.dims = [(0, 4), (0, 4)]) : ∃ u : Nat → Cell → ℝ, (∀ j, GasStep g 1 [0] [1] (7 / 5) (1 / 100) (u j) (u (j + 1))) ∧
    ∀ j x, InBox [(0, 4), (0, 4), (0, 1)] x → u j (x ++ [3]) = 0 := by
  obtain ⟨u, h0, hs⟩ := (C90_exists (g := g) (p := 1) (ws := [0]) (ps := [1]) (by rw [hd]; decide) (by rw [hd]; decide) (by decide) (1 / 100)).1 (7 / 5)
    (fun x => if component x = 0 ∨ component x = 4 then 1 else 0)
  refine ⟨u, hs, fun j x hx => ?_⟩
  refine C91_planar (i := 3) (by rw [hd]; exact covered_two (by decide) (by decide)) (by rw [hd]; decide) le_rfl (fun j _ => hs j) ?_ j le_rfl x (by rw [hd]; exact hx)
  intro x _
  rw [h0]
  simp [component]

end QK.Props
